import Verif.Model.DeepToRgba
import Verif.Model.EncodeLoops
/-!
# Packed 4:2:2 (YUYV, UYVY, YVYU, VYUY)

/repo/src/yuv_to_yuy2.rs (8- and 16-bit), /repo/src/yuy2_to_yuv.rs,
/repo/src/yuy2_to_yuv_p16.rs, /repo/src/yuy2_to_rgb.rs and
/repo/src/yuy2_to_rgb_p16.rs.
-/
namespace Verif

/-- `yuy2_width`: elements of one packed row, /repo/src/yuy2_to_rgb.rs:101-105,
/repo/src/yuv_to_yuy2.rs:173-177, /repo/src/yuy2_to_yuv.rs:113-117. -/
def yuy2Width (w : Nat) : Nat := if w % 2 = 0 then 2 * w else 2 * (w + 1)

/-! ## Packed 4:2:2 to RGB -/

/-- The vector code of one row of the RGB decoders: packed row and RGB row to the RGB row and the
number of pixels completed.  Not modelled; see `YuyRgbHandler.Ok` (Verif/Spec/Yuy2.lean). -/
abbrev YuyRgbHandler := Buf → Buf → Outcome (Buf × Nat)
/-- No vector code. -/
def noYuyRgb : YuyRgbHandler := fun _ row => .ok (row, 0)

/-- One pixel of a quad: luma at position `yp` of the quad, the shared chroma,
/repo/src/yuy2_to_rgb.rs:159-203. -/
def yuyPixel (t : Yuy2) (put : Nat → Nat → Nat → Buf → Outcome Buf) (yp : Nat) (q px : Buf) :
    Outcome Buf := do
  let y ← idx q yp
  let u ← idx q t.uPos
  let v ← idx q t.vPos
  put y u v px

/-- One row, /repo/src/yuy2_to_rgb.rs:107-231 and /repo/src/yuy2_to_rgb_p16.rs:104-172: the vector
prefix, the pairs, the last pixel of a row of odd width from the last quad. -/
def yuyRgbRow (w cn : Nat) (t : Yuy2) (put : Nat → Nat → Nat → Buf → Outcome Buf)
    (hd : YuyRgbHandler) (yuy row : Buf) : Outcome Buf := do
  let (row, cx) ← hd yuy row
  rowPairsRem false w cn cx (min (row.length / (2 * cn)) (yuy.length / 4))
    (fun j c => yuyPixel t put t.y0Pos (chunk 4 yuy j) c)
    (fun j c => yuyPixel t put t.y1Pos (chunk 4 yuy j) c)
    (fun c => do
      let q ← lastChunk 4 yuy
      yuyPixel t put t.y0Pos q c) row

/-- All rows: `rgb.chunks_exact_mut(rgb_stride).zip(yuy.chunks_exact(yuy_stride))`, both rows cut
to the image, /repo/src/yuy2_to_rgb.rs:84-109. -/
def yuyRgbFrame (cn : Nat) (t : Yuy2) (put : Nat → Nat → Nat → Buf → Outcome Buf)
    (hd : YuyRgbHandler) (i : Packed) (rgb : Buf) (stride : Nat) : Outcome Buf :=
  if i.yuyStride = 0 then .panic
  else eachChunk stride 0 (min (rgb.length / stride) (i.yuy.length / i.yuyStride))
    (fun r row => do
      let yuy ← slice (chunk i.yuyStride i.yuy r) 0 (yuy2Width i.width)
      onPrefix row (i.width * cn) (yuyRgbRow i.width cn t put hd yuy)) rgb

/-- Models `yuy2_to_rgb_impl`, /repo/src/yuy2_to_rgb.rs:44-234: 8-bit, coefficients of precision 6
computed from the matrix (the stored tables are not consulted). -/
def yuy2ToRgb (tg : Target) (t : Yuy2) (ch : Channels) (hd : YuyRgbHandler) (i : Packed)
    (rgb : Buf) (stride : Nat) (rg : YuvRange) (m : Matrix) : Outcome Buf := do
  i.check tg
  checkRgba tg rgb.length stride i.width i.height ch.count
  let put := putDeep (qrshr 6 8) asU8 id (computedInverse 6 8 rg m) (getYuvRange 8 rg) ch 255
  yuyRgbFrame ch.count t put hd i rgb stride

/-- Models `yuy2_to_rgb_impl_p16`, /repo/src/yuy2_to_rgb_p16.rs:40-175: depth `d`, precision 13, no
vector code. -/
def yuy2ToRgb16 (tg : Target) (t : Yuy2) (ch : Channels) (d : Nat) (i : Packed) (rgb : Buf)
    (stride : Nat) (rg : YuvRange) (m : Matrix) : Outcome Buf := do
  i.check tg
  checkRgba tg rgb.length stride i.width i.height ch.count
  let put := putDeep (fun v => qrshrN 13 v (2 ^ d - 1)) asU16 id (computedInverse 13 d rg m)
    (getYuvRange d rg) ch (2 ^ d - 1)
  yuyRgbFrame ch.count t put noYuyRgb i rgb stride

/-! ## Planar to packed 4:2:2 -/

/-- The vector code of one row of the packers: packed, luma, Cb and Cr row to the packed row and
the number of pixels completed (`ProcessWideRow`, /repo/src/yuv_to_yuy2.rs:73-154). -/
abbrev YuyPacker := Buf → Buf → Buf → Buf → Outcome (Buf × Nat)
/-- No vector code: `ProcessWideRow<u16>`, /repo/src/yuv_to_yuy2.rs:144-154. -/
def noPack : YuyPacker := fun yuy _ _ _ => .ok (yuy, 0)

/-- Models `AveragesIntensity::averages`, /repo/src/yuv_to_yuy2.rs:55-71; the sum is formed in a
wider type, so it cannot overflow. -/
def averages (a b : Nat) : Nat := (a + b + 1) / 2

/-- The stores to one quad, /repo/src/yuv_to_yuy2.rs:248-251. -/
def putQuad (t : Yuy2) (y0 y1 u v : Nat) (c : Buf) : Outcome Buf := do
  let c ← setIdx c t.y0Pos y0
  let c ← setIdx c t.y1Pos y1
  let c ← setIdx c t.uPos u
  setIdx c t.vPos v

/-- How a packer reads the chroma of pair `j` from a chroma row, and how many pairs it finds. -/
structure ChromaFetch where
  at' : Buf → Nat → Outcome Nat
  count : Buf → Nat

/-- 4:4:4: the average of two samples, /repo/src/yuv_to_yuy2.rs:241-251. -/
def fetch444 : ChromaFetch where
  at' := fun l j => do
    let a ← idx l (2 * j)
    let b ← idx l (2 * j + 1)
    return averages a b
  count := fun l => l.length / 2
/-- 4:2:2 and 4:2:0: the sample itself, /repo/src/yuv_to_yuy2.rs:327-338. -/
def fetch422 : ChromaFetch where
  at' := fun l j => idx l j
  count := fun l => l.length

/-- The scalar part of a row, starting at pair `s`, /repo/src/yuv_to_yuy2.rs:241-264. -/
def packRest (w : Nat) (t : Yuy2) (cf : ChromaFetch) (s : Nat) (yuy y u v : Buf) : Outcome Buf := do
  let yuy ← eachChunk 4 s (min4 (yuy.length / 4) (y.length / 2) (cf.count u) (cf.count v))
    (fun j c => do
      let a ← idx y (2 * j)
      let b ← idx y (2 * j + 1)
      let cb ← cf.at' u j
      let cr ← cf.at' v j
      putQuad t a b cb cr c) yuy
  if w % 2 = 0 then return yuy
  else onLastChunk 4 (fun c => do
    let a ← lastElem y
    let cb ← lastElem u
    let cr ← lastElem v
    putQuad t a 0 cb cr c) yuy

/-- One row: the vector prefix, then the scalar part.  `sk` turns the number of pixels the vector
code reports into the number of pairs to skip: `processed / 2` for 4:2:2 and 4:2:0
(/repo/src/yuv_to_yuy2.rs:332), but `processed` itself for 4:4:4 (line 246). -/
def packRow (w : Nat) (t : Yuy2) (cf : ChromaFetch) (sk : Nat → Nat) (hd : YuyPacker)
    (yuy y u v : Buf) : Outcome Buf := do
  let (yuy, cx) ← hd yuy y u v
  packRest w t cf (sk cx) yuy y u v

/-- The slices of one row, /repo/src/yuv_to_yuy2.rs:229-232 and 314-317. -/
def packSlice (w cw : Nat) (t : Yuy2) (cf : ChromaFetch) (sk : Nat → Nat) (hd : YuyPacker)
    (y u v row : Buf) : Outcome Buf := do
  let ys ← slice y 0 w
  let us ← slice u 0 cw
  let vs ← slice v 0 cw
  onPrefix row (yuy2Width w) (fun yuy => packRow w t cf sk hd yuy ys us vs)

/-- 4:4:4 and 4:2:2, /repo/src/yuv_to_yuy2.rs:181-265 and 266-351. -/
def packRows (cw : Nat) (t : Yuy2) (cf : ChromaFetch) (sk : Nat → Nat) (hd : YuyPacker)
    (i : Planar) (yuy : Buf) (stride : Nat) : Outcome Buf :=
  if i.yStride = 0 ∨ i.uStride = 0 ∨ i.vStride = 0 then .panic
  else eachChunk stride 0
    (min4 (yuy.length / stride) (i.y.length / i.yStride) (i.u.length / i.uStride)
      (i.v.length / i.vStride))
    (fun r row => packSlice i.width cw t cf sk hd (chunk i.yStride i.y r) (chunk i.uStride i.u r)
      (chunk i.vStride i.v r) row) yuy

/-- 4:2:0, /repo/src/yuv_to_yuy2.rs:352-502: pairs of rows, then the last row of an image of odd
height, where the vector code sees the rows before they are cut. -/
def pack420 (t : Yuy2) (hd : YuyPacker) (i : Planar) (yuy : Buf) (stride : Nat) : Outcome Buf := do
  let w := i.width
  if i.yStride = 0 ∨ i.uStride = 0 ∨ i.vStride = 0 then .panic
  else do
    let yuy ← eachChunk (stride * 2) 0
      (min4 (yuy.length / (stride * 2)) (i.y.length / (i.yStride * 2)) (i.u.length / i.uStride)
        (i.v.length / i.vStride))
      (fun r rows =>
        let yp := chunk (i.yStride * 2) i.y r
        eachChunk stride 0 (min (rows.length / stride) (yp.length / i.yStride))
          (fun j row => packSlice w (ceil2 w) t fetch422 (· / 2) hd (chunk i.yStride yp j)
            (chunk i.uStride i.u r) (chunk i.vStride i.v r) row) rows) yuy
    if i.height % 2 = 0 then return yuy
    else do
      let u ← lastChunk i.uStride i.u
      let v ← lastChunk i.vStride i.v
      let y := remainder (i.yStride * 2) i.y
      onRemainder (stride * 2) (fun rem => do
        let (rem, cx) ← hd rem y u v
        let ys ← slice y 0 w
        let us ← slice u 0 (ceil2 w)
        let vs ← slice v 0 (ceil2 w)
        onPrefix rem (yuy2Width w) (fun yuy => packRest w t fetch422 (cx / 2) yuy ys us vs)) yuy

/-- Models `yuv_to_yuy2_impl`, /repo/src/yuv_to_yuy2.rs:156-507: the planar image, the packed
destination `d`; the result is the new packed buffer. -/
def yuvToYuy2 (tg : Target) (s : Sampling) (t : Yuy2) (hd : YuyPacker) (i : Planar) (d : Packed) :
    Outcome Buf := do
  i.check tg s
  d.check tg
  if i.width ≠ d.width ∨ i.height ≠ d.height then .err .imagesSizesNotMatch
  else match s with
    | .yuv444 => packRows i.width t fetch444 id hd i d.yuy d.yuyStride
    | .yuv422 => packRows (ceil2 i.width) t fetch422 (· / 2) hd i d.yuy d.yuyStride
    | .yuv420 => pack420 t hd i d.yuy d.yuyStride

/-! ## Packed 4:2:2 to planar -/

/-- The vector code of one row of the unpackers: luma, Cb, Cr and packed row to the three rows and
the number of pixels completed (`process_wide_row`, /repo/src/yuy2_to_yuv.rs:61-104). -/
abbrev YuyUnpacker := Buf → Buf → Buf → Buf → Outcome (Buf × Buf × Buf × Nat)
/-- No vector code. -/
def noUnpack : YuyUnpacker := fun y u v _ => .ok (y, u, v, 0)

/-- One pair of luma samples, /repo/src/yuy2_to_yuv.rs:160-161. -/
def unpackY (t : Yuy2) (q : Buf) : Outcome (Nat × Nat) := do
  let a ← idx q t.y0Pos
  let b ← idx q t.y1Pos
  return (a, b)
/-- The chroma of a quad, /repo/src/yuy2_to_yuv.rs:162-163. -/
def unpackC (t : Yuy2) (q : Buf) : Outcome (Nat × Nat) := do
  let a ← idx q t.uPos
  let b ← idx q t.vPos
  return (a, b)

/-- One 4:4:4 or 4:2:2 row, /repo/src/yuy2_to_yuv.rs:145-182 and 209-244
(/repo/src/yuy2_to_yuv_p16.rs:89-123 and 150-182): `n` is the number of chroma samples per pair,
all of which get the chroma of the quad.  The loop skips as many *pairs* as the vector code
reports *pixels*. -/
def unpackRow (n w : Nat) (t : Yuy2) (hd : YuyUnpacker) (y u v yuy : Buf) :
    Outcome (Buf × Buf × Buf) := do
  let (y, u, v, cx) ← hd y u v yuy
  let (y, u, v) ← forRange cx
    (min4 (y.length / 2) (u.length / n) (v.length / n) (yuy.length / 4))
    (fun j (y, u, v) => do
      let (a, b) ← unpackY t (chunk 4 yuy j)
      let (cb, cr) ← unpackC t (chunk 4 yuy j)
      return (setChunk 2 y j [a, b], setChunk n u j (List.replicate n cb),
        setChunk n v j (List.replicate n cr))) (y, u, v)
  if w % 2 = 0 then return (y, u, v)
  else do
    let q ← lastChunk 4 yuy
    let a ← idx q t.y0Pos
    let (cb, cr) ← unpackC t q
    let y ← setLast y a
    let u ← setLast u cb
    let v ← setLast v cr
    return (y, u, v)

/-- 4:4:4 and 4:2:2, /repo/src/yuy2_to_yuv.rs:119-182 and 183-244: the luma, Cb and packed rows
are cut to the image, the Cr row is not (the code cuts the Cb row twice, lines 148-149 and
212-213). -/
def unpackRows (n cw : Nat) (t : Yuy2) (hd : YuyUnpacker) (i : Planar) (d : Packed) :
    Outcome (Buf × Buf × Buf) :=
  if d.yuyStride = 0 then .panic
  else rows3 i.yStride i.uStride i.vStride
    (min4 (i.y.length / i.yStride) (i.u.length / i.uStride) (i.v.length / i.vStride)
      (d.yuy.length / d.yuyStride))
    (fun r y u v => do
      let yuy ← slice (chunk d.yuyStride d.yuy r) 0 (yuy2Width d.width)
      let ys ← slice y 0 i.width
      let us ← slice u 0 cw
      let (a, b, c) ← unpackRow n i.width t hd ys us v yuy
      return (a ++ y.drop i.width, b ++ u.drop cw, c)) i.y i.u i.v

/-- One row of a 4:2:0 pair, /repo/src/yuy2_to_yuv.rs:272-317: chroma is stored for the first row
only.  `outer` is the pair of packed rows, whose last quad the code reads for the last column of a
row of odd width. -/
def unpackRow420 (w : Nat) (t : Yuy2) (hd : YuyUnpacker) (chroma : Bool) (outer y u v yuy : Buf) :
    Outcome (Buf × Buf × Buf) := do
  let (y, u, v, cx) ← hd y u v yuy
  let (y, u, v) ← forRange cx
    (min4 (y.length / 2) u.length v.length (yuy.length / 4))
    (fun j (y, u, v) => do
      let (a, b) ← unpackY t (chunk 4 yuy j)
      let y := setChunk 2 y j [a, b]
      if chroma then do
        let (cb, cr) ← unpackC t (chunk 4 yuy j)
        return (y, setChunk 1 u j [cb], setChunk 1 v j [cr])
      else return (y, u, v)) (y, u, v)
  if w % 2 = 0 then return (y, u, v)
  else do
    let q ← lastChunk 4 outer
    let a ← idx q t.y0Pos
    let y ← setLast y a
    if chroma then do
      let (cb, cr) ← unpackC t q
      let u ← setLast u cb
      let v ← setLast v cr
      return (y, u, v)
    else return (y, u, v)

/-- 4:2:0, /repo/src/yuy2_to_yuv.rs:245-319: pairs of rows; there is no code for the last row of
an image of odd height. -/
def unpack420 (t : Yuy2) (hd : YuyUnpacker) (i : Planar) (d : Packed) :
    Outcome (Buf × Buf × Buf) :=
  let w := i.width
  if d.yuyStride = 0 then .panic
  else rows3 (i.yStride * 2) i.uStride i.vStride
    (min4 (i.y.length / (i.yStride * 2)) (i.u.length / i.uStride) (i.v.length / i.vStride)
      (d.yuy.length / (d.yuyStride * 2)))
    (fun r y u v => do
      let outer := chunk (d.yuyStride * 2) d.yuy r
      let one := fun (chroma : Bool) (yuy y u v : Buf) => do
        let yuy ← slice yuy 0 (yuy2Width d.width)
        let ys ← slice y 0 w
        let us ← slice u 0 (ceil2 w)
        let (a, b, c) ← unpackRow420 w t hd chroma outer ys us v yuy
        return (a ++ y.drop w, b ++ u.drop (ceil2 w), c)
      let (y0, u, v) ← one true (outer.take d.yuyStride) (y.take i.yStride) u v
      let (y1, u, v) ← one false (outer.drop d.yuyStride) (y.drop i.yStride) u v
      return (y0 ++ y1, u, v)) i.y i.u i.v

/-- Models `yuy2_to_yuv_impl`, /repo/src/yuy2_to_yuv.rs:41-322, and (with `noUnpack`)
the 16-bit `yuy2_to_yuv_impl`, /repo/src/yuy2_to_yuv_p16.rs:36-257. -/
def yuy2ToYuv (tg : Target) (s : Sampling) (t : Yuy2) (hd : YuyUnpacker) (i : Planar) (d : Packed) :
    Outcome (Buf × Buf × Buf) := do
  i.check tg s
  d.check tg
  if i.width ≠ d.width ∨ i.height ≠ d.height then .err .imagesSizesNotMatch
  else match s with
    | .yuv444 => unpackRows 2 i.width t hd i d
    | .yuv422 => unpackRows 1 (ceil2 i.width) t hd i d
    | .yuv420 => unpack420 t hd i d

end Verif
