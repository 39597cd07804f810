import Verif.Model.DeepToRgba
import Verif.Model.Shuffle
/-!
# 10- to 14-bit YCbCr to 30-bit RGB

/repo/src/yuv_p16_ar30.rs and /repo/src/yuv_nv_p10_to_ar30.rs.  The planar converter has no vector
code.
-/
namespace Verif

/-- One pixel: samples to native order (`ne`), kernel, rounding shift `q`, packing and store.
/repo/src/yuv_p16_ar30.rs:98-116 (also 118-126, 130-150, 179-197) and
/repo/src/yuv_nv_p10_to_ar30.rs:212-241 (also 243-257, 260-292, 334-359).  The results of `q` are not
negative, so they are passed to `pack` as natural numbers. -/
def putAr30 (q : Int → Outcome Int) (ne : Nat → Nat) (t : InvCoef) (c : ChromaRange) (e : HostOrder)
    (o : ByteOrder30) (l : Rgb30) (y u v : Nat) (px : Buf) : Outcome Buf := do
  let (r, g, b) ← decodeRow q t c.biasY c.biasUv (ne y) (ne u) (ne v)
  store4 e (l.pack e o r.toNat g.toNat b.toNat) px

/-- Models the closure `process_halved_chroma_row`, /repo/src/yuv_p16_ar30.rs:85-152: `put0` is the
first pixel of a pair, `put1` the second pixel and the last pixel of a row of odd width. -/
def ar30HalvedRow (w : Nat) (put0 put1 : Nat → Nat → Nat → Buf → Outcome Buf) (y u v row : Buf) :
    Outcome Buf :=
  rowPairs false w 4 0 (min4 (row.length / (2 * 4)) (y.length / 2) u.length v.length)
    (fun i c => do
      let y0 ← idx y (2 * i)
      let u0 ← idx u i
      let v0 ← idx v i
      put0 y0 u0 v0 c)
    (fun i c => do
      let y1 ← idx y (2 * i + 1)
      let u0 ← idx u i
      let v0 ← idx v i
      put1 y1 u0 v0 c)
    (fun c => do
      let y0 ← lastElem y
      let u0 ← lastElem u
      let v0 ← lastElem v
      put1 y0 u0 v0 c) row

/-- A row with its slices, /repo/src/yuv_p16_ar30.rs:219-224 (also 250-255 and 274-279). -/
def ar30HalvedSlice (w : Nat) (put0 put1 : Nat → Nat → Nat → Buf → Outcome Buf) (yr ur vr row : Buf) :
    Outcome Buf := do
  let y ← slice yr 0 w
  let u ← slice ur 0 (ceil2 w)
  let v ← slice vr 0 (ceil2 w)
  onPrefix row (w * 4) (ar30HalvedRow w put0 put1 y u v)

/-- The 4:4:4 branch, /repo/src/yuv_p16_ar30.rs:154-199: neither the rows of the planes nor those of
the destination are cut to the width. -/
def ar30Decode444 (put : Nat → Nat → Nat → Buf → Outcome Buf) (i : Planar) (rgba : Buf)
    (stride : Nat) : Outcome Buf :=
  eachChunk stride 0
    (min4 (rgba.length / stride) (i.y.length / i.yStride) (i.u.length / i.uStride)
      (i.v.length / i.vStride))
    (fun r row =>
      let y := chunk i.yStride i.y r
      let u := chunk i.uStride i.u r
      let v := chunk i.vStride i.v r
      eachChunk 4 0 (min4 (row.length / 4) y.length u.length v.length)
        (fun j c => do
          let y0 ← idx y j
          let u0 ← idx u j
          let v0 ← idx v j
          put y0 u0 v0 c) row) rgba

/-- The 4:2:2 branch, /repo/src/yuv_p16_ar30.rs:200-225. -/
def ar30Decode422 (put0 put1 : Nat → Nat → Nat → Buf → Outcome Buf) (i : Planar) (rgba : Buf)
    (stride : Nat) : Outcome Buf :=
  eachChunk stride 0
    (min4 (rgba.length / stride) (i.y.length / i.yStride) (i.u.length / i.uStride)
      (i.v.length / i.vStride))
    (fun r row =>
      ar30HalvedSlice i.width put0 put1 (chunk i.yStride i.y r) (chunk i.uStride i.u r)
        (chunk i.vStride i.v r) row) rgba

/-- The 4:2:0 branch, /repo/src/yuv_p16_ar30.rs:226-280. -/
def ar30Decode420 (put0 put1 : Nat → Nat → Nat → Buf → Outcome Buf) (i : Planar) (rgba : Buf)
    (stride : Nat) : Outcome Buf := do
  let rgba ← eachChunk (stride * 2) 0
    (min4 (rgba.length / (stride * 2)) (i.y.length / (i.yStride * 2)) (i.u.length / i.uStride)
      (i.v.length / i.vStride))
    (fun r rows =>
      let yp := chunk (i.yStride * 2) i.y r
      eachChunk stride 0 (min (rows.length / stride) (yp.length / i.yStride))
        (fun j row => ar30HalvedSlice i.width put0 put1 (chunk i.yStride yp j)
          (chunk i.uStride i.u r) (chunk i.vStride i.v r) row) rows) rgba
  if i.height % 2 = 0 then return rgba
  else do
    let u ← lastChunk i.uStride i.u
    let v ← lastChunk i.vStride i.v
    let y ← lastChunk i.yStride i.y
    onLastChunk stride (ar30HalvedSlice i.width put0 put1 y u v) rgba

/-- Models `yuv_p16_to_image_ar30`, /repo/src/yuv_p16_ar30.rs:41-287, which the
`i{0,2,4}{10,12,14}_to_{ar,ra}30` functions call with little-endian samples in the low bits.  The
first pixel of a pair is clamped at 10 bits (`AR30_DEPTH`, line 68), all others at the depth of the
image. -/
def p16ToAr30 (tg : Target) (h : HostOrder) (o : ByteOrder30) (l : Rgb30) (e : Endianness)
    (bp : BytesPacking) (d : Nat) (s : Sampling) (i : Planar) (rgba : Buf) (stride : Nat)
    (rg : YuvRange) (m : Matrix) : Outcome Buf := do
  i.check tg s
  checkRgba tg rgba.length stride i.width i.height 4
  let c := getYuvRange d rg
  let t := searchInverse 14 d rg m
  let put0 := putAr30 (qrshr 14 10) (fun v => toNe e bp v (16 - d)) t c h o l
  let put1 := putAr30 (qrshr 14 d) (fun v => toNe e bp v (16 - d)) t c h o l
  match s with
  | .yuv444 => ar30Decode444 put1 i rgba stride
  | .yuv422 => ar30Decode422 put0 put1 i rgba stride
  | .yuv420 => ar30Decode420 put0 put1 i rgba stride

/-- Models `yuv_nv_p10_to_image_impl_d` and its caller, /repo/src/yuv_nv_p10_to_ar30.rs:151-432 and
434-507, which the `p{010,012,210,212}_to_{ar,ra}30` functions call with UV order, little-endian
samples in the high bits and the shift `k` (14 at 10 bits, 16 at 12 bits). -/
def nvP16ToAr30 (tg : Target) (h : HostOrder) (ob : ByteOrder30) (l : Rgb30) (o : NVOrder)
    (e : Endianness) (bp : BytesPacking) (d k : Nat) (s : Sampling) (hd : RowHandlerNV)
    (i : BiPlanar) (rgba : Buf) (stride : Nat) (rg : YuvRange) (m : Matrix) : Outcome Buf := do
  i.check tg s
  checkRgba tg rgba.length stride i.width i.height 4
  let c := getYuvRange d rg
  let t := searchInverse 14 d rg m
  let put := putAr30 (qrshr k d) (fun v => toNe e bp v (16 - d)) t c h ob l
  nvDeepFrame true 4 o put hd s i rgba stride

end Verif
