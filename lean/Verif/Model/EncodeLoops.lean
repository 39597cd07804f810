import Verif.Model.Checks
/-!
# Loop shapes shared by the encoders

Every encoder walks the destination planes together, pixel by pixel (4:4:4), pixel pair by pixel
pair (4:2:2) or block by block (4:2:0), after an optional vector prefix.  The shapes are factored
out here; each converter passes the arithmetic of one pixel, pair or block (`PixelBlocks`).
-/
namespace Verif

/-- `body` for `m` successive indices, the first being `j`. -/
def forGo {σ : Type} (body : Nat → σ → Outcome σ) : Nat → Nat → σ → Outcome σ
  | 0, _, x => .ok x
  | m + 1, j, x => do
      let x ← body j x
      forGo body m (j + 1) x

/-- A loop over the indices `s ≤ j < k` that updates a state. -/
def forRange {σ : Type} (s k : Nat) (body : Nat → σ → Outcome σ) (x : σ) : Outcome σ :=
  forGo body (k - s) s x

/-- Chunk `j` of length `n` is overwritten with `c`. -/
def setChunk (n : Nat) (l : Buf) (j : Nat) (c : Buf) : Buf :=
  l.take (j * n) ++ c ++ l.drop (j * n + n)

/-- `*l.last_mut().unwrap() = v` -/
def setLast (l : Buf) (v : Nat) : Outcome Buf :=
  if l.length = 0 then .panic else .ok (l.take (l.length - 1) ++ [v])

/-- What an encoder computes from one pixel, a horizontal pair of pixels (one chunk of two
pixels), the single last pixel of a row of odd width, a block of two pixels in each of two rows,
and the last column of a pair of rows of odd width.  The results are the luma values in row order,
then Cb and Cr. -/
structure PixelBlocks where
  one : Buf → Outcome (Nat × Nat × Nat)
  pair : Buf → Outcome (Nat × Nat × Nat × Nat)
  tail : Buf → Outcome (Nat × Nat × Nat)
  quad : Buf → Buf → Outcome (Nat × Nat × Nat × Nat × Nat × Nat)
  tail2 : Buf → Buf → Outcome (Nat × Nat × Nat × Nat)

/-! ## Planar destinations -/

/-- The vector code of one row (`WideRowForwardHandler`, /repo/src/internals.rs): luma, Cb, Cr and
RGB row to the three updated rows and the number of pixels completed.  Not modelled; see
`RowEncoder.Ok` (Verif/Spec/EncodeVector.lean). -/
abbrev RowEncoder := Buf → Buf → Buf → Buf → Outcome (Buf × Buf × Buf × Nat)
/-- The vector code of a pair of rows (`WideRowForward420Handler`). -/
abbrev RowEncoder420 := Buf → Buf → Buf → Buf → Buf → Buf → Outcome (Buf × Buf × Buf × Buf × Nat)
/-- No vector code for this target. -/
def noEnc : RowEncoder := fun y u v _ => .ok (y, u, v, 0)
/-- No vector code for this target. -/
def noEnc420 : RowEncoder420 := fun y0 y1 u v _ _ => .ok (y0, y1, u, v, 0)

/-- Models the closure `process_halved_chroma_row`, /repo/src/rgba_to_yuv.rs:693-769. -/
def encHalvedRow (w cn : Nat) (E : PixelBlocks) (hd : RowEncoder) (y u v rgba : Buf) :
    Outcome (Buf × Buf × Buf) := do
  let (y, u, v, cx) ← hd y u v rgba
  if cx = w then return (y, u, v)
  else do
    let k := min (min (min (y.length / 2) u.length) v.length) (rgba.length / (2 * cn))
    let (y, u, v) ← forRange (cx / 2) k (fun j (y, u, v) => do
      let (a, b, cb, cr) ← E.pair (chunk (2 * cn) rgba j)
      return (setChunk 2 y j [a, b], setChunk 1 u j [cb], setChunk 1 v j [cr])) (y, u, v)
    if w % 2 = 0 then return (y, u, v)
    else do
      let (a, cb, cr) ← E.tail (remainder (2 * cn) rgba)
      let y ← setLast y a
      let u ← setLast u cb
      let v ← setLast v cr
      return (y, u, v)

/-- Models the closure `process_doubled_row`, /repo/src/rgba_to_yuv.rs:771-888.  `skip`
says that the loop is skipped when the vector code has finished the row; the high bit depth
encoder (/repo/src/rgb16_to_yuv_p16.rs:608-610) does not test for that. -/
def encDoubledRow (skip : Bool) (w cn : Nat) (E : PixelBlocks) (hd : RowEncoder420)
    (y0 y1 u v rgba0 rgba1 : Buf) : Outcome (Buf × Buf × Buf × Buf) := do
  let (y0, y1, u, v, cx) ← hd y0 y1 u v rgba0 rgba1
  if skip = true ∧ cx = w then return (y0, y1, u, v)
  else do
    let k := min (min (min (min (min (y0.length / 2) (y1.length / 2)) u.length) v.length)
      (rgba0.length / (2 * cn))) (rgba1.length / (2 * cn))
    let (y0, y1, u, v) ← forRange (cx / 2) k (fun j (y0, y1, u, v) => do
      let (a, b, c, d, cb, cr) ← E.quad (chunk (2 * cn) rgba0 j) (chunk (2 * cn) rgba1 j)
      return (setChunk 2 y0 j [a, b], setChunk 2 y1 j [c, d], setChunk 1 u j [cb],
        setChunk 1 v j [cr])) (y0, y1, u, v)
    if w % 2 = 0 then return (y0, y1, u, v)
    else do
      let (a, b, cb, cr) ← E.tail2 (remainder (2 * cn) rgba0) (remainder (2 * cn) rgba1)
      let y0 ← setLast y0 a
      let y1 ← setLast y1 b
      let u ← setLast u cb
      let v ← setLast v cr
      return (y0, y1, u, v)

/-- One row of the 4:4:4 path, /repo/src/rgba_to_yuv.rs:916-951. -/
def encFullRow (w cn : Nat) (E : PixelBlocks) (hd : RowEncoder) (y u v rgba : Buf) :
    Outcome (Buf × Buf × Buf) := do
  let (y, u, v, cx) ← hd y u v rgba
  if cx = w then return (y, u, v)
  else do
    let k := min (min (min y.length u.length) v.length) (rgba.length / cn)
    forRange cx k (fun j (y, u, v) => do
      let (a, cb, cr) ← E.one (chunk cn rgba j)
      return (setChunk 1 y j [a], setChunk 1 u j [cb], setChunk 1 v j [cr])) (y, u, v)

/-- `y.chunks_exact_mut(ny).zip(u.chunks_exact_mut(nu)).zip(v.chunks_exact_mut(nv))…for_each(g)`
with `k` iterations; a chunk size of zero panics. -/
def rows3 (ny nu nv k : Nat) (g : Nat → Buf → Buf → Buf → Outcome (Buf × Buf × Buf))
    (y u v : Buf) : Outcome (Buf × Buf × Buf) :=
  if ny = 0 ∨ nu = 0 ∨ nv = 0 then .panic
  else forRange 0 k (fun r (y, u, v) => do
    let (a, b, c) ← g r (chunk ny y r) (chunk nu u r) (chunk nv v r)
    return (setChunk ny y r a, setChunk nu u r b, setChunk nv v r c)) (y, u, v)

/-- A row function applied to the leading `w` luma, `cw` chroma and `w * cn` RGB elements of its
rows, /repo/src/rgba_to_yuv.rs:972-977. -/
def onRow3 (w cw cn : Nat) (f : Buf → Buf → Buf → Buf → Outcome (Buf × Buf × Buf))
    (y u v rgba : Buf) : Outcome (Buf × Buf × Buf) := do
  let ys ← slice y 0 w
  let us ← slice u 0 cw
  let vs ← slice v 0 cw
  let rs ← slice rgba 0 (w * cn)
  let (a, b, c) ← f ys us vs rs
  return (a ++ y.drop w, b ++ u.drop cw, c ++ v.drop cw)

/-- 4:4:4, /repo/src/rgba_to_yuv.rs:897-952. -/
def encode444 (cn : Nat) (E : PixelBlocks) (hd : RowEncoder) (i : Planar) (rgba : Buf)
    (stride : Nat) : Outcome (Buf × Buf × Buf) :=
  if stride = 0 then .panic
  else rows3 i.yStride i.uStride i.vStride
    (min (min (min (i.y.length / i.yStride) (i.u.length / i.uStride)) (i.v.length / i.vStride))
      (rgba.length / stride))
    (fun r y u v => do
      let ys ← slice y 0 i.width
      let (a, b, c) ← encFullRow i.width cn E hd ys u v (chunk stride rgba r)
      return (a ++ y.drop i.width, b, c)) i.y i.u i.v

/-- 4:2:2, /repo/src/rgba_to_yuv.rs:953-979.  `sliced` says that the rows are cut to the image
width before they are handed on; the high bit depth encoder
(/repo/src/rgb16_to_yuv_p16.rs:782-784) passes whole rows. -/
def encode422 (sliced : Bool) (cn : Nat) (E : PixelBlocks) (hd : RowEncoder) (i : Planar)
    (rgba : Buf) (stride : Nat) : Outcome (Buf × Buf × Buf) :=
  if stride = 0 then .panic
  else rows3 i.yStride i.uStride i.vStride
    (min (min (min (i.y.length / i.yStride) (i.u.length / i.uStride)) (i.v.length / i.vStride))
      (rgba.length / stride))
    (fun r y u v =>
      if sliced then
        onRow3 i.width (ceil2 i.width) cn (encHalvedRow i.width cn E hd) y u v
          (chunk stride rgba r)
      else encHalvedRow i.width cn E hd y u v (chunk stride rgba r)) i.y i.u i.v

/-- The last row of a 4:2:0 image of odd height, /repo/src/rgba_to_yuv.rs:1006-1021. -/
def encLast420 (w cn : Nat) (E : PixelBlocks) (hd : RowEncoder) (yStride uStride vStride : Nat)
    (rgba : Buf) (stride : Nat) (y u v : Buf) : Outcome (Buf × Buf × Buf) :=
  if u.length / uStride = 0 ∨ v.length / vStride = 0 then .panic
  else do
    let ku := u.length / uStride - 1
    let kv := v.length / vStride - 1
    let ky := y.length / (yStride * 2) * (yStride * 2)
    let (a, b, c) ← onRow3 w (ceil2 w) cn (encHalvedRow w cn E hd) (remainder (yStride * 2) y)
      (chunk uStride u ku) (chunk vStride v kv) (remainder (stride * 2) rgba)
    return (y.take ky ++ a, setChunk uStride u ku b, setChunk vStride v kv c)

/-- 4:2:0, /repo/src/rgba_to_yuv.rs:980-1022. -/
def encode420 (skip : Bool) (cn : Nat) (E : PixelBlocks) (hd : RowEncoder) (hd2 : RowEncoder420)
    (i : Planar) (rgba : Buf) (stride : Nat) : Outcome (Buf × Buf × Buf) :=
  if stride = 0 then .panic
  else do
    let w := i.width
    let (y, u, v) ← rows3 (i.yStride * 2) i.uStride i.vStride
      (min (min (min (i.y.length / (i.yStride * 2)) (i.u.length / i.uStride))
        (i.v.length / i.vStride)) (rgba.length / (stride * 2)))
      (fun r y u v => do
        let y0 := y.take i.yStride
        let y1 := y.drop i.yStride
        let src := chunk (stride * 2) rgba r
        let ys0 ← slice y0 0 w
        let ys1 ← slice y1 0 w
        let us ← slice u 0 (ceil2 w)
        let vs ← slice v 0 (ceil2 w)
        let rs0 ← slice (src.take stride) 0 (w * cn)
        let rs1 ← slice (src.drop stride) 0 (w * cn)
        let (a, b, c, d) ← encDoubledRow skip w cn E hd2 ys0 ys1 us vs rs0 rs1
        return ((a ++ y0.drop w) ++ (b ++ y1.drop w), c ++ u.drop (ceil2 w), d ++ v.drop (ceil2 w)))
      i.y i.u i.v
    if i.height % 2 = 0 then return (y, u, v)
    else encLast420 w cn E hd i.yStride i.uStride i.vStride rgba stride y u v

/-! ## Semi-planar destinations -/

/-- The vector code of one row of a semi-planar encoder
(`WideRowForwardBiPlanarHandler`, /repo/src/internals.rs): luma, interleaved chroma, RGB row. -/
abbrev RowEncoderNV := Buf → Buf → Buf → Outcome (Buf × Buf × Nat)
/-- The vector code of a pair of rows (`WideRowForwardBiPlanar420Handler`). -/
abbrev RowEncoderNV420 := Buf → Buf → Buf → Buf → Buf → Outcome (Buf × Buf × Buf × Nat)
/-- No vector code for this target. -/
def noEncNV : RowEncoderNV := fun y uv _ => .ok (y, uv, 0)
/-- No vector code for this target. -/
def noEncNV420 : RowEncoderNV420 := fun y0 y1 uv _ _ => .ok (y0, y1, uv, 0)

/-- The chroma pair in memory order: `uv_dst[order.get_u_position()] = cb` and
`uv_dst[order.get_v_position()] = cr`, /repo/src/rgba_to_nv.rs:656-657. -/
def orderUV (o : NVOrder) (cb cr : Nat) : Buf := (([0, 0] : Buf).set o.uPos cb).set o.vPos cr

/-- `l.chunks_exact_mut(2).last().unwrap()` overwritten with `c`. -/
def setLastPair (l : Buf) (c : Buf) : Outcome Buf :=
  if l.length / 2 = 0 then .panic else .ok (setChunk 2 l (l.length / 2 - 1) c)

/-- `l.chunks_exact_mut(2).into_remainder()[0] = v` -/
def setRem (l : Buf) (v : Nat) : Outcome Buf :=
  if l.length % 2 = 0 then .panic else .ok (l.take (l.length / 2 * 2) ++ [v])

/-- Models the closure `process_halved_row`, /repo/src/rgba_to_nv.rs:614-683. -/
def nvEncHalvedRow (w cn : Nat) (o : NVOrder) (E : PixelBlocks) (hd : RowEncoderNV)
    (y uv rgba : Buf) : Outcome (Buf × Buf) := do
  let (y, uv, cx) ← hd y uv rgba
  if cx = w then return (y, uv)
  else do
    let k := min (min (y.length / 2) (uv.length / 2)) (rgba.length / (2 * cn))
    let (y, uv) ← forRange (cx / 2) k (fun j (y, uv) => do
      let (a, b, cb, cr) ← E.pair (chunk (2 * cn) rgba j)
      return (setChunk 2 y j [a, b], setChunk 2 uv j (orderUV o cb cr))) (y, uv)
    if w % 2 = 0 then return (y, uv)
    else do
      let c ← slice (remainder (2 * cn) rgba) 0 cn
      let (a, cb, cr) ← E.tail c
      let uv ← setLastPair uv (orderUV o cb cr)
      let y ← setRem y a
      return (y, uv)

/-- Stores the last luma value of the second row of a pair: `into_remainder()[0]`
(/repo/src/rgba_to_nv.rs:762-772), or, with `first`, element 0 of the whole row
(/repo/src/rgb_to_nv_p16.rs:191, 216, where the shadowed `y_dst1` is missing). -/
def setLastY1 (first : Bool) (l : Buf) (v : Nat) : Outcome Buf :=
  if first then setIdx l 0 v else setRem l v

/-- Models the closure `process_double_row`, /repo/src/rgba_to_nv.rs:685-790. -/
def nvEncDoubledRow (first : Bool) (w cn : Nat) (o : NVOrder) (E : PixelBlocks) (hd : RowEncoderNV420)
    (y0 y1 uv rgba0 rgba1 : Buf) : Outcome (Buf × Buf × Buf) := do
  let (y0, y1, uv, cx) ← hd y0 y1 uv rgba0 rgba1
  if cx = w then return (y0, y1, uv)
  else do
    let k := min (min (min (min (y0.length / 2) (y1.length / 2)) (uv.length / 2))
      (rgba0.length / (2 * cn))) (rgba1.length / (2 * cn))
    let (y0, y1, uv) ← forRange (cx / 2) k (fun j (y0, y1, uv) => do
      let (a, b, c, d, cb, cr) ← E.quad (chunk (2 * cn) rgba0 j) (chunk (2 * cn) rgba1 j)
      return (setChunk 2 y0 j [a, b], setChunk 2 y1 j [c, d], setChunk 2 uv j (orderUV o cb cr)))
      (y0, y1, uv)
    if w % 2 = 0 then return (y0, y1, uv)
    else do
      let c0 ← slice (remainder (2 * cn) rgba0) 0 cn
      let c1 ← slice (remainder (2 * cn) rgba1) 0 cn
      let (a, b, cb, cr) ← E.tail2 c0 c1
      let uv ← setLastPair uv (orderUV o cb cr)
      let y0 ← setRem y0 a
      let y1 ← setLastY1 first y1 b
      return (y0, y1, uv)

/-- One row of the 4:4:4 path, /repo/src/rgba_to_nv.rs:814-846. -/
def nvEncFullRow (w cn : Nat) (o : NVOrder) (E : PixelBlocks) (hd : RowEncoderNV)
    (y uv rgba : Buf) : Outcome (Buf × Buf) := do
  let (y, uv, cx) ← hd y uv rgba
  if cx = w then return (y, uv)
  else do
    let k := min (min y.length (uv.length / 2)) (rgba.length / cn)
    forRange cx k (fun j (y, uv) => do
      let (a, cb, cr) ← E.one (chunk cn rgba j)
      return (setChunk 1 y j [a], setChunk 2 uv j (orderUV o cb cr))) (y, uv)

/-- Two planes walked together, `k` iterations. -/
def rows2 (ny nc k : Nat) (g : Nat → Buf → Buf → Outcome (Buf × Buf)) (y c : Buf) :
    Outcome (Buf × Buf) :=
  if ny = 0 ∨ nc = 0 then .panic
  else forRange 0 k (fun r (y, c) => do
    let (a, b) ← g r (chunk ny y r) (chunk nc c r)
    return (setChunk ny y r a, setChunk nc c r b)) (y, c)

/-- A row function applied to the leading `w` luma, `cw` chroma and `w * cn` RGB elements of its
rows, /repo/src/rgba_to_nv.rs:865-869. -/
def onRow2 (w cw cn : Nat) (f : Buf → Buf → Buf → Outcome (Buf × Buf)) (y uv rgba : Buf) :
    Outcome (Buf × Buf) := do
  let ys ← slice y 0 w
  let us ← slice uv 0 cw
  let rs ← slice rgba 0 (w * cn)
  let (a, b) ← f ys us rs
  return (a ++ y.drop w, b ++ uv.drop cw)

/-- 4:4:4, /repo/src/rgba_to_nv.rs:797-847. -/
def nvEncode444 (cn : Nat) (o : NVOrder) (E : PixelBlocks) (hd : RowEncoderNV) (i : BiPlanar)
    (rgba : Buf) (stride : Nat) : Outcome (Buf × Buf) :=
  if stride = 0 then .panic
  else rows2 i.yStride i.uvStride
    (min (min (i.y.length / i.yStride) (i.uv.length / i.uvStride)) (rgba.length / stride))
    (fun r y uv => do
      let ys ← slice y 0 i.width
      let (a, b) ← nvEncFullRow i.width cn o E hd ys uv (chunk stride rgba r)
      return (a ++ y.drop i.width, b)) i.y i.uv

/-- 4:2:2, /repo/src/rgba_to_nv.rs:848-870. -/
def nvEncode422 (cn : Nat) (o : NVOrder) (E : PixelBlocks) (hd : RowEncoderNV) (i : BiPlanar)
    (rgba : Buf) (stride : Nat) : Outcome (Buf × Buf) :=
  if stride = 0 then .panic
  else rows2 i.yStride i.uvStride
    (min (min (i.y.length / i.yStride) (i.uv.length / i.uvStride)) (rgba.length / stride))
    (fun r y uv => onRow2 i.width (ceil2 i.width * 2) cn (nvEncHalvedRow i.width cn o E hd) y uv
      (chunk stride rgba r)) i.y i.uv

/-- The last row of a 4:2:0 image of odd height, /repo/src/rgba_to_nv.rs:900-914. -/
def nvEncLast420 (w cn : Nat) (o : NVOrder) (E : PixelBlocks) (hd : RowEncoderNV)
    (yStride uvStride : Nat) (rgba : Buf) (stride : Nat) (y uv : Buf) : Outcome (Buf × Buf) :=
  if uv.length / uvStride = 0 then .panic
  else do
    let kc := uv.length / uvStride - 1
    let ky := y.length / (yStride * 2) * (yStride * 2)
    let (a, b) ← onRow2 w (ceil2 w * 2) cn (nvEncHalvedRow w cn o E hd) (remainder (yStride * 2) y)
      (chunk uvStride uv kc) (remainder (stride * 2) rgba)
    return (y.take ky ++ a, setChunk uvStride uv kc b)

/-- 4:2:0, /repo/src/rgba_to_nv.rs:871-915. -/
def nvEncode420 (first : Bool) (cn : Nat) (o : NVOrder) (E : PixelBlocks) (hd : RowEncoderNV)
    (hd2 : RowEncoderNV420) (i : BiPlanar) (rgba : Buf) (stride : Nat) : Outcome (Buf × Buf) :=
  if stride = 0 then .panic
  else do
    let w := i.width
    let (y, uv) ← rows2 (i.yStride * 2) i.uvStride
      (min (min (i.y.length / (i.yStride * 2)) (i.uv.length / i.uvStride))
        (rgba.length / (stride * 2)))
      (fun r y uv => do
        let y0 := y.take i.yStride
        let y1 := y.drop i.yStride
        let src := chunk (stride * 2) rgba r
        let ys0 ← slice y0 0 w
        let ys1 ← slice y1 0 w
        let us ← slice uv 0 (ceil2 w * 2)
        let rs0 ← slice (src.take stride) 0 (w * cn)
        let rs1 ← slice (src.drop stride) 0 (w * cn)
        let (a, b, c) ← nvEncDoubledRow first w cn o E hd2 ys0 ys1 us rs0 rs1
        return ((a ++ y0.drop w) ++ (b ++ y1.drop w), c ++ uv.drop (ceil2 w * 2)))
      i.y i.uv
    if i.height % 2 = 0 then return (y, uv)
    else nvEncLast420 w cn o E hd i.yStride i.uvStride rgba stride y uv

end Verif
