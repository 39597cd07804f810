import Verif.Model.RgbaToYuv
import Verif.Model.PixelMap
/-!
# Sharp YUV: /repo/src/sharpyuv/sharp_rgba_to_yuv.rs

Chroma is computed from pixels interpolated in linear light.  The two lookup tables
(`linear_map_table`, 256 entries of 16 bits, and `gamma_map_table`, 65536 entries of 8 bits) are
filled with `f32::powf` (/repo/src/sharpyuv/sharp_rgba_to_yuv.rs:334-348), whose last bit is not
specified; the model takes them as parameters, so the theorems hold for every transfer function.
-/
namespace Verif

/-- The tables of /repo/src/sharpyuv/sharp_rgba_to_yuv.rs:334-335: linearization and gamma. -/
structure GammaTables where
  lin : Buf
  gam : Buf

/-- One pixel of the linearization, /repo/src/sharpyuv/sharp_rgba_to_yuv.rs:375-377. -/
def linearizeBody (T : GammaTables) (px : List Buf) (c : Buf) : Outcome Buf := do
  let s := px.getD 0 []
  let a ← idx s 0
  let v ← idx T.lin a
  let c ← setIdx c 0 v
  let a ← idx s 1
  let v ← idx T.lin a
  let c ← setIdx c 1 v
  let a ← idx s 2
  let v ← idx T.lin a
  setIdx c 2 v

/-- `rgb_layout`, /repo/src/sharpyuv/sharp_rgba_to_yuv.rs:351-379: three components per pixel, in
the order of the source, rows without padding.  (`mapFrame true` slices each destination row to its
full length, which changes nothing.) -/
def linearize (T : GammaTables) (ch : Channels) (w h : Nat) (rgba : Buf) (stride : Nat) : Outcome Buf :=
  mapFrame true w 3 noMap (linearizeBody T) [⟨rgba, stride, ch.count, false⟩]
    (List.replicate (w * h * 3) 0) (w * 3)

/-- `(a * 9 + b * 3 + c * 3 + d + 8) >> 4` as `u16`,
/repo/src/sharpyuv/sharp_rgba_to_yuv.rs:112-131. -/
def mix4 (a b c d : Int) : Outcome Nat := do
  let a ← mul32 a 9
  let b ← mul32 b 3
  let s ← add32 a b
  let c ← mul32 c 3
  let s ← add32 s c
  let s ← add32 s d
  let s ← add32 s 8
  return asU16 (sar s 4)

/-- `(a * 12 + b * 4 + 8) >> 4` as `u16`, /repo/src/sharpyuv/sharp_rgba_to_yuv.rs:177-184 and
263-270. -/
def mix2 (a b : Int) : Outcome Nat := do
  let a ← mul32 a 12
  let b ← mul32 b 4
  let s ← add32 a b
  let s ← add32 s 8
  return asU16 (sar s 4)

/-- `y.min(i_cap_y) as u8`, /repo/src/sharpyuv/sharp_rgba_to_yuv.rs:79-80. -/
def sharpLuma (p : Nat) (t : FwdCoef) (c : ChromaRange) (px : Int × Int × Int) : Outcome Nat := do
  let y ← encodeY p t c.biasY px.1 px.2.1 px.2.2
  return asU8 (min y (c.rangeY + c.biasY : Nat))

/-- Cb and Cr clamped to `[bias_y, bias_y + range_uv]`,
/repo/src/sharpyuv/sharp_rgba_to_yuv.rs:137-148. -/
def sharpChroma (p : Nat) (t : FwdCoef) (c : ChromaRange) (px : Int × Int × Int) :
    Outcome (Nat × Nat) := do
  let cb ← encodeCb p t c.biasUv px.1 px.2.1 px.2.2
  let cr ← encodeCr p t c.biasUv px.1 px.2.1 px.2.2
  return (asU8 (min (max cb (c.biasY : Nat)) (c.biasY + c.rangeUv : Nat)),
    asU8 (min (max cr (c.biasY : Nat)) (c.biasY + c.rangeUv : Nat)))

/-- `gamma_map_table[interpolated]`, /repo/src/sharpyuv/sharp_rgba_to_yuv.rs:133-135. -/
def regamma (T : GammaTables) (r g b : Nat) : Outcome (Int × Int × Int) := do
  let r ← idx T.gam r
  let g ← idx T.gam g
  let b ← idx T.gam b
  return ((r : Int), (g : Int), (b : Int))

/-- Cb and Cr of a pair of columns in two rows, /repo/src/sharpyuv/sharp_rgba_to_yuv.rs:92-148. -/
def sharpQuadC (p : Nat) (t : FwdCoef) (c : ChromaRange) (ch : Channels) (T : GammaTables)
    (lin next : Buf) : Outcome (Nat × Nat) := do
  let a ← readRgb ch lin
  let l2 ← slice lin 3 (3 * 2)
  let b ← readRgb ch l2
  let d ← readRgb ch next
  let n2 ← slice next 3 (3 * 2)
  let e ← readRgb ch n2
  let r ← mix4 a.1 b.1 d.1 e.1
  let g ← mix4 a.2.1 b.2.1 d.2.1 e.2.1
  let bl ← mix4 a.2.2 b.2.2 d.2.2 e.2.2
  let k ← regamma T r g bl
  sharpChroma p t c k

/-- Cb and Cr of two linear pixels, /repo/src/sharpyuv/sharp_rgba_to_yuv.rs:165-199 (one above the
other) and 257-287 (side by side). -/
def sharpDuoC (p : Nat) (t : FwdCoef) (c : ChromaRange) (ch : Channels) (T : GammaTables)
    (l0 l1 : Buf) : Outcome (Nat × Nat) := do
  let a ← readRgb ch l0
  let b ← readRgb ch l1
  let r ← mix2 a.1 b.1
  let g ← mix2 a.2.1 b.2.1
  let bl ← mix2 a.2.2 b.2.2
  let k ← regamma T r g bl
  sharpChroma p t c k

/-- The two luma values of a pair, /repo/src/sharpyuv/sharp_rgba_to_yuv.rs:75-89 and 237-255. -/
def sharpPairY (p : Nat) (t : FwdCoef) (c : ChromaRange) (ch : Channels) (px : Buf) :
    Outcome (Nat × Nat) := do
  let a ← readRgb ch px
  let y0 ← sharpLuma p t c a
  let px2 ← slice px ch.count (ch.count * 2)
  let b ← readRgb ch px2
  let y1 ← sharpLuma p t c b
  return (y0, y1)

/-- Models `sharpen_row420`, /repo/src/sharpyuv/sharp_rgba_to_yuv.rs:41-206; `row` is the row
number. -/
def sharpRow420 (p : Nat) (t : FwdCoef) (c : ChromaRange) (ch : Channels) (T : GammaTables)
    (row w : Nat) (y u v rgba lin next : Buf) : Outcome (Buf × Buf × Buf) := do
  let cn := ch.count
  let k := min (min (min (min (min (y.length / 2) u.length) v.length) (rgba.length / (cn * 2)))
    (lin.length / (3 * 2))) (next.length / (3 * 2))
  let (y, u, v) ← forRange 0 k (fun j (y, u, v) => do
    let (a, b) ← sharpPairY p t c ch (chunk (cn * 2) rgba j)
    if row % 2 = 0 then do
      let (cb, cr) ← sharpQuadC p t c ch T (chunk (3 * 2) lin j) (chunk (3 * 2) next j)
      return (setChunk 2 y j [a, b], setChunk 1 u j [cb], setChunk 1 v j [cr])
    else return (setChunk 2 y j [a, b], u, v)) (y, u, v)
  let rem := remainder (cn * 2) rgba
  if w % 2 = 0 ∨ rem.length = 0 then return (y, u, v)
  else do
    let px ← slice rem 0 3
    let a ← readRgb ch px
    let l ← sharpLuma p t c a
    let y ← setLast y l
    if row % 2 = 0 then do
      let l0 ← lastChunk 3 lin
      let l1 ← lastChunk 3 next
      let (cb, cr) ← sharpDuoC p t c ch T l0 l1
      let u ← setLast u cb
      let v ← setLast v cr
      return (y, u, v)
    else return (y, u, v)

/-- Models `sharpen_row422`, /repo/src/sharpyuv/sharp_rgba_to_yuv.rs:208-312.  The last pixel of a
row of odd width takes its chroma from the pixel itself, without the tables (302-305). -/
def sharpRow422 (p : Nat) (t : FwdCoef) (c : ChromaRange) (ch : Channels) (T : GammaTables)
    (w : Nat) (y u v rgba lin : Buf) : Outcome (Buf × Buf × Buf) := do
  let cn := ch.count
  let k := min (min (min (min (y.length / 2) u.length) v.length) (rgba.length / (cn * 2)))
    (lin.length / (3 * 2))
  let (y, u, v) ← forRange 0 k (fun j (y, u, v) => do
    let (a, b) ← sharpPairY p t c ch (chunk (cn * 2) rgba j)
    let l2 ← slice (chunk (3 * 2) lin j) 3 (3 * 2)
    let (cb, cr) ← sharpDuoC p t c ch T (chunk (3 * 2) lin j) l2
    return (setChunk 2 y j [a, b], setChunk 1 u j [cb], setChunk 1 v j [cr])) (y, u, v)
  let rem := remainder (cn * 2) rgba
  if w % 2 = 0 ∨ rem.length = 0 then return (y, u, v)
  else do
    let px ← slice rem 0 3
    let a ← readRgb ch px
    let l ← sharpLuma p t c a
    let y ← setLast y l
    let (cb, cr) ← sharpChroma p t c a
    let u ← setLast u cb
    let v ← setLast v cr
    return (y, u, v)


/-- Row `y` of the linear image, `rgb_layout[y * 3w .. 3w + y * 3w]`,
/repo/src/sharpyuv/sharp_rgba_to_yuv.rs:485-488. -/
def linLane (w : Nat) (layout : Buf) (y : Nat) : Outcome Buf :=
  slice layout (y * (w * 3)) (w * 3 + y * (w * 3))

/-- The body of the inner loop of the 4:2:0 path for row `y`,
/repo/src/sharpyuv/sharp_rgba_to_yuv.rs:484-509. -/
def sharpLane420 (p : Nat) (t : FwdCoef) (c : ChromaRange) (ch : Channels) (T : GammaTables)
    (w h : Nat) (layout : Buf) (r : Nat) (y u v rgba : Buf) : Outcome (Buf × Buf × Buf) := do
  let lane ← linLane w layout r
  let next ← if r + 1 < h then linLane w layout (r + 1) else .ok lane
  onRow3 w (ceil2 w) ch.count
    (fun y u v rgba => sharpRow420 p t c ch T r w y u v rgba lane next) y u v rgba

/-- 4:2:0, /repo/src/sharpyuv/sharp_rgba_to_yuv.rs:404-509 and the last row of an image of odd
height, 529-579. -/
def sharp420 (p : Nat) (t : FwdCoef) (c : ChromaRange) (ch : Channels) (T : GammaTables)
    (layout : Buf) (i : Planar) (rgba : Buf) (stride : Nat) : Outcome (Buf × Buf × Buf) :=
  if stride = 0 then .panic
  else do
    let w := i.width
    let (y, u, v) ← rows3 (i.yStride * 2) i.uStride i.vStride
      (min (min (min (i.y.length / (i.yStride * 2)) (i.u.length / i.uStride))
        (i.v.length / i.vStride)) (rgba.length / (stride * 2)))
      (fun j y u v => do
        let src := chunk (stride * 2) rgba j
        let (a, u, v) ← sharpLane420 p t c ch T w i.height layout (2 * j) (y.take i.yStride) u v
          (src.take stride)
        let (b, u, v) ← sharpLane420 p t c ch T w i.height layout (2 * j + 1) (y.drop i.yStride) u v
          (src.drop stride)
        return (a ++ b, u, v))
      i.y i.u i.v
    if i.height % 2 = 0 then return (y, u, v)
    else if y.length / i.yStride = 0 ∨ u.length / i.uStride = 0 ∨ v.length / i.vStride = 0 ∨
        rgba.length / stride = 0 ∨ layout.length / (w * 3) = 0 then return (y, u, v)
    else do
      let ky := y.length / i.yStride - 1
      let ku := u.length / i.uStride - 1
      let kv := v.length / i.vStride - 1
      let lane := chunk (w * 3) layout (layout.length / (w * 3) - 1)
      let (a, b, d) ← onRow3 w (ceil2 w) ch.count
        (fun y u v rgba => sharpRow420 p t c ch T (i.height - 1) w y u v rgba lane lane)
        (chunk i.yStride y ky) (chunk i.uStride u ku) (chunk i.vStride v kv)
        (chunk stride rgba (rgba.length / stride - 1))
      return (setChunk i.yStride y ky a, setChunk i.uStride u ku b, setChunk i.vStride v kv d)

/-- 4:2:2, /repo/src/sharpyuv/sharp_rgba_to_yuv.rs:434-470, 510-526. -/
def sharp422 (p : Nat) (t : FwdCoef) (c : ChromaRange) (ch : Channels) (T : GammaTables)
    (layout : Buf) (i : Planar) (rgba : Buf) (stride : Nat) : Outcome (Buf × Buf × Buf) :=
  if stride = 0 then .panic
  else
    let w := i.width
    rows3 i.yStride i.uStride i.vStride
      (min (min (min (i.y.length / i.yStride) (i.u.length / i.uStride)) (i.v.length / i.vStride))
        (rgba.length / stride))
      (fun r y u v => do
        let lane ← linLane w layout r
        onRow3 w (ceil2 w) ch.count (fun y u v rgba => sharpRow422 p t c ch T w y u v rgba lane)
          y u v (chunk stride rgba r)) i.y i.u i.v

/-- The samplings of the public functions. -/
inductive SharpSampling
  | yuv420 | yuv422
deriving DecidableEq, Repr

def SharpSampling.sampling : SharpSampling → Sampling
  | .yuv420 => .yuv420
  | .yuv422 => .yuv422

/-- Models `rgbx_to_sharp_yuv`, /repo/src/sharpyuv/sharp_rgba_to_yuv.rs:314-582, with
`PRECISION = 13` (383); the tables are a parameter. -/
def rgbxToSharp (tg : Target) (ch : Channels) (s : SharpSampling) (T : GammaTables) (i : Planar)
    (rgba : Buf) (stride : Nat) (rg : YuvRange) (m : Matrix) : Outcome Planar := do
  checkRgba tg rgba.length stride i.width i.height ch.count
  i.check tg s.sampling
  let layout ← linearize T ch i.width i.height rgba stride
  let t := searchForward 13 8 rg m
  let c := getYuvRange 8 rg
  let (y, u, v) ← match s with
    | .yuv420 => sharp420 13 t c ch T layout i rgba stride
    | .yuv422 => sharp422 13 t c ch T layout i rgba stride
  return { i with y, u, v }

end Verif
