import Verif.Model.Packed444
import Verif.Model.DeepToRgba
/-!
# Planar YCbCr with an alpha plane to RGBA

/repo/src/yuv_to_rgba_alpha.rs, /repo/src/yuv_p16_rgba16_alpha.rs and
/repo/src/yuv_p16_rgba_alpha.rs.  The three converters share their loops.
-/
namespace Verif

/-- The vector code of one row of the alpha decoders: luma, Cb, Cr and alpha rows and the
destination row; the destination row and the number of pixels completed.  Not modelled, see
`RowHandler`. -/
abbrev AlphaHandler := Buf → Buf → Buf → Buf → Buf → Outcome (Buf × Nat)
/-- No vector code for this target. -/
def noAlphaSimd : AlphaHandler := fun _ _ _ _ row => .ok (row, 0)

/-- A pixel function: luma, Cb, Cr, alpha, destination pixel. -/
abbrev AlphaPut := Nat → Nat → Nat → Nat → Buf → Outcome Buf

/-- Number of elements a `zip` of five iterators yields. -/
def min5 (a b c d e : Nat) : Nat := min (min4 a b c d) e

/-- Models the closure `process_halved_chroma_row`, /repo/src/yuv_to_rgba_alpha.rs:201-299,
/repo/src/yuv_p16_rgba16_alpha.rs:220-292 and /repo/src/yuv_p16_rgba_alpha.rs:205-274 (the last two
without `guard`, see `rowPairs`). -/
def alphaHalvedRow (guard : Bool) (w cn : Nat) (put : AlphaPut) (hd : AlphaHandler)
    (y u v a row : Buf) : Outcome Buf := do
  let (row, cx) ← hd y u v a row
  rowPairs guard w cn cx
    (min5 (row.length / (2 * cn)) (y.length / 2) u.length v.length (a.length / 2))
    (fun i c => do
      let y0 ← idx y (2 * i)
      let u0 ← idx u i
      let v0 ← idx v i
      let a0 ← idx a (2 * i)
      put y0 u0 v0 a0 c)
    (fun i c => do
      let y1 ← idx y (2 * i + 1)
      let u0 ← idx u i
      let v0 ← idx v i
      let a1 ← idx a (2 * i + 1)
      put y1 u0 v0 a1 c)
    (fun c => do
      let y0 ← lastElem y
      let u0 ← lastElem u
      let v0 ← lastElem v
      let a0 ← lastElem a
      put y0 u0 v0 a0 c) row

/-- Slices of the source rows and of the destination row, /repo/src/yuv_to_rgba_alpha.rs:389-396. -/
def alphaHalvedSlice (guard : Bool) (w cn : Nat) (put : AlphaPut) (hd : AlphaHandler)
    (yr ur vr ar row : Buf) : Outcome Buf := do
  let y ← slice yr 0 w
  let u ← slice ur 0 (ceil2 w)
  let v ← slice vr 0 (ceil2 w)
  let a ← slice ar 0 w
  onPrefix row (w * cn) (alphaHalvedRow guard w cn put hd y u v a)

/-- The 4:4:4 branch, /repo/src/yuv_to_rgba_alpha.rs:301-368,
/repo/src/yuv_p16_rgba16_alpha.rs:294-345 and /repo/src/yuv_p16_rgba_alpha.rs:276-325: of the source
rows only the luma row is cut to the width. -/
def alpha444 (guard : Bool) (cn : Nat) (put : AlphaPut) (hd : AlphaHandler) (i : PlanarAlpha)
    (rgba : Buf) (stride : Nat) : Outcome Buf :=
  eachChunk stride 0
    (min5 (rgba.length / stride) (i.y.length / i.yStride) (i.a.length / i.aStride)
      (i.u.length / i.uStride) (i.v.length / i.vStride))
    (fun r row => do
      let y ← slice (chunk i.yStride i.y r) 0 i.width
      let u := chunk i.uStride i.u r
      let v := chunk i.vStride i.v r
      let a := chunk i.aStride i.a r
      let (row, cx) ← hd y u v a row
      rowSingles guard i.width cn cx
        (min5 (row.length / cn) y.length u.length v.length a.length)
        (fun j c => do
          let y0 ← idx y j
          let u0 ← idx u j
          let v0 ← idx v j
          let a0 ← idx a j
          put y0 u0 v0 a0 c) row) rgba

/-- The 4:2:2 branch.  `cut` says that the rows are cut to the width first:
/repo/src/yuv_to_rgba_alpha.rs:369-397 and /repo/src/yuv_p16_rgba16_alpha.rs:346-374 do,
/repo/src/yuv_p16_rgba_alpha.rs:326-348 does not. -/
def alpha422 (cut guard : Bool) (cn : Nat) (put : AlphaPut) (hd : AlphaHandler) (i : PlanarAlpha)
    (rgba : Buf) (stride : Nat) : Outcome Buf :=
  eachChunk stride 0
    (min5 (rgba.length / stride) (i.y.length / i.yStride) (i.a.length / i.aStride)
      (i.u.length / i.uStride) (i.v.length / i.vStride))
    (fun r row =>
      (if cut then alphaHalvedSlice else alphaHalvedRow) guard i.width cn put hd
        (chunk i.yStride i.y r) (chunk i.uStride i.u r) (chunk i.vStride i.v r)
        (chunk i.aStride i.a r) row) rgba

/-- The 4:2:0 branch, /repo/src/yuv_to_rgba_alpha.rs:398-463,
/repo/src/yuv_p16_rgba16_alpha.rs:375-443 and /repo/src/yuv_p16_rgba_alpha.rs:349-414. -/
def alpha420 (guard : Bool) (cn : Nat) (put : AlphaPut) (hd : AlphaHandler) (i : PlanarAlpha)
    (rgba : Buf) (stride : Nat) : Outcome Buf := do
  let rgba ← eachChunk (stride * 2) 0
    (min5 (rgba.length / (stride * 2)) (i.y.length / (i.yStride * 2))
      (i.a.length / (i.aStride * 2)) (i.u.length / i.uStride) (i.v.length / i.vStride))
    (fun r rows =>
      let yp := chunk (i.yStride * 2) i.y r
      let ap := chunk (i.aStride * 2) i.a r
      eachChunk stride 0
        (min3 (rows.length / stride) (yp.length / i.yStride) (ap.length / i.aStride))
        (fun j row => alphaHalvedSlice guard i.width cn put hd (chunk i.yStride yp j)
          (chunk i.uStride i.u r) (chunk i.vStride i.v r) (chunk i.aStride ap j) row) rows) rgba
  if i.height % 2 = 0 then return rgba
  else do
    let u ← lastChunk i.uStride i.u
    let v ← lastChunk i.vStride i.v
    let a ← lastChunk i.aStride i.a
    let y ← lastChunk i.yStride i.y
    onLastChunk stride (alphaHalvedSlice guard i.width cn put hd y u v a) rgba

/-- The three branches. -/
def alphaFrame (cut guard : Bool) (cn : Nat) (put : AlphaPut) (hd : AlphaHandler) (s : Sampling)
    (i : PlanarAlpha) (rgba : Buf) (stride : Nat) : Outcome Buf :=
  match s with
  | .yuv444 => alpha444 guard cn put hd i rgba stride
  | .yuv422 => alpha422 cut guard cn put hd i rgba stride
  | .yuv420 => alpha420 guard cn put hd i rgba stride

/-- Models `yuv_with_alpha_to_rgbx`, /repo/src/yuv_to_rgba_alpha.rs:163-469, which the
`yuv4xx_alpha_to_{rgba,bgra}` functions call.  The assertion that the target has alpha comes
first. -/
def yuvAlphaToRgbx (tg : Target) (ch : Channels) (s : Sampling) (hd : AlphaHandler)
    (i : PlanarAlpha) (rgba : Buf) (stride : Nat) (rg : YuvRange) (m : Matrix) (pm : Bool) :
    Outcome Buf :=
  if ch.hasAlpha = false then .panic else do
    checkRgba tg rgba.length stride i.width i.height ch.count
    i.check tg s
    alphaFrame true true ch.count
      (putAlpha pm 13 (searchInverse 13 8 rg m) (getYuvRange 8 rg) ch) hd s i rgba stride

/-- Models `yuv_p16_to_image_alpha_ant`, /repo/src/yuv_p16_rgba16_alpha.rs:45-448, which the
`i{0,2,4}{10,12,14,16}_alpha_to_rgba{10,12,14,16}` functions call: the alpha sample is stored as it
is, without the byte swap and the shift the other samples get. -/
def p16AlphaToRgb16 (tg : Target) (e : Endianness) (bp : BytesPacking) (d : Nat) (ch : Channels)
    (s : Sampling) (hd : AlphaHandler) (i : PlanarAlpha) (rgba : Buf) (stride : Nat)
    (rg : YuvRange) (m : Matrix) : Outcome Buf :=
  if ch.hasAlpha = false then .panic else do
    i.check tg s
    checkRgba tg rgba.length stride i.width i.height ch.count
    alphaFrame true false ch.count
      (fun y u v a => putDeep (qrshr 13 d) asU16 (fun v => toNe e bp v (16 - d))
        (searchInverse 13 d rg m) (getYuvRange d rg) ch a y u v) hd s i rgba stride

/-- Models `yuv_p16_to_image_alpha_ant`, /repo/src/yuv_p16_rgba_alpha.rs:45-420, which the
`i{0,2,4}{10,12}_alpha_to_{rgba,bgra}` functions call (the assertion that the depth is 10 or 12
always holds there).  Alpha is shifted to 8 bits, again without byte swap; 4:2:2 rows are not cut to
the width. -/
def p16AlphaToRgb8 (tg : Target) (e : Endianness) (bp : BytesPacking) (d : Nat) (ch : Channels)
    (s : Sampling) (hd : AlphaHandler) (i : PlanarAlpha) (rgba : Buf) (stride : Nat)
    (rg : YuvRange) (m : Matrix) : Outcome Buf :=
  if ch.hasAlpha = false then .panic else do
    i.check tg s
    checkRgba tg rgba.length stride i.width i.height ch.count
    alphaFrame false false ch.count
      (fun y u v a => putDeep (p10Qrshr d) asU8 (fun v => toNe e bp v (16 - d))
        (searchInverse 13 d rg m) (getYuvRange d rg) ch (min (a / 2 ^ (d - 8)) 255) y u v) hd s i
      rgba stride

end Verif
