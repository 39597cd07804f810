import Verif.Model.AlphaToRgba
import Verif.Model.Identity
import Verif.Model.RgbaToYuv
/-!
# YCgCo

/repo/src/ycgco_to_rgb.rs, /repo/src/ycgco_to_rgb_alpha.rs and /repo/src/rgb_to_ycgco.rs.  The
decoder has vector code for full range on aarch64 only; it finishes whole rows.  That code is in
Verif.Model.NeonYcgco; this is the code of every other target.
-/
namespace Verif

/-- `f32::round() as i16`. -/
def roundAwayI16 (q : Rat) : Int := max (min (roundAway q) 32767) (-32768)

/-- `range_reduction_y` and `range_reduction_uv` of the decoders for a range of `range` code values,
/repo/src/ycgco_to_rgb.rs:311-314 and /repo/src/ycgco_to_rgb_alpha.rs:75-78. -/
def cgcoInv (d range : Nat) : Int :=
  roundAwayI16 (fmul (fdiv (u32AsF32 (2 ^ d - 1)) (u32AsF32 range)) 8192)

/-- `range_reduction_y` and `range_reduction_uv` of the encoder, /repo/src/rgb_to_ycgco.rs:59-62. -/
def cgcoFwd (range : Nat) : Int :=
  roundAwayI16 (fmul (fdiv (u32AsF32 range) (u32AsF32 255)) 8192)

/-- One decoded pixel, alpha being `a`: /repo/src/ycgco_to_rgb.rs:562-577 (also 330-366, 368-389,
420-487, 490-529) and /repo/src/ycgco_to_rgb_alpha.rs:299-312.  The differences are taken in
`i16`. -/
def putCgco (d : Nat) (c : ChromaRange) (ch : Channels) (a y u v : Nat) (px : Buf) :
    Outcome Buf := do
  let yd ← narrowDiff d y c.biasY
  let yv ← mul32 yd (cgcoInv d c.rangeY)
  let ud ← narrowDiff d u c.biasUv
  let cg ← mul32 ud (cgcoInv d c.rangeUv)
  let vd ← narrowDiff d v c.biasUv
  let co ← mul32 vd (cgcoInv d c.rangeUv)
  let t ← sub32 yv cg
  let r ← add32 t co
  let r ← qrshr 13 d r
  let b ← sub32 t co
  let b ← qrshr 13 d b
  let g ← add32 yv cg
  let g ← qrshr 13 d g
  storePix ch px (asSample d r) (asSample d g) (asSample d b) a

/-- Models `ycgco_ro_rgbx`, /repo/src/ycgco_to_rgb.rs:279-667, which the `ycgco4xx_to_*` and
`icgc{0,2,4}{10,12}_to_*` functions call. -/
def ycgcoToRgbx (tg : Target) (d : Nat) (ch : Channels) (s : Sampling) (i : Planar) (rgba : Buf)
    (stride : Nat) (rg : YuvRange) : Outcome Buf := do
  checkRgba tg rgba.length stride i.width i.height ch.count
  i.check tg s
  let put := putCgco d (getYuvRange d rg) ch (2 ^ d - 1)
  match s with
  | .yuv444 => decode444 true ch.count put noSimd i rgba stride
  | .yuv422 => decode422 true ch.count put noSimd i rgba stride
  | .yuv420 => decode420 ch.count put put noSimd noSimd420 i rgba stride

/-- Models `ycgco_ro_rgbx_alpha`, /repo/src/ycgco_to_rgb_alpha.rs:41-415, which the
`ycgco4xx_alpha_to_*` and `icgc{0,2,4}{10,12}_alpha_to_*` functions call.  The two rows of a 4:2:0
pair are filled by one loop in the code and one after the other here. -/
def ycgcoAlphaToRgbx (tg : Target) (d : Nat) (ch : Channels) (s : Sampling) (i : PlanarAlpha)
    (rgba : Buf) (stride : Nat) (rg : YuvRange) : Outcome Buf :=
  if ch.hasAlpha = false then .panic else do
    checkRgba tg rgba.length stride i.width i.height ch.count
    i.check tg s
    alphaFrame true true ch.count
      (fun y u v a => putCgco d (getYuvRange d rg) ch a y u v) noAlphaSimd s i rgba stride

/-- Luma, /repo/src/rgb_to_ycgco.rs:78-84 (also 91-96, 119-125, 157-162, 169-174, 181-186, 193-198,
226-238, 287-292). -/
def cgcoLumaOf (k : Int) (bias : Nat) (px : Int × Int × Int) : Outcome Nat := do
  let g ← mul32 px.2.1 k
  let r ← mul32 px.1 k
  let b ← mul32 px.2.2 k
  let s ← add32 r b
  let y ← add32 (sar g 1) (sar s 2)
  let y ← add32 y (encodeBias 13 bias)
  return asU8 (sar y 13)

/-- Cg and Co of a pixel whose components are scaled by `kr`, `kg` and `kb`,
/repo/src/rgb_to_ycgco.rs:98-106 (also 127-134, 200-207, 240-247, 294-301). -/
def cgcoChromaOf (kr kg kb : Int) (bias : Nat) (r g b : Int) : Outcome (Nat × Nat) := do
  let r ← mul32 r kr
  let g ← mul32 g kg
  let b ← mul32 b kb
  let s ← add32 r b
  let cg ← sub32 (sar g 1) (sar s 2)
  let cg ← add32 cg (encodeBias 13 bias)
  let e ← sub32 r b
  let co ← add32 (sar e 1) (encodeBias 13 bias)
  return (asU8 (sar cg 13), asU8 (sar co 13))

/-- The arithmetic of the encoder: single pixels (/repo/src/rgb_to_ycgco.rs:278-302), pairs (66-107),
last pixel (109-135), two-row blocks (144-208), last column of two rows (210-248).  Averages are
scaled by `ky` for luma and `kuv` for chroma; the chroma of a single pixel is scaled by `kr`, `kg`
and `kb`. -/
def cgcoBlocks (ky kuv kr kg kb : Int) (c : ChromaRange) (ch : Channels) : PixelBlocks where
  one px := do
    let a ← readRgb ch px
    let y ← cgcoLumaOf ky c.biasY a
    let (cg, co) ← cgcoChromaOf kr kg kb c.biasUv a.1 a.2.1 a.2.2
    return (y, cg, co)
  pair blk := do
    let s0 ← slice blk 0 ch.count
    let a ← readRgb ch s0
    let y0 ← cgcoLumaOf ky c.biasY a
    let s1 ← slice blk ch.count (ch.count * 2)
    let b ← readRgb ch s1
    let y1 ← cgcoLumaOf ky c.biasY b
    let r ← avg2 1 a.1 b.1
    let g ← avg2 1 a.2.1 b.2.1
    let bl ← avg2 1 a.2.2 b.2.2
    let (cg, co) ← cgcoChromaOf kuv kuv kuv c.biasUv r g bl
    return (y0, y1, cg, co)
  tail px := do
    let a ← readRgb ch px
    let y ← cgcoLumaOf ky c.biasY a
    let (cg, co) ← cgcoChromaOf kr kg kb c.biasUv a.1 a.2.1 a.2.2
    return (y, cg, co)
  quad blk0 blk1 := do
    let s00 ← slice blk0 0 ch.count
    let a ← readRgb ch s00
    let y00 ← cgcoLumaOf ky c.biasY a
    let s01 ← slice blk0 ch.count (ch.count * 2)
    let b ← readRgb ch s01
    let y01 ← cgcoLumaOf ky c.biasY b
    let s10 ← slice blk1 0 ch.count
    let d ← readRgb ch s10
    let y10 ← cgcoLumaOf ky c.biasY d
    let s11 ← slice blk1 ch.count (ch.count * 2)
    let e ← readRgb ch s11
    let y11 ← cgcoLumaOf ky c.biasY e
    let r ← avg4 a.1 b.1 d.1 e.1
    let g ← avg4 a.2.1 b.2.1 d.2.1 e.2.1
    let bl ← avg4 a.2.2 b.2.2 d.2.2 e.2.2
    let (cg, co) ← cgcoChromaOf kuv kuv kuv c.biasUv r g bl
    return (y00, y01, y10, y11, cg, co)
  tail2 px0 px1 := do
    let a ← readRgb ch px0
    let b ← readRgb ch px1
    let y0 ← cgcoLumaOf ky c.biasY a
    let y1 ← cgcoLumaOf ky c.biasY b
    let r ← avg2 0 a.1 b.1
    let g ← avg2 0 a.2.1 b.2.1
    let bl ← avg2 0 a.2.2 b.2.2
    let (cg, co) ← cgcoChromaOf kuv kuv kuv c.biasUv r g bl
    return (y0, y1, cg, co)

/-- Models `rgbx_to_ycgco`, /repo/src/rgb_to_ycgco.rs:39-379, which the `*_to_ycgco4xx` functions
call.  The chroma of a single pixel is scaled by the luma factor in 4:4:4 (lines 294-296), by the
luma factor for red and the chroma factor for green and blue in the last column of 4:2:2 and 4:2:0
(lines 127-129). -/
def rgbxToYcgco (tg : Target) (ch : Channels) (s : Sampling) (i : Planar) (rgba : Buf)
    (stride : Nat) (rg : YuvRange) : Outcome Planar := do
  checkRgba tg rgba.length stride i.width i.height ch.count
  i.check tg s
  let c := getYuvRange 8 rg
  let ky := cgcoFwd c.rangeY
  let kuv := cgcoFwd c.rangeUv
  let (y, u, v) ← match s with
    | .yuv444 => encode444 ch.count (cgcoBlocks ky kuv ky ky ky c ch) noEnc i rgba stride
    | .yuv422 => encode422 true ch.count (cgcoBlocks ky kuv ky kuv kuv c ch) noEnc i rgba stride
    | .yuv420 =>
      encode420 true ch.count (cgcoBlocks ky kuv ky kuv kuv c ch) noEnc noEnc420 i rgba stride
  return { i with y, u, v }

end Verif
