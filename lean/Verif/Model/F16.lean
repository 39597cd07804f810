import Verif.Model.Identity
import Verif.Model.AlphaToRgba
/-!
# Half-precision output

/repo/src/yuv_p16_rgba_f16.rs, /repo/src/yuva_p16_rgba_f16.rs, /repo/src/from_identity_f16.rs,
/repo/src/from_identity_alpha_f16.rs and /repo/src/f16_converter.rs.

An `f16` is stored as its 16-bit pattern (IEEE-754 binary16: sign, 5 bits of exponent, 10 bits of
fraction), so that the buffers are those of the other converters.  Arithmetic on `f16` is the exact
operation on the denoted rational numbers followed by one rounding to nearest, ties to even.
-/
namespace Verif

/-- The rational number a finite non-negative pattern denotes. -/
def f16Val (b : Nat) : Rat :=
  if b / 1024 = 0 then (b : Rat) / 16777216
  else ((1024 + b % 1024) * 2 ^ (b / 1024 - 1) : Nat) / 16777216

/-- The pattern of a non-negative rational number rounded to nearest, ties to even; 31744 is
infinity.  Below `2^-14` the spacing stays `2^-24`. -/
def f16Of (q : Rat) : Nat :=
  if q = 0 then 0
  else
    let e := max (ilog2 q) (-14)
    min 31744 ((e + 14).toNat * 1024 + (roundEven (q * pow2 (10 - e))).toNat)

/-- `i32 as f16`, `i16 as f16`, `u16 as f16`. -/
def f16OfInt (v : Int) : Nat :=
  if v < 0 then 32768 + f16Of ((-v : Int) : Rat) else f16Of (v : Rat)

/-- `f16 * f16` of a finite or infinite first operand and a finite, positive second operand, which
is all the code uses (the second is the scale); NaN does not occur. -/
def f16Mul (a s : Nat) : Nat :=
  if a % 32768 = 31744 then a
  else a / 32768 * 32768 + f16Of (f16Val (a % 32768) * f16Val s)

/-- `(1f32 / max as f32) as f16`, /repo/src/yuv_p16_rgba_f16.rs:243,
/repo/src/from_identity_f16.rs:83. -/
def f16Scale (d : Nat) : Nat := f16Of (fdiv 1 (u32AsF32 (2 ^ d - 1)))

/-- `v as f16 * scale`, /repo/src/yuv_p16_rgba_f16.rs:270-279. -/
def f16Scaled (d : Nat) (v : Int) : Nat := f16Mul (f16OfInt v) (f16Scale d)

/-- Models `yuv_p16_to_image_p16_ant`, /repo/src/yuv_p16_rgba_f16.rs:188-506, which the
`i{0,2,4}{10,12,14}_to_rgb[a]_f16` functions call: the loops of `p16ToRgb16`, the components scaled,
alpha 1.0 (pattern 15360). -/
def p16ToRgbF16 (tg : Target) (e : Endianness) (bp : BytesPacking) (d : Nat) (ch : Channels)
    (s : Sampling) (hd : RowHandler) (i : Planar) (rgba : Buf) (stride : Nat) (rg : YuvRange)
    (m : Matrix) : Outcome Buf := do
  i.check tg s
  checkRgba tg rgba.length stride i.width i.height ch.count
  let c := getYuvRange d rg
  let t := searchInverse 13 d rg m
  let put := putDeep (qrshr 13 d) (f16Scaled d) (fun v => toNe e bp v (16 - d)) t c ch 15360
  deepFrame true ch.count put hd s i rgba stride

/-- Models `yuv_p16_to_image_p16_ant`, /repo/src/yuva_p16_rgba_f16.rs:186-524, which the
`i{0,2,4}{10,12,14}_alpha_to_rgba_f16` functions call.  In the 4:4:4 branch the alpha row is cut to
the width, too; this is left out, as the luma row already bounds the loop and the check has
refused alpha rows shorter than the width. -/
def p16AlphaToRgbF16 (tg : Target) (e : Endianness) (bp : BytesPacking) (d : Nat) (ch : Channels)
    (s : Sampling) (hd : AlphaHandler) (i : PlanarAlpha) (rgba : Buf) (stride : Nat)
    (rg : YuvRange) (m : Matrix) : Outcome Buf :=
  if ch.hasAlpha = false then .panic else do
    i.check tg s
    checkRgba tg rgba.length stride i.width i.height ch.count
    alphaFrame true true ch.count
      (fun y u v a => putDeep (qrshr 13 d) (f16Scaled d) (fun v => toNe e bp v (16 - d))
        (searchInverse 13 d rg m) (getYuvRange d rg) ch (f16Scaled d a) y u v) hd s i rgba stride

/-- `y_coef` of the half-float GBR decoders: truncated, not rounded,
/repo/src/from_identity_f16.rs:376-377. -/
def gbrF16Coef (d : Nat) : Int :=
  (fmul (fdiv (u32AsF32 (2 ^ d - 1)) (u32AsF32 (getYuvRange d .limited).rangeY)) 8192).floor

/-- `cast_to_f16` and the scale, /repo/src/from_identity_f16.rs:52-60 and 88-90: the sample passes
through `i16` below depth 16. -/
def gbrF16Full (d s : Nat) : Nat := f16Scaled d (if d = 16 then (s : Int) else asI16 s)

/-- One component of a decoded pixel, /repo/src/from_identity_f16.rs:108-119 (limited) and 88-90
(full). -/
def gbrF16Val (d : Nat) (rg : YuvRange) (s : Nat) : Outcome Nat :=
  match rg with
  | .full => .ok (gbrF16Full d s)
  | .limited => do
    let x ← narrowDiff d s (getYuvRange d .limited).biasY
    let x ← mul32 x (gbrF16Coef d)
    let x ← qrshr 13 d x
    return f16Scaled d x

/-- Models `gbr_to_rgbx_f16_impl`, /repo/src/from_identity_f16.rs:306-456, which the
`gb{10,12,14,16}_to_rgb[a]_f16` functions call.  The handlers chosen at run time execute the same
scalar loop (compiled for other instruction sets). -/
def gbrToRgbF16 (tg : Target) (d : Nat) (ch : Channels) (i : Planar) (rgba : Buf) (stride : Nat)
    (rg : YuvRange) : Outcome Buf := do
  i.check tg .yuv444
  checkRgba tg rgba.length stride i.width i.height ch.count
  mapFrame false i.width ch.count noMap (gbrBody (gbrF16Val d rg) ch 15360)
    [⟨i.y, i.yStride, 1, true⟩, ⟨i.u, i.uStride, 1, false⟩, ⟨i.v, i.vStride, 1, false⟩] rgba stride

/-- As `gbrBody`, alpha being scaled like a full-range component,
/repo/src/from_identity_alpha_f16.rs:92-104 and 115-137. -/
def gbrF16AlphaBody (d : Nat) (v : Nat → Outcome Nat) (ch : Channels) (px : List Buf) (c : Buf) :
    Outcome Buf := do
  let ys ← idx (px.getD 0 []) 0
  let us ← idx (px.getD 1 []) 0
  let vs ← idx (px.getD 2 []) 0
  let a ← idx (px.getD 3 []) 0
  let r ← v vs
  let g ← v ys
  let b ← v us
  storePix ch c r g b (gbrF16Full d a)

/-- Models `gbr_to_rgbx_alpha_f16_impl`, /repo/src/from_identity_alpha_f16.rs:340-491, which the
`gb{10,12,14,16}_alpha_to_rgba_f16` functions call. -/
def gbrAlphaToRgbF16 (tg : Target) (d : Nat) (ch : Channels) (i : PlanarAlpha) (rgba : Buf)
    (stride : Nat) (rg : YuvRange) : Outcome Buf :=
  if ch.hasAlpha = false then .panic
  else do
    i.check tg .yuv444
    checkRgba tg rgba.length stride i.width i.height ch.count
    mapFrame false i.width ch.count noMap (gbrF16AlphaBody d (gbrF16Val d rg) ch)
      [⟨i.y, i.yStride, 1, true⟩, ⟨i.u, i.uStride, 1, false⟩, ⟨i.v, i.vStride, 1, false⟩,
        ⟨i.a, i.aStride, 1, false⟩] rgba stride

/-- One element of `to_float16`, /repo/src/f16_converter.rs:181-187.  The depth is between 1 and 30
(at 0 the scale is infinite, from 31 on the shift overflows). -/
def toF16Elem (d v : Nat) : Nat :=
  f16Of (fmul (u32AsF32 v) (fdiv 1 (u32AsF32 (2 ^ d - 1))))

/-- One element of `to_unsigned`, /repo/src/f16_converter.rs:201-208; `T` is the largest value of the
target type.  The final cast saturates: negative numbers and NaN give 0, infinity gives `T`. -/
def fromF16Elem (T d b : Nat) : Nat :=
  if 32768 ≤ b then 0
  else if 31744 < b then 0
  else if b = 31744 then T
  else min T (roundAway (fmul (f16Val b) (u32AsF32 (2 ^ d - 1)))).toNat

/-- The loop body of the two converters. -/
def elemBody (f : Nat → Nat) (px : List Buf) (c : Buf) : Outcome Buf := do
  let s ← idx (px.getD 0 []) 0
  setIdx c 0 (f s)

/-- Models `convert_surface_to_f16` and `convert_f16_surface_to_unsigned`,
/repo/src/f16_converter.rs:211-235 and 237-261, `f` being the element conversion: the checks see the
strides and sizes truncated to `u32`, the loop the full ones. -/
def convertSurface (tg : Target) (f : Nat → Nat) (cn : Nat) (hd : MapHandler) (src : Buf)
    (srcStride : Nat) (dst : Buf) (dstStride w h : Nat) : Outcome Buf := do
  checkRgba tg src.length (srcStride % 2 ^ 32) (w % 2 ^ 32) (h % 2 ^ 32) cn
  checkRgba tg dst.length (dstStride % 2 ^ 32) (w % 2 ^ 32) (h % 2 ^ 32) cn
  mapFrame true (w * cn) 1 hd (elemBody f) [⟨src, srcStride, 1, true⟩] dst dstStride

/-- `convert_{plane,rgb,rgba}[16]_to_f16`, /repo/src/f16_converter.rs:275-413. -/
def toF16 (tg : Target) (d cn : Nat) (hd : MapHandler) (src : Buf) (srcStride : Nat) (dst : Buf)
    (dstStride w h : Nat) : Outcome Buf :=
  convertSurface tg (toF16Elem d) cn hd src srcStride dst dstStride w h

/-- `convert_plane_f16_to_planar[16]`, `convert_rgb[a]_f16_to_rgb[a][16]`,
/repo/src/f16_converter.rs:427-563; `T` is 255 for the 8-bit targets and 65535 for the others. -/
def fromF16 (tg : Target) (T d cn : Nat) (hd : MapHandler) (src : Buf) (srcStride : Nat) (dst : Buf)
    (dstStride w h : Nat) : Outcome Buf :=
  convertSurface tg (fromF16Elem T d) cn hd src srcStride dst dstStride w h

end Verif
