import Verif.Model.X86NvModes
import Verif.Model.NeonEncode
import Verif.Model.NeonYuyRgb
/-!
# 64-bit ARM with NEON: the semi-planar decoders of the professional and fast modes

/repo/src/neon/yuv_nv_to_rgba_prof.rs, yuv_nv_to_rgba420_prof.rs, yuv_nv_to_rgbx_fast.rs and
yuv_nv_to_rgbx_fast420.rs, with the choice made by the `default` functions of /repo/src/yuv_nv_to_rgba.rs.
The rows have the shape of Verif.Model.X86NvModes: sixteen pixels per step, then the rest through zeroed
buffers for sixteen pixels.  Registers and intrinsics as in Verif.Model.Neon.  The features
`professional_mode` and `fast_mode` are on.
-/
namespace Verif.Neon
open X86

/-! ## Chroma -/

/-- Cb and Cr, one byte per pixel, the offset removed: /repo/src/neon/yuv_nv_to_rgba_prof.rs:96-128,
/repo/src/neon/yuv_nv_to_rgba420_prof.rs:90-105, /repo/src/neon/yuv_nv_to_rgbx_fast.rs:75-108 and
/repo/src/neon/yuv_nv_to_rgbx_fast420.rs:74-94.  The two registers of 4:4:4 are the two halves of the 32
bytes `vld2q_u8` loads. -/
def modeChroma (s : Sampling) (o : NVOrder) (rg : ChromaRange) (c0 c1 : Reg) : Reg × Reg :=
  match s with
  | .yuv420 | .yuv422 =>
    let c := ordered o (deinterleave c0)
    (doubled .s16 (sub8 c.1 (corr rg)), doubled .s16 (sub8 c.2 (corr rg)))
  | .yuv444 =>
    let c := ordered o (deinterleave (combine 16 c0 c1))
    (sub8 c.1 (corr rg), sub8 c.2 (corr rg))

/-! ## Professional mode -/

/-- `vmovl_s8` of eight bytes. -/
def movlS8 (a : Reg) : Reg := mk16 fun k => asI8 (a k)
/-- `vqdmull_laneq_s16` (`o` = 0), `vqdmull_high_laneq_s16` (4): the doubled product saturates. -/
def qdmull (o : Nat) (v : Reg) (c : Int) : Reg := mk32 fun j => satI32 (2 * (s16 v (o + j) * c))

/-- Luma with the rounding, `vqdmalq_laneq_s16` (/repo/src/neon/utils.rs:223-232): `b_y` is
`2 ^ 14 - 1`, /repo/src/neon/yuv_nv_to_rgba_prof.rs:78-80 and 133-142. -/
def profY (o : Nat) (t : InvCoef) (y : Reg) : Reg :=
  qdmlal o (set1_32 (2 ^ 14 - 1)) y (asI16 t.y)
/-- Red: /repo/src/neon/yuv_nv_to_rgba_prof.rs:148-151; `vqddotl_laneq_s16`,
/repo/src/neon/utils.rs:36-44. -/
def profR (o : Nat) (t : InvCoef) (y v : Reg) : Reg := qdmlal o (profY o t y) v (asI16 t.cr)
/-- Blue, its coefficient split in two: /repo/src/neon/yuv_nv_to_rgba_prof.rs:152-155 and 178-181;
`vqddotl_overflow_laneq_s16`, /repo/src/neon/utils.rs:48-62. -/
def profB (o : Nat) (t : InvCoef) (y u : Reg) : Reg :=
  qdmlal o (qdmlal o (profY o t y) u (asI16 (t.cb - 32767))) u 32767
/-- Green.  A single row adds both products to luma, /repo/src/neon/yuv_nv_to_rgba_prof.rs:144-147 and
156-159; a pair of rows adds luma to their sum, `vqdweight_laneq_x2` and `vaddn_dot`,
/repo/src/neon/utils.rs:173-181 and 198-208. -/
def profGreen (two : Bool) (o : Nat) (t : InvCoef) (y u v : Reg) : Reg :=
  if two then
    add32v (profY o t y) (qdmlal o (qdmull o v (asI16 (-t.g1))) u (asI16 (-t.g2)))
  else qdmlal o (qdmlal o (profY o t y) v (asI16 (-t.g1))) u (asI16 (-t.g2))

/-- Eight pixels, words to words: /repo/src/neon/yuv_nv_to_rgba_prof.rs:133-190,
/repo/src/neon/yuv_nv_to_rgba420_prof.rs:107-142. -/
def profWords (two : Bool) (t : InvCoef) (y u v : Reg) : Reg × Reg × Reg :=
  (shrn 15 (profR 0 t y v) (profR 4 t y v),
    shrn 15 (profGreen two 0 t y u v) (profGreen two 4 t y u v),
    shrn 15 (profB 0 t y u) (profB 4 t y u))

/-- Sixteen pixels: /repo/src/neon/yuv_nv_to_rgba_prof.rs:87-194 (and 240-345),
/repo/src/neon/yuv_nv_to_rgba420_prof.rs:87-150. -/
def profColours (two : Bool) (s : Sampling) (o : NVOrder) (rg : ChromaRange) (t : InvCoef)
    (y c0 c1 : Reg) : Reg × Reg × Reg :=
  let c := modeChroma s o rg c0 c1
  let y := subsU8 y (set1_8 rg.biasY)
  let part := fun h => profWords two t (wide 0 h y) (movlS8 (half h c.1)) (movlS8 (half h c.2))
  (qmovun (part 0).1 (part 8).1, qmovun (part 0).2.1 (part 8).2.1, qmovun (part 0).2.2 (part 8).2.2)

/-! ## Fast mode -/

/-- `vmlal_s8`: wrapping. -/
def mlalS8 (acc a : Reg) (c : Int) : Reg := mk16 fun k => s16 acc k + asI8 (a k) * asI8 c

/-- Eight pixels, bytes to bytes: /repo/src/neon/yuv_nv_to_rgbx_fast.rs:58-64 (the weights) and 110-126;
/repo/src/neon/yuv_nv_to_rgbx_fast420.rs:57-63 and 85-109. -/
def fastBytes (t : InvCoef) (y u v : Reg) : Reg × Reg × Reg :=
  let y := mull8 y (asU8 t.y)
  (qrshrun6 (mlalS8 y v t.cr), qrshrun6 (mlalS8 (mlalS8 y v (-t.g1)) u (-t.g2)), qrshrun6 (mlalS8 y u t.cb))

/-- Sixteen pixels: /repo/src/neon/yuv_nv_to_rgbx_fast.rs:71-126 (and 168-222),
/repo/src/neon/yuv_nv_to_rgbx_fast420.rs:70-122. -/
def fastColours (s : Sampling) (o : NVOrder) (rg : ChromaRange) (t : InvCoef)
    (y c0 c1 : Reg) : Reg × Reg × Reg :=
  let c := modeChroma s o rg c0 c1
  let y := subsU8 y (set1_8 rg.biasY)
  let part := fun h => fastBytes t (half h y) (half h c.1) (half h c.2)
  (combine 8 (part 0).1 (part 8).1, combine 8 (part 0).2.1 (part 8).2.1, combine 8 (part 0).2.2 (part 8).2.2)

/-! ## Kernels and dispatch -/

/-- `neon_yuv_nv_to_rgba_row_prof` (`two` false), /repo/src/neon/yuv_nv_to_rgba_prof.rs:36-370, and
`neon_yuv_nv_to_rgba_row420_prof` (true), /repo/src/neon/yuv_nv_to_rgba420_prof.rs:35-301. -/
def profNv (two : Bool) : NvKernel := ⟨16, 16, profColours two, storeRgb 16⟩
/-- `neon_yuv_nv_to_rgba_fast_row`, /repo/src/neon/yuv_nv_to_rgbx_fast.rs:37-244, and
`neon_yuv_nv_to_rgba_fast_row420`, /repo/src/neon/yuv_nv_to_rgbx_fast420.rs:36-259. -/
def fastNv : NvKernel := ⟨16, 16, fastColours, storeRgb 16⟩

/-- `yuv_nv12_to_rgbx` in mode `md`, /repo/src/yuv_nv_to_rgba.rs:1126-1184, with the kernel `K` of single
rows and `K2` of pairs of rows. -/
def nvModeWith (K K2 : NvKernel) (md : Mode) (o : NVOrder) (ch : Channels) (s : Sampling) (i : BiPlanar)
    (rgba : Buf) (stride : Nat) (rg : YuvRange) (m : Matrix) : Outcome Buf :=
  let c := getYuvRange 8 rg
  let t := searchInverse (nvDecodePrecision md) 8 rg m
  nvToRgbx x64 md o ch s (K.handler o s ch c t i.width) (K2.handler420 o s ch c t i.width) i rgba stride rg m

/-- The semi-planar decoder in the professional mode, /repo/src/yuv_nv_to_rgba.rs:323-335 and 690-698. -/
def nvToRgbxProf := nvModeWith (profNv false) (profNv true) .professional
/-- The semi-planar decoder in the fast mode, /repo/src/yuv_nv_to_rgba.rs:255-267 and 614-622. -/
def nvToRgbxFast := nvModeWith fastNv fastNv .fast

end Verif.Neon
