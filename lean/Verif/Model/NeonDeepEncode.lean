import Verif.Model.NeonDeep16
import Verif.Model.NeonEncode
import Verif.Model.X86DeepEncode
/-!
# 64-bit ARM with NEON: RGB of 10 to 16 bits to planar YCbCr of the same depth

/repo/src/neon/rgb_to_yuv_p16.rs and rgb_to_yuv_p16_420.rs, with their choice in `RgbEncoder::default` and
`RgbEncoder420::default`, /repo/src/rgb16_to_yuv_p16.rs:124-160 and 300-350.  A load or store outside a slice,
which the code does not check, is `panic` here.  Lanes of a 64-bit register are the low lanes of a register here;
only they are stored.
-/
namespace Verif.Neon
open X86

/-! ## Intrinsics and helpers -/

/-- `vmaxq_u16`, `vmax_u16`. -/
def maxU16 (a b : Reg) : Reg := mk16 fun k => ((max (w16 a k) (w16 b k) : Nat) : Int)
/-- `vminq_s16`, `vmin_s16`. -/
def minS16 (a b : Reg) : Reg := mk16 fun k => min (s16 a k) (s16 b k)
/-- `vmlsl_laneq_u16` (`o` = 0), `vmlsl_high_laneq_u16` (4). -/
def mlslU (o : Nat) (acc v : Reg) (c : Int) : Reg :=
  mk32 fun j => (w32 acc j : Int) - (w16 v (o + j) * asU16 c : Nat)
/-- `vrshrn_n_u32::<1>(vpaddlq_u16(a))`: means of neighbours, rounded up. -/
def halve16 (a : Reg) : Reg := mk16 fun k => (((w16 a (2 * k) + w16 a (2 * k + 1) + 1) / 2 : Nat) : Int)

/-- Models `neon_vld_rgb16_for_yuv`, /repo/src/neon/utils.rs:489-524: `vld3q_u16` and `vld4q_u16` separate the
words of eight pixels. -/
def loadRgb16 (ch : Channels) (l : Buf) (p : Nat) : Outcome Rgb :=
  if p + 8 * ch.count ≤ l.length then
    let a := fun o => mk16 fun k => (l.getD (p + (ch.count * k + o)) 0 : Int)
    match ch with
    | .rgb | .rgba => .ok (a 0, a 1, a 2)
    | .bgr | .bgra => .ok (a 2, a 1, a 0)
  else .panic

/-! ## The arithmetic -/

/-- What distinguishes the kernels: what is done to a loaded component, luma, Cb and Cr. -/
structure EncKernel where
  pre : Reg → Reg
  luma : Rgb → Reg
  cb : Rgb → Reg
  cr : Rgb → Reg

/-- `bias_y` and `bias_uv`, /repo/src/neon/rgb_to_yuv_p16.rs:61-63, rgb_to_yuv_p16_420.rs:59-61. -/
def wideBias (bias : Nat) : Reg := set1_32 ((bias : Int) * 2 ^ 15 + (2 ^ 14 - 1))

/-- Luma in 32 bits: `vdotl_laneq_u16_x3`, /repo/src/neon/utils.rs:139-158, with the weights of
/repo/src/neon/rgb_to_yuv_p16.rs:72-81. -/
def wideLuma (rg : ChromaRange) (t : FwdCoef) (c : Rgb) : Reg :=
  let f := fun o => mlalU o (mlalU o (mlalU o (wideBias rg.biasY) c.1 t.yr) c.2.1 t.yg) c.2.2 t.yb
  shrnU 15 (f 0) (f 4)

/-- Chroma in 32 bits: the component `x` is added, `y` and `z` are subtracted, with the absolute values of
their weights.  /repo/src/neon/rgb_to_yuv_p16.rs:87-88 (limits), 111-139 (a sample per pixel), 170-186 (per two
pixels), and /repo/src/neon/rgb_to_yuv_p16_420.rs:131-145. -/
def wideChroma (rg : ChromaRange) (x y z : Reg) (kx ky kz : Int) : Reg :=
  let f := fun o => mlslU o (mlslU o (mlalU o (wideBias rg.biasUv) x kx.natAbs) y ky.natAbs) z kz.natAbs
  minU16 (maxU16 (qshrnU 15 (f 0) (f 4)) (set1_16 rg.biasY)) (set1_16 ((rg.biasY + rg.rangeUv : Nat) : Int))

/-- The kernels `neon_rgba_to_yuv_p16`, /repo/src/neon/rgb_to_yuv_p16.rs:37-376, and
`neon_rgba_to_yuv_p16_420`, /repo/src/neon/rgb_to_yuv_p16_420.rs:35-297. -/
def wideKernel (rg : ChromaRange) (t : FwdCoef) : EncKernel where
  pre a := a
  luma := wideLuma rg t
  cb c := wideChroma rg c.2.2 c.2.1 c.1 t.cbB t.cbG t.cbR
  cr c := wideChroma rg c.1 c.2.1 c.2.2 t.crR t.crG t.crB

/-- `i_bias_y` and `uv_bias` of the 16-bit kernels, /repo/src/neon/rgb_to_yuv_p16.rs:415-416,
rgb_to_yuv_p16_420.rs:342-343. -/
def quarterBias (bias : Nat) : Reg := set1_16 ((bias : Int) * 4 + (2 - 1))

/-- The sum of the 16-bit kernels, a quarter of the unit per step: /repo/src/neon/rgb_to_yuv_p16.rs:432-437
and 452-461. -/
def rdmSum (bias : Nat) (k : Int × Int × Int) (c : Rgb) : Reg :=
  srai16 2 (mlah true (mlah true (mlah true (quarterBias bias) c.1 (asI16 k.1)) c.2.1 (asI16 k.2.1)) c.2.2
    (asI16 k.2.2))

/-- /repo/src/neon/rgb_to_yuv_p16.rs:417 (limit) and 432-437. -/
def rdmLuma (rg : ChromaRange) (t : FwdCoef) (c : Rgb) : Reg :=
  minS16 (rdmSum rg.biasY (kLuma t) c) (set1_16 ((rg.rangeY + rg.biasY : Nat) : Int))

/-- /repo/src/neon/rgb_to_yuv_p16.rs:452-467, 492-507 and rgb_to_yuv_p16_420.rs:408-419.  The lower limit is
`i_bias_y`, the start of the luma sum. -/
def rdmChroma (rg : ChromaRange) (k : Int × Int × Int) (c : Rgb) : Reg :=
  minS16 (max16 (rdmSum rg.biasUv k c) (quarterBias rg.biasY)) (set1_16 ((rg.biasY + rg.rangeUv : Nat) : Int))

/-- The kernels `neon_rgba_to_yuv_p16_rdm`, /repo/src/neon/rgb_to_yuv_p16.rs:378-676, and
`neon_rgba_to_yuv_p16_rdm_420`, /repo/src/neon/rgb_to_yuv_p16_420.rs:299-582. `expandBp` is also
`vexpandu_high_bp_by_2`, /repo/src/neon/utils.rs:716-724. -/
def rdmKernel (d : Nat) (rg : ChromaRange) (t : FwdCoef) : EncKernel where
  pre := expandBp d
  luma := rdmLuma rg t
  cb := rdmChroma rg (kCb t)
  cr := rdmChroma rg (kCr t)

/-! ## Rows -/

/-- Eight pixels of one row: /repo/src/neon/rgb_to_yuv_p16.rs:91-209 and 423-519; the tails repeat it on
buffers. -/
def encDeep (K : EncKernel) (s : Sampling) (q : DeepConf) (src : Buf) (p : Nat) (o : Planes) (cx ux : Nat) :
    Outcome Planes := do
  let c ← loadRgb16 q.ch src p
  let c := each K.pre c
  let out := storedReg q.e q.bp q.d
  let y ← store16 8 (out (K.luma c)) cx o.1
  match s with
  | .yuv444 => do
    let u ← store16 8 (out (K.cb c)) ux o.2.1
    let v ← store16 8 (out (K.cr c)) ux o.2.2
    return (y, u, v)
  | .yuv420 | .yuv422 => do
    let h := each halve16 c
    let u ← store16 4 (out (K.cb h)) ux o.2.1
    let v ← store16 4 (out (K.cr h)) ux o.2.2
    return (y, u, v)

/-- One row: /repo/src/neon/rgb_to_yuv_p16.rs:90-376 and 423-676. -/
def encDeepRow (K : EncKernel) (s : Sampling) (q : DeepConf) (width : Nat) (rgba : Buf) (o : Planes)
    (cx ux : Nat) : Outcome (Planes × Nat × Nat) := do
  let r ← vwhile 8 (chromaStep s 8) width
    (fun cx ux o => encDeep K s q rgba (cx * q.ch.count) o cx ux) cx ux o
  encTail 8 s q.ch.count width (fun sb b => encDeep K s q sb 0 b 0 0) rgba r.1 r.2.1 r.2.2

/-- Eight pixels of two rows: /repo/src/neon/rgb_to_yuv_p16_420.rs:88-163 and 350-437. -/
def encDeep420 (K : EncKernel) (q : DeepConf) (src0 src1 : Buf) (p : Nat) (o : Planes4) (cx ux : Nat) :
    Outcome Planes4 := do
  let c0 ← loadRgb16 q.ch src0 p
  let c1 ← loadRgb16 q.ch src1 p
  let c0 := each K.pre c0
  let c1 := each K.pre c1
  let out := storedReg q.e q.bp q.d
  let y0 ← store16 8 (out (K.luma c0)) cx o.1
  let y1 ← store16 8 (out (K.luma c1)) cx o.2.1
  let h := each halve16 (each2 rhadd16 c0 c1)
  let u ← store16 4 (out (K.cb h)) ux o.2.2.1
  let v ← store16 4 (out (K.cr h)) ux o.2.2.2
  return (y0, y1, u, v)

/-- Two rows: /repo/src/neon/rgb_to_yuv_p16_420.rs:88-297 and 350-582. -/
def encDeepRow420 (K : EncKernel) (q : DeepConf) (width : Nat) (rgba0 rgba1 : Buf) (o : Planes4)
    (cx ux : Nat) : Outcome (Planes4 × Nat × Nat) := do
  let r ← vwhile 8 4 width
    (fun cx ux o => encDeep420 K q rgba0 rgba1 (cx * q.ch.count) o cx ux) cx ux o
  encTail420 8 q.ch.count width (fun s0 s1 b => encDeep420 K q s0 s1 0 b 0 0) rgba0 rgba1 r.1 r.2.1 r.2.2

/-! ## Dispatch -/

/-- The kernel chosen: `RgbEncoder::default`, /repo/src/rgb16_to_yuv_p16.rs:128-161, and
`RgbEncoder420::default`, lines 314-352.  `rdm`: the processor has rounding multiply-accumulate. -/
def encKernel (rdm : Bool) (q : DeepConf) : EncKernel :=
  if rdm = true ∧ q.d = 10 then rdmKernel q.d q.rg q.t else wideKernel q.rg q.t

/-- The row encoder. -/
def deepEncoder (rdm : Bool) (s : Sampling) (q : DeepConf) (width : Nat) : RowEncoder := fun y u v rgba => do
  let r ← encDeepRow (encKernel rdm q) s q width rgba (y, u, v) 0 0
  return (r.1.1, r.1.2.1, r.1.2.2, r.2.1)
/-- The encoder of two rows. -/
def deepEncoder420 (rdm : Bool) (q : DeepConf) (width : Nat) : RowEncoder420 := fun y0 y1 u v rgba0 rgba1 => do
  let r ← encDeepRow420 (encKernel rdm q) q width rgba0 rgba1 (y0, y1, u, v) 0 0
  return (r.1.1, r.1.2.1, r.1.2.2.1, r.1.2.2.2, r.2.1)

/-- The `rgb[a]{10,12,14,16}_to_i{0,2,4}{10,12,14,16}[_be]` functions on 64-bit ARM. -/
def rgb16ToP16 (rdm : Bool) (e : Endianness) (bp : BytesPacking) (d : Nat) (ch : Channels)
    (s : Sampling) (i : Planar) (rgba : Buf) (stride : Nat) (rg : YuvRange) (m : Matrix) : Outcome Planar :=
  let q : DeepConf := ⟨e, bp, d, ch, getYuvRange d rg, computedForward 15 d rg m⟩
  Verif.rgb16ToP16 x64 e bp d ch s (deepEncoder rdm s q i.width) (deepEncoder420 rdm q i.width) i rgba stride
    rg m

end Verif.Neon
