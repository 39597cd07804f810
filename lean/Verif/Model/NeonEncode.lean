import Verif.Model.Neon
import Verif.Model.X86Parts
import Verif.Model.X86Prof
/-!
# 64-bit ARM with NEON: the 8-bit encoders

/repo/src/neon/rgba_to_yuv.rs, rgba_to_yuv420.rs, rgba_to_nv.rs, rgba_to_nv420.rs (the balanced mode, with
and without the rounding multiply-accumulate instructions, RDM), rgb_to_yuv_prof.rs, rgb_to_yuv420_prof.rs,
rgb_to_nv_prof.rs, rgb_to_nv420_prof.rs (professional) and rgbx_to_yuv_fast.rs, rgbx_to_yuv_fast420.rs,
rgbx_to_nv_fast.rs, rgbx_to_nv_fast420.rs (fast), with the choice made in /repo/src/rgba_to_yuv.rs and
/repo/src/rgba_to_nv.rs.  All have the shape of Verif.Model.X86Parts; those with RDM have a second loop, of
eight pixels.  Semantics of the intrinsics, and registers, as in Verif.Model.Neon.  The features `rdm`,
`fast_mode` and `professional_mode` are on, `nightly_i8mm` is off.
-/
namespace Verif.Neon
open X86

/-! ## Loads and data movement -/

/-- Red, green and blue, each in a register. -/
abbrev Rgb := Reg × Reg × Reg

/-- The same on each channel. -/
def each (f : Reg → Reg) (c : Rgb) : Rgb := (f c.1, f c.2.1, f c.2.2)
/-- The same on each channel of two rows. -/
def each2 (f : Reg → Reg → Reg) (c d : Rgb) : Rgb := (f c.1 d.1, f c.2.1 d.2.1, f c.2.2 d.2.2)

/-- Models `neon_vld_rgb_for_yuv` (`n` = 16) and `neon_vld_h_rgb_for_yuv` (8),
/repo/src/neon/utils.rs:329-364 and 409-444: `vld3` and `vld4` separate the bytes. -/
def loadRgb (n : Nat) (ch : Channels) (l : Buf) (p : Nat) : Outcome Rgb := do
  let a ← load (n * ch.count) l p
  match ch with
  | .rgb => return (fun i => a (3 * i), fun i => a (3 * i + 1), fun i => a (3 * i + 2))
  | .bgr => return (fun i => a (3 * i + 2), fun i => a (3 * i + 1), fun i => a (3 * i))
  | .rgba => return (fun i => a (4 * i), fun i => a (4 * i + 1), fun i => a (4 * i + 2))
  | .bgra => return (fun i => a (4 * i + 2), fun i => a (4 * i + 1), fun i => a (4 * i))

/-- `vmovl_u8`, `vmovl_high_u8` (`sh` = 0), `vshll_n_u8::<4>`, `vshll_high_n_u8::<4>` (4): the eight bytes
from `o` on as words. -/
def wide (sh o : Nat) (a : Reg) : Reg := mk16 fun k => ((a (o + k) * 2 ^ sh : Nat) : Int)
/-- `vget_low_u8` (`o` = 0), `vget_high_u8` (8). -/
def half (o : Nat) (a : Reg) : Reg := fun k => a (o + k)
/-- `vpaddlq_u8`, `vpaddl_u8`: sums of two neighbouring bytes. -/
def paddl (a : Reg) : Reg := mk16 fun k => ((a (2 * k) + a (2 * k + 1) : Nat) : Int)
/-- `vrshrq_n_u16::<1>`. -/
def rshr1 (a : Reg) : Reg := mk16 fun k => (((w16 a k + 1) / 2 : Nat) : Int)
/-- `vrhaddq_u16`. -/
def rhadd16 (a b : Reg) : Reg := mk16 fun k => (((w16 a k + w16 b k + 1) / 2 : Nat) : Int)
/-- `vhaddq_u8`. -/
def hadd8 (a b : Reg) : Reg := fun i => (a i + b i) / 2
/-- `vshlq_n_u16::<q>`. -/
def shl16 (q : Nat) (a : Reg) : Reg := mk16 fun k => ((w16 a k * 2 ^ q : Nat) : Int)
/-- `vmovn_u16`: the low bytes of words. -/
def movn (a : Reg) : Reg := fun i => w16 a i % 256
/-- `vqshrn_n_u16::<q>`. -/
def qshrn16 (q : Nat) (a : Reg) : Reg := fun i => min 255 (w16 a i / 2 ^ q)

/-! ## Sums of products of eight pixels, one byte each -/

/-- `vmlal_laneq_s16` (`o` = 0), `vmlal_high_laneq_s16` (4). -/
def mlal (o : Nat) (acc v : Reg) (c : Int) : Reg := mk32 fun j => s32 acc j + s16 v (o + j) * c
/-- `vmlal_laneq_u16` (`o` = 0), `vmlal_high_laneq_u16` (4). -/
def mlalU (o : Nat) (acc v : Reg) (c : Int) : Reg :=
  mk32 fun j => ((w32 acc j + w16 v (o + j) * asU16 c : Nat) : Int)
/-- Saturation to `i32`. -/
def satI32 (x : Int) : Int := max (-2147483648) (min x 2147483647)
/-- `vqdmlal_laneq_s16` (`o` = 0), `vqdmlal_high_laneq_s16` (4): the doubled product and the sum saturate. -/
def qdmlal (o : Nat) (acc v : Reg) (c : Int) : Reg :=
  mk32 fun j => satI32 (s32 acc j + satI32 (2 * (s16 v (o + j) * c)))
/-- `vshrn_n_s32::<q>` of two registers and `vcombine_s16` of the results. -/
def shrn (q : Nat) (lo hi : Reg) : Reg := mk16 fun j =>
  if j < 4 then s32 lo j / 2 ^ q else s32 hi (j - 4) / 2 ^ q
/-- `vqshrn_n_s32::<q>` of two registers and `vcombine_s16` of the results. -/
def qshrn (q : Nat) (lo hi : Reg) : Reg := mk16 fun j =>
  satI16 (if j < 4 then s32 lo j / 2 ^ q else s32 hi (j - 4) / 2 ^ q)
/-- `vshrn_n_u32::<q>` of two registers and `vcombine_u16` of the results. -/
def shrnU (q : Nat) (lo hi : Reg) : Reg := mk16 fun j =>
  ((if j < 4 then w32 lo j / 2 ^ q else w32 hi (j - 4) / 2 ^ q : Nat) : Int)

/-- The three channels added to `acc`, in this order.  The weights are cast to `i16`
(/repo/src/neon/rgba_to_yuv.rs:66-76 and 394-404). -/
def sum3 (mac : Reg → Reg → Int → Reg) (acc : Reg) (k : Int × Int × Int) (c : Rgb) : Reg :=
  mac (mac (mac acc c.1 (asI16 k.1)) c.2.1 (asI16 k.2.1)) c.2.2 (asI16 k.2.2)

/-- A weight vector or the channels in the order blue, green, red. -/
def bgrOrder {α : Type} (k : α × α × α) : α × α × α := (k.2.2, k.2.1, k.1)
/-- In the order red, blue, green. -/
def rbgOrder {α : Type} (k : α × α × α) : α × α × α := (k.1, k.2.2, k.2.1)
/-- In the order blue, red, green. -/
def brgOrder {α : Type} (k : α × α × α) : α × α × α := (k.2.2, k.1, k.2.1)

/-- Balanced mode without RDM, words to bytes: /repo/src/neon/rgba_to_yuv.rs:388-395 (the bias),
433-459 and 536 (luma), 505-532 (chroma). -/
def balDot (bias : Nat) (k : Int × Int × Int) (c : Rgb) : Reg :=
  let b := set1_32 (profBias 13 bias)
  movn (shrn 13 (sum3 (mlal 0) b k c) (sum3 (mlal 4) b k c))
/-- Luma of a single row of a semi-planar image, without RDM: `vdotl_laneq_u16_x3`,
/repo/src/neon/utils.rs:139-158, /repo/src/neon/rgba_to_nv.rs:429-455 and 560. -/
def balDotU (bias : Nat) (k : Int × Int × Int) (c : Rgb) : Reg :=
  let b := set1_32 (profBias 13 bias)
  movn (shrnU 13 (sum3 (mlalU 0) b k c) (sum3 (mlalU 4) b k c))
/-- Balanced mode with RDM, words to bytes, with the bias times four and its rounding:
/repo/src/neon/rgba_to_yuv.rs:59-64, 94-103 (luma), 145-155 (chroma). -/
def rdmDot (bias : Nat) (k : Int × Int × Int) (c : Rgb) : Reg :=
  qshrn16 2 (sum3 (mlah true) (set1_16 bias) k c)
/-- Professional mode, words to bytes, the narrowing without saturation: `vqddotl_laneq_s16_x3`,
/repo/src/neon/utils.rs:115-136, and /repo/src/neon/rgb_to_yuv_prof.rs:77-129. -/
def profDot (bias : Nat) (k : Int × Int × Int) (c : Rgb) : Reg :=
  let b := set1_32 (profBias 16 bias)
  movn (shrn 16 (sum3 (qdmlal 0) b k c) (sum3 (qdmlal 4) b k c))
/-- The narrowing with saturation: /repo/src/neon/rgb_to_yuv_prof.rs:141-162,
/repo/src/neon/rgb_to_yuv420_prof.rs:60-75 and 149-173. -/
def profDotQ (bias : Nat) (k : Int × Int × Int) (c : Rgb) : Reg :=
  let b := set1_32 (profBias 16 bias)
  movn (qshrn 16 (sum3 (qdmlal 0) b k c) (sum3 (qdmlal 4) b k c))

/-- `vmlal_u8`, `vmlal_high_u8` on eight bytes: the weight is `abs() as u8`. -/
def mlal8 (acc a : Reg) (c : Int) : Reg := mk16 fun k => ((w16 acc k + a k * (c.natAbs % 256) : Nat) : Int)
/-- `vmlsl_u8`, `vmlsl_high_u8` on eight bytes. -/
def mlsl8 (acc a : Reg) (c : Int) : Reg := mk16 fun k => (w16 acc k : Int) - (a k * (c.natAbs % 256) : Nat)
/-- Fast mode, luma of eight pixels: /repo/src/neon/rgbx_to_yuv_fast.rs:79-89. -/
def fastLumaDot (bias : Nat) (k : Int × Int × Int) (c : Rgb) : Reg :=
  qshrn16 7 (mlal8 (mlal8 (mlal8 (set1_16 (bias * 2 ^ 7 + (2 ^ 6 - 1))) c.1 k.1) c.2.1 k.2.1) c.2.2 k.2.2)
/-- Fast mode, chroma: the first channel is added, the others are subtracted,
/repo/src/neon/rgbx_to_yuv_fast.rs:136-144. -/
def fastChromaDot (bias : Nat) (k : Int × Int × Int) (c : Rgb) : Reg :=
  qshrn16 7 (mlsl8 (mlsl8 (mlal8 (set1_16 (bias * 2 ^ 7 + (2 ^ 6 - 1))) c.1 k.1) c.2.1 k.2.1) c.2.2 k.2.2)

/-! ## Steps -/

/-- The arithmetic of a step of a kernel. -/
structure Arith where
  /-- Luma, one byte per pixel. -/
  luma : Rgb → Reg
  /-- Cb, one byte per pixel. -/
  cb : Rgb → Reg
  /-- Cr, one byte per pixel. -/
  cr : Rgb → Reg
  /-- Cb, one byte per two pixels of a row. -/
  cbPairs : Rgb → Reg
  /-- Cr, one byte per two pixels of a row. -/
  crPairs : Rgb → Reg
  /-- Cb, one byte per two pixels of two rows. -/
  cbRows : Rgb → Rgb → Reg
  /-- Cr, one byte per two pixels of two rows. -/
  crRows : Rgb → Rgb → Reg

/-- A step of `n` pixels.  The channels of one row, or of two, are kept until chroma is computed;
`vst2` and `vzip1` interleave (/repo/src/neon/rgba_to_nv.rs:501-511 and 547-557). -/
def part (n : Nat) (ch : Channels) (a : Arith) : Part (Rgb × Option Rgb) where
  n := n
  load l p := do
    let c ← loadRgb n ch l p
    return (c, none)
  luma c := a.luma c.1
  cb c := a.cb c.1
  cr c := a.cr c.1
  avg c d := (c.1, some d.1)
  cbPairs c := match c.2 with
    | none => a.cbPairs c.1
    | some d => a.cbRows c.1 d
  crPairs c := match c.2 with
    | none => a.crPairs c.1
    | some d => a.crRows c.1 d
  inter a b := (zip1 a b, zip2 n a b)
  uvBuf := 2 * n

/-- Sixteen bytes from the words of the lower and the upper half. -/
def bytes16 (w : Nat → Reg → Reg) (dlo dhi : Rgb → Reg) (c : Rgb) : Reg :=
  combine 8 (dlo (each (w 0) c)) (dhi (each (w 8) c))

/-- Balanced mode without RDM: `encode_16_part`, /repo/src/neon/rgba_to_yuv.rs:413-538, and, for two rows,
/repo/src/neon/rgba_to_yuv420.rs:354-500.  `lumaDot` is the sum of luma. -/
def balArith (lumaDot : Nat → Int × Int × Int → Rgb → Reg) (rg : ChromaRange) (t : FwdCoef) : Arith where
  luma := bytes16 (wide 0) (lumaDot rg.biasY (kLuma t)) (lumaDot rg.biasY (kLuma t))
  cb := bytes16 (wide 0) (balDot rg.biasUv (kCb t)) (balDot rg.biasUv (kCb t))
  cr := bytes16 (wide 0) (balDot rg.biasUv (kCr t)) (balDot rg.biasUv (kCr t))
  cbPairs c := balDot rg.biasUv (kCb t) (each (fun a => rshr1 (paddl a)) c)
  crPairs c := balDot rg.biasUv (kCr t) (each (fun a => rshr1 (paddl a)) c)
  cbRows c d := balDot rg.biasUv (kCb t) (each2 (fun a b => rshr1 (rhadd16 (paddl a) (paddl b))) c d)
  crRows c d := balDot rg.biasUv (kCr t) (each2 (fun a b => rshr1 (rhadd16 (paddl a) (paddl b))) c d)

/-- `y_bias`, /repo/src/neon/rgba_to_yuv.rs:63. -/
def rdmBiasY (rg : ChromaRange) : Nat := rg.biasY * 4
/-- `uv_bias`, /repo/src/neon/rgba_to_yuv.rs:64. -/
def rdmBiasUv (rg : ChromaRange) : Nat := rg.biasUv * 4 + (2 - 1)

/-- Balanced mode with RDM, sixteen pixels: /repo/src/neon/rgba_to_yuv.rs:82-159,
/repo/src/neon/rgba_to_yuv420.rs:81-155, /repo/src/neon/rgba_to_nv.rs:87-177,
/repo/src/neon/rgba_to_nv420.rs:38-132.  `lowSwap`: luma of the lower half adds blue before green
(/repo/src/neon/rgba_to_yuv.rs:95-99). -/
def rdmArith16 (lowSwap : Bool) (rg : ChromaRange) (t : FwdCoef) : Arith where
  luma := bytes16 (wide 4)
    (if lowSwap then fun c => rdmDot (rdmBiasY rg) (rbgOrder (kLuma t)) (rbgOrder c)
      else rdmDot (rdmBiasY rg) (kLuma t)) (rdmDot (rdmBiasY rg) (kLuma t))
  cb := bytes16 (wide 4) (rdmDot (rdmBiasUv rg) (kCb t)) (rdmDot (rdmBiasUv rg) (kCb t))
  cr := bytes16 (wide 4) (rdmDot (rdmBiasUv rg) (kCr t)) (rdmDot (rdmBiasUv rg) (kCr t))
  cbPairs c := rdmDot (rdmBiasUv rg) (kCb t) (each (fun a => shl16 3 (paddl a)) c)
  crPairs c := rdmDot (rdmBiasUv rg) (kCr t) (each (fun a => shl16 3 (paddl a)) c)
  cbRows c d := rdmDot (rdmBiasUv rg) (kCb t) (each2 (fun a b => shl16 2 (add16 (paddl a) (paddl b))) c d)
  crRows c d := rdmDot (rdmBiasUv rg) (kCr t) (each2 (fun a b => shl16 2 (add16 (paddl a) (paddl b))) c d)

/-- Eight pixels: /repo/src/neon/rgba_to_yuv.rs:165-226, /repo/src/neon/rgba_to_yuv420.rs:159-225,
/repo/src/neon/rgba_to_nv.rs:181-250.  Of subsampled chroma the first four bytes are stored; the code
repeats them in the other four. -/
def rdmArith8 (rg : ChromaRange) (t : FwdCoef) : Arith where
  luma c := rdmDot (rdmBiasY rg) (kLuma t) (each (wide 4 0) c)
  cb c := rdmDot (rdmBiasUv rg) (kCb t) (each (wide 4 0) c)
  cr c := rdmDot (rdmBiasUv rg) (kCr t) (each (wide 4 0) c)
  cbPairs c := rdmDot (rdmBiasUv rg) (kCb t) (each (fun a => shl16 3 (paddl a)) c)
  crPairs c := rdmDot (rdmBiasUv rg) (kCr t) (each (fun a => shl16 3 (paddl a)) c)
  cbRows c d := rdmDot (rdmBiasUv rg) (kCb t) (each2 (fun a b => shl16 2 (add16 (paddl a) (paddl b))) c d)
  crRows c d := rdmDot (rdmBiasUv rg) (kCr t) (each2 (fun a b => shl16 2 (add16 (paddl a) (paddl b))) c d)

/-- Professional mode: `encode_16_part_prof`, /repo/src/neon/rgb_to_yuv_prof.rs:37-166 and
/repo/src/neon/rgb_to_nv_prof.rs:37-172 (`two` = false), `encode_16_part_prof420`,
/repo/src/neon/rgb_to_yuv420_prof.rs:35-178 and /repo/src/neon/rgb_to_nv420_prof.rs:35-180 (true). -/
def profArith (two : Bool) (rg : ChromaRange) (t : FwdCoef) : Arith where
  luma := if two then bytes16 (wide 0) (profDotQ rg.biasY (kLuma t)) (profDotQ rg.biasY (kLuma t))
    else bytes16 (wide 0) (profDot rg.biasY (kLuma t)) (profDot rg.biasY (kLuma t))
  cb := bytes16 (wide 0) (profDot rg.biasUv (kCb t)) (profDot rg.biasUv (kCb t))
  cr := bytes16 (wide 0) (profDot rg.biasUv (kCr t)) (profDot rg.biasUv (kCr t))
  cbPairs c := profDotQ rg.biasUv (kCb t) (each (fun a => rshr1 (paddl a)) c)
  crPairs c := profDotQ rg.biasUv (kCr t) (each (fun a => rshr1 (paddl a)) c)
  cbRows c d := profDotQ rg.biasUv (bgrOrder (kCb t))
    (bgrOrder (each2 (fun a b => rshr1 (paddl (avg8 a b))) c d))
  crRows c d := profDotQ rg.biasUv (kCr t) (each2 (fun a b => rshr1 (paddl (avg8 a b))) c d)

/-- Fast mode: /repo/src/neon/rgbx_to_yuv_fast.rs:75-152, /repo/src/neon/rgbx_to_yuv_fast420.rs:73-132,
/repo/src/neon/rgbx_to_nv_fast.rs:77-166, /repo/src/neon/rgbx_to_nv_fast420.rs:70-135. -/
def fastArith (rg : ChromaRange) (t : FwdCoef) : Arith where
  luma := bytes16 half (fastLumaDot rg.biasY (kLuma t)) (fastLumaDot rg.biasY (kLuma t))
  cb := bytes16 half (fun c => fastChromaDot rg.biasUv (bgrOrder (kCb t)) (bgrOrder c))
    (fun c => fastChromaDot rg.biasUv (bgrOrder (kCb t)) (bgrOrder c))
  cr := bytes16 half (fastChromaDot rg.biasUv (kCr t)) (fastChromaDot rg.biasUv (kCr t))
  cbPairs c := fastChromaDot rg.biasUv (bgrOrder (kCb t))
    (bgrOrder (each (fun a => qshrn16 1 (paddl a)) c))
  crPairs c := fastChromaDot rg.biasUv (kCr t) (each (fun a => qshrn16 1 (paddl a)) c)
  cbRows c d := fastChromaDot rg.biasUv (brgOrder (kCb t))
    (brgOrder (each2 (fun a b => qshrn16 1 (paddl (hadd8 a b))) c d))
  crRows c d := fastChromaDot rg.biasUv (kCr t) (each2 (fun a b => qshrn16 1 (paddl (hadd8 a b))) c d)

/-! ## Rows with two loops -/

section
variable {C D : Type} (P : Part C) (Q : Part D)

/-- A row with a loop of `P`, then one of `Q`, then the last pixels with `Q`: `neon_rgba_to_yuv_rdm`,
/repo/src/neon/rgba_to_yuv.rs:39-367. -/
def encRow2 (s : Sampling) (cn width : Nat) (rgba : Buf) (o : Planes) (cx ux : Nat) :
    Outcome (Planes × Nat × Nat) := do
  let r ← vwhile P.n (chromaStep s P.n) width (fun cx ux o => P.enc s rgba (cx * cn) o cx ux) cx ux o
  let r ← vwhile Q.n (chromaStep s Q.n) width (fun cx ux o => Q.enc s rgba (cx * cn) o cx ux) r.2.1 r.2.2 r.1
  encTail Q.n s cn width (fun sb b => Q.enc s sb 0 b 0 0) rgba r.1 r.2.1 r.2.2
/-- Two rows: `neon_rgba_to_yuv_rdm420`, /repo/src/neon/rgba_to_yuv420.rs:38-351. -/
def encRow2x420 (cn width : Nat) (rgba0 rgba1 : Buf) (o : Planes4) (cx ux : Nat) :
    Outcome (Planes4 × Nat × Nat) := do
  let r ← vwhile P.n (P.n / 2) width (fun cx ux o => P.enc420 rgba0 rgba1 (cx * cn) o cx ux) cx ux o
  let r ← vwhile Q.n (Q.n / 2) width (fun cx ux o => Q.enc420 rgba0 rgba1 (cx * cn) o cx ux) r.2.1 r.2.2 r.1
  encTail420 Q.n cn width (fun s0 s1 b => Q.enc420 s0 s1 0 b 0 0) rgba0 rgba1 r.1 r.2.1 r.2.2
/-- A row of a semi-planar image: `neon_rgbx_to_nv_row_rdm`, /repo/src/neon/rgba_to_nv.rs:38-380. -/
def encRowNv2 (od : NVOrder) (s : Sampling) (cn width : Nat) (rgba : Buf) (d : Planes2) (cx ux : Nat) :
    Outcome (Planes2 × Nat × Nat) := do
  let r ← vwhile P.n (chromaStep s P.n * 2) width
    (fun cx ux d => P.encNv od s rgba (cx * cn) d cx ux) cx ux d
  let r ← vwhile Q.n (chromaStep s Q.n * 2) width
    (fun cx ux d => Q.encNv od s rgba (cx * cn) d cx ux) r.2.1 r.2.2 r.1
  nvEncTail Q.n s cn width (fun sb b => Q.encNv od s sb 0 b 0 0) rgba r.1 r.2.1 r.2.2

/-- `handle_row`, /repo/src/rgba_to_yuv.rs:79-114, with such a handler. -/
def rowEncoder2 (s : Sampling) (cn width : Nat) : RowEncoder := fun y u v rgba => do
  let r ← encRow2 P Q s cn width rgba (y, u, v) 0 0
  return (r.1.1, r.1.2.1, r.1.2.2, r.2.1)
/-- `handle_row`, /repo/src/rgba_to_yuv.rs:474-512, with such a handler. -/
def rowEncoder2x420 (cn width : Nat) : RowEncoder420 := fun y0 y1 u v rgba0 rgba1 => do
  let r ← encRow2x420 P Q cn width rgba0 rgba1 (y0, y1, u, v) 0 0
  return (r.1.1, r.1.2.1, r.1.2.2.1, r.1.2.2.2, r.2.1)
/-- `handle_row`, /repo/src/rgba_to_nv.rs:545-575, with such a handler. -/
def rowEncoderNv2 (od : NVOrder) (s : Sampling) (cn width : Nat) : RowEncoderNV := fun y uv rgba => do
  let r ← encRowNv2 P Q od s cn width rgba (y, uv) 0 0
  return (r.1.1, r.1.2, r.2.1)
end

/-! ## Images -/

/-- `rgbx_to_yuv8` in the balanced mode with the row encoders `RgbEncoder::default`,
/repo/src/rgba_to_yuv.rs:126-148, and `RgbEncoder420::default`, :413-428, choose: `rdm` says whether the
processor has RDM. -/
def rgbxToYuvNeon (rdm : Bool) (ch : Channels) (s : Sampling) (i : Planar) (rgba : Buf) (stride : Nat)
    (rg : YuvRange) (m : Matrix) : Outcome Planar :=
  let c := getYuvRange 8 rg
  let t := searchForward 13 8 rg m
  if rdm then
    rgbxToYuv x64 .balanced ch s
      (rowEncoder2 (part 16 ch (rdmArith16 true c t)) (part 8 ch (rdmArith8 c t)) s ch.count i.width)
      (rowEncoder2x420 (part 16 ch (rdmArith16 false c t)) (part 8 ch (rdmArith8 c t)) ch.count i.width)
      i rgba stride rg m
  else (part 16 ch (balArith balDot c t)).toYuv .balanced ch s i rgba stride rg m

/-- `rgbx_to_nv` in the balanced mode with the row encoders `SemiPlanarEncoder::default`,
/repo/src/rgba_to_nv.rs:383-440, and `SemiPlanar420Encoder::default`, :100-185, choose. -/
def rgbxToNvNeon (rdm : Bool) (od : NVOrder) (ch : Channels) (s : Sampling) (i : BiPlanar) (rgba : Buf)
    (stride : Nat) (rg : YuvRange) (m : Matrix) : Outcome BiPlanar :=
  let c := getYuvRange 8 rg
  let t := searchForward 13 8 rg m
  if rdm then
    rgbxToNv x64 .balanced od ch s
      (rowEncoderNv2 (part 16 ch (rdmArith16 false c t)) (part 8 ch (rdmArith8 c t)) od s ch.count i.width)
      ((part 16 ch (rdmArith16 false c t)).rowEncoderNv420 od ch.count i.width) i rgba stride rg m
  else
    rgbxToNv x64 .balanced od ch s
      ((part 16 ch (balArith balDotU c t)).rowEncoderNv od s ch.count i.width)
      ((part 16 ch (balArith balDot c t)).rowEncoderNv420 od ch.count i.width) i rgba stride rg m

/-- `rgbx_to_yuv8` in the professional mode with the row encoders `RgbEncoderProfessional::default`,
/repo/src/rgba_to_yuv.rs:276-312, and `RgbEncoder420Professional::default`, :532-569, choose. -/
def rgbxToYuvProfNeon (ch : Channels) (s : Sampling) (i : Planar) (rgba : Buf) (stride : Nat)
    (rg : YuvRange) (m : Matrix) : Outcome Planar :=
  let c := getYuvRange 8 rg
  let t := searchForward 15 8 rg m
  rgbxToYuv x64 .professional ch s ((part 16 ch (profArith false c t)).rowEncoder s ch.count i.width)
    ((part 16 ch (profArith true c t)).rowEncoder420 ch.count i.width) i rgba stride rg m

/-- `SAMPLING.into()` where the order is expected: 4:2:0 is 0, the number of `UV`
(/repo/src/yuv_support.rs:319-360).  Another subsampling has no encoder of two rows. -/
def samplingAsOrder : NVOrder := .uv

/-- `rgbx_to_nv` in the professional mode with the row encoders `SemiPlanarEncoderProfessional::default`,
/repo/src/rgba_to_nv.rs:502-543, and `SemiPlanar420EncoderProfessional::default`, :245-264, choose.  The
latter passes `SAMPLING` for `UV_ORDER`. -/
def rgbxToNvProfNeon (od : NVOrder) (ch : Channels) (s : Sampling) (i : BiPlanar) (rgba : Buf)
    (stride : Nat) (rg : YuvRange) (m : Matrix) : Outcome BiPlanar :=
  let c := getYuvRange 8 rg
  let t := searchForward 15 8 rg m
  rgbxToNv x64 .professional od ch s
    ((part 16 ch (profArith false c t)).rowEncoderNv od s ch.count i.width)
    ((part 16 ch (profArith true c t)).rowEncoderNv420 samplingAsOrder ch.count i.width) i rgba stride rg m

/-- `rgbx_to_yuv8` in the fast mode with the row encoders `RgbEncoderFast::default`,
/repo/src/rgba_to_yuv.rs:195-273, and `RgbEncoder420Fast::default`, :574-663, choose. -/
def rgbxToYuvFastNeon (ch : Channels) (s : Sampling) (i : Planar) (rgba : Buf) (stride : Nat)
    (rg : YuvRange) (m : Matrix) : Outcome Planar :=
  (part 16 ch (fastArith (getYuvRange 8 rg) (searchForward 7 8 rg m))).toYuv .fast ch s i rgba stride rg m

/-- `rgbx_to_nv` in the fast mode: `SemiPlanarEncoderFast::default`, /repo/src/rgba_to_nv.rs:444-500, and
`SemiPlanar420EncoderFast::default`, :186-243. -/
def rgbxToNvFastNeon (od : NVOrder) (ch : Channels) (s : Sampling) (i : BiPlanar) (rgba : Buf)
    (stride : Nat) (rg : YuvRange) (m : Matrix) : Outcome BiPlanar :=
  (part 16 ch (fastArith (getYuvRange 8 rg) (searchForward 7 8 rg m))).toNv .fast od ch s i rgba stride rg m

end Verif.Neon
