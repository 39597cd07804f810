import Verif.Model.Gray
import Verif.Model.NeonDeep8
import Verif.Model.X86Gray
/-!
# 64-bit ARM with NEON: the grey decoders of 10 to 16 bits

/repo/src/neon/y_p16_to_rgba16.rs, with its call in `yuv400_p16_to_rgbx_impl`,
/repo/src/y_p16_to_rgb16.rs:165-192 (limited range only).  Eight pixels per step, the last one to eight through
zeroed buffers.  Registers and intrinsics as in Verif.Model.Neon; a load or store that leaves its slice, which
the code does not check, is `panic` here.
-/
namespace Verif.Neon
open X86

/-- Models `neon_store_rgb16`, /repo/src/neon/utils.rs:527-553: `vst3q_u16` and `vst4q_u16` interleave. -/
def storeRgb16 (ch : Channels) (p : Nat) (r g b a : Reg) (row : Buf) : Outcome Buf :=
  storeRgb 8 ch p (w16 r) (w16 g) (w16 b) (w16 a) row

/-- `vqshrn_n_u32::<q>` of two registers and `vcombine_u16` of the results. -/
def qshrnU (q : Nat) (lo hi : Reg) : Reg := mk16 fun j =>
  ((min 65535 (if j < 4 then w32 lo j / 2 ^ q else w32 hi (j - 4) / 2 ^ q) : Nat) : Int)

/-- Grey words of luma words above their offset: /repo/src/neon/y_p16_to_rgba16.rs:55-58 (coefficient, rounding)
and 70-80. -/
def greyWords (d : Nat) (t : InvCoef) (y : Reg) : Reg :=
  let part := fun o => mlalU o (set1_32 (2 ^ 12 - 1)) y t.y
  let r := qshrnU 13 (part 0) (part 4)
  if d ≠ 16 then minU16 r (set1_16 (2 ^ d - 1)) else r

/-- Eight pixels: /repo/src/neon/y_p16_to_rgba16.rs:63-88 and 105-130. -/
def greyDeepBody (e : Endianness) (bp : BytesPacking) (d : Nat) (ch : Channels) (rg : ChromaRange)
    (t : InvCoef) (y : Buf) (cx p : Nat) (row : Buf) : Outcome Buf := do
  let yv ← load16 8 y cx
  let r := greyWords d t (subsU16 (nativeReg e bp d yv) (set1_16 rg.biasY))
  storeRgb16 ch p r r r (set1_16 (2 ^ d - 1)) row

/-- Models `neon_y_p16_to_rgba16_row`, /repo/src/neon/y_p16_to_rgba16.rs:36-145. -/
def greyDeepRow (e : Endianness) (bp : BytesPacking) (d : Nat) (ch : Channels) (rg : ChromaRange)
    (t : InvCoef) (width : Nat) (y row : Buf) : Outcome Buf := do
  let r ← vwhile 8 0 width (fun cx _ row => greyDeepBody e bp d ch rg t y cx (cx * ch.count) row) 0 0 row
  grayTail 8 ch.count width (fun yb db => greyDeepBody e bp d ch rg t yb 0 0 db) y r.1 r.2.1

/-- The NEON code of a row, /repo/src/y_p16_to_rgb16.rs:179-192; the callers fix little endian and the low
bits, lines 252-258. -/
def greyDeepHandler (d : Nat) (ch : Channels) (rg : ChromaRange) (t : InvCoef) (width : Nat) : MapHandler :=
  fun rows row => do
    let r ← greyDeepRow .little .lsb d ch rg t width (rows.getD 0 []) row
    return (r, width)

/-- `yuv400_p16_to_rgbx_impl` (`Verif.yDeepToRgbx`) on 64-bit ARM. -/
def yDeepToRgbx (d : Nat) (ch : Channels) (i : Gray) (rgba : Buf) (stride : Nat) (rg : YuvRange)
    (m : Matrix) : Outcome Buf :=
  Verif.yDeepToRgbx d ch (greyDeepHandler d ch (getYuvRange d rg) (searchInverse 13 d rg m) i.width) i rgba
    stride rg m

end Verif.Neon
