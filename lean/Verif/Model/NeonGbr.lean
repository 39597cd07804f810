import Verif.Model.NeonEncode
import Verif.Model.X86Gbr
/-!
# 64-bit ARM with NEON: the 8-bit GBR decoders

/repo/src/neon/gbr_to_rgb.rs, with the choice made by `WideRowGbrProcessor` and
`WideRowGbrLimitedProcessor` (/repo/src/from_identity.rs:69-143).  Semantics of the intrinsics, and
registers, as in Verif.Model.Neon and Verif.Model.NeonEncode.  The feature `rdm` is on.
-/
namespace Verif.Neon
open X86

/-- Models `vmullnq_s16` at precision 13 for the factor `k` (`y_coeff as u16`),
/repo/src/neon/utils.rs:235-239: `vmull_u16`, then `vrshrn_n_u32::<13>`, which rounds and keeps the low
sixteen bits. -/
def mulln (a : Reg) (k : Int) : Reg := mk16 fun j => ((w16 a j * asU16 k + 4096) / 8192 : Nat)

/-- `vqmovn_u16` of two registers and `vcombine_u8` of the results. -/
def qmovnU (a b : Reg) : Reg := fun i => min 255 (if i < 8 then w16 a i else w16 b (i - 8))

/-- What becomes of the bytes of a plane in limited range: the saturating `vqsubq_u8`, then with RDM
`vshll_n_u8::<2>`, `vqrdmulhq_s16` and `vqmovun_s16`, /repo/src/neon/gbr_to_rgb.rs:79-100 and 145-166, or
`vmovl_u8`, `vmullnq_s16` and `vqmovn_u16`, 215-236 and 282-303. -/
def gbrLimited (rdm : Bool) (bias : Nat) (k : Int) (v : Reg) : Reg :=
  let v := subsU8 v (set1_8 bias)
  if rdm then qmovun (mulh true (wide 2 0 v) (asI16 k)) (mulh true (wide 2 8 v) (asI16 k))
  else qmovnU (mulln (wide 0 0 v) k) (mulln (wide 0 8 v) k)

/-- 16 pixels, `f` being applied to the bytes of each plane: /repo/src/neon/gbr_to_rgb.rs:75-109,
141-174 (the tail), 211-246, 278-311 (the tail); full range (`f` is the identity) 344-356, 388-398. -/
def gbrStep (ch : Channels) (f : Reg → Reg) (g b r : Buf) (cx p : Nat) (row : Buf) : Outcome Buf := do
  let gv ← load 16 g cx
  let bv ← load 16 b cx
  let rv ← load 16 r cx
  storeRgb 16 ch p (f rv) (f gv) (f bv) (set1_8 255) row

/-- Models `yuv_to_rgba_row_limited_impl_rdm`, `yuv_to_rgba_row_limited` and `yuv_to_rgba_row_full`,
/repo/src/neon/gbr_to_rgb.rs:51-188, 190-326 and 328-413; the tail goes through buffers of 16 pixels as
with SSE4.1 (`X86.gbrTail`). -/
def gbrRow (ch : Channels) (f : Reg → Reg) (width : Nat) (g b r row : Buf) (cx : Nat) :
    Outcome (Buf × Nat) := do
  let s ← vwhile 16 0 width (fun cx _ row => gbrStep ch f g b r cx (cx * ch.count) row) cx 0 row
  gbrTail 16 ch.count width (fun g b r d => gbrStep ch f g b r 0 0 d) g b r s.1 s.2.1

/-- `gbr_to_rgbx` (`Verif.gbrToRgbx`) at 8 bits on AArch64: /repo/src/from_identity.rs:69-143. -/
def gbrToRgbxNeon (rdm : Bool) (ch : Channels) (i : Planar) (rgba : Buf) (stride : Nat)
    (rg : YuvRange) : Outcome Buf :=
  gbrToRgbx x64 8 ch
    (fun rows row => gbrRow ch (gbrLimited rdm (getYuvRange 8 .limited).biasY (gbrInvCoef 8)) i.width
      (rows.getD 0 []) (rows.getD 1 []) (rows.getD 2 []) row 0)
    (fun rows row => gbrRow ch id i.width (rows.getD 0 []) (rows.getD 1 []) (rows.getD 2 []) row 0)
    i rgba stride rg

end Verif.Neon
