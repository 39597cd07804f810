import Verif.Model.NeonEncode
import Verif.Model.X86Gray
/-!
# 64-bit ARM with NEON: the grey encoder, and the grey decoder with an alpha plane

/repo/src/neon/rgb_to_y.rs and /repo/src/neon/y_to_rgb_alpha.rs, with the choice made in
/repo/src/rgb_to_y.rs and /repo/src/y_with_alpha_to_rgb.rs.  Semantics of the intrinsics, and registers, as
in Verif.Model.Neon and Verif.Model.NeonEncode.  The feature `rdm` is on.
-/
namespace Verif.Neon
open X86

/-! ## The encoder -/

/-- Luma of eight pixels without RDM, words to bytes: the offset is added to the sum as it is, and nothing
is added for rounding, /repo/src/neon/rgb_to_y.rs:126-131, 162-187 and 205-217. -/
def rawDot (bias : Nat) (k : Int × Int × Int) (c : Rgb) : Reg :=
  movn (shrn 13 (sum3 (mlal 0) (set1_32 bias) k c) (sum3 (mlal 4) (set1_32 bias) k c))

/-- Luma of 16 pixels: /repo/src/neon/rgb_to_y.rs:69-87 and 146-187. -/
def toGray16 (rdm : Bool) (rg : ChromaRange) (t : FwdCoef) : Rgb → Reg :=
  if rdm then bytes16 (wide 4) (rdmDot (rdmBiasY rg) (kLuma t)) (rdmDot (rdmBiasY rg) (kLuma t))
  else bytes16 (wide 0) (rawDot rg.biasY (kLuma t)) (rawDot rg.biasY (kLuma t))

/-- Luma of eight pixels: /repo/src/neon/rgb_to_y.rs:97-105 and 197-217. -/
def toGray8 (rdm : Bool) (rg : ChromaRange) (t : FwdCoef) (c : Rgb) : Reg :=
  if rdm then rdmDot (rdmBiasY rg) (kLuma t) (each (wide 4 0) c)
  else rawDot rg.biasY (kLuma t) (each (wide 0 0) c)

/-- A step of `n` pixels, the source read at byte `p`, luma written at `cx`:
/repo/src/neon/rgb_to_y.rs:65-91, 93-110, 142-191 and 193-220. -/
def toGrayStep (n : Nat) (f : Rgb → Reg) (ch : Channels) (src : Buf) (p cx : Nat) (o : Buf) :
    Outcome Buf := do
  let c ← loadRgb n ch src p
  store n (f c) cx o

/-- Models `neon_rgb_to_y_rdm` and `neon_rgb_to_y_row`, /repo/src/neon/rgb_to_y.rs:37-113 and 115-223: the
last pixels of the row, at most eight, are left to the portable code. -/
def toGrayRow (rdm : Bool) (ch : Channels) (rg : ChromaRange) (t : FwdCoef) (width : Nat) (src o : Buf)
    (cx : Nat) : Outcome (Buf × Nat) := do
  let r ← vwhile 16 0 width
    (fun cx _ o => toGrayStep 16 (toGray16 rdm rg t) ch src (cx * ch.count) cx o) cx 0 o
  let r ← vwhile 8 0 width
    (fun cx _ o => toGrayStep 8 (toGray8 rdm rg t) ch src (cx * ch.count) cx o) r.2.1 0 r.1
  return (r.1, r.2.1)

/-- `rgbx_to_y` (`Verif.rgbxToY`) on AArch64: /repo/src/rgb_to_y.rs:97-111 and 177-187. -/
def rgbxToYNeon (rdm : Bool) (ch : Channels) (i : Gray) (rgba : Buf) (stride : Nat) (rg : YuvRange)
    (m : Matrix) : Outcome Buf :=
  rgbxToY x64 ch (fun rows row =>
    toGrayRow rdm ch (getYuvRange 8 rg) (searchForward 13 8 rg m) i.width (rows.getD 0 []) row 0) i rgba
    stride rg m

/-! ## The decoder -/

/-- The bodies of the loops, sources read at `cx`, destination written at byte `p`:
/repo/src/neon/y_to_rgb_alpha.rs:88-133, 135-164 and 166-189. -/
def greyAlphaBody (rdm : Bool) (st : Step) (ch : Channels) (rg : ChromaRange) (t : InvCoef) (y a : Buf)
    (cx p : Nat) (row : Buf) : Outcome Buf := do
  let yv ← load st.n y cx
  let av ← load st.n a cx
  let yv := subsU8 yv (set1_8 rg.biasY)
  match st with
  | .s32 => do
    let r0 := grey16 rdm t yv
    let r1 := grey16 rdm t (upper 16 yv)
    let row ← storeRgb 16 ch p r0 r0 r0 av row
    storeRgb 16 ch (p + ch.count * 16) r1 r1 r1 (upper 16 av) row
  | .s16 =>
    let r := grey16 rdm t yv
    storeRgb 16 ch p r r r av row
  | .s8 =>
    let r := grey8 rdm t yv
    storeRgb 8 ch p r r r av row

/-- The last pixels, at most eight, through zeroed buffers on the stack:
/repo/src/neon/y_to_rgb_alpha.rs:191-237. -/
def greyAlphaTail (rdm : Bool) (ch : Channels) (rg : ChromaRange) (t : InvCoef) (width : Nat)
    (y a row : Buf) (cx : Nat) : Outcome (Buf × Nat) :=
  if cx < width then do
    let diff := width - cx
    if 8 < diff then .panic
    let yb ← copyIn y cx diff (List.replicate 8 0)
    let ab ← copyIn a cx diff (List.replicate 8 0)
    let d ← greyAlphaBody rdm .s8 ch rg t yb ab 0 0 (List.replicate (8 * 4) 0)
    let row ← copyOut d (diff * ch.count) row (cx * ch.count)
    return (row, cx + diff)
  else .ok (row, cx)

/-- Models `neon_y_to_rgb_row_alpha_impl`, /repo/src/neon/y_to_rgb_alpha.rs:65-240.  The assertion that the
destination has alpha has been made by the caller. -/
def greyAlphaRow (rdm : Bool) (ch : Channels) (rg : ChromaRange) (t : InvCoef) (width : Nat)
    (y a row : Buf) (cx : Nat) : Outcome (Buf × Nat) := do
  let r ← vwhile 32 0 width
    (fun cx _ row => greyAlphaBody rdm .s32 ch rg t y a cx (cx * ch.count) row) cx 0 row
  let r ← vwhile 16 0 width
    (fun cx _ row => greyAlphaBody rdm .s16 ch rg t y a cx (cx * ch.count) row) r.2.1 0 r.1
  let r ← vwhile 8 0 width
    (fun cx _ row => greyAlphaBody rdm .s8 ch rg t y a cx (cx * ch.count) row) r.2.1 0 r.1
  greyAlphaTail rdm ch rg t width y a r.1 r.2.1

/-- `y_with_alpha_to_rgbx` (`Verif.yAlphaToRgbx`) on AArch64:
/repo/src/y_with_alpha_to_rgb.rs:107-127. -/
def yAlphaToRgbxNeon (rdm : Bool) (ch : Channels) (i : GrayAlpha) (rgba : Buf) (stride : Nat)
    (rg : YuvRange) (m : Matrix) : Outcome Buf :=
  yAlphaToRgbx x64 ch (fun rows row => greyAlphaRow rdm ch (getYuvRange 8 rg) (searchInverse 13 8 rg m)
    i.width (rows.getD 0 []) (rows.getD 1 []) row 0) i rgba stride rg m

end Verif.Neon
