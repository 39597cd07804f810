import Verif.Model.NeonEncode
import Verif.Model.X86Shuffle
/-!
# 64-bit ARM with NEON: the channel shuffles

/repo/src/neon/shuffle.rs, with the choice made by `make_converter` (/repo/src/shuffle.rs:109-113).  See
Verif.Model.Neon; the loops over chunks are those of Verif.Model.X86Shuffle.
-/
namespace Verif.Neon
open X86

/-- Models `neon_vld_rgb` (`n` = 16), /repo/src/neon/utils.rs:367-406, and `neon_vld_h_rgb` (8), 447-487: red,
green, blue and alpha of `n` pixels.  `d` is the alpha given to a layout without one: 255 in the first (line
388), 0 in the second (468).  The four registers come from one load in the code, alpha from a second in the
model. -/
def loadRgba (n d : Nat) (ch : Channels) (l : Buf) (p : Nat) : Outcome (Reg × Reg × Reg × Reg) := do
  let c ← loadRgb n ch l p
  match ch with
  | .rgb | .bgr => return (c.1, c.2.1, c.2.2, set1_8 d)
  | .rgba | .bgra => do
    let a ← load (n * 4) l p
    return (c.1, c.2.1, c.2.2, fun i => a (4 * i + 3))

/-- `n` pixels: /repo/src/neon/shuffle.rs:63-64, 78-79 and 95-96. -/
def shufStep (n d : Nat) (sc dc : Channels) (src : Buf) (p q : Nat) (row : Buf) : Outcome Buf := do
  let v ← loadRgba n d sc src p
  storeRgb n dc q v.1 v.2.1 v.2.2.1 v.2.2.2 row

/-- Models `shuffle_channels8_impl`, /repo/src/neon/shuffle.rs:52-99. -/
def shufRow (sc dc : Channels) (src row : Buf) : Outcome Buf := do
  let r ← chunkLoop (16 * sc.count) (16 * dc.count) (shufStep 16 255 sc dc src) src.length (row, 0, 0)
  let r ← chunkLoop (8 * sc.count) (8 * dc.count) (shufStep 8 0 sc dc src) src.length r
  chunkTail 64 64 (fun sb db => shufStep 8 0 sc dc sb 0 0 db) src r

/-- Models `make_converter` on AArch64, /repo/src/shuffle.rs:109-113; the converter finishes the row. -/
def shufHandler (sc dc : Channels) (width : Nat) : MapHandler := fun rows row => do
  let r ← shufRow sc dc (rows.getD 0 []) row
  return (r, width)

/-- Every function of /repo/src/shuffle.rs on AArch64. -/
def shuffleNeon (sc dc : Channels) (src : Buf) (sStride : Nat) (dst : Buf) (dStride w h : Nat) :
    Outcome Buf :=
  shuffle x64 sc dc (shufHandler sc dc w) src sStride dst dStride w h

end Verif.Neon
