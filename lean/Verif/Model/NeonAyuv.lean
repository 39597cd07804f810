import Verif.Model.NeonAlpha
import Verif.Model.NeonYuy2
import Verif.Model.X86Ayuv
/-!
# 64-bit ARM with NEON: the packed 4:4:4 decoders

/repo/src/neon/ayuv_to_rgba.rs, with the choice made by `make_executor` (/repo/src/ayuv_to_rgb.rs:206-217).
See Verif.Model.Neon.
-/
namespace Verif.Neon
open X86

/-- Alpha, luma, Cb and Cr among the registers loaded: /repo/src/neon/ayuv_to_rgba.rs:115-142. -/
def ayuvPick (f : Packed444) (q : Reg × Reg × Reg × Reg) : Reg × Reg × Reg × Reg :=
  match f with
  | .ayuv => q
  | .vuya => (q.2.2.2, q.2.2.1, q.2.1, q.1)

/-- Sixteen pixels, read at byte `p` and written at byte `q`: /repo/src/neon/ayuv_to_rgba.rs:105-193 and
212-287. -/
def ayuvBody (rdm pm : Bool) (f : Packed444) (ch : Channels) (rg : ChromaRange) (t : InvCoef) (src : Buf)
    (p q : Nat) (row : Buf) : Outcome Buf := do
  let d ← load 64 src p
  let v := ayuvPick f (deinterleave4 d)
  putAlpha16 rdm pm ch t q (subsU8 v.2.1 (set1_8 rg.biasY)) (sub8 v.2.2.1 (corr rg)) (sub8 v.2.2.2 (corr rg))
    v.1 v.1 row

/-- The last pixels of a row, at most sixteen, through zeroed buffers on the stack:
/repo/src/neon/ayuv_to_rgba.rs:198-295. -/
def ayuvTail (cn width : Nat) (f : Buf → Buf → Outcome Buf) (src row : Buf) (cx : Nat) : Outcome Buf :=
  if cx < width then do
    let diff := width - cx
    if 16 < diff then .panic
    let sb ← copyIn src (cx * 4) (diff * 4) (List.replicate 64 0)
    let db ← f sb (List.replicate 64 0)
    copyOut db (diff * cn) row (cx * cn)
  else .ok row

/-- Models `neon_ayuv_to_rgba_impl`, /repo/src/neon/ayuv_to_rgba.rs:75-296. -/
def ayuvRow (rdm pm : Bool) (f : Packed444) (ch : Channels) (rg : ChromaRange) (t : InvCoef) (width : Nat)
    (src row : Buf) : Outcome Buf := do
  let r ← vwhile 16 0 width
    (fun cx _ row => ayuvBody rdm pm f ch rg t src (cx * 4) (cx * ch.count) row) 0 0 row
  ayuvTail ch.count width (fun sb d => ayuvBody rdm pm f ch rg t sb 0 0 d) src r.1 r.2.1

/-- Models `make_executor`, /repo/src/ayuv_to_rgb.rs:206-217: both executors take the whole row. -/
def ayuvHandler (rdm pm : Bool) (f : Packed444) (ch : Channels) (rg : ChromaRange) (t : InvCoef)
    (width : Nat) : MapHandler := fun rows row => do
  let r ← ayuvRow rdm pm f ch rg t width (rows.getD 0 []) row
  return (r, width)

/-- `ayuv_to_rgb_launch` (`Verif.ayuvToRgbx`) on AArch64. -/
def ayuvToRgbxNeon (rdm : Bool) (f : Packed444) (ch : Channels) (i : Packed) (dst : Buf) (stride : Nat)
    (rg : YuvRange) (m : Matrix) (pm : Bool) : Outcome Buf :=
  ayuvToRgbx x64 f ch
    (ayuvHandler rdm pm f ch (getYuvRange 8 rg) (searchInverse 13 8 rg m).castI16 i.width) i dst
    stride rg m pm

end Verif.Neon
