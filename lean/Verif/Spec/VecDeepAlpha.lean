import Verif.Model.X86Decode
import Verif.Spec.VecDeep8
/-!
# Specification of the x86 decoding of 10- and 12-bit images with an alpha plane

Samples are native 16-bit words, also beyond the depth; the arithmetic wraps then.
-/
namespace Verif.Spec

/-- Red, green and blue at the depth of the image from the luma above its offset, `yo`: every term
is rounded on its own, the sum wraps to 16 bits and is clamped to the depth. -/
def shiftRGB (d : Nat) (c : ChromaRange) (t : InvCoef) (yo : Int) (u v : Nat) : Nat × Nat × Nat :=
  let l := mulRound (int16 (4 * yo)) t.y
  let cb := int16 (4 * ((u : Int) - c.biasUv))
  let cr := int16 (4 * ((v : Int) - c.biasUv))
  let q := fun x : Int => saturate d (int16 x)
  (q (l + mulRound cr t.cr), q (l + mulRound cr (-t.g1) + mulRound cb (-t.g2)),
    q (l + mulRound cb t.cb))

/-- The columns of a row of `w` pixels a loop of steps of `n` pixels completes if it always leaves
at least one. -/
def vecCols (n w : Nat) : Nat := n * ((w - 1) / n)

/-- The column whose alpha a 256-bit kernel stores in column `x` of a row of `w` pixels: in the
blocks of 32 pixels the right half gets the alpha of the left. -/
def pairedCol (w x : Nat) : Nat := if x < vecCols 32 w ∧ 16 ≤ x % 32 then x - 16 else x

/-- An 8-bit alpha from a 16-bit word, which counts as signed. -/
def vecAlpha8 (d a : Nat) : Nat := byteSat (int16 a / 2 ^ (d - 8))

end Verif.Spec

namespace Verif.X86
open Spec

/-- The decoding of the 32-pixel loop and of the 16-pixel loop of the AVX2 kernels. -/
abbrev satRGB (d : Nat) (rg : ChromaRange) (t : InvCoef) (y u v : Nat) : Nat × Nat × Nat :=
  shiftRGB d rg t ((y - rg.biasY : Nat) : Int) u v
abbrev subRGB (d : Nat) (rg : ChromaRange) (t : InvCoef) (y u v : Nat) : Nat × Nat × Nat :=
  shiftRGB d rg t ((y : Int) - rg.biasY) u v

/-- The column the alpha of column `x` comes from. -/
def deepAlphaSrc (cpu : Cpu) (d w x : Nat) : Nat :=
  if cpu = .avx2 ∧ d ≤ 12 then pairedCol w x else x

/-- Red, green and blue of native samples in a column the vector code completes. -/
def deepAlphaRGB (cpu : Cpu) (d : Nat) (rg : ChromaRange) (t : InvCoef) (w x : Nat) :
    Nat → Nat → Nat → Nat × Nat × Nat :=
  if cpu = .avx2 ∧ x < vecCols 32 w then satRGB d rg t
  else if cpu = .avx2 ∧ x < vecCols 16 w then subRGB d rg t
  else deepVecRGB d rg t

abbrev sat8RGB (d : Nat) (rg : ChromaRange) (t : InvCoef) (y u v : Nat) : Nat × Nat × Nat :=
  deep8RGB d rg t ((y - rg.biasY : Nat) : Int) u v
abbrev sub8RGB (d : Nat) (rg : ChromaRange) (t : InvCoef) (y u v : Nat) : Nat × Nat × Nat :=
  deep8RGB d rg t ((y : Int) - rg.biasY) u v

/-- The column the alpha of column `x` comes from. -/
def deepAlpha8Src (cpu : Cpu) (w x : Nat) : Nat := if cpu = .avx2 then pairedCol w x else x

/-- Red, green and blue of native samples in a column the vector code completes. -/
def deepAlpha8RGB (cpu : Cpu) (d : Nat) (rg : ChromaRange) (t : InvCoef) (w x : Nat) :
    Nat → Nat → Nat → Nat × Nat × Nat :=
  if cpu = .avx2 ∧ vecCols 32 w ≤ x ∧ x < vecCols 16 w then sub8RGB d rg t else sat8RGB d rg t

/-- Widths for which the 16-pixel store of the 8-pixel kernel stays in the row. -/
def SafeWidth8 (cpu : Cpu) (w : Nat) : Prop :=
  match cpu with
  | .avx2 => w % 16 ≤ 8
  | .sse41 => w ≤ 8 ∨ w % 8 = 0
  | .plain => True

end Verif.X86
