import Verif.Spec.NeonDeep16
import Verif.Spec.Alpha
/-!
# Specification of the 64-bit ARM decoding of 10- to 14-bit images with an alpha plane
-/
namespace Verif.Spec

/-- Red, green and blue of a sample triple in the 32-bit NEON kernel: luma below the offset counts as black, the
sum of the exact products is rounded once with ties up, and saturated. -/
def neonAlpha16RGB (d : Nat) (c : ChromaRange) (t : InvCoef) (y u v : Nat) : Nat × Nat × Nat :=
  let l := int16 ((y - c.biasY : Nat) : Int) * t.y
  let cb := int16 ((u : Int) - c.biasUv)
  let cr := int16 ((v : Int) - c.biasUv)
  let q := fun x : Int => saturate d (roundShift (2 ^ 12) 13 x)
  (q (l + cr * t.cr), q (l - cr * t.g1 - cb * t.g2), q (l + cb * t.cb))

/-- Column `x` of a row of `w` pixels keeps its alpha: the last block of a row, one to eight pixels, starts at the
last multiple of eight below `w`, and of the alpha of that block only as many words are read as it has chroma
samples (`hd` columns share one). -/
def KeepsAlpha (hd w x : Nat) : Prop :=
  let start := 8 * ((w - 1) / 8)
  x < start + (w - start + hd - 1) / hd

instance (hd w x : Nat) : Decidable (KeepsAlpha hd w x) := by unfold KeepsAlpha; infer_instance

end Verif.Spec
