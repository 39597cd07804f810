import Verif.Spec.NeonDeep16
import Verif.Spec.Ar30
/-!
# Specification of the 64-bit ARM decoding of P010 and P210 to 30-bit RGB
-/
namespace Verif.Spec

/-- A component from its 14-bit fixed-point value: rounded up, and saturated to 10 bits. -/
def neonAr30Comp (x : Int) : Nat := saturate 10 ((x + 16383) / 2 ^ 14)

/-- Red, green and blue of a triple of 10-bit samples: luma below the offset counts as black, the weight of Cr is
taken modulo `2 ^ 16` as a signed number. -/
def neonAr30RGB (c : ChromaRange) (t : InvCoef) (y u v : Nat) : Nat × Nat × Nat :=
  let l := ((y - c.biasY : Nat) : Int) * t.y
  let cb := (u : Int) - c.biasUv
  let cr := (v : Int) - c.biasUv
  (neonAr30Comp (l + cr * int16 t.cr), neonAr30Comp (l - cr * t.g1 - cb * t.g2), neonAr30Comp (l + cb * t.cb))

end Verif.Spec
