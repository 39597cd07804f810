import Verif.Spec.VecDeep
/-!
# Specification of the 64-bit ARM decoders of 10- to 16-bit images to RGB of the same depth
-/
namespace Verif.Spec

/-- Red, green and blue of a sample triple in the 32-bit NEON kernel: the sum of the exact products, rounded
once and saturated; luma below its offset counts as black, and only the centred chroma wraps. -/
def neonWideRGB (d : Nat) (c : ChromaRange) (t : InvCoef) (y u v : Nat) : Nat × Nat × Nat :=
  let l := ((y - c.biasY : Nat) : Int) * t.y
  let cb := int16 ((u : Int) - c.biasUv)
  let cr := int16 ((v : Int) - c.biasUv)
  let q := fun x : Int => saturate d (roundShift (2 ^ 12 - 1) 13 x)
  (q (l + cr * t.cr), q (l - cr * t.g1 - cb * t.g2), q (l + cb * t.cb))

/-- A number saturated to the range of an `i16`. -/
def sat16 (x : Int) : Int := max (-32768) (min x 32767)

/-- Red, green and blue of a sample triple in the 16-bit NEON kernels (processors with rounding
multiply-accumulate): every term is rounded on its own, every sum saturates. -/
def neonRdmRGB (d : Nat) (c : ChromaRange) (t : InvCoef) (y u v : Nat) : Nat × Nat × Nat :=
  let l := mulRound (longLuma d (y - c.biasY)) t.y
  let cb := int16 (4 * ((u : Int) - c.biasUv))
  let cr := int16 (4 * ((v : Int) - c.biasUv))
  (saturate d (l + mulRound cr t.cr), saturate d (sat16 (l + mulRound cr (-t.g1)) + mulRound cb (-t.g2)),
    saturate d (l + mulRound cb t.cb))

/-- Red, green and blue of a sample triple in the 32-bit NEON kernel of the semi-planar decoders: the sum of the
exact products of the centred samples, rounded once with ties up, and saturated. -/
def neonNvRGB (d : Nat) (c : ChromaRange) (t : InvCoef) (y u v : Nat) : Nat × Nat × Nat :=
  let l := int16 ((y : Int) - c.biasY) * t.y
  let cb := int16 ((u : Int) - c.biasUv)
  let cr := int16 ((v : Int) - c.biasUv)
  let q := fun x : Int => saturate d (roundShift (2 ^ 12) 13 x)
  (q (l + cr * t.cr), q (l - cr * t.g1 - cb * t.g2), q (l + cb * t.cb))

end Verif.Spec
