import Verif.Spec.VecDeep
/-!
# Specification of the x86 decoding arithmetic of 10- and 12-bit images to 8 bits

Samples are native 16-bit words, also beyond the depth; the arithmetic wraps then.
-/
namespace Verif.Spec

/-- Red, green and blue in the 16-bit kernels from the luma above its offset, `yo`: every term is
rounded on its own at the depth of the image, the sum is cut down to 8 bits and saturated. -/
def deep8RGB (d : Nat) (c : ChromaRange) (t : InvCoef) (yo : Int) (u v : Nat) : Nat × Nat × Nat :=
  let l := mulRound (int16 (4 * yo)) t.y
  let cb := int16 (4 * ((u : Int) - c.biasUv))
  let cr := int16 (4 * ((v : Int) - c.biasUv))
  let q := fun x : Int => byteSat (int16 x / 2 ^ (d - 8))
  (q (l + mulRound cr t.cr), q (l + mulRound cr (-t.g1) + mulRound cb (-t.g2)),
    q (l + mulRound cb t.cb))

/-- The alpha the kernels store in column `x`: the bytes of the 16-bit word `2^d - 1`, in turn. -/
def wordAlpha (d x : Nat) : Nat := if x % 2 = 0 then 255 else 2 ^ (d - 8) - 1

/-- The pixel in column `x` of the kernels. -/
def deep8VecPixel (d : Nat) (ch : Channels) (c : ChromaRange) (t : InvCoef) (x y u v : Nat) : Buf :=
  let p := deep8RGB d c t ((y - c.biasY : Nat) : Int) u v
  layout ch p.1 p.2.1 p.2.2 (wordAlpha d x)

end Verif.Spec
