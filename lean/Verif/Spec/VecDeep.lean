import Verif.Spec.VecDecode
import Verif.Spec.Deep
/-!
# Specification of the x86 decoding arithmetic of 10- to 16-bit images

Every sample is a native sample: bytes in order, shifted down from the most
significant bits.  Samples are any 16-bit words, also beyond the depth; the
arithmetic wraps then.
-/
namespace Verif.Spec

/-- A number reduced to the range of an `i16`. -/
def int16 (x : Int) : Int := (x + 32768) % 65536 - 32768

/-- The luma above its offset (zero below it), two bits longer: `4x` with the two highest of the `d`
bits of `x` repeated below, in 16 bits. -/
def longLuma (d yo : Nat) : Int := int16 ((4 * yo % 65536 ||| yo / 2 ^ (d - 2) : Nat) : Int)

/-- Red, green and blue of a sample triple in the 16-bit kernels (10 bits on AVX2, 10 and 12 bits on
SSE4.1): every term is rounded on its own, the sum wraps to 16 bits and is clamped to the depth. -/
def deepVecRGB (d : Nat) (c : ChromaRange) (t : InvCoef) (y u v : Nat) : Nat × Nat × Nat :=
  let l := mulRound (longLuma d (y - c.biasY)) t.y
  let cb := int16 (4 * ((u : Int) - c.biasUv))
  let cr := int16 (4 * ((v : Int) - c.biasUv))
  let q := fun x : Int => saturate d (int16 x)
  (q (l + mulRound cr t.cr), q (l + mulRound cr (-t.g1) + mulRound cb (-t.g2)),
    q (l + mulRound cb t.cb))

/-- Red, green and blue of a sample triple in the 32-bit kernel (12, 14 and 16 bits on AVX2): the
sum of the exact products, rounded once; only the luma above its offset (below 16 bits) and the
centred chroma wrap. -/
def deepWideRGB (d : Nat) (c : ChromaRange) (t : InvCoef) (y u v : Nat) : Nat × Nat × Nat :=
  let l := (if d = 16 then ((y - c.biasY : Nat) : Int) else int16 ((y - c.biasY : Nat) : Int)) * t.y
  let cb := int16 ((u : Int) - c.biasUv)
  let cr := int16 ((v : Int) - c.biasUv)
  let q := fun x : Int => saturate d (roundShift (2 ^ 12 - 1) 13 x)
  (q (l + cr * t.cr), q (l - cb * t.g2 - cr * t.g1), q (l + cb * t.cb))

/-- An opaque pixel of depth `d`. -/
def deepOpaque (d : Nat) (ch : Channels) (c : Nat × Nat × Nat) : Buf :=
  layout ch c.1 c.2.1 c.2.2 (2 ^ d - 1)

end Verif.Spec
