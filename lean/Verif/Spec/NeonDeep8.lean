import Verif.Spec.VecDeep
/-!
# Specification of the 64-bit ARM decoding arithmetic of 10- and 12-bit images to 8 bits

Samples are native 16-bit words, also beyond the depth; luma above its offset and chroma wrap to 16 bits then.
-/
namespace Verif.Spec

/-- A sum with 13 fractional bits, rounded at the depth of the image, cut down to 8 bits and saturated. -/
def cutTo8 (d : Nat) (s : Int) : Nat := byteSat (max 0 (min ((s + 4096) / 8192) 65535) / 2 ^ (d - 8))

/-- Red, green and blue in the NEON kernel. -/
def neonDeep8RGB (d : Nat) (c : ChromaRange) (t : InvCoef) (y u v : Nat) : Nat × Nat × Nat :=
  let l := int16 ((y - c.biasY : Nat) : Int) * t.y
  let cb := int16 ((u : Int) - c.biasUv)
  let cr := int16 ((v : Int) - c.biasUv)
  (cutTo8 d (l + cr * t.cr), cutTo8 d (l - cr * t.g1 - cb * t.g2), cutTo8 d (l + cb * t.cb))

/-- The opaque pixel of the kernel. -/
def neonDeep8Pixel (d : Nat) (ch : Channels) (c : ChromaRange) (t : InvCoef) (y u v : Nat) : Buf :=
  let p := neonDeep8RGB d c t y u v
  layout ch p.1 p.2.1 p.2.2 255

end Verif.Spec
