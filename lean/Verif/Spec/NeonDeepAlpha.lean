import Verif.Spec.NeonDeep8
import Verif.Spec.Alpha
/-!
# Specification of the 64-bit ARM decoding of 10- and 12-bit images with an alpha plane to 8 bits
-/
namespace Verif.Spec

/-- The pixel of the NEON kernel: native colour samples and the native alpha sample, whose upper eight bits
are kept. -/
def neonAlpha8Pixel (d : Nat) (ch : Channels) (c : ChromaRange) (t : InvCoef) (a y u v : Nat) : Buf :=
  let p := neonDeep8RGB d c t y u v
  layout ch p.1 p.2.1 p.2.2 (alpha8 d a)

end Verif.Spec
