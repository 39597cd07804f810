import Verif.Spec.NeonAlpha
import Verif.Spec.Packed444
/-! # Specification of the 64-bit ARM decoders of packed 4:4:4 -/
namespace Verif.Spec

/-- The pixel of the four bytes `px`: every component multiplied by the alpha of the pixel if `pm`. -/
def neonPackedPixel (rdm pm : Bool) (f : Packed444) (ch : Channels) (rg : YuvRange) (m : Matrix) (px : Buf) :
    Buf :=
  let s := samples444 f px
  neonAlphaPixel rdm pm ch rg m false s.2.2.2 s.2.2.2 s.1 s.2.1 s.2.2.1

end Verif.Spec
