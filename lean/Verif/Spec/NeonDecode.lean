import Verif.Spec.VecDecode
/-!
# Specification of the decoding arithmetic on 64-bit ARM with NEON

Luma is extended from 8 to 10 bits, the chroma differences are multiplied by
four, and each term is scaled by its own doubling high multiply.  On processors
with the rounding multiply-accumulate instructions ("RDM") every term is
rounded to nearest, on the others every term is rounded down.
-/
namespace Verif.Spec

/-- The high half of twice the product, rounded to nearest if `rdm`, else down. -/
def neonScale (rdm : Bool) (a c : Int) : Int :=
  (2 * (a * c) + if rdm then 32768 else 0) / 65536

/-- The luma term of a luma sample `yo` above the offset: the byte repeated as a 16-bit number, the
upper ten bits of that (rounded), times the coefficient. -/
def neonLuma (rdm : Bool) (t : InvCoef) (yo : Nat) : Int :=
  neonScale rdm (((257 * yo + 32) / 64 : Nat) : Int) t.y

/-- Red and blue; green when the two green terms are subtracted (`two`: rows decoded in pairs), or
when their negations are added. -/
def neonRGB (rdm two : Bool) (t : InvCoef) (yo u v : Nat) : Nat × Nat × Nat :=
  let y := neonLuma rdm t yo
  let cb := 4 * ((u : Int) - 128)
  let cr := 4 * ((v : Int) - 128)
  (byteSat (y + neonScale rdm cr t.cr),
    byteSat (if two then y - (neonScale rdm cr t.g1 + neonScale rdm cb t.g2)
      else y + neonScale rdm cr (-t.g1) + neonScale rdm cb (-t.g2)),
    byteSat (y + neonScale rdm cb t.cb))

/-- The pixel with components `neonRGB`, opaque. -/
def neonPixelAt (rdm two : Bool) (ch : Channels) (t : InvCoef) (yo u v : Nat) : Buf :=
  layout ch (neonRGB rdm two t yo u v).1 (neonRGB rdm two t yo u v).2.1 (neonRGB rdm two t yo u v).2.2
    255

/-- The pixel of an 8-bit sample triple: the luma offset is subtracted with saturation at zero. -/
def neonPixel (rdm two : Bool) (ch : Channels) (rg : YuvRange) (m : Matrix) (y u v : Nat) : Buf :=
  neonPixelAt rdm two ch (searchInverse 13 8 rg m) (y - (getYuvRange 8 rg).biasY) u v

/-- The rows of an image of height `h` that are decoded in pairs: with 4:2:0 sub-sampling all but the
last one of an odd height, otherwise none. -/
def neonPaired (s : Sampling) (h y : Nat) : Bool := s == .yuv420 && y != 2 * (h / 2)

/-- The grey level of a luma sample. -/
def neonGray (rdm : Bool) (m : Matrix) (y : Nat) : Nat :=
  byteSat (neonLuma rdm (searchInverse 13 8 .limited m) (y - 16))

end Verif.Spec
