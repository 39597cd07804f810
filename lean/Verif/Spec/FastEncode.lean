import Verif.Spec.ProfEncode
import Verif.Spec.VecDecode
/-!
# Specification of the fast mode on x86

Weights of seven fractional bits, a sum of sixteen bits that wraps, saturation to a byte.  Subsampled
chroma is computed from averaged components: two rows first, then two neighbours, each rounding up.
-/
namespace Verif.Spec

/-- A component: the sum is kept in a 16-bit signed integer. -/
def fastVal (bias : Nat) (kr kg kb : Int) (r g b : Nat) : Nat :=
  byteSat (asI16 (r * kr + g * kg + b * kb + (bias * 128 + 63)) / 128)

/-- Cb of the components. -/
def fastCb (rg : YuvRange) (m : Matrix) (r g b : Nat) : Nat :=
  let t := searchForward 7 8 rg m
  fastVal (getYuvRange 8 rg).biasUv t.cbR t.cbG t.cbB r g b
/-- Cr of the components. -/
def fastCr (rg : YuvRange) (m : Matrix) (r g b : Nat) : Nat :=
  let t := searchForward 7 8 rg m
  fastVal (getYuvRange 8 rg).biasUv t.crR t.crG t.crB r g b

/-- The values the fast mode stores with AVX2 or SSE4.1. -/
def fastVals (ch : Channels) (rg : YuvRange) (m : Matrix) : Vals where
  y px := let t := searchForward 7 8 rg m
    fastVal (getYuvRange 8 rg).biasY t.yr t.yg t.yb (red ch px) (green ch px) (blue ch px)
  u1 a := fastCb rg m (red ch a) (green ch a) (blue ch a)
  v1 a := fastCr rg m (red ch a) (green ch a) (blue ch a)
  u2 a b := fastCb rg m (avg2 (red ch a) (red ch b)) (avg2 (green ch a) (green ch b))
    (avg2 (blue ch a) (blue ch b))
  v2 a b := fastCr rg m (avg2 (red ch a) (red ch b)) (avg2 (green ch a) (green ch b))
    (avg2 (blue ch a) (blue ch b))
  u4 a b c d := fastCb rg m (avg2 (avg2 (red ch a) (red ch c)) (avg2 (red ch b) (red ch d)))
    (avg2 (avg2 (green ch a) (green ch c)) (avg2 (green ch b) (green ch d)))
    (avg2 (avg2 (blue ch a) (blue ch c)) (avg2 (blue ch b) (blue ch d)))
  v4 a b c d := fastCr rg m (avg2 (avg2 (red ch a) (red ch c)) (avg2 (red ch b) (red ch d)))
    (avg2 (avg2 (green ch a) (green ch c)) (avg2 (green ch b) (green ch d)))
    (avg2 (avg2 (blue ch a) (blue ch c)) (avg2 (blue ch b) (blue ch d)))

end Verif.Spec
