import Verif.Spec.Parts
/-!
# Specification of the professional mode on x86

Luma and the chroma of 4:4:4 are evaluated at precision 15, as in the scalar code.  Subsampled chroma is
evaluated at precision 16 on the sum of two neighbouring components, which the scalar code averages
before; the components of two rows are averaged first, rounding up.
-/
namespace Verif.Spec

/-- The average of two components, halves up. -/
def avg2 (a b : Nat) : Nat := (a + b + 1) / 2

/-- Cb of components that are sums of two: precision 16. -/
def profCb (rg : YuvRange) (m : Matrix) (r g b : Nat) : Nat :=
  let t := searchForward 15 8 rg m
  low8 (encVal 16 t.cbR t.cbG t.cbB (getYuvRange 8 rg).biasUv r g b)
/-- Cr of components that are sums of two. -/
def profCr (rg : YuvRange) (m : Matrix) (r g b : Nat) : Nat :=
  let t := searchForward 15 8 rg m
  low8 (encVal 16 t.crR t.crG t.crB (getYuvRange 8 rg).biasUv r g b)

/-- The values the professional mode stores with AVX2 or SSE4.1. -/
def profVals (ch : Channels) (rg : YuvRange) (m : Matrix) : Vals where
  y := luma8 15 ch rg m
  u1 a := cb8 15 ch rg m avgUp [a]
  v1 a := cr8 15 ch rg m avgUp [a]
  u2 a b := profCb rg m (red ch a + red ch b) (green ch a + green ch b) (blue ch a + blue ch b)
  v2 a b := profCr rg m (red ch a + red ch b) (green ch a + green ch b) (blue ch a + blue ch b)
  u4 a b c d := profCb rg m (avg2 (red ch a) (red ch c) + avg2 (red ch b) (red ch d))
    (avg2 (green ch a) (green ch c) + avg2 (green ch b) (green ch d))
    (avg2 (blue ch a) (blue ch c) + avg2 (blue ch b) (blue ch d))
  v4 a b c d := profCr rg m (avg2 (red ch a) (red ch c) + avg2 (red ch b) (red ch d))
    (avg2 (green ch a) (green ch c) + avg2 (green ch b) (green ch d))
    (avg2 (blue ch a) (blue ch c) + avg2 (blue ch b) (blue ch d))

end Verif.Spec
