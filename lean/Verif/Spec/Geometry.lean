import Verif.Model.Support
/-!
# Specification of image geometry

What it means for a buffer to hold the samples of an image, said in terms of
pixel coordinates only.
-/
namespace Verif.Spec

/-- Horizontal subsampling: the chroma column that covers luma column `x` is `x / hdiv`. -/
def hdiv : Sampling → Nat
  | .yuv420 => 2 | .yuv422 => 2 | .yuv444 => 1

/-- Vertical subsampling: the chroma row that covers luma row `y` is `y / vdiv`. -/
def vdiv : Sampling → Nat
  | .yuv420 => 2 | .yuv422 => 1 | .yuv444 => 1

/-- A value fits the Rust type `u32`. -/
def U32 (n : Nat) : Prop := n < 2 ^ 32

/-- A plane of `len` elements with rows `stride` apart holds, for every pixel
`(x, y)` of a `w × h` image, the sample `(x / hd, y / vd)`: its column lies
inside the row and its index inside the buffer. -/
def PlaneCovers (len stride hd vd w h : Nat) : Prop :=
  ∀ x y, x < w → y < h → x / hd < stride ∧ y / vd * stride + x / hd < len

/-- A packed buffer holds all `cn` components of every pixel of a `w × h` image,
and no pixel's row runs into the next one. -/
def PackedCovers (len stride cn w h : Nat) : Prop :=
  ∀ x y c, x < w → y < h → c < cn → x * cn + c < stride ∧ y * stride + (x * cn + c) < len

end Verif.Spec
