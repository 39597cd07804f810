import Verif.Model.Checks
import Verif.Spec.Frame
/-!
# Well-formed images

An image is *good* when its rows are long enough and every plane consists of
exactly the rows the image needs, the last one included in full (elements beyond
the image are allowed in every row, and less than one further row after the
last).  Validation accepts more than that; what happens outside is the subject
of C16.
-/
namespace Verif.Spec

/-- Number of chroma columns (rows) covering `n > 0` luma columns (rows). -/
def cover (n d : Nat) : Nat := (n - 1) / d + 1

/-- A plane of `rows` full rows, each holding at least `cols` elements. -/
structure GoodPlane (buf : Buf) (stride cols rows B : Nat) : Prop where
  stride32 : U32 stride
  cols_le : cols ≤ stride
  full : FullRows buf.length stride rows
  bound : ∀ a ∈ buf, a < B

/-- A planar image whose samples are below `B`. -/
structure GoodPlanar (i : Planar) (s : Sampling) (B : Nat) : Prop where
  wpos : 0 < i.width
  hpos : 0 < i.height
  w32 : U32 i.width
  h32 : U32 i.height
  y : GoodPlane i.y i.yStride i.width i.height B
  u : GoodPlane i.u i.uStride (cover i.width (hdiv s)) (cover i.height (vdiv s)) B
  v : GoodPlane i.v i.vStride (cover i.width (hdiv s)) (cover i.height (vdiv s)) B

/-- A packed buffer for `w × h` pixels of `cn` elements. -/
structure GoodDst (len stride w h cn : Nat) : Prop where
  stride32 : U32 stride
  cols_le : w * cn ≤ stride
  full : FullRows len stride h
  addressable : len < 2 ^ 64

/-- Luma sample of pixel `(x, y)`. -/
def Planar.Y (i : Planar) (x y : Nat) : Nat := at' i.y i.yStride x y
/-- Cb sample covering pixel `(x, y)`. -/
def Planar.U (i : Planar) (s : Sampling) (x y : Nat) : Nat :=
  at' i.u i.uStride (x / hdiv s) (y / vdiv s)
/-- Cr sample covering pixel `(x, y)`. -/
def Planar.V (i : Planar) (s : Sampling) (x y : Nat) : Nat :=
  at' i.v i.vStride (x / hdiv s) (y / vdiv s)

/-- A semi-planar image whose samples are below `B`.  Validation does not allow padding in the
interleaved plane. -/
structure GoodBiPlanar (i : BiPlanar) (s : Sampling) (B : Nat) : Prop where
  wpos : 0 < i.width
  hpos : 0 < i.height
  w32 : U32 i.width
  h32 : U32 i.height
  y : GoodPlane i.y i.yStride i.width i.height B
  uvStride32 : U32 i.uvStride
  uvStride : i.uvStride = 2 * cover i.width (hdiv s)
  uvLen : i.uv.length = i.uvStride * cover i.height (vdiv s)
  uvBound : ∀ a ∈ i.uv, a < B

/-- Luma sample of pixel `(x, y)`. -/
def BiPlanar.Y (i : BiPlanar) (x y : Nat) : Nat := at' i.y i.yStride x y
/-- Element `k` of the chroma pair covering pixel `(x, y)`. -/
def BiPlanar.C (i : BiPlanar) (s : Sampling) (k x y : Nat) : Nat :=
  at' i.uv i.uvStride (2 * (x / hdiv s) + k) (y / vdiv s)
/-- Cb sample covering pixel `(x, y)`: the first of the pair in the UV formats (NV12, NV16, NV24),
the second in the VU formats (NV21, NV61, NV42). -/
def BiPlanar.U (i : BiPlanar) (s : Sampling) : NVOrder → Nat → Nat → Nat
  | .uv => BiPlanar.C i s 0
  | .vu => BiPlanar.C i s 1
/-- Cr sample covering pixel `(x, y)`. -/
def BiPlanar.V (i : BiPlanar) (s : Sampling) : NVOrder → Nat → Nat → Nat
  | .uv => BiPlanar.C i s 1
  | .vu => BiPlanar.C i s 0

end Verif.Spec
