import Verif.Spec.Geometry
import Verif.Model.F32
/-!
# Specification of what a converter must have written

`FrameSpec` describes the destination buffer after a conversion in terms of
pixel coordinates only: the components of pixel `(x, y)` sit at
`y*stride + x*cn + c`, and every element that belongs to no pixel is what it
was before.
-/
namespace Verif.Spec

/-- Elements fit `u8`. -/
def Bytes (l : Buf) : Prop := ∀ v ∈ l, v < 256
/-- Elements fit `d` bits. -/
def Samples (d : Nat) (l : Buf) : Prop := ∀ v ∈ l, v < 2 ^ d

/-- Index `i` belongs to some pixel of a `w × h` frame of `cn`-component pixels. -/
def InFrame (stride w h cn i : Nat) : Prop :=
  ∃ x y c, x < w ∧ y < h ∧ c < cn ∧ i = y * stride + (x * cn + c)

/-- `out` is `dst` with exactly the pixels of the `w × h` frame replaced by `pix x y`
(a list of `cn` components). -/
def FrameSpec (out dst : Buf) (stride w h cn : Nat) (pix : Nat → Nat → Buf) : Prop :=
  out.length = dst.length ∧
  (∀ x y c, x < w → y < h → c < cn → out[y * stride + (x * cn + c)]? = (pix x y)[c]?) ∧
  (∀ i, ¬ InFrame stride w h cn i → out[i]? = dst[i]?)

/-- The components of pixel `(x, y)`. -/
def pixelAt (buf : Buf) (stride cn x y : Nat) : Buf := (buf.drop (y * stride + x * cn)).take cn

/-- `out` is `dst` with exactly the pixels of the `w × h` frame replaced, each new pixel
`(x, y)` satisfying `R x y`. -/
def FrameRel (out dst : Buf) (stride w h cn : Nat) (R : Nat → Nat → Buf → Prop) : Prop :=
  out.length = dst.length ∧
  (∀ x y, x < w → y < h → R x y (pixelAt out stride cn x y)) ∧
  (∀ i, ¬ InFrame stride w h cn i → out[i]? = dst[i]?)

/-- A row update that reports how far it got: the first `cx` of the `w` pixels of `row` are
replaced by pixels satisfying `R` and nothing else changes; unless the row is finished, `cx` is a
multiple of `m`. -/
def RowDone (cn w m : Nat) (R : Nat → Buf → Prop) (row row' : Buf) (cx : Nat) : Prop :=
  cx ≤ w ∧ (cx % m = 0 ∨ cx = w) ∧ FrameRel row' row 0 cx 1 cn (fun x _ p => R x p)

/-- A buffer of `len` elements consists of `n` full rows of length `stride` (possibly followed by
less than one further row). -/
def FullRows (len stride n : Nat) : Prop := stride * n ≤ len ∧ len < stride * (n + 1)

/-- Components of an RGB(A) pixel in memory order. -/
def layout : Channels → Nat → Nat → Nat → Nat → Buf
  | .rgb, r, g, b, _ => [r, g, b]
  | .rgba, r, g, b, a => [r, g, b, a]
  | .bgra, r, g, b, a => [b, g, r, a]
  | .bgr, r, g, b, _ => [b, g, r]

/-- Sample `(x / hd, y / vd)` of a plane. -/
def at' (plane : Buf) (stride : Nat) (x y : Nat) : Nat := plane.getD (y * stride + x) 0

/-- Fixed-point decoding of one sample triple: the linear combination with the coefficients
`t` of precision `p`, rounded to nearest (ties down) and saturated to `[0, 2^d - 1]`. -/
def decodeRGB (p d : Nat) (t : InvCoef) (biasY biasUv y u v : Nat) : Nat × Nat × Nat :=
  let sat := fun s : Int => (max (min ((s + (2 ^ (p - 1) - 1)) / 2 ^ p) (2 ^ d - 1)) 0).toNat
  let dy := ((y : Int) - biasY) * t.y
  let cb := (u : Int) - biasUv
  let cr := (v : Int) - biasUv
  (sat (dy + t.cr * cr), sat (dy - t.g1 * cr - t.g2 * cb), sat (dy + t.cb * cb))

/-- The decoded pixel in memory order, alpha `a`. -/
def decodedPixel (p d : Nat) (ch : Channels) (rg : YuvRange) (m : Matrix) (a y u v : Nat) : Buf :=
  let c := getYuvRange d rg
  let (r, g, b) := decodeRGB p d (searchInverse p d rg m) c.biasY c.biasUv y u v
  layout ch r g b a

end Verif.Spec
