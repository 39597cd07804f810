import Verif.Model.Yuy2
import Verif.Spec.Deep
/-!
# Specification of the packed 4:2:2 formats

Two neighbouring pixels share one Cb and one Cr and occupy four elements; a row
of odd width ends with a quad whose second luma belongs to no pixel.
-/
namespace Verif.Spec

/-- Two pixels with lumas `y0` and `y1` and common chroma `u`, `v`, in memory order. -/
def quad : Yuy2 → Nat → Nat → Nat → Nat → Buf
  | .yuyv, y0, y1, u, v => [y0, u, y1, v]
  | .uyvy, y0, y1, u, v => [u, y0, v, y1]
  | .yvyu, y0, y1, u, v => [y0, v, y1, u]
  | .vyuy, y0, y1, u, v => [v, y0, u, y1]

/-- Offset of the luma of pixel `x` in its row. -/
def lumaAt : Yuy2 → Nat → Nat
  | .yuyv, x => 2 * x
  | .uyvy, x => 2 * x + 1
  | .yvyu, x => 2 * x
  | .vyuy, x => 2 * x + 1
/-- Offset of the Cb of pixel `x` in its row. -/
def cbAt : Yuy2 → Nat → Nat
  | .yuyv, x => 4 * (x / 2) + 1
  | .uyvy, x => 4 * (x / 2)
  | .yvyu, x => 4 * (x / 2) + 3
  | .vyuy, x => 4 * (x / 2) + 2
/-- Offset of the Cr of pixel `x` in its row. -/
def crAt : Yuy2 → Nat → Nat
  | .yuyv, x => 4 * (x / 2) + 3
  | .uyvy, x => 4 * (x / 2) + 2
  | .yvyu, x => 4 * (x / 2) + 1
  | .vyuy, x => 4 * (x / 2)

/-- Luma of pixel `(x, y)`. -/
def Packed.Y (t : Yuy2) (i : Packed) (x y : Nat) : Nat := at' i.yuy i.yuyStride (lumaAt t x) y
/-- Cb of pixel `(x, y)`. -/
def Packed.U (t : Yuy2) (i : Packed) (x y : Nat) : Nat := at' i.yuy i.yuyStride (cbAt t x) y
/-- Cr of pixel `(x, y)`. -/
def Packed.V (t : Yuy2) (i : Packed) (x y : Nat) : Nat := at' i.yuy i.yuyStride (crAt t x) y

/-- A packed 4:2:2 image whose elements are below `B`: whole quads, no padding (validation insists
on the exact length, see `packed422_check_iff`). -/
structure GoodPacked (i : Packed) (B : Nat) : Prop where
  wpos : 0 < i.width
  hpos : 0 < i.height
  w32 : U32 i.width
  h32 : U32 i.height
  stride32 : U32 i.yuyStride
  stride : i.yuyStride = 4 * cover i.width 2
  len : i.yuy.length = i.yuyStride * i.height
  addressable : i.yuy.length < 2 ^ 63
  bound : ∀ a ∈ i.yuy, a < B

/-- The quad the packers must store for pair `j` of row `y`: the two lumas (nothing for the second
one of a half pair) and the chroma covering the pair. -/
def planarQuad (t : Yuy2) (i : Planar) (s : Sampling) (j y : Nat) : Buf :=
  quad t (Planar.Y i (2 * j) y) (if 2 * j + 1 < i.width then Planar.Y i (2 * j + 1) y else 0)
    (Planar.U i s (2 * j) y) (Planar.V i s (2 * j) y)
/-- The same for 4:4:4 planes, whose chroma is averaged (halves up). -/
def planarQuad444 (t : Yuy2) (i : Planar) (j y : Nat) : Buf :=
  quad t (Planar.Y i (2 * j) y) (if 2 * j + 1 < i.width then Planar.Y i (2 * j + 1) y else 0)
    (if 2 * j + 1 < i.width then (Planar.U i .yuv444 (2 * j) y + Planar.U i .yuv444 (2 * j + 1) y + 1) / 2
      else Planar.U i .yuv444 (2 * j) y)
    (if 2 * j + 1 < i.width then (Planar.V i .yuv444 (2 * j) y + Planar.V i .yuv444 (2 * j + 1) y + 1) / 2
      else Planar.V i .yuv444 (2 * j) y)

/-- The chroma of pair `j` when the chroma row has one sample per pair. -/
def chroma422 (c : Buf) (j : Nat) : Nat := c.getD j 0
/-- The chroma of pair `j` when the chroma row has one sample per pixel. -/
def chroma444 (c : Buf) (j : Nat) : Nat := (c.getD (2 * j) 0 + c.getD (2 * j + 1) 0 + 1) / 2

/-- The row whose quad an unpacker to 4:2:0 uses for column `x` of row `y` of a `w` columns wide
image: the last column of an image of odd width is taken from the second row of the pair. -/
def quadRow (w x y : Nat) : Nat := if w % 2 = 1 ∧ x + 1 = w then 2 * (y / 2) + 1 else y

/-- The fixed-point decoding of one sample triple with the coefficients `t` of precision `p` at
depth `d`; ties according to `half`, opaque alpha. -/
def fixedPixel (half : Int) (p d : Nat) (t : InvCoef) (ch : Channels) (rg : YuvRange)
    (y u v : Nat) : Buf :=
  let c := getYuvRange d rg
  let q := fun s => saturate d (roundShift half p s)
  layout ch (q (linR t c.biasY c.biasUv y v)) (q (linG t c.biasY c.biasUv y u v))
    (q (linB t c.biasY c.biasUv y u)) (2 ^ d - 1)

end Verif.Spec

namespace Verif
open Spec

/-- Contract of the vector code of the RGB decoders: it completes some even number of pixels, or
all of them, with pixels satisfying `R`. -/
def YuyRgbHandler.Ok (f : YuyRgbHandler) (B cn w : Nat) (t : Yuy2)
    (R : Nat → Nat → Nat → Buf → Prop) : Prop :=
  ∀ yuy row : Buf, (∀ s ∈ yuy, s < B) → 4 * ((w - 1) / 2 + 1) ≤ yuy.length → w * cn ≤ row.length →
    ∃ row' cx, f yuy row = .ok (row', cx) ∧
      RowDone cn w 2 (fun x p => R (yuy.getD (lumaAt t x) 0) (yuy.getD (cbAt t x) 0)
        (yuy.getD (crAt t x) 0) p) row row' cx

/-- Contract of the vector code of the packers: the pairs it reports are packed; `C c j` is the
chroma of pair `j` of a row with chroma row `c`. -/
def YuyPacker.Ok (f : YuyPacker) (w cw : Nat) (t : Yuy2) (C : Buf → Nat → Nat) : Prop :=
  ∀ yuy y u v : Buf, 4 * ((w - 1) / 2 + 1) ≤ yuy.length → w ≤ y.length → cw ≤ u.length →
    cw ≤ v.length →
    ∃ yuy' cx, f yuy y u v = .ok (yuy', cx) ∧
      RowDone 4 (w / 2) 1 (fun j p => p = quad t (y.getD (2 * j) 0) (y.getD (2 * j + 1) 0)
        (C u j) (C v j)) yuy yuy' (cx / 2)

/-- Contract of the vector code of the unpackers: the pairs it reports are unpacked, each into two
lumas and `n` copies of each chroma sample. -/
def YuyUnpacker.Ok (f : YuyUnpacker) (w n : Nat) (t : Yuy2) : Prop :=
  ∀ y u v yuy : Buf, 4 * ((w - 1) / 2 + 1) ≤ yuy.length → w ≤ y.length →
    n * (w / 2) ≤ u.length → n * (w / 2) ≤ v.length →
    ∃ y' u' v' cx, f y u v yuy = .ok (y', u', v', cx) ∧ cx / 2 ≤ w / 2 ∧
      FrameSpec y' y 0 (cx / 2) 1 2
        (fun j _ => [yuy.getD (lumaAt t (2 * j)) 0, yuy.getD (lumaAt t (2 * j + 1)) 0]) ∧
      FrameSpec u' u 0 (cx / 2) 1 n (fun j _ => List.replicate n (yuy.getD (cbAt t (2 * j)) 0)) ∧
      FrameSpec v' v 0 (cx / 2) 1 n (fun j _ => List.replicate n (yuy.getD (crAt t (2 * j)) 0))

/-- The vector code takes either no pair or every pair of a row. -/
def YuyUnpacker.Whole (f : YuyUnpacker) (w : Nat) : Prop :=
  ∀ y u v yuy y' u' v' cx, f y u v yuy = .ok (y', u', v', cx) → cx = 0 ∨ cx / 2 = w / 2

end Verif
