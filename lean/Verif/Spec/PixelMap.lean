import Verif.Model.PixelMap
import Verif.Spec.Images
/-!
# Specification of the pixelwise converters
-/
namespace Verif
open Spec

/-- Pixel `(x, y)` of every source. -/
def Spec.pixelsAt (srcs : List Src) (x y : Nat) : List Buf :=
  srcs.map (fun s => pixelAt s.buf s.stride s.cn x y)

/-- A source holds a `w × h` image of elements below `B`. -/
structure Spec.GoodSrc (s : Src) (w h B : Nat) : Prop where
  cn_pos : 0 < s.cn
  plane : GoodPlane s.buf s.stride (w * s.cn) h B

/-- The shape of one pixel of every source. -/
structure Spec.PixelShape (B : Nat) (srcs : List Src) (px : List Buf) : Prop where
  len : px.length = srcs.length
  each : ∀ s p, (s, p) ∈ srcs.zip px → p.length = s.cn ∧ ∀ a ∈ p, a < B

/-- Contract of the vector code of a pixelwise converter: on rows long enough it finishes a
prefix of the row with pixels related by `R` to the source pixels. -/
def MapHandler.Ok (hd : MapHandler) (B w cn : Nat) (srcs : List Src) (R : List Buf → Buf → Prop) :
    Prop :=
  ∀ (rows : List Buf) (row : Buf), rows.length = srcs.length →
    (∀ s l, (s, l) ∈ srcs.zip rows → w * s.cn ≤ l.length ∧ ∀ a ∈ l, a < B) →
    w * cn ≤ row.length →
    ∃ row' cx, hd rows row = .ok (row', cx) ∧
      RowDone cn w 1 (fun x p => R (pixels srcs rows x) p) row row' cx

end Verif
