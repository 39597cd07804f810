import Verif.Spec.Packed444
import Verif.Spec.Deep
import Verif.Model.AlphaToRgba
/-!
# Specification of the decoders with an alpha plane
-/
namespace Verif
open Spec

namespace Spec

/-- The planar image without its alpha plane. -/
def opaqueImage (i : PlanarAlpha) : Planar :=
  ⟨i.y, i.yStride, i.u, i.uStride, i.v, i.vStride, i.width, i.height⟩

/-- Alpha of pixel `(x, y)`. -/
def alphaAt (i : PlanarAlpha) (x y : Nat) : Nat := at' i.a i.aStride x y

/-- As `deepPixel`, with alpha `a`. -/
def deepAlphaPixel (half : Int) (p k d dOut : Nat) (ch : Channels) (rg : YuvRange) (m : Matrix)
    (a y u v : Nat) : Buf :=
  let t := searchInverse p d rg m
  let c := getYuvRange d rg
  let q := fun s => saturate dOut (roundShift half k s)
  layout ch (q (linR t c.biasY c.biasUv y v)) (q (linG t c.biasY c.biasUv y u v))
    (q (linB t c.biasY c.biasUv y u)) a

/-- The largest alpha level of 8 bits not above that of `a` at depth `d`: the upper 8 of the `d`
bits. -/
def alpha8 (d a : Nat) : Nat := min (a / 2 ^ (d - 8)) 255

end Spec

/-- Contract of a row handler of the alpha decoders, as `RowHandler.Ok`. -/
def AlphaHandler.Ok (f : AlphaHandler) (B cn w hd : Nat)
    (R : Nat → Nat → Nat → Nat → Buf → Prop) : Prop :=
  ∀ y u v a row : Buf, (∀ s ∈ y, s < B) → (∀ s ∈ u, s < B) → (∀ s ∈ v, s < B) →
    (∀ s ∈ a, s < B) →
    w ≤ y.length → (w - 1) / hd + 1 ≤ u.length → (w - 1) / hd + 1 ≤ v.length → w ≤ a.length →
    w * cn ≤ row.length →
    ∃ row' cx, f y u v a row = .ok (row', cx) ∧
      RowDone cn w hd
        (fun x p => R (y.getD x 0) (u.getD (x / hd) 0) (v.getD (x / hd) 0) (a.getD x 0) p)
        row row' cx

end Verif
