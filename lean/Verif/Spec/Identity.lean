import Verif.Spec.Gray
import Verif.Model.Identity
/-!
# Specification of the identity-matrix converters
-/
namespace Verif.Spec

/-- A 4:4:4 planar image with an alpha plane. -/
structure GoodPlanarAlpha (i : PlanarAlpha) (s : Sampling) (B : Nat) : Prop where
  wpos : 0 < i.width
  hpos : 0 < i.height
  w32 : U32 i.width
  h32 : U32 i.height
  y : GoodPlane i.y i.yStride i.width i.height B
  u : GoodPlane i.u i.uStride (cover i.width (hdiv s)) (cover i.height (vdiv s)) B
  v : GoodPlane i.v i.vStride (cover i.width (hdiv s)) (cover i.height (vdiv s)) B
  a : GoodPlane i.a i.aStride i.width i.height B

/-- The component a plane sample stands for: itself in full range, expanded from the luma range,
rounded and saturated in limited range. -/
def gbrLevel (d : Nat) (rg : YuvRange) (s : Nat) : Nat :=
  match rg with
  | .full => s
  | .limited =>
    (max (min ((((s : Int) - 16 * 2 ^ (d - 8)) * gbrInvCoef d + (2 ^ 12 - 1)) / 2 ^ 13)
      (2 ^ d - 1)) 0).toNat

/-- The plane sample that stands for a component: itself in full range, compressed to the luma range
and rounded in limited range. -/
def gbrCode (d : Nat) (rg : YuvRange) (s : Nat) : Nat :=
  match rg with
  | .full => s
  | .limited =>
    (((s : Int) * gbrFwdCoef d + 16 * 2 ^ (d - 8) * 2 ^ 13 + (2 ^ 12 - 1)) / 2 ^ 13).toNat

/-- Largest difference between a component and what comes back after encoding and decoding it in
limited range. -/
def gbrError (d : Nat) : Nat := if d = 14 then 2 else 1

end Verif.Spec
