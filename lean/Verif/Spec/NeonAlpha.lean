import Verif.Spec.NeonDecode
import Verif.Spec.Alpha
/-!
# Specification of the 64-bit ARM decoder with an alpha plane

The kernel takes 32 pixels at a time while more than 32 remain, then 16 while more
than 16 remain, then the rest of the row.
-/
namespace Verif.Spec

/-- A component times an alpha, divided by 255. -/
def neonDiv (w : Nat) : Nat := (w + 127 + (w + 128) / 256) / 256

/-- The column whose alpha multiplies the pixel in column `x` of a row of `w` pixels: in the groups of 32
the halves are exchanged. -/
def neonMulCol (w x : Nat) : Nat :=
  if x < 32 * ((w - 1) / 32) then (if x % 32 < 16 then x + 16 else x - 16) else x

/-- Whether the alpha of column `x` is lost: with sub-sampled chroma, the second half of the last group of
at most 16 pixels. -/
def neonLost (s : Sampling) (w x : Nat) : Bool :=
  s != .yuv444 && decide (16 * ((w - 1) / 16) + (w - 16 * ((w - 1) / 16) + 1) / 2 ≤ x)

/-- The pixel of samples `y`, `u`, `v` with alpha `a`, multiplied by alpha `am` if `pm`; both alphas are
zero if `lost`. -/
def neonAlphaPixel (rdm pm : Bool) (ch : Channels) (rg : YuvRange) (m : Matrix) (lost : Bool)
    (am a y u v : Nat) : Buf :=
  let c := neonRGB rdm true (searchInverse 13 8 rg m) (y - (getYuvRange 8 rg).biasY) u v
  let f := fun c => if pm then neonDiv (c * if lost then 0 else am) else c
  layout ch (f c.1) (f c.2.1) (f c.2.2) (if lost then 0 else a)

/-- The pixel at `(x, y)` of an image. -/
def neonAlphaAt (rdm pm : Bool) (ch : Channels) (s : Sampling) (i : PlanarAlpha) (rg : YuvRange) (m : Matrix)
    (x y : Nat) : Buf :=
  neonAlphaPixel rdm pm ch rg m (neonLost s i.width x) (alphaAt i (neonMulCol i.width x) y) (alphaAt i x y)
    (Planar.Y (opaqueImage i) x y) (Planar.U (opaqueImage i) s x y) (Planar.V (opaqueImage i) s x y)

end Verif.Spec
