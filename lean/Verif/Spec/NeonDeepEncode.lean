import Verif.Spec.VecDeepEncode
import Verif.Spec.NeonDeep16
/-!
# Specification of the 64-bit ARM encoding arithmetic of 10- to 16-bit images
-/
namespace Verif.Spec

/-- A 10-bit component with two more bits, its own highest. -/
def longWord (x : Nat) : Nat := 4 * x + x / 256

/-- A component as the kernel takes it: lengthened (`rdm`) or as it is. -/
def neonComp (rdm : Bool) (x : Nat) : Nat := if rdm then longWord x else x

/-- A row of the forward matrix on lengthened components: every product is rounded on its own, at a quarter of
the unit; the sum is rounded down with a quarter added. -/
def neonRdmSum (bias : Nat) (k : Int × Int × Int) (r g b : Nat) : Int :=
  (4 * bias + 1 + mulRound r k.1 + mulRound g k.2.1 + mulRound b k.2.2) / 4

/-- Luma of three components of a kernel.  Without `rdm` it is the rounded sum, its low 16 bits. -/
def neonLumaOf (rdm : Bool) (c : ChromaRange) (t : FwdCoef) (r g b : Nat) : Nat :=
  if rdm then (min (neonRdmSum c.biasY (t.yr, t.yg, t.yb) r g b) (c.biasY + c.rangeY)).toNat
  else (encVal 15 t.yr t.yg t.yb c.biasY r g b).toNat % 65536

/-- Chroma of three components of a kernel, with the weights `k`, limited to the range of chroma.  With `rdm`
the lower limit is four times the offset of luma, plus one. -/
def neonChromaOf (rdm : Bool) (c : ChromaRange) (k : Int × Int × Int) (r g b : Nat) : Nat :=
  if rdm then
    (min (max (neonRdmSum c.biasUv k r g b) (4 * c.biasY + 1)) (c.biasY + c.rangeUv)).toNat
  else min (max (encVal 15 k.1 k.2.1 k.2.2 c.biasUv r g b).toNat c.biasY) (c.biasY + c.rangeUv)

/-- Luma of a pixel. -/
def neonDeepLuma (rdm : Bool) (d : Nat) (ch : Channels) (rg : YuvRange) (m : Matrix) (px : Buf) : Nat :=
  neonLumaOf rdm (getYuvRange d rg) (searchForward 15 d rg m) (neonComp rdm (red ch px))
    (neonComp rdm (green ch px)) (neonComp rdm (blue ch px))

/-- Chroma of a block of pixels, with the weights `k`: that of the mean of their components. -/
def neonDeepChroma (rdm : Bool) (d : Nat) (ch : Channels) (rg : YuvRange) (k : Int × Int × Int)
    (blk : List Buf) : Nat :=
  neonChromaOf rdm (getYuvRange d rg) k (vecMean (blk.map fun px => neonComp rdm (red ch px)))
    (vecMean (blk.map fun px => neonComp rdm (green ch px)))
    (vecMean (blk.map fun px => neonComp rdm (blue ch px)))
/-- Cb of a block of pixels. -/
def neonDeepCb (rdm : Bool) (d : Nat) (ch : Channels) (rg : YuvRange) (m : Matrix) (blk : List Buf) : Nat :=
  let t := searchForward 15 d rg m
  neonDeepChroma rdm d ch rg (t.cbR, t.cbG, t.cbB) blk
/-- Cr of a block of pixels. -/
def neonDeepCr (rdm : Bool) (d : Nat) (ch : Channels) (rg : YuvRange) (m : Matrix) (blk : List Buf) : Nat :=
  let t := searchForward 15 d rg m
  neonDeepChroma rdm d ch rg (t.crR, t.crG, t.crB) blk

/-- Column `x` in pair `pair` of rows is the last of a 4:2:0 image of odd width: the portable code stores it
again. -/
def Redone (s : Sampling) (w h x pair : Nat) : Prop := vdiv s = 2 ∧ w % 2 = 1 ∧ x + 1 = w ∧ pair < h / 2

instance (s : Sampling) (w h x p : Nat) : Decidable (Redone s w h x p) := by unfold Redone; infer_instance

end Verif.Spec
