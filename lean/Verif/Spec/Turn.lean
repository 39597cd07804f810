import Verif.Spec.Images
import Verif.Model.Turn
/-!
# Specification of mirroring and rotation

A move of an image says how large the result is and from which source pixel each of its pixels comes.
-/
namespace Verif.Spec

/-- A rearrangement of the pixels of a `w × h` image. -/
structure Move where
  /-- width and height of the result -/
  size : Nat → Nat → Nat × Nat
  /-- `source w h x y` is the source pixel shown at `(x, y)` -/
  source : Nat → Nat → Nat → Nat → Nat × Nat

/-- Left and right exchanged. -/
def Move.leftRight : Move := ⟨fun w h => (w, h), fun w _ x y => (w - 1 - x, y)⟩
/-- Top and bottom exchanged. -/
def Move.upDown : Move := ⟨fun w h => (w, h), fun _ h x y => (x, h - 1 - y)⟩
/-- Rotation by 180 degrees. -/
def Move.half : Move := ⟨fun w h => (w, h), fun w h x y => (w - 1 - x, h - 1 - y)⟩
/-- Transposition: rows become columns. -/
def Move.transposed : Move := ⟨fun w h => (h, w), fun _ _ x y => (y, x)⟩
/-- Transposition followed by both reversals. -/
def Move.antitransposed : Move := ⟨fun w h => (h, w), fun w h x y => (w - 1 - y, h - 1 - x)⟩
/-- Rotation by 90 degrees clockwise. -/
def Move.quarter : Move := ⟨fun w h => (h, w), fun _ h x y => (y, h - 1 - x)⟩
/-- Rotation by 270 degrees clockwise. -/
def Move.threeQuarters : Move := ⟨fun w h => (h, w), fun w _ x y => (w - 1 - y, x)⟩

/-- A routine performs the move `M` on pixels of `cn` components: for a source and a destination that
hold their images, exactly the pixels of the result are written. -/
def Performs (cn : Nat) (M : Move) (f : Routine) : Prop :=
  ∀ src ss dst ds w h, 0 < w → 0 < h → GoodDst src.length ss w h cn →
    GoodDst dst.length ds (M.size w h).1 (M.size w h).2 cn →
    ∃ out, f src ss dst ds w h = .ok out ∧
      FrameSpec out dst ds (M.size w h).1 (M.size w h).2 cn
        (fun x y => pixelAt src ss cn (M.source w h x y).1 (M.source w h x y).2)

end Verif.Spec
