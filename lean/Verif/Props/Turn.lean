import Verif.Spec.Turn
import Verif.Props.Identity
/-!
# C46: mirroring and rotation
-/
namespace Verif
open Spec

theorem kind_pos (k : PixelKind) : 0 < k.count := by cases k <;> decide

theorem dst_pixel_length {buf : Buf} {stride cn x y w h : Nat} (g : GoodDst buf.length stride w h cn)
    (hx : x < w) (hy : y < h) : (pixelAt buf stride cn x y).length = cn := by
  have h1 := fullRows_row g.full hy
  have h2 := succ_mul_le_of_lt cn hx
  have h3 := g.cols_le
  unfold pixelAt
  rw [List.length_take, List.length_drop]
  omega

/-- Two moves in a row. -/
theorem performs_twice {cn : Nat} (hcn : 0 < cn) {A B : Move} {f g : Routine} (hf : Performs cn A f)
    (hg : Performs cn B g) {w h : Nat} {N : Nat → Nat → Nat × Nat}
    (hsize : B.size (A.size w h).1 (A.size w h).2 = (w, h)) (hpos : 0 < (A.size w h).1 ∧ 0 < (A.size w h).2)
    (hin : ∀ x y, x < w → y < h →
      (B.source (A.size w h).1 (A.size w h).2 x y).1 < (A.size w h).1 ∧
      (B.source (A.size w h).1 (A.size w h).2 x y).2 < (A.size w h).2)
    (hN : ∀ x y, x < w → y < h → A.source w h (B.source (A.size w h).1 (A.size w h).2 x y).1
      (B.source (A.size w h).1 (A.size w h).2 x y).2 = N x y)
    (hbound : ∀ x y, x < w → y < h → (N x y).1 < w ∧ (N x y).2 < h)
    {src tmp dst : Buf} {ss ts ds : Nat} (hw : 0 < w) (hh : 0 < h)
    (hs : GoodDst src.length ss w h cn) (ht : GoodDst tmp.length ts (A.size w h).1 (A.size w h).2 cn)
    (hd : GoodDst dst.length ds w h cn) :
    ∃ mid out, f src ss tmp ts w h = .ok mid ∧
      g mid ts dst ds (A.size w h).1 (A.size w h).2 = .ok out ∧
      FrameSpec out dst ds w h cn (fun x y => pixelAt src ss cn (N x y).1 (N x y).2) := by
  obtain ⟨mid, e1, s1⟩ := hf src ss tmp ts w h hw hh hs ht
  obtain ⟨out, e2, s2⟩ := hg mid ts dst ds _ _ hpos.1 hpos.2 (by rw [s1.1]; exact ht)
    (by rw [hsize]; exact hd)
  rw [hsize] at s2
  refine ⟨mid, out, e1, e2, s2.1, ?_, s2.2.2⟩
  intro x y c hx hy hc
  rw [s2.2.1 x y c hx hy hc]
  obtain ⟨b1, b2⟩ := hin x y hx hy
  obtain ⟨n1, n2⟩ := hbound x y hx hy
  have e := hN x y hx hy
  simp only []
  rw [frameSpec_pixel s1 b1 b2 (by rw [e]; exact dst_pixel_length hs n1 n2), e]

section
variable {L : TurnLib} {k : PixelKind} {src tmp dst : Buf} {ss ts ds w h : Nat}

/-- C46: mirroring twice in the same direction returns the image, whichever of the two reflections
the routines `flip` and `flop` are. -/
theorem c46_mirror_twice (mode : MirrorMode) {A B : Move}
    (hA : A = .leftRight ∨ A = .upDown) (hB : B = .leftRight ∨ B = .upDown)
    (hflip : Performs k.count A (L.flip k)) (hflop : Performs k.count B (L.flop k))
    (hw : 0 < w) (hh : 0 < h) (hs : GoodDst src.length ss w h k.count)
    (ht : GoodDst tmp.length ts w h k.count) (hd : GoodDst dst.length ds w h k.count) :
    ∃ mid out, mirror L k mode src ss tmp ts w h = .ok mid ∧
      mirror L k mode mid ts dst ds w h = .ok out ∧
      FrameSpec out dst ds w h k.count (fun x y => pixelAt src ss k.count x y) := by
  have key : ∀ (M : Move) (f : Routine), (M = .leftRight ∨ M = .upDown) → Performs k.count M f →
      ∃ mid out, mapFt (f src ss tmp ts w h) = .ok mid ∧ mapFt (f mid ts dst ds w h) = .ok out ∧
      FrameSpec out dst ds w h k.count (fun x y => pixelAt src ss k.count x y) := by
    intro M f hM hf
    rcases hM with rfl | rfl
    · obtain ⟨mid, out, e1, e2, hsp⟩ := performs_twice (kind_pos k) hf hf (N := fun x y => (x, y))
        (w := w) (h := h) rfl ⟨hw, hh⟩
        (fun x y hx hy => by simp only [Move.leftRight]; omega)
        (fun x y hx hy => Prod.ext (by simp only [Move.leftRight]; omega) rfl)
        (fun x y hx hy => ⟨hx, hy⟩) hw hh hs ht hd
      exact ⟨mid, out, by rw [e1]; rfl, by rw [show f mid ts dst ds w h = .ok out from e2]; rfl, hsp⟩
    · obtain ⟨mid, out, e1, e2, hsp⟩ := performs_twice (kind_pos k) hf hf (N := fun x y => (x, y))
        (w := w) (h := h) rfl ⟨hw, hh⟩
        (fun x y hx hy => by simp only [Move.upDown]; omega)
        (fun x y hx hy => Prod.ext rfl (by simp only [Move.upDown]; omega))
        (fun x y hx hy => ⟨hx, hy⟩) hw hh hs ht hd
      exact ⟨mid, out, by rw [e1]; rfl, by rw [show f mid ts dst ds w h = .ok out from e2]; rfl, hsp⟩
  unfold mirror
  cases mode with
  | vertical => exact key B _ hB hflop
  | horizontal => exact key A _ hA hflip

/-- C46: mirroring in both directions, in either order, is the rotation by 180 degrees, provided
`flip` and `flop` are the two different reflections. -/
theorem c46_mirror_both (m1 m2 : MirrorMode) (hm : m1 ≠ m2) {A B : Move}
    (hAB : (A = .leftRight ∧ B = .upDown) ∨ (A = .upDown ∧ B = .leftRight))
    (hflip : Performs k.count A (L.flip k)) (hflop : Performs k.count B (L.flop k))
    (hrot : Performs k.count .half (L.rotate180 k))
    (hw : 0 < w) (hh : 0 < h) (hs : GoodDst src.length ss w h k.count)
    (ht : GoodDst tmp.length ts w h k.count) (hd : GoodDst dst.length ds w h k.count) :
    ∃ mid out, mirror L k m1 src ss tmp ts w h = .ok mid ∧
      mirror L k m2 mid ts dst ds w h = .ok out ∧
      rotate L k .rotate180 src ss dst ds w h = .ok out := by
  obtain ⟨r, er, hr⟩ := hrot src ss dst ds w h hw hh hs hd
  have key : ∀ (M N : Move) (f g : Routine), ((M = .leftRight ∧ N = .upDown) ∨
        (M = .upDown ∧ N = .leftRight)) → Performs k.count M f → Performs k.count N g →
      ∃ mid out, mapFt (f src ss tmp ts w h) = .ok mid ∧ mapFt (g mid ts dst ds w h) = .ok out ∧
        mapFt (L.rotate180 k src ss dst ds w h) = .ok out := by
    intro M N f g hMN hf hg
    rcases hMN with ⟨rfl, rfl⟩ | ⟨rfl, rfl⟩
    · obtain ⟨mid, out, e1, e2, hsp⟩ := performs_twice (kind_pos k) hf hg
        (N := fun x y => (w - 1 - x, h - 1 - y)) (w := w) (h := h) rfl ⟨hw, hh⟩
        (fun x y hx hy => by simp only [Move.leftRight, Move.upDown]; omega)
        (fun x y hx hy => rfl)
        (fun x y hx hy => by simp only []; omega) hw hh hs ht hd
      refine ⟨mid, out, by rw [e1]; rfl, by rw [show g mid ts dst ds w h = .ok out from e2]; rfl, ?_⟩
      rw [er, frameSpec_unique hsp hr]
      rfl
    · obtain ⟨mid, out, e1, e2, hsp⟩ := performs_twice (kind_pos k) hf hg
        (N := fun x y => (w - 1 - x, h - 1 - y)) (w := w) (h := h) rfl ⟨hw, hh⟩
        (fun x y hx hy => by simp only [Move.leftRight, Move.upDown]; omega)
        (fun x y hx hy => rfl)
        (fun x y hx hy => by simp only []; omega) hw hh hs ht hd
      refine ⟨mid, out, by rw [e1]; rfl, by rw [show g mid ts dst ds w h = .ok out from e2]; rfl, ?_⟩
      rw [er, frameSpec_unique hsp hr]
      rfl
  unfold mirror rotate
  cases m1 <;> cases m2
  · exact absurd rfl hm
  · exact key B A _ _ (by rcases hAB with ⟨rfl, rfl⟩ | ⟨rfl, rfl⟩ <;> simp) hflop hflip
  · exact key A B _ _ hAB hflip hflop
  · exact absurd rfl hm

/-- C46: rotating by 180 degrees twice returns the image. -/
theorem c46_rotate180_twice (hrot : Performs k.count .half (L.rotate180 k))
    (hw : 0 < w) (hh : 0 < h) (hs : GoodDst src.length ss w h k.count)
    (ht : GoodDst tmp.length ts w h k.count) (hd : GoodDst dst.length ds w h k.count) :
    ∃ mid out, rotate L k .rotate180 src ss tmp ts w h = .ok mid ∧
      rotate L k .rotate180 mid ts dst ds w h = .ok out ∧
      FrameSpec out dst ds w h k.count (fun x y => pixelAt src ss k.count x y) := by
  obtain ⟨mid, out, e1, e2, hsp⟩ := performs_twice (kind_pos k) hrot hrot (N := fun x y => (x, y))
    (w := w) (h := h) rfl ⟨hw, hh⟩
    (fun x y hx hy => by simp only [Move.half]; omega)
    (fun x y hx hy => Prod.ext (by simp only [Move.half]; omega) (by simp only [Move.half]; omega))
    (fun x y hx hy => ⟨hx, hy⟩) hw hh hs ht hd
  refine ⟨mid, out, ?_, ?_, hsp⟩
  · unfold rotate; simp only []; rw [e1]; rfl
  · unfold rotate; simp only []; rw [show L.rotate180 k mid ts dst ds w h = .ok out from e2]; rfl

/-- C46, partial: rotating by 90 and then by 270 degrees returns the image if the crate's `transpose`
without flip and flop turns the image by a quarter and with both by three quarters.  If it is the
plain transposition instead, see `c46_plain_transposition_is_half_turn`. -/
theorem c46_rotate_90_270_partial (h90 : Performs k.count .quarter (L.transpose k false false))
    (h270 : Performs k.count .threeQuarters (L.transpose k true true))
    (hw : 0 < w) (hh : 0 < h) (hs : GoodDst src.length ss w h k.count)
    (ht : GoodDst tmp.length ts h w k.count) (hd : GoodDst dst.length ds w h k.count) :
    ∃ mid out, rotate L k .rotate90 src ss tmp ts w h = .ok mid ∧
      rotate L k .rotate270 mid ts dst ds h w = .ok out ∧
      FrameSpec out dst ds w h k.count (fun x y => pixelAt src ss k.count x y) := by
  obtain ⟨mid, out, e1, e2, hsp⟩ := performs_twice (kind_pos k) h90 h270 (N := fun x y => (x, y))
    (w := w) (h := h) rfl ⟨hh, hw⟩
    (fun x y hx hy => by simp only [Move.quarter, Move.threeQuarters]; omega)
    (fun x y hx hy => Prod.ext rfl (by simp only [Move.quarter, Move.threeQuarters]; omega))
    (fun x y hx hy => ⟨hx, hy⟩) hw hh hs ht hd
  refine ⟨mid, out, ?_, ?_, hsp⟩
  · unfold rotate; simp only []; rw [e1]; rfl
  · unfold rotate; simp only []; rw [show L.transpose k true true mid ts dst ds h w = .ok out from e2]; rfl

/-- If the crate's `transpose` is the plain transposition, reversed in both directions when `Flip`
and `Flop` are given, rotating by 90 and then by 270 degrees turns the image upside down. -/
theorem c46_plain_transposition_is_half_turn
    (h90 : Performs k.count .transposed (L.transpose k false false))
    (h270 : Performs k.count .antitransposed (L.transpose k true true))
    (hw : 0 < w) (hh : 0 < h) (hs : GoodDst src.length ss w h k.count)
    (ht : GoodDst tmp.length ts h w k.count) (hd : GoodDst dst.length ds w h k.count) :
    ∃ mid out, rotate L k .rotate90 src ss tmp ts w h = .ok mid ∧
      rotate L k .rotate270 mid ts dst ds h w = .ok out ∧
      FrameSpec out dst ds w h k.count
        (fun x y => pixelAt src ss k.count (w - 1 - x) (h - 1 - y)) := by
  obtain ⟨mid, out, e1, e2, hsp⟩ := performs_twice (kind_pos k) h90 h270
    (N := fun x y => (w - 1 - x, h - 1 - y)) (w := w) (h := h) rfl ⟨hh, hw⟩
    (fun x y hx hy => by simp only [Move.transposed, Move.antitransposed]; omega)
    (fun x y hx hy => rfl)
    (fun x y hx hy => by simp only []; omega) hw hh hs ht hd
  refine ⟨mid, out, ?_, ?_, hsp⟩
  · unfold rotate; simp only []; rw [e1]; rfl
  · unfold rotate; simp only []; rw [show L.transpose k true true mid ts dst ds h w = .ok out from e2]; rfl

/-- C46: the error of the crate is reported as one of the two image-size errors, nothing else is
reported, and success is reported exactly when the crate succeeds. -/
theorem c46_errors (L : TurnLib) (k : PixelKind) (o : Outcome Buf)
    (ho : (∃ mode, o = mirror L k mode src ss dst ds w h) ∨
      ∃ mode, o = rotate L k mode src ss dst ds w h) :
    ∃ r : LibResult, (r = L.flip k src ss dst ds w h ∨ r = L.flop k src ss dst ds w h ∨
        r = L.rotate180 k src ss dst ds w h ∨ ∃ a b, r = L.transpose k a b src ss dst ds w h) ∧
      (∀ d, o = .ok d ↔ r = .ok d) ∧
      (∀ e, o = .err e ↔ (e = .imageDimensionsNotMatch ∧ r = .err .mismatchDimensions) ∨
        (e = .imagesSizesNotMatch ∧ r = .err .invalidArraySize)) := by
  have key : ∀ r : LibResult, (∀ d, mapFt r = .ok d ↔ r = .ok d) ∧
      (∀ e, mapFt r = .err e ↔ (e = .imageDimensionsNotMatch ∧ r = .err .mismatchDimensions) ∨
        (e = .imagesSizesNotMatch ∧ r = .err .invalidArraySize)) := by
    intro r
    cases r with
    | ok d => simp [mapFt]
    | panic => simp [mapFt]
    | err x => cases x <;> simp [mapFt, eq_comm]
  rcases ho with ⟨mode, rfl⟩ | ⟨mode, rfl⟩ <;> cases mode
  · exact ⟨_, Or.inr (Or.inl rfl), key _⟩
  · exact ⟨_, Or.inl rfl, key _⟩
  · exact ⟨_, Or.inr (Or.inr (Or.inr ⟨_, _, rfl⟩)), key _⟩
  · exact ⟨_, Or.inr (Or.inr (Or.inl rfl)), key _⟩
  · exact ⟨_, Or.inr (Or.inr (Or.inr ⟨_, _, rfl⟩)), key _⟩

end

/-! The hypotheses can be met: a library that paints the moved pixels. -/

/-- A routine performing `M`. -/
def paintRoutine (cn : Nat) (M : Move) : Routine := fun src ss dst ds w h =>
  .ok (dst.mapIdx fun i v =>
    let x := i % ds / cn
    let y := i / ds
    if x < (M.size w h).1 ∧ y < (M.size w h).2 then
      (pixelAt src ss cn (M.source w h x y).1 (M.source w h x y).2).getD (i % ds % cn) 0
    else v)

theorem paintRoutine_performs {cn : Nat} (hcn : 0 < cn) {M : Move}
    (hM : ∀ w h x y, x < (M.size w h).1 → y < (M.size w h).2 →
      (M.source w h x y).1 < w ∧ (M.source w h x y).2 < h) :
    Performs cn M (paintRoutine cn M) := by
  intro src ss dst ds w h hw hh hs hd
  refine ⟨_, rfl, List.length_mapIdx, ?_, ?_⟩
  · intro x y c hx hy hc
    have h1 := hd.cols_le
    have h2 := succ_mul_le_of_lt cn hx
    have h4 := fullRows_row hd.full hy
    have hds : 0 < ds := by omega
    have e1 : (y * ds + (x * cn + c)) % ds = x * cn + c := by
      rw [Nat.mul_comm, Nat.mul_add_mod, Nat.mod_eq_of_lt (by omega)]
    have e2 : (y * ds + (x * cn + c)) / ds = y := by
      rw [Nat.mul_comm, Nat.mul_add_div hds, Nat.div_eq_of_lt (a := x * cn + c) (by omega)]; omega
    have e3 : (x * cn + c) / cn = x := by
      rw [Nat.mul_comm, Nat.mul_add_div hcn, Nat.div_eq_of_lt hc]; omega
    have e4 : (x * cn + c) % cn = c := by
      rw [Nat.mul_comm, Nat.mul_add_mod, Nat.mod_eq_of_lt hc]
    obtain ⟨m1, m2⟩ := hM w h x y hx hy
    have hl := dst_pixel_length hs m1 m2
    rw [List.getElem?_mapIdx, List.getElem?_eq_getElem (by omega)]
    simp only [Option.map_some, e1, e2, e3, e4]
    rw [if_pos ⟨hx, hy⟩, List.getD_eq_getElem?_getD, List.getElem?_eq_getElem (by omega)]
    rfl
  · intro i hi
    rw [List.getElem?_mapIdx]
    cases hd' : dst[i]? with
    | none => rfl
    | some v =>
      simp only [Option.map_some]
      rw [if_neg]
      rintro ⟨hx, hy⟩
      refine hi ⟨i % ds / cn, i / ds, i % ds % cn, hx, hy, Nat.mod_lt _ hcn, ?_⟩
      rw [Nat.mul_comm (i % ds / cn), Nat.div_add_mod, Nat.mul_comm, Nat.div_add_mod]

/-- A library whose `transpose` turns the image. -/
def turnLib : TurnLib where
  flip k := paintRoutine k.count .leftRight
  flop k := paintRoutine k.count .upDown
  rotate180 k := paintRoutine k.count .half
  transpose k a b := paintRoutine k.count (if a ∧ b then .threeQuarters else .quarter)

/-- The hypotheses of the theorems above are met by `turnLib`, for every kind of pixel. -/
example (k : PixelKind) : Performs k.count .leftRight (turnLib.flip k) ∧
    Performs k.count .upDown (turnLib.flop k) ∧ Performs k.count .half (turnLib.rotate180 k) ∧
    Performs k.count .quarter (turnLib.transpose k false false) ∧
    Performs k.count .threeQuarters (turnLib.transpose k true true) := by
  refine ⟨paintRoutine_performs (kind_pos k) ?_, paintRoutine_performs (kind_pos k) ?_,
    paintRoutine_performs (kind_pos k) ?_, paintRoutine_performs (kind_pos k) ?_,
    paintRoutine_performs (kind_pos k) ?_⟩ <;>
  (intro w h x y hx hy
   simp only [Move.leftRight, Move.upDown, Move.half, Move.quarter, Move.threeQuarters] at hx hy ⊢
   omega)

/-- A library whose `transpose` is the plain transposition. -/
def transposeLib : TurnLib where
  flip k := paintRoutine k.count .leftRight
  flop k := paintRoutine k.count .upDown
  rotate180 k := paintRoutine k.count .half
  transpose k a b := paintRoutine k.count (if a ∧ b then .antitransposed else .transposed)

example (k : PixelKind) : Performs k.count .transposed (transposeLib.transpose k false false) ∧
    Performs k.count .antitransposed (transposeLib.transpose k true true) := by
  refine ⟨paintRoutine_performs (kind_pos k) ?_, paintRoutine_performs (kind_pos k) ?_⟩ <;>
  (intro w h x y hx hy
   simp only [Move.transposed, Move.antitransposed] at hx hy ⊢
   omega)

/-- Buffers meeting the size hypotheses: a 3×2 RGB image with padded rows. -/
example : GoodDst 20 10 3 2 PixelKind.rgb.count ∧ GoodDst 21 7 2 3 PixelKind.rgb.count :=
  ⟨⟨by unfold U32; decide, by decide, by unfold FullRows; decide, by decide⟩,
   ⟨by unfold U32; decide, by decide, by unfold FullRows; decide, by decide⟩⟩

/-- With the plain transposition the 3×2 image `1 2 3 / 4 5 6` is not returned. -/
example : rotate transposeLib .plane .rotate90 [1, 2, 3, 4, 5, 6] 3 [0, 0, 0, 0, 0, 0] 2 3 2
      = .ok [1, 4, 2, 5, 3, 6] ∧
    rotate transposeLib .plane .rotate270 [1, 4, 2, 5, 3, 6] 2 [0, 0, 0, 0, 0, 0] 3 2 3
      = .ok [6, 5, 4, 3, 2, 1] ∧
    rotate turnLib .plane .rotate90 [1, 2, 3, 4, 5, 6] 3 [0, 0, 0, 0, 0, 0] 2 3 2
      = .ok [4, 1, 5, 2, 6, 3] ∧
    rotate turnLib .plane .rotate270 [4, 1, 5, 2, 6, 3] 2 [0, 0, 0, 0, 0, 0] 3 2 3
      = .ok [1, 2, 3, 4, 5, 6] := by decide +kernel

end Verif
