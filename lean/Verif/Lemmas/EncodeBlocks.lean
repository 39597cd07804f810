import Verif.Lemmas.NvEncodeFrames
import Verif.Model.RgbaToYuv
import Verif.Lemmas.Kernels
/-! # The pixel and block arithmetic of the encoders -/
namespace Verif
open Spec

theorem readRgb_ok {ch : Channels} {px : Buf} (h : px.length = ch.count) :
    readRgb ch px = .ok ((red ch px : Int), (green ch px : Int), (blue ch px : Int)) := by
  unfold readRgb
  rw [idx_ok (show ch.rOff < px.length by rw [h]; cases ch <;> decide),
    idx_ok (show ch.gOff < px.length by rw [h]; cases ch <;> decide),
    idx_ok (show ch.bOff < px.length by rw [h]; cases ch <;> decide)]
  simp only [Outcome.bind_ok, Outcome.pure_eq]
  cases ch <;> rfl

theorem comp_lt {B k : Nat} {px : Buf} (hk : k < px.length) (h : ∀ s ∈ px, s < B) :
    px.getD k 0 < B := bnd_getD h hk

theorem rgb_lt {B : Nat} {ch : Channels} {px : Buf} (hl : px.length = ch.count)
    (h : ∀ s ∈ px, s < B) : red ch px < B ∧ green ch px < B ∧ blue ch px < B := by
  cases ch <;> simp only [Channels.count] at hl <;>
    exact ⟨comp_lt (by omega) h, comp_lt (by omega) h, comp_lt (by omega) h⟩

theorem avg2_ok {rnd a b : Nat} (hr : rnd ≤ 1) (ha : a < 65536) (hb : b < 65536) :
    avg2 (rnd : Int) (a : Int) (b : Int) = .ok (((a + b + rnd) / 2 : Nat) : Int) := by
  unfold avg2
  rw [add32_ok (by omega) (by omega)]
  simp only [Outcome.bind_ok]
  rw [add32_ok (by omega) (by omega)]
  simp only [Outcome.bind_ok, Outcome.pure_eq, sar]
  congr 1

theorem sar_two (n : Nat) : sar (n : Int) 2 = ((n / 4 : Nat) : Int) := by
  unfold sar; omega

theorem avg4_ok {a b c d : Nat} (ha : a < 65536) (hb : b < 65536) (hc : c < 65536) (hd : d < 65536) :
    avg4 (a : Int) (b : Int) (c : Int) (d : Int) = .ok (((a + b + c + d + 2) / 4 : Nat) : Int) := by
  have e1 : add32 (a : Int) b = .ok ((a + b : Nat) : Int) := by
    rw [add32_ok (by omega) (by omega)]; rfl
  have e2 : add32 ((a + b : Nat) : Int) c = .ok ((a + b + c : Nat) : Int) := by
    rw [add32_ok (by omega) (by omega)]; rfl
  have e3 : add32 ((a + b + c : Nat) : Int) d = .ok ((a + b + c + d : Nat) : Int) := by
    rw [add32_ok (by omega) (by omega)]; rfl
  have e4 : add32 ((a + b + c + d : Nat) : Int) 2 = .ok ((a + b + c + d + 2 : Nat) : Int) := by
    rw [add32_ok (by omega) (by omega)]; rfl
  unfold avg4
  rw [e1, Outcome.bind_ok, e2, Outcome.bind_ok, e3, Outcome.bind_ok, e4, Outcome.bind_ok, sar_two]
  rfl

theorem avgUp_one {a : Nat} : avgUp [a] = a := by simp [avgUp]
theorem avgUp_two {a b : Nat} : avgUp [a, b] = (a + b + 1) / 2 := by simp [avgUp]
theorem avgUp_four {a b c d : Nat} : avgUp [a, b, c, d] = (a + b + c + d + 2) / 4 := by
  simp [avgUp, Nat.add_assoc]
theorem avgDown_two {a b : Nat} : avgDown [a, b] = (a + b + 0) / 2 := by simp [avgDown]

theorem avgUp_lt {B : Nat} {l : List Nat} (hl : l ≠ []) (h : ∀ a ∈ l, a < B) : avgUp l < B := by
  have hs : ∀ l : List Nat, (∀ a ∈ l, a < B) → l ≠ [] → l.sum + l.length ≤ B * l.length := by
    intro l
    induction l with
    | nil => intro _ h; exact absurd rfl h
    | cons a l ih =>
      intro h _
      have ha := h a (by simp)
      rw [List.sum_cons, List.length_cons, Nat.mul_succ]
      by_cases hl : l = []
      · subst hl; simp; omega
      · have := ih (fun b hb => h b (by simp [hb])) hl
        omega
  have := hs l h hl
  have hpos : 0 < l.length := List.length_pos_iff.2 hl
  unfold avgUp
  rw [Nat.div_lt_iff_lt_mul hpos]
  omega

theorem avgDown_lt {B : Nat} {l : List Nat} (hl : l ≠ []) (h : ∀ a ∈ l, a < B) : avgDown l < B := by
  have := avgUp_lt hl h
  have h2 : avgDown l ≤ avgUp l := Nat.div_le_div_right (by omega)
  omega

/-- The values the arithmetic produces, given closed forms for luma, Cb and Cr of a triple. -/
def linFun (rnd : Nat) (bug11 : Bool) (ch : Channels) (fy fb fr : Nat → Nat → Nat → Nat) : EncFun where
  y px := fy (red ch px) (green ch px) (blue ch px)
  y11 a b := let px := if bug11 then a else b
    fy (red ch px) (green ch px) (blue ch px)
  u vert l := let avg := if vert = true ∧ rnd = 0 then avgDown else avgUp
    fb (avg (l.map (red ch))) (avg (l.map (green ch))) (avg (l.map (blue ch)))
  v vert l := let avg := if vert = true ∧ rnd = 0 then avgDown else avgUp
    fr (avg (l.map (red ch))) (avg (l.map (green ch))) (avg (l.map (blue ch)))

theorem slice_left {a b : Buf} {n : Nat} (ha : a.length = n) : slice (a ++ b) 0 n = .ok a := by
  rw [slice_take (by rw [List.length_append]; omega), ← ha, List.take_left']
  rfl
theorem slice_right {a b : Buf} {n : Nat} (ha : a.length = n) (hb : b.length = n) :
    slice (a ++ b) n (n * 2) = .ok b := by
  rw [slice_ok (by omega) (by rw [List.length_append]; omega), ← ha, List.drop_left' rfl,
    List.take_of_length_le (by omega)]

theorem linBlocks_ok {cast : Int → Nat} {rnd : Nat} {bug11 : Bool} {p : Nat} {t : FwdCoef}
    {c : ChromaRange} {ch : Channels} {B : Nat} {fy fb fr : Nat → Nat → Nat → Nat}
    (hr : rnd ≤ 1) (hB : B ≤ 65536)
    (hy : ∀ r g b : Nat, r < B → g < B → b < B →
      lumaOf cast p t c.biasY ((r : Int), (g : Int), (b : Int)) = .ok (fy r g b))
    (hc : ∀ r g b : Nat, r < B → g < B → b < B →
      chromaOf cast p t c.biasUv (r : Int) (g : Int) (b : Int) = .ok (fb r g b, fr r g b)) :
    BlocksOk (linBlocks cast rnd bug11 p t c ch) B ch.count (linFun rnd bug11 ch fy fb fr) where
  one a ha ba := by
    obtain ⟨r1, g1, b1⟩ := rgb_lt ha ba
    simp only [linBlocks]
    rw [readRgb_ok ha]
    simp only [Outcome.bind_ok]
    rw [hy _ _ _ r1 g1 b1]
    simp only [Outcome.bind_ok]
    rw [hc _ _ _ r1 g1 b1]
    simp [linFun, avgUp_one]
  tail a ha ba := by
    obtain ⟨r1, g1, b1⟩ := rgb_lt ha ba
    simp only [linBlocks]
    rw [readRgb_ok ha]
    simp only [Outcome.bind_ok]
    rw [hy _ _ _ r1 g1 b1]
    simp only [Outcome.bind_ok]
    rw [hc _ _ _ r1 g1 b1]
    simp [linFun, avgUp_one]
  pair a b ha hb ba bb := by
    obtain ⟨r1, g1, b1⟩ := rgb_lt ha ba
    obtain ⟨r2, g2, b2⟩ := rgb_lt hb bb
    simp only [linBlocks]
    rw [slice_left ha, slice_right ha hb]
    simp only [Outcome.bind_ok]
    rw [readRgb_ok ha, readRgb_ok hb]
    simp only [Outcome.bind_ok]
    rw [hy _ _ _ r1 g1 b1, hy _ _ _ r2 g2 b2]
    simp only [Outcome.bind_ok]
    rw [show (1 : Int) = ((1 : Nat) : Int) from rfl, avg2_ok (by omega) (by omega) (by omega),
      avg2_ok (by omega) (by omega) (by omega), avg2_ok (by omega) (by omega) (by omega)]
    simp only [Outcome.bind_ok]
    rw [hc _ _ _ (by omega) (by omega) (by omega)]
    simp [linFun, avgUp_two]
  quad a b d e ha hb hd he ba bb bd be := by
    obtain ⟨r1, g1, b1⟩ := rgb_lt ha ba
    obtain ⟨r2, g2, b2⟩ := rgb_lt hb bb
    obtain ⟨r3, g3, b3⟩ := rgb_lt hd bd
    obtain ⟨r4, g4, b4⟩ := rgb_lt he be
    simp only [linBlocks]
    rw [slice_left ha, slice_right ha hb, slice_left hd, slice_right hd he]
    simp only [Outcome.bind_ok]
    rw [readRgb_ok ha, readRgb_ok hb, readRgb_ok hd, readRgb_ok he]
    simp only [Outcome.bind_ok]
    rw [hy _ _ _ r1 g1 b1, hy _ _ _ r2 g2 b2, hy _ _ _ r3 g3 b3]
    simp only [Outcome.bind_ok]
    rw [avg4_ok (by omega) (by omega) (by omega) (by omega),
      avg4_ok (by omega) (by omega) (by omega) (by omega),
      avg4_ok (by omega) (by omega) (by omega) (by omega)]
    cases bug11
    · simp only [Bool.false_eq_true, if_false]
      rw [hy _ _ _ r4 g4 b4]
      simp only [Outcome.bind_ok]
      rw [hc _ _ _ (by omega) (by omega) (by omega)]
      simp [linFun, avgUp_four]
    · simp only [if_true]
      rw [hy _ _ _ r2 g2 b2]
      simp only [Outcome.bind_ok]
      rw [hc _ _ _ (by omega) (by omega) (by omega)]
      simp [linFun, avgUp_four]
  tail2 a b ha hb ba bb := by
    obtain ⟨r1, g1, b1⟩ := rgb_lt ha ba
    obtain ⟨r2, g2, b2⟩ := rgb_lt hb bb
    simp only [linBlocks]
    rw [readRgb_ok ha, readRgb_ok hb]
    simp only [Outcome.bind_ok]
    rw [hy _ _ _ r1 g1 b1, hy _ _ _ r2 g2 b2]
    simp only [Outcome.bind_ok]
    rw [avg2_ok hr (by omega) (by omega), avg2_ok hr (by omega) (by omega),
      avg2_ok hr (by omega) (by omega)]
    simp only [Outcome.bind_ok]
    rw [hc _ _ _ (by omega) (by omega) (by omega)]
    have : rnd = 0 ∨ rnd = 1 := by omega
    rcases this with rfl | rfl
    · simp [linFun, avgDown]
    · simp [linFun, avgUp_two]

end Verif
