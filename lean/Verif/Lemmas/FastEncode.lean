import Verif.Lemmas.X86Fast
import Verif.Lemmas.ProfEncode
/-! # The values of the fast mode: scalar agreement, distance to the exact result -/
namespace Verif
open Spec X86

/-- The averages of the vector code: rows first, then neighbours. -/
def fastMean : List Nat → Nat
  | [a] => a
  | [a, b] => Spec.avg2 a b
  | [a, b, c, d] => Spec.avg2 (Spec.avg2 a c) (Spec.avg2 b d)
  | _ => 0

theorem avg2_self (a : Nat) : Spec.avg2 a a = a := by unfold Spec.avg2; omega

theorem fastMean_lt {l : List Nat} (h : ∀ a ∈ l, a < 256) : fastMean l < 256 := by
  match l with
  | [] => decide
  | [a] => exact h a (by simp)
  | [a, b] => exact avg2_lt (h a (by simp)) (h b (by simp))
  | [a, b, c, d] => exact avg2_lt (avg2_lt (h a (by simp)) (h c (by simp))) (avg2_lt (h b (by simp)) (h d (by simp)))
  | [_, _, _] => show 0 < 256; decide
  | _ :: _ :: _ :: _ :: _ :: _ => show 0 < 256; decide

/-- Chroma sums never leave the 16 bits, luma sums only for BT.2020 in full range. -/
theorem fastByteFits (rg : YuvRange) (m : Matrix) :
    (¬(m = .bt2020 ∧ rg = .full) →
      ByteFits 7 255 (profBias 7 (getYuvRange 8 rg).biasY) (kLuma (searchForward 7 8 rg m))) ∧
    ByteFits 7 255 (profBias 7 (getYuvRange 8 rg).biasUv) (kCb (searchForward 7 8 rg m)) ∧
    ByteFits 7 255 (profBias 7 (getYuvRange 8 rg).biasUv) (kCr (searchForward 7 8 rg m)) := by
  cases rg <;> cases m <;> decide +kernel

theorem fastVal_low8 {bias : Nat} {k : Int × Int × Int} (h : ByteFits 7 255 (profBias 7 bias) k)
    {r g b : Nat} (hr : r < 256) (hg : g < 256) (hb : b < 256) :
    fastVal bias k.1 k.2.1 k.2.2 r g b = low8 (encVal 7 k.1 k.2.1 k.2.2 bias r g b) := by
  have h1 := h.sum (Nat.le_of_lt_succ hr) (Nat.le_of_lt_succ hg) (Nat.le_of_lt_succ hb)
  have h2 := h.byte (Nat.le_of_lt_succ hr) (Nat.le_of_lt_succ hg) (Nat.le_of_lt_succ hb)
  rw [encVal_exact]
  have e : exactSum (profBias 7 bias) k r g b
      = r * k.1 + g * k.2.1 + b * k.2.2 + (bias * 128 + 63) := rfl
  rw [e] at h1 h2 ⊢
  unfold fastVal byteSat low8 asI16
  generalize (r : Int) * k.1 + g * k.2.1 + b * k.2.2 + (bias * 128 + 63) = S at *
  norm_num at h1 h2 ⊢
  omega

/-- Chroma of the vector code is the scalar formula on the vector averages. -/
theorem fast_cb {s : Sampling} {last : Bool} {l : List Buf}
    (hl : BlockShape s last l.length) (hb : ∀ px ∈ l, ∀ a ∈ px, a < 256) (ch : Channels) (rg : YuvRange)
    (m : Matrix) :
    (fastVals ch rg m).cb s last l = cb8 7 ch rg m fastMean l ∧
    (fastVals ch rg m).cr s last l = cr8 7 ch rg m fastMean l := by
  obtain ⟨lr, lg, lb⟩ := comps_map hb ch
  obtain ⟨-, fu, fv⟩ := fastByteFits rg m
  have e1 := fastVal_low8 fu (fastMean_lt lr) (fastMean_lt lg) (fastMean_lt lb)
  have e2 := fastVal_low8 fv (fastMean_lt lr) (fastMean_lt lg) (fastMean_lt lb)
  have g1 : (fastVals ch rg m).cb s last l = fastCb rg m (fastMean (l.map (red ch)))
      (fastMean (l.map (green ch))) (fastMean (l.map (blue ch))) ∧
      (fastVals ch rg m).cr s last l = fastCr rg m (fastMean (l.map (red ch)))
      (fastMean (l.map (green ch))) (fastMean (l.map (blue ch))) := by
    match l, hl.len with
    | [a], _ =>
      simp only [Vals.cb, Vals.cr, fastVals, List.map_cons, List.map_nil, fastMean, avg2_self, ite_self,
        and_self]
    | [a, b], _ =>
      simp only [Vals.cb, Vals.cr, fastVals, List.map_cons, List.map_nil, fastMean, avg2_self, ite_self,
        and_self]
    | [a, b, c, d], _ =>
      simp only [Vals.cb, Vals.cr, fastVals, List.map_cons, List.map_nil, fastMean, and_self]
  rw [g1.1, g1.2]
  exact ⟨e1, e2⟩

/-- Luma of the vector code is that of the scalar code, but for BT.2020 in full range. -/
theorem fast_luma {ch : Channels} {rg : YuvRange} {m : Matrix} (hx : ¬(m = .bt2020 ∧ rg = .full)) {px : Buf}
    (hb : ∀ a ∈ px, a < 256) : (fastVals ch rg m).y px = luma8 7 ch rg m px := by
  obtain ⟨h1, h2, h3⟩ := comps_lt (by omega) ch hb
  exact fastVal_low8 ((fastByteFits rg m).1 hx) h1 h2 h3

theorem wrapped_sum {T : Nat} (hT : T ≤ 32958) :
    byteSat (asI16 (T : Int) / 128) = (if T < 32768 then T / 128 else 0) ∧
    low8 ((T : Int) / 128) = (if T < 32768 then T / 128 else if T < 32896 then 0 else 1) := by
  unfold byteSat low8 asI16
  constructor
  · by_cases c : T < 32768
    · rw [if_pos c]; omega
    · rw [if_neg c]; omega
  · by_cases c : T < 32768
    · rw [if_pos c]; omega
    · rw [if_neg c]
      by_cases c' : T < 32896
      · rw [if_pos c']; omega
      · rw [if_neg c']; omega

/-- BT.2020 in full range: sums from 32768 on give 0; sums from 32896 on give 1 in the scalar code. -/
theorem fast_luma2020 (ch : Channels) {px : Buf} (hb : ∀ a ∈ px, a < 256) :
    let S := 34 * red ch px + 87 * green ch px + 8 * blue ch px + 63
    (fastVals ch .full .bt2020).y px = (if S < 32768 then S / 128 else 0) ∧
    luma8 7 ch .full .bt2020 px = (if S < 32768 then S / 128 else if S < 32896 then 0 else 1) := by
  obtain ⟨h1, h2, h3⟩ := comps_lt (by omega) ch hb
  dsimp only
  have t1 : (searchForward 7 8 .full .bt2020).yr = 34 ∧ (searchForward 7 8 .full .bt2020).yg = 87 ∧
      (searchForward 7 8 .full .bt2020).yb = 8 := by decide +kernel
  have t2 : (getYuvRange 8 .full).biasY = 0 := rfl
  have e : (red ch px : Int) * 34 + green ch px * 87 + blue ch px * 8 + ((0 : Nat) * 128 + 63)
      = ((34 * red ch px + 87 * green ch px + 8 * blue ch px + 63 : Nat) : Int) := by push_cast; ring
  obtain ⟨w1, w2⟩ := wrapped_sum (T := 34 * red ch px + 87 * green ch px + 8 * blue ch px + 63) (by omega)
  rw [← w1, ← w2, ← e]
  simp only [fastVals, luma8, lumaVal, t1, t2]
  exact ⟨rfl, rfl⟩

theorem fast_luma_close (ch : Channels) (rg : YuvRange) (m : Matrix) {px : Buf}
    (hb : ∀ a ∈ px, a < 256) :
    (fastVals ch rg m).y px ≤ luma8 7 ch rg m px ∧
      luma8 7 ch rg m px ≤ (fastVals ch rg m).y px + 1 := by
  by_cases h : m = .bt2020 ∧ rg = .full
  · obtain ⟨rfl, rfl⟩ := h
    obtain ⟨e1, e2⟩ := fast_luma2020 ch hb
    rw [e1, e2]
    split_ifs <;> omega
  · rw [fast_luma h hb]; omega

/-! ## Averages -/

/-- How the scalar code may average a block. -/
structure ScalarMean (last : Bool) (n : Nat) (avg : List Nat → Nat) : Prop where
  lt : ∀ l, (∀ a ∈ l, a < 256) → avg l < 256
  near : ∀ l : List Nat, l.length = n → avg l ≤ fastMean l ∧ fastMean l ≤ avg l + 1
  same : n ≤ 2 → last = false → ∀ l : List Nat, l.length = n → avg l = fastMean l

theorem fastMean_up {n : Nat} (hn : n = 1 ∨ n = 2 ∨ n = 4) {l : List Nat} (hl : l.length = n) :
    (avgUp l ≤ fastMean l ∧ fastMean l ≤ avgUp l + 1) ∧ (n ≤ 2 → avgUp l = fastMean l) := by
  subst hl
  match l, hn with
  | [a], _ =>
    rw [Verif.avgUp_one]; simp only [fastMean]
    exact ⟨by omega, fun _ => trivial⟩
  | [a, b], _ =>
    rw [avgUp_two]; simp only [fastMean, Spec.avg2]
    exact ⟨by omega, fun _ => trivial⟩
  | [a, b, c, d], _ =>
    rw [avgUp_four]; simp only [fastMean, Spec.avg2, List.length_cons, List.length_nil]
    exact ⟨by omega, fun h => by omega⟩

theorem scalarMean_nv {s : Sampling} {last : Bool} {n : Nat} (hl : BlockShape s last n) :
    ScalarMean last n avgUp :=
  ⟨fun l h => (avg_lt (by omega) h).1, fun l h => (fastMean_up hl.len h).1,
    fun h _ l e => (fastMean_up hl.len e).2 h⟩

theorem scalarMean_planar {s : Sampling} {last : Bool} {n : Nat} (hl : BlockShape s last n) :
    ScalarMean last n (if last then avgDown else avgUp) := by
  cases last
  · exact scalarMean_nv hl
  · refine ⟨fun l h => avgOf_lt (last := true) h, fun l h => ?_, fun _ h => by cases h⟩
    have h2 := hl.last2 rfl
    match l, h.trans h2 with
    | [a, b], _ =>
      have : avgDown [a, b] = (a + b) / 2 := by unfold avgDown; simp
      simp only [if_true, this, fastMean, Spec.avg2]; omega

/-- The weights of a chroma row. -/
def FastRow (k : Int × Int × Int) : Prop :=
  max 0 k.1 + max 0 k.2.1 + max 0 k.2.2 ≤ 127 ∧ -127 ≤ min 0 k.1 + min 0 k.2.1 + min 0 k.2.2

instance (k : Int × Int × Int) : Decidable (FastRow k) := by unfold FastRow; infer_instance

theorem fastRows (rg : YuvRange) (m : Matrix) :
    FastRow (kCb (searchForward 7 8 rg m)) ∧ FastRow (kCr (searchForward 7 8 rg m)) := by
  cases rg <;> cases m <;> decide +kernel

theorem fast_shift {k : Int × Int × Int} (hk : FastRow k) {bias r g b r' g' b' : Nat}
    (hr : r' ≤ r ∧ r ≤ r' + 1) (hg : g' ≤ g ∧ g ≤ g' + 1) (hb : b' ≤ b ∧ b ≤ b' + 1) :
    encVal 7 k.1 k.2.1 k.2.2 bias r g b ≤ encVal 7 k.1 k.2.1 k.2.2 bias r' g' b' + 1 ∧
    encVal 7 k.1 k.2.1 k.2.2 bias r' g' b' ≤ encVal 7 k.1 k.2.1 k.2.2 bias r g b + 1 := by
  obtain ⟨k1, k2⟩ := hk
  have key : ∀ x x' : Nat, x' ≤ x ∧ x ≤ x' + 1 → ∀ c : Int,
      min 0 c ≤ x * c - x' * c ∧ (x : Int) * c - x' * c ≤ max 0 c := by
    intro x x' h c
    have : x = x' ∨ x = x' + 1 := by omega
    rcases this with rfl | rfl
    · omega
    · push_cast; rw [Int.add_mul]; omega
  have a1 := key r r' hr k.1
  have a2 := key g g' hg k.2.1
  have a3 := key b b' hb k.2.2
  unfold encVal
  norm_num
  generalize (r : Int) * k.1 = x at *
  generalize (g : Int) * k.2.1 = y at *
  generalize (b : Int) * k.2.2 = z at *
  generalize (r' : Int) * k.1 = x' at *
  generalize (g' : Int) * k.2.1 = y' at *
  generalize (b' : Int) * k.2.2 = z' at *
  omega

/-- Chroma is within one code value of the scalar code, and equal unless two rows are averaged. -/
theorem fastChroma_scalar {s : Sampling} {last : Bool} (ch : Channels) (rg : YuvRange) (m : Matrix)
    {l : List Buf} (hl : BlockShape s last l.length) (hb : ∀ px ∈ l, ∀ a ∈ px, a < 256)
    {avg : List Nat → Nat} (ha : ScalarMean last l.length avg) :
    (((fastVals ch rg m).cb s last l ≤ cb8 7 ch rg m avg l + 1 ∧
      cb8 7 ch rg m avg l ≤ (fastVals ch rg m).cb s last l + 1) ∧
    ((fastVals ch rg m).cr s last l ≤ cr8 7 ch rg m avg l + 1 ∧
      cr8 7 ch rg m avg l ≤ (fastVals ch rg m).cr s last l + 1)) ∧
    (l.length ≤ 2 → last = false → (fastVals ch rg m).cb s last l = cb8 7 ch rg m avg l ∧
      (fastVals ch rg m).cr s last l = cr8 7 ch rg m avg l) := by
  obtain ⟨lr, lg, lb⟩ := comps_map hb ch
  obtain ⟨e1, e2⟩ := fast_cb hl hb ch rg m
  rw [e1, e2]
  obtain ⟨-, fu, fv⟩ := fastByteFits rg m
  constructor
  · obtain ⟨k1, k2⟩ := fastRows rg m
    have ar := ha.lt _ lr
    have ag := ha.lt _ lg
    have ab := ha.lt _ lb
    have vr := fastMean_lt lr
    have vg := fastMean_lt lg
    have vb := fastMean_lt lb
    have nr := ha.near (l.map (red ch)) (by simp)
    have ng := ha.near (l.map (green ch)) (by simp)
    have nb := ha.near (l.map (blue ch)) (by simp)
    have c1 := fast_shift k1 (bias := (getYuvRange 8 rg).biasUv) nr ng nb
    have c2 := fast_shift k2 (bias := (getYuvRange 8 rg).biasUv) nr ng nb
    have l1 := prof_low8 fu (Nat.le_of_lt_succ vr) (Nat.le_of_lt_succ vg) (Nat.le_of_lt_succ vb)
    have l2 := prof_low8 fv (Nat.le_of_lt_succ vr) (Nat.le_of_lt_succ vg) (Nat.le_of_lt_succ vb)
    have l3 := prof_low8 fu (Nat.le_of_lt_succ ar) (Nat.le_of_lt_succ ag) (Nat.le_of_lt_succ ab)
    have l4 := prof_low8 fv (Nat.le_of_lt_succ ar) (Nat.le_of_lt_succ ag) (Nat.le_of_lt_succ ab)
    unfold cb8 cr8 cbVal crVal
    simp only [kCb, kCr] at *
    omega
  · intro h2 hf
    have nr := ha.same h2 hf (l.map (red ch)) (by simp)
    have ng := ha.same h2 hf (l.map (green ch)) (by simp)
    have nb := ha.same h2 hf (l.map (blue ch)) (by simp)
    unfold cb8 cr8
    rw [nr, ng, nb]
    exact ⟨rfl, rfl⟩

/-! ## Distance to the exact result -/

theorem fast_exact {k1 k2 k3 : Int} {q1 q2 q3 : Rat} (n1 : NearestCoef 7 k1 q1)
    (n2 : NearestCoef 7 k2 q2) (n3 : NearestCoef 7 k3 q3) {bias r g b : Nat} (hr : r < 256)
    (hg : g < 256) (hb : b < 256) :
    |(encVal 7 k1 k2 k3 bias r g b : Rat) - (bias + (q1 * r + q2 * g + q3 * b))| ≤ 7 / 2 := by
  have c : ∀ x : Nat, x < 256 → |(x : Rat)| ≤ 255 := by
    intro x hx
    rw [abs_of_nonneg (by positivity)]
    exact_mod_cast Nat.le_of_lt_succ hx
  have e1 := coef_err n1 (c r hr)
  have e2 := coef_err n2 (c g hg)
  have e3 := coef_err n3 (c b hb)
  have hf : 128 * encVal 7 k1 k2 k3 bias r g b ≤ r * k1 + g * k2 + b * k3 + (bias * 128 + 63) ∧
      r * k1 + g * k2 + b * k3 + (bias * 128 + 63) < 128 * encVal 7 k1 k2 k3 bias r g b + 128 := by
    unfold encVal; norm_num; omega
  generalize encVal 7 k1 k2 k3 bias r g b = z at *
  obtain ⟨h1, h2⟩ := hf
  have h1' : 128 * (z : Rat) ≤ (r : Rat) * k1 + g * k2 + b * k3 + (bias * 128 + 63) := by
    exact_mod_cast h1
  have h2' : (r : Rat) * k1 + g * k2 + b * k3 + (bias * 128 + 63) < 128 * (z : Rat) + 128 := by
    exact_mod_cast h2
  rw [abs_le] at *
  norm_num at e1 e2 e3 ⊢
  constructor <;> linarith

theorem fastSearch (rg : YuvRange) (m : Matrix) : searchForward 7 8 rg m = computedForward 7 8 rg m :=
  c06_searchForward 7 8 (by unfold Prec; omega) (Or.inl rfl) rg m

theorem fastLuma_exact {ch : Channels} {rg : YuvRange} {m : Matrix} (hx : ¬(m = .bt2020 ∧ rg = .full))
    {px : Buf} (hb : ∀ a ∈ px, a < 256) :
    |(luma8 7 ch rg m px : Rat) - exactY 8 rg m (red ch px) (green ch px) (blue ch px)| ≤ 7 / 2 := by
  obtain ⟨h1, h2, h3⟩ := comps_lt (by omega) ch hb
  obtain ⟨-, n1, n2, n3, -⟩ := c06_forward_tables 7 8 (by unfold Prec; omega) (Or.inl rfl) rg m
  rw [← fastSearch] at n1 n2 n3
  have y := fast_exact n1 n2 n3 (bias := (getYuvRange 8 rg).biasY) h1 h2 h3
  have off : offY 8 rg = ((getYuvRange 8 rg).biasY : Rat) := by
    cases rg <;> unfold offY <;> norm_num [getYuvRange]
  have l1 := prof_low8 ((fastByteFits rg m).1 hx) (Nat.le_of_lt_succ h1) (Nat.le_of_lt_succ h2)
    (Nat.le_of_lt_succ h3)
  rw [exactY_eq, off]
  unfold luma8 lumaVal
  simp only [kLuma] at l1
  rw [← Int.cast_natCast, l1]
  exact y

/-- An average of a block: off the exact mean by a constant and at most one half. -/
structure MeanNear (n : Nat) (avg : List Nat → Nat) : Prop where
  lt : ∀ l, (∀ a ∈ l, a < 256) → avg l < 256
  one : n = 1 → ∀ a, avg [a] = a
  near : ∃ c : Rat, ∀ l : List Nat, l.length = n → |(avg l : Rat) - (mean l + c)| ≤ 1 / 2

theorem fastChroma_exact (ch : Channels) (rg : YuvRange) (m : Matrix) {l : List Buf}
    (hb : ∀ px ∈ l, ∀ a ∈ px, a < 256) {avg : List Nat → Nat} (ha : MeanNear l.length avg) :
    let E : Rat := if l.length = 1 then 7 / 2 else 4
    let r := mean (l.map (red ch))
    let g := mean (l.map (green ch))
    let b := mean (l.map (blue ch))
    |(cb8 7 ch rg m avg l : Rat) - exactCb 8 rg m r g b| ≤ E ∧
    |(cr8 7 ch rg m avg l : Rat) - exactCr 8 rg m r g b| ≤ E := by
  intro E r g b
  obtain ⟨lr, lg, lb⟩ := comps_map hb ch
  have r4 := ha.lt _ lr
  have g4 := ha.lt _ lg
  have b4 := ha.lt _ lb
  obtain ⟨-, -, -, -, n4, n5, n6, n7, n8, n9⟩ :=
    c06_forward_tables 7 8 (by unfold Prec; omega) (Or.inl rfl) rg m
  rw [← fastSearch] at n4 n5 n6 n7 n8 n9
  obtain ⟨-, fu, fv⟩ := fastByteFits rg m
  have l1 := prof_low8 fu (Nat.le_of_lt_succ r4) (Nat.le_of_lt_succ g4) (Nat.le_of_lt_succ b4)
  have l2 := prof_low8 fv (Nat.le_of_lt_succ r4) (Nat.le_of_lt_succ g4) (Nat.le_of_lt_succ b4)
  have hbu : (getYuvRange 8 rg).biasUv = 128 := by cases rg <;> rfl
  have off : offC 8 = (128 : Nat) := by unfold offC; norm_num
  have y1 := fast_exact n4 n5 n6 (bias := 128) r4 g4 b4
  have y2 := fast_exact n7 n8 n9 (bias := 128) r4 g4 b4
  rw [← off, ← exactCb_eq] at y1
  rw [← off, ← exactCr_eq] at y2
  unfold cb8 cr8 cbVal crVal
  simp only [kCb, kCr, hbu] at *
  rw [← Int.cast_natCast, l1, ← Int.cast_natCast (R := Rat) (n := low8 _), l2]
  by_cases h1 : l.length = 1
  · obtain ⟨a, rfl⟩ := List.length_eq_one_iff.1 h1
    have e' : ∀ a : Nat, mean [a] = a := fun a => by simp [mean]
    simp only [E, if_pos h1, r, g, b, List.map_cons, List.map_nil, ha.one h1, e'] at *
    exact ⟨y1, y2⟩
  · obtain ⟨c, hc⟩ := ha.near
    have x1 := exactCb_lip rg m (hc (l.map (red ch)) (by simp)) (hc (l.map (green ch)) (by simp))
      (hc (l.map (blue ch)) (by simp))
    have x2 := exactCr_lip rg m (hc (l.map (red ch)) (by simp)) (hc (l.map (green ch)) (by simp))
      (hc (l.map (blue ch)) (by simp))
    rw [(exactC_gray rg m _ _ _ _).1] at x1
    rw [(exactC_gray rg m _ _ _ _).2] at x2
    simp only [E, if_neg h1]
    constructor
    · refine le_trans (abs_sub_le _ _ _) (le_trans (add_le_add y1 x1) (by norm_num))
    · refine le_trans (abs_sub_le _ _ _) (le_trans (add_le_add y2 x2) (by norm_num))

theorem meanNear_fast {n : Nat} (hn : n = 1 ∨ n = 2 ∨ n = 4) : MeanNear n fastMean := by
  refine ⟨fun l h => fastMean_lt h, fun _ a => rfl, 1 / 2, fun l hl => ?_⟩
  subst hl
  have key : ∀ (l : List Nat), 8 * l.sum ≤ 8 * fastMean l * l.length →
      4 * (fastMean l * l.length) ≤ 4 * l.sum + 4 * l.length → 0 < l.length →
      |(fastMean l : Rat) - (mean l + 1 / 2)| ≤ 1 / 2 := by
    intro l h1 h2 h3
    have hnq : (0 : Rat) < l.length := by exact_mod_cast h3
    have h1' : 8 * (l.sum : Rat) ≤ 8 * (fastMean l : Rat) * l.length := by exact_mod_cast h1
    have h2' : 4 * ((fastMean l : Rat) * l.length) ≤ 4 * (l.sum : Rat) + 4 * l.length := by exact_mod_cast h2
    have m1 : mean l * l.length = l.sum := by unfold mean; field_simp
    generalize (fastMean l : Rat) = d at *
    generalize (l.length : Rat) = n at *
    rw [← m1] at h1' h2'
    have a1 : mean l ≤ d := by
      by_contra h
      push Not at h
      have := mul_lt_mul_of_pos_right h hnq
      linarith
    have a2 : d ≤ mean l + 1 := by
      by_contra h
      push Not at h
      have := mul_lt_mul_of_pos_right h hnq
      linarith
    rw [abs_le]
    constructor <;> linarith
  match l, hn with
  | [a], _ => exact key [a] (by simp [fastMean]) (by simp [fastMean]) (by simp)
  | [a, b], _ =>
    exact key [a, b] (by simp only [fastMean, Spec.avg2, List.sum_cons, List.sum_nil, List.length_cons, List.length_nil]; omega)
      (by simp only [fastMean, Spec.avg2, List.sum_cons, List.sum_nil, List.length_cons, List.length_nil]; omega) (by simp)
  | [a, b, c, d], _ =>
    exact key [a, b, c, d] (by simp only [fastMean, Spec.avg2, List.sum_cons, List.sum_nil, List.length_cons, List.length_nil]; omega)
      (by simp only [fastMean, Spec.avg2, List.sum_cons, List.sum_nil, List.length_cons, List.length_nil]; omega) (by simp)

end Verif
