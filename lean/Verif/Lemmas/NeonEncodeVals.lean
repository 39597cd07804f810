import Verif.Lemmas.NeonEncodeRows
import Verif.Lemmas.FastEncode
/-! # The values of the NEON encoders: scalar agreement, distance to the exact result, ranges -/
namespace Verif
open Spec X86

/-! ## Averages of a block -/

/-- The average of a block of one, two or four components. -/
def listMean (one : Nat → Nat) (two : Nat → Nat → Nat) (four : Nat → Nat → Nat → Nat → Nat) :
    List Nat → Nat
  | [a] => one a
  | [a, b] => two a b
  | [a, b, c, d] => four a b c d
  | _ => 0

theorem meanVals_chroma {one : Nat → Nat} {two : Nat → Nat → Nat} {four : Nat → Nat → Nat → Nat → Nat}
    (h1 : ∀ a, two a a = one a) (h2 : ∀ a b, four a a b b = two a b) {s : Sampling} {last : Bool}
    {l : List Buf} (hl : BlockShape s last l.length) (ch : Channels) (L U V : Nat → Nat → Nat → Nat) :
    (meanVals ch L U V one two four).cb s last l = U (listMean one two four (l.map (red ch)))
      (listMean one two four (l.map (green ch))) (listMean one two four (l.map (blue ch))) ∧
    (meanVals ch L U V one two four).cr s last l = V (listMean one two four (l.map (red ch)))
      (listMean one two four (l.map (green ch))) (listMean one two four (l.map (blue ch))) := by
  match l, hl.len with
  | [a], _ =>
    simp only [Vals.cb, Vals.cr, meanVals, List.map_cons, List.map_nil, listMean, h1, ite_self, and_self]
  | [a, b], _ =>
    simp only [Vals.cb, Vals.cr, meanVals, List.map_cons, List.map_nil, listMean, h2, ite_self, and_self]
  | [a, b, c, d], _ =>
    simp only [Vals.cb, Vals.cr, meanVals, List.map_cons, List.map_nil, listMean, and_self]

/-- The average of the balanced mode without RDM. -/
abbrev balMean : List Nat → Nat :=
  listMean (fun a => a) Spec.avg2 fun a b c d => ((a + b + c + d + 1) / 2 + 1) / 2
/-- The average of the fast mode. -/
abbrev downMean : List Nat → Nat :=
  listMean (fun a => a) (fun a b => (a + b) / 2) fun a b c d => ((a + c) / 2 + (b + d) / 2) / 2
/-- The sixteenfold mean of the balanced mode with RDM. -/
abbrev rdmMean : List Nat → Nat :=
  listMean (fun a => 16 * a) (fun a b => 8 * (a + b)) fun a b c d => 4 * (a + b + c + d)

theorem fastMean_eq : fastMean = listMean (fun a => a) Spec.avg2
    fun a b c d => Spec.avg2 (Spec.avg2 a c) (Spec.avg2 b d) := by
  funext l
  match l with
  | [] => rfl
  | [a] => rfl
  | [a, b] => rfl
  | [a, b, c, d] => rfl
  | [_, _, _] => rfl
  | _ :: _ :: _ :: _ :: _ :: _ => rfl

theorem listMean_lt {one : Nat → Nat} {two : Nat → Nat → Nat} {four : Nat → Nat → Nat → Nat → Nat}
    {B : Nat} (hB : 0 < B) (h1 : ∀ a, a < 256 → one a < B) (h2 : ∀ a b, a < 256 → b < 256 → two a b < B)
    (h4 : ∀ a b c d, a < 256 → b < 256 → c < 256 → d < 256 → four a b c d < B) {l : List Nat}
    (h : ∀ a ∈ l, a < 256) : listMean one two four l < B := by
  match l with
  | [] => exact hB
  | [a] => exact h1 _ (h a (by simp))
  | [a, b] => exact h2 _ _ (h a (by simp)) (h b (by simp))
  | [a, b, c, d] => exact h4 _ _ _ _ (h a (by simp)) (h b (by simp)) (h c (by simp)) (h d (by simp))
  | [_, _, _] => exact hB
  | _ :: _ :: _ :: _ :: _ :: _ => exact hB

theorem balMean_lt {l : List Nat} (h : ∀ a ∈ l, a < 256) : balMean l < 256 :=
  listMean_lt (by omega) (fun a h => h) (fun a b h1 h2 => avg2_lt h1 h2) (fun a b c d _ _ _ _ => by omega) h
theorem downMean_lt {l : List Nat} (h : ∀ a ∈ l, a < 256) : downMean l < 256 :=
  listMean_lt (by omega) (fun a h => h) (fun a b h1 h2 => by omega) (fun a b c d _ _ _ _ => by omega) h
theorem rdmMean_le {l : List Nat} (h : ∀ a ∈ l, a < 256) : rdmMean l ≤ 4080 :=
  Nat.le_of_lt_succ (listMean_lt (by omega) (fun a h => by omega) (fun a b h1 h2 => by omega)
    (fun a b c d _ _ _ _ => by omega) h)

/-- Two averages, the second equal to the first or one above it. -/
structure MeanPair (n : Nat) (avg avg' : List Nat → Nat) : Prop where
  lt : ∀ l, (∀ a ∈ l, a < 256) → avg l < 256
  lt' : ∀ l, (∀ a ∈ l, a < 256) → avg' l < 256
  near : ∀ l : List Nat, l.length = n → avg l ≤ avg' l ∧ avg' l ≤ avg l + 1

theorem avgUp_lt8 {l : List Nat} (h : ∀ a ∈ l, a < 256) : avgUp l < 256 := (avg_lt (by omega) h).1

theorem balMean_up {n : Nat} (hn : n = 1 ∨ n = 2 ∨ n = 4) {l : List Nat} (hl : l.length = n) :
    (avgUp l ≤ balMean l ∧ balMean l ≤ avgUp l + 1) ∧ (n ≤ 2 → avgUp l = balMean l) := by
  subst hl
  match l, hn with
  | [a], _ =>
    rw [Verif.avgUp_one]; simp only [listMean]
    exact ⟨by omega, fun _ => trivial⟩
  | [a, b], _ =>
    rw [avgUp_two]; simp only [listMean, Spec.avg2]
    exact ⟨by omega, fun _ => trivial⟩
  | [a, b, c, d], _ =>
    rw [avgUp_four]; simp only [listMean, List.length_cons, List.length_nil]
    exact ⟨by omega, fun h => by omega⟩

theorem downMean_up {n : Nat} (hn : n = 1 ∨ n = 2 ∨ n = 4) {l : List Nat} (hl : l.length = n) :
    downMean l ≤ avgUp l ∧ avgUp l ≤ downMean l + 1 := by
  subst hl
  match l, hn with
  | [a], _ => rw [Verif.avgUp_one]; simp only [listMean]; omega
  | [a, b], _ => rw [avgUp_two]; simp only [listMean]; omega
  | [a, b, c, d], _ => rw [avgUp_four]; simp only [listMean]; omega

theorem avgDown_two' (a b : Nat) : avgDown [a, b] = (a + b) / 2 := by unfold avgDown; simp

theorem pair_bal {s : Sampling} {last : Bool} {n : Nat} (hl : BlockShape s last n) :
    MeanPair n (avgOf last) balMean ∧ MeanPair n avgUp balMean := by
  have up : MeanPair n avgUp balMean :=
    ⟨fun l h => avgUp_lt8 h, fun l h => balMean_lt h, fun l h => (balMean_up hl.len h).1⟩
  refine ⟨?_, up⟩
  cases last
  · exact up
  · refine ⟨fun l h => avgOf_lt (last := true) h, fun l h => balMean_lt h, fun l h => ?_⟩
    have h2 := hl.last2 rfl
    match l, h.trans h2 with
    | [a, b], _ =>
      simp only [avgOf, if_true, avgDown_two', listMean, Spec.avg2]; omega

theorem pair_prof {s : Sampling} {last : Bool} {n : Nat} (hl : BlockShape s last n) :
    MeanPair n (avgOf last) fastMean ∧ MeanPair n avgUp fastMean :=
  ⟨⟨(scalarMean_planar hl).lt, fun _ h => fastMean_lt h, (scalarMean_planar hl).near⟩,
    (scalarMean_nv hl).lt, fun _ h => fastMean_lt h, (scalarMean_nv hl).near⟩

theorem pair_down {s : Sampling} {last : Bool} {n : Nat} (hl : BlockShape s last n) :
    MeanPair n downMean (avgOf last) ∧ MeanPair n downMean avgUp := by
  have up : MeanPair n downMean avgUp :=
    ⟨fun l h => downMean_lt h, fun l h => avgUp_lt8 h, fun l h => downMean_up hl.len h⟩
  refine ⟨?_, up⟩
  cases last
  · exact up
  · refine ⟨fun l h => downMean_lt h, fun l h => avgOf_lt (last := true) h, fun l h => ?_⟩
    have h2 := hl.last2 rfl
    match l, h.trans h2 with
    | [a, b], _ =>
      simp only [avgOf, if_true, avgDown_two', listMean]; omega

/-! ## One step of an average moves chroma by at most one -/

/-- The precisions of the three modes. -/
def Prec3 (q : Nat) : Prop := q = 7 ∨ q = 13 ∨ q = 15

/-- The weights of a chroma row: neither the positive nor the negative ones exceed one. -/
def UnitRow (q : Nat) (k : Int × Int × Int) : Prop :=
  max 0 k.1 + max 0 k.2.1 + max 0 k.2.2 ≤ 2 ^ q ∧ -2 ^ q ≤ min 0 k.1 + min 0 k.2.1 + min 0 k.2.2
instance (q : Nat) (k : Int × Int × Int) : Decidable (UnitRow q k) := by unfold UnitRow; infer_instance

theorem unitRows {q : Nat} (hq : Prec3 q) (rg : YuvRange) (m : Matrix) :
    UnitRow q (kCb (searchForward q 8 rg m)) ∧ UnitRow q (kCr (searchForward q 8 rg m)) := by
  rcases hq with rfl | rfl | rfl <;> cases rg <;> cases m <;> decide +kernel

theorem encVal_unit_step {q : Nat} {k : Int × Int × Int} (hk : UnitRow q k) {bias r g b r' g' b' : Nat}
    (hr : r' ≤ r ∧ r ≤ r' + 1) (hg : g' ≤ g ∧ g ≤ g' + 1) (hb : b' ≤ b ∧ b ≤ b' + 1) :
    encVal q k.1 k.2.1 k.2.2 bias r g b ≤ encVal q k.1 k.2.1 k.2.2 bias r' g' b' + 1 ∧
    encVal q k.1 k.2.1 k.2.2 bias r' g' b' ≤ encVal q k.1 k.2.1 k.2.2 bias r g b + 1 := by
  obtain ⟨k1, k2⟩ := hk
  have key : ∀ x x' : Nat, x' ≤ x ∧ x ≤ x' + 1 → ∀ c : Int,
      min 0 c ≤ x * c - x' * c ∧ (x : Int) * c - x' * c ≤ max 0 c := by
    intro x x' h c
    have : x = x' ∨ x = x' + 1 := by omega
    rcases this with rfl | rfl
    · omega
    · push_cast; rw [Int.add_mul]; omega
  have a1 := key r r' hr k.1
  have a2 := key g g' hg k.2.1
  have a3 := key b b' hb k.2.2
  have hp : (0 : Int) < 2 ^ q := by positivity
  have div : ∀ X Y : Int, X ≤ Y + 2 ^ q → X / 2 ^ q ≤ Y / 2 ^ q + 1 := by
    intro X Y h
    calc X / 2 ^ q ≤ (Y + 2 ^ q) / 2 ^ q := Int.ediv_le_ediv hp h
      _ = Y / 2 ^ q + 1 := by
        have := Int.add_mul_ediv_right Y 1 hp.ne'
        rwa [one_mul] at this
  rw [encVal_exact, encVal_exact]
  unfold exactSum
  generalize (r : Int) * k.1 = x at *
  generalize (g : Int) * k.2.1 = y at *
  generalize (b : Int) * k.2.2 = z at *
  generalize (r' : Int) * k.1 = x' at *
  generalize (g' : Int) * k.2.1 = y' at *
  generalize (b' : Int) * k.2.2 = z' at *
  generalize (2 : Int) ^ q = P at *
  generalize profBias q bias = B at *
  exact ⟨div _ _ (by omega), div _ _ (by omega)⟩

theorem chroma_low8 {q : Nat} (hq : Prec3 q) (rg : YuvRange) (m : Matrix) {r g b : Nat} (hr : r < 256)
    (hg : g < 256) (hb : b < 256) :
    (low8 (cbVal q 8 rg m r g b) : Int) = cbVal q 8 rg m r g b ∧
    (low8 (crVal q 8 rg m r g b) : Int) = crVal q 8 rg m r g b := by
  rcases hq with rfl | rfl | rfl
  · obtain ⟨-, fu, fv⟩ := fastByteFits rg m
    exact ⟨prof_low8 fu (Nat.le_of_lt_succ hr) (Nat.le_of_lt_succ hg) (Nat.le_of_lt_succ hb),
      prof_low8 fv (Nat.le_of_lt_succ hr) (Nat.le_of_lt_succ hg) (Nat.le_of_lt_succ hb)⟩
  · exact (low8_encode (p := 13) (Or.inl rfl) rg m hr hg hb).1.2
  · exact (low8_encode (p := 15) (Or.inr rfl) rg m hr hg hb).1.2

theorem chroma_step {q : Nat} (hq : Prec3 q) (ch : Channels) (rg : YuvRange) (m : Matrix) {l : List Buf}
    (hb : ∀ px ∈ l, ∀ a ∈ px, a < 256) {avg avg' : List Nat → Nat} (ha : MeanPair l.length avg avg') :
    (cb8 q ch rg m avg' l ≤ cb8 q ch rg m avg l + 1 ∧ cb8 q ch rg m avg l ≤ cb8 q ch rg m avg' l + 1) ∧
    (cr8 q ch rg m avg' l ≤ cr8 q ch rg m avg l + 1 ∧ cr8 q ch rg m avg l ≤ cr8 q ch rg m avg' l + 1) := by
  obtain ⟨lr, lg, lb⟩ := comps_map hb ch
  obtain ⟨k1, k2⟩ := unitRows hq rg m
  have nr := ha.near (l.map (red ch)) (by simp)
  have ng := ha.near (l.map (green ch)) (by simp)
  have nb := ha.near (l.map (blue ch)) (by simp)
  have c1 := encVal_unit_step k1 (bias := (getYuvRange 8 rg).biasUv) nr ng nb
  have c2 := encVal_unit_step k2 (bias := (getYuvRange 8 rg).biasUv) nr ng nb
  have d := chroma_low8 hq rg m (ha.lt _ lr) (ha.lt _ lg) (ha.lt _ lb)
  have d' := chroma_low8 hq rg m (ha.lt' _ lr) (ha.lt' _ lg) (ha.lt' _ lb)
  unfold cb8 cr8
  unfold cbVal crVal at *
  simp only [kCb, kCr] at *
  omega

/-! ## Distance of averaged chroma to the exact result -/

theorem meanNear_of {avg : List Nat → Nat} {n : Nat} (hn : 0 < n) (c : Rat)
    (hlt : ∀ l, (∀ a ∈ l, a < 256) → avg l < 256) (hone : ∀ a, avg [a] = a)
    (h : ∀ l : List Nat, l.length = n → (mean l + (c - 1 / 2)) * n ≤ avg l * n ∧
      (avg l * n : Rat) ≤ (mean l + (c + 1 / 2)) * n) : MeanNear n avg := by
  have hnq : (0 : Rat) < n := by exact_mod_cast hn
  refine ⟨hlt, fun _ => hone, c, fun l hl => ?_⟩
  obtain ⟨h1, h2⟩ := h l hl
  have h1 := le_of_mul_le_mul_right h1 hnq
  have h2 := le_of_mul_le_mul_right h2 hnq
  rw [abs_le]
  constructor <;> linarith

theorem mean_mul {l : List Nat} (h : 0 < l.length) : mean l * l.length = l.sum := by
  have : (0 : Rat) < l.length := by exact_mod_cast h
  unfold mean; field_simp

theorem meanNear_bal {n : Nat} (hn : n = 1 ∨ n = 2 ∨ n = 4) : MeanNear n balMean := by
  refine meanNear_of (by omega) (1 / 2) (fun l h => balMean_lt h) (fun _ => rfl) fun l hl => ?_
  have e := mean_mul (l := l) (by omega)
  rw [hl] at e
  have hi : l.sum ≤ balMean l * n ∧ balMean l * n ≤ l.sum + n := by
    subst hl
    match l, hn with
    | [a], _ => simp [listMean]
    | [a, b], _ =>
      simp only [listMean, Spec.avg2, List.sum_cons, List.sum_nil, List.length_cons, List.length_nil]; omega
    | [a, b, c, d], _ =>
      simp only [listMean, List.sum_cons, List.sum_nil, List.length_cons, List.length_nil]; omega
  have h1 : (l.sum : Rat) ≤ balMean l * n := by exact_mod_cast hi.1
  have h2 : (balMean l * n : Rat) ≤ l.sum + n := by exact_mod_cast hi.2
  rw [add_mul, add_mul, e]
  constructor <;> linarith

theorem meanNear_down {n : Nat} (hn : n = 1 ∨ n = 2 ∨ n = 4) : MeanNear n downMean := by
  refine meanNear_of (by omega) (-(1 / 2)) (fun l h => downMean_lt h) (fun _ => rfl) fun l hl => ?_
  have e := mean_mul (l := l) (by omega)
  rw [hl] at e
  have hi : l.sum ≤ downMean l * n + n ∧ downMean l * n ≤ l.sum := by
    subst hl
    match l, hn with
    | [a], _ => simp [listMean]
    | [a, b], _ =>
      simp only [listMean, List.sum_cons, List.sum_nil, List.length_cons, List.length_nil]; omega
    | [a, b, c, d], _ =>
      simp only [listMean, List.sum_cons, List.sum_nil, List.length_cons, List.length_nil]; omega
  have h1 : (l.sum : Rat) ≤ downMean l * n + n := by exact_mod_cast hi.1
  have h2 : (downMean l * n : Rat) ≤ l.sum := by exact_mod_cast hi.2
  rw [add_mul, add_mul, e]
  constructor <;> linarith

theorem chroma_mean_exact {q : Nat} (hq : q = 13 ∨ q = 15) (ch : Channels) (rg : YuvRange) (m : Matrix)
    {l : List Buf} (hb : ∀ px ∈ l, ∀ a ∈ px, a < 256) {avg : List Nat → Nat}
    (ha : MeanNear l.length avg) :
    let E : Rat := if l.length = 1 then 55 / 100 else 105 / 100
    let r := mean (l.map (red ch))
    let g := mean (l.map (green ch))
    let b := mean (l.map (blue ch))
    |(cb8 q ch rg m avg l : Rat) - exactCb 8 rg m r g b| ≤ E ∧
    |(cr8 q ch rg m avg l : Rat) - exactCr 8 rg m r g b| ≤ E := by
  intro E r g b
  obtain ⟨lr, lg, lb⟩ := comps_map hb ch
  obtain ⟨-, -, y1, y2⟩ := low8_encode hq rg m (ha.lt _ lr) (ha.lt _ lg) (ha.lt _ lb)
  unfold cb8 cr8
  by_cases h1 : l.length = 1
  · obtain ⟨a, rfl⟩ := List.length_eq_one_iff.1 h1
    have e' : ∀ a : Nat, mean [a] = a := fun a => by simp [mean]
    simp only [E, if_pos h1, r, g, b, List.map_cons, List.map_nil, ha.one h1, e'] at *
    exact ⟨y1, y2⟩
  · obtain ⟨c, hc⟩ := ha.near
    have x1 := exactCb_lip rg m (hc (l.map (red ch)) (by simp)) (hc (l.map (green ch)) (by simp))
      (hc (l.map (blue ch)) (by simp))
    have x2 := exactCr_lip rg m (hc (l.map (red ch)) (by simp)) (hc (l.map (green ch)) (by simp))
      (hc (l.map (blue ch)) (by simp))
    rw [(exactC_gray rg m _ _ _ _).1] at x1
    rw [(exactC_gray rg m _ _ _ _).2] at x2
    simp only [E, if_neg h1]
    constructor
    · refine le_trans (abs_sub_le _ _ _) (le_trans (add_le_add y1 x1) (by norm_num))
    · refine le_trans (abs_sub_le _ _ _) (le_trans (add_le_add y2 x2) (by norm_num))

/-! ## The values, mode by mode -/

section
variable {s : Sampling} {last : Bool} (ch : Channels) (rg : YuvRange) (m : Matrix) {l : List Buf}
  (hl : BlockShape s last l.length) (hb : ∀ px ∈ l, ∀ a ∈ px, a < 256)
include hl

theorem bal_chroma :
    (neonVals false ch rg m).cb s last l = cb8 13 ch rg m balMean l ∧
    (neonVals false ch rg m).cr s last l = cr8 13 ch rg m balMean l := by
  obtain ⟨g1, g2⟩ := meanVals_chroma (one := fun a => a) (two := Spec.avg2)
    (four := fun a b c d => ((a + b + c + d + 1) / 2 + 1) / 2) avg2_self
    (fun a b => by unfold Spec.avg2; omega) hl ch
    (encByte 13 (getYuvRange 8 rg).biasY (kLuma (searchForward 13 8 rg m)))
    (encByte 13 (getYuvRange 8 rg).biasUv (kCb (searchForward 13 8 rg m)))
    (encByte 13 (getYuvRange 8 rg).biasUv (kCr (searchForward 13 8 rg m)))
  exact ⟨g1, g2⟩

theorem rdm_chroma :
    let t := searchForward 13 8 rg m
    (neonVals true ch rg m).cb s last l = vecSum 513 (t.cbR, t.cbG, t.cbB) (rdmMean (l.map (red ch)))
      (rdmMean (l.map (green ch))) (rdmMean (l.map (blue ch))) ∧
    (neonVals true ch rg m).cr s last l = vecSum 513 (t.crR, t.crG, t.crB) (rdmMean (l.map (red ch)))
      (rdmMean (l.map (green ch))) (rdmMean (l.map (blue ch))) := by
  have hbu : (getYuvRange 8 rg).biasUv = 128 := by cases rg <;> rfl
  unfold neonVals
  simp only [if_true, hbu]
  exact meanVals_chroma (fun a => by omega) (fun a b => by omega) hl ch _ _ _

theorem prof_chroma :
    (neonProfVals ch rg m).cb s last l = cb8 15 ch rg m fastMean l ∧
    (neonProfVals ch rg m).cr s last l = cr8 15 ch rg m fastMean l := by
  rw [fastMean_eq]
  obtain ⟨g1, g2⟩ := meanVals_chroma (one := fun a => a) (two := Spec.avg2)
    (four := fun a b c d => Spec.avg2 (Spec.avg2 a c) (Spec.avg2 b d)) avg2_self
    (fun a b => avg2_self _) hl ch
    (encByte 15 (getYuvRange 8 rg).biasY (kLuma (searchForward 15 8 rg m)))
    (encByte 15 (getYuvRange 8 rg).biasUv (kCb (searchForward 15 8 rg m)))
    (encByte 15 (getYuvRange 8 rg).biasUv (kCr (searchForward 15 8 rg m)))
  exact ⟨g1, g2⟩

include hb
theorem fast_chroma :
    (neonFastVals ch rg m).cb s last l = cb8 7 ch rg m downMean l ∧
    (neonFastVals ch rg m).cr s last l = cr8 7 ch rg m downMean l := by
  obtain ⟨lr, lg, lb⟩ := comps_map hb ch
  obtain ⟨-, fu, fv⟩ := fastByteFits rg m
  have key : ∀ {bias : Nat} {k : Int × Int × Int}, ByteFits 7 255 (profBias 7 bias) k → ∀ {r g b : Nat},
      r < 256 → g < 256 → b < 256 →
      fastByte bias k r g b = low8 (encVal 7 k.1 k.2.1 k.2.2 bias r g b) := by
    intro bias k h r g b hr hg hb
    have h2 := h.byte (Nat.le_of_lt_succ hr) (Nat.le_of_lt_succ hg) (Nat.le_of_lt_succ hb)
    rw [encVal_exact]
    have e : exactSum (profBias 7 bias) k r g b
        = r * k.1 + g * k.2.1 + b * k.2.2 + (bias * 128 + 63) := rfl
    rw [e] at h2 ⊢
    unfold fastByte low8
    generalize (r : Int) * k.1 + g * k.2.1 + b * k.2.2 + (bias * 128 + 63) = S at *
    norm_num at h2 ⊢
    omega
  have e1 := key fu (downMean_lt lr) (downMean_lt lg) (downMean_lt lb)
  have e2 := key fv (downMean_lt lr) (downMean_lt lg) (downMean_lt lb)
  obtain ⟨g1, g2⟩ := meanVals_chroma (one := fun a => a) (two := fun a b => (a + b) / 2)
    (four := fun a b c d => ((a + c) / 2 + (b + d) / 2) / 2) (fun a => by omega) (fun a b => by omega) hl ch
    (fastByte (getYuvRange 8 rg).biasY (kLuma (searchForward 7 8 rg m)))
    (fastByte (getYuvRange 8 rg).biasUv (kCb (searchForward 7 8 rg m)))
    (fastByte (getYuvRange 8 rg).biasUv (kCr (searchForward 7 8 rg m)))
  exact ⟨g1.trans e1, g2.trans e2⟩
end

/-! ### The fast luma -/

theorem neonFast_luma (ch : Channels) (rg : YuvRange) (m : Matrix) {px : Buf} (hb : ∀ a ∈ px, a < 256) :
    let t := searchForward 7 8 rg m
    let v := encVal 7 t.yr t.yg t.yb (getYuvRange 8 rg).biasY (red ch px) (green ch px) (blue ch px)
    0 ≤ v ∧ (((neonFastVals ch rg m).y px : Nat) : Int) = min 255 v := by
  intro t v
  obtain ⟨h1, h2, h3⟩ := comps_lt (by omega) ch hb
  have hk : (0 ≤ t.yr ∧ 0 ≤ t.yg ∧ 0 ≤ t.yb) ∧ t.yr + t.yg + t.yb ≤ 129 ∧ (getYuvRange 8 rg).biasY ≤ 16 := by
    simp only [t]; cases rg <;> cases m <;> decide +kernel
  obtain ⟨⟨k1, k2, k3⟩, k4, k5⟩ := hk
  have b1 := mul_between (show red ch px ≤ 255 by omega) t.yr
  have b2 := mul_between (show green ch px ≤ 255 by omega) t.yg
  have b3 := mul_between (show blue ch px ≤ 255 by omega) t.yb
  rw [min_eq_left k1, max_eq_right k1] at b1
  rw [min_eq_left k2, max_eq_right k2] at b2
  rw [min_eq_left k3, max_eq_right k3] at b3
  have e : v = ((red ch px : Int) * t.yr + green ch px * t.yg + blue ch px * t.yb
      + ((getYuvRange 8 rg).biasY * 128 + 63)) / 128 := by
    simp only [v]; unfold encVal; norm_num
  have e2 : (neonFastVals ch rg m).y px = fastByte (getYuvRange 8 rg).biasY (t.yr, t.yg, t.yb) (red ch px)
      (green ch px) (blue ch px) := rfl
  rw [e2, e]
  unfold fastByte
  dsimp only
  generalize (red ch px : Int) * t.yr = x at *
  generalize (green ch px : Int) * t.yg = y at *
  generalize (blue ch px : Int) * t.yb = z at *
  generalize (getYuvRange 8 rg).biasY = B at *
  omega

theorem neonFast_luma_scalar {ch : Channels} {rg : YuvRange} {m : Matrix}
    (hx : ¬(m = .bt2020 ∧ rg = .full)) {px : Buf} (hb : ∀ a ∈ px, a < 256) :
    (neonFastVals ch rg m).y px = luma8 7 ch rg m px := by
  obtain ⟨h1, h2, h3⟩ := comps_lt (by omega) ch hb
  obtain ⟨v0, v1⟩ := neonFast_luma ch rg m hb
  have l1 := prof_low8 ((fastByteFits rg m).1 hx) (Nat.le_of_lt_succ h1) (Nat.le_of_lt_succ h2)
    (Nat.le_of_lt_succ h3)
  have l2 := low8_lt (encVal 7 (kLuma (searchForward 7 8 rg m)).1 (kLuma (searchForward 7 8 rg m)).2.1
    (kLuma (searchForward 7 8 rg m)).2.2 (getYuvRange 8 rg).biasY (red ch px) (green ch px) (blue ch px))
  unfold luma8 lumaVal
  simp only [kLuma] at *
  omega

theorem neonFast_luma_exact (ch : Channels) (rg : YuvRange) (m : Matrix) {px : Buf}
    (hb : ∀ a ∈ px, a < 256) :
    |((neonFastVals ch rg m).y px : Rat) - exactY 8 rg m (red ch px) (green ch px) (blue ch px)| ≤ 7 / 2 := by
  obtain ⟨h1, h2, h3⟩ := comps_lt (by omega) ch hb
  obtain ⟨v0, v1⟩ := neonFast_luma ch rg m hb
  obtain ⟨x0, x1⟩ := exactY_range rg m h1 h2 h3
  obtain ⟨-, n1, n2, n3, -⟩ := c06_forward_tables 7 8 (by unfold Prec; omega) (Or.inl rfl) rg m
  rw [← fastSearch] at n1 n2 n3
  have y := fast_exact n1 n2 n3 (bias := (getYuvRange 8 rg).biasY) h1 h2 h3
  have off : offY 8 rg = ((getYuvRange 8 rg).biasY : Rat) := by
    cases rg <;> unfold offY <;> norm_num [getYuvRange]
  rw [← off, ← exactY_eq] at y
  generalize encVal 7 _ _ _ _ _ _ _ = v at *
  have e : (neonFastVals ch rg m).y px = byteSat v := by unfold byteSat; omega
  rw [e]
  exact byteSat_exact (by linarith) (by linarith) (by norm_num) y

/-! ### RDM -/

/-- The raw RDM sum against the exact one, in units of `2^-17`. -/
theorem rdmLuma_bounds (rg : YuvRange) (m : Matrix) (r g b : Nat) :
    let t := searchForward 13 8 rg m
    let X := (r : Int) * t.yr + g * t.yg + b * t.yb + (getYuvRange 8 rg).biasY * 8192
    let z := vecRaw (4 * (getYuvRange 8 rg).biasY) (t.yr, t.yg, t.yb) (16 * r) (16 * g) (16 * b)
    16 * X - 147456 ≤ 131072 * z ∧ 131072 * z ≤ 16 * X + 49152 := by
  intro t X z
  obtain ⟨a1, a2⟩ := vecRaw_bounds (4 * (getYuvRange 8 rg).biasY) (t.yr, t.yg, t.yb) (16 * r) (16 * g) (16 * b)
  push_cast at a1 a2
  simp only [Int.mul_assoc] at a1 a2
  constructor <;> linarith

theorem rdmLuma_scalar (ch : Channels) (rg : YuvRange) (m : Matrix) {px : Buf} (hb : ∀ a ∈ px, a < 256) :
    (neonVals true ch rg m).y px ≤ luma8 13 ch rg m px ∧
      luma8 13 ch rg m px ≤ (neonVals true ch rg m).y px + 1 := by
  obtain ⟨h1, h2, h3⟩ := comps_lt (by omega) ch hb
  have hz := rdmLuma_bounds rg m (red ch px) (green ch px) (blue ch px)
  have hv := encVal_bounds (searchForward 13 8 rg m).yr (searchForward 13 8 rg m).yg
    (searchForward 13 8 rg m).yb (getYuvRange 8 rg).biasY (red ch px) (green ch px) (blue ch px)
  obtain ⟨⟨e1, -, -⟩, -⟩ := low8_encode (p := 13) (Or.inl rfl) rg m h1 h2 h3
  have hrg := (lumaVal_range rg m h1 h2 h3).1
  have hv' : lumaVal 13 8 rg m (red ch px) (green ch px) (blue ch px)
    = encVal 13 (searchForward 13 8 rg m).yr (searchForward 13 8 rg m).yg
    (searchForward 13 8 rg m).yb (getYuvRange 8 rg).biasY (red ch px) (green ch px) (blue ch px) := rfl
  dsimp only at hz hv
  rw [← hv'] at hv
  have e2 : (neonVals true ch rg m).y px = byteSat (vecRaw (4 * (getYuvRange 8 rg).biasY)
    ((searchForward 13 8 rg m).yr, (searchForward 13 8 rg m).yg, (searchForward 13 8 rg m).yb)
    (16 * red ch px) (16 * green ch px) (16 * blue ch px)) := rfl
  rw [e2]
  unfold luma8 byteSat
  generalize vecRaw _ _ _ _ _ = z at *
  omega

theorem rdmLuma_exact (ch : Channels) (rg : YuvRange) (m : Matrix) {px : Buf} (hb : ∀ a ∈ px, a < 256) :
    |((neonVals true ch rg m).y px : Rat) - exactY 8 rg m (red ch px) (green ch px) (blue ch px)|
      ≤ 118 / 100 := by
  obtain ⟨h1, h2, h3⟩ := comps_lt (by omega) ch hb
  have ht : searchForward 13 8 rg m = computedForward 13 8 rg m :=
    c06_searchForward 13 8 (by unfold Prec; omega) (Or.inl rfl) rg m
  obtain ⟨-, n1, n2, n3, -⟩ := c06_forward_tables 13 8 (by unfold Prec; omega) (Or.inl rfl) rg m
  rw [← ht] at n1 n2 n3
  have hz := rdmLuma_bounds rg m (red ch px) (green ch px) (blue ch px)
  obtain ⟨x0, x1⟩ := exactY_range rg m h1 h2 h3
  have hc := coefs_close n1 n2 n3 (cast_comp h1) (cast_comp h2) (cast_comp h3)
  have e2 : (neonVals true ch rg m).y px = byteSat (vecRaw (4 * (getYuvRange 8 rg).biasY)
    ((searchForward 13 8 rg m).yr, (searchForward 13 8 rg m).yg, (searchForward 13 8 rg m).yb)
    (16 * red ch px) (16 * green ch px) (16 * blue ch px)) := rfl
  rw [e2]
  refine byteSat_exact (by linarith) (by linarith) (by norm_num) ?_
  dsimp only at hz
  generalize vecRaw _ _ _ _ _ = z at *
  rw [exactY_eq, offY_eq] at *
  obtain ⟨z1, z2⟩ := hz
  have z1' : (16 : Rat) * ((red ch px : Rat) * ((searchForward 13 8 rg m).yr : Rat)
      + (green ch px : Rat) * ((searchForward 13 8 rg m).yg : Rat)
      + (blue ch px : Rat) * ((searchForward 13 8 rg m).yb : Rat)
      + ((getYuvRange 8 rg).biasY : Rat) * 8192) - 147456 ≤ 131072 * (z : Rat) := by exact_mod_cast z1
  have z2' : 131072 * (z : Rat) ≤ (16 : Rat) * ((red ch px : Rat) * ((searchForward 13 8 rg m).yr : Rat)
      + (green ch px : Rat) * ((searchForward 13 8 rg m).yg : Rat)
      + (blue ch px : Rat) * ((searchForward 13 8 rg m).yb : Rat)
      + ((getYuvRange 8 rg).biasY : Rat) * 8192) + 49152 := by exact_mod_cast z2
  rw [abs_le] at *
  constructor <;> linarith

/-- The sixteenfold mean against an average of the scalar code. -/
structure RdmNear (n : Nat) (avg : List Nat → Nat) : Prop where
  lt : ∀ l, (∀ a ∈ l, a < 256) → avg l < 256
  near : ∃ lo : Int, ∀ l : List Nat, l.length = n →
    lo ≤ (rdmMean l : Int) - (16 * avg l : Nat) ∧ (rdmMean l : Int) - (16 * avg l : Nat) ≤ lo + (12 : Nat)

theorem rdmNear {s : Sampling} {last : Bool} {n : Nat} (hl : BlockShape s last n) :
    RdmNear n (avgOf last) ∧ RdmNear n avgUp := by
  have up : RdmNear n avgUp := by
    refine ⟨fun l h => avgUp_lt8 h, -8, fun l h => ?_⟩
    subst h
    match l, hl.len with
    | [a], _ => rw [Verif.avgUp_one]; simp only [listMean]; omega
    | [a, b], _ => rw [avgUp_two]; simp only [listMean]; omega
    | [a, b, c, d], _ => rw [avgUp_four]; simp only [listMean]; omega
  refine ⟨?_, up⟩
  cases last
  · exact up
  · refine ⟨fun l h => avgOf_lt (last := true) h, 0, fun l h => ?_⟩
    have h2 := hl.last2 rfl
    match l, h.trans h2 with
    | [a, b], _ =>
      simp only [avgOf, if_true, avgDown_two', listMean]; omega

theorem rdmRow_scalar {k : Int × Int × Int} (hk : ChromaRowOk k) {lo : Int} {r g b r' g' b' : Nat}
    (hr : lo ≤ (r : Int) - (16 * r' : Nat) ∧ (r : Int) - (16 * r' : Nat) ≤ lo + (12 : Nat))
    (hg : lo ≤ (g : Int) - (16 * g' : Nat) ∧ (g : Int) - (16 * g' : Nat) ≤ lo + (12 : Nat))
    (hb : lo ≤ (b : Int) - (16 * b' : Nat) ∧ (b : Int) - (16 * b' : Nat) ≤ lo + (12 : Nat)) :
    vecRaw 513 k r g b ≤ encVal 13 k.1 k.2.1 k.2.2 128 r' g' b' + 1 ∧
    encVal 13 k.1 k.2.1 k.2.2 128 r' g' b' ≤ vecRaw 513 k r g b + 1 := by
  obtain ⟨a1, a2⟩ := vecRaw_bounds 513 k r g b
  obtain ⟨s1, s2⟩ := hk.shift hr hg hb
  have hv := encVal_bounds k.1 k.2.1 k.2.2 128 r' g' b'
  push_cast at s1 s2
  simp only [Int.sub_mul, Int.mul_assoc] at s1 s2
  dsimp only at hv
  generalize (r : Int) * k.1 = x at *
  generalize (g : Int) * k.2.1 = y at *
  generalize (b : Int) * k.2.2 = z at *
  generalize (r' : Int) * k.1 = x' at *
  generalize (g' : Int) * k.2.1 = y' at *
  generalize (b' : Int) * k.2.2 = z' at *
  generalize vecRaw 513 k r g b = u at *
  generalize encVal 13 k.1 k.2.1 k.2.2 128 r' g' b' = v at *
  omega

theorem rdmChroma_scalar {s : Sampling} {last : Bool} (ch : Channels) (rg : YuvRange) (m : Matrix)
    {l : List Buf} (hl : BlockShape s last l.length) (hb : ∀ px ∈ l, ∀ a ∈ px, a < 256)
    {avg : List Nat → Nat} (ha : RdmNear l.length avg) :
    ((neonVals true ch rg m).cb s last l ≤ cb8 13 ch rg m avg l + 1 ∧
      cb8 13 ch rg m avg l ≤ (neonVals true ch rg m).cb s last l + 1) ∧
    ((neonVals true ch rg m).cr s last l ≤ cr8 13 ch rg m avg l + 1 ∧
      cr8 13 ch rg m avg l ≤ (neonVals true ch rg m).cr s last l + 1) := by
  obtain ⟨lr, lg, lb⟩ := comps_map hb ch
  have ar := ha.lt _ lr
  have ag := ha.lt _ lg
  have ab := ha.lt _ lb
  obtain ⟨lo, hn⟩ := ha.near
  have nr := hn (l.map (red ch)) (by simp)
  have ng := hn (l.map (green ch)) (by simp)
  have nb := hn (l.map (blue ch)) (by simp)
  obtain ⟨⟨-, e2, e3⟩, -⟩ := low8_encode (p := 13) (Or.inl rfl) rg m ar ag ab
  obtain ⟨-, r2, r3⟩ := lumaVal_range rg m ar ag ab
  have hbu : (getYuvRange 8 rg).biasUv = 128 := by cases rg <;> rfl
  obtain ⟨k1, k2⟩ := chromaRowOk rg m
  have c1 := rdmRow_scalar k1 nr ng nb
  have c2 := rdmRow_scalar k2 nr ng nb
  obtain ⟨g1, g2⟩ := rdm_chroma ch rg m hl
  rw [g1, g2, vecSum_raw, vecSum_raw]
  unfold cb8 cr8
  have v1 : cbVal 13 8 rg m (avg (l.map (red ch))) (avg (l.map (green ch))) (avg (l.map (blue ch)))
      = encVal 13 (searchForward 13 8 rg m).cbR (searchForward 13 8 rg m).cbG (searchForward 13 8 rg m).cbB 128
        (avg (l.map (red ch))) (avg (l.map (green ch))) (avg (l.map (blue ch))) := by unfold cbVal; rw [hbu]
  have v2 : crVal 13 8 rg m (avg (l.map (red ch))) (avg (l.map (green ch))) (avg (l.map (blue ch)))
      = encVal 13 (searchForward 13 8 rg m).crR (searchForward 13 8 rg m).crG (searchForward 13 8 rg m).crB 128
        (avg (l.map (red ch))) (avg (l.map (green ch))) (avg (l.map (blue ch))) := by unfold crVal; rw [hbu]
  dsimp only at c1 c2
  rw [← v1] at c1
  rw [← v2] at c2
  have d1 := byteSat_near r2.1 r2.2 c1
  have d2 := byteSat_near r3.1 r3.2 c2
  omega

theorem rdmMean_mean {l : List Nat} (hl : l.length = 1 ∨ l.length = 2 ∨ l.length = 4) :
    (rdmMean l : Rat) = 16 * mean l := by
  match l, hl with
  | [a], _ => simp [listMean, mean]
  | [a, b], _ => simp [listMean, mean]; ring
  | [a, b, c, d], _ => simp [listMean, mean]; ring

/-- RDM chroma is within 0.93 code values of the exact chroma of the exact mean. -/
theorem rdmChroma_exact {s : Sampling} {last : Bool} (ch : Channels) (rg : YuvRange) (m : Matrix)
    {l : List Buf} (hl : BlockShape s last l.length) (hb : ∀ px ∈ l, ∀ a ∈ px, a < 256) :
    let r := mean (l.map (red ch))
    let g := mean (l.map (green ch))
    let b := mean (l.map (blue ch))
    |((neonVals true ch rg m).cb s last l : Rat) - exactCb 8 rg m r g b| ≤ 93 / 100 ∧
    |((neonVals true ch rg m).cr s last l : Rat) - exactCr 8 rg m r g b| ≤ 93 / 100 := by
  intro r g b
  obtain ⟨lr, lg, lb⟩ := comps_map hb ch
  have hpos : 0 < l.length := by have := hl.len; omega
  have mr := mean_range (by simpa using hpos) lr
  have mg := mean_range (by simpa using hpos) lg
  have mb := mean_range (by simpa using hpos) lb
  have ab : ∀ x : Rat, 0 ≤ x ∧ x ≤ 255 → |x| ≤ 255 := fun x h => by
    rw [abs_of_nonneg h.1]; exact h.2
  have ht : searchForward 13 8 rg m = computedForward 13 8 rg m :=
    c06_searchForward 13 8 (by unfold Prec; omega) (Or.inl rfl) rg m
  obtain ⟨-, -, -, -, n4, n5, n6, n7, n8, n9⟩ :=
    c06_forward_tables 13 8 (by unfold Prec; omega) (Or.inl rfl) rg m
  rw [← ht] at n4 n5 n6 n7 n8 n9
  have d1 := coefs_close n4 n5 n6 (ab r mr) (ab g mg) (ab b mb)
  have d2 := coefs_close n7 n8 n9 (ab r mr) (ab g mg) (ab b mb)
  obtain ⟨⟨x1, x2⟩, x3, x4⟩ := exactC_range rg m mr mg mb
  have off : offC 8 = 128 := by unfold offC; norm_num
  have key : ∀ k : Int × Int × Int,
      |(vecRaw 513 k (rdmMean (l.map (red ch))) (rdmMean (l.map (green ch))) (rdmMean (l.map (blue ch))) : Rat)
        - (128 + (k.1 * r + k.2.1 * g + k.2.2 * b) / 8192)| ≤ 7 / 8 := by
    intro k
    obtain ⟨a1, a2⟩ := vecRaw_bounds 513 k (rdmMean (l.map (red ch))) (rdmMean (l.map (green ch)))
      (rdmMean (l.map (blue ch)))
    have a1' : (((rdmMean (l.map (red ch)) : Nat) : Rat) * (k.1 : Rat) + (rdmMean (l.map (green ch)) : Nat) * (k.2.1 : Rat)
        + (rdmMean (l.map (blue ch)) : Nat) * (k.2.2 : Rat) + 513 * 32768) - 147456
        ≤ 131072 * (vecRaw 513 k (rdmMean (l.map (red ch))) (rdmMean (l.map (green ch)))
          (rdmMean (l.map (blue ch))) : Rat) := by exact_mod_cast a1
    have a2' : 131072 * (vecRaw 513 k (rdmMean (l.map (red ch))) (rdmMean (l.map (green ch)))
          (rdmMean (l.map (blue ch))) : Rat) ≤ (((rdmMean (l.map (red ch)) : Nat) : Rat) * (k.1 : Rat)
        + (rdmMean (l.map (green ch)) : Nat) * (k.2.1 : Rat)
        + (rdmMean (l.map (blue ch)) : Nat) * (k.2.2 : Rat) + 513 * 32768) + 49152 := by exact_mod_cast a2
    have e := rdmMean_mean (l := l.map (red ch)) (by simpa using hl.len)
    have f := rdmMean_mean (l := l.map (green ch)) (by simpa using hl.len)
    have h := rdmMean_mean (l := l.map (blue ch)) (by simpa using hl.len)
    generalize vecRaw _ _ _ _ _ = z at *
    rw [e, f, h] at a1' a2'
    change _ ≤ _ at a1' a2'
    simp only [r, g, b]
    rw [abs_le]
    constructor <;> linarith
  obtain ⟨g1, g2⟩ := rdm_chroma ch rg m hl
  rw [g1, g2, vecSum_raw, vecSum_raw]
  constructor
  · refine byteSat_exact (by linarith) x2 (by norm_num) ?_
    rw [exactCb_eq, off]
    have k' := key ((searchForward 13 8 rg m).cbR, (searchForward 13 8 rg m).cbG, (searchForward 13 8 rg m).cbB)
    refine le_trans ?_ (le_trans (add_le_add k' d1) (by norm_num))
    refine le_trans (le_of_eq ?_) (abs_add_le _ _)
    congr 1
    ring
  · refine byteSat_exact (by linarith) x4 (by norm_num) ?_
    rw [exactCr_eq, off]
    have k' := key ((searchForward 13 8 rg m).crR, (searchForward 13 8 rg m).crG, (searchForward 13 8 rg m).crB)
    refine le_trans ?_ (le_trans (add_le_add k' d2) (by norm_num))
    refine le_trans (le_of_eq ?_) (abs_add_le _ _)
    congr 1
    ring

/-! ## Nominal ranges -/

theorem rdm_corners (m : Matrix) :
    let t := searchForward 13 8 .limited m
    (16 ≤ vecLo 64 (t.yr, t.yg, t.yb) 4080 ∧ vecHi 64 (t.yr, t.yg, t.yb) 4080 ≤ 235) ∧
    (16 ≤ vecLo 513 (t.cbR, t.cbG, t.cbB) 4080 ∧ vecHi 513 (t.cbR, t.cbG, t.cbB) 4080 ≤ 240) ∧
    (16 ≤ vecLo 513 (t.crR, t.crG, t.crB) 4080 ∧ vecHi 513 (t.crR, t.crG, t.crB) 4080 ≤ 240) := by
  cases m <;> decide +kernel

theorem balNominal (m : Matrix) :
    ByteIn 13 255 16 235 (profBias 13 16) (kLuma (searchForward 13 8 .limited m)) ∧
    ByteIn 13 255 16 240 (profBias 13 128) (kCb (searchForward 13 8 .limited m)) ∧
    ByteIn 13 255 16 240 (profBias 13 128) (kCr (searchForward 13 8 .limited m)) := by
  cases m <;> decide +kernel

theorem neon_nominal (rdm : Bool) {s : Sampling} {last : Bool} (ch : Channels) (m : Matrix) :
    (∀ px : Buf, (∀ a ∈ px, a < 256) → 16 ≤ (neonVals rdm ch .limited m).y px ∧
      (neonVals rdm ch .limited m).y px ≤ 235) ∧
    ∀ l : List Buf, BlockShape s last l.length → (∀ px ∈ l, ∀ a ∈ px, a < 256) →
    (16 ≤ (neonVals rdm ch .limited m).cb s last l ∧ (neonVals rdm ch .limited m).cb s last l ≤ 240) ∧
    (16 ≤ (neonVals rdm ch .limited m).cr s last l ∧ (neonVals rdm ch .limited m).cr s last l ≤ 240) := by
  cases rdm
  · obtain ⟨ny, nu, nv⟩ := balNominal m
    constructor
    · intro px hb
      obtain ⟨h1, h2, h3⟩ := comps_lt (by omega) ch hb
      exact low8_in (ny.enc (Nat.le_of_lt_succ h1) (Nat.le_of_lt_succ h2) (Nat.le_of_lt_succ h3)) (by omega)
    · intro l hl hb
      obtain ⟨lr, lg, lb⟩ := comps_map hb ch
      have r := balMean_lt lr
      have g := balMean_lt lg
      have b := balMean_lt lb
      obtain ⟨e1, e2⟩ := bal_chroma ch .limited m hl
      rw [e1, e2]
      have hu : (getYuvRange 8 .limited).biasUv = 128 := rfl
      unfold cb8 cr8 cbVal crVal
      simp only [hu]
      exact ⟨low8_in (nu.enc (Nat.le_of_lt_succ r) (Nat.le_of_lt_succ g) (Nat.le_of_lt_succ b)) (by omega),
        low8_in (nv.enc (Nat.le_of_lt_succ r) (Nat.le_of_lt_succ g) (Nat.le_of_lt_succ b)) (by omega)⟩
  · obtain ⟨cy, cu, cv⟩ := rdm_corners m
    constructor
    · intro px hb
      obtain ⟨h1, h2, h3⟩ := comps_lt (by omega) ch hb
      exact vecSum_range (n := 4080) (lo := 16) (hi := 235) cy (by decide)
        (Nat.mul_le_mul_left 16 (Nat.le_of_lt_succ h1)) (Nat.mul_le_mul_left 16 (Nat.le_of_lt_succ h2))
        (Nat.mul_le_mul_left 16 (Nat.le_of_lt_succ h3))
    · intro l hl hb
      obtain ⟨lr, lg, lb⟩ := comps_map hb ch
      obtain ⟨e1, e2⟩ := rdm_chroma ch .limited m hl
      rw [e1, e2]
      exact ⟨vecSum_range (n := 4080) (lo := 16) (hi := 240) cu (by decide) (rdmMean_le lr) (rdmMean_le lg) (rdmMean_le lb),
        vecSum_range (n := 4080) (lo := 16) (hi := 240) cv (by decide) (rdmMean_le lr) (rdmMean_le lg) (rdmMean_le lb)⟩

end Verif
