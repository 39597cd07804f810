import Verif.Lemmas.X86Prof
import Verif.Lemmas.VecEncodeItu
/-! # The values of the professional mode: scalar agreement, distance to the exact result, ranges -/
namespace Verif
open Spec X86

/-- Twice the component chroma is computed from. -/
abbrev dbl (s : Sampling) (last : Bool) (l : List Nat) : Nat := chromaWord s last l / 8

theorem prof_cb {s : Sampling} {last : Bool} {l : List Buf} (hs : s ≠ .yuv444)
    (hl : BlockShape s last l.length) (ch : Channels) (rg : YuvRange) (m : Matrix) :
    (profVals ch rg m).cb s last l = profCb rg m (dbl s last (l.map (red ch)))
      (dbl s last (l.map (green ch))) (dbl s last (l.map (blue ch))) ∧
    (profVals ch rg m).cr s last l = profCr rg m (dbl s last (l.map (red ch)))
      (dbl s last (l.map (green ch))) (dbl s last (l.map (blue ch))) := by
  have d8 : ∀ a : Nat, 8 * a / 8 = a := by intro a; omega
  have d16 : ∀ a : Nat, 16 * a / 8 = a + a := by intro a; omega
  match l, hl.len with
  | [a], _ =>
    simp only [Vals.cb, Vals.cr, if_neg hs, profVals, dbl, List.map_cons, List.map_nil, chromaWord, d16]
    exact ⟨by first | rfl | trivial, by first | rfl | trivial⟩
  | [a, b], _ =>
    cases last
    · simp only [Vals.cb, Vals.cr, profVals, dbl, List.map_cons, List.map_nil, chromaWord,
        Bool.false_eq_true, if_false, d8]
      exact ⟨by first | rfl | trivial, by first | rfl | trivial⟩
    · simp only [Vals.cb, Vals.cr, profVals, dbl, List.map_cons, List.map_nil, chromaWord, if_true, d16]
      exact ⟨by first | rfl | trivial, by first | rfl | trivial⟩
  | [a, b, c, d], _ =>
    simp only [Vals.cb, Vals.cr, profVals, dbl, List.map_cons, List.map_nil, chromaWord, d8]
    exact ⟨by first | rfl | trivial, by first | rfl | trivial⟩

theorem prof_cb444 {last : Bool} {l : List Buf} (hl : BlockShape .yuv444 last l.length) (ch : Channels)
    (rg : YuvRange) (m : Matrix) {avg : List Nat → Nat} (havg : ∀ x, avg [x] = x) :
    (profVals ch rg m).cb .yuv444 last l = cb8 15 ch rg m avg l ∧
    (profVals ch rg m).cr .yuv444 last l = cr8 15 ch rg m avg l := by
  obtain ⟨a, rfl⟩ := List.length_eq_one_iff.1 (hl.full rfl).1
  simp only [Vals.cb, Vals.cr, if_true, profVals, cb8, cr8, List.map_cons, List.map_nil, avgUp_one, havg,
    and_self]

/-- A chroma row of precision 15. -/
def ProfRow (k : Int × Int × Int) : Prop :=
  (-1 ≤ k.1 + k.2.1 + k.2.2 ∧ k.1 + k.2.1 + k.2.2 ≤ 1) ∧
  max 0 k.1 + max 0 k.2.1 + max 0 k.2.2 ≤ 16384 ∧ -16384 ≤ min 0 k.1 + min 0 k.2.1 + min 0 k.2.2

instance (k : Int × Int × Int) : Decidable (ProfRow k) := by unfold ProfRow; infer_instance

theorem profRows (rg : YuvRange) (m : Matrix) :
    ProfRow (kCb (searchForward 15 8 rg m)) ∧ ProfRow (kCr (searchForward 15 8 rg m)) := by
  cases rg <;> cases m <;> decide +kernel

theorem ProfRow.shift {k : Int × Int × Int} (h : ProfRow k) {n : Nat} {lo d1 d2 d3 : Int}
    (hlo : -1 ≤ lo ∧ lo ≤ 0) (h1 : lo ≤ d1 ∧ d1 ≤ lo + n) (h2 : lo ≤ d2 ∧ d2 ≤ lo + n)
    (h3 : lo ≤ d3 ∧ d3 ≤ lo + n) :
    -(n * 16384) - 1 ≤ d1 * k.1 + d2 * k.2.1 + d3 * k.2.2 ∧
      d1 * k.1 + d2 * k.2.1 + d3 * k.2.2 ≤ n * 16384 + 1 := by
  obtain ⟨hs, hp, hq⟩ := h
  have key : ∀ d : Int, lo ≤ d ∧ d ≤ lo + n → ∀ k : Int,
      n * min 0 k ≤ (d - lo) * k ∧ (d - lo) * k ≤ n * max 0 k := by
    intro d hd k
    have hn := mul_between (f := (d - lo).toNat) (n := n) (by omega) k
    rw [Int.toNat_of_nonneg (by omega)] at hn
    exact hn
  have a1 := key d1 h1 k.1
  have a2 := key d2 h2 k.2.1
  have a3 := key d3 h3 k.2.2
  have hp : (n : Int) * (max 0 k.1 + max 0 k.2.1 + max 0 k.2.2) ≤ n * 16384 :=
    mul_le_mul_of_nonneg_left hp (Int.natCast_nonneg n)
  have hq : (n : Int) * (-16384) ≤ n * (min 0 k.1 + min 0 k.2.1 + min 0 k.2.2) :=
    mul_le_mul_of_nonneg_left hq (Int.natCast_nonneg n)
  have e : d1 * k.1 + d2 * k.2.1 + d3 * k.2.2
      = (d1 - lo) * k.1 + (d2 - lo) * k.2.1 + (d3 - lo) * k.2.2 + lo * (k.1 + k.2.1 + k.2.2) := by ring
  have hl : -1 ≤ lo * (k.1 + k.2.1 + k.2.2) ∧ lo * (k.1 + k.2.1 + k.2.2) ≤ 1 := by
    have : lo = -1 ∨ lo = 0 := by omega
    rcases this with h | h <;> rw [h] <;> omega
  rw [e]
  constructor <;> linarith [hl.1, hl.2]

theorem prof_low8 {q B bias : Nat} {k : Int × Int × Int} (h : ByteFits q B (profBias q bias) k)
    {r g b : Nat} (hr : r ≤ B) (hg : g ≤ B) (hb : b ≤ B) :
    (low8 (encVal q k.1 k.2.1 k.2.2 bias r g b) : Int) = encVal q k.1 k.2.1 k.2.2 bias r g b := by
  have := h.byte hr hg hb
  rw [encVal_exact]
  unfold low8
  omega

/-- One row of the matrix at precision 16 on doubled components against precision 15. -/
theorem prof_scalar {k : Int × Int × Int} (hk : ProfRow k) {bias r g b r' g' b' : Nat} {lo : Int}
    (hlo : -1 ≤ lo ∧ lo ≤ 0)
    (hr : lo ≤ (r : Int) - (2 * r' : Nat) ∧ (r : Int) - (2 * r' : Nat) ≤ lo + (2 : Nat))
    (hg : lo ≤ (g : Int) - (2 * g' : Nat) ∧ (g : Int) - (2 * g' : Nat) ≤ lo + (2 : Nat))
    (hb : lo ≤ (b : Int) - (2 * b' : Nat) ∧ (b : Int) - (2 * b' : Nat) ≤ lo + (2 : Nat)) :
    encVal 16 k.1 k.2.1 k.2.2 bias r g b ≤ encVal 15 k.1 k.2.1 k.2.2 bias r' g' b' + 1 ∧
    encVal 15 k.1 k.2.1 k.2.2 bias r' g' b' ≤ encVal 16 k.1 k.2.1 k.2.2 bias r g b + 1 := by
  obtain ⟨h1, h2⟩ := hk.shift hlo hr hg hb
  push_cast at h1 h2
  simp only [Int.sub_mul, Int.mul_assoc] at h1 h2
  unfold encVal
  norm_num
  generalize (r : Int) * k.1 = x at *
  generalize (g : Int) * k.2.1 = y at *
  generalize (b : Int) * k.2.2 = z at *
  generalize (r' : Int) * k.1 = x' at *
  generalize (g' : Int) * k.2.1 = y' at *
  generalize (b' : Int) * k.2.2 = z' at *
  omega

theorem dbl_sub {s : Sampling} (hs : s ≠ .yuv444) {last : Bool} {l : List Nat}
    (hl : BlockShape s last l.length) :
    ((if last then 0 else -1 : Int) ≤ (dbl s last l : Int) - (2 * avgOf last l : Nat) ∧
      (dbl s last l : Int) - (2 * avgOf last l : Nat) ≤ (if last then 0 else -1 : Int) + (2 : Nat)) ∧
    2 * l.sum ≤ dbl s last l * l.length ∧ dbl s last l * l.length ≤ 2 * l.sum + l.length ∧
      ((∀ a ∈ l, a < 256) → dbl s last l ≤ 510) := by
  obtain ⟨h, e, h1, h2, h3, h4⟩ := chromaWord_sub hs last hl.len hl.last2
  have : dbl s last l = h := by unfold dbl; omega
  rw [this]
  refine ⟨?_, h2, h3, h4⟩
  unfold avgOf
  cases last <;> exact h1

theorem lt_map {l : List Buf} (hb : ∀ px ∈ l, ∀ a ∈ px, a < 256) {f : Buf → Nat}
    (hf : ∀ px, (∀ a ∈ px, a < 256) → f px < 256) : ∀ a ∈ l.map f, a < 256 := by
  intro a ha
  obtain ⟨px, hpx, rfl⟩ := List.mem_map.1 ha
  exact hf px (hb px hpx)

/-- The components of a block are bytes. -/
theorem comps_map {l : List Buf} (hb : ∀ px ∈ l, ∀ a ∈ px, a < 256) (ch : Channels) :
    (∀ a ∈ l.map (red ch), a < 256) ∧ (∀ a ∈ l.map (green ch), a < 256) ∧
      ∀ a ∈ l.map (blue ch), a < 256 :=
  ⟨lt_map hb fun px hp => (comps_lt (by omega) ch hp).1,
    lt_map hb fun px hp => (comps_lt (by omega) ch hp).2.1,
    lt_map hb fun px hp => (comps_lt (by omega) ch hp).2.2⟩

/-- How the scalar code may average a block: its result is near half the doubled word. -/
structure AvgNear (s : Sampling) (last : Bool) (n : Nat) (avg : List Nat → Nat) : Prop where
  one : ∀ x, s = .yuv444 → avg [x] = x
  lt : ∀ l, (∀ a ∈ l, a < 256) → avg l < 256
  near : s ≠ .yuv444 → ∃ lo : Int, (-1 ≤ lo ∧ lo ≤ 0) ∧ ∀ l : List Nat, l.length = n →
    lo ≤ (dbl s last l : Int) - (2 * avg l : Nat) ∧ (dbl s last l : Int) - (2 * avg l : Nat) ≤ lo + (2 : Nat)

theorem avgNear_planar {s : Sampling} {last : Bool} {n : Nat} (hl : BlockShape s last n) :
    AvgNear s last n (if last then avgDown else avgUp) := by
  refine ⟨fun x hs => ?_, fun l h => avgOf_lt (last := last) h, fun hs => ?_⟩
  · rw [(hl.full hs).2]; exact avgUp_one
  · refine ⟨if last then 0 else -1, by cases last <;> decide, fun l hn => ?_⟩
    exact (dbl_sub hs (by rw [hn]; exact hl)).1

theorem avgNear_nv {s : Sampling} {last : Bool} {n : Nat} (hl : BlockShape s last n) :
    AvgNear s last n avgUp := by
  refine ⟨fun x hs => avgUp_one, fun l h => (avg_lt (by omega) h).1, fun hs => ?_⟩
  refine ⟨-1, by decide, fun l hn => ?_⟩
  cases last
  · exact (dbl_sub hs (by rw [hn]; exact hl)).1
  · have h2 := hl.last2 rfl
    match l, hn.trans h2 with
    | [a, b], _ =>
      have : dbl s true [a, b] = 2 * avgUp [a, b] := by
        rw [avgUp_two]; simp only [dbl, chromaWord, if_true]; omega
      rw [this]; omega

/-- Chroma is within one code value of the scalar code, and equal without subsampling. -/
theorem profChroma_scalar {s : Sampling} {last : Bool} (ch : Channels) (rg : YuvRange) (m : Matrix)
    {l : List Buf} (hl : BlockShape s last l.length) (hb : ∀ px ∈ l, ∀ a ∈ px, a < 256)
    {avg : List Nat → Nat} (ha : AvgNear s last l.length avg) :
    let E := if s = .yuv444 then 0 else 1
    ((profVals ch rg m).cb s last l ≤ cb8 15 ch rg m avg l + E ∧
      cb8 15 ch rg m avg l ≤ (profVals ch rg m).cb s last l + E) ∧
    ((profVals ch rg m).cr s last l ≤ cr8 15 ch rg m avg l + E ∧
      cr8 15 ch rg m avg l ≤ (profVals ch rg m).cr s last l + E) := by
  intro E
  by_cases hs : s = .yuv444
  · subst hs
    have : last = false := (hl.full rfl).2
    subst this
    obtain ⟨e1, e2⟩ := prof_cb444 hl ch rg m (avg := avg) (fun x => ha.one x rfl)
    rw [e1, e2]; omega
  · obtain ⟨lr, lg, lb⟩ := comps_map hb ch
    obtain ⟨e1, e2⟩ := prof_cb hs hl ch rg m
    obtain ⟨-, -, -, r4⟩ := dbl_sub hs (last := last) (l := l.map (red ch)) (by simpa using hl)
    obtain ⟨-, -, -, g4⟩ := dbl_sub hs (last := last) (l := l.map (green ch)) (by simpa using hl)
    obtain ⟨-, -, -, b4⟩ := dbl_sub hs (last := last) (l := l.map (blue ch)) (by simpa using hl)
    have ar := ha.lt _ lr
    have ag := ha.lt _ lg
    have ab := ha.lt _ lb
    obtain ⟨lo, hlo, hn⟩ := ha.near hs
    have r1 := hn (l.map (red ch)) (by simp)
    have g1 := hn (l.map (green ch)) (by simp)
    have b1 := hn (l.map (blue ch)) (by simp)
    obtain ⟨-, ⟨fu, fv⟩, gu, gv⟩ := profFits rg m
    obtain ⟨k1, k2⟩ := profRows rg m
    have c1 := prof_scalar k1 (bias := (getYuvRange 8 rg).biasUv) hlo r1 g1 b1
    have c2 := prof_scalar k2 (bias := (getYuvRange 8 rg).biasUv) hlo r1 g1 b1
    have l1 := prof_low8 gu (r4 lr) (g4 lg) (b4 lb)
    have l2 := prof_low8 gv (r4 lr) (g4 lg) (b4 lb)
    have l3 := prof_low8 fu (Nat.le_of_lt_succ ar) (Nat.le_of_lt_succ ag) (Nat.le_of_lt_succ ab)
    have l4 := prof_low8 fv (Nat.le_of_lt_succ ar) (Nat.le_of_lt_succ ag) (Nat.le_of_lt_succ ab)
    have hE : E = 1 := if_neg hs
    rw [e1, e2, hE]
    unfold profCb profCr cb8 cr8 cbVal crVal
    simp only [kCb, kCr] at *
    omega

/-! ## Distance to the exact result -/

theorem prof_exact {k1 k2 k3 : Int} {q1 q2 q3 : Rat} (n1 : NearestCoef 15 k1 q1)
    (n2 : NearestCoef 15 k2 q2) (n3 : NearestCoef 15 k3 q3) {bias r g b : Nat} (hr : r ≤ 510)
    (hg : g ≤ 510) (hb : b ≤ 510) :
    |(encVal 16 k1 k2 k3 bias r g b : Rat) - (bias + (q1 * (r / 2) + q2 * (g / 2) + q3 * (b / 2)))|
      ≤ 52 / 100 := by
  have c : ∀ x : Nat, x ≤ 510 → |(x : Rat) / 2| ≤ 255 := by
    intro x hx
    rw [abs_of_nonneg (by positivity), div_le_iff₀ (by norm_num)]
    exact_mod_cast hx
  have e1 := coef_err n1 (c r hr)
  have e2 := coef_err n2 (c g hg)
  have e3 := coef_err n3 (c b hb)
  have hf : 65536 * encVal 16 k1 k2 k3 bias r g b ≤ r * k1 + g * k2 + b * k3 + (bias * 65536 + 32767) ∧
      r * k1 + g * k2 + b * k3 + (bias * 65536 + 32767) < 65536 * encVal 16 k1 k2 k3 bias r g b + 65536 := by
    unfold encVal; norm_num; omega
  generalize encVal 16 k1 k2 k3 bias r g b = z at *
  obtain ⟨h1, h2⟩ := hf
  have h1' : 65536 * (z : Rat) ≤ (r : Rat) * k1 + g * k2 + b * k3 + (bias * 65536 + 32767) := by
    exact_mod_cast h1
  have h2' : (r : Rat) * k1 + g * k2 + b * k3 + (bias * 65536 + 32767) < 65536 * (z : Rat) + 65536 := by
    exact_mod_cast h2
  rw [abs_le] at *
  norm_num at e1 e2 e3 ⊢
  constructor <;> linarith

theorem exactC_gray (rg : YuvRange) (m : Matrix) (r g b c : Rat) :
    exactCb 8 rg m (r + c) (g + c) (b + c) = exactCb 8 rg m r g b ∧
    exactCr 8 rg m (r + c) (g + c) (b + c) = exactCr 8 rg m r g b := by
  obtain ⟨-, -, -, w⟩ := weights m
  have e : exactLuma 8 m (r + c) (g + c) (b + c) = exactLuma 8 m r g b + c / maxV 8 := by
    unfold exactLuma
    linear_combination c / maxV 8 * w
  unfold exactCb exactCr
  rw [e]
  constructor <;> ring

theorem dbl_mean {s : Sampling} (hs : s ≠ .yuv444) {last : Bool} {l : List Nat}
    (hl : BlockShape s last l.length) : |(dbl s last l : Rat) / 2 - (mean l + 1 / 4)| ≤ 1 / 4 := by
  obtain ⟨-, h1, h2, -⟩ := dbl_sub hs hl
  have hn : 0 < l.length := by have := hl.len; omega
  have hnq : (0 : Rat) < l.length := by exact_mod_cast hn
  have h1' : 2 * (l.sum : Rat) ≤ (dbl s last l : Rat) * l.length := by exact_mod_cast h1
  have h2' : (dbl s last l : Rat) * l.length ≤ 2 * (l.sum : Rat) + l.length := by exact_mod_cast h2
  have m1 : mean l * l.length = l.sum := by unfold mean; field_simp
  generalize (dbl s last l : Rat) = d at *
  generalize (l.length : Rat) = n at *
  rw [← m1] at h1' h2'
  have a1 : 2 * mean l ≤ d := by
    by_contra h
    push Not at h
    have := mul_lt_mul_of_pos_right h hnq
    linarith
  have a2 : d ≤ 2 * mean l + 1 := by
    by_contra h
    push Not at h
    have := mul_lt_mul_of_pos_right h hnq
    linarith
  rw [abs_le]
  constructor <;> linarith

/-- Subsampled chroma is within 0.77 code values of the exact chroma of the exact mean. -/
theorem profChroma_exact {s : Sampling} {last : Bool} (ch : Channels) (rg : YuvRange) (m : Matrix)
    {l : List Buf} (hl : BlockShape s last l.length) (hb : ∀ px ∈ l, ∀ a ∈ px, a < 256) :
    let E : Rat := if s = .yuv444 then 55 / 100 else 77 / 100
    let r := mean (l.map (red ch))
    let g := mean (l.map (green ch))
    let b := mean (l.map (blue ch))
    |((profVals ch rg m).cb s last l : Rat) - exactCb 8 rg m r g b| ≤ E ∧
    |((profVals ch rg m).cr s last l : Rat) - exactCr 8 rg m r g b| ≤ E := by
  intro E r g b
  obtain ⟨lr, lg, lb⟩ := comps_map hb ch
  by_cases hs : s = .yuv444
  · subst hs
    obtain ⟨e1, e2⟩ := prof_cb444 hl ch rg m (avg := avgUp) fun _ => avgUp_one
    obtain ⟨a, rfl⟩ := List.length_eq_one_iff.1 (hl.full rfl).1
    obtain ⟨r1, g1, b1⟩ := comps_lt (by omega) ch (hb a (by simp))
    have := (low8_encode (p := 15) (Or.inr rfl) rg m r1 g1 b1).2.2
    rw [e1, e2]
    simp only [E, if_true, r, g, b, cb8, cr8, List.map_cons, List.map_nil, avgUp_one]
    have e' : ∀ a : Nat, mean [a] = a := fun a => by simp [mean]
    simpa only [e'] using this
  · obtain ⟨e1, e2⟩ := prof_cb hs hl ch rg m
    obtain ⟨-, -, -, r4⟩ := dbl_sub hs (last := last) (l := l.map (red ch)) (by simpa using hl)
    obtain ⟨-, -, -, g4⟩ := dbl_sub hs (last := last) (l := l.map (green ch)) (by simpa using hl)
    obtain ⟨-, -, -, b4⟩ := dbl_sub hs (last := last) (l := l.map (blue ch)) (by simpa using hl)
    have mr := dbl_mean hs (last := last) (l := l.map (red ch)) (by simpa using hl)
    have mg := dbl_mean hs (last := last) (l := l.map (green ch)) (by simpa using hl)
    have mb := dbl_mean hs (last := last) (l := l.map (blue ch)) (by simpa using hl)
    have r4 := r4 lr
    have g4 := g4 lg
    have b4 := b4 lb
    have x1 := exactCb_lip rg m mr mg mb
    have x2 := exactCr_lip rg m mr mg mb
    rw [(exactC_gray rg m _ _ _ _).1] at x1
    rw [(exactC_gray rg m _ _ _ _).2] at x2
    have ht : searchForward 15 8 rg m = computedForward 15 8 rg m :=
      c06_searchForward 15 8 (by unfold Prec; omega) (Or.inl rfl) rg m
    obtain ⟨-, -, -, -, n4, n5, n6, n7, n8, n9⟩ :=
      c06_forward_tables 15 8 (by unfold Prec; omega) (Or.inl rfl) rg m
    rw [← ht] at n4 n5 n6 n7 n8 n9
    obtain ⟨-, -, gu, gv⟩ := profFits rg m
    have l1 := prof_low8 gu r4 g4 b4
    have l2 := prof_low8 gv r4 g4 b4
    have hbu : (getYuvRange 8 rg).biasUv = 128 := by cases rg <;> rfl
    have off : offC 8 = (128 : Nat) := by unfold offC; norm_num
    have y1 := prof_exact n4 n5 n6 (bias := 128) r4 g4 b4
    have y2 := prof_exact n7 n8 n9 (bias := 128) r4 g4 b4
    rw [← off, ← exactCb_eq] at y1
    rw [← off, ← exactCr_eq] at y2
    rw [e1, e2]
    simp only [E, if_neg hs]
    unfold profCb profCr
    simp only [kCb, kCr, hbu] at *
    constructor
    · rw [← Int.cast_natCast, l1]
      refine le_trans (abs_sub_le _ _ _) (le_trans (add_le_add y1 x1) (by norm_num))
    · rw [← Int.cast_natCast, l2]
      refine le_trans (abs_sub_le _ _ _) (le_trans (add_le_add y2 x2) (by norm_num))

/-! ## Nominal ranges -/

/-- Sums for words up to `B` stay between two bytes. -/
def ByteIn (q B lo hi : Nat) (bias : Int) (k : Int × Int × Int) : Prop :=
  lo * 2 ^ q ≤ bias + B * (min 0 k.1 + min 0 k.2.1 + min 0 k.2.2) ∧
  bias + B * (max 0 k.1 + max 0 k.2.1 + max 0 k.2.2) < (hi + 1) * 2 ^ q

instance (q B lo hi : Nat) (bias : Int) (k : Int × Int × Int) : Decidable (ByteIn q B lo hi bias k) := by
  unfold ByteIn; infer_instance

theorem ByteIn.enc {q B lo hi bias : Nat} {k : Int × Int × Int} (h : ByteIn q B lo hi (profBias q bias) k)
    {r g b : Nat} (hr : r ≤ B) (hg : g ≤ B) (hb : b ≤ B) :
    (lo : Int) ≤ encVal q k.1 k.2.1 k.2.2 bias r g b ∧ encVal q k.1 k.2.1 k.2.2 bias r g b ≤ hi := by
  obtain ⟨h1, h2⟩ := h
  have m1 := X86.mul_between_nat (k := k.1) hr
  have m2 := X86.mul_between_nat (k := k.2.1) hg
  have m3 := X86.mul_between_nat (k := k.2.2) hb
  have hp : (0 : Int) < 2 ^ q := by positivity
  rw [Int.mul_add, Int.mul_add] at h1 h2
  rw [encVal_exact]
  unfold exactSum
  constructor
  · rw [Int.le_ediv_iff_mul_le hp]; linarith
  · have : (r * k.1 + g * k.2.1 + b * k.2.2 + profBias q bias) / 2 ^ q < (hi : Int) + 1 :=
      Int.ediv_lt_of_lt_mul hp (by linarith)
    omega

theorem profNominal (m : Matrix) :
    ByteIn 15 255 16 235 (profBias 15 16) (kLuma (searchForward 15 8 .limited m)) ∧
    (ByteIn 15 255 16 240 (profBias 15 128) (kCb (searchForward 15 8 .limited m)) ∧
    ByteIn 15 255 16 240 (profBias 15 128) (kCr (searchForward 15 8 .limited m))) ∧
    ByteIn 16 510 16 240 (profBias 16 128) (kCb (searchForward 15 8 .limited m)) ∧
    ByteIn 16 510 16 240 (profBias 16 128) (kCr (searchForward 15 8 .limited m)) := by
  cases m <;> decide +kernel

theorem low8_in {x : Int} {lo hi : Nat} (h : (lo : Int) ≤ x ∧ x ≤ hi) (hh : hi ≤ 255) :
    lo ≤ low8 x ∧ low8 x ≤ hi := by
  unfold low8; omega

/-- Limited range: the scalar values of the professional mode. -/
theorem profScalar_range (m : Matrix) {r g b : Nat} (hr : r < 256) (hg : g < 256) (hb : b < 256) :
    (16 ≤ low8 (lumaVal 15 8 .limited m r g b) ∧ low8 (lumaVal 15 8 .limited m r g b) ≤ 235) ∧
    (16 ≤ low8 (cbVal 15 8 .limited m r g b) ∧ low8 (cbVal 15 8 .limited m r g b) ≤ 240) ∧
    (16 ≤ low8 (crVal 15 8 .limited m r g b) ∧ low8 (crVal 15 8 .limited m r g b) ≤ 240) := by
  obtain ⟨ny, ⟨nu, nv⟩, -, -⟩ := profNominal m
  have hy : (getYuvRange 8 .limited).biasY = 16 := rfl
  have hu : (getYuvRange 8 .limited).biasUv = 128 := rfl
  unfold lumaVal cbVal crVal
  simp only [hy, hu]
  exact ⟨low8_in (ny.enc (by omega) (by omega) (by omega)) (by omega),
    low8_in (nu.enc (by omega) (by omega) (by omega)) (by omega),
    low8_in (nv.enc (by omega) (by omega) (by omega)) (by omega)⟩

/-- Limited range: the chroma values of the vector code. -/
theorem profChroma_range {s : Sampling} {last : Bool} (ch : Channels) (m : Matrix)
    {l : List Buf} (hl : BlockShape s last l.length) (hb : ∀ px ∈ l, ∀ a ∈ px, a < 256) :
    (16 ≤ (profVals ch .limited m).cb s last l ∧ (profVals ch .limited m).cb s last l ≤ 240) ∧
    (16 ≤ (profVals ch .limited m).cr s last l ∧ (profVals ch .limited m).cr s last l ≤ 240) := by
  obtain ⟨lr, lg, lb⟩ := comps_map hb ch
  by_cases hs : s = .yuv444
  · subst hs
    obtain ⟨e1, e2⟩ := prof_cb444 hl ch .limited m (avg := avgUp) fun _ => avgUp_one
    rw [e1, e2]
    exact (profScalar_range m (avg_lt (by omega) lr).1 (avg_lt (by omega) lg).1 (avg_lt (by omega) lb).1).2
  · obtain ⟨e1, e2⟩ := prof_cb hs hl ch .limited m
    obtain ⟨-, -, -, r4⟩ := dbl_sub hs (last := last) (l := l.map (red ch)) (by simpa using hl)
    obtain ⟨-, -, -, g4⟩ := dbl_sub hs (last := last) (l := l.map (green ch)) (by simpa using hl)
    obtain ⟨-, -, -, b4⟩ := dbl_sub hs (last := last) (l := l.map (blue ch)) (by simpa using hl)
    obtain ⟨-, -, nu, nv⟩ := profNominal m
    have hu : (getYuvRange 8 .limited).biasUv = 128 := rfl
    rw [e1, e2]
    unfold profCb profCr
    simp only [hu]
    exact ⟨low8_in (nu.enc (r4 lr) (g4 lg) (b4 lb)) (by omega),
      low8_in (nv.enc (r4 lr) (g4 lg) (b4 lb)) (by omega)⟩

end Verif
