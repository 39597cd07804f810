import Verif.Lemmas.Frames
/-! # Remainders of pair loops -/
namespace Verif
open Spec

/-- The remainder of the pairs of an odd number of chunks is the last chunk. -/
theorem onRemainder_prefix_eq {n b k : Nat} (hn : 0 < n) (hb : b ≤ n) {l : Buf}
    (hl : l.length / n = k) (hk : k % 2 = 1) {g : Buf → Outcome Buf} :
    onRemainder (2 * n) (fun r => onPrefix r b g) l = onLastChunk n (fun c => onPrefix c b g) l := by
  have h2 : l.length / (2 * n) = k / 2 := by
    rw [Nat.mul_comm 2 n, ← Nat.div_div_eq_div_mul, hl]
  have hm : k / 2 * (2 * n) = (k - 1) * n := by
    rw [← Nat.mul_assoc]; congr 1; omega
  have hkn : k * n ≤ l.length := by rw [← hl]; exact Nat.div_mul_le_self _ _
  have hk1 : (k - 1) * n + n = k * n := by
    rw [← Nat.succ_mul]; congr 1; omega
  simp only [onRemainder, onLastChunk, h2, hl]
  rw [if_neg (by omega), if_neg (by omega), if_neg (by omega), hm]
  simp only [eachChunk]
  rw [if_neg (by omega), show k - (k - 1) = 1 by omega]
  simp only [forChunks, onPrefix]
  have hlen : (l.drop ((k - 1) * n)).length = l.length - (k - 1) * n := List.length_drop
  have hlen2 : ((l.drop ((k - 1) * n)).take n).length = n := by
    rw [List.length_take, hlen]; omega
  rw [if_pos (by omega), if_pos (by omega), List.take_take, Nat.min_eq_left hb]
  cases g ((l.drop ((k - 1) * n)).take b) with
  | ok p =>
    simp only [Outcome.bind_ok, Outcome.pure_eq]
    congr 1
    rw [List.append_assoc]
    congr 2
    conv => lhs; rw [← List.take_append_drop n (l.drop ((k - 1) * n))]
    rw [List.drop_append_of_le_length (by omega)]
  | err e => rfl
  | panic => rfl

theorem onPrefix_all {l : Buf} {n : Nat} (h : l.length = n) {g : Buf → Outcome Buf} :
    onPrefix l n g = g l := by
  unfold onPrefix
  rw [if_pos (by omega), List.take_of_length_le (by omega), List.drop_of_length_le (by omega)]
  cases g l <;> simp

theorem forChunks_congr {n : Nat} {f g : Nat → Buf → Outcome Buf}
    (h : ∀ j c, c.length = n → f j c = g j c) :
    ∀ (m j : Nat) (l : Buf), m * n ≤ l.length → forChunks n f m j l = forChunks n g m j l := by
  intro m
  induction m with
  | zero => intros; rfl
  | succ m ih =>
    intro j l hl
    have : (m + 1) * n = m * n + n := Nat.succ_mul m n
    simp only [forChunks]
    rw [h j _ (by rw [List.length_take]; omega), ih _ _ (by rw [List.length_drop]; omega)]

theorem onLastChunk_congr {n : Nat} {f g : Buf → Outcome Buf} {l : Buf}
    (h : ∀ c, c.length = n → f c = g c) : onLastChunk n f l = onLastChunk n g l := by
  unfold onLastChunk eachChunk
  split
  · rfl
  · split
    · rfl
    · rename_i h1 h2
      have hle := Nat.div_mul_le_self l.length n
      generalize l.length / n = q at *
      have h3 : q - (q - 1) = 1 := by omega
      rw [h3, forChunks_congr (fun _ c hc => h c hc) 1 _ _ ?_]
      rw [List.length_drop]
      have : (q - 1) * n + n = q * n := by
        rw [← Nat.succ_mul]; congr 1; omega
      omega

/-- The pair loop with `into_remainder` is the pair loop with `last`. -/
theorem rowPairsRem_eq {guard : Bool} {w cn cx k : Nat} (hcn : 0 < cn) {p0 p1 : Nat → Buf → Outcome Buf}
    {pl : Buf → Outcome Buf} {vp px : Nat → Buf} {row : Buf} (hrow : row.length = w * cn)
    (hvl : ∀ x, (vp x).length = cn) (hcx : cx ≤ w) (hk : k = w / 2)
    (hpl : ∀ x, (px x).length = cn)
    (hp0 : ∀ i c, i < w / 2 → c.length = cn → p0 i c = .ok (px (2 * i)))
    (hp1 : ∀ i c, i < w / 2 → c.length = cn → p1 i c = .ok (px (2 * i + 1))) :
    rowPairsRem guard w cn cx k p0 p1 pl (paintRow cn cx vp row)
      = rowPairs guard w cn cx k p0 p1 pl (paintRow cn cx vp row) := by
  unfold rowPairsRem rowPairs
  split
  · rfl
  · subst hk
    have hk2 : w / 2 * (2 * cn) ≤ w * cn := by
      rw [← Nat.mul_assoc]; exact Nat.mul_le_mul_right _ (by omega)
    have hlen : (paintRow cn cx vp row).length = w * cn := by
      rw [paintRow_length hvl (by rw [hrow]; exact Nat.mul_le_mul_right _ hcx), hrow]
    have hK : KeepsLen (2 * cn) (fun j (_ : Buf) => px (2 * j) ++ px (2 * j + 1)) := by
      intro j c _; simp [hpl]; omega
    rw [eachChunk_ok (n := 2 * cn) (by omega)
      (P := fun j _ => px (2 * j) ++ px (2 * j + 1)) (by omega)
      (fun t c _ h2 h3 => by
        rw [hp0 t _ h2 (by simp; omega), hp1 t _ h2 (by simp; omega)]; rfl)]
    simp only [Outcome.bind_ok]
    split
    · rfl
    · rw [onRemainder_prefix_eq (k := w) hcn (Nat.le_refl _) ?_ (by omega)]
      · exact onLastChunk_congr (fun c hc => onPrefix_all hc)
      · rw [mapChunks_length hK (by omega) (by omega), hlen]; exact Nat.mul_div_cancel _ hcn

theorem rowPairsRem_rel {guard : Bool} {w cn cx k : Nat} (hcn : 0 < cn) {p0 p1 : Nat → Buf → Outcome Buf}
    {pl : Buf → Outcome Buf} {R : Nat → Buf → Prop} {vp px : Nat → Buf} {row : Buf}
    (hrow : row.length = w * cn)
    (hvl : ∀ x, (vp x).length = cn) (hvR : ∀ x, x < cx → R x (vp x)) (hcx : cx ≤ w)
    (hev : cx % 2 = 0 ∨ cx = w) (hk : k = w / 2)
    (hpl : ∀ x, (px x).length = cn) (hpR : ∀ x, ScalarCol guard cx w x → x < w → R x (px x))
    (hp0 : ∀ i c, i < w / 2 → c.length = cn → p0 i c = .ok (px (2 * i)))
    (hp1 : ∀ i c, i < w / 2 → c.length = cn → p1 i c = .ok (px (2 * i + 1)))
    (hpe : ∀ c, w % 2 = 1 → c.length = cn → pl c = .ok (px (w - 1))) :
    RowOk cn w R row (rowPairsRem guard w cn cx k p0 p1 pl (paintRow cn cx vp row)) := by
  rw [rowPairsRem_eq hcn hrow hvl hcx hk hpl hp0 hp1]
  exact rowPairs_rel hcn hrow hvl hvR hcx hev hk hpl hpR hp0 hp1 hpe

theorem rowPairsRem_rel_even {guard : Bool} {w cn cx k : Nat} (hcn : 0 < cn)
    {p0 p1 : Nat → Buf → Outcome Buf}
    {pl : Buf → Outcome Buf} {R : Nat → Buf → Prop} {vp px : Nat → Buf} {row : Buf}
    (hrow : row.length = w * cn)
    (hvl : ∀ x, (vp x).length = cn) (hvR : ∀ x, x < cx → R x (vp x)) (hcx : cx ≤ w)
    (hev : cx % 2 = 0) (h : ¬ (guard = true ∧ cx = w)) (hk : k = w / 2)
    (hpl : ∀ x, (px x).length = cn) (hpR : ∀ x, cx ≤ x → x < w → R x (px x))
    (hp0 : ∀ i c, i < w / 2 → c.length = cn → p0 i c = .ok (px (2 * i)))
    (hp1 : ∀ i c, i < w / 2 → c.length = cn → p1 i c = .ok (px (2 * i + 1)))
    (hpe : ∀ c, w % 2 = 1 → c.length = cn → pl c = .ok (px (w - 1))) :
    RowOk cn w R row (rowPairsRem guard w cn cx k p0 p1 pl (paintRow cn cx vp row)) := by
  rw [rowPairsRem_eq hcn hrow hvl hcx hk hpl hp0 hp1]
  exact rowPairs_rel_even hcn hrow hvl hvR hcx hev h hk hpl hpR hp0 hp1 hpe

/-- Row pairs and a possible last row taken from the remainder: the loop structure of the
semi-planar 4:2:0 decoders. -/
theorem frame420_rem {stride h cn w : Nat} (hst : 0 < stride) (hw : w * cn ≤ stride)
    {R : Nat → Nat → Buf → Prop} {gp : Nat → Buf → Outcome Buf} {gl : Buf → Outcome Buf} {l : Buf}
    (hl : FullRows l.length stride h)
    (hp : ∀ r c, r < h / 2 → c.length = 2 * stride →
      PairOk stride cn w (fun x p => R x (2 * r) p) (fun x p => R x (2 * r + 1) p) c (gp r c))
    (hg : h % 2 = 1 → ∀ c, c.length = w * cn → RowOk cn w (fun x p => R x (h - 1) p) c (gl c)) :
    FrameOk stride h cn w R l (do
      let d ← eachChunk (2 * stride) 0 (h / 2) gp l
      if h % 2 = 0 then return d else onRemainder (2 * stride) (fun r => onPrefix r (w * cn) gl) d)
      := by
  have hh : h * stride ≤ l.length := by rw [Nat.mul_comm]; exact hl.1
  have h2 : h / 2 * (2 * stride) ≤ h * stride := by
    rw [← Nat.mul_assoc]; exact Nat.mul_le_mul_right _ (by omega)
  refine rowsOk_trans hst hw (b := 2 * (h / 2)) (by omega) (by omega) hh
    (eachChunk_rowPairs hst hw (by omega) hp) ?_
  intro d hd
  by_cases hev : h % 2 = 0
  · rw [if_pos hev, show 2 * (h / 2) = h by omega]
    exact ⟨fun _ _ => List.replicate cn 0, by simp, by intros; omega, by
      simp [paintFrom, mapChunks_empty]⟩
  · have hdl : d.length / stride = h := by rw [hd]; exact fullRows_div hl
    rw [if_neg hev, show 2 * (h / 2) = h - 1 by omega,
      onRemainder_prefix_eq (k := h) hst hw hdl (by omega)]
    refine onLastChunk_rows hst hw (by omega) hdl ?_
    intro c hc
    exact rowOk_prefix (by omega) (hg (by omega) _ (by rw [List.length_take]; omega))

/-- The remainder of the row pairs of a plane of an odd number of rows starts with its last row. -/
theorem remainder_take {l : Buf} {stride n w : Nat} (h : FullRows l.length stride n)
    (hn : n % 2 = 1) (hw : w ≤ stride) :
    w ≤ (remainder (stride * 2) l).length ∧
    (remainder (stride * 2) l).take w = (chunk stride l (n - 1)).take w := by
  have e : l.length / (stride * 2) = n / 2 := fullRows_div2 h
  have hm : n / 2 * (stride * 2) = (n - 1) * stride := by
    rw [Nat.mul_comm stride 2, ← Nat.mul_assoc]; congr 1; omega
  have hr := fullRows_row h (show n - 1 < n by omega)
  unfold remainder chunk
  rw [e, hm]
  refine ⟨by rw [List.length_drop]; omega, ?_⟩
  rw [List.take_take, Nat.min_eq_left hw]

theorem remainder2_idx {y : Buf} {w : Nat} (hy : y.length = w) (hw : w % 2 = 1) :
    idx (remainder 2 y) 0 = .ok (y.getD (w - 1) 0) := by
  have : w / 2 * 2 = w - 1 := by omega
  unfold remainder
  rw [hy, this, idx_ok (by rw [List.length_drop]; omega), drop_getD, Nat.add_zero]

end Verif
