import Verif.Lemmas.Loops
/-!
# Rows and frames up to a relation

The vector code of a row is not modelled, so a row is described by *some* pixel
function that satisfies a relation `R`.
-/
namespace Verif
open Spec

/-- A loop whose body succeeds on the chunks of the buffer it runs over. -/
theorem eachChunk_chunk {n s k : Nat} (hn : 0 < n) {g : Nat → Buf → Outcome Buf}
    {P : Nat → Buf} {l : Buf} (hk : k * n ≤ l.length)
    (h : ∀ t, s ≤ t → t < k → g t (chunk n l t) = .ok (P t)) :
    eachChunk n s k g l = .ok (mapChunks n s k (fun t _ => P t) l) := by
  have hn' : n ≠ 0 := by omega
  have key : ∀ (m j : Nat) (r : Buf), m * n ≤ r.length →
      (∀ t, t < m → g (j + t) (chunk n r t) = .ok (P (j + t))) →
      forChunks n g m j r = .ok (mapGo n (fun t _ => P t) m j r) := by
    intro m
    induction m with
    | zero => intros; rfl
    | succ m ih =>
      intro j r hr hh
      have hkn : (m + 1) * n = m * n + n := Nat.succ_mul m n
      have hd : m * n ≤ (r.drop n).length := by simp; omega
      have h0 := hh 0 (by omega)
      have e0 : chunk n r 0 = r.take n := by simp [chunk]
      rw [e0, Nat.add_zero] at h0
      simp only [forChunks, mapGo]
      rw [h0, Outcome.bind_ok, ih (j + 1) _ hd]
      · rfl
      · intro t ht
        have e1 : chunk n (r.drop n) t = chunk n r (t + 1) := by
          simp only [chunk, List.drop_drop]
          congr 2
          rw [Nat.succ_mul]; omega
        rw [e1, show j + 1 + t = j + (t + 1) by omega]
        exact hh (t + 1) (by omega)
  simp only [eachChunk, mapChunks, hn', if_false]
  by_cases hs : s ≤ k
  · have h1 : (k - s) * n = k * n - s * n := Nat.sub_mul k s n
    have h2 : s * n ≤ k * n := Nat.mul_le_mul_right n hs
    rw [key _ _ _ (by simp; omega)]
    · rfl
    · intro t ht
      have e : chunk n (l.drop (s * n)) t = chunk n l (s + t) := by
        simp only [chunk, List.drop_drop]
        congr 2
        rw [Nat.add_mul]
      rw [e]; exact h _ (by omega) (by omega)
  · have : k - s = 0 := by omega
    simp [this, mapGo, forChunks]

theorem mapChunks_congr_chunk {n s k : Nat} (hn : 0 < n) {P Q : Nat → Buf → Buf} {l : Buf}
    (hP : KeepsLen n P) (hQ : KeepsLen n Q) (hs : s ≤ k)
    (hk : k * n ≤ l.length)
    (h : ∀ t, s ≤ t → t < k → P t (chunk n l t) = Q t (chunk n l t)) :
    mapChunks n s k P l = mapChunks n s k Q l := by
  apply List.ext_getElem?
  intro i
  rw [mapChunks_getElem? hn hP hs hk, mapChunks_getElem? hn hQ hs hk]
  by_cases hi : s * n ≤ i ∧ i < k * n
  · rw [if_pos hi, if_pos hi,
      h _ (le_div_of_mul_le' hn hi.1) (div_lt_of_lt_mul' hi.2)]
  · rw [if_neg hi, if_neg hi]

/-! ## Rows -/

/-- `o` is the row `row` with its first `w` pixels replaced by pixels satisfying `R`. -/
def RowOk (cn w : Nat) (R : Nat → Buf → Prop) (row : Buf) (o : Outcome Buf) : Prop :=
  ∃ pix : Nat → Buf, (∀ x, (pix x).length = cn) ∧ (∀ x, x < w → R x (pix x)) ∧
    o = .ok (paintRow cn w pix row)

/-- What the vector prefix of a row does: it completes the first `cx ≤ w` pixels, `cx` being a
multiple of `m` unless the row is finished. -/
def VecOk (cn w m : Nat) (R : Nat → Buf → Prop) (row : Buf) (o : Outcome (Buf × Nat)) : Prop :=
  ∃ (pix : Nat → Buf) (cx : Nat), (∀ x, (pix x).length = cn) ∧ (∀ x, x < cx → R x (pix x)) ∧
    cx ≤ w ∧ (cx % m = 0 ∨ cx = w) ∧ o = .ok (paintRow cn cx pix row, cx)

theorem vecOk_nothing {cn w m : Nat} {R : Nat → Buf → Prop} {row : Buf} :
    VecOk cn w m R row (.ok (row, 0)) := by
  refine ⟨fun _ => List.replicate cn 0, 0, by simp, by omega, by omega, by simp, ?_⟩
  simp [paintRow, mapChunks_empty]

theorem paintRow_congr {cn w : Nat} {p q : Nat → Buf} {row : Buf} (hrow : w * cn ≤ row.length)
    (h : ∀ x, x < w → p x = q x) : paintRow cn w p row = paintRow cn w q row :=
  mapChunks_congr hrow (fun x _ _ hx _ => h x hx)

theorem RowOk.mono {cn w : Nat} {R S : Nat → Buf → Prop} {row : Buf} {o : Outcome Buf}
    (h : RowOk cn w R row o) (hRS : ∀ x p, x < w → R x p → S x p) : RowOk cn w S row o := by
  obtain ⟨pix, h1, h2, h3⟩ := h
  exact ⟨pix, h1, fun x hx => hRS x _ hx (h2 x hx), h3⟩

theorem rowSingles_rel {guard : Bool} {w cn cx k : Nat} (hcn : 0 < cn) {p : Nat → Buf → Outcome Buf}
    {R : Nat → Buf → Prop} {vp px : Nat → Buf} {row : Buf} (hrow : w * cn ≤ row.length)
    (hvl : ∀ x, (vp x).length = cn) (hvR : ∀ x, x < cx → R x (vp x)) (hcx : cx ≤ w)
    (hk : k = w) (hpl : ∀ x, (px x).length = cn) (hpR : ∀ x, cx ≤ x → x < w → R x (px x))
    (hp : ∀ x c, x < w → c.length = cn → p x c = .ok (px x)) :
    RowOk cn w R row (rowSingles guard w cn cx k p (paintRow cn cx vp row)) := by
  have hle : cx * cn ≤ w * cn := Nat.mul_le_mul_right _ hcx
  by_cases h : cx = w
  · subst h
    refine ⟨vp, hvl, hvR, ?_⟩
    unfold rowSingles
    split
    · rfl
    · rw [hk, eachChunk_ok hcn (P := fun _ c => c) (by
        rw [paintRow_length hvl (by omega)]; omega) (fun t c a b => by omega), mapChunks_empty]
  let pix := fun x => if x < cx then vp x else px x
  have hl : ∀ x, (pix x).length = cn := by
    intro x; show (if x < cx then vp x else px x).length = cn
    split
    · exact hvl x
    · exact hpl x
  refine ⟨pix, hl, ?_, ?_⟩
  · intro x hx; show R x (if x < cx then vp x else px x)
    split
    · exact hvR x ‹_›
    · exact hpR x (by omega) hx
  · have hK : KeepsLen cn (fun x _ => px x) := fun j c _ => hpl j
    have hK2 : KeepsLen cn (fun x _ => pix x) := fun j c _ => hl j
    have e : paintRow cn cx vp row = paintRow cn cx pix row :=
      paintRow_congr (by omega) (fun x hx => by simp [pix, hx])
    rw [e]
    unfold rowSingles
    rw [if_neg (fun h' => h h'.2), hk]
    have hlen : (paintRow cn cx pix row).length = row.length := paintRow_length hl (by omega)
    rw [eachChunk_ok hcn (P := fun x _ => px x) (by omega) (fun t c _ h2 h3 => hp t c h2 h3)]
    rw [mapChunks_congr (Q := fun x _ => pix x) (by omega)
      (fun t c h1 _ _ => by simp [pix, show ¬ t < cx by omega])]
    unfold paintRow
    rw [mapChunks_mapChunks hcn hK2 (by omega) hcx hrow]

theorem paintRow_paintRow {cn w : Nat} (hcn : 0 < cn) {p q : Nat → Buf}
    (hp : ∀ x, (p x).length = cn) (hq : ∀ x, (q x).length = cn) {row : Buf}
    (hrow : w * cn ≤ row.length) :
    paintRow cn w p (paintRow cn w q row) = paintRow cn w p row := by
  apply List.ext_getElem?
  intro i
  have hl : (paintRow cn w q row).length = row.length := paintRow_length hq hrow
  unfold paintRow at *
  rw [mapChunks_getElem? hcn (fun j _ _ => hp j) (by omega) (by omega),
    mapChunks_getElem? hcn (fun j _ _ => hp j) (by omega) hrow]
  split
  · rfl
  · rename_i h
    rw [mapChunks_getElem? hcn (fun j _ _ => hq j) (by omega) hrow, if_neg h]

theorem paintRow_paintRow_le {cn w v : Nat} (hcn : 0 < cn) (hv : v ≤ w) {p : Nat → Buf}
    (hp : ∀ x, (p x).length = cn) {row : Buf} (hrow : w * cn ≤ row.length) :
    paintRow cn v p (paintRow cn w p row) = paintRow cn w p row := by
  apply List.ext_getElem?
  intro i
  have hl : (paintRow cn w p row).length = row.length := paintRow_length hp hrow
  have hvw : v * cn ≤ w * cn := Nat.mul_le_mul_right _ hv
  unfold paintRow at *
  rw [mapChunks_getElem? hcn (fun j _ _ => hp j) (by omega) (by omega)]
  split
  · rename_i h
    rw [mapChunks_getElem? hcn (fun j _ _ => hp j) (by omega) hrow, if_pos (by omega)]
  · rfl

theorem rowPairs_rel_even {guard : Bool} {w cn cx k : Nat} (hcn : 0 < cn) {p0 p1 : Nat → Buf → Outcome Buf}
    {pl : Buf → Outcome Buf} {R : Nat → Buf → Prop} {vp px : Nat → Buf} {row : Buf}
    (hrow : row.length = w * cn)
    (hvl : ∀ x, (vp x).length = cn) (hvR : ∀ x, x < cx → R x (vp x)) (hcx : cx ≤ w)
    (hev' : cx % 2 = 0) (h : ¬ (guard = true ∧ cx = w)) (hk : k = w / 2)
    (hpl : ∀ x, (px x).length = cn) (hpR : ∀ x, cx ≤ x → x < w → R x (px x))
    (hp0 : ∀ i c, i < w / 2 → c.length = cn → p0 i c = .ok (px (2 * i)))
    (hp1 : ∀ i c, i < w / 2 → c.length = cn → p1 i c = .ok (px (2 * i + 1)))
    (hpe : ∀ c, w % 2 = 1 → c.length = cn → pl c = .ok (px (w - 1))) :
    RowOk cn w R row (rowPairs guard w cn cx k p0 p1 pl (paintRow cn cx vp row)) := by
  have hle : cx * cn ≤ w * cn := Nat.mul_le_mul_right _ hcx
  let pix := fun x => if x < cx then vp x else px x
  have hl : ∀ x, (pix x).length = cn := by
    intro x; show (if x < cx then vp x else px x).length = cn
    split
    · exact hvl x
    · exact hpl x
  refine ⟨pix, hl, ?_, ?_⟩
  · intro x hx; show R x (if x < cx then vp x else px x)
    split
    · exact hvR x ‹_›
    · exact hpR x (by omega) hx
  · have e : paintRow cn cx vp row = paintRow cn cx pix row :=
      paintRow_congr (by omega) (fun x hx => by simp [pix, hx])
    have hK : KeepsLen cn (fun x _ => pix x) := fun j c _ => hl j
    have hKp : KeepsLen cn (fun x _ => px x) := fun j c _ => hpl j
    rw [e]
    unfold rowPairs paintRow
    subst hk
    rw [if_neg h]
    have hl1 : (mapChunks cn 0 cx (fun x _ => pix x) row).length = w * cn := by
      rw [mapChunks_length hK (by omega) (by omega), hrow]
    have hk2 : w / 2 * (2 * cn) ≤ w * cn := by
      rw [← Nat.mul_assoc]; exact Nat.mul_le_mul_right _ (by omega)
    have hk3 : 2 * (w / 2) * cn ≤ w * cn := Nat.mul_le_mul_right _ (by omega)
    rw [eachChunk_ok (n := 2 * cn) (by omega)
      (P := fun j blk => (fun x (_ : Buf) => px x) (2 * j) (blk.take cn)
        ++ (fun x (_ : Buf) => px x) (2 * j + 1) (blk.drop cn)) (by omega)
      (fun t c _ h2 h3 => by
        rw [hp0 t _ h2 (by simp; omega), hp1 t _ h2 (by simp; omega)]; rfl)]
    simp only [Outcome.bind_ok]
    rw [mapChunks_pairs hcn hKp (by omega) (by omega),
      show 2 * (cx / 2) = cx by omega,
      mapChunks_congr (Q := fun x _ => pix x) (by omega)
        (fun t c h1 _ _ => by simp [pix, show ¬ t < cx by omega]),
      mapChunks_mapChunks hcn hK (by omega) (by omega) (by
        rw [hrow]; exact Nat.mul_le_mul_right _ (by omega))]
    by_cases hw : w % 2 = 0
    · rw [if_pos hw, show 2 * (w / 2) = w by omega]; rfl
    · rw [if_neg hw]
      have hl2 : (mapChunks cn 0 (2 * (w / 2)) (fun x _ => pix x) row).length = w * cn := by
        rw [mapChunks_length hK (by omega) (by
          rw [hrow]; exact Nat.mul_le_mul_right _ (by omega)), hrow]
      rw [onLastChunk_ok (k := w) hcn (by omega) (by rw [hl2]; exact Nat.mul_div_cancel _ hcn)
        (P := fun x _ => px x) (fun c hc => hpe c (by omega) hc)]
      rw [mapChunks_congr (Q := fun x _ => pix x) (by omega)
        (fun t c h1 _ _ => by simp [pix, show ¬ t < cx by omega])]
      rw [show w - 1 = 2 * (w / 2) by omega, mapChunks_mapChunks hcn hK (by omega) (by omega)
        (by omega)]

/-- The columns the scalar code writes after a vector prefix of `cx` columns: those from `cx` on and,
without the guard, the last one. -/
def ScalarCol (g : Bool) (cx w x : Nat) : Prop := cx ≤ x ∨ (g = false ∧ x + 1 = w)

theorem ScalarCol.le {cx w x : Nat} (h : ScalarCol true cx w x) : cx ≤ x :=
  h.elim id fun h => absurd h.1 (by decide)

theorem rowPairs_rel {guard : Bool} {w cn cx k : Nat} (hcn : 0 < cn) {p0 p1 : Nat → Buf → Outcome Buf}
    {pl : Buf → Outcome Buf} {R : Nat → Buf → Prop} {vp px : Nat → Buf} {row : Buf}
    (hrow : row.length = w * cn)
    (hvl : ∀ x, (vp x).length = cn) (hvR : ∀ x, x < cx → R x (vp x)) (hcx : cx ≤ w)
    (hev : cx % 2 = 0 ∨ cx = w) (hk : k = w / 2)
    (hpl : ∀ x, (px x).length = cn) (hpR : ∀ x, ScalarCol guard cx w x → x < w → R x (px x))
    (hp0 : ∀ i c, i < w / 2 → c.length = cn → p0 i c = .ok (px (2 * i)))
    (hp1 : ∀ i c, i < w / 2 → c.length = cn → p1 i c = .ok (px (2 * i + 1)))
    (hpe : ∀ c, w % 2 = 1 → c.length = cn → pl c = .ok (px (w - 1))) :
    RowOk cn w R row (rowPairs guard w cn cx k p0 p1 pl (paintRow cn cx vp row)) := by
  have hle : cx * cn ≤ w * cn := Nat.mul_le_mul_right _ hcx
  by_cases h : guard = true ∧ cx = w
  · obtain ⟨rfl, rfl⟩ := h
    exact ⟨vp, hvl, hvR, by simp [rowPairs]⟩
  by_cases hev' : cx % 2 = 0
  · exact rowPairs_rel_even hcn hrow hvl hvR hcx hev' h hk hpl
      (fun x hx => hpR x (.inl hx)) hp0 hp1 hpe
  obtain rfl : cx = w := by omega
  have hg : guard = false := by cases guard <;> simp_all
  subst hg
  have e : rowPairs false cx cn cx k p0 p1 pl (paintRow cn cx vp row)
      = rowPairs false cx cn (cx - 1) k p0 p1 pl
        (paintRow cn (cx - 1) vp (paintRow cn cx vp row)) := by
    rw [paintRow_paintRow_le hcn (by omega) hvl (by omega)]
    simp [rowPairs, show (cx - 1) / 2 = cx / 2 by omega]
  rw [e]
  obtain ⟨pix, h1, h2, h3⟩ := rowPairs_rel_even (guard := false) (cx := cx - 1) (R := R)
    (row := paintRow cn cx vp row) hcn (by rw [paintRow_length hvl (by omega), hrow]) hvl
    (fun x hx => hvR x (by omega)) (by omega) (by omega) (by simp) hk hpl
    (fun x _ hx2 => hpR x (.inr ⟨rfl, by omega⟩) hx2) hp0 hp1 hpe
  refine ⟨pix, h1, h2, ?_⟩
  rw [h3, paintRow_paintRow hcn h1 hvl (by omega)]

/-- A row update confined to the first `w` pixels of a longer row. -/
theorem rowOk_prefix {cn w : Nat} {R : Nat → Buf → Prop} {row : Buf} {g : Buf → Outcome Buf}
    (hw : w * cn ≤ row.length)
    (h : RowOk cn w R (row.take (w * cn)) (g (row.take (w * cn)))) :
    RowOk cn w R row (onPrefix row (w * cn) g) := by
  obtain ⟨pix, h1, h2, h3⟩ := h
  refine ⟨pix, h1, h2, ?_⟩
  rw [onPrefix_ok hw h3]
  unfold paintRow
  rw [mapChunks_take_append hw]

/-! ## Frames -/

/-- Rows `s ≤ y < k` of a frame. -/
def paintFrom (stride s k cn w : Nat) (pix : Nat → Nat → Buf) (dst : Buf) : Buf :=
  mapChunks stride s k (fun y row => paintRow cn w (fun x => pix x y) row) dst

/-- `o` is `dst` with rows `s ≤ y < k` replaced by pixels satisfying `R`. -/
def RowsOk (stride s k cn w : Nat) (R : Nat → Nat → Buf → Prop) (dst : Buf) (o : Outcome Buf) :
    Prop :=
  ∃ pix : Nat → Nat → Buf, (∀ x y, (pix x y).length = cn) ∧
    (∀ x y, x < w → s ≤ y → y < k → R x y (pix x y)) ∧
    o = .ok (paintFrom stride s k cn w pix dst)

/-- `o` is `dst` with the whole frame replaced by pixels satisfying `R`. -/
abbrev FrameOk (stride h cn w : Nat) (R : Nat → Nat → Buf → Prop) (dst : Buf) (o : Outcome Buf) :
    Prop := RowsOk stride 0 h cn w R dst o

theorem RowsOk.mono {stride s k cn w : Nat} {R S : Nat → Nat → Buf → Prop} {dst : Buf}
    {o : Outcome Buf} (h : RowsOk stride s k cn w R dst o)
    (hRS : ∀ x y p, x < w → s ≤ y → y < k → R x y p → S x y p) :
    RowsOk stride s k cn w S dst o := by
  obtain ⟨pix, h1, h2, h3⟩ := h
  exact ⟨pix, h1, fun x y hx hy hk => hRS x y _ hx hy hk (h2 x y hx hy hk), h3⟩

theorem eachChunk_rows {stride s k cn w : Nat} (hst : 0 < stride) (hw : w * cn ≤ stride)
    {R : Nat → Nat → Buf → Prop} {g : Nat → Buf → Outcome Buf} {l : Buf} (hs : s ≤ k)
    (hk : k * stride ≤ l.length)
    (h : ∀ r c, s ≤ r → r < k → c.length = stride → RowOk cn w (fun x p => R x r p) c (g r c)) :
    RowsOk stride s k cn w R l (eachChunk stride s k g l) := by
  have hc : ∀ r, r < k → (chunk stride l r).length = stride := by
    intro r hr
    have := succ_mul_le_of_lt stride hr
    exact chunk_length (by omega)
  have hh : ∀ r, ∃ pix : Nat → Buf, (∀ x, (pix x).length = cn) ∧ (s ≤ r → r < k →
      (∀ x, x < w → R x r (pix x)) ∧
      g r (chunk stride l r) = .ok (paintRow cn w pix (chunk stride l r))) := by
    intro r
    by_cases hr : s ≤ r ∧ r < k
    · obtain ⟨pix, a, b, c⟩ := h r _ hr.1 hr.2 (hc r hr.2)
      exact ⟨pix, a, fun _ _ => ⟨b, c⟩⟩
    · exact ⟨fun _ => List.replicate cn 0, by simp, fun a b => absurd ⟨a, b⟩ hr⟩
  refine ⟨fun x y => Classical.choose (hh y) x, ?_, ?_, ?_⟩
  · intro x y; exact (Classical.choose_spec (hh y)).1 x
  · intro x y hx h1 h2; exact ((Classical.choose_spec (hh y)).2 h1 h2).1 x hx
  · have hK : KeepsLen stride (fun y row => paintRow cn w (fun x => Classical.choose (hh y) x) row) :=
      paintRow_keeps (pix := fun x y => Classical.choose (hh y) x)
        (fun x y => (Classical.choose_spec (hh y)).1 x) hw
    by_cases hsk : s = k
    · subst hsk
      rw [eachChunk_ok hst (P := fun _ c => c) hk (fun t c a b => by omega)]
      simp [paintFrom, mapChunks_empty]
    · rw [eachChunk_chunk hst
        (P := fun t => if t < k then paintRow cn w (Classical.choose (hh t)) (chunk stride l t)
          else List.replicate stride 0) hk
        (fun t h1 h2 => by rw [if_pos h2]; exact ((Classical.choose_spec (hh t)).2 h1 h2).2)]
      unfold paintFrom
      rw [mapChunks_congr_chunk hst ?_ hK hs hk (fun t h1 h2 => by rw [if_pos h2])]
      intro t c _
      show (if t < k then _ else _ : Buf).length = stride
      split
      · rename_i ht
        rw [paintRow_length (Classical.choose_spec (hh t)).1 (by rw [hc t ht]; exact hw), hc t ht]
      · simp

/-- What the two-row path does with a block of two rows. -/
def PairOk (stride cn w : Nat) (R0 R1 : Nat → Buf → Prop) (blk : Buf) (o : Outcome Buf) : Prop :=
  ∃ p0 p1 : Nat → Buf, (∀ x, (p0 x).length = cn) ∧ (∀ x, (p1 x).length = cn) ∧
    (∀ x, x < w → R0 x (p0 x)) ∧ (∀ x, x < w → R1 x (p1 x)) ∧
    o = .ok (paintRow cn w p0 (blk.take stride) ++ paintRow cn w p1 (blk.drop stride))

theorem eachChunk_rowPairs {stride k cn w : Nat} (hst : 0 < stride) (hw : w * cn ≤ stride)
    {R : Nat → Nat → Buf → Prop} {g : Nat → Buf → Outcome Buf} {l : Buf}
    (hk : k * (2 * stride) ≤ l.length)
    (h : ∀ r c, r < k → c.length = 2 * stride →
      PairOk stride cn w (fun x p => R x (2 * r) p) (fun x p => R x (2 * r + 1) p) c (g r c)) :
    RowsOk stride 0 (2 * k) cn w R l (eachChunk (2 * stride) 0 k g l) := by
  have hc : ∀ r, r < k → (chunk (2 * stride) l r).length = 2 * stride := by
    intro r hr
    have := succ_mul_le_of_lt (2 * stride) hr
    exact chunk_length (by omega)
  have hh : ∀ r, ∃ p0 p1 : Nat → Buf, (∀ x, (p0 x).length = cn) ∧ (∀ x, (p1 x).length = cn) ∧
      (r < k → (∀ x, x < w → R x (2 * r) (p0 x)) ∧ (∀ x, x < w → R x (2 * r + 1) (p1 x)) ∧
      g r (chunk (2 * stride) l r) = .ok (paintRow cn w p0 ((chunk (2 * stride) l r).take stride)
        ++ paintRow cn w p1 ((chunk (2 * stride) l r).drop stride))) := by
    intro r
    by_cases hr : r < k
    · obtain ⟨p0, p1, a, b, c, d, e⟩ := h r _ hr (hc r hr)
      exact ⟨p0, p1, a, b, fun _ => ⟨c, d, e⟩⟩
    · exact ⟨fun _ => List.replicate cn 0, fun _ => List.replicate cn 0, by simp, by simp,
        fun a => absurd a hr⟩
  obtain ⟨p0, hh2⟩ := Classical.skolem.1 hh
  obtain ⟨p1, hh'⟩ := Classical.skolem.1 hh2
  let pix := fun x y => if y % 2 = 0 then p0 (y / 2) x else p1 (y / 2) x
  have hl : ∀ x y, (pix x y).length = cn := by
    intro x y; show (if y % 2 = 0 then p0 (y / 2) x else p1 (y / 2) x).length = cn
    split
    · exact (hh' _).1 x
    · exact (hh' _).2.1 x
  have x0 : ∀ r x, pix x (2 * r) = p0 r x := by
    intro r x; simp [pix]
  have x1 : ∀ r x, pix x (2 * r + 1) = p1 r x := by
    intro r x; simp only [pix]; rw [if_neg (by omega), show (2 * r + 1) / 2 = r by omega]
  refine ⟨pix, hl, ?_, ?_⟩
  · intro x y hx _ hy
    obtain ⟨a, b, _⟩ := (hh' (y / 2)).2.2 (by omega)
    by_cases hy2 : y % 2 = 0
    · have := a x hx
      rw [← x0, show 2 * (y / 2) = y by omega] at this; exact this
    · have := b x hx
      rw [← x1, show 2 * (y / 2) + 1 = y by omega] at this; exact this
  · have hK := paintRow_keeps hl hw
    unfold paintFrom
    have := mapChunks_pairs (n := stride) (s := 0) (k := k) hst hK (l := l) (by omega) hk
    rw [Nat.mul_zero] at this
    rw [← this]
    simp only [x0, x1]
    rw [eachChunk_chunk (by omega)
      (P := fun t => if t < k then paintRow cn w (p0 t) ((chunk (2 * stride) l t).take stride)
        ++ paintRow cn w (p1 t) ((chunk (2 * stride) l t).drop stride)
        else List.replicate (2 * stride) 0) hk
      (fun t h1 h2 => by rw [if_pos h2]; exact ((hh' t).2.2 h2).2.2)]
    rw [mapChunks_congr_chunk (by omega)
      (Q := fun t blk => paintRow cn w (fun x => p0 t x) (blk.take stride)
        ++ paintRow cn w (fun x => p1 t x) (blk.drop stride))
      ?_ ?_ (by omega) hk (fun t h1 h2 => by rw [if_pos h2])]
    · intro t c _
      show (if t < k then _ else _ : Buf).length = 2 * stride
      split
      · rename_i ht
        have hct := hc t ht
        rw [List.length_append, paintRow_length (hh' t).1 (by rw [List.length_take, hct]; omega),
          paintRow_length (hh' t).2.1 (by rw [List.length_drop, hct]; omega), List.length_take,
          List.length_drop, hct]
        omega
      · simp
    · intro t c hc
      show (_ ++ _ : Buf).length = _
      rw [List.length_append, paintRow_length (hh' t).1 (by simp; omega),
          paintRow_length (hh' t).2.1 (by simp; omega)]
      simp; omega

theorem paintFrom_length {stride s k cn w : Nat} {pix : Nat → Nat → Buf}
    (hpix : ∀ x y, (pix x y).length = cn) (hw : w * cn ≤ stride) {dst : Buf} (hs : s ≤ k)
    (hd : k * stride ≤ dst.length) : (paintFrom stride s k cn w pix dst).length = dst.length :=
  mapChunks_length (paintRow_keeps hpix hw) hs hd

/-- Rows `a ≤ y < b`, then rows `b ≤ y < c`. -/
theorem rowsOk_trans {stride a b c cn w : Nat} (hst : 0 < stride) (hw : w * cn ≤ stride)
    {R : Nat → Nat → Buf → Prop} {dst : Buf} {o : Outcome Buf} {g : Buf → Outcome Buf}
    (hab : a ≤ b) (hbc : b ≤ c) (hc : c * stride ≤ dst.length)
    (h1 : RowsOk stride a b cn w R dst o)
    (h2 : ∀ d : Buf, d.length = dst.length → RowsOk stride b c cn w R d (g d)) :
    RowsOk stride a c cn w R dst (o >>= g) := by
  obtain ⟨p, hl, hR, rfl⟩ := h1
  have hb : b * stride ≤ c * stride := Nat.mul_le_mul_right _ hbc
  obtain ⟨q, ql, qR, e⟩ := h2 _ (paintFrom_length hl hw hab (by omega))
  rw [Outcome.bind_ok, e]
  let pix := fun x y => if y < b then p x y else q x y
  have hpl : ∀ x y, (pix x y).length = cn := by
    intro x y; show (if y < b then p x y else q x y).length = cn
    split
    · exact hl x y
    · exact ql x y
  refine ⟨pix, hpl, ?_, ?_⟩
  · intro x y hx ha hy
    show R x y (if y < b then p x y else q x y)
    split
    · exact hR x y hx ha ‹_›
    · exact qR x y hx (by omega) hy
  · congr 1
    have ep : paintFrom stride a b cn w p dst = paintFrom stride a b cn w pix dst := by
      unfold paintFrom
      apply mapChunks_congr (by omega)
      intro t row _ ht _
      simp [pix, ht]
    have hlen := paintFrom_length (pix := pix) (dst := dst) hpl hw hab (by omega)
    rw [ep]
    have eq : paintFrom stride b c cn w q (paintFrom stride a b cn w pix dst)
        = paintFrom stride b c cn w pix (paintFrom stride a b cn w pix dst) := by
      unfold paintFrom at *
      apply mapChunks_congr (by omega)
      intro t row h1 _ _
      simp [pix, show ¬ t < b by omega]
    rw [eq]
    unfold paintFrom
    exact mapChunks_mapChunks hst (paintRow_keeps hpl hw) hab hbc hc

/-- The last row of a buffer of `h` rows. -/
theorem onLastChunk_rows {stride h cn w : Nat} (hst : 0 < stride) (hw : w * cn ≤ stride)
    {R : Nat → Nat → Buf → Prop} {g : Buf → Outcome Buf} {l : Buf} (hh : 0 < h)
    (hl : l.length / stride = h)
    (hg : ∀ c, c.length = stride → RowOk cn w (fun x p => R x (h - 1) p) c (g c)) :
    RowsOk stride (h - 1) h cn w R l (onLastChunk stride g l) := by
  have h1 : stride ≠ 0 := by omega
  have h2 : l.length / stride ≠ 0 := by omega
  simp only [onLastChunk, h1, h2, if_false]
  rw [hl]
  apply eachChunk_rows hst hw (by omega)
  · rw [← hl]; exact Nat.div_mul_le_self _ _
  · intro r c a b hc
    rw [show r = h - 1 by omega]; exact hg c hc

/-- Row pairs and a possible last row: the loop structure of the 4:2:0 decoders. -/
theorem frame420_last {stride h cn w : Nat} (hst : 0 < stride) (hw : w * cn ≤ stride)
    {R : Nat → Nat → Buf → Prop} {gp : Nat → Buf → Outcome Buf} {gl : Buf → Outcome Buf} {l : Buf}
    (hl : FullRows l.length stride h)
    (hp : ∀ r c, r < h / 2 → c.length = 2 * stride →
      PairOk stride cn w (fun x p => R x (2 * r) p) (fun x p => R x (2 * r + 1) p) c (gp r c))
    (hg : h % 2 = 1 → ∀ c, c.length = stride → RowOk cn w (fun x p => R x (h - 1) p) c (gl c)) :
    FrameOk stride h cn w R l (do
      let d ← eachChunk (2 * stride) 0 (h / 2) gp l
      if h % 2 = 0 then return d else onLastChunk stride gl d) := by
  have hh : h * stride ≤ l.length := by rw [Nat.mul_comm]; exact hl.1
  have h2 : h / 2 * (2 * stride) ≤ h * stride := by
    rw [← Nat.mul_assoc]; exact Nat.mul_le_mul_right _ (by omega)
  refine rowsOk_trans hst hw (b := 2 * (h / 2)) (by omega) (by omega) hh
    (eachChunk_rowPairs hst hw (by omega) hp) ?_
  intro d hd
  by_cases hev : h % 2 = 0
  · rw [if_pos hev, show 2 * (h / 2) = h by omega]
    exact ⟨fun _ _ => List.replicate cn 0, by simp, by intros; omega, by
      simp [paintFrom, mapChunks_empty]⟩
  · rw [if_neg hev, show 2 * (h / 2) = h - 1 by omega]
    exact onLastChunk_rows hst hw (by omega) (by rw [hd]; exact fullRows_div hl)
      (hg (by omega))

/-! ## From the canonical form to the specification -/

theorem FrameOk.spec {stride h cn w : Nat} (hcn : 0 < cn) (hs : 0 < stride)
    (hw : w * cn ≤ stride) {R : Nat → Nat → Buf → Prop} {dst : Buf} {o : Outcome Buf}
    (hd : stride * h ≤ dst.length) (ho : FrameOk stride h cn w R dst o) :
    ∃ out, o = .ok out ∧ FrameRel out dst stride w h cn R := by
  obtain ⟨pix, hl, hR, rfl⟩ := ho
  refine ⟨_, rfl, ?_⟩
  have hspec := paint_spec (pix := pix) hcn hs hl hw hd
  show FrameRel (paint stride h cn w pix dst) dst stride w h cn R
  refine ⟨hspec.1, ?_, hspec.2.2⟩
  intro x y hx hy
  have e : pixelAt (paint stride h cn w pix dst) stride cn x y = pix x y := by
    apply List.ext_getElem?
    intro c
    unfold pixelAt
    rw [List.getElem?_take]
    by_cases hc : c < cn
    · rw [if_pos hc, List.getElem?_drop, Nat.add_assoc, hspec.2.1 x y c hx hy hc]
    · rw [if_neg hc, List.getElem?_eq_none (by rw [hl]; omega)]
  rw [e]
  exact hR x y hx (by omega) hy

theorem frameRel_eq {out dst : Buf} {stride w h cn : Nat} {pix : Nat → Nat → Buf}
    (hr : FrameRel out dst stride w h cn (fun x y p => p = pix x y)) :
    FrameSpec out dst stride w h cn pix := by
  refine ⟨hr.1, ?_, hr.2.2⟩
  intro x y c hx hy hc
  have := hr.2.1 x y hx hy
  simp only at this
  rw [← this, pixelAt, List.getElem?_take, if_pos hc, List.getElem?_drop, Nat.add_assoc]

theorem FrameOk.frameSpec {stride h cn w : Nat} (hcn : 0 < cn) (hs : 0 < stride)
    (hw : w * cn ≤ stride) {pix : Nat → Nat → Buf} {dst : Buf} {o : Outcome Buf}
    (hd : stride * h ≤ dst.length)
    (ho : FrameOk stride h cn w (fun x y p => p = pix x y) dst o) :
    ∃ out, o = .ok out ∧ FrameSpec out dst stride w h cn pix := by
  obtain ⟨out, e, hr⟩ := ho.spec hcn hs hw hd
  exact ⟨out, e, frameRel_eq hr⟩

end Verif
