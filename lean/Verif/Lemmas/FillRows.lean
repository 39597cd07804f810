import Verif.Lemmas.NvEncodeRows
/-! # Planes filled row by row -/
namespace Verif
open Spec

/-- The first `n` elements of rows `0 … k-1` replaced by `F row column`. -/
def fillRows (st n : Nat) (F : Nat → Nat → Nat) (k : Nat) (l : Buf) : Buf :=
  l.mapIdx fun i x => if i / st < k ∧ i % st < n then F (i / st) (i % st) else x

theorem fillRows_length {st n k : Nat} {F : Nat → Nat → Nat} {l : Buf} :
    (fillRows st n F k l).length = l.length := by simp [fillRows]

theorem fillRows_getElem? {st n k : Nat} {F : Nat → Nat → Nat} {l : Buf} (i : Nat) :
    (fillRows st n F k l)[i]? =
      if i / st < k ∧ i % st < n ∧ i < l.length then some (F (i / st) (i % st)) else l[i]? := by
  unfold fillRows
  rw [List.getElem?_mapIdx]
  by_cases h : i < l.length
  · rw [List.getElem?_eq_getElem h]
    simp only [Option.map_some]
    by_cases h2 : i / st < k ∧ i % st < n
    · rw [if_pos h2, if_pos ⟨h2.1, h2.2, h⟩]
    · rw [if_neg h2, if_neg (fun a => h2 ⟨a.1, a.2.1⟩)]
  · rw [if_neg (fun a => h a.2.2), List.getElem?_eq_none (by omega)]; rfl

theorem fillRows_zero {st n : Nat} {F : Nat → Nat → Nat} {l : Buf} : fillRows st n F 0 l = l := by
  apply List.ext_getElem?
  intro i
  rw [fillRows_getElem?, if_neg (fun a => Nat.not_lt_zero _ a.1)]

/-- Rows not yet reached are unchanged. -/
theorem chunk_fillRows {st n k r : Nat} {F : Nat → Nat → Nat} {l : Buf} (hst : 0 < st)
    (h : k * st ≤ r) {m : Nat} : ((fillRows st n F k l).drop r).take m = (l.drop r).take m := by
  apply List.ext_getElem?
  intro i
  rw [List.getElem?_take, List.getElem?_take, List.getElem?_drop, List.getElem?_drop]
  split
  · rw [fillRows_getElem?, if_neg]
    intro ⟨a, _⟩
    have := (Nat.div_lt_iff_lt_mul hst).1 a
    omega
  · rfl

theorem fillTo_get_chunk {st r n : Nat} {f : Nat → Nat} {l : Buf} (hn : n ≤ st) {j : Nat} (hj : j < st) :
    (fillTo f n (chunk st l r))[j]? = if j < n then some (f j) else l[r * st + j]? := by
  rw [fillTo_getElem?]
  split
  · rfl
  · unfold chunk
    rw [List.getElem?_take, if_pos hj, List.getElem?_drop]

/-- Row `r` becomes `c`, everything before being filled. -/
theorem setChunk_fillRows {st n r : Nat} {F : Nat → Nat → Nat} {l : Buf} (hst : 0 < st) (hn : n ≤ st)
    (hr : r * st + st ≤ l.length) :
    setChunk st (fillRows st n F r l) r (fillTo (F r) n (chunk st l r))
      = fillRows st n F (r + 1) l := by
  have hc : (chunk st l r).length = st := chunk_length hr
  apply List.ext_getElem?
  intro i
  rw [setChunk_getElem? (by rw [fillRows_length]; exact hr) (by rw [fillTo_length (by omega)]; exact hc),
    fillRows_getElem?, fillRows_getElem?]
  by_cases h : r * st ≤ i ∧ i < r * st + st
  · obtain ⟨j, rfl⟩ : ∃ j, i = r * st + j := ⟨i - r * st, by omega⟩
    have hj : j < st := by omega
    rw [if_pos h, show r * st + j - r * st = j by omega, div_add_of_lt hj, mod_add_of_lt hj,
      fillTo_get_chunk hn hj]
    by_cases h2 : j < n
    · rw [if_pos h2, if_pos ⟨by omega, h2, by omega⟩]
    · rw [if_neg h2, if_neg (fun a => h2 a.2.1)]
  · rw [if_neg h]
    have hd : i / st ≠ r := by
      intro e
      apply h
      have h1 := Nat.div_mul_le_self i st
      have h2 := Nat.lt_div_mul_add hst (a := i)
      rw [e] at h1 h2
      exact ⟨h1, h2⟩
    by_cases h3 : i / st < r ∧ i % st < n ∧ i < l.length
    · rw [if_pos h3, if_pos ⟨by omega, h3.2⟩]
    · rw [if_neg h3, if_neg (fun a => h3 ⟨by omega, a.2⟩)]

theorem chunk2_take_chunk {st r : Nat} {l : Buf} : (chunk (st * 2) l r).take st = chunk st l (2 * r) := by
  unfold chunk
  rw [List.take_take, Nat.min_eq_left (by omega), Nat.mul_comm st 2, ← Nat.mul_assoc, Nat.mul_comm r 2]

theorem chunk2_drop_chunk {st r : Nat} {l : Buf} :
    (chunk (st * 2) l r).drop st = chunk st l (2 * r + 1) := by
  unfold chunk
  rw [List.drop_take, List.drop_drop, show st * 2 - st = st by omega]
  congr 2
  rw [Nat.add_mul, Nat.one_mul, Nat.mul_comm st 2, ← Nat.mul_assoc, Nat.mul_comm r 2]

theorem setChunk_append {st r : Nat} {l a b : Buf} (hr : r * (st * 2) + st * 2 ≤ l.length)
    (ha : a.length = st) (hb : b.length = st) :
    setChunk (st * 2) l r (a ++ b) = setChunk st (setChunk st l (2 * r) a) (2 * r + 1) b := by
  have e1 : 2 * r * st = r * (st * 2) := by rw [Nat.mul_comm 2 r, Nat.mul_assoc, Nat.mul_comm 2 st]
  have e2 : (2 * r + 1) * st = r * (st * 2) + st := by rw [Nat.add_mul, e1, Nat.one_mul]
  apply List.ext_getElem?
  intro i
  rw [setChunk_getElem? hr (by rw [List.length_append]; omega),
    setChunk_getElem? (by rw [setChunk_length (by omega) ha]; omega) hb,
    setChunk_getElem? (by omega) ha, e1, e2]
  by_cases h1 : r * (st * 2) ≤ i ∧ i < r * (st * 2) + st * 2
  · rw [if_pos h1, List.getElem?_append, ha]
    by_cases h2 : i - r * (st * 2) < st
    · rw [if_pos h2, if_neg (by omega), if_pos (by omega)]
    · rw [if_neg h2, if_pos (by omega)]; congr 1; omega
  · rw [if_neg h1, if_neg (by omega), if_neg (by omega)]

theorem setChunk_fillRows2 {st n r : Nat} {F : Nat → Nat → Nat} {l : Buf} (hst : 0 < st) (hn : n ≤ st)
    (hr : r * (st * 2) + st * 2 ≤ l.length) :
    setChunk (st * 2) (fillRows st n F (2 * r) l) r
        (fillTo (F (2 * r)) n (chunk st l (2 * r)) ++ fillTo (F (2 * r + 1)) n (chunk st l (2 * r + 1)))
      = fillRows st n F (2 * (r + 1)) l := by
  have e1 : 2 * r * st = r * (st * 2) := by rw [Nat.mul_comm 2 r, Nat.mul_assoc, Nat.mul_comm 2 st]
  have e2 : (2 * r + 1) * st = r * (st * 2) + st := by rw [Nat.add_mul, e1, Nat.one_mul]
  have h0 : (chunk st l (2 * r)).length = st := chunk_length (by omega)
  have h1 : (chunk st l (2 * r + 1)).length = st := chunk_length (by omega)
  rw [setChunk_append (by rw [fillRows_length]; exact hr) (by rw [fillTo_length (by omega), h0])
      (by rw [fillTo_length (by omega), h1]),
    setChunk_fillRows hst hn (by omega), setChunk_fillRows hst hn (by omega)]
  rfl

/-- The last row of a plane of odd height, taken from the remainder of the row pairs. -/
theorem fillRows_remainder {st n k : Nat} {F : Nat → Nat → Nat} {l : Buf} (hst : 0 < st) (hn : n ≤ st)
    (hk : l.length / st = k) (hodd : k % 2 = 1) :
    (fillRows st n F (2 * (k / 2)) l).take (l.length / (st * 2) * (st * 2)) ++
      fillTo (F (k - 1)) n (remainder (st * 2) l) = fillRows st n F k l := by
  have e : l.length / (st * 2) = k / 2 := by rw [← Nat.div_div_eq_div_mul, hk]
  have hm : k / 2 * (st * 2) = (k - 1) * st := by
    rw [Nat.mul_comm st 2, ← Nat.mul_assoc]; congr 1; omega
  have hkl : k * st ≤ l.length := by rw [← hk]; exact Nat.div_mul_le_self _ _
  have hkl2 : l.length < k * st + st := by
    rw [← hk]; exact Nat.lt_div_mul_add hst
  have hk1 : k * st = (k - 1) * st + st := by
    rw [← Nat.succ_mul]; congr 1; omega
  unfold remainder
  rw [e, hm]
  apply List.ext_getElem?
  intro i
  rw [List.getElem?_append, List.length_take, fillRows_length, List.getElem?_take, fillRows_getElem?,
    fillRows_getElem?, fillTo_getElem?, List.getElem?_drop, Nat.min_eq_left (by omega)]
  by_cases h1 : i < (k - 1) * st
  · have : i / st < k - 1 := (Nat.div_lt_iff_lt_mul hst).2 h1
    rw [if_pos h1, if_pos h1]
    by_cases h2 : i % st < n
    · rw [if_pos ⟨by omega, h2, by omega⟩, if_pos ⟨by omega, h2, by omega⟩]
    · rw [if_neg (fun a => h2 a.2.1), if_neg (fun a => h2 a.2.1)]
  · rw [if_neg h1]
    obtain ⟨j, rfl⟩ : ∃ j, i = (k - 1) * st + j := ⟨i - (k - 1) * st, by omega⟩
    rw [show (k - 1) * st + j - (k - 1) * st = j by omega]
    by_cases hj : j < st
    · rw [div_add_of_lt hj, mod_add_of_lt hj]
      by_cases h2 : j < n
      · rw [if_pos h2, if_pos ⟨by omega, h2, by omega⟩]
      · rw [if_neg h2, if_neg (fun a => h2 a.2.1)]
    · rw [if_neg (by omega), if_neg]
      rintro ⟨a, _⟩
      have := (Nat.div_lt_iff_lt_mul hst).1 a
      omega

/-- What a plane filled row by row looks like to its reader. -/
theorem fillRows_frameRel {st w h cn : Nat} {F : Nat → Nat → Nat} {l : Buf}
    {R : Nat → Nat → Buf → Prop} (hst : 0 < st) (hw : w * cn ≤ st) (hl : h * st ≤ l.length)
    (hR : ∀ x y, x < w → y < h → R x y (fillPix cn (F y) x)) :
    FrameRel (fillRows st (w * cn) F h l) l st w h cn R := by
  refine ⟨fillRows_length, ?_, ?_⟩
  · intro x y hx hy
    have h1 := succ_mul_le_of_lt cn hx
    have h2 := succ_mul_le_of_lt st hy
    have e : pixelAt (fillRows st (w * cn) F h l) st cn x y = fillPix cn (F y) x := by
      apply List.ext_getElem?
      intro c
      unfold pixelAt fillPix
      rw [List.getElem?_take, List.getElem?_map]
      by_cases hc : c < cn
      · rw [if_pos hc, List.getElem?_drop, Nat.add_assoc, fillRows_getElem?,
          div_add_of_lt (by omega), mod_add_of_lt (by omega),
          if_pos ⟨hy, by omega, by omega⟩, List.getElem?_range hc]
        rfl
      · rw [if_neg hc, List.getElem?_eq_none (l := List.range cn) (by simp; omega)]; rfl
    rw [e]; exact hR x y hx hy
  · intro i hi
    rw [fillRows_getElem?]
    by_cases hh : i / st < h ∧ i % st < w * cn ∧ i < l.length
    · exfalso
      apply hi
      have hcn : 0 < cn := by
        rcases Nat.eq_zero_or_pos cn with h0 | h0
        · rw [h0] at hh; omega
        · exact h0
      refine ⟨i % st / cn, i / st, i % st % cn, div_lt_of_lt_mul' hh.2.1, hh.1, Nat.mod_lt _ hcn, ?_⟩
      rw [← div_mod_split, ← div_mod_split]
    · rw [if_neg hh]

/-! ## Loops over rows -/

theorem skolem3 {k : Nat} {P : Nat → (Nat → Nat) → (Nat → Nat) → (Nat → Nat) → Prop}
    (h : ∀ r, r < k → ∃ a b c, P r a b c) :
    ∃ A B C : Nat → Nat → Nat, ∀ r, r < k → P r (A r) (B r) (C r) := by
  have h' : ∀ r, ∃ a b c, r < k → P r a b c := by
    intro r
    by_cases hr : r < k
    · obtain ⟨a, b, c, e⟩ := h r hr; exact ⟨a, b, c, fun _ => e⟩
    · exact ⟨id, id, id, fun a => absurd a hr⟩
  obtain ⟨A, hA⟩ := Classical.skolem.1 h'
  obtain ⟨B, hB⟩ := Classical.skolem.1 hA
  obtain ⟨C, hC⟩ := Classical.skolem.1 hB
  exact ⟨A, B, C, hC⟩

theorem skolem4 {k : Nat} {P : Nat → (Nat → Nat) → (Nat → Nat) → (Nat → Nat) → (Nat → Nat) → Prop}
    (h : ∀ r, r < k → ∃ a b c d, P r a b c d) :
    ∃ A B C D : Nat → Nat → Nat, ∀ r, r < k → P r (A r) (B r) (C r) (D r) := by
  have h' : ∀ r, ∃ a b c d, r < k → P r a b c d := by
    intro r
    by_cases hr : r < k
    · obtain ⟨a, b, c, d, e⟩ := h r hr; exact ⟨a, b, c, d, fun _ => e⟩
    · exact ⟨id, id, id, id, fun a => absurd a hr⟩
  obtain ⟨A, hA⟩ := Classical.skolem.1 h'
  obtain ⟨B, hB⟩ := Classical.skolem.1 hA
  obtain ⟨C, hC⟩ := Classical.skolem.1 hB
  obtain ⟨D, hD⟩ := Classical.skolem.1 hC
  exact ⟨A, B, C, D, hD⟩

theorem row_end {k r st len : Nat} (h : k * st ≤ len) (hr : r < k) : r * st + st ≤ len := by
  have := succ_mul_le_of_lt st hr; omega

theorem rows3_fill {ny nu nv k wy wu wv : Nat} (h1 : 0 < ny) (h2 : 0 < nu) (h3 : 0 < nv)
    (w1 : wy ≤ ny) (w2 : wu ≤ nu) (w3 : wv ≤ nv) {y u v : Buf}
    (l1 : k * ny ≤ y.length) (l2 : k * nu ≤ u.length) (l3 : k * nv ≤ v.length)
    {g : Nat → Buf → Buf → Buf → Outcome (Buf × Buf × Buf)}
    {P : Nat → (Nat → Nat) → (Nat → Nat) → (Nat → Nat) → Prop}
    (hg : ∀ r, r < k → ∃ fy fu fv, g r (chunk ny y r) (chunk nu u r) (chunk nv v r)
      = .ok (fillTo fy wy (chunk ny y r), fillTo fu wu (chunk nu u r), fillTo fv wv (chunk nv v r)) ∧
        P r fy fu fv) :
    ∃ Fy Fu Fv, rows3 ny nu nv k g y u v
        = .ok (fillRows ny wy Fy k y, fillRows nu wu Fu k u, fillRows nv wv Fv k v) ∧
      ∀ r, r < k → P r (Fy r) (Fu r) (Fv r) := by
  obtain ⟨Fy, Fu, Fv, hF⟩ := skolem3 hg
  refine ⟨Fy, Fu, Fv, ?_, fun r hr => (hF r hr).2⟩
  unfold rows3
  rw [if_neg (by omega)]
  have := forRange_ok (T := fun r => (fillRows ny wy Fy r y, fillRows nu wu Fu r u, fillRows nv wv Fv r v))
    (s := 0) (k := k) (body := fun r (y, u, v) => do
      let (a, b, c) ← g r (chunk ny y r) (chunk nu u r) (chunk nv v r)
      return (setChunk ny y r a, setChunk nu u r b, setChunk nv v r c)) (by omega) ?_
  · simp only [fillRows_zero] at this; exact this
  · intro r _ hr
    simp only
    rw [show chunk ny (fillRows ny wy Fy r y) r = chunk ny y r from chunk_fillRows h1 (Nat.le_refl _),
      show chunk nu (fillRows nu wu Fu r u) r = chunk nu u r from chunk_fillRows h2 (Nat.le_refl _),
      show chunk nv (fillRows nv wv Fv r v) r = chunk nv v r from chunk_fillRows h3 (Nat.le_refl _),
      (hF r hr).1]
    simp only [Outcome.bind_ok, Outcome.pure_eq]
    rw [setChunk_fillRows h1 w1 (row_end l1 hr), setChunk_fillRows h2 w2 (row_end l2 hr),
      setChunk_fillRows h3 w3 (row_end l3 hr)]

/-- Interleaving two families of row functions. -/
def evenOdd (A B : Nat → Nat → Nat) (y : Nat) : Nat → Nat := if y % 2 = 0 then A (y / 2) else B (y / 2)

theorem evenOdd_even {A B : Nat → Nat → Nat} {r : Nat} : evenOdd A B (2 * r) = A r := by
  unfold evenOdd; rw [if_pos (by omega), show 2 * r / 2 = r by omega]
theorem evenOdd_odd {A B : Nat → Nat → Nat} {r : Nat} : evenOdd A B (2 * r + 1) = B r := by
  unfold evenOdd; rw [if_neg (by omega), show (2 * r + 1) / 2 = r by omega]

theorem rows3_fill2 {ny nu nv k wy wu wv : Nat} (h1 : 0 < ny) (h2 : 0 < nu) (h3 : 0 < nv)
    (w1 : wy ≤ ny) (w2 : wu ≤ nu) (w3 : wv ≤ nv) {y u v : Buf}
    (l1 : k * (ny * 2) ≤ y.length) (l2 : k * nu ≤ u.length) (l3 : k * nv ≤ v.length)
    {g : Nat → Buf → Buf → Buf → Outcome (Buf × Buf × Buf)}
    {P : Nat → (Nat → Nat) → (Nat → Nat) → (Nat → Nat) → (Nat → Nat) → Prop}
    (hg : ∀ r, r < k → ∃ fa fb fu fv, g r (chunk (ny * 2) y r) (chunk nu u r) (chunk nv v r)
      = .ok (fillTo fa wy (chunk ny y (2 * r)) ++ fillTo fb wy (chunk ny y (2 * r + 1)),
          fillTo fu wu (chunk nu u r), fillTo fv wv (chunk nv v r)) ∧ P r fa fb fu fv) :
    ∃ Fy Fu Fv, rows3 (ny * 2) nu nv k g y u v
        = .ok (fillRows ny wy Fy (2 * k) y, fillRows nu wu Fu k u, fillRows nv wv Fv k v) ∧
      ∀ r, r < k → P r (Fy (2 * r)) (Fy (2 * r + 1)) (Fu r) (Fv r) := by
  obtain ⟨Fa, Fb, Fu, Fv, hF⟩ := skolem4 hg
  refine ⟨evenOdd Fa Fb, Fu, Fv, ?_, fun r hr => by rw [evenOdd_even, evenOdd_odd]; exact (hF r hr).2⟩
  unfold rows3
  rw [if_neg (by omega)]
  have := forRange_ok
    (T := fun r => (fillRows ny wy (evenOdd Fa Fb) (2 * r) y, fillRows nu wu Fu r u, fillRows nv wv Fv r v))
    (s := 0) (k := k) (body := fun r (y, u, v) => do
      let (a, b, c) ← g r (chunk (ny * 2) y r) (chunk nu u r) (chunk nv v r)
      return (setChunk (ny * 2) y r a, setChunk nu u r b, setChunk nv v r c)) (by omega) ?_
  · simp only [Nat.mul_zero, fillRows_zero] at this; exact this
  · intro r _ hr
    have e1 : 2 * r * ny = r * (ny * 2) := by rw [Nat.mul_comm 2 r, Nat.mul_assoc, Nat.mul_comm 2 ny]
    simp only
    rw [show chunk (ny * 2) (fillRows ny wy (evenOdd Fa Fb) (2 * r) y) r = chunk (ny * 2) y r from
        chunk_fillRows h1 (by omega),
      show chunk nu (fillRows nu wu Fu r u) r = chunk nu u r from chunk_fillRows h2 (Nat.le_refl _),
      show chunk nv (fillRows nv wv Fv r v) r = chunk nv v r from chunk_fillRows h3 (Nat.le_refl _),
      (hF r hr).1]
    simp only [Outcome.bind_ok, Outcome.pure_eq]
    have := setChunk_fillRows2 (r := r) (F := evenOdd Fa Fb) h1 w1 (row_end l1 hr)
    rw [evenOdd_even, evenOdd_odd] at this
    rw [this, setChunk_fillRows h2 w2 (row_end l2 hr), setChunk_fillRows h3 w3 (row_end l3 hr)]

theorem rows2_fill {ny nc k wy wc : Nat} (h1 : 0 < ny) (h2 : 0 < nc)
    (w1 : wy ≤ ny) (w2 : wc ≤ nc) {y c : Buf}
    (l1 : k * ny ≤ y.length) (l2 : k * nc ≤ c.length)
    {g : Nat → Buf → Buf → Outcome (Buf × Buf)}
    {P : Nat → (Nat → Nat) → (Nat → Nat) → Prop}
    (hg : ∀ r, r < k → ∃ fy fc, g r (chunk ny y r) (chunk nc c r)
      = .ok (fillTo fy wy (chunk ny y r), fillTo fc wc (chunk nc c r)) ∧ P r fy fc) :
    ∃ Fy Fc, rows2 ny nc k g y c = .ok (fillRows ny wy Fy k y, fillRows nc wc Fc k c) ∧
      ∀ r, r < k → P r (Fy r) (Fc r) := by
  obtain ⟨Fy, Fc, _, hF⟩ := skolem3 (P := fun r a b _ => g r (chunk ny y r) (chunk nc c r)
      = .ok (fillTo a wy (chunk ny y r), fillTo b wc (chunk nc c r)) ∧ P r a b)
    (fun r hr => by obtain ⟨a, b, h⟩ := hg r hr; exact ⟨a, b, id, h⟩)
  refine ⟨Fy, Fc, ?_, fun r hr => (hF r hr).2⟩
  unfold rows2
  rw [if_neg (by omega)]
  have := forRange_ok (T := fun r => (fillRows ny wy Fy r y, fillRows nc wc Fc r c))
    (s := 0) (k := k) (body := fun r (y, c) => do
      let (a, b) ← g r (chunk ny y r) (chunk nc c r)
      return (setChunk ny y r a, setChunk nc c r b)) (by omega) ?_
  · simp only [fillRows_zero] at this; exact this
  · intro r _ hr
    simp only
    rw [show chunk ny (fillRows ny wy Fy r y) r = chunk ny y r from chunk_fillRows h1 (Nat.le_refl _),
      show chunk nc (fillRows nc wc Fc r c) r = chunk nc c r from chunk_fillRows h2 (Nat.le_refl _),
      (hF r hr).1]
    simp only [Outcome.bind_ok, Outcome.pure_eq]
    rw [setChunk_fillRows h1 w1 (row_end l1 hr), setChunk_fillRows h2 w2 (row_end l2 hr)]

theorem rows2_fill2 {ny nc k wy wc : Nat} (h1 : 0 < ny) (h2 : 0 < nc)
    (w1 : wy ≤ ny) (w2 : wc ≤ nc) {y c : Buf}
    (l1 : k * (ny * 2) ≤ y.length) (l2 : k * nc ≤ c.length)
    {g : Nat → Buf → Buf → Outcome (Buf × Buf)}
    {P : Nat → (Nat → Nat) → (Nat → Nat) → (Nat → Nat) → Prop}
    (hg : ∀ r, r < k → ∃ fa fb fc, g r (chunk (ny * 2) y r) (chunk nc c r)
      = .ok (fillTo fa wy (chunk ny y (2 * r)) ++ fillTo fb wy (chunk ny y (2 * r + 1)),
          fillTo fc wc (chunk nc c r)) ∧ P r fa fb fc) :
    ∃ Fy Fc, rows2 (ny * 2) nc k g y c
        = .ok (fillRows ny wy Fy (2 * k) y, fillRows nc wc Fc k c) ∧
      ∀ r, r < k → P r (Fy (2 * r)) (Fy (2 * r + 1)) (Fc r) := by
  obtain ⟨Fa, Fb, Fc, hF⟩ := skolem3 hg
  refine ⟨evenOdd Fa Fb, Fc, ?_, fun r hr => by rw [evenOdd_even, evenOdd_odd]; exact (hF r hr).2⟩
  unfold rows2
  rw [if_neg (by omega)]
  have := forRange_ok
    (T := fun r => (fillRows ny wy (evenOdd Fa Fb) (2 * r) y, fillRows nc wc Fc r c))
    (s := 0) (k := k) (body := fun r (y, c) => do
      let (a, b) ← g r (chunk (ny * 2) y r) (chunk nc c r)
      return (setChunk (ny * 2) y r a, setChunk nc c r b)) (by omega) ?_
  · simp only [Nat.mul_zero, fillRows_zero] at this; exact this
  · intro r _ hr
    have e1 : 2 * r * ny = r * (ny * 2) := by rw [Nat.mul_comm 2 r, Nat.mul_assoc, Nat.mul_comm 2 ny]
    simp only
    rw [show chunk (ny * 2) (fillRows ny wy (evenOdd Fa Fb) (2 * r) y) r = chunk (ny * 2) y r from
        chunk_fillRows h1 (by omega),
      show chunk nc (fillRows nc wc Fc r c) r = chunk nc c r from chunk_fillRows h2 (Nat.le_refl _),
      (hF r hr).1]
    simp only [Outcome.bind_ok, Outcome.pure_eq]
    have := setChunk_fillRows2 (r := r) (F := evenOdd Fa Fb) h1 w1 (row_end l1 hr)
    rw [evenOdd_even, evenOdd_odd] at this
    rw [this, setChunk_fillRows h2 w2 (row_end l2 hr)]

/-- Two fillings that agree on the first rows. -/
theorem fillRows_congr {st n k : Nat} {F G : Nat → Nat → Nat} {l : Buf}
    (h : ∀ r, r < k → F r = G r) : fillRows st n F k l = fillRows st n G k l := by
  apply List.ext_getElem?
  intro i
  rw [fillRows_getElem?, fillRows_getElem?]
  by_cases hh : i / st < k ∧ i % st < n ∧ i < l.length
  · rw [if_pos hh, if_pos hh, h _ hh.1]
  · rw [if_neg hh, if_neg hh]

end Verif
