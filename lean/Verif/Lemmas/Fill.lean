import Verif.Lemmas.Remainder
import Verif.Lemmas.Decode
import Verif.Spec.EncodeVector
/-! # Element-wise filled prefixes and state loops -/
namespace Verif
open Spec

theorem forGo_ok {σ : Type} {body : Nat → σ → Outcome σ} {T : Nat → σ} :
    ∀ (m j : Nat), (∀ r, j ≤ r → r < j + m → body r (T r) = .ok (T (r + 1))) →
      forGo body m j (T j) = .ok (T (j + m)) := by
  intro m
  induction m with
  | zero => intros; rfl
  | succ m ih =>
    intro j h
    simp only [forGo]
    rw [h j (by omega) (by omega), Outcome.bind_ok, ih (j + 1) (fun r h1 h2 => h r (by omega) (by omega))]
    congr 2; omega

theorem forRange_ok {σ : Type} {body : Nat → σ → Outcome σ} {T : Nat → σ} {s k : Nat} (hs : s ≤ k)
    (h : ∀ r, s ≤ r → r < k → body r (T r) = .ok (T (r + 1))) :
    forRange s k body (T s) = .ok (T k) := by
  unfold forRange
  rw [forGo_ok _ _ (fun r h1 h2 => h r h1 (by omega))]
  congr 2; omega

theorem forRange_empty {σ : Type} {body : Nat → σ → Outcome σ} {s k : Nat} {x : σ} (h : k ≤ s) :
    forRange s k body x = .ok x := by
  unfold forRange
  rw [show k - s = 0 by omega]; rfl

/-- The first `n` elements of `l` replaced by `f`. -/
def fillTo (f : Nat → Nat) (n : Nat) (l : Buf) : Buf := (List.range n).map f ++ l.drop n

theorem fillTo_zero {f : Nat → Nat} {l : Buf} : fillTo f 0 l = l := by simp [fillTo]

theorem fillTo_length {f : Nat → Nat} {n : Nat} {l : Buf} (h : n ≤ l.length) :
    (fillTo f n l).length = l.length := by
  simp [fillTo]; omega

theorem fillTo_getElem? {f : Nat → Nat} {n : Nat} {l : Buf} (i : Nat) :
    (fillTo f n l)[i]? = if i < n then some (f i) else l[i]? := by
  unfold fillTo
  rw [List.getElem?_append]
  simp only [List.length_map, List.length_range]
  split
  · rename_i h; simp [h]
  · rename_i h; rw [List.getElem?_drop]; congr 1; omega

theorem fillTo_congr {f g : Nat → Nat} {n : Nat} {l : Buf} (h : ∀ i, i < n → f i = g i) :
    fillTo f n l = fillTo g n l := by
  unfold fillTo
  congr 1
  apply List.map_congr_left
  intro a ha; exact h a (List.mem_range.1 ha)

theorem setChunk_getElem? {n j : Nat} {l c : Buf} (hj : j * n + n ≤ l.length) (hc : c.length = n)
    (i : Nat) : (setChunk n l j c)[i]? =
      if j * n ≤ i ∧ i < j * n + n then c[i - j * n]? else l[i]? := by
  unfold setChunk
  have h1 : (l.take (j * n)).length = j * n := by rw [List.length_take]; omega
  rw [List.append_assoc, List.getElem?_append, h1]
  by_cases ha : i < j * n
  · rw [if_pos ha, if_neg (by omega), List.getElem?_take, if_pos ha]
  · rw [if_neg ha, List.getElem?_append, hc]
    by_cases hb : i - j * n < n
    · rw [if_pos hb, if_pos (by omega)]
    · rw [if_neg hb, if_neg (by omega), List.getElem?_drop]; congr 1; omega

theorem setChunk_length {n j : Nat} {l c : Buf} (hj : j * n + n ≤ l.length) (hc : c.length = n) :
    (setChunk n l j c).length = l.length := by
  unfold setChunk
  simp only [List.length_append, List.length_take, List.length_drop, hc]; omega

/-- Extending a filled prefix by one chunk. -/
theorem setChunk_fill {n j : Nat} {f : Nat → Nat} {l c : Buf} (hj : j * n + n ≤ l.length)
    (hc : c.length = n) (h : ∀ i, i < n → c[i]? = some (f (j * n + i))) :
    setChunk n (fillTo f (j * n) l) j c = fillTo f (j * n + n) l := by
  apply List.ext_getElem?
  intro i
  rw [setChunk_getElem? (by rw [fillTo_length (by omega)]; omega) hc, fillTo_getElem?, fillTo_getElem?]
  by_cases h1 : i < j * n
  · rw [if_neg (by omega), if_pos h1, if_pos (by omega)]
  · by_cases h2 : i < j * n + n
    · rw [if_pos ⟨by omega, h2⟩, if_pos h2, h _ (by omega)]; congr 2; omega
    · rw [if_neg (by omega), if_neg h1, if_neg h2]

theorem setChunk_fill1 {j : Nat} {f : Nat → Nat} {l : Buf} {a : Nat} (hj : j < l.length)
    (h : a = f j) : setChunk 1 (fillTo f j l) j [a] = fillTo f (j + 1) l := by
  have := setChunk_fill (n := 1) (j := j) (f := f) (l := l) (c := [a]) (by omega) rfl
    (by intro i hi; have : i = 0 := by omega
        subst this; simp [h])
  simpa using this

theorem setChunk_fill2 {j : Nat} {f : Nat → Nat} {l : Buf} {a b : Nat} (hj : 2 * j + 1 < l.length)
    (ha : a = f (2 * j)) (hb : b = f (2 * j + 1)) :
    setChunk 2 (fillTo f (2 * j) l) j [a, b] = fillTo f (2 * (j + 1)) l := by
  have := setChunk_fill (n := 2) (j := j) (f := f) (l := l) (c := [a, b]) (by omega) rfl
    (by intro i hi
        have : i = 0 ∨ i = 1 := by omega
        rcases this with rfl | rfl
        · simp [ha, Nat.mul_comm]
        · simp [hb, Nat.mul_comm])
  rw [Nat.mul_comm j 2] at this
  exact this

theorem setLast_fill {n m : Nat} {f g : Nat → Nat} {l : Buf} {v : Nat} (hl : l.length = n + 1)
    (hm : m = n ∨ m = n + 1) (hfg : ∀ i, i < n → f i = g i) (hv : v = g n) :
    setLast (fillTo f m l) v = .ok (fillTo g (n + 1) l) := by
  have hlen : (fillTo f m l).length = n + 1 := by rw [fillTo_length (by omega), hl]
  unfold setLast
  rw [if_neg (by omega), hlen]
  congr 1
  apply List.ext_getElem?
  intro i
  rw [fillTo_getElem?, List.getElem?_append, List.length_take, hlen, List.getElem?_take,
    fillTo_getElem?]
  by_cases h1 : i < n
  · rw [if_pos (by omega), if_pos (by omega), if_pos (by omega), if_pos (by omega), hfg i h1]
  · rw [if_neg (by omega)]
    by_cases h2 : i = n
    · subst h2
      rw [if_pos (by omega), show i - min (i + 1 - 1) (i + 1) = 0 by omega, hv]; rfl
    · rw [if_neg (by omega), List.getElem?_eq_none (by simp; omega), List.getElem?_eq_none (by omega)]

theorem setRem_fill {n m : Nat} {f g : Nat → Nat} {l : Buf} {v : Nat} (hl : l.length = n + 1)
    (hn : n % 2 = 0) (hm : m = n ∨ m = n + 1) (hfg : ∀ i, i < n → f i = g i) (hv : v = g n) :
    setRem (fillTo f m l) v = .ok (fillTo g (n + 1) l) := by
  have hlen : (fillTo f m l).length = n + 1 := by rw [fillTo_length (by omega), hl]
  have := setLast_fill hl hm hfg hv
  unfold setLast at this
  unfold setRem
  rw [hlen] at *
  rw [if_neg (by omega)] at this
  rw [if_neg (by omega), show (n + 1) / 2 * 2 = n + 1 - 1 by omega]
  exact this

theorem setLastY1_fill {first : Bool} {n m : Nat} {f g : Nat → Nat} {l : Buf} {v : Nat}
    (hf : first = false ∨ n = 0) (hl : l.length = n + 1)
    (hn : n % 2 = 0) (hm : m = n ∨ m = n + 1) (hfg : ∀ i, i < n → f i = g i) (hv : v = g n) :
    setLastY1 first (fillTo f m l) v = .ok (fillTo g (n + 1) l) := by
  rw [← setRem_fill hl hn hm hfg hv]
  unfold setLastY1
  cases first with
  | false => rfl
  | true =>
    have hlen : (fillTo f m l).length = 1 := by rw [fillTo_length (by omega), hl]; simpa using hf
    rw [if_pos rfl]
    match fillTo f m l, hlen with
    | [a], _ => simp [setIdx, setRem]

theorem setLastPair_fill {n m : Nat} {f g : Nat → Nat} {l c : Buf} (hl : l.length = 2 * n + 2)
    (hm : m = 2 * n ∨ m = 2 * n + 2) (hc : c.length = 2) (hfg : ∀ i, i < 2 * n → f i = g i)
    (h0 : c[0]? = some (g (2 * n))) (h1 : c[1]? = some (g (2 * n + 1))) :
    setLastPair (fillTo f m l) c = .ok (fillTo g (2 * n + 2) l) := by
  have hlen : (fillTo f m l).length = 2 * n + 2 := by rw [fillTo_length (by omega), hl]
  unfold setLastPair
  rw [hlen, if_neg (by omega), show (2 * n + 2) / 2 - 1 = n by omega]
  congr 1
  apply List.ext_getElem?
  intro i
  rw [setChunk_getElem? (by omega) hc, fillTo_getElem?, fillTo_getElem?]
  by_cases a : i < 2 * n
  · rw [if_neg (by omega), if_pos (by omega), if_pos (by omega), hfg i a]
  · by_cases b : i < 2 * n + 2
    · rw [if_pos (by omega), if_pos b]
      have : i = 2 * n ∨ i = 2 * n + 1 := by omega
      rcases this with rfl | rfl
      · rw [show 2 * n - n * 2 = 0 by omega, h0]
      · rw [show 2 * n + 1 - n * 2 = 1 by omega, h1]
    · rw [if_neg (by omega), if_neg (by omega), if_neg b]

/-- The components of pixel `x` in a filled row. -/
def fillPix (cn : Nat) (f : Nat → Nat) (x : Nat) : Buf := (List.range cn).map fun i => f (x * cn + i)

theorem fillPix_one {f : Nat → Nat} {x : Nat} : fillPix 1 f x = [f x] := by
  simp [fillPix, List.range_succ]
theorem fillPix_two {f : Nat → Nat} {x : Nat} : fillPix 2 f x = [f (2 * x), f (2 * x + 1)] := by
  simp [fillPix, List.range_succ, Nat.mul_comm]

/-- What a row specification says of the result. -/
theorem frameRel_fill {n cn : Nat} (hcn : 0 < cn) {R : Nat → Nat → Buf → Prop} {u u' : Buf}
    (hn : n * cn ≤ u.length) (h : FrameRel u' u 0 n 1 cn R) :
    ∃ f : Nat → Nat, u' = fillTo f (n * cn) u ∧ ∀ x, x < n → R x 0 (fillPix cn f x) := by
  obtain ⟨hl, hR, hO⟩ := h
  refine ⟨fun i => u'.getD i 0, ?_, ?_⟩
  · apply List.ext_getElem?
    intro i
    rw [fillTo_getElem?]
    by_cases hi : i < n * cn
    · rw [if_pos hi, List.getD_eq_getElem?_getD, List.getElem?_eq_getElem (by omega)]; rfl
    · rw [if_neg hi]
      apply hO
      rintro ⟨x, y, c, hx, hy, hc, e⟩
      have := succ_mul_le_of_lt cn hx
      rw [Nat.mul_zero] at e
      omega
  · intro x hx
    have := hR x 0 hx (by omega)
    have e : pixelAt u' 0 cn x 0 = fillPix cn (fun i => u'.getD i 0) x := by
      have hxn := succ_mul_le_of_lt cn hx
      apply List.ext_getElem?
      intro i
      simp only [pixelAt, fillPix, Nat.mul_zero, Nat.zero_add]
      rw [List.getElem?_take, List.getElem?_map, List.getElem?_drop]
      by_cases hi : i < cn
      · rw [if_pos hi, List.getElem?_range hi, List.getElem?_eq_getElem (by omega)]
        simp only [Option.map_some, List.getD_eq_getElem?_getD]
        rw [List.getElem?_eq_getElem (by omega)]; rfl
      · rw [if_neg hi, List.getElem?_eq_none (l := List.range cn) (by simp; omega)]; rfl
    rw [← e]; exact this

theorem paintRow_fill {cn w : Nat} (hcn : 0 < cn) {f : Nat → Nat} {l : Buf} (h : w * cn ≤ l.length) :
    paintRow cn w (fillPix cn f) l = fillTo f (w * cn) l := by
  apply List.ext_getElem?
  intro i
  unfold paintRow
  rw [mapChunks_getElem? hcn (fun j _ _ => by simp [fillPix]) (by omega) h, fillTo_getElem?]
  by_cases hi : i < w * cn
  · rw [if_pos ⟨by omega, hi⟩, if_pos hi]
    simp only [fillPix, List.getElem?_map]
    rw [List.getElem?_range (Nat.mod_lt _ hcn)]
    simp only [Option.map_some]
    rw [← div_mod_split]
  · rw [if_neg (by omega), if_neg hi]

theorem rowOk_fill {cn w : Nat} (hcn : 0 < cn) {R : Nat → Buf → Prop} {f : Nat → Nat} {l : Buf}
    (h : w * cn ≤ l.length) (hR : ∀ x, x < w → R x (fillPix cn f x)) :
    RowOk cn w R l (.ok (fillTo f (w * cn) l)) :=
  ⟨fillPix cn f, fun x => by simp [fillPix], hR, by rw [paintRow_fill hcn h]⟩

theorem fillTo_append {f : Nat → Nat} {n : Nat} {l : Buf} (h : n ≤ l.length) :
    fillTo f n (l.take n) ++ l.drop n = fillTo f n l := by
  unfold fillTo
  rw [List.drop_of_length_le (by rw [List.length_take]; omega), List.append_nil]

end Verif
