import Verif.Model.Core
/-! Lemmas about the slice and chunk-loop primitives. -/
namespace Verif

/-! ## Arithmetic helpers -/

theorem div_lt_of_lt_mul' {i k n : Nat} (h : i < k * n) : i / n < k := by
  rw [Nat.mul_comm] at h; exact Nat.div_lt_of_lt_mul h

theorem le_div_of_mul_le' {s i n : Nat} (hn : 0 < n) (h : s * n ≤ i) : s ≤ i / n := by
  exact (Nat.le_div_iff_mul_le hn).2 h

theorem succ_mul_le_of_lt {i k : Nat} (n : Nat) (h : i < k) : i * n + n ≤ k * n := by
  have : (i + 1) * n ≤ k * n := Nat.mul_le_mul_right n h
  rwa [Nat.succ_mul] at this

theorem div_add_of_lt {a b n : Nat} (h : b < n) : (a * n + b) / n = a := by
  have hn : 0 < n := by omega
  rw [Nat.mul_comm, Nat.mul_add_div hn, Nat.div_eq_of_lt h, Nat.add_zero]

theorem mod_add_of_lt {a b n : Nat} (h : b < n) : (a * n + b) % n = b := by
  rw [Nat.mul_comm, Nat.mul_add_mod, Nat.mod_eq_of_lt h]

theorem div_mod_split (i n : Nat) : i = i / n * n + i % n := by
  have := Nat.div_add_mod i n
  rw [Nat.mul_comm] at this; omega

/-! ## Basic slice lemmas -/

theorem idx_ok {l : Buf} {i : Nat} (h : i < l.length) : idx l i = .ok (l.getD i 0) := by
  simp [idx, h]

theorem setIdx_ok {l : Buf} {i v : Nat} (h : i < l.length) : setIdx l i v = .ok (l.set i v) := by
  simp [setIdx, h]

theorem slice_ok {l : Buf} {a b : Nat} (h1 : a ≤ b) (h2 : b ≤ l.length) :
    slice l a b = .ok ((l.drop a).take (b - a)) := by
  simp [slice, h1, h2]

@[simp] theorem chunk_length_eq (n : Nat) (l : Buf) (k : Nat) :
    (chunk n l k).length = min n (l.length - k * n) := by
  simp [chunk]

theorem chunk_length {n : Nat} {l : Buf} {k : Nat} (h : k * n + n ≤ l.length) :
    (chunk n l k).length = n := by
  simp; omega

theorem chunk_getElem? (n : Nat) (l : Buf) (k i : Nat) :
    (chunk n l k)[i]? = if i < n then l[k * n + i]? else none := by
  simp [chunk, List.getElem?_take, List.getElem?_drop]

theorem chunk_getD {n : Nat} {l : Buf} {k i d : Nat} (h : i < n) :
    (chunk n l k).getD i d = l.getD (k * n + i) d := by
  simp [List.getD_eq_getElem?_getD, chunk_getElem?, h]

theorem take_getD {l : Buf} {n i d : Nat} (h : i < n) : (l.take n).getD i d = l.getD i d := by
  simp [List.getD_eq_getElem?_getD, h]

theorem drop_getD {l : Buf} {n i d : Nat} : (l.drop n).getD i d = l.getD (n + i) d := by
  simp [List.getD_eq_getElem?_getD, List.getElem?_drop]

theorem lastElem_ok {l : Buf} (h : 0 < l.length) :
    lastElem l = .ok (l.getD (l.length - 1) 0) := by
  have : l.getLast? = some (l.getD (l.length - 1) 0) := by
    rw [List.getLast?_eq_getElem?, List.getD_eq_getElem?_getD]
    have : l.length - 1 < l.length := by omega
    simp [this]
  simp [lastElem, this]

theorem lastChunk_ok {n : Nat} {l : Buf} (hn : 0 < n) (h : n ≤ l.length) :
    lastChunk n l = .ok (chunk n l (l.length / n - 1)) := by
  have h1 : l.length / n ≠ 0 := by
    have := (Nat.le_div_iff_mul_le (k := n) (x := 1) (y := l.length) hn).2 (by omega)
    omega
  have : n ≠ 0 := by omega
  simp [lastChunk, this, h1]

/-! ## Pure chunk update -/

/-- Pure counterpart of `forChunks`. -/
def mapGo (n : Nat) (P : Nat → Buf → Buf) : Nat → Nat → Buf → Buf
  | 0, _, l => l
  | k + 1, j, l => P j (l.take n) ++ mapGo n P k (j + 1) (l.drop n)

/-- Pure counterpart of `eachChunk`: chunks `s ≤ j < k` of length `n` are
replaced by `P j` of them. -/
def mapChunks (n s k : Nat) (P : Nat → Buf → Buf) (l : Buf) : Buf :=
  l.take (s * n) ++ mapGo n P (k - s) s (l.drop (s * n))

/-- `P` keeps the length of chunks of length `n`. -/
def KeepsLen (n : Nat) (P : Nat → Buf → Buf) : Prop :=
  ∀ j c, c.length = n → (P j c).length = n

theorem mapGo_getElem? {n : Nat} (hn : 0 < n) {P : Nat → Buf → Buf} (hP : KeepsLen n P) :
    ∀ (k j : Nat) (l : Buf), k * n ≤ l.length → ∀ i,
      (mapGo n P k j l)[i]? =
        if i < k * n then (P (j + i / n) (chunk n l (i / n)))[i % n]? else l[i]? := by
  intro k
  induction k with
  | zero => intro j l _ i; simp [mapGo]
  | succ k ih =>
    intro j l hl i
    have hkn : (k + 1) * n = k * n + n := Nat.succ_mul k n
    have htl : (l.take n).length = n := by simp; omega
    have hPl := hP j (l.take n) htl
    simp only [mapGo]
    rw [List.getElem?_append, hPl]
    by_cases h : i < n
    · have h1 : i < (k + 1) * n := by omega
      have h2 : i / n = 0 := Nat.div_eq_of_lt h
      have h3 : i % n = i := Nat.mod_eq_of_lt h
      simp [h, h1, h2, h3, chunk]
    · obtain ⟨t, rfl⟩ : ∃ t, i = n + t := ⟨i - n, by omega⟩
      have hd : k * n ≤ (l.drop n).length := by simp; omega
      rw [if_neg h, ih (j + 1) (l.drop n) hd]
      have e1 : (n + t) / n = t / n + 1 := by rw [Nat.add_comm n t, Nat.add_div_right _ hn]
      have e2 : (n + t) % n = t % n := by rw [Nat.add_comm n t, Nat.add_mod_right]
      have e3 : n + t - n = t := by omega
      have e4 : chunk n (l.drop n) (t / n) = chunk n l (t / n + 1) := by
        simp only [chunk, List.drop_drop]
        congr 2
        rw [Nat.succ_mul]; omega
      rw [e1, e2, e3, e4, List.getElem?_drop]
      have e5 : (t < k * n) = (n + t < (k + 1) * n) := by
        apply propext; omega
      have e6 : j + 1 + t / n = j + (t / n + 1) := by omega
      simp only [e5, e6]

theorem mapGo_length {n : Nat} {P : Nat → Buf → Buf} (hP : KeepsLen n P) :
    ∀ (k j : Nat) (l : Buf), k * n ≤ l.length → (mapGo n P k j l).length = l.length := by
  intro k
  induction k with
  | zero => intro j l _; simp [mapGo]
  | succ k ih =>
    intro j l hl
    have hkn : (k + 1) * n = k * n + n := Nat.succ_mul k n
    have htl : (l.take n).length = n := by simp; omega
    have hd : k * n ≤ (l.drop n).length := by simp; omega
    simp only [mapGo, List.length_append, hP j _ htl, ih _ _ hd, List.length_drop]
    omega

theorem mapChunks_length {n s k : Nat} {P : Nat → Buf → Buf} (hP : KeepsLen n P) {l : Buf}
    (hs : s ≤ k) (hk : k * n ≤ l.length) : (mapChunks n s k P l).length = l.length := by
  have h1 : (k - s) * n = k * n - s * n := Nat.sub_mul k s n
  have h2 : s * n ≤ k * n := Nat.mul_le_mul_right n hs
  have hd : (k - s) * n ≤ (l.drop (s * n)).length := by simp; omega
  simp only [mapChunks, List.length_append, mapGo_length hP _ _ _ hd, List.length_take,
    List.length_drop]
  omega

/-- Pointwise description of a chunk update. -/
theorem mapChunks_getElem? {n s k : Nat} (hn : 0 < n) {P : Nat → Buf → Buf} (hP : KeepsLen n P)
    {l : Buf} (hs : s ≤ k) (hk : k * n ≤ l.length) (i : Nat) :
    (mapChunks n s k P l)[i]? =
      if s * n ≤ i ∧ i < k * n then (P (i / n) (chunk n l (i / n)))[i % n]? else l[i]? := by
  have h1 : (k - s) * n = k * n - s * n := Nat.sub_mul k s n
  have h2 : s * n ≤ k * n := Nat.mul_le_mul_right n hs
  have hd : (k - s) * n ≤ (l.drop (s * n)).length := by simp; omega
  have htl : (l.take (s * n)).length = s * n := by simp; omega
  simp only [mapChunks]
  rw [List.getElem?_append, htl]
  by_cases h : i < s * n
  · have : ¬ (s * n ≤ i ∧ i < k * n) := by omega
    simp only [h, if_true, this, if_false]
    simp [h]
  · obtain ⟨t, rfl⟩ : ∃ t, i = s * n + t := ⟨i - s * n, by omega⟩
    rw [if_neg h, mapGo_getElem? hn hP _ _ _ hd]
    have e1 : (s * n + t) / n = s + t / n := by
      rw [Nat.mul_comm, Nat.mul_add_div hn]
    have e2 : (s * n + t) % n = t % n := by
      rw [Nat.mul_comm, Nat.mul_add_mod]
    have e3 : s * n + t - s * n = t := by omega
    have e4 : chunk n (l.drop (s * n)) (t / n) = chunk n l (s + t / n) := by
      simp only [chunk, List.drop_drop]
      congr 2
      rw [Nat.add_mul]
    rw [e1, e2, e3, e4, List.getElem?_drop]
    have e5 : (t < (k - s) * n) = (s * n ≤ s * n + t ∧ s * n + t < k * n) := by
      apply propext; omega
    simp only [e5]

theorem mapGo_congr {n : Nat} {P Q : Nat → Buf → Buf} :
    ∀ (k j : Nat) (l : Buf), k * n ≤ l.length →
      (∀ t c, j ≤ t → t < j + k → c.length = n → P t c = Q t c) →
      mapGo n P k j l = mapGo n Q k j l := by
  intro k
  induction k with
  | zero => intros; rfl
  | succ k ih =>
    intro j l hl h
    have hkn : (k + 1) * n = k * n + n := Nat.succ_mul k n
    have htl : (l.take n).length = n := by simp; omega
    have hd : k * n ≤ (l.drop n).length := by simp; omega
    simp only [mapGo]
    rw [h j _ (by omega) (by omega) htl,
      ih (j + 1) _ hd (fun t c h1 h2 h3 => h t c (by omega) (by omega) h3)]

theorem mapChunks_congr {n s k : Nat} {P Q : Nat → Buf → Buf} {l : Buf}
    (hk : k * n ≤ l.length)
    (h : ∀ t c, s ≤ t → t < k → c.length = n → P t c = Q t c) :
    mapChunks n s k P l = mapChunks n s k Q l := by
  simp only [mapChunks]
  by_cases hs : s ≤ k
  · have h1 : (k - s) * n = k * n - s * n := Nat.sub_mul k s n
    have h2 : s * n ≤ k * n := Nat.mul_le_mul_right n hs
    rw [mapGo_congr (P := P) (Q := Q) _ _ _ (by simp; omega)
      (fun t c a b d => h t c a (by omega) d)]
  · have : k - s = 0 := by omega
    simp [this, mapGo]

theorem forChunks_ok {n : Nat} {g : Nat → Buf → Outcome Buf} {P : Nat → Buf → Buf} :
    ∀ (k j : Nat) (l : Buf), k * n ≤ l.length →
      (∀ t c, j ≤ t → t < j + k → c.length = n → g t c = .ok (P t c)) →
      forChunks n g k j l = .ok (mapGo n P k j l) := by
  intro k
  induction k with
  | zero => intros; rfl
  | succ k ih =>
    intro j l hl h
    have hkn : (k + 1) * n = k * n + n := Nat.succ_mul k n
    have htl : (l.take n).length = n := by simp; omega
    have hd : k * n ≤ (l.drop n).length := by simp; omega
    simp only [forChunks, mapGo]
    rw [h j _ (by omega) (by omega) htl, Outcome.bind_ok,
      ih (j + 1) _ hd (fun t c h1 h2 h3 => h t c (by omega) (by omega) h3)]
    rfl

/-- A loop whose body always succeeds is the pure chunk update. -/
theorem eachChunk_ok {n s k : Nat} (hn : 0 < n) {g : Nat → Buf → Outcome Buf}
    {P : Nat → Buf → Buf} {l : Buf} (hk : k * n ≤ l.length)
    (h : ∀ t c, s ≤ t → t < k → c.length = n → g t c = .ok (P t c)) :
    eachChunk n s k g l = .ok (mapChunks n s k P l) := by
  have hn' : n ≠ 0 := by omega
  simp only [eachChunk, mapChunks, hn', if_false]
  by_cases hs : s ≤ k
  · have h1 : (k - s) * n = k * n - s * n := Nat.sub_mul k s n
    have h2 : s * n ≤ k * n := Nat.mul_le_mul_right n hs
    rw [forChunks_ok (P := P) _ _ _ (by simp; omega) (fun t c a b d => h t c a (by omega) d)]
    rfl
  · have : k - s = 0 := by omega
    simp [this, mapGo, forChunks]

/-- Chunks `a ≤ j < b` and then chunks `b ≤ j < c`. -/
theorem mapChunks_mapChunks {n a b c : Nat} (hn : 0 < n) {P : Nat → Buf → Buf}
    (hP : KeepsLen n P) {l : Buf} (hab : a ≤ b) (hbc : b ≤ c) (hc : c * n ≤ l.length) :
    mapChunks n b c P (mapChunks n a b P l) = mapChunks n a c P l := by
  have hb : b * n ≤ c * n := Nat.mul_le_mul_right n hbc
  have ha : a * n ≤ b * n := Nat.mul_le_mul_right n hab
  have hlen := mapChunks_length hP hab (l := l) (by omega)
  apply List.ext_getElem?
  intro i
  rw [mapChunks_getElem? hn hP hbc (by omega), mapChunks_getElem? hn hP (by omega) hc,
    mapChunks_getElem? hn hP hab (by omega)]
  by_cases h1 : b * n ≤ i ∧ i < c * n
  · have h2 : a * n ≤ i ∧ i < c * n := by omega
    rw [if_pos h1, if_pos h2]
    have hbi : b ≤ i / n := le_div_of_mul_le' hn h1.1
    have e : chunk n (mapChunks n a b P l) (i / n) = chunk n l (i / n) := by
      apply List.ext_getElem?
      intro t
      simp only [chunk_getElem?]
      split
      · rw [mapChunks_getElem? hn hP hab (by omega)]
        have := Nat.mul_le_mul_right n hbi
        rw [if_neg (by omega)]
      · rfl
    rw [e]
  · by_cases h2 : a * n ≤ i ∧ i < b * n
    · rw [if_neg h1, if_pos h2, if_pos (by omega)]
    · rw [if_neg h1, if_neg h2, if_neg (by omega)]

/-- A loop over blocks of `m` chunks, each body updating the `m` chunks of its
block, is the loop over the chunks. -/
theorem mapChunks_block {n m k : Nat} (hn : 0 < n) (hm : 0 < m) {P : Nat → Buf → Buf}
    (hP : KeepsLen n P) {l : Buf} (hk : k * (m * n) ≤ l.length) :
    mapChunks (m * n) 0 k (fun j blk => mapChunks n 0 m (fun t c => P (j * m + t) c) blk) l
      = mapChunks n 0 (k * m) P l := by
  have hmn : 0 < m * n := Nat.mul_pos hm hn
  have hk' : k * m * n ≤ l.length := by rw [Nat.mul_assoc]; exact hk
  have hPj : ∀ j, KeepsLen n (fun t c => P (j * m + t) c) := fun j t c hc => hP _ c hc
  have hB : KeepsLen (m * n) (fun j blk => mapChunks n 0 m (fun t c => P (j * m + t) c) blk) := by
    intro j c hc
    rw [mapChunks_length (hPj j) (by omega) (by omega)]; exact hc
  apply List.ext_getElem?
  intro i
  rw [mapChunks_getElem? hmn hB (by omega) hk, mapChunks_getElem? hn hP (by omega) hk']
  simp only [Nat.zero_mul, Nat.zero_le, true_and, Nat.mul_assoc]
  by_cases h : i < k * (m * n)
  · rw [if_pos h, if_pos h]
    have hmod : i % (m * n) < m * n := Nat.mod_lt _ hmn
    have hblk : i / (m * n) * (m * n) + m * n ≤ l.length := by
      have := succ_mul_le_of_lt (m * n) (div_lt_of_lt_mul' h); omega
    rw [mapChunks_getElem? hn (hPj _) (by omega) (by rw [chunk_length hblk]; omega)]
    rw [if_pos ⟨by omega, hmod⟩]
    have e1 : i / (m * n) * m + i % (m * n) / n = i / n := by
      rw [Nat.mul_comm m n, Nat.mod_mul_right_div_self, ← Nat.div_div_eq_div_mul]
      have := Nat.div_add_mod (i / n) m
      rw [Nat.mul_comm] at this; exact this
    have e2 : i % (m * n) % n = i % n := by
      rw [Nat.mul_comm m n]; exact Nat.mod_mul_right_mod i n m
    rw [e2]
    have e3 : chunk n (chunk (m * n) l (i / (m * n))) (i % (m * n) / n) = chunk n l (i / n) := by
      apply List.ext_getElem?
      intro t
      simp only [chunk_getElem?]
      split
      · rename_i ht
        have hq : i % (m * n) / n < m := div_lt_of_lt_mul' hmod
        have := succ_mul_le_of_lt n hq
        rw [if_pos (by omega)]
        congr 1
        rw [← e1, Nat.add_mul, Nat.mul_assoc]; omega
      · rfl
    rw [e3]
    simp only [e1]
  · rw [if_neg h, if_neg h]

end Verif
