import Verif.Model.Loops
import Verif.Lemmas.Chunks
import Verif.Spec.Frame
/-! # Rows, row pairs and frames -/
namespace Verif
open Spec

/-! ## More about chunk updates -/

theorem onPrefix_ok {l p : Buf} {b : Nat} {g : Buf → Outcome Buf} (hb : b ≤ l.length)
    (h : g (l.take b) = .ok p) : onPrefix l b g = .ok (p ++ l.drop b) := by
  simp [onPrefix, hb, h]

theorem mapGo_append {n : Nat} {P : Nat → Buf → Buf} :
    ∀ (k j : Nat) (a b : Buf), a.length = k * n → mapGo n P k j (a ++ b) = mapGo n P k j a ++ b := by
  intro k
  induction k with
  | zero => intro j a b h; simp at h; simp [mapGo, h]
  | succ k ih =>
    intro j a b h
    have hk : (k + 1) * n = k * n + n := Nat.succ_mul k n
    have e1 : (a ++ b).take n = a.take n := by
      rw [List.take_append_of_le_length (by omega)]
    have e2 : (a ++ b).drop n = a.drop n ++ b := by
      rw [List.drop_append_of_le_length (by omega)]
    simp only [mapGo]
    rw [e1, e2, ih (j + 1) (a.drop n) b (by simp; omega), List.append_assoc]

/-- A chunk update confined to a prefix. -/
theorem mapChunks_take_append {n k : Nat} {P : Nat → Buf → Buf} {l : Buf} (h : k * n ≤ l.length) :
    mapChunks n 0 k P (l.take (k * n)) ++ l.drop (k * n) = mapChunks n 0 k P l := by
  simp only [mapChunks, Nat.zero_mul, List.drop_zero, List.take_zero, List.nil_append, Nat.sub_zero]
  conv => rhs; rw [← List.take_append_drop (k * n) l]
  rw [mapGo_append]
  simp; omega

/-- Chunks in pairs. -/
theorem mapChunks_pairs {n s k : Nat} (hn : 0 < n) {P : Nat → Buf → Buf} (hP : KeepsLen n P)
    {l : Buf} (hs : s ≤ k) (hk : k * (2 * n) ≤ l.length) :
    mapChunks (2 * n) s k (fun j blk => P (2 * j) (blk.take n) ++ P (2 * j + 1) (blk.drop n)) l
      = mapChunks n (2 * s) (2 * k) P l := by
  have hK : KeepsLen (2 * n)
      (fun j blk => P (2 * j) (blk.take n) ++ P (2 * j + 1) (blk.drop n)) := by
    intro j c hc
    have h1 := hP (2 * j) (c.take n) (by simp; omega)
    have h2 := hP (2 * j + 1) (c.drop n) (by simp; omega)
    simp only [List.length_append, h1, h2]; omega
  have ek : 2 * k * n = k * (2 * n) := by rw [Nat.mul_comm 2 k, Nat.mul_assoc]
  have es : 2 * s * n = s * (2 * n) := by rw [Nat.mul_comm 2 s, Nat.mul_assoc]
  apply List.ext_getElem?
  intro i
  rw [mapChunks_getElem? (by omega) hK hs hk, mapChunks_getElem? hn hP (by omega) (by omega)]
  rw [ek, es]
  by_cases h : s * (2 * n) ≤ i ∧ i < k * (2 * n)
  · rw [if_pos h, if_pos h]
    have hj : i / (2 * n) < k := div_lt_of_lt_mul' h.2
    have hblk : i / (2 * n) * (2 * n) + 2 * n ≤ l.length := by
      have := succ_mul_le_of_lt (2 * n) hj; omega
    have hc := chunk_length hblk
    have hm : i % (2 * n) < 2 * n := Nat.mod_lt _ (by omega)
    have h1 := hP (2 * (i / (2 * n))) ((chunk (2 * n) l (i / (2 * n))).take n)
      (by rw [List.length_take, hc]; omega)
    have ei : i = i / (2 * n) * (2 * n) + i % (2 * n) := div_mod_split i (2 * n)
    have e2 : 2 * (i / (2 * n)) * n = i / (2 * n) * (2 * n) := by
      rw [Nat.mul_comm 2 (i / (2 * n)), Nat.mul_assoc]
    rw [List.getElem?_append, h1]
    by_cases hlt : i % (2 * n) < n
    · rw [if_pos hlt]
      have q1 : i / n = 2 * (i / (2 * n)) := by
        have := div_add_of_lt (a := 2 * (i / (2 * n))) hlt
        rwa [e2, ← ei] at this
      have q2 : i % n = i % (2 * n) := by
        have := mod_add_of_lt (a := 2 * (i / (2 * n))) hlt
        rwa [e2, ← ei] at this
      rw [q1, q2]
      congr 2
      apply List.ext_getElem?
      intro t
      rw [List.getElem?_take, chunk_getElem?, chunk_getElem?]
      split
      · rw [if_pos (by omega), e2]
      · rfl
    · rw [if_neg hlt]
      have e3 : i = (2 * (i / (2 * n)) + 1) * n + (i % (2 * n) - n) := by
        rw [Nat.add_mul, e2]; omega
      have q1 : i / n = 2 * (i / (2 * n)) + 1 := by
        have := div_add_of_lt (a := 2 * (i / (2 * n)) + 1) (b := i % (2 * n) - n) (n := n) (by omega)
        rwa [← e3] at this
      have q2 : i % n = i % (2 * n) - n := by
        have := mod_add_of_lt (a := 2 * (i / (2 * n)) + 1) (b := i % (2 * n) - n) (n := n) (by omega)
        rwa [← e3] at this
      rw [q1, q2]
      congr 2
      apply List.ext_getElem?
      intro t
      rw [List.getElem?_drop, chunk_getElem?, chunk_getElem?, Nat.add_mul, e2]
      by_cases ht : t < n
      · rw [if_pos (by omega), if_pos ht]; congr 1; omega
      · rw [if_neg (by omega), if_neg ht]
  · rw [if_neg h, if_neg h]

theorem mapChunks_empty {n s : Nat} {P : Nat → Buf → Buf} {l : Buf} :
    mapChunks n s s P l = l := by
  simp [mapChunks, mapGo]

/-- The last chunk of a buffer of exactly `k` chunks (and less than one more). -/
theorem onLastChunk_ok {n k : Nat} (hn : 0 < n) (hk : 0 < k) {l : Buf} (hl : l.length / n = k)
    {g : Buf → Outcome Buf} {P : Nat → Buf → Buf}
    (h : ∀ c, c.length = n → g c = .ok (P (k - 1) c)) :
    onLastChunk n g l = .ok (mapChunks n (k - 1) k P l) := by
  have h1 : n ≠ 0 := by omega
  have h2 : l.length / n ≠ 0 := by omega
  simp only [onLastChunk, h1, h2, if_false]
  rw [hl]
  apply eachChunk_ok hn
  · rw [← hl]; exact Nat.div_mul_le_self _ _
  · intro t c h1 h2 hc
    rw [h c hc]
    congr 2; omega

/-! ## Rows -/

/-- Result of a finished row. -/
def paintRow (cn w : Nat) (pix : Nat → Buf) (row : Buf) : Buf :=
  mapChunks cn 0 w (fun x _ => pix x) row

/-! ## Frames -/

/-- The frame update in canonical form. -/
def paint (stride h cn w : Nat) (pix : Nat → Nat → Buf) (dst : Buf) : Buf :=
  mapChunks stride 0 h (fun y row => paintRow cn w (fun x => pix x y) row) dst

theorem paintRow_length {cn w : Nat} {pix : Nat → Buf} (hpix : ∀ x, (pix x).length = cn) {row : Buf}
    (h : w * cn ≤ row.length) : (paintRow cn w pix row).length = row.length :=
  mapChunks_length (fun j _ _ => hpix j) (by omega) h

theorem paintRow_keeps {stride cn w : Nat} {pix : Nat → Nat → Buf}
    (hpix : ∀ x y, (pix x y).length = cn) (hw : w * cn ≤ stride) :
    KeepsLen stride (fun y row => paintRow cn w (fun x => pix x y) row) := by
  intro j c hc
  rw [paintRow_length (fun x => hpix x j) (by omega)]; exact hc

theorem paint_length {stride h cn w : Nat} {pix : Nat → Nat → Buf}
    (hpix : ∀ x y, (pix x y).length = cn) (hw : w * cn ≤ stride) {dst : Buf}
    (hd : stride * h ≤ dst.length) : (paint stride h cn w pix dst).length = dst.length :=
  mapChunks_length (paintRow_keeps hpix hw) (by omega) (by rw [Nat.mul_comm]; exact hd)

theorem paint_getElem? {stride h cn w : Nat} (hcn : 0 < cn) (hs : 0 < stride)
    {pix : Nat → Nat → Buf}
    (hpix : ∀ x y, (pix x y).length = cn) (hw : w * cn ≤ stride) {dst : Buf}
    (hd : stride * h ≤ dst.length) (i : Nat) :
    (paint stride h cn w pix dst)[i]? =
      if i / stride < h ∧ i % stride < w * cn then
        (pix (i % stride / cn) (i / stride))[i % stride % cn]?
      else dst[i]? := by
  unfold paint
  rw [mapChunks_getElem? hs (paintRow_keeps hpix hw) (by omega)
    (by rw [Nat.mul_comm]; exact hd)]
  have e : (0 * stride ≤ i ∧ i < h * stride) ↔ i / stride < h := by
    rw [Nat.div_lt_iff_lt_mul hs]; omega
  by_cases h1 : i / stride < h
  · rw [if_pos (e.2 h1)]
    have hmod : i % stride < stride := Nat.mod_lt _ hs
    have hblk : i / stride * stride + stride ≤ dst.length := by
      have := succ_mul_le_of_lt stride h1
      rw [Nat.mul_comm h stride] at this; omega
    have hc := chunk_length hblk
    unfold paintRow
    rw [mapChunks_getElem? hcn (fun j _ _ => hpix j _) (by omega) (by rw [hc]; exact hw)]
    have e0 : 0 * cn = 0 := Nat.zero_mul _
    by_cases h2 : i % stride < w * cn
    · rw [if_pos (by omega), if_pos ⟨h1, h2⟩]
    · rw [if_neg (by omega), if_neg (by omega), chunk_getElem?, if_pos hmod, ← div_mod_split]
  · rw [if_neg (fun hh => h1 (e.1 hh)), if_neg (by omega)]

/-- The canonical frame update meets the frame specification. -/
theorem paint_spec {stride h cn w : Nat} (hcn : 0 < cn) (hs : 0 < stride) {pix : Nat → Nat → Buf}
    (hpix : ∀ x y, (pix x y).length = cn) (hw : w * cn ≤ stride) {dst : Buf}
    (hd : stride * h ≤ dst.length) :
    FrameSpec (paint stride h cn w pix dst) dst stride w h cn pix := by
  refine ⟨paint_length hpix hw hd, ?_, ?_⟩
  · intro x y c hx hy hc
    rw [paint_getElem? hcn hs hpix hw hd]
    have h0 : x * cn + c < w * cn := by
      have := succ_mul_le_of_lt cn hx; omega
    have h1 : (y * stride + (x * cn + c)) / stride = y := div_add_of_lt (by omega)
    have h2 : (y * stride + (x * cn + c)) % stride = x * cn + c := mod_add_of_lt (by omega)
    rw [h1, h2, if_pos ⟨hy, h0⟩, div_add_of_lt hc, mod_add_of_lt hc]
  · intro i hi
    rw [paint_getElem? hcn hs hpix hw hd, if_neg]
    rintro ⟨h1, h2⟩
    apply hi
    refine ⟨i % stride / cn, i / stride, i % stride % cn, ?_, h1, Nat.mod_lt _ hcn, ?_⟩
    · exact div_lt_of_lt_mul' h2
    · rw [← div_mod_split (i % stride) cn]; exact div_mod_split i stride

/-- A frame specification determines the buffer. -/
theorem frameSpec_unique {a b dst : Buf} {stride w h cn : Nat} {pix : Nat → Nat → Buf}
    (ha : FrameSpec a dst stride w h cn pix) (hb : FrameSpec b dst stride w h cn pix) : a = b := by
  apply List.ext_getElem?
  intro i
  by_cases h : InFrame stride w h cn i
  · obtain ⟨x, y, c, hx, hy, hc, rfl⟩ := h
    rw [ha.2.1 x y c hx hy hc, hb.2.1 x y c hx hy hc]
  · rw [ha.2.2 i h, hb.2.2 i h]

theorem paint_congr {stride h cn w : Nat} {pix pix' : Nat → Nat → Buf} {dst : Buf}
    (hw : w * cn ≤ stride) (hd : stride * h ≤ dst.length)
    (hh : ∀ x y, x < w → y < h → pix x y = pix' x y) :
    paint stride h cn w pix dst = paint stride h cn w pix' dst := by
  unfold paint
  apply mapChunks_congr (by rw [Nat.mul_comm]; exact hd)
  intro y row _ hy hrow
  apply mapChunks_congr (by omega)
  intro x c _ hx _
  exact hh x y hx hy

/-! ## Rows of a source plane -/

/-- `l` holds the first `n` samples of row `r` of a plane. -/
def IsRow (l plane : Buf) (stride r n : Nat) : Prop :=
  n ≤ l.length ∧ ∀ j, j < n → l.getD j 0 = at' plane stride j r ∧ l.getD j 0 ∈ plane

theorem getD_mem {l : Buf} {i : Nat} (h : i < l.length) : l.getD i 0 ∈ l := by
  rw [List.getD_eq_getElem?_getD, List.getElem?_eq_getElem h]
  exact List.getElem_mem h

theorem chunk_isRow {plane : Buf} {stride r n : Nat} (hr : r * stride + stride ≤ plane.length)
    (hn : n ≤ stride) : IsRow (chunk stride plane r) plane stride r n := by
  refine ⟨by rw [chunk_length hr]; exact hn, fun j hj => ?_⟩
  have e : (chunk stride plane r).getD j 0 = at' plane stride j r := by
    rw [chunk_getD (by omega)]; rfl
  refine ⟨e, ?_⟩
  rw [e]; exact getD_mem (by omega)

theorem isRow_take {l plane : Buf} {stride r n m : Nat} (h : IsRow l plane stride r n) (hm : m ≤ n) :
    IsRow (l.take m) plane stride r m := by
  refine ⟨by rw [List.length_take]; have := h.1; omega, fun j hj => ?_⟩
  rw [take_getD hj]; exact h.2 j (by omega)

theorem slice_row {l plane : Buf} {stride r n : Nat} (h : IsRow l plane stride r n) :
    slice l 0 n = .ok (l.take n) := by
  rw [slice_ok (by omega) h.1]; simp

theorem isRow_idx {l plane : Buf} {stride r n j : Nat} (h : IsRow l plane stride r n) (hj : j < n) :
    idx l j = .ok (at' plane stride j r) := by
  rw [idx_ok (by have := h.1; omega), (h.2 j hj).1]

theorem isRow_last {l plane : Buf} {stride r n : Nat} (h : IsRow l plane stride r n)
    (hl : l.length = n) (hn : 0 < n) : lastElem l = .ok (at' plane stride (n - 1) r) := by
  rw [lastElem_ok (by omega), hl, (h.2 (n - 1) (by omega)).1]

theorem at'_mem {plane : Buf} {stride x y : Nat} (h : y * stride + x < plane.length) :
    at' plane stride x y ∈ plane := getD_mem h

/-! ## Rows of buffers made of full rows -/

theorem fullRows_div {len stride n : Nat} (h : FullRows len stride n) : len / stride = n := by
  have hs : 0 < stride := by
    rcases Nat.eq_zero_or_pos stride with h0 | h0
    · subst h0; obtain ⟨h1, h2⟩ := h; omega
    · exact h0
  obtain ⟨h1, h2⟩ := h
  rw [Nat.mul_comm] at h1 h2
  have a := (Nat.le_div_iff_mul_le hs).2 h1
  have b := div_lt_of_lt_mul' h2
  omega

theorem fullRows_div2 {len stride n : Nat} (h : FullRows len stride n) :
    len / (stride * 2) = n / 2 := by
  rw [← Nat.div_div_eq_div_mul, fullRows_div h]

theorem fullRows_row {len stride n r : Nat} (h : FullRows len stride n) (hr : r < n) :
    r * stride + stride ≤ len := by
  have := succ_mul_le_of_lt stride hr
  rw [Nat.mul_comm n stride] at this
  exact Nat.le_trans this h.1

end Verif
