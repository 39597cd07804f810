import Verif.Lemmas.X86Yuy2
import Verif.Lemmas.Yuy2Unpack
import Verif.Lemmas.X86Shuffle
/-! # The vector code of the packed 4:2:2 unpackers -/
namespace Verif.X86
open Spec

/-! ## Registers -/

theorem avx2In2_at (a b : Reg) {i : Nat} (h : i < 32) :
    (avx2In2 a b).1 i = (if i % 2 = 0 then a (i / 2) else b (i / 2)) ∧
    (avx2In2 a b).2 i = (if i % 2 = 0 then a (16 + i / 2) else b (16 + i / 2)) := by
  interval_cases i <;> exact ⟨rfl, rfl⟩

theorem sseIn2_at (a b : Reg) {i : Nat} (h : i < 16) :
    (unpacklo 1 a b) i = (if i % 2 = 0 then a (i / 2) else b (i / 2)) ∧
    (unpackhi 1 a b) i = (if i % 2 = 0 then a (8 + i / 2) else b (8 + i / 2)) := by
  interval_cases i <;> exact ⟨rfl, rfl⟩

/-- The registers hold the components of the `n` pairs from pair `m` on. -/
def UnpackAt (t : Yuy2) (q : Reg × Reg × Reg × Reg) (n : Nat) (yuy : Buf) (m : Nat) : Prop :=
  ∀ j, j < n → q.1 j = unY t yuy (2 * (m + j)) ∧ q.2.1 j = unY t yuy (2 * (m + j) + 1) ∧
    q.2.2.1 j = unU t 1 yuy (m + j) ∧ q.2.2.2 j = unV t 1 yuy (m + j)

theorem unpackAt_of {t : Yuy2} {p : Reg × Reg × Reg × Reg} {n : Nat} {yuy : Buf} {m : Nat}
    (h : ∀ j, j < n → p.1 j = yuy.getD (4 * (m + j)) 0 ∧ p.2.1 j = yuy.getD (4 * (m + j) + 1) 0 ∧
      p.2.2.1 j = yuy.getD (4 * (m + j) + 2) 0 ∧ p.2.2.2 j = yuy.getD (4 * (m + j) + 3) 0) :
    UnpackAt t (yuyPick t p) n yuy m := by
  intro j hj
  obtain ⟨h1, h2, h3, h4⟩ := h j hj
  simp only [unY, unU, unV, lumaAt_even, lumaAt_odd, cbAt_eq, crAt_eq, Nat.div_one,
    show 2 * (m + j) / 2 = m + j by omega]
  cases t <;> exact ⟨by assumption, by assumption, by assumption, by assumption⟩

theorem avx2UnpackAt {t : Yuy2} {yuy : Buf} {m : Nat} :
    UnpackAt t (yuyPick t (avx2DeRgba (ld 32 yuy (4 * m)) (ld 32 yuy (4 * m + 32))
      (ld 32 yuy (4 * m + 2 * 32)) (ld 32 yuy (4 * m + 3 * 32)))) 32 yuy m := by
  apply unpackAt_of
  intro j hj
  obtain ⟨h1, h2, h3⟩ := avx2DeRgba_at (ld 32 yuy (4 * m)) (ld 32 yuy (4 * m + 32))
      (ld 32 yuy (4 * m + 2 * 32)) (ld 32 yuy (4 * m + 3 * 32)) hj
  rw [h1, h2, h3, avx2DeRgba_a _ _ _ _ hj, cat4 (by omega), cat4 (by omega), cat4 (by omega),
    cat4 (by omega), Nat.mul_add]
  exact ⟨rfl, rfl, rfl, rfl⟩

theorem sseUnpackAt {t : Yuy2} {yuy : Buf} {m : Nat} :
    UnpackAt t (yuyPick t (sseDeRgba (ld 16 yuy (4 * m)) (ld 16 yuy (4 * m + 16))
      (ld 16 yuy (4 * m + 2 * 16)) (ld 16 yuy (4 * m + 3 * 16)))) 16 yuy m := by
  apply unpackAt_of
  intro j hj
  obtain ⟨h1, h2, h3⟩ := sseDeRgba_at (ld 16 yuy (4 * m)) (ld 16 yuy (4 * m + 16))
      (ld 16 yuy (4 * m + 2 * 16)) (ld 16 yuy (4 * m + 3 * 16)) hj
  rw [h1, h2, h3, sseDeRgba_a _ _ _ _ hj, cat4 (by omega), cat4 (by omega), cat4 (by omega),
    cat4 (by omega), Nat.mul_add]
  exact ⟨rfl, rfl, rfl, rfl⟩

theorem cat_zeros {n : Nat} {l : Buf} {p i : Nat} (h : i < 2 * n) :
    cat n [ld n l p, ld n l (p + n), zero, zero] i = l.getD (p + i) 0 := by
  apply cat_cons (Nat.le_refl n) (fun h => h)
  intro h1
  apply cat_cons (Nat.le_refl n) (fun h => h)
  intro h2
  omega

theorem sseUnpackHalfAt {t : Yuy2} {yuy : Buf} {m : Nat} :
    UnpackAt t (yuyPick t (sseDeRgba (ld 16 yuy (4 * m)) (ld 16 yuy (4 * m + 16)) zero zero)) 8 yuy
      m := by
  apply unpackAt_of
  intro j hj
  obtain ⟨h1, h2, h3⟩ := sseDeRgba_at (ld 16 yuy (4 * m)) (ld 16 yuy (4 * m + 16)) zero zero
    (show j < 16 by omega)
  rw [h1, h2, h3, sseDeRgba_a _ _ _ _ (by omega), cat_zeros (by omega), cat_zeros (by omega),
    cat_zeros (by omega), cat_zeros (by omega), Nat.mul_add]
  exact ⟨rfl, rfl, rfl, rfl⟩

/-! ## Stores -/

/-- A store right after a filled prefix extends it. -/
theorem store_fill {n p : Nat} {r : Reg} {f : Nat → Nat} {l : Buf} (hl : p + n ≤ l.length)
    (h : ∀ i, i < n → r i = f (p + i)) : store n r p (fillTo f p l) = .ok (fillTo f (p + n) l) := by
  have hb : bytes n r = (List.range n).map fun i => f (p + i) :=
    List.map_congr_left fun i hi => h i (List.mem_range.1 hi)
  have hlen := fillTo_length (f := f) (n := p) (l := l) (by omega)
  rw [store, hb, put_ok (by rw [hlen]; simpa using hl)]
  congr 1
  apply List.ext_getElem?
  intro i
  unfold splice
  rw [List.append_assoc, List.getElem?_append, List.length_take, hlen, fillTo_getElem?,
    Nat.min_eq_left (by omega), List.getElem?_take, fillTo_getElem?]
  by_cases h1 : i < p
  · rw [if_pos h1, if_pos h1, if_pos h1, if_pos (by omega)]
  · rw [if_neg h1, List.getElem?_append]
    simp only [List.length_map, List.length_range]
    by_cases h2 : i < p + n
    · rw [if_pos (by omega), if_pos h2, List.getElem?_map, List.getElem?_range (by omega)]
      simp only [Option.map_some]
      congr 2; omega
    · rw [if_neg (by omega), if_neg h2, List.getElem?_drop, fillTo_getElem?, if_neg (by omega)]
      congr 1; omega

/-- Chroma samples per pair. -/
def pairSamples (s : Sampling) : Nat := match s with | .yuv444 => 2 | _ => 1

theorem avx2PutChroma_fill {s : Sampling} {c : Reg} {m : Nat} {f : Nat → Nat} {l : Buf}
    (hl : yuyStep s (2 * m + 64) ≤ l.length) (h : ∀ j, j < 32 → c j = f (m + j)) :
    avx2PutChroma s c (yuyStep s (2 * m)) (fillTo (fun i => f (i / pairSamples s)) (yuyStep s (2 * m)) l)
      = .ok (fillTo (fun i => f (i / pairSamples s)) (yuyStep s (2 * m + 64)) l) := by
  cases s <;> simp only [yuyStep, avx2PutChroma, pairSamples, Nat.div_one] at hl ⊢
  · rw [show (2 * m + 64) / 2 = 2 * m / 2 + 32 by omega] at hl ⊢
    exact store_fill hl fun i hi => by rw [h i hi]; congr 1; omega
  · rw [show (2 * m + 64) / 2 = 2 * m / 2 + 32 by omega] at hl ⊢
    exact store_fill hl fun i hi => by rw [h i hi]; congr 1; omega
  · rw [store_fill (by omega) (fun i hi => by
      rw [(avx2In2_at c c hi).1, ite_self, h _ (by omega)]; congr 1; omega), Outcome.bind_ok,
      store_fill (by omega) (fun i hi => by
      rw [(avx2In2_at c c hi).2, ite_self, h _ (by omega)]; congr 1; omega)]

theorem ssePutChroma_fill {s : Sampling} {c : Reg} {m : Nat} {f : Nat → Nat} {l : Buf}
    (hl : yuyStep s (2 * m + 32) ≤ l.length) (h : ∀ j, j < 16 → c j = f (m + j)) :
    ssePutChroma s c (yuyStep s (2 * m)) (fillTo (fun i => f (i / pairSamples s)) (yuyStep s (2 * m)) l)
      = .ok (fillTo (fun i => f (i / pairSamples s)) (yuyStep s (2 * m + 32)) l) := by
  cases s <;> simp only [yuyStep, ssePutChroma, pairSamples, Nat.div_one] at hl ⊢
  · rw [show (2 * m + 32) / 2 = 2 * m / 2 + 16 by omega] at hl ⊢
    exact store_fill hl fun i hi => by rw [h i hi]; congr 1; omega
  · rw [show (2 * m + 32) / 2 = 2 * m / 2 + 16 by omega] at hl ⊢
    exact store_fill hl fun i hi => by rw [h i hi]; congr 1; omega
  · rw [store_fill (by omega) (fun i hi => by
      rw [(sseIn2_at c c hi).1, ite_self, h _ (by omega)]; congr 1; omega), Outcome.bind_ok,
      store_fill (by omega) (fun i hi => by
      rw [(sseIn2_at c c hi).2, ite_self, h _ (by omega)]; congr 1; omega)]

theorem ssePutChromaHalf_fill {s : Sampling} {c : Reg} {m : Nat} {f : Nat → Nat} {l : Buf}
    (hl : yuyStep s (2 * m + 16) ≤ l.length) (h : ∀ j, j < 8 → c j = f (m + j)) :
    ssePutChromaHalf s c (yuyStep s (2 * m))
        (fillTo (fun i => f (i / pairSamples s)) (yuyStep s (2 * m)) l)
      = .ok (fillTo (fun i => f (i / pairSamples s)) (yuyStep s (2 * m + 16)) l) := by
  cases s <;> simp only [yuyStep, ssePutChromaHalf, pairSamples, Nat.div_one] at hl ⊢
  · rw [show (2 * m + 16) / 2 = 2 * m / 2 + 8 by omega] at hl ⊢
    exact store_fill hl fun i hi => by rw [h i hi]; congr 1; omega
  · rw [show (2 * m + 16) / 2 = 2 * m / 2 + 8 by omega] at hl ⊢
    exact store_fill hl fun i hi => by rw [h i hi]; congr 1; omega
  · rw [store_fill (by omega) (fun i hi => by
      rw [(sseIn2_at c c hi).1, ite_self, h _ (by omega)]; congr 1; omega)]

/-! ## Steps and loops -/

/-- The planes after the vector code has taken care of the first `cx` columns. -/
def unpacked (s : Sampling) (t : Yuy2) (yuy y u v : Buf) (cx : Nat) : Buf × Buf × Buf :=
  (fillTo (unY t yuy) cx y, fillTo (unU t (pairSamples s) yuy) (yuyStep s cx) u,
    fillTo (unV t (pairSamples s) yuy) (yuyStep s cx) v)

theorem unU_eq {t : Yuy2} {n : Nat} {yuy : Buf} : unU t n yuy = fun i => unU t 1 yuy (i / n) := by
  funext i; simp [unU]
theorem unV_eq {t : Yuy2} {n : Nat} {yuy : Buf} : unV t n yuy = fun i => unV t 1 yuy (i / n) := by
  funext i; simp [unV]

theorem inter_at {f : Nat → Nat} {m i : Nat} {a b : Nat → Nat} {k : Nat} (h1 : a (k + i / 2) = f (2 * (m + (k + i / 2))))
    (h2 : b (k + i / 2) = f (2 * (m + (k + i / 2)) + 1)) :
    (if i % 2 = 0 then a (k + i / 2) else b (k + i / 2)) = f (2 * m + (2 * k + i)) := by
  split
  · rw [h1]; congr 1; omega
  · rw [h2]; congr 1; omega

section
variable {s : Sampling} {t : Yuy2} {yuy y u v : Buf} {m : Nat}

theorem avx2Unpack_eq (lq : 4 * m + 128 ≤ yuy.length) (ly : 2 * m + 64 ≤ y.length)
    (lu : yuyStep s (2 * m + 64) ≤ u.length) (lv : yuyStep s (2 * m + 64) ≤ v.length) :
    avx2Unpack s t yuy (2 * m) (yuyStep s (2 * m)) (unpacked s t yuy y u v (2 * m))
      = .ok (unpacked s t yuy y u v (2 * m + 64)) := by
  have hq := avx2UnpackAt (t := t) (yuy := yuy) (m := m)
  unfold avx2Unpack
  rw [show 2 * m * 2 = 4 * m by omega, load_ld (by omega), load_ld (by omega), load_ld (by omega),
    load_ld (by omega)]
  simp only [Outcome.bind_ok]
  simp only [show 2 * 32 = 64 by rfl, show 3 * 32 = 96 by rfl] at hq
  generalize yuyPick t _ = q at hq ⊢
  simp only [unpacked]
  rw [unU_eq, unV_eq, avx2PutChroma_fill lu fun j hj => (hq j hj).2.2.1, Outcome.bind_ok,
    avx2PutChroma_fill lv fun j hj => (hq j hj).2.2.2, Outcome.bind_ok,
    store_fill (by omega) (fun i hi => by
      rw [(avx2In2_at _ _ hi).1]
      have := inter_at (f := unY t yuy) (m := m) (i := i) (k := 0) (a := q.1) (b := q.2.1)
        (hq _ (by omega)).1 (hq _ (by omega)).2.1
      simpa using this), Outcome.bind_ok,
    store_fill (by omega) (fun i hi => by
      rw [(avx2In2_at _ _ hi).2]
      rw [inter_at (f := unY t yuy) (m := m) (i := i) (k := 16) (a := q.1) (b := q.2.1)
        (hq _ (by omega)).1 (hq _ (by omega)).2.1]; congr 1; omega), Outcome.bind_ok]
  rfl

theorem sseUnpack_eq (lq : 4 * m + 64 ≤ yuy.length) (ly : 2 * m + 32 ≤ y.length)
    (lu : yuyStep s (2 * m + 32) ≤ u.length) (lv : yuyStep s (2 * m + 32) ≤ v.length) :
    sseUnpack s t yuy (2 * m) (yuyStep s (2 * m)) (unpacked s t yuy y u v (2 * m))
      = .ok (unpacked s t yuy y u v (2 * m + 32)) := by
  have hq := sseUnpackAt (t := t) (yuy := yuy) (m := m)
  unfold sseUnpack
  rw [show 2 * m * 2 = 4 * m by omega, load_ld (by omega), load_ld (by omega), load_ld (by omega),
    load_ld (by omega)]
  simp only [Outcome.bind_ok]
  simp only [show 2 * 16 = 32 by rfl, show 3 * 16 = 48 by rfl] at hq
  generalize yuyPick t _ = q at hq ⊢
  simp only [unpacked]
  rw [unU_eq, unV_eq, ssePutChroma_fill lu fun j hj => (hq j hj).2.2.1, Outcome.bind_ok,
    ssePutChroma_fill lv fun j hj => (hq j hj).2.2.2, Outcome.bind_ok,
    store_fill (by omega) (fun i hi => by
      rw [(sseIn2_at _ _ hi).1]
      have := inter_at (f := unY t yuy) (m := m) (i := i) (k := 0) (a := q.1) (b := q.2.1)
        (hq _ (by omega)).1 (hq _ (by omega)).2.1
      simpa using this), Outcome.bind_ok,
    store_fill (by omega) (fun i hi => by
      rw [(sseIn2_at _ _ hi).2]
      rw [inter_at (f := unY t yuy) (m := m) (i := i) (k := 8) (a := q.1) (b := q.2.1)
        (hq _ (by omega)).1 (hq _ (by omega)).2.1]; congr 1; omega), Outcome.bind_ok]
  rfl

theorem sseUnpackHalf_eq (lq : 4 * m + 32 ≤ yuy.length) (ly : 2 * m + 16 ≤ y.length)
    (lu : yuyStep s (2 * m + 16) ≤ u.length) (lv : yuyStep s (2 * m + 16) ≤ v.length) :
    sseUnpackHalf s t yuy (2 * m) (yuyStep s (2 * m)) (unpacked s t yuy y u v (2 * m))
      = .ok (unpacked s t yuy y u v (2 * m + 16)) := by
  have hq := sseUnpackHalfAt (t := t) (yuy := yuy) (m := m)
  unfold sseUnpackHalf
  rw [show 2 * m * 2 = 4 * m by omega, load_ld (by omega), load_ld (by omega)]
  simp only [Outcome.bind_ok]
  generalize yuyPick t _ = q at hq ⊢
  simp only [unpacked]
  rw [unU_eq, unV_eq, 
    store_fill (by omega) (fun i hi => by
      rw [(sseIn2_at _ _ hi).1]
      have := inter_at (f := unY t yuy) (m := m) (i := i) (k := 0) (a := q.1) (b := q.2.1)
        (hq _ (by omega)).1 (hq _ (by omega)).2.1
      simpa using this), Outcome.bind_ok,
    ssePutChromaHalf_fill lu fun j hj => (hq j hj).2.2.1, Outcome.bind_ok,
    ssePutChromaHalf_fill lv fun j hj => (hq j hj).2.2.2, Outcome.bind_ok]
  rfl

/-- A vector loop whose body takes care of `2 * n` columns at a time. -/
theorem unpackLoop {n w : Nat} (hn : 0 < n)
    {body : Nat → Nat → Buf × Buf × Buf → Outcome (Buf × Buf × Buf)} {cx0 : Nat} (h0 : cx0 % 2 = 0)
    (hbody : ∀ m, 2 * m + 2 * n < w →
      body (2 * m) (yuyStep s (2 * m)) (unpacked s t yuy y u v (2 * m))
        = .ok (unpacked s t yuy y u v (2 * m + 2 * n))) :
    vwhile (2 * n) (yuyStep s (2 * n)) w body cx0 (yuyStep s cx0) (unpacked s t yuy y u v cx0)
      = .ok (unpacked s t yuy y u v (loopEnd (2 * n) w cx0), loopEnd (2 * n) w cx0,
          yuyStep s (loopEnd (2 * n) w cx0)) := by
  obtain ⟨st, cx, ux, h1, ⟨h2, ⟨k, h3, h7⟩, h4, h8⟩, h6⟩ := vwhile_ok (width := w)
    (ustep := yuyStep s (2 * n)) (step := 2 * n) (by omega) (body := body)
    (P := fun cx ux st => st = unpacked s t yuy y u v cx ∧
      (∃ k, cx = cx0 + k * (2 * n) ∧ (k = 0 ∨ cx < w)) ∧ ux = yuyStep s cx ∧ cx % 2 = 0)
    (by
      rintro cx ux st ⟨rfl, ⟨k, g1, _⟩, rfl, g4⟩ hlt
      refine ⟨unpacked s t yuy y u v (cx + 2 * n), ?_, rfl,
        ⟨k + 1, by rw [Nat.add_mul]; omega, .inr hlt⟩,
        (yuyStep_add g4 (by omega)).symm, by omega⟩
      obtain ⟨m, rfl⟩ : ∃ m, cx = 2 * m := ⟨cx / 2, by omega⟩
      exact hbody m hlt)
    (cx := cx0) (ux := yuyStep s cx0) (s := unpacked s t yuy y u v cx0)
    ⟨rfl, ⟨0, by omega, .inl rfl⟩, rfl, h0⟩
  have := loopEnd_eq (by omega) h3 h7 h6
  subst this
  rw [h1, h2, h4]

theorem unpackStep_le {w cw a : Nat} (hcw : yuyStep s (2 * (w / 2)) ≤ cw) (h : a < w) (ha : a % 2 = 0) :
    yuyStep s a ≤ cw := by
  cases s <;> simp only [yuyStep] at hcw ⊢ <;> omega

theorem sseUnpackRow_eq {w : Nat} (ly : w ≤ y.length)
    (lu : yuyStep s (2 * (w / 2)) ≤ u.length) (lv : yuyStep s (2 * (w / 2)) ≤ v.length)
    (lq : ceil2 w * 4 ≤ yuy.length) {cx0 : Nat} (h0 : cx0 % 32 = 0) (hc : cx0 ≤ w - 1) :
    sseUnpackRow s t w yuy (unpacked s t yuy y u v cx0) cx0 (yuyStep s cx0)
      = .ok (unpacked s t yuy y u v ((w - 1) / 16 * 16), (w - 1) / 16 * 16,
          yuyStep s ((w - 1) / 16 * 16)) := by
  have lc : ceil2 w = (w + 1) / 2 := rfl
  have e1 : loopEnd 32 w cx0 = (w - 1) / 32 * 32 := by unfold loopEnd; omega
  have e2 : loopEnd 16 w ((w - 1) / 32 * 32) = (w - 1) / 16 * 16 := by unfold loopEnd; omega
  unfold sseUnpackRow
  have a := unpackLoop (s := s) (t := t) (yuy := yuy) (y := y) (u := u) (v := v) (n := 16) (w := w)
    (by omega) (cx0 := cx0) (by omega) (body := fun cx ux p => sseUnpack s t yuy cx ux p)
    (fun m hm => sseUnpack_eq (by omega) (by omega) (unpackStep_le lu (by omega) (by omega))
      (unpackStep_le lv (by omega) (by omega)))
  rw [show 2 * 16 = 32 by rfl, e1] at a
  rw [a, Outcome.bind_ok]
  have b := unpackLoop (s := s) (t := t) (yuy := yuy) (y := y) (u := u) (v := v) (n := 8) (w := w)
    (by omega) (cx0 := (w - 1) / 32 * 32) (by omega)
    (body := fun cx ux p => sseUnpackHalf s t yuy cx ux p)
    (fun m hm => sseUnpackHalf_eq (by omega) (by omega) (unpackStep_le lu (by omega) (by omega))
      (unpackStep_le lv (by omega) (by omega)))
  rw [show 2 * 8 = 16 by rfl, e2] at b
  exact b

/-- What the vector code of a processor does to a row. -/
theorem unpacker_row {cpu : Cpu} {w : Nat} (ly : w ≤ y.length)
    (lu : yuyStep s (2 * (w / 2)) ≤ u.length) (lv : yuyStep s (2 * (w / 2)) ≤ v.length)
    (lq : ceil2 w * 4 ≤ yuy.length) :
    unpacker cpu s t w y u v yuy
      = .ok (fillTo (unY t yuy) (yuyVecEnd cpu w) y,
        fillTo (unU t (pairSamples s) yuy) (yuyStep s (yuyVecEnd cpu w)) u,
        fillTo (unV t (pairSamples s) yuy) (yuyStep s (yuyVecEnd cpu w)) v, yuyVecEnd cpu w) := by
  have lc : ceil2 w = (w + 1) / 2 := rfl
  have y0 : yuyStep s 0 = 0 := by cases s <;> rfl
  have hz : unpacked s t yuy y u v 0 = (y, u, v) := by
    simp only [unpacked, y0, fillTo_zero]
  cases cpu with
  | plain => simp only [unpacker, yuyVecEnd, y0, fillTo_zero]
  | sse41 =>
    have b := sseUnpackRow_eq (s := s) (t := t) ly lu lv lq (cx0 := 0) (by omega) (by omega)
    rw [y0, hz] at b
    unfold unpacker
    simp only [b, Outcome.bind_ok, yuyVecEnd]
    rfl
  | avx2 =>
    have a := unpackLoop (s := s) (t := t) (yuy := yuy) (y := y) (u := u) (v := v) (n := 32) (w := w)
      (by omega) (cx0 := 0) (by omega) (body := fun cx ux p => avx2Unpack s t yuy cx ux p)
      (fun m hm => avx2Unpack_eq (by omega) (by omega) (unpackStep_le lu (by omega) (by omega))
        (unpackStep_le lv (by omega) (by omega)))
    rw [show 2 * 32 = 64 by rfl, show loopEnd 64 w 0 = (w - 1) / 64 * 64 by unfold loopEnd; omega, y0,
      hz] at a
    have b := sseUnpackRow_eq (s := s) (t := t) ly lu lv lq (cx0 := (w - 1) / 64 * 64) (by omega)
      (by omega)
    unfold unpacker avx2UnpackRow
    simp only [a, b, Outcome.bind_ok, yuyVecEnd]
    rfl
end

end Verif.X86
