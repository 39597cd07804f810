import Verif.Lemmas.X86YuyRgb
/-! # Rows of the packed 4:2:2 decoders -/
namespace Verif.X86
open Spec

/-- The pixel the vector code writes in column `x`. -/
def yuyRowPix (ty : Yuy2) (ch : Channels) (by' : Nat) (t : InvCoef) (yuy : Buf) (x : Nat) : Buf :=
  yuyVecPix ch t (yuy.getD (lumaAt ty x) 0 - by') (yuy.getD (cbAt ty x) 0) (yuy.getD (crAt ty x) 0)

theorem yuyRowPix_length (ty : Yuy2) (ch : Channels) (b : Nat) (t : InvCoef) (yuy : Buf) (x : Nat) :
    (yuyRowPix ty ch b t yuy x).length = ch.count := layout_length' ..

theorem unU_cb {t : Yuy2} {yuy : Buf} {x : Nat} : unU t 1 yuy (x / 2) = yuy.getD (cbAt t x) 0 := by
  simp only [unU, cbAt_eq, Nat.div_one]; congr 3; omega
theorem unV_cr {t : Yuy2} {yuy : Buf} {x : Nat} : unV t 1 yuy (x / 2) = yuy.getD (crAt t x) 0 := by
  simp only [unV, crAt_eq, Nat.div_one]; congr 3; omega

theorem set1_small {b : Nat} (h : b < 256) (i : Nat) : set1_8 b i = b := by
  unfold set1_8 asU8; omega

theorem getD_byte {l : Buf} (hb : ∀ s ∈ l, s < 256) (i : Nat) : l.getD i 0 < 256 := by
  by_cases h : i < l.length
  · exact bnd_getD hb h
  · rw [List.getD_eq_getElem?_getD, List.getElem?_eq_none (by omega)]; decide

section
variable {ty : Yuy2} {ch : Channels} {rg : ChromaRange} (hb : rg.biasUv = 128) (hby : rg.biasY < 256)
  {t : InvCoef} (ht : Coef6 t) {yuy : Buf} (hB : ∀ s ∈ yuy, s < 256)
include hb hby ht hB

theorem avx2YuyRgb_eq {m : Nat} (lq : 4 * m + 128 ≤ yuy.length) (row : Buf) :
    avx2YuyRgb ty ch rg t yuy (2 * m) row
      = put row (2 * m * ch.count) ((List.range 64).flatMap fun j =>
          yuyRowPix ty ch rg.biasY t yuy (2 * m + j)) := by
  have hq := avx2UnpackAt (t := ty) (yuy := yuy) (m := m)
  unfold avx2YuyRgb
  rw [show 2 * m * 2 = 4 * m by omega, load_ld (by omega), load_ld (by omega), load_ld (by omega),
    load_ld (by omega)]
  simp only [Outcome.bind_ok]
  simp only [show 2 * 32 = 64 by rfl, show 3 * 32 = 96 by rfl] at hq
  generalize yuyPick ty _ = q at hq ⊢
  have G := getD_byte hB
  rw [show (64 : Nat) = 32 + 32 by rfl, range_add_flatMap, ← put_put _ _
    (2 * m * ch.count + 32 * ch.count) _ _ (by rw [flatMap_length fun j _ => yuyRowPix_length ..])]
  refine bindEq ?_ (fun a => ?_)
  · refine avx2YuyBlock_eq hb ht ch (Y := fun i => yuy.getD (lumaAt ty (2 * m + i)) 0 - rg.biasY)
      (U := fun i => yuy.getD (cbAt ty (2 * m + i)) 0) (V := fun i => yuy.getD (crAt ty (2 * m + i)) 0)
      ?_ ?_ ?_ _ _
    · intro i hi
      have := G (lumaAt ty (2 * m + i))
      refine ⟨?_, by omega⟩
      rw [subsU8, set1_small hby, (avx2In2_at _ _ hi).1]
      have := inter_at (f := unY ty yuy) (m := m) (i := i) (k := 0) (a := q.1) (b := q.2.1)
        (hq _ (by omega)).1 (hq _ (by omega)).2.1
      simp only [Nat.zero_add, Nat.mul_zero] at this
      rw [this]; rfl
    · intro i hi
      refine ⟨?_, G _⟩
      rw [(avx2In2_at _ _ hi).1, ite_self, (hq _ (by omega)).2.2.1, ← unU_cb]
      congr 1; omega
    · intro i hi
      refine ⟨?_, G _⟩
      rw [(avx2In2_at _ _ hi).1, ite_self, (hq _ (by omega)).2.2.2, ← unV_cr]
      congr 1; omega
  · refine avx2YuyBlock_eq hb ht ch
      (Y := fun i => yuy.getD (lumaAt ty (2 * m + (32 + i))) 0 - rg.biasY)
      (U := fun i => yuy.getD (cbAt ty (2 * m + (32 + i))) 0)
      (V := fun i => yuy.getD (crAt ty (2 * m + (32 + i))) 0)
      ?_ ?_ ?_ _ _
    · intro i hi
      have := G (lumaAt ty (2 * m + (32 + i)))
      refine ⟨?_, by omega⟩
      rw [subsU8, set1_small hby, (avx2In2_at _ _ hi).2,
        inter_at (f := unY ty yuy) (m := m) (i := i) (k := 16) (a := q.1) (b := q.2.1)
        (hq _ (by omega)).1 (hq _ (by omega)).2.1]; rfl
    · intro i hi
      refine ⟨?_, G _⟩
      rw [(avx2In2_at _ _ hi).2, ite_self, (hq _ (by omega)).2.2.1, ← unU_cb]
      congr 1; omega
    · intro i hi
      refine ⟨?_, G _⟩
      rw [(avx2In2_at _ _ hi).2, ite_self, (hq _ (by omega)).2.2.2, ← unV_cr]
      congr 1; omega

theorem sseYuyRgb_eq {m : Nat} (lq : 4 * m + 64 ≤ yuy.length) (row : Buf) :
    sseYuyRgb ty ch rg t yuy (2 * m) row
      = put row (2 * m * ch.count) ((List.range 32).flatMap fun j =>
          yuyRowPix ty ch rg.biasY t yuy (2 * m + j)) := by
  have hq := sseUnpackAt (t := ty) (yuy := yuy) (m := m)
  unfold sseYuyRgb
  rw [show 2 * m * 2 = 4 * m by omega, load_ld (by omega), load_ld (by omega), load_ld (by omega),
    load_ld (by omega)]
  simp only [Outcome.bind_ok]
  simp only [show 2 * 16 = 32 by rfl, show 3 * 16 = 48 by rfl] at hq
  generalize yuyPick ty _ = q at hq ⊢
  have G := getD_byte hB
  rw [show (32 : Nat) = 16 + 16 by rfl, range_add_flatMap, ← put_put _ _
    (2 * m * ch.count + 16 * ch.count) _ _ (by rw [flatMap_length fun j _ => yuyRowPix_length ..])]
  refine bindEq ?_ (fun a => ?_)
  · refine sseYuyBlock_eq hb ht ch (Y := fun i => yuy.getD (lumaAt ty (2 * m + i)) 0 - rg.biasY)
      (U := fun i => yuy.getD (cbAt ty (2 * m + i)) 0) (V := fun i => yuy.getD (crAt ty (2 * m + i)) 0)
      ?_ ?_ ?_ _ _
    · intro i hi
      have := G (lumaAt ty (2 * m + i))
      refine ⟨?_, by omega⟩
      rw [subsU8, set1_small hby, (sseIn2_at _ _ hi).1]
      have := inter_at (f := unY ty yuy) (m := m) (i := i) (k := 0) (a := q.1) (b := q.2.1)
        (hq _ (by omega)).1 (hq _ (by omega)).2.1
      simp only [Nat.zero_add, Nat.mul_zero] at this
      rw [this]; rfl
    · intro i hi
      refine ⟨?_, G _⟩
      rw [(sseIn2_at _ _ hi).1, ite_self, (hq _ (by omega)).2.2.1, ← unU_cb]
      congr 1; omega
    · intro i hi
      refine ⟨?_, G _⟩
      rw [(sseIn2_at _ _ hi).1, ite_self, (hq _ (by omega)).2.2.2, ← unV_cr]
      congr 1; omega
  · refine sseYuyBlock_eq hb ht ch
      (Y := fun i => yuy.getD (lumaAt ty (2 * m + (16 + i))) 0 - rg.biasY)
      (U := fun i => yuy.getD (cbAt ty (2 * m + (16 + i))) 0)
      (V := fun i => yuy.getD (crAt ty (2 * m + (16 + i))) 0)
      ?_ ?_ ?_ _ _
    · intro i hi
      have := G (lumaAt ty (2 * m + (16 + i)))
      refine ⟨?_, by omega⟩
      rw [subsU8, set1_small hby, (sseIn2_at _ _ hi).2,
        inter_at (f := unY ty yuy) (m := m) (i := i) (k := 8) (a := q.1) (b := q.2.1)
        (hq _ (by omega)).1 (hq _ (by omega)).2.1]; rfl
    · intro i hi
      refine ⟨?_, G _⟩
      rw [(sseIn2_at _ _ hi).2, ite_self, (hq _ (by omega)).2.2.1, ← unU_cb]
      congr 1; omega
    · intro i hi
      refine ⟨?_, G _⟩
      rw [(sseIn2_at _ _ hi).2, ite_self, (hq _ (by omega)).2.2.2, ← unV_cr]
      congr 1; omega

omit hb hby ht hB in
/-- Bytes widened to words, each word twice. -/
theorem dupLo_at {a : Reg} {F : Nat → Nat} (h : ∀ i, i < 8 → a i = F i ∧ F i < 256) {k : Nat} (hk : k < 8) :
    s16 (unpacklo 2 (unpacklo 1 a zero) (unpacklo 1 a zero)) k = (F (k / 2) : Int) := by
  have e : (k / 8 * 8 + k % 8 / 2) / 8 * 16 + (k / 8 * 8 + k % 8 / 2) % 8 = k / 2 := by omega
  obtain ⟨h1, h2⟩ := h (k / 2) (by omega)
  rw [s16_dupLo, s16_zeroLo (by rw [e, h1]; exact h2), e, h1]
omit hb hby ht hB in
theorem dupHi_at {a : Reg} {F : Nat → Nat} (h : ∀ i, i < 8 → a i = F i ∧ F i < 256) {k : Nat} (hk : k < 8) :
    s16 (unpackhi 2 (unpacklo 1 a zero) (unpacklo 1 a zero)) k = (F ((8 + k) / 2) : Int) := by
  have e : (k / 8 * 8 + 4 + k % 8 / 2) / 8 * 16 + (k / 8 * 8 + 4 + k % 8 / 2) % 8 = (8 + k) / 2 := by
    omega
  obtain ⟨h1, h2⟩ := h ((8 + k) / 2) (by omega)
  rw [s16_dupHi, s16_zeroLo (by rw [e, h1]; exact h2), e, h1]

theorem sseYuyRgbHalf_eq {m : Nat} (lq : 4 * m + 32 ≤ yuy.length) (row : Buf) :
    sseYuyRgbHalf ty ch rg t yuy (2 * m) row
      = put row (2 * m * ch.count) ((List.range 16).flatMap fun j =>
          yuyRowPix ty ch rg.biasY t yuy (2 * m + j)) := by
  have hq := sseUnpackHalfAt (t := ty) (yuy := yuy) (m := m)
  unfold sseYuyRgbHalf
  rw [show 2 * m * 2 = 4 * m by omega, load_ld (by omega), load_ld (by omega)]
  simp only [Outcome.bind_ok]
  generalize yuyPick ty _ = q at hq ⊢
  have G := getD_byte hB
  have hy : ∀ i, i < 16 →
      unpacklo 1 (subsU8 q.1 (set1_8 rg.biasY)) (subsU8 q.2.1 (set1_8 rg.biasY)) i
        = yuy.getD (lumaAt ty (2 * m + i)) 0 - rg.biasY ∧
      yuy.getD (lumaAt ty (2 * m + i)) 0 - rg.biasY < 256 := by
    intro i hi
    have := G (lumaAt ty (2 * m + i))
    refine ⟨?_, by omega⟩
    rw [(sseIn2_at _ _ hi).1]
    simp only [subsU8, set1_small hby]
    rw [← apply_ite (fun n => n - rg.biasY)]
    have := inter_at (f := unY ty yuy) (m := m) (i := i) (k := 0) (a := q.1) (b := q.2.1)
      (hq _ (by omega)).1 (hq _ (by omega)).2.1
    simp only [Nat.zero_add, Nat.mul_zero] at this
    rw [this]; rfl
  have hu : ∀ i, i < 8 → q.2.2.1 i = unU ty 1 yuy (m + i) ∧ unU ty 1 yuy (m + i) < 256 :=
    fun i hi => ⟨(hq i hi).2.2.1, G _⟩
  have hv : ∀ i, i < 8 → q.2.2.2 i = unV ty 1 yuy (m + i) ∧ unV ty 1 yuy (m + i) < 256 :=
    fun i hi => ⟨(hq i hi).2.2.2, G _⟩
  have cu : ∀ i, unU ty 1 yuy (m + i / 2) = yuy.getD (cbAt ty (2 * m + i)) 0 := fun i => by
    rw [← unU_cb]; congr 1; omega
  have cv : ∀ i, unV ty 1 yuy (m + i / 2) = yuy.getD (crAt ty (2 * m + i)) 0 := fun i => by
    rw [← unV_cr]; congr 1; omega
  refine sseYuyStore_eq hb ht ch (Y := fun i => yuy.getD (lumaAt ty (2 * m + i)) 0 - rg.biasY)
      (U := fun i => yuy.getD (cbAt ty (2 * m + i)) 0) (V := fun i => yuy.getD (crAt ty (2 * m + i)) 0)
      (fun i hi => (hy i hi).2) (fun _ _ => G _) (fun _ _ => G _)
      (fun _ h => zeroLo hy h) (fun _ h => zeroHi hy h) ?_ ?_ ?_ ?_ _ _
  · intro k hk; rw [dupLo_at hu hk, cu]
  · intro k hk; rw [dupHi_at hu hk, cu]
  · intro k hk; rw [dupLo_at hv hk, cv]
  · intro k hk; rw [dupHi_at hv hk, cv]

theorem sseYuyRgbRow_eq {w : Nat} (lq : ceil2 w * 4 ≤ yuy.length) {row : Buf}
    (lr : w * ch.count ≤ row.length) {cx0 : Nat} (h0 : cx0 % 32 = 0) (hc : cx0 ≤ w - 1) :
    ∃ ux, sseYuyRgbRow ty ch rg t w yuy (painted ch.count (yuyRowPix ty ch rg.biasY t yuy) cx0 row) cx0
      = .ok (painted ch.count (yuyRowPix ty ch rg.biasY t yuy) ((w - 1) / 16 * 16) row,
          (w - 1) / 16 * 16, ux) := by
  have lc : ceil2 w = (w + 1) / 2 := rfl
  have e1 : loopEnd 32 w cx0 = (w - 1) / 32 * 32 := by unfold loopEnd; omega
  have e2 : loopEnd 16 w ((w - 1) / 32 * 32) = (w - 1) / 16 * 16 := by unfold loopEnd; omega
  unfold sseYuyRgbRow
  obtain ⟨cx, ux, a1, a2, _, a4, _⟩ := paintLoopI (I := fun cx _ => cx % 2 = 0) (step := 32) (ustep := 0)
    (width := w) (cn := ch.count) (by omega) (fun cx ux g => by omega)
    (yuyRowPix_length ty ch rg.biasY t yuy) (body := fun cx _ row => sseYuyRgb ty ch rg t yuy cx row)
    lr (cx0 := cx0) (ux0 := 0) (by omega)
    (fun cx ux r _ g h => by
      obtain ⟨m, rfl⟩ : ∃ m, cx = 2 * m := ⟨cx / 2, by omega⟩
      exact sseYuyRgb_eq hb hby ht hB (by omega) r) (by omega)
  rw [a1, Outcome.bind_ok, a2, e1]
  obtain ⟨cx, ux, b1, b2, _, b4, _⟩ := paintLoopI (I := fun cx _ => cx % 2 = 0) (step := 16) (ustep := 0)
    (width := w) (cn := ch.count) (by omega) (fun cx ux g => by omega)
    (yuyRowPix_length ty ch rg.biasY t yuy) (body := fun cx _ row => sseYuyRgbHalf ty ch rg t yuy cx row)
    lr (cx0 := (w - 1) / 32 * 32) (ux0 := 0) (by omega)
    (fun cx ux r _ g h => by
      obtain ⟨m, rfl⟩ : ∃ m, cx = 2 * m := ⟨cx / 2, by omega⟩
      exact sseYuyRgbHalf_eq hb hby ht hB (by omega) r) (by omega)
  exact ⟨ux, by simp only []; rw [b1, b2, e2]⟩

/-- What the vector code of a processor does to a row. -/
theorem yuyRgbHandler_row {cpu : Cpu} {w : Nat} (lq : ceil2 w * 4 ≤ yuy.length) {row : Buf}
    (lr : w * ch.count ≤ row.length) :
    yuyRgbHandler cpu ty ch rg t w yuy row
      = .ok (painted ch.count (yuyRowPix ty ch rg.biasY t yuy) (yuyVecEnd cpu w) row,
          yuyVecEnd cpu w) := by
  have lc : ceil2 w = (w + 1) / 2 := rfl
  cases cpu with
  | plain => simp only [yuyRgbHandler, yuyVecEnd, painted_zero]
  | sse41 =>
    obtain ⟨ux, b⟩ := sseYuyRgbRow_eq hb hby ht hB (ty := ty) (ch := ch) lq lr (cx0 := 0) (by omega)
      (by omega)
    rw [painted_zero] at b
    unfold yuyRgbHandler
    simp only [b, Outcome.bind_ok, yuyVecEnd]
    rfl
  | avx2 =>
    obtain ⟨cx, ux, a1, a2, _, a4, _⟩ := paintLoopI (I := fun cx _ => cx % 2 = 0) (step := 64)
      (ustep := 0) (width := w) (cn := ch.count) (by omega) (fun cx ux g => by omega)
      (yuyRowPix_length ty ch rg.biasY t yuy) (body := fun cx _ row => avx2YuyRgb ty ch rg t yuy cx row)
      lr (cx0 := 0) (ux0 := 0) (by omega)
      (fun cx ux r _ g h => by
        obtain ⟨m, rfl⟩ : ∃ m, cx = 2 * m := ⟨cx / 2, by omega⟩
        exact avx2YuyRgb_eq hb hby ht hB (by omega) r) (by omega)
    rw [painted_zero, a2, show loopEnd 64 w 0 = (w - 1) / 64 * 64 by unfold loopEnd; omega] at a1
    obtain ⟨ux', b⟩ := sseYuyRgbRow_eq hb hby ht hB (ty := ty) (ch := ch) lq lr
      (cx0 := (w - 1) / 64 * 64) (by omega) (by omega)
    unfold yuyRgbHandler avx2YuyRgbRow
    simp only [a1, b, Outcome.bind_ok, yuyVecEnd]
    rfl
end

/-! ## Frames -/

/-- The vector pixel is the scalar one for the luma raised to its offset. -/
theorem yuyVecPix_eq (ch : Channels) (rg : YuvRange) (t : InvCoef) (Y U V : Nat) :
    yuyVecPix ch t (Y - (getYuvRange 8 rg).biasY) U V
      = fixedPixel (2 ^ 5 - 1) 6 8 t ch rg (max Y (getYuvRange 8 rg).biasY) U V := by
  have hb : (getYuvRange 8 rg).biasUv = 128 := by cases rg <;> rfl
  have e : ((Y - (getYuvRange 8 rg).biasY : Nat) : Int)
      = ((max Y (getYuvRange 8 rg).biasY : Nat) : Int) - ((getYuvRange 8 rg).biasY : Nat) := by omega
  have r : yuyR t ((Y - (getYuvRange 8 rg).biasY : Nat) : Int) V
      = linR t (getYuvRange 8 rg).biasY (getYuvRange 8 rg).biasUv (max Y (getYuvRange 8 rg).biasY) V := by
    unfold yuyR linR; rw [e, hb]; push_cast; ring
  have g : yuyG t ((Y - (getYuvRange 8 rg).biasY : Nat) : Int) U V
      = linG t (getYuvRange 8 rg).biasY (getYuvRange 8 rg).biasUv (max Y (getYuvRange 8 rg).biasY) U
        V := by
    unfold yuyG linG; rw [e, hb]; push_cast; ring
  have b : yuyB t ((Y - (getYuvRange 8 rg).biasY : Nat) : Int) U
      = linB t (getYuvRange 8 rg).biasY (getYuvRange 8 rg).biasUv (max Y (getYuvRange 8 rg).biasY) U := by
    unfold yuyB linB; rw [e, hb]; push_cast; ring
  unfold yuyVecPix
  rw [r, g, b]
  rfl

/-- A row whose vector code paints an even number of columns, not all of them. -/
theorem yuyRgbRow_painted {B cn w : Nat} {t : Yuy2} {put : Nat → Nat → Nat → Buf → Outcome Buf}
    {px : Nat → Nat → Nat → Buf} (hcn : 0 < cn) (hw : 0 < w) (hput : PutOk B cn put px)
    {hd : YuyRgbHandler} {yuy row : Buf} {vp : Nat → Buf} {E : Nat} (hvl : ∀ x, (vp x).length = cn)
    (hE : E ≤ w) (hev : E % 2 = 0) (hhd : hd yuy row = .ok (painted cn vp E row, E))
    (ly : yuy.length = ceil2 w * 4) (hb : ∀ s ∈ yuy, s < B) (lr : row.length = w * cn) :
    RowOk cn w (fun x p => p = if x < E then vp x else
      px (yuy.getD (lumaAt t x) 0) (yuy.getD (cbAt t x) 0) (yuy.getD (crAt t x) 0)) row
      (yuyRgbRow w cn t put hd yuy row) := by
  have lc : ceil2 w = (w + 1) / 2 := rfl
  have hdone : RowDone cn w 2 (fun x p => p = vp x) row (painted cn vp E row) E :=
    painted_done hcn hvl (by omega) hE (.inl hev) (fun _ _ => rfl)
  obtain ⟨vq, v1, v2, v3, v4, v5⟩ := rowDone_paint hcn (by omega) hdone
  unfold yuyRgbRow
  rw [hhd, Outcome.bind_ok]
  simp only
  have hlr : (painted cn vp E row).length = w * cn := by
    rw [v5, paintRow_length v1 (by rw [lr]; exact Nat.mul_le_mul_right _ v3), lr]
  have hk : (painted cn vp E row).length / (2 * cn) = w / 2 := by
    rw [hlr, Nat.mul_comm 2 cn, ← Nat.div_div_eq_div_mul, Nat.mul_div_cancel _ hcn]
  have hk2 : min ((painted cn vp E row).length / (2 * cn)) (yuy.length / 4) = w / 2 := by
    rw [hk, ly]; omega
  rw [hk2, v5, lastQuad hw ly]
  refine rowPairsRem_rel_even hcn (px := fun x => px (yuy.getD (lumaAt t x) 0)
      (yuy.getD (cbAt t x) 0) (yuy.getD (crAt t x) 0)) lr v1
    (fun x hx => by rw [if_pos hx]; exact v2 x hx) v3 hev (by simp) rfl
    (fun x => hput.len ..) (fun x hx _ => by rw [if_neg (by omega)]) ?_ ?_ ?_
  · intro j c hj hc
    rw [yuyPixel_ok hput (y0Pos_lt t) hb (by omega) hc, lumaAt_even, cbAt_eq, crAt_eq,
      show 2 * j / 2 = j by omega]
  · intro j c hj hc
    rw [yuyPixel_ok hput (y1Pos_lt t) hb (by omega) hc, lumaAt_odd, cbAt_eq, crAt_eq,
      show (2 * j + 1) / 2 = j by omega]
  · intro c hodd hc
    have hl := lumaAt_even t ((w - 1) / 2)
    rw [show 2 * ((w - 1) / 2) = w - 1 by omega] at hl
    simp only [Outcome.bind_ok]
    rw [yuyPixel_ok hput (y0Pos_lt t) hb (by omega) hc, hl, cbAt_eq, crAt_eq]

/-- All rows. -/
theorem yuyRgbFrame_x86 (cpu : Cpu) (t : Yuy2) (ch : Channels) (rg : YuvRange) (m : Matrix) {i : Packed}
    (hi : GoodPacked i 256) {put : Nat → Nat → Nat → Buf → Outcome Buf}
    (hput : PutOk 256 ch.count put (fixedPixel (2 ^ 5 - 1) 6 8 (computedInverse 6 8 rg m) ch rg))
    {rgb : Buf} {stride : Nat} (hw : i.width * ch.count ≤ stride)
    (hd' : FullRows rgb.length stride i.height) :
    FrameOk stride i.height ch.count i.width (fun x y p => p = x86YuyPixel cpu t ch i rg m x y) rgb
      (yuyRgbFrame ch.count t put
        (yuyRgbHandler cpu t ch (getYuvRange 8 rg) (computedInverse 6 8 rg m) i.width) i rgb stride) := by
  have hcn := count_pos ch
  have hst : 0 < stride := Nat.lt_of_lt_of_le (Nat.mul_pos hi.wpos hcn) hw
  have hsp := hi.spos
  have hs := hi.stride'
  have hbu : (getYuvRange 8 rg).biasUv = 128 := by cases rg <;> rfl
  have hby : (getYuvRange 8 rg).biasY < 256 := by cases rg <;> decide
  have hE := yuyVecEnd_le cpu i.width
  have hev := yuyVecEnd_even cpu i.width
  unfold yuyRgbFrame
  rw [if_neg (by omega), fullRows_div hd', fullRows_div hi.full, Nat.min_self]
  refine eachChunk_rows hst hw (by omega) (by rw [Nat.mul_comm]; exact hd'.1) ?_
  intro r row _ hr hrow
  have cy := chunk_length (fullRows_row hi.full hr)
  have ht : (chunk i.yuyStride i.yuy r).take (yuy2Width i.width) = chunk i.yuyStride i.yuy r :=
    List.take_of_length_le (by rw [yuy2Width_eq]; omega)
  rw [slice_take (by rw [yuy2Width_eq]; omega), ht]
  simp only [Outcome.bind_ok]
  apply rowOk_prefix (by omega)
  have lrow : (row.take (i.width * ch.count)).length = i.width * ch.count := by
    rw [List.length_take]; omega
  have hbnd : ∀ s ∈ chunk i.yuyStride i.yuy r, s < 256 := bnd_chunk hi.bound
  refine RowOk.mono (yuyRgbRow_painted hcn hi.wpos hput (yuyRowPix_length t ch _ _ _)
    (show yuyVecEnd cpu i.width ≤ i.width by omega) (by omega)
    (yuyRgbHandler_row hbu hby (coef6 rg m) hbnd (by omega) (by omega)) (by omega) hbnd lrow) ?_
  intro x p hx hp
  have a := lumaAt_lt (t := t) hx
  have b := cbAt_lt (t := t) hx
  have c := crAt_lt (t := t) hx
  rw [hp]
  unfold yuyRowPix x86YuyPixel x86Luma
  rw [packed_row hi (by omega), packed_row hi (by omega), packed_row hi (by omega), yuyVecPix_eq]
  split <;> rfl

end Verif.X86
