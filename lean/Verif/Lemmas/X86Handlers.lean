import Verif.Lemmas.X86Rows
import Verif.Lemmas.Decode
/-! # The x86 row kernels meet the contract of a row handler -/
namespace Verif.X86
open Spec

variable {rg : ChromaRange} {t : InvCoef}

/-- Pixel `x` of a row when the luma above its offset is `f y`. -/
def rowPix (ch : Channels) (t : InvCoef) (f : Nat → Nat) (hd : Nat) (y u v : Buf) (x : Nat) : Buf :=
  vecPixelAt ch t (f (y.getD x 0)) (u.getD (x / hd) 0) (v.getD (x / hd) 0)

theorem rowPix_length (ch : Channels) (t : InvCoef) (f : Nat → Nat) (hd : Nat) (y u v : Buf)
    (x : Nat) : (rowPix ch t f hd y u v x).length = ch.count := vecPixelAt_length ..

theorem stepPix_row (ch : Channels) (t : InvCoef) (f : Nat → Nat) {hd : Nat} (hhd : 0 < hd) (n : Nat)
    (y u v : Buf) {cx ux : Nat} (h : ux * hd = cx) :
    stepPix ch t f hd n y u v cx ux
      = (List.range n).flatMap fun j => rowPix ch t f hd y u v (cx + j) := by
  subst h
  apply range_flatMap_congr
  intro j _
  have e : (ux * hd + j) / hd = ux + j / hd := by
    rw [Nat.add_comm, Nat.add_mul_div_right _ _ hhd, Nat.add_comm]
  simp only [rowPix, e]

theorem hdiv_pos (s : Sampling) : 0 < hdiv s := by cases s <;> decide

theorem chromaStep_hdiv (s : Sampling) {n : Nat} (h : n % 2 = 0) : chromaStep s n * hdiv s = n := by
  cases s <;> simp only [chromaStep, hdiv, ceil2] <;> omega

theorem count_le (ch : Channels) : ch.count ≤ 4 := by cases ch <;> decide

theorem count_pos (ch : Channels) : 0 < ch.count := by cases ch <;> decide

/-- Enough chroma for the next step. -/
theorem chroma_room {s : Sampling} {w cx ux n l : Nat} (h : ux * hdiv s = cx) (hn : n % 2 = 0)
    (hlt : cx + n ≤ w) (hl : (w - 1) / hdiv s + 1 ≤ l) (h0 : 0 < n) : ux + chromaStep s n ≤ l := by
  cases s <;> simp only [hdiv, chromaStep, ceil2] at * <;> omega

/-- Enough chroma for the last pixels. -/
theorem chroma_tail {s : Sampling} {w cx ux l : Nat} (h : ux * hdiv s = cx)
    (hlt : cx < w) (hl : (w - 1) / hdiv s + 1 ≤ l) : ux + chromaStep s (w - cx) ≤ l := by
  cases s <;> simp only [hdiv, chromaStep, ceil2] at * <;> omega

/-- The last pixels of a row through the stack buffers. -/
theorem avx2Tail_ok (s : Sampling) (ch : Channels) {w : Nat} {g : Nat → Nat}
    {f : Buf → Buf → Buf → Buf → Outcome Buf} {y u v row : Buf}
    (hy : ∀ x ∈ y, x < 256) (hu : ∀ x ∈ u, x < 256) (hv : ∀ x ∈ v, x < 256)
    (hf : ∀ y u v d : Buf, (∀ x ∈ y, x < 256) → (∀ x ∈ u, x < 256) → (∀ x ∈ v, x < 256) →
      y.length = 32 → u.length = 32 → v.length = 32 →
      f y u v d = put d 0 (stepPix ch t g (hdiv s) 32 y u v 0 0))
    (ly : w ≤ y.length) (lu : (w - 1) / hdiv s + 1 ≤ u.length)
    (lv : (w - 1) / hdiv s + 1 ≤ v.length) (hw : w * ch.count ≤ row.length) {cx ux : Nat}
    (h1 : ux * hdiv s = cx) (h2 : cx ≤ w) (h3 : w ≤ cx + 32) :
    ∃ ux', avx2Tail s ch w f y u v (painted ch.count (rowPix ch t g (hdiv s) y u v) cx row) cx ux
      = .ok (painted ch.count (rowPix ch t g (hdiv s) y u v) w row, w, ux') := by
  unfold avx2Tail
  by_cases hlt : cx < w
  · rw [if_pos hlt]
    have z256 : ∀ x ∈ List.replicate 32 0, x < 256 := by
      intro x hx; rw [(List.mem_replicate.1 hx).2]; decide
    have hd32 : chromaStep s (w - cx) ≤ 32 := by
      cases s <;> simp only [chromaStep, ceil2] <;> omega
    obtain ⟨yb, ey, ly', y1, y2⟩ := copyIn_ok (src := y) (dst := List.replicate 32 0) (p := cx)
      (n := w - cx) (by omega) (by simp; omega)
    obtain ⟨ub, eu, lu', u1, u2⟩ := copyIn_ok (src := u) (dst := List.replicate 32 0) (p := ux)
      (n := chromaStep s (w - cx)) (chroma_tail h1 hlt lu) (by simp; omega)
    obtain ⟨vb, ev, lv', v1, v2⟩ := copyIn_ok (src := v) (dst := List.replicate 32 0) (p := ux)
      (n := chromaStep s (w - cx)) (chroma_tail h1 hlt lv) (by simp; omega)
    have e1 := hf yb ub vb (List.replicate 128 0)
      (fun x hx => (y2 x hx).elim (hy x) (z256 x)) (fun x hx => (u2 x hx).elim (hu x) (z256 x))
      (fun x hx => (v2 x hx).elim (hv x) (z256 x)) (by simpa using ly') (by simpa using lu')
      (by simpa using lv')
    simp only [ey, eu, ev, e1, Outcome.bind_ok, if_neg (show ¬ 32 < w - cx by omega)]
    have e2 := copyOut_put (N := 32) (L := 128) (n := w - cx) (cn := ch.count)
      (by have := count_le ch; omega) (by omega)
      (f := fun j => vecPixelAt ch t (g (yb.getD (0 + j) 0)) (ub.getD (0 + j / hdiv s) 0)
        (vb.getD (0 + j / hdiv s) 0)) (fun j => vecPixelAt_length ..)
      (painted ch.count (rowPix ch t g (hdiv s) y u v) cx row) (cx * ch.count)
    refine ⟨ux + chromaStep s (w - cx), ?_⟩
    have e3 : ((List.range (w - cx)).flatMap fun j => vecPixelAt ch t (g (yb.getD (0 + j) 0))
        (ub.getD (0 + j / hdiv s) 0) (vb.getD (0 + j / hdiv s) 0))
        = (List.range (w - cx)).flatMap fun j => rowPix ch t g (hdiv s) y u v (cx + j) := by
      rw [← stepPix_row ch t g (hdiv_pos s) _ y u v h1]
      apply range_flatMap_congr
      intro j hj
      have hc : j / hdiv s < chromaStep s (w - cx) := by
        cases s <;> simp only [hdiv, chromaStep, ceil2] <;> omega
      rw [Nat.zero_add, Nat.zero_add, y1 j hj, u1 _ hc, v1 _ hc]
    rw [e3, painted_put (rowPix_length ch t g (hdiv s) y u v)
      (by rw [Nat.add_sub_cancel' h2]; exact hw), Nat.add_sub_cancel' h2] at e2
    have e4 : (put (List.replicate 128 0) 0 (stepPix ch t g (hdiv s) 32 yb ub vb 0 0) >>= fun db =>
        copyOut db ((w - cx) * ch.count) (painted ch.count (rowPix ch t g (hdiv s) y u v) cx row)
          (cx * ch.count))
        = .ok (painted ch.count (rowPix ch t g (hdiv s) y u v) w row) := e2
    simp only [Nat.add_sub_cancel' h2]
    rw [← bind_assoc', e4]
    rfl
  · rw [if_neg hlt]
    obtain rfl : cx = w := by omega
    exact ⟨ux, rfl⟩

/-- A whole row with the AVX2 kernel of the 4:4:4 layout (and of `avx2_yuv_to_rgba_row_impl` for the
others). -/
theorem avx2Row_ok (hb : rg.biasUv = 128) (hby : rg.biasY < 256) (ht : Coef16 t) (s : Sampling)
    (ch : Channels) {w : Nat} {y u v row : Buf}
    (hy : ∀ x ∈ y, x < 256) (hu : ∀ x ∈ u, x < 256) (hv : ∀ x ∈ v, x < 256)
    (ly : w ≤ y.length) (lu : (w - 1) / hdiv s + 1 ≤ u.length)
    (lv : (w - 1) / hdiv s + 1 ≤ v.length) (hw : w * ch.count ≤ row.length) :
    ∃ ux, avx2Row s ch rg t w y u v row 0 0
      = .ok (painted ch.count (rowPix ch t (· - rg.biasY) (hdiv s) y u v) w row, w, ux) := by
  obtain ⟨cx, ux, e, _, h2, h3, h4⟩ := paintLoop (step := 32) (ustep := chromaStep s 32) (width := w)
    (cn := ch.count) (hd := hdiv s) (by decide) (chromaStep_hdiv s rfl)
    (rowPix_length ch t (· - rg.biasY) (hdiv s) y u v) (row := row) hw
    (body := fun cx ux row => avx2Body s ch rg t y u v cx ux (cx * ch.count) row)
    (cx0 := 0) (ux0 := 0) (Nat.zero_mul _)
    (by
      intro cx ux r _ hux hlt
      rw [← stepPix_row ch t _ (hdiv_pos s) _ y u v hux]
      exact avx2Body_eq hb hby ht s ch hy hu hv (by omega)
        (chroma_room hux rfl (by omega) lu (by decide)) (chroma_room hux rfl (by omega) lv (by decide))
        _ _)
    (Nat.zero_le _)
  rw [painted_zero] at e
  simp only [avx2Row, e, Outcome.bind_ok]
  exact avx2Tail_ok s ch hy hu hv
    (fun y u v d hy hu hv ly lu lv => avx2Body_eq hb hby ht s ch hy hu hv (by omega)
      (by cases s <;> simp only [chromaStep, ceil2] <;> omega)
      (by cases s <;> simp only [chromaStep, ceil2] <;> omega) _ _)
    ly lu lv hw h2 h3 h4

/-- A whole row with the AVX2 kernel for half-width chroma. -/
theorem avx2Row422_ok (hb : rg.biasUv = 128) (hby : rg.biasY < 256) (ht : Coef16 t)
    (ch : Channels) {w : Nat} {y u v row : Buf}
    (hy : ∀ x ∈ y, x < 256) (hu : ∀ x ∈ u, x < 256) (hv : ∀ x ∈ v, x < 256)
    (ly : w ≤ y.length) (lu : (w - 1) / 2 + 1 ≤ u.length)
    (lv : (w - 1) / 2 + 1 ≤ v.length) (hw : w * ch.count ≤ row.length) :
    ∃ ux, avx2Row422 ch rg t w y u v row 0 0
      = .ok (painted ch.count (rowPix ch t (· - rg.biasY) 2 y u v) w row, w, ux) := by
  obtain ⟨cx, ux, e, _, h2, h3, h4⟩ := paintLoop (step := 32) (ustep := 16) (width := w)
    (cn := ch.count) (hd := 2) (by decide) rfl
    (rowPix_length ch t (· - rg.biasY) 2 y u v) (row := row) hw
    (body := fun cx ux row => avx2Body422 ch rg t y u v cx ux (cx * ch.count) row)
    (cx0 := 0) (ux0 := 0) (Nat.zero_mul _)
    (by
      intro cx ux r _ hux hlt
      rw [← stepPix_row ch t _ (by decide) _ y u v hux]
      exact avx2Body422_eq hb hby ht ch hy hu hv (by omega) (by omega) (by omega) _ _)
    (Nat.zero_le _)
  rw [painted_zero] at e
  simp only [avx2Row422, e, Outcome.bind_ok]
  exact avx2Tail_ok .yuv422 ch hy hu hv
    (fun y u v d hy hu hv ly lu lv => avx2Body422_eq hb hby ht ch hy hu hv (by omega) (by omega)
      (by omega) _ _)
    ly lu lv hw h2 h3 h4

/-- The last pixels of a pair of rows. -/
theorem avx2Tail420_ok (ch : Channels) {w : Nat} {g : Nat → Nat}
    {f : Buf → Buf → Buf → Buf → Buf × Buf → Outcome (Buf × Buf)} {y0 y1 u v row0 row1 : Buf}
    (hy0 : ∀ x ∈ y0, x < 256) (hy1 : ∀ x ∈ y1, x < 256) (hu : ∀ x ∈ u, x < 256)
    (hv : ∀ x ∈ v, x < 256)
    (hf : ∀ y0 y1 u v d0 d1 : Buf, (∀ x ∈ y0, x < 256) → (∀ x ∈ y1, x < 256) →
      (∀ x ∈ u, x < 256) → (∀ x ∈ v, x < 256) → y0.length = 32 → y1.length = 32 →
      u.length = 32 → v.length = 32 →
      f y0 y1 u v (d0, d1) = (do
        let a ← put d0 0 (stepPix ch t g 2 32 y0 u v 0 0)
        let b ← put d1 0 (stepPix ch t g 2 32 y1 u v 0 0)
        return (a, b)))
    (ly0 : w ≤ y0.length) (ly1 : w ≤ y1.length) (lu : (w - 1) / 2 + 1 ≤ u.length)
    (lv : (w - 1) / 2 + 1 ≤ v.length) (hw0 : w * ch.count ≤ row0.length)
    (hw1 : w * ch.count ≤ row1.length) {cx ux : Nat}
    (h1 : ux * 2 = cx) (h2 : cx ≤ w) (h3 : w ≤ cx + 32) :
    ∃ ux', avx2Tail420 ch w f y0 y1 u v (painted ch.count (rowPix ch t g 2 y0 u v) cx row0,
        painted ch.count (rowPix ch t g 2 y1 u v) cx row1) cx ux
      = .ok ((painted ch.count (rowPix ch t g 2 y0 u v) w row0,
        painted ch.count (rowPix ch t g 2 y1 u v) w row1), w, ux') := by
  unfold avx2Tail420
  by_cases hlt : cx < w
  · rw [if_pos hlt]
    have z256 : ∀ x ∈ List.replicate 32 0, x < 256 := by
      intro x hx; rw [(List.mem_replicate.1 hx).2]; decide
    obtain ⟨yb0, ey0, ly0', a1, a2⟩ := copyIn_ok (src := y0) (dst := List.replicate 32 0) (p := cx)
      (n := w - cx) (by omega) (by simp; omega)
    obtain ⟨yb1, ey1, ly1', b1, b2⟩ := copyIn_ok (src := y1) (dst := List.replicate 32 0) (p := cx)
      (n := w - cx) (by omega) (by simp; omega)
    obtain ⟨ub, eu, lu', u1, u2⟩ := copyIn_ok (src := u) (dst := List.replicate 32 0) (p := ux)
      (n := ceil2 (w - cx)) (by unfold ceil2; omega) (by simp [ceil2]; omega)
    obtain ⟨vb, ev, lv', v1, v2⟩ := copyIn_ok (src := v) (dst := List.replicate 32 0) (p := ux)
      (n := ceil2 (w - cx)) (by unfold ceil2; omega) (by simp [ceil2]; omega)
    have e1 := hf yb0 yb1 ub vb (List.replicate 128 0) (List.replicate 128 0)
      (fun x hx => (a2 x hx).elim (hy0 x) (z256 x)) (fun x hx => (b2 x hx).elim (hy1 x) (z256 x))
      (fun x hx => (u2 x hx).elim (hu x) (z256 x))
      (fun x hx => (v2 x hx).elim (hv x) (z256 x)) (by simpa using ly0') (by simpa using ly1')
      (by simpa using lu') (by simpa using lv')
    simp only [ey0, ey1, eu, ev, e1, Outcome.bind_ok, if_neg (show ¬ 32 < w - cx by omega)]
    have key : ∀ (yb y row : Buf), (∀ i, i < w - cx → yb.getD i 0 = y.getD (cx + i) 0) →
        w * ch.count ≤ row.length →
        ∃ db, put (List.replicate 128 0) 0 (stepPix ch t g 2 32 yb ub vb 0 0) = .ok db ∧
          copyOut db ((w - cx) * ch.count) (painted ch.count (rowPix ch t g 2 y u v) cx row)
            (cx * ch.count) = .ok (painted ch.count (rowPix ch t g 2 y u v) w row) := by
      intro yb y row y1 hw
      have e2 := copyOut_put (N := 32) (L := 128) (n := w - cx) (cn := ch.count)
        (by have := count_le ch; omega) (by omega)
        (f := fun j => vecPixelAt ch t (g (yb.getD (0 + j) 0)) (ub.getD (0 + j / 2) 0)
          (vb.getD (0 + j / 2) 0)) (fun j => vecPixelAt_length ..)
        (painted ch.count (rowPix ch t g 2 y u v) cx row) (cx * ch.count)
      have e3 : ((List.range (w - cx)).flatMap fun j => vecPixelAt ch t (g (yb.getD (0 + j) 0))
          (ub.getD (0 + j / 2) 0) (vb.getD (0 + j / 2) 0))
          = (List.range (w - cx)).flatMap fun j => rowPix ch t g 2 y u v (cx + j) := by
        rw [← stepPix_row ch t g (by decide) _ y u v h1]
        apply range_flatMap_congr
        intro j hj
        have hc : j / 2 < ceil2 (w - cx) := by simp only [ceil2]; omega
        rw [Nat.zero_add, Nat.zero_add, y1 j hj, u1 _ hc, v1 _ hc]
      rw [e3, painted_put (rowPix_length ch t g 2 y u v)
        (by rw [Nat.add_sub_cancel' h2]; exact hw), Nat.add_sub_cancel' h2] at e2
      have e4 : (put (List.replicate 128 0) 0 (stepPix ch t g 2 32 yb ub vb 0 0) >>= fun db =>
          copyOut db ((w - cx) * ch.count) (painted ch.count (rowPix ch t g 2 y u v) cx row)
            (cx * ch.count))
          = .ok (painted ch.count (rowPix ch t g 2 y u v) w row) := e2
      cases hp : put (List.replicate 128 0) 0 (stepPix ch t g 2 32 yb ub vb 0 0) with
      | ok db => rw [hp, Outcome.bind_ok] at e4; exact ⟨db, rfl, e4⟩
      | err x => rw [hp] at e4; cases e4
      | panic => rw [hp] at e4; cases e4
    obtain ⟨d0, p0, q0⟩ := key yb0 y0 row0 a1 hw0
    obtain ⟨d1, p1, q1⟩ := key yb1 y1 row1 b1 hw1
    refine ⟨ux + ceil2 (w - cx), ?_⟩
    simp only [Nat.add_sub_cancel' h2, p0, p1, Outcome.bind_ok, Outcome.pure_eq, q0, q1]
  · rw [if_neg hlt]
    obtain rfl : cx = w := by omega
    exact ⟨ux, rfl⟩

/-- A pair of rows with the AVX2 kernel for 4:2:0. -/
theorem avx2Row420_ok (hb : rg.biasUv = 128) (hby : rg.biasY < 256) (ht : Coef16 t)
    (ch : Channels) {w : Nat} {y0 y1 u v row0 row1 : Buf}
    (hy0 : ∀ x ∈ y0, x < 256) (hy1 : ∀ x ∈ y1, x < 256) (hu : ∀ x ∈ u, x < 256)
    (hv : ∀ x ∈ v, x < 256) (ly0 : w ≤ y0.length) (ly1 : w ≤ y1.length)
    (lu : (w - 1) / 2 + 1 ≤ u.length) (lv : (w - 1) / 2 + 1 ≤ v.length)
    (hw0 : w * ch.count ≤ row0.length) (hw1 : w * ch.count ≤ row1.length) :
    ∃ ux, avx2Row420 ch rg t w y0 y1 u v row0 row1 0 0
      = .ok ((painted ch.count (rowPix ch t (· - rg.biasY) 2 y0 u v) w row0,
        painted ch.count (rowPix ch t (· - rg.biasY) 2 y1 u v) w row1), w, ux) := by
  obtain ⟨cx, ux, e, _, h2, h3, h4⟩ := paintLoop2 (step := 32) (ustep := 16) (width := w)
    (cn := ch.count) (hd := 2) (by decide) rfl
    (rowPix_length ch t (· - rg.biasY) 2 y0 u v) (rowPix_length ch t (· - rg.biasY) 2 y1 u v)
    (row0 := row0) (row1 := row1) hw0 hw1
    (body := fun cx ux rows => avx2Body420 ch rg t y0 y1 u v cx ux (cx * ch.count) rows)
    (cx0 := 0) (ux0 := 0) (Nat.zero_mul _)
    (by
      intro cx ux r0 r1 _ hux hlt
      rw [← stepPix_row ch t _ (by decide) _ y0 u v hux, ← stepPix_row ch t _ (by decide) _ y1 u v hux]
      exact avx2Body420_eq hb hby ht ch hy0 hy1 hu hv (by omega) (by omega) (by omega) (by omega) _ _ _)
    (Nat.zero_le _)
  rw [painted_zero, painted_zero] at e
  simp only [avx2Row420, e, Outcome.bind_ok]
  exact avx2Tail420_ok ch hy0 hy1 hu hv
    (fun y0 y1 u v d0 d1 hy0 hy1 hu hv ly0 ly1 lu lv => avx2Body420_eq hb hby ht ch hy0 hy1 hu hv
      (by omega) (by omega) (by omega) (by omega) _ _ _)
    ly0 ly1 lu lv hw0 hw1 h2 h3 h4

/-! ## SSE4.1 -/

/-- Pixels of a row done in two passes: `f` before column `c`, `g` from there on. -/
def mixPix (ch : Channels) (t : InvCoef) (f g : Nat → Nat) (hd c : Nat) (y u v : Buf) (x : Nat) :
    Buf := if x < c then rowPix ch t f hd y u v x else rowPix ch t g hd y u v x

theorem mixPix_length (ch : Channels) (t : InvCoef) (f g : Nat → Nat) (hd c : Nat) (y u v : Buf)
    (x : Nat) : (mixPix ch t f g hd c y u v x).length = ch.count := by
  unfold mixPix; split <;> exact rowPix_length ..

theorem mixPix_hi {ch : Channels} {t : InvCoef} {f g : Nat → Nat} {hd c : Nat} {y u v : Buf}
    {x : Nat} (h : c ≤ x) : mixPix ch t f g hd c y u v x = rowPix ch t g hd y u v x := by
  unfold mixPix; rw [if_neg (by omega)]

theorem mixPix_lo {ch : Channels} {t : InvCoef} {f g : Nat → Nat} {hd c : Nat} {y u v : Buf}
    {x : Nat} (h : x < c) : mixPix ch t f g hd c y u v x = rowPix ch t f hd y u v x := by
  unfold mixPix; rw [if_pos h]

/-- Where the loops of 16 and of 8 pixels stop. -/
theorem sse_ends {w c cx : Nat} (h1 : c = loopEnd 16 w 0) (h2 : cx = loopEnd 8 w c) :
    16 * ((w - 1) / 16) = c ∧ 8 * ((w - 1) / 8) = cx := by
  unfold loopEnd at *; omega

/-- A row with the SSE kernel of `sse_yuv_to_rgba_row_impl`. -/
theorem sseRow_ok (hb : rg.biasUv = 128) (hby : rg.biasY < 256) (ht : Coef16 t) (s : Sampling)
    (ch : Channels) {w : Nat} {y u v row : Buf}
    (hy : ∀ x ∈ y, x < 256) (hu : ∀ x ∈ u, x < 256) (hv : ∀ x ∈ v, x < 256)
    (ly : w ≤ y.length) (lu : (w - 1) / hdiv s + 1 ≤ u.length)
    (lv : (w - 1) / hdiv s + 1 ≤ v.length) (hw : w * ch.count ≤ row.length) :
    ∃ ux, sseRow s ch rg t w y u v row 0 0
      = .ok (painted ch.count
          (mixPix ch t (· - rg.biasY) (signedLuma rg.biasY) (hdiv s) (16 * ((w - 1) / 16)) y u v)
          (8 * ((w - 1) / 8)) row, 8 * ((w - 1) / 8), ux) := by
  obtain ⟨c, ux, e, hc, h2, h3, h4⟩ := paintLoop (step := 16) (ustep := chromaStep s 16) (width := w)
    (cn := ch.count) (hd := hdiv s) (by decide) (chromaStep_hdiv s rfl)
    (rowPix_length ch t (· - rg.biasY) (hdiv s) y u v) (row := row) hw
    (body := sseBody16 s ch rg t y u v) (cx0 := 0) (ux0 := 0) (Nat.zero_mul _)
    (by
      intro cx ux r _ hux hlt
      rw [← stepPix_row ch t _ (hdiv_pos s) _ y u v hux]
      exact sseBody16_eq hb hby ht s ch hy hu hv (by omega)
        (chroma_room hux rfl (by omega) lu (by decide)) (chroma_room hux rfl (by omega) lv (by decide))
        _)
    (Nat.zero_le _)
  rw [painted_zero] at e
  obtain ⟨cx, ux', e', g1, g2, g3, _⟩ := paintLoop (step := 8) (ustep := chromaStep s 8) (width := w)
    (cn := ch.count) (hd := hdiv s) (by decide) (chromaStep_hdiv s rfl)
    (mixPix_length ch t (· - rg.biasY) (signedLuma rg.biasY) (hdiv s) c y u v) (row := row) hw
    (body := sseBody8 s ch rg t y u v) (cx0 := c) (ux0 := ux) h2
    (by
      intro cx ux r hge hux hlt
      rw [range_flatMap_congr (fun j _ => mixPix_hi (by omega)),
        ← stepPix_row ch t _ (hdiv_pos s) _ y u v hux]
      exact sseBody8_eq hb hby ht s ch hy hu hv (by omega)
        (chroma_room hux rfl (by omega) lu (by decide)) (chroma_room hux rfl (by omega) lv (by decide))
        _)
    h3
  obtain ⟨rfl, rfl⟩ := sse_ends hc g1
  refine ⟨ux', ?_⟩
  simp only [sseRow, e, Outcome.bind_ok]
  rw [← e']
  congr 1
  exact painted_congr fun x hx => (mixPix_lo hx).symm

/-- A row with the SSE kernel for half-width chroma. -/
theorem sseRow422_ok (hb : rg.biasUv = 128) (hby : rg.biasY < 256) (ht : Coef16 t)
    (ch : Channels) {w : Nat} {y u v row : Buf}
    (hy : ∀ x ∈ y, x < 256) (hu : ∀ x ∈ u, x < 256) (hv : ∀ x ∈ v, x < 256)
    (ly : w ≤ y.length) (lu : (w - 1) / 2 + 1 ≤ u.length)
    (lv : (w - 1) / 2 + 1 ≤ v.length) (hw : w * ch.count ≤ row.length) :
    ∃ ux, sseRow422 ch rg t w y u v row 0 0
      = .ok (painted ch.count
          (mixPix ch t (· - rg.biasY) (signedLuma rg.biasY) 2 (16 * ((w - 1) / 16)) y u v)
          (8 * ((w - 1) / 8)) row, 8 * ((w - 1) / 8), ux) := by
  obtain ⟨c, ux, e, hc, h2, h3, h4⟩ := paintLoop (step := 16) (ustep := 8) (width := w)
    (cn := ch.count) (hd := 2) (by decide) rfl
    (rowPix_length ch t (· - rg.biasY) 2 y u v) (row := row) hw
    (body := sseBody422 ch rg t y u v) (cx0 := 0) (ux0 := 0) (Nat.zero_mul _)
    (by
      intro cx ux r _ hux hlt
      rw [← stepPix_row ch t _ (by decide) _ y u v hux]
      exact sseBody422_eq hb hby ht ch hy hu hv (by omega) (by omega) (by omega) _)
    (Nat.zero_le _)
  rw [painted_zero] at e
  obtain ⟨cx, ux', e', g1, g2, g3, _⟩ := paintLoop (step := 8) (ustep := 4) (width := w)
    (cn := ch.count) (hd := 2) (by decide) rfl
    (mixPix_length ch t (· - rg.biasY) (signedLuma rg.biasY) 2 c y u v) (row := row) hw
    (body := sseBody422Half ch rg t y u v) (cx0 := c) (ux0 := ux) h2
    (by
      intro cx ux r hge hux hlt
      rw [range_flatMap_congr (fun j _ => mixPix_hi (by omega)),
        ← stepPix_row ch t _ (by decide) _ y u v hux]
      exact sseBody422Half_eq hb hby ht ch hy hu hv (by omega) (by omega) (by omega) _)
    h3
  obtain ⟨rfl, rfl⟩ := sse_ends hc g1
  refine ⟨ux', ?_⟩
  simp only [sseRow422, e, Outcome.bind_ok]
  rw [← e']
  congr 1
  exact painted_congr fun x hx => (mixPix_lo hx).symm

/-- A pair of rows with the SSE kernel for 4:2:0. -/
theorem sseRow420_ok (hb : rg.biasUv = 128) (hby : rg.biasY < 256) (ht : Coef16 t)
    (ch : Channels) {w : Nat} {y0 y1 u v row0 row1 : Buf}
    (hy0 : ∀ x ∈ y0, x < 256) (hy1 : ∀ x ∈ y1, x < 256) (hu : ∀ x ∈ u, x < 256)
    (hv : ∀ x ∈ v, x < 256) (ly0 : w ≤ y0.length) (ly1 : w ≤ y1.length)
    (lu : (w - 1) / 2 + 1 ≤ u.length) (lv : (w - 1) / 2 + 1 ≤ v.length)
    (hw0 : w * ch.count ≤ row0.length) (hw1 : w * ch.count ≤ row1.length) :
    ∃ ux, sseRow420 ch rg t w y0 y1 u v row0 row1 0 0
      = .ok ((painted ch.count (rowPix ch t (· - rg.biasY) 2 y0 u v) (8 * ((w - 1) / 8)) row0,
        painted ch.count (rowPix ch t (· - rg.biasY) 2 y1 u v) (8 * ((w - 1) / 8)) row1),
        8 * ((w - 1) / 8), ux) := by
  obtain ⟨c, ux, e, hc, h2, h3, h4⟩ := paintLoop2 (step := 16) (ustep := 8) (width := w)
    (cn := ch.count) (hd := 2) (by decide) rfl
    (rowPix_length ch t (· - rg.biasY) 2 y0 u v) (rowPix_length ch t (· - rg.biasY) 2 y1 u v)
    (row0 := row0) (row1 := row1) hw0 hw1
    (body := sseBody420 ch rg t y0 y1 u v) (cx0 := 0) (ux0 := 0) (Nat.zero_mul _)
    (by
      intro cx ux r0 r1 _ hux hlt
      rw [← stepPix_row ch t _ (by decide) _ y0 u v hux, ← stepPix_row ch t _ (by decide) _ y1 u v hux]
      exact sseBody420_eq hb hby ht ch hy0 hy1 hu hv (by omega) (by omega) (by omega) (by omega) _ _)
    (Nat.zero_le _)
  rw [painted_zero, painted_zero] at e
  obtain ⟨cx, ux', e', g1, g2, g3, _⟩ := paintLoop2 (step := 8) (ustep := 4) (width := w)
    (cn := ch.count) (hd := 2) (by decide) rfl
    (rowPix_length ch t (· - rg.biasY) 2 y0 u v) (rowPix_length ch t (· - rg.biasY) 2 y1 u v)
    (row0 := row0) (row1 := row1) hw0 hw1
    (body := sseBody420Half ch rg t y0 y1 u v) (cx0 := c) (ux0 := ux) h2
    (by
      intro cx ux r0 r1 _ hux hlt
      rw [← stepPix_row ch t _ (by decide) _ y0 u v hux, ← stepPix_row ch t _ (by decide) _ y1 u v hux]
      exact sseBody420Half_eq hb hby ht ch hy0 hy1 hu hv (by omega) (by omega) (by omega) (by omega)
        _ _)
    h3
  obtain ⟨rfl, rfl⟩ := sse_ends hc g1
  refine ⟨ux', ?_⟩
  simp only [sseRow420, e, Outcome.bind_ok]
  exact e'

/-! ## The contracts -/

/-- Pixel `x` of a row of `w` pixels on each class of processor; `pair` when it is one of a pair of
4:2:0 rows, `px` is the scalar decoding. -/
def cpuRow (cpu : Cpu) (pair : Bool) (ch : Channels) (rg : ChromaRange) (t : InvCoef)
    (px : Nat → Nat → Nat → Buf) (w x y u v : Nat) : Buf :=
  match cpu with
  | .plain => px y u v
  | .avx2 => vecPixelAt ch t (y - rg.biasY) u v
  | .sse41 =>
    if x < 16 * ((w - 1) / 16) then vecPixelAt ch t (y - rg.biasY) u v
    else if x < 8 * ((w - 1) / 8) then
      vecPixelAt ch t (if pair then y - rg.biasY else signedLuma rg.biasY y) u v
    else px y u v

theorem rowHandler_fills (cpu : Cpu) (s : Sampling) (ch : Channels) {w : Nat}
    (hb : rg.biasUv = 128) (hby : rg.biasY < 256) (ht : Coef16 t) (px : Nat → Nat → Nat → Buf) :
    (rowHandler cpu s ch rg t w).Fills true 256 ch.count w (hdiv s) px
      (fun x y u v p => p = cpuRow cpu false ch rg t px w x y u v) := by
  intro y u v row hy hu hv ly lu lv hw
  have fin : RowDone ch.count w (hdiv s)
        (fun x p => p = cpuRow .avx2 false ch rg t px w x (y.getD x 0) (u.getD (x / hdiv s) 0)
            (v.getD (x / hdiv s) 0))
        row (painted ch.count (rowPix ch t (· - rg.biasY) (hdiv s) y u v) w row) w :=
    painted_done (count_pos ch) (fun _ => rowPix_length ..) hw (le_refl _) (.inr rfl) fun x _ => rfl
  have fin2 : RowDone ch.count w (hdiv s)
        (fun x p => p = cpuRow .sse41 false ch rg t px w x (y.getD x 0) (u.getD (x / hdiv s) 0)
            (v.getD (x / hdiv s) 0))
        row (painted ch.count (mixPix ch t (· - rg.biasY) (signedLuma rg.biasY) (hdiv s)
          (16 * ((w - 1) / 16)) y u v) (8 * ((w - 1) / 8)) row) (8 * ((w - 1) / 8)) := by
    refine painted_done (count_pos ch) (fun _ => mixPix_length ..) hw (by omega)
      (.inl (by cases s <;> simp only [hdiv] <;> omega)) fun x hx => ?_
    simp only [cpuRow, mixPix]
    split
    · rfl
    · rfl
  have fin3 : ∀ x, ScalarCol true (8 * ((w - 1) / 8)) w x → x < w →
      px (y.getD x 0) (u.getD (x / hdiv s) 0) (v.getD (x / hdiv s) 0)
        = cpuRow .sse41 false ch rg t px w x (y.getD x 0) (u.getD (x / hdiv s) 0)
            (v.getD (x / hdiv s) 0) := by
    intro x hx _
    have := hx.le
    simp only [cpuRow]
    rw [if_neg (by omega), if_neg (by omega)]
  cases cpu with
  | avx2 =>
    cases s with
    | yuv444 =>
      obtain ⟨ux, e⟩ := avx2Row_ok hb hby ht .yuv444 ch hy hu hv ly lu lv hw
      exact ⟨_, w, by simp only [rowHandler, done, e, Outcome.bind_ok]; rfl, fin,
        fun x h1 h2 => absurd h1.le (by omega)⟩
    | yuv420 =>
      obtain ⟨ux, e⟩ := avx2Row422_ok hb hby ht ch hy hu hv ly lu lv hw
      exact ⟨_, w, by simp only [rowHandler, done, e, Outcome.bind_ok]; rfl, fin,
        fun x h1 h2 => absurd h1.le (by omega)⟩
    | yuv422 =>
      obtain ⟨ux, e⟩ := avx2Row422_ok hb hby ht ch hy hu hv ly lu lv hw
      exact ⟨_, w, by simp only [rowHandler, done, e, Outcome.bind_ok]; rfl, fin,
        fun x h1 h2 => absurd h1.le (by omega)⟩
  | sse41 =>
    cases s with
    | yuv444 =>
      obtain ⟨ux, e⟩ := sseRow_ok hb hby ht .yuv444 ch hy hu hv ly lu lv hw
      exact ⟨_, _, by simp only [rowHandler, done, e, Outcome.bind_ok]; rfl, fin2, fin3⟩
    | yuv420 =>
      obtain ⟨ux, e⟩ := sseRow422_ok hb hby ht ch hy hu hv ly lu lv hw
      exact ⟨_, _, by simp only [rowHandler, done, e, Outcome.bind_ok]; rfl, fin2, fin3⟩
    | yuv422 =>
      obtain ⟨ux, e⟩ := sseRow422_ok hb hby ht ch hy hu hv ly lu lv hw
      exact ⟨_, _, by simp only [rowHandler, done, e, Outcome.bind_ok]; rfl, fin2, fin3⟩
  | plain =>
    refine ⟨row, 0, rfl, ?_, fun x _ _ => rfl⟩
    exact ⟨Nat.zero_le _, .inl (Nat.zero_mod _), rfl, fun x _ hx => absurd hx (Nat.not_lt_zero _),
      fun _ _ => rfl⟩

theorem rowHandler420_fills (cpu : Cpu) (ch : Channels) {w : Nat}
    (hb : rg.biasUv = 128) (hby : rg.biasY < 256) (ht : Coef16 t) (px : Nat → Nat → Nat → Buf) :
    (rowHandler420 cpu .yuv420 ch rg t w).Fills 256 ch.count w px
      (fun x y u v p => p = cpuRow cpu true ch rg t px w x y u v) := by
  intro y0 y1 u v row0 row1 hy0 hy1 hu hv ly0 ly1 lu lv hw0 hw1
  have fin : ∀ (y row : Buf), w * ch.count ≤ row.length →
      RowDone ch.count w 2
        (fun x p => p = cpuRow .avx2 true ch rg t px w x (y.getD x 0) (u.getD (x / 2) 0)
            (v.getD (x / 2) 0))
        row (painted ch.count (rowPix ch t (· - rg.biasY) 2 y u v) w row) w := by
    intro y row hw
    exact painted_done (count_pos ch) (fun _ => rowPix_length ..) hw (le_refl _) (.inr rfl)
      fun x _ => rfl
  have fin2 : ∀ (y row : Buf), w * ch.count ≤ row.length →
      RowDone ch.count w 2
        (fun x p => p = cpuRow .sse41 true ch rg t px w x (y.getD x 0) (u.getD (x / 2) 0)
            (v.getD (x / 2) 0))
        row (painted ch.count (rowPix ch t (· - rg.biasY) 2 y u v) (8 * ((w - 1) / 8)) row)
        (8 * ((w - 1) / 8)) := by
    intro y row hw
    refine painted_done (count_pos ch) (fun _ => rowPix_length ..) hw (by omega) (.inl (by omega))
      fun x hx => ?_
    simp only [cpuRow, if_pos hx, if_true, ite_self]
    rfl
  cases cpu with
  | avx2 =>
    obtain ⟨ux, e⟩ := avx2Row420_ok hb hby ht ch hy0 hy1 hu hv ly0 ly1 lu lv hw0 hw1
    exact ⟨_, _, w, by simp only [rowHandler420, e, Outcome.bind_ok]; rfl,
      fin y0 row0 hw0, fin y1 row1 hw1, fun y _ x h1 h2 => absurd h1 (by omega)⟩
  | sse41 =>
    obtain ⟨ux, e⟩ := sseRow420_ok hb hby ht ch hy0 hy1 hu hv ly0 ly1 lu lv hw0 hw1
    refine ⟨_, _, _, by simp only [rowHandler420, e, Outcome.bind_ok]; rfl,
      fin2 y0 row0 hw0, fin2 y1 row1 hw1, fun y _ x h1 h2 => ?_⟩
    simp only [cpuRow]
    rw [if_neg (by omega), if_neg (by omega)]
  | plain =>
    exact ⟨row0, row1, 0, rfl,
      ⟨Nat.zero_le _, .inl (Nat.zero_mod _), rfl, fun x _ hx => absurd hx (Nat.not_lt_zero _),
        fun _ _ => rfl⟩,
      ⟨Nat.zero_le _, .inl (Nat.zero_mod _), rfl, fun x _ hx => absurd hx (Nat.not_lt_zero _),
        fun _ _ => rfl⟩, fun y _ x _ _ => rfl⟩

end Verif.X86
