import Verif.Lemmas.X86NvRows
/-! # The x86 semi-planar row kernels meet the contract of a row handler -/
namespace Verif.X86
open Spec

variable {rg : ChromaRange} {t : InvCoef}

/-- Pixel `x` of a row when the luma above its offset is `f y`. -/
def nvPix (ch : Channels) (t : InvCoef) (f : Nat → Nat) (hd : Nat) (o : NVOrder) (y uv : Buf)
    (x : Nat) : Buf :=
  vecPixelAt ch t (f (y.getD x 0)) (uv.getD (2 * (x / hd) + o.uPos) 0)
    (uv.getD (2 * (x / hd) + o.vPos) 0)

theorem nvPix_length (ch : Channels) (t : InvCoef) (f : Nat → Nat) (hd : Nat) (o : NVOrder)
    (y uv : Buf) (x : Nat) : (nvPix ch t f hd o y uv x).length = ch.count := vecPixelAt_length ..

/-- Positions of a loop: whole pairs done. -/
def AtPair (hd cx ux : Nat) : Prop := ∃ k, ux = 2 * k ∧ cx = k * hd

theorem stepNv_row (ch : Channels) (t : InvCoef) (f : Nat → Nat) {hd : Nat} (hhd : 0 < hd) (n : Nat)
    (o : NVOrder) (y uv : Buf) {cx ux : Nat} (h : AtPair hd cx ux) :
    stepNv ch t f hd n o y uv cx ux
      = (List.range n).flatMap fun j => nvPix ch t f hd o y uv (cx + j) := by
  obtain ⟨k, rfl, rfl⟩ := h
  apply range_flatMap_congr
  intro j _
  have e : (k * hd + j) / hd = k + j / hd := by
    rw [Nat.add_comm, Nat.add_mul_div_right _ _ hhd, Nat.add_comm]
  have e1 : ∀ b, 2 * k + (2 * (j / hd) + b) = 2 * (k + j / hd) + b := by intro b; omega
  simp only [nvPix, e, e1]

theorem AtPair.zero (hd : Nat) : AtPair hd 0 0 := ⟨0, rfl, (Nat.zero_mul _).symm⟩

theorem AtPair.step {s : Sampling} {n cx ux : Nat} (hn : n % 2 = 0) (h : AtPair (hdiv s) cx ux) :
    AtPair (hdiv s) (cx + n) (ux + nvStep s n) := by
  obtain ⟨k, rfl, rfl⟩ := h
  refine ⟨k + chromaStep s n, by unfold nvStep; omega, ?_⟩
  rw [Nat.add_mul, chromaStep_hdiv s hn]

/-- Enough chroma for the next step. -/
theorem nv_room {s : Sampling} {w cx ux n l : Nat} (h : AtPair (hdiv s) cx ux) (hn : n % 2 = 0)
    (hlt : cx + n ≤ w) (hl : 2 * ((w - 1) / hdiv s + 1) ≤ l) (h0 : 0 < n) :
    ux + nvStep s n ≤ l := by
  obtain ⟨k, rfl, rfl⟩ := h
  have := chroma_room (s := s) (w := w) (ux := k) (l := l / 2) rfl hn hlt (by omega) h0
  unfold nvStep; omega

theorem nv_tail_room {s : Sampling} {w cx ux l : Nat} (h : AtPair (hdiv s) cx ux)
    (hlt : cx < w) (hl : 2 * ((w - 1) / hdiv s + 1) ≤ l) : ux + nvStep s (w - cx) ≤ l := by
  obtain ⟨k, rfl, rfl⟩ := h
  have := chroma_tail (s := s) (w := w) (ux := k) (l := l / 2) rfl hlt (by omega)
  unfold nvStep; omega

theorem z256 (N : Nat) : ∀ x ∈ List.replicate N 0, x < 256 := by
  intro x hx; rw [(List.mem_replicate.1 hx).2]; decide

/-- The pixels of the stack buffers are those of the row. -/
theorem tail_pixels {s : Sampling} (ch : Channels) {w cx ux : Nat} {g : Nat → Nat} {o : NVOrder}
    {y uv yb uvb : Buf} (h1 : AtPair (hdiv s) cx ux)
    (y1 : ∀ i, i < w - cx → yb.getD i 0 = y.getD (cx + i) 0)
    (u1 : ∀ i, i < nvStep s (w - cx) → uvb.getD i 0 = uv.getD (ux + i) 0) :
    stepNv ch t g (hdiv s) (w - cx) o yb uvb 0 0
      = (List.range (w - cx)).flatMap fun j => nvPix ch t g (hdiv s) o y uv (cx + j) := by
  rw [← stepNv_row ch t g (hdiv_pos s) _ o y uv h1]
  apply range_flatMap_congr
  intro j hj
  have hup := uPos_lt o
  have hvp := vPos_lt o
  have hc : 2 * (j / hdiv s) + 1 < nvStep s (w - cx) := by
    cases s <;> simp only [hdiv, chromaStep, ceil2, nvStep] <;> omega
  rw [Nat.zero_add, Nat.zero_add, Nat.zero_add, y1 j hj, u1 _ (by omega), u1 _ (by omega)]

/-- The last pixels of a row through the stack buffers. -/
theorem nvTailRow_ok {N : Nat} (hN : N % 2 = 0) (s : Sampling) (o : NVOrder) (ch : Channels) {w : Nat}
    {g : Nat → Nat} {f : Buf → Buf → Buf → Outcome Buf} {y uv row : Buf}
    (hy : ∀ x ∈ y, x < 256) (hu : ∀ x ∈ uv, x < 256)
    (hf : ∀ y uv d : Buf, (∀ x ∈ y, x < 256) → (∀ x ∈ uv, x < 256) →
      y.length = N → uv.length = N * 2 →
      f y uv d = put d 0 (stepNv ch t g (hdiv s) N o y uv 0 0))
    (ly : w ≤ y.length) (lu : 2 * ((w - 1) / hdiv s + 1) ≤ uv.length)
    (hw : w * ch.count ≤ row.length) {cx ux : Nat} {pix : Nat → Buf}
    (hp : ∀ j, (pix j).length = ch.count)
    (hpix : ∀ x, cx ≤ x → pix x = nvPix ch t g (hdiv s) o y uv x)
    (h1 : AtPair (hdiv s) cx ux) (h2 : cx ≤ w) (h3 : w ≤ cx + N) :
    ∃ ux', nvTailRow N s ch w f y uv (painted ch.count pix cx row) cx ux
      = .ok (painted ch.count pix w row, w, ux') := by
  unfold nvTailRow
  by_cases hlt : cx < w
  · rw [if_pos hlt]
    have hd : nvStep s (w - cx) ≤ N * 2 := by
      cases s <;> simp only [nvStep, chromaStep, ceil2] <;> omega
    obtain ⟨yb, ey, ly', y1, y2⟩ := copyIn_ok (src := y) (dst := List.replicate N 0) (p := cx)
      (n := w - cx) (by omega) (by simp; omega)
    obtain ⟨ub, eu, lu', u1, u2⟩ := copyIn_ok (src := uv) (dst := List.replicate (N * 2) 0) (p := ux)
      (n := nvStep s (w - cx)) (nv_tail_room h1 hlt lu) (by simp; omega)
    have e1 := hf yb ub (List.replicate (N * 4) 0)
      (fun x hx => (y2 x hx).elim (hy x) (z256 N x))
      (fun x hx => (u2 x hx).elim (hu x) (z256 _ x)) (by simpa using ly') (by simpa using lu')
    simp only [ey, eu, e1, Outcome.bind_ok, if_neg (show ¬ N < w - cx by omega)]
    have e2 := copyOut_put (N := N) (L := N * 4) (n := w - cx) (cn := ch.count)
      (Nat.mul_le_mul_left _ (count_le ch)) (by omega)
      (f := fun j => vecPixelAt ch t (g (yb.getD (0 + j) 0))
        (ub.getD (0 + (2 * (j / hdiv s) + o.uPos)) 0) (ub.getD (0 + (2 * (j / hdiv s) + o.vPos)) 0))
      (fun j => vecPixelAt_length ..) (painted ch.count pix cx row) (cx * ch.count)
    have e3 := tail_pixels (t := t) ch (g := g) (o := o) h1 y1 u1
    rw [show ((List.range (w - cx)).flatMap fun j => vecPixelAt ch t (g (yb.getD (0 + j) 0))
        (ub.getD (0 + (2 * (j / hdiv s) + o.uPos)) 0) (ub.getD (0 + (2 * (j / hdiv s) + o.vPos)) 0))
        = _ from e3,
      range_flatMap_congr (fun j _ => (hpix (cx + j) (by omega)).symm),
      painted_put hp (by rw [Nat.add_sub_cancel' h2]; exact hw), Nat.add_sub_cancel' h2] at e2
    have e4 : (put (List.replicate (N * 4) 0) 0 (stepNv ch t g (hdiv s) N o yb ub 0 0) >>= fun db =>
        copyOut db ((w - cx) * ch.count) (painted ch.count pix cx row) (cx * ch.count))
        = .ok (painted ch.count pix w row) := e2
    refine ⟨ux + nvStep s (w - cx), ?_⟩
    simp only [Nat.add_sub_cancel' h2]
    rw [← bind_assoc', e4]
    rfl
  · rw [if_neg hlt]
    obtain rfl : cx = w := by omega
    exact ⟨ux, rfl⟩

/-- The last pixels of a pair of rows. -/
theorem nvTailRows_ok {N : Nat} (hN : N % 2 = 0) (o : NVOrder) (ch : Channels) {w : Nat}
    {g : Nat → Nat} {f : Buf → Buf → Buf → Buf × Buf → Outcome (Buf × Buf)} {y0 y1 uv row0 row1 : Buf}
    (hy0 : ∀ x ∈ y0, x < 256) (hy1 : ∀ x ∈ y1, x < 256) (hu : ∀ x ∈ uv, x < 256)
    (hf : ∀ y0 y1 uv d0 d1 : Buf, (∀ x ∈ y0, x < 256) → (∀ x ∈ y1, x < 256) → (∀ x ∈ uv, x < 256) →
      y0.length = N → y1.length = N → uv.length = N * 2 →
      f y0 y1 uv (d0, d1) = (do
        let a ← put d0 0 (stepNv ch t g 2 N o y0 uv 0 0)
        let b ← put d1 0 (stepNv ch t g 2 N o y1 uv 0 0)
        return (a, b)))
    (ly0 : w ≤ y0.length) (ly1 : w ≤ y1.length) (lu : 2 * ((w - 1) / 2 + 1) ≤ uv.length)
    (hw0 : w * ch.count ≤ row0.length) (hw1 : w * ch.count ≤ row1.length) {cx ux : Nat}
    {pix0 pix1 : Nat → Buf} (hp0 : ∀ j, (pix0 j).length = ch.count)
    (hp1 : ∀ j, (pix1 j).length = ch.count)
    (hpix0 : ∀ x, cx ≤ x → pix0 x = nvPix ch t g 2 o y0 uv x)
    (hpix1 : ∀ x, cx ≤ x → pix1 x = nvPix ch t g 2 o y1 uv x)
    (h1 : AtPair 2 cx ux) (h2 : cx ≤ w) (h3 : w ≤ cx + N) :
    ∃ ux', nvTailRows N ch w f y0 y1 uv (painted ch.count pix0 cx row0, painted ch.count pix1 cx row1)
        cx ux
      = .ok ((painted ch.count pix0 w row0, painted ch.count pix1 w row1), w, ux') := by
  unfold nvTailRows
  by_cases hlt : cx < w
  · rw [if_pos hlt]
    have hd : nvStep .yuv420 (w - cx) ≤ N * 2 := by
      simp only [nvStep, chromaStep, ceil2]; omega
    obtain ⟨yb0, ey0, ly0', a1, a2⟩ := copyIn_ok (src := y0) (dst := List.replicate N 0) (p := cx)
      (n := w - cx) (by omega) (by simp; omega)
    obtain ⟨yb1, ey1, ly1', b1, b2⟩ := copyIn_ok (src := y1) (dst := List.replicate N 0) (p := cx)
      (n := w - cx) (by omega) (by simp; omega)
    obtain ⟨ub, eu, lu', u1, u2⟩ := copyIn_ok (src := uv) (dst := List.replicate (N * 2) 0) (p := ux)
      (n := nvStep .yuv420 (w - cx)) (nv_tail_room h1 hlt lu) (by simp; omega)
    have e1 := hf yb0 yb1 ub (List.replicate (N * 4) 0) (List.replicate (N * 4) 0)
      (fun x hx => (a2 x hx).elim (hy0 x) (z256 N x)) (fun x hx => (b2 x hx).elim (hy1 x) (z256 N x))
      (fun x hx => (u2 x hx).elim (hu x) (z256 _ x)) (by simpa using ly0') (by simpa using ly1')
      (by simpa using lu')
    simp only [ey0, ey1, eu, e1, Outcome.bind_ok, if_neg (show ¬ N < w - cx by omega)]
    have key : ∀ (yb y row : Buf) (pix : Nat → Buf), (∀ j, (pix j).length = ch.count) →
        (∀ x, cx ≤ x → pix x = nvPix ch t g 2 o y uv x) →
        (∀ i, i < w - cx → yb.getD i 0 = y.getD (cx + i) 0) →
        w * ch.count ≤ row.length →
        ∃ db, put (List.replicate (N * 4) 0) 0 (stepNv ch t g 2 N o yb ub 0 0) = .ok db ∧
          copyOut db ((w - cx) * ch.count) (painted ch.count pix cx row)
            (cx * ch.count) = .ok (painted ch.count pix w row) := by
      intro yb y row pix hp hpix y1 hw
      have e2 := copyOut_put (N := N) (L := N * 4) (n := w - cx) (cn := ch.count)
        (Nat.mul_le_mul_left _ (count_le ch)) (by omega)
        (f := fun j => vecPixelAt ch t (g (yb.getD (0 + j) 0))
          (ub.getD (0 + (2 * (j / 2) + o.uPos)) 0) (ub.getD (0 + (2 * (j / 2) + o.vPos)) 0))
        (fun j => vecPixelAt_length ..) (painted ch.count pix cx row) (cx * ch.count)
      have e3 : stepNv ch t g 2 (w - cx) o yb ub 0 0
          = (List.range (w - cx)).flatMap fun j => nvPix ch t g 2 o y uv (cx + j) :=
        tail_pixels (t := t) (s := .yuv420) ch (g := g) (o := o) h1 y1 u1
      rw [show ((List.range (w - cx)).flatMap fun j => vecPixelAt ch t (g (yb.getD (0 + j) 0))
          (ub.getD (0 + (2 * (j / 2) + o.uPos)) 0) (ub.getD (0 + (2 * (j / 2) + o.vPos)) 0))
          = _ from e3,
        range_flatMap_congr (fun j _ => (hpix (cx + j) (by omega)).symm),
        painted_put hp (by rw [Nat.add_sub_cancel' h2]; exact hw), Nat.add_sub_cancel' h2] at e2
      have e4 : (put (List.replicate (N * 4) 0) 0 (stepNv ch t g 2 N o yb ub 0 0) >>= fun db =>
          copyOut db ((w - cx) * ch.count) (painted ch.count pix cx row) (cx * ch.count))
          = .ok (painted ch.count pix w row) := e2
      cases hp : put (List.replicate (N * 4) 0) 0 (stepNv ch t g 2 N o yb ub 0 0) with
      | ok db => rw [hp, Outcome.bind_ok] at e4; exact ⟨db, rfl, e4⟩
      | err x => rw [hp] at e4; cases e4
      | panic => rw [hp] at e4; cases e4
    obtain ⟨d0, p0, q0⟩ := key yb0 y0 row0 pix0 hp0 hpix0 a1 hw0
    obtain ⟨d1, p1, q1⟩ := key yb1 y1 row1 pix1 hp1 hpix1 b1 hw1
    refine ⟨ux + nvStep .yuv420 (w - cx), ?_⟩
    simp only [Nat.add_sub_cancel' h2, p0, p1, Outcome.bind_ok, Outcome.pure_eq, q0, q1]
  · rw [if_neg hlt]
    obtain rfl : cx = w := by omega
    exact ⟨ux, rfl⟩

/-! ## AVX2 rows -/

theorem avx2NvRow_ok (hb : rg.biasUv = 128) (hby : rg.biasY < 256) (ht : Coef16 t) (s : Sampling)
    (o : NVOrder) (ch : Channels) {w : Nat} {y uv row : Buf}
    (hy : ∀ x ∈ y, x < 256) (hu : ∀ x ∈ uv, x < 256)
    (ly : w ≤ y.length) (lu : 2 * ((w - 1) / hdiv s + 1) ≤ uv.length)
    (hw : w * ch.count ≤ row.length) :
    ∃ ux, avx2NvRow s o ch rg t w y uv row 0 0
      = .ok (painted ch.count (nvPix ch t (· - rg.biasY) (hdiv s) o y uv) w row, w, ux) := by
  obtain ⟨cx, ux, e, _, h2, h3, h4⟩ := paintLoopI (step := 32) (ustep := nvStep s 32) (width := w)
    (cn := ch.count) (I := AtPair (hdiv s)) (by decide) (fun cx ux h => h.step rfl)
    (nvPix_length ch t (· - rg.biasY) (hdiv s) o y uv) (row := row) hw
    (body := fun cx ux row => avx2NvBody s o ch rg t y uv cx ux (cx * ch.count) row)
    (cx0 := 0) (ux0 := 0) (AtPair.zero _)
    (by
      intro cx ux r _ hux hlt
      rw [← stepNv_row ch t _ (hdiv_pos s) _ o y uv hux]
      exact avx2NvBody_eq hb hby ht s o ch hy hu (by omega)
        (nv_room hux rfl (by omega) lu (by decide)) _ _)
    (Nat.zero_le _)
  rw [painted_zero] at e
  simp only [avx2NvRow, e, Outcome.bind_ok]
  exact nvTailRow_ok (N := 32) rfl s o ch hy hu
    (fun y uv d hy hu ly lu => avx2NvBody_eq hb hby ht s o ch hy hu (by omega)
      (by cases s <;> simp only [nvStep, chromaStep, ceil2] <;> omega) _ _)
    ly lu hw (fun _ => nvPix_length ..) (fun _ _ => rfl) h2 h3 h4

theorem avx2NvRow422_ok (hb : rg.biasUv = 128) (hby : rg.biasY < 256) (ht : Coef16 t)
    (o : NVOrder) (ch : Channels) {w : Nat} {y uv row : Buf}
    (hy : ∀ x ∈ y, x < 256) (hu : ∀ x ∈ uv, x < 256)
    (ly : w ≤ y.length) (lu : 2 * ((w - 1) / 2 + 1) ≤ uv.length)
    (hw : w * ch.count ≤ row.length) :
    ∃ ux, avx2NvRow422 o ch rg t w y uv row 0 0
      = .ok (painted ch.count (nvPix ch t (· - rg.biasY) 2 o y uv) w row, w, ux) := by
  obtain ⟨cx, ux, e, _, h2, h3, h4⟩ := paintLoopI (step := 32) (ustep := 32) (width := w)
    (cn := ch.count) (I := AtPair 2) (by decide)
    (fun cx ux h => AtPair.step (s := .yuv422) (n := 32) rfl h)
    (nvPix_length ch t (· - rg.biasY) 2 o y uv) (row := row) hw
    (body := fun cx ux row => avx2NvBody422 o ch rg t y uv cx ux (cx * ch.count) row)
    (cx0 := 0) (ux0 := 0) (AtPair.zero _)
    (by
      intro cx ux r _ hux hlt
      rw [← stepNv_row ch t _ (by decide) _ o y uv hux]
      exact avx2NvBody422_eq hb hby ht o ch hy hu (by omega)
        (nv_room (s := .yuv422) (n := 32) hux rfl (by omega) lu (by decide)) _ _)
    (Nat.zero_le _)
  rw [painted_zero] at e
  simp only [avx2NvRow422, e, Outcome.bind_ok]
  exact nvTailRow_ok (N := 32) rfl .yuv422 o ch hy hu
    (fun y uv d hy hu ly lu => avx2NvBody422_eq hb hby ht o ch hy hu (by omega) (by omega) _ _)
    ly lu hw (fun _ => nvPix_length ..) (fun _ _ => rfl) h2 h3 h4

theorem avx2NvRow420_ok (hb : rg.biasUv = 128) (hby : rg.biasY < 256) (ht : Coef16 t)
    (o : NVOrder) (ch : Channels) {w : Nat} {y0 y1 uv row0 row1 : Buf}
    (hy0 : ∀ x ∈ y0, x < 256) (hy1 : ∀ x ∈ y1, x < 256) (hu : ∀ x ∈ uv, x < 256)
    (ly0 : w ≤ y0.length) (ly1 : w ≤ y1.length) (lu : 2 * ((w - 1) / 2 + 1) ≤ uv.length)
    (hw0 : w * ch.count ≤ row0.length) (hw1 : w * ch.count ≤ row1.length) :
    ∃ ux, avx2NvRow420 o ch rg t w y0 y1 uv row0 row1 0 0
      = .ok ((painted ch.count (nvPix ch t (· - rg.biasY) 2 o y0 uv) w row0,
        painted ch.count (nvPix ch t (· - rg.biasY) 2 o y1 uv) w row1), w, ux) := by
  obtain ⟨cx, ux, e, _, h2, h3, h4⟩ := paintLoopI2 (step := 32) (ustep := 32) (width := w)
    (cn := ch.count) (I := AtPair 2) (by decide)
    (fun cx ux h => AtPair.step (s := .yuv420) (n := 32) rfl h)
    (nvPix_length ch t (· - rg.biasY) 2 o y0 uv) (nvPix_length ch t (· - rg.biasY) 2 o y1 uv)
    (row0 := row0) (row1 := row1) hw0 hw1
    (body := fun cx ux rows => avx2NvBody420 o ch rg t y0 y1 uv cx ux (cx * ch.count) rows)
    (cx0 := 0) (ux0 := 0) (AtPair.zero _)
    (by
      intro cx ux r0 r1 _ hux hlt
      rw [← stepNv_row ch t _ (by decide) _ o y0 uv hux, ← stepNv_row ch t _ (by decide) _ o y1 uv hux]
      exact avx2NvBody420_eq hb hby ht o ch hy0 hy1 hu (by omega) (by omega)
        (nv_room (s := .yuv420) (n := 32) hux rfl (by omega) lu (by decide)) _ _ _)
    (Nat.zero_le _)
  rw [painted_zero, painted_zero] at e
  simp only [avx2NvRow420, e, Outcome.bind_ok]
  exact nvTailRows_ok (N := 32) rfl o ch hy0 hy1 hu
    (fun y0 y1 uv d0 d1 hy0 hy1 hu ly0 ly1 lu => avx2NvBody420_eq hb hby ht o ch hy0 hy1 hu
      (by omega) (by omega) (by omega) _ _ _)
    ly0 ly1 lu hw0 hw1 (fun _ => nvPix_length ..) (fun _ => nvPix_length ..) (fun _ _ => rfl)
    (fun _ _ => rfl) h2 h3 h4

/-! ## SSE4.1 rows -/

/-- Pixels of a row done in two passes: `p` before column `c`, `q` from there on. -/
def mix (c : Nat) (p q : Nat → Buf) (x : Nat) : Buf := if x < c then p x else q x

theorem mix_length {cn c : Nat} {p q : Nat → Buf} (hp : ∀ j, (p j).length = cn)
    (hq : ∀ j, (q j).length = cn) (x : Nat) : (mix c p q x).length = cn := by
  unfold mix; split
  · exact hp x
  · exact hq x

theorem mix_hi {c : Nat} {p q : Nat → Buf} {x : Nat} (h : c ≤ x) : mix c p q x = q x := by
  unfold mix; rw [if_neg (by omega)]

theorem mix_lo {c : Nat} {p q : Nat → Buf} {x : Nat} (h : x < c) : mix c p q x = p x := by
  unfold mix; rw [if_pos h]

/-- Two vector loops and a tail over one row. -/
theorem sseNv_two {s : Sampling} (o : NVOrder) (ch : Channels) {f g : Nat → Nat} {w : Nat}
    {y uv row : Buf} (hy : ∀ x ∈ y, x < 256) (hu : ∀ x ∈ uv, x < 256)
    (ly : w ≤ y.length) (lu : 2 * ((w - 1) / hdiv s + 1) ≤ uv.length)
    (hw : w * ch.count ≤ row.length)
    {body16 : Nat → Nat → Buf → Outcome Buf} {body8 : Nat → Nat → Nat → Buf → Outcome Buf}
    {tail : Buf → Buf → Buf → Outcome Buf}
    (h16 : ∀ cx ux r, cx + 16 ≤ y.length → ux + nvStep s 16 ≤ uv.length →
      body16 cx ux r = put r (cx * ch.count) (stepNv ch t f (hdiv s) 16 o y uv cx ux))
    (h8 : ∀ cx ux p r, cx + 8 ≤ y.length → ux + nvStep s 8 ≤ uv.length →
      body8 cx ux p r = put r p (stepNv ch t g (hdiv s) 8 o y uv cx ux))
    (htl : ∀ y uv d : Buf, (∀ x ∈ y, x < 256) → (∀ x ∈ uv, x < 256) →
      y.length = 8 → uv.length = 8 * 2 →
      tail y uv d = put d 0 (stepNv ch t g (hdiv s) 8 o y uv 0 0)) :
    ∃ ux, (do
        let r ← vwhile 16 (nvStep s 16) w body16 0 0 row
        let r ← vwhile 8 (nvStep s 8) w (fun cx ux row => body8 cx ux (cx * ch.count) row) r.2.1 r.2.2
          r.1
        nvTailRow 8 s ch w tail y uv r.1 r.2.1 r.2.2)
      = .ok (painted ch.count (mix (16 * ((w - 1) / 16)) (nvPix ch t f (hdiv s) o y uv)
          (nvPix ch t g (hdiv s) o y uv)) w row, w, ux) := by
  obtain ⟨c, ux, e, hc, h2, h3, h4⟩ := paintLoopI (step := 16) (ustep := nvStep s 16) (width := w)
    (cn := ch.count) (I := AtPair (hdiv s)) (by decide) (fun cx ux h => h.step rfl)
    (nvPix_length ch t f (hdiv s) o y uv) (row := row) hw (body := body16)
    (cx0 := 0) (ux0 := 0) (AtPair.zero _)
    (by
      intro cx ux r _ hux hlt
      rw [← stepNv_row ch t _ (hdiv_pos s) _ o y uv hux]
      exact h16 _ _ _ (by omega) (nv_room hux rfl (by omega) lu (by decide)))
    (Nat.zero_le _)
  rw [painted_zero] at e
  have hml := mix_length (c := c) (nvPix_length ch t f (hdiv s) o y uv)
    (nvPix_length ch t g (hdiv s) o y uv)
  obtain ⟨cx, ux', e', g1, g2, g3, g4⟩ := paintLoopI (step := 8) (ustep := nvStep s 8) (width := w)
    (cn := ch.count) (I := AtPair (hdiv s)) (by decide) (fun cx ux h => h.step rfl)
    hml (row := row) hw
    (body := fun cx ux row => body8 cx ux (cx * ch.count) row) (cx0 := c) (ux0 := ux) h2
    (by
      intro cx ux r hge hux hlt
      rw [range_flatMap_congr (fun j _ => mix_hi (by omega)),
        ← stepNv_row ch t _ (hdiv_pos s) _ o y uv hux]
      exact h8 _ _ _ _ (by omega) (nv_room hux rfl (by omega) lu (by decide)))
    h3
  obtain ⟨ux'', e''⟩ := nvTailRow_ok (N := 8) rfl s o ch hy hu htl ly lu hw hml
    (fun x hx => mix_hi (by unfold loopEnd at g1; omega)) g2 g3 g4
  obtain ⟨rfl, rfl⟩ := sse_ends hc g1
  refine ⟨ux'', ?_⟩
  simp only [e, Outcome.bind_ok]
  rw [painted_congr (q := mix (16 * ((w - 1) / 16)) (nvPix ch t f (hdiv s) o y uv)
    (nvPix ch t g (hdiv s) o y uv)) fun x hx => (mix_lo hx).symm, e', Outcome.bind_ok]
  exact e''

theorem sseNvRow_ok (hb : rg.biasUv = 128) (hby : rg.biasY < 256) (ht : Coef16 t) (s : Sampling)
    (o : NVOrder) (ch : Channels) {w : Nat} {y uv row : Buf}
    (hy : ∀ x ∈ y, x < 256) (hu : ∀ x ∈ uv, x < 256)
    (ly : w ≤ y.length) (lu : 2 * ((w - 1) / hdiv s + 1) ≤ uv.length)
    (hw : w * ch.count ≤ row.length) :
    ∃ ux, sseNvRow s o ch rg t w y uv row 0 0
      = .ok (painted ch.count (mix (16 * ((w - 1) / 16)) (nvPix ch t (· - rg.biasY) (hdiv s) o y uv)
          (nvPix ch t (signedLuma rg.biasY) (hdiv s) o y uv)) w row, w, ux) :=
  sseNv_two o ch hy hu ly lu hw (fun cx ux r h1 h2 => sseNvBody16_eq hb hby ht s o ch hy hu h1 h2 r)
    (fun cx ux p r h1 h2 => sseNvBody8_eq hb hby ht s o ch hy hu h1 h2 p r)
    (fun y uv d hy hu ly lu => sseNvBody8_eq hb hby ht s o ch hy hu (by omega)
      (by cases s <;> simp only [nvStep, chromaStep, ceil2] <;> omega) _ _)

theorem sseNvRow422_ok (hb : rg.biasUv = 128) (hby : rg.biasY < 256) (ht : Coef16 t)
    (o : NVOrder) (ch : Channels) {w : Nat} {y uv row : Buf}
    (hy : ∀ x ∈ y, x < 256) (hu : ∀ x ∈ uv, x < 256)
    (ly : w ≤ y.length) (lu : 2 * ((w - 1) / 2 + 1) ≤ uv.length)
    (hw : w * ch.count ≤ row.length) :
    ∃ ux, sseNvRow422 o ch rg t w y uv row 0 0
      = .ok (painted ch.count (mix (16 * ((w - 1) / 16)) (nvPix ch t (· - rg.biasY) 2 o y uv)
          (nvPix ch t (signedLuma rg.biasY) 2 o y uv)) w row, w, ux) :=
  sseNv_two (s := .yuv422) o ch hy hu ly lu hw
    (fun cx ux r h1 h2 => sseNvBody422_eq hb hby ht o ch hy hu h1 h2 r)
    (fun cx ux p r h1 h2 => sseNvBody422Half_eq hb hby ht o ch hy hu h1 h2 p r)
    (fun y uv d hy hu ly lu => sseNvBody422Half_eq hb hby ht o ch hy hu (by omega) (by omega) _ _)

theorem sseNvRow420_ok (hb : rg.biasUv = 128) (hby : rg.biasY < 256) (ht : Coef16 t)
    (o : NVOrder) (ch : Channels) {w : Nat} {y0 y1 uv row0 row1 : Buf}
    (hy0 : ∀ x ∈ y0, x < 256) (hy1 : ∀ x ∈ y1, x < 256) (hu : ∀ x ∈ uv, x < 256)
    (ly0 : w ≤ y0.length) (ly1 : w ≤ y1.length) (lu : 2 * ((w - 1) / 2 + 1) ≤ uv.length)
    (hw0 : w * ch.count ≤ row0.length) (hw1 : w * ch.count ≤ row1.length) :
    ∃ ux, sseNvRow420 o ch rg t w y0 y1 uv row0 row1 0 0
      = .ok ((painted ch.count (mix (16 * ((w - 1) / 16)) (nvPix ch t (· - rg.biasY) 2 o y0 uv)
          (nvPix ch (crForCb t) (signedLuma rg.biasY) 2 o y0 uv)) w row0,
        painted ch.count (mix (16 * ((w - 1) / 16)) (nvPix ch t (· - rg.biasY) 2 o y1 uv)
          (nvPix ch (crForCb t) (signedLuma rg.biasY) 2 o y1 uv)) w row1), w, ux) := by
  obtain ⟨c, ux, e, hc, h2, h3, h4⟩ := paintLoopI2 (step := 16) (ustep := 16) (width := w)
    (cn := ch.count) (I := AtPair 2) (by decide)
    (fun cx ux h => AtPair.step (s := .yuv420) (n := 16) rfl h)
    (nvPix_length ch t (· - rg.biasY) 2 o y0 uv) (nvPix_length ch t (· - rg.biasY) 2 o y1 uv)
    (row0 := row0) (row1 := row1) hw0 hw1
    (body := sseNvBody420 o ch rg t y0 y1 uv)
    (cx0 := 0) (ux0 := 0) (AtPair.zero _)
    (by
      intro cx ux r0 r1 _ hux hlt
      rw [← stepNv_row ch t _ (by decide) _ o y0 uv hux, ← stepNv_row ch t _ (by decide) _ o y1 uv hux]
      exact sseNvBody420_eq hb hby ht o ch hy0 hy1 hu (by omega) (by omega)
        (nv_room (s := .yuv420) (n := 16) hux rfl (by omega) lu (by decide)) _ _)
    (Nat.zero_le _)
  rw [painted_zero, painted_zero] at e
  have hml : ∀ y x, (mix c (nvPix ch t (· - rg.biasY) 2 o y uv)
      (nvPix ch (crForCb t) (signedLuma rg.biasY) 2 o y uv) x).length = ch.count := fun y =>
    mix_length (fun _ => nvPix_length ..) (fun _ => nvPix_length ..)
  obtain ⟨cx, ux', e', g1, g2, g3, g4⟩ := paintLoopI2 (step := 8) (ustep := 8) (width := w)
    (cn := ch.count) (I := AtPair 2) (by decide)
    (fun cx ux h => AtPair.step (s := .yuv420) (n := 8) rfl h)
    (hml y0) (hml y1) (row0 := row0) (row1 := row1) hw0 hw1
    (body := fun cx ux rows => sseNvBody420Half o ch rg t y0 y1 uv cx ux (cx * ch.count) rows)
    (cx0 := c) (ux0 := ux) h2
    (by
      intro cx ux r0 r1 hge hux hlt
      rw [range_flatMap_congr (fun j _ => mix_hi (by omega)),
        range_flatMap_congr (fun j _ => mix_hi (by omega)),
        ← stepNv_row ch _ _ (by decide) _ o y0 uv hux, ← stepNv_row ch _ _ (by decide) _ o y1 uv hux]
      exact sseNvBody420Half_eq hb hby ht o ch hy0 hy1 hu (by omega) (by omega)
        (nv_room (s := .yuv420) (n := 8) hux rfl (by omega) lu (by decide)) _ _ _)
    h3
  obtain ⟨ux'', e''⟩ := nvTailRows_ok (N := 8) rfl o ch hy0 hy1 hu
    (fun y0 y1 uv d0 d1 hy0 hy1 hu ly0 ly1 lu => sseNvBody420Half_eq hb hby ht o ch hy0 hy1 hu
      (by omega) (by omega) (by omega) _ _ _)
    ly0 ly1 lu hw0 hw1 (hml y0) (hml y1)
    (fun x hx => mix_hi (by unfold loopEnd at g1; omega))
    (fun x hx => mix_hi (by unfold loopEnd at g1; omega)) g2 g3 g4
  obtain ⟨rfl, rfl⟩ := sse_ends hc g1
  refine ⟨ux'', ?_⟩
  simp only [sseNvRow420, e, Outcome.bind_ok]
  rw [painted_congr (q := mix (16 * ((w - 1) / 16)) (nvPix ch t (· - rg.biasY) 2 o y0 uv)
      (nvPix ch (crForCb t) (signedLuma rg.biasY) 2 o y0 uv)) fun x hx => (mix_lo hx).symm,
    painted_congr (q := mix (16 * ((w - 1) / 16)) (nvPix ch t (· - rg.biasY) 2 o y1 uv)
      (nvPix ch (crForCb t) (signedLuma rg.biasY) 2 o y1 uv)) fun x hx => (mix_lo hx).symm,
    e', Outcome.bind_ok]
  exact e''

/-! ## The contracts -/

/-- Pixel `x` of a row of `w` pixels on each class of processor; `pair` when it is one of a pair of
4:2:0 rows, `px` is the scalar decoding. -/
def cpuNvRow (cpu : Cpu) (pair : Bool) (ch : Channels) (rg : ChromaRange) (t : InvCoef)
    (px : Nat → Nat → Nat → Buf) (w x y u v : Nat) : Buf :=
  match cpu with
  | .plain => px y u v
  | .avx2 => vecPixelAt ch t (y - rg.biasY) u v
  | .sse41 =>
    if x < 16 * ((w - 1) / 16) then vecPixelAt ch t (y - rg.biasY) u v
    else vecPixelAt ch (if pair then crForCb t else t) (signedLuma rg.biasY y) u v

theorem rowHandlerNV_fills (cpu : Cpu) (o : NVOrder) (s : Sampling) (ch : Channels) {w : Nat}
    (hb : rg.biasUv = 128) (hby : rg.biasY < 256) (ht : Coef16 t) (px : Nat → Nat → Nat → Buf) :
    (rowHandlerNV cpu o s ch rg t w).Fills true 256 ch.count w (hdiv s) o.uPos o.vPos px
      (fun x y u v p => p = cpuNvRow cpu false ch rg t px w x y u v) := by
  intro y uv row hy hu ly lu hw
  have fin : RowDone ch.count w (hdiv s)
        (fun x p => p = cpuNvRow .avx2 false ch rg t px w x (y.getD x 0)
            (uv.getD (2 * (x / hdiv s) + o.uPos) 0) (uv.getD (2 * (x / hdiv s) + o.vPos) 0))
        row (painted ch.count (nvPix ch t (· - rg.biasY) (hdiv s) o y uv) w row) w :=
    painted_done (count_pos ch) (fun _ => nvPix_length ..) hw (le_refl _) (.inr rfl) fun x _ => rfl
  have fin2 : RowDone ch.count w (hdiv s)
        (fun x p => p = cpuNvRow .sse41 false ch rg t px w x (y.getD x 0)
            (uv.getD (2 * (x / hdiv s) + o.uPos) 0) (uv.getD (2 * (x / hdiv s) + o.vPos) 0))
        row (painted ch.count (mix (16 * ((w - 1) / 16)) (nvPix ch t (· - rg.biasY) (hdiv s) o y uv)
          (nvPix ch t (signedLuma rg.biasY) (hdiv s) o y uv)) w row) w :=
    painted_done (count_pos ch) (mix_length (fun _ => nvPix_length ..) (fun _ => nvPix_length ..)) hw (le_refl _)
      (.inr rfl) fun x _ => rfl
  have fin3 : ∀ (P : Nat → Prop) (x : Nat), ScalarCol true w w x → x < w → P x :=
    fun P x h1 h2 => absurd h1.le (by omega)
  cases cpu with
  | avx2 =>
    cases s with
    | yuv444 =>
      obtain ⟨ux, e⟩ := avx2NvRow_ok hb hby ht .yuv444 o ch hy hu ly lu hw
      exact ⟨_, w, by simp only [rowHandlerNV, done, e, Outcome.bind_ok]; rfl, fin, fin3 _⟩
    | yuv420 =>
      obtain ⟨ux, e⟩ := avx2NvRow422_ok hb hby ht o ch hy hu ly lu hw
      exact ⟨_, w, by simp only [rowHandlerNV, done, e, Outcome.bind_ok]; rfl, fin, fin3 _⟩
    | yuv422 =>
      obtain ⟨ux, e⟩ := avx2NvRow422_ok hb hby ht o ch hy hu ly lu hw
      exact ⟨_, w, by simp only [rowHandlerNV, done, e, Outcome.bind_ok]; rfl, fin, fin3 _⟩
  | sse41 =>
    cases s with
    | yuv444 =>
      obtain ⟨ux, e⟩ := sseNvRow_ok hb hby ht .yuv444 o ch hy hu ly lu hw
      exact ⟨_, w, by simp only [rowHandlerNV, done, e, Outcome.bind_ok]; rfl, fin2, fin3 _⟩
    | yuv420 =>
      obtain ⟨ux, e⟩ := sseNvRow422_ok hb hby ht o ch hy hu ly lu hw
      exact ⟨_, w, by simp only [rowHandlerNV, done, e, Outcome.bind_ok]; rfl, fin2, fin3 _⟩
    | yuv422 =>
      obtain ⟨ux, e⟩ := sseNvRow422_ok hb hby ht o ch hy hu ly lu hw
      exact ⟨_, w, by simp only [rowHandlerNV, done, e, Outcome.bind_ok]; rfl, fin2, fin3 _⟩
  | plain =>
    refine ⟨row, 0, rfl, ?_, fun x _ _ => rfl⟩
    exact ⟨Nat.zero_le _, .inl (Nat.zero_mod _), rfl, fun x _ hx => absurd hx (Nat.not_lt_zero _),
      fun _ _ => rfl⟩

theorem rowHandlerNV420_fills (cpu : Cpu) (o : NVOrder) (ch : Channels) {w : Nat}
    (hb : rg.biasUv = 128) (hby : rg.biasY < 256) (ht : Coef16 t) (px : Nat → Nat → Nat → Buf) :
    (rowHandlerNV420 cpu o .yuv420 ch rg t w).Fills 256 ch.count w o.uPos o.vPos px
      (fun x y u v p => p = cpuNvRow cpu true ch rg t px w x y u v) := by
  intro y0 y1 uv row0 row1 hy0 hy1 hu ly0 ly1 lu hw0 hw1
  have fin : ∀ (y row : Buf), w * ch.count ≤ row.length →
      RowDone ch.count w 2
        (fun x p => p = cpuNvRow .avx2 true ch rg t px w x (y.getD x 0)
            (uv.getD (2 * (x / 2) + o.uPos) 0) (uv.getD (2 * (x / 2) + o.vPos) 0))
        row (painted ch.count (nvPix ch t (· - rg.biasY) 2 o y uv) w row) w := fun y row hw =>
    painted_done (count_pos ch) (fun _ => nvPix_length ..) hw (le_refl _) (.inr rfl) fun x _ => rfl
  have fin2 : ∀ (y row : Buf), w * ch.count ≤ row.length →
      RowDone ch.count w 2
        (fun x p => p = cpuNvRow .sse41 true ch rg t px w x (y.getD x 0)
            (uv.getD (2 * (x / 2) + o.uPos) 0) (uv.getD (2 * (x / 2) + o.vPos) 0))
        row (painted ch.count (mix (16 * ((w - 1) / 16)) (nvPix ch t (· - rg.biasY) 2 o y uv)
          (nvPix ch (crForCb t) (signedLuma rg.biasY) 2 o y uv)) w row) w := fun y row hw =>
    painted_done (count_pos ch) (mix_length (fun _ => nvPix_length ..) (fun _ => nvPix_length ..)) hw (le_refl _)
      (.inr rfl) fun x _ => rfl
  cases cpu with
  | avx2 =>
    obtain ⟨ux, e⟩ := avx2NvRow420_ok hb hby ht o ch hy0 hy1 hu ly0 ly1 lu hw0 hw1
    exact ⟨_, _, w, by simp only [rowHandlerNV420, e, Outcome.bind_ok]; rfl,
      fin y0 row0 hw0, fin y1 row1 hw1, fun y _ x h1 h2 => absurd h1 (by omega)⟩
  | sse41 =>
    obtain ⟨ux, e⟩ := sseNvRow420_ok hb hby ht o ch hy0 hy1 hu ly0 ly1 lu hw0 hw1
    exact ⟨_, _, w, by simp only [rowHandlerNV420, e, Outcome.bind_ok]; rfl,
      fin2 y0 row0 hw0, fin2 y1 row1 hw1, fun y _ x h1 h2 => absurd h1 (by omega)⟩
  | plain =>
    exact ⟨row0, row1, 0, rfl,
      ⟨Nat.zero_le _, .inl (Nat.zero_mod _), rfl, fun x _ hx => absurd hx (Nat.not_lt_zero _),
        fun _ _ => rfl⟩,
      ⟨Nat.zero_le _, .inl (Nat.zero_mod _), rfl, fun x _ hx => absurd hx (Nat.not_lt_zero _),
        fun _ _ => rfl⟩, fun y _ x _ _ => rfl⟩

end Verif.X86
