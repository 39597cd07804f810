import Verif.Lemmas.Neon
import Verif.Lemmas.X86Handlers
import Verif.Lemmas.X86NvModes
import Verif.Lemmas.X86Gray
/-! # Rows of the NEON decoders -/
namespace Verif.Neon
open Spec X86

variable {rdm : Bool} {rg : ChromaRange} {t : InvCoef}

/-- The pixel of samples of a row. -/
def px (rdm two : Bool) (ch : Channels) (rg : ChromaRange) (t : InvCoef) (y u v : Nat) : Buf :=
  neonPixelAt rdm two ch t (y - rg.biasY) u v

theorem px_length {two : Bool} {ch : Channels} (y u v : Nat) :
    (px rdm two ch rg t y u v).length = ch.count := neonPixelAt_length ..

/-- The pixels of a step. -/
theorem step_put {two : Bool} (hby : rg.biasY < 256) (ht : Coef16 t) (ch : Channels) {st : Step}
    {yr : Reg} {c : Reg × Reg} {Y U V : Nat → Nat} (hY : ∀ i, yr i < 256) (hyr : ∀ i, i < st.n → yr i = Y i)
    (hU : ∀ i, i < st.n → U i < 256) (hV : ∀ i, i < st.n → V i < 256)
    (h1 : ∀ i, i < st.n → c.1 i = (U i + 128) % 256) (h2 : ∀ i, i < st.n → c.2 i = (V i + 128) % 256)
    (p : Nat) (row : Buf) :
    putStep rdm two st ch t p (subsU8 yr (set1_8 rg.biasY)) c.1 c.2 row
      = put row p ((List.range st.n).flatMap fun i => px rdm two ch rg t (Y i) (U i) (V i)) := by
  refine putStep_eq ht (Y := fun i => Y i - rg.biasY) (fun i hi => ?_) hU hV (fun i hi => ?_) h1 h2 p row
  · have := hY i; rw [hyr i hi] at this; omega
  · rw [subsU8_at hby, hyr i hi]

/-! ## Planar -/

/-- What a body of `n` pixels stores. -/
def stepP (px : Nat → Nat → Nat → Buf) (hd n : Nat) (y u v : Buf) (cx ux : Nat) : Buf :=
  (List.range n).flatMap fun j => px (y.getD (cx + j) 0) (u.getD (ux + j / hd) 0) (v.getD (ux + j / hd) 0)

/-- Pixel `x` of a row. -/
def rowP (px : Nat → Nat → Nat → Buf) (hd : Nat) (y u v : Buf) (x : Nat) : Buf :=
  px (y.getD x 0) (u.getD (x / hd) 0) (v.getD (x / hd) 0)

theorem stepP_row (px : Nat → Nat → Nat → Buf) {hd : Nat} (hhd : 0 < hd) (n : Nat) (y u v : Buf)
    {cx ux : Nat} (h : ux * hd = cx) :
    stepP px hd n y u v cx ux = (List.range n).flatMap fun j => rowP px hd y u v (cx + j) := by
  apply range_flatMap_congr
  intro j _
  have e : (cx + j) / hd = ux + j / hd := by
    rw [← h, Nat.add_comm, Nat.add_mul_div_right _ _ hhd, Nat.add_comm]
  simp only [rowP, e]

theorem planarBody_eq (hb : rg.biasUv = 128) (hby : rg.biasY < 256) (ht : Coef16 t) (st : Step)
    (s : Sampling) (ch : Channels) {y u v : Buf} (hy : ∀ x ∈ y, x < 256) (hu : ∀ x ∈ u, x < 256)
    (hv : ∀ x ∈ v, x < 256) {cx ux : Nat} (ly : cx + st.n ≤ y.length)
    (lu : ux + chromaStep s st.n ≤ u.length) (lv : ux + chromaStep s st.n ≤ v.length) (row : Buf) :
    planarBody rdm st s ch rg t y u v cx ux row = put row (cx * ch.count)
      (stepP (px rdm false ch rg t) (hdiv s) st.n y u v cx ux) := by
  obtain ⟨yr, ey, y1, y2⟩ := load_at ly hy
  obtain ⟨c, ec, c1, c2⟩ := planarChroma_at hb hu hv lu lv
  rw [planarBody, ey, Outcome.bind_ok, ec, Outcome.bind_ok,
    step_put hby ht ch y2 y1 (fun i _ => getD_lt (by decide) hu) (fun i _ => getD_lt (by decide) hv) c1 c2]
  rfl

theorem planarBody420_eq (hb : rg.biasUv = 128) (hby : rg.biasY < 256) (ht : Coef16 t) (st : Step)
    (ch : Channels) {y0 y1 u v : Buf} (hy0 : ∀ x ∈ y0, x < 256) (hy1 : ∀ x ∈ y1, x < 256)
    (hu : ∀ x ∈ u, x < 256) (hv : ∀ x ∈ v, x < 256) {cx ux : Nat}
    (ly0 : cx + st.n ≤ y0.length) (ly1 : cx + st.n ≤ y1.length)
    (lu : ux + chromaStep .yuv420 st.n ≤ u.length) (lv : ux + chromaStep .yuv420 st.n ≤ v.length)
    (r0 r1 : Buf) :
    planarBody420 rdm st ch rg t y0 y1 u v cx ux (r0, r1) = (do
      let a ← put r0 (cx * ch.count) (stepP (px rdm true ch rg t) (hdiv .yuv420) st.n y0 u v cx ux)
      let b ← put r1 (cx * ch.count) (stepP (px rdm true ch rg t) (hdiv .yuv420) st.n y1 u v cx ux)
      return (a, b)) := by
  obtain ⟨yr0, e0, a1, a2⟩ := load_at ly0 hy0
  obtain ⟨yr1, e1, b1, b2⟩ := load_at ly1 hy1
  obtain ⟨c, ec, c1, c2⟩ := planarChroma_at hb hu hv lu lv
  rw [planarBody420, e0, Outcome.bind_ok, e1, Outcome.bind_ok, ec, Outcome.bind_ok]
  simp only [step_put hby ht ch a2 a1 (fun i _ => getD_lt (by decide) hu)
      (fun i _ => getD_lt (by decide) hv) c1 c2,
    step_put hby ht ch b2 b1 (fun i _ => getD_lt (by decide) hu) (fun i _ => getD_lt (by decide) hv) c1 c2]
  rfl

theorem z256 (n : Nat) : ∀ x ∈ List.replicate n 0, x < 256 := by
  intro x hx; rw [(List.mem_replicate.1 hx).2]; decide

/-- One row of a stack buffer: the pixels copied out are those of the row. -/
theorem tailP {ch : Channels} {px : Nat → Nat → Nat → Buf} (hpx : ∀ y u v, (px y u v).length = ch.count)
    {w cx ux : Nat} {s : Sampling} {y u v yb ub vb row : Buf}
    (h1 : ux * hdiv s = cx) (h2 : cx ≤ w) (h3 : w ≤ cx + 8)
    (y1 : ∀ i, i < w - cx → yb.getD i 0 = y.getD (cx + i) 0)
    (u1 : ∀ i, i < chromaStep s (w - cx) → ub.getD i 0 = u.getD (ux + i) 0)
    (v1 : ∀ i, i < chromaStep s (w - cx) → vb.getD i 0 = v.getD (ux + i) 0)
    (hw : w * ch.count ≤ row.length) :
    ∃ db, put (List.replicate 32 0) 0 (stepP px (hdiv s) 8 yb ub vb 0 0) = .ok db ∧
      copyOut db ((w - cx) * ch.count) (painted ch.count (rowP px (hdiv s) y u v) cx row)
        (cx * ch.count) = .ok (painted ch.count (rowP px (hdiv s) y u v) w row) := by
  have e2 := copyOut_put (N := 8) (L := 32) (n := w - cx) (cn := ch.count)
    (by have := count_le ch; omega) (by omega)
    (f := fun j => px (yb.getD (0 + j) 0) (ub.getD (0 + j / hdiv s) 0) (vb.getD (0 + j / hdiv s) 0))
    (fun j => hpx _ _ _) (painted ch.count (rowP px (hdiv s) y u v) cx row) (cx * ch.count)
  have e3 : ((List.range (w - cx)).flatMap fun j => px (yb.getD (0 + j) 0)
      (ub.getD (0 + j / hdiv s) 0) (vb.getD (0 + j / hdiv s) 0))
      = (List.range (w - cx)).flatMap fun j => rowP px (hdiv s) y u v (cx + j) := by
    rw [← stepP_row px (hdiv_pos s) _ y u v h1]
    apply range_flatMap_congr
    intro j hj
    have hc : j / hdiv s < chromaStep s (w - cx) := by
      cases s <;> simp only [hdiv, chromaStep, ceil2] <;> omega
    rw [Nat.zero_add, Nat.zero_add, y1 j hj, u1 _ hc, v1 _ hc]
  rw [e3, painted_put (pix := rowP px (hdiv s) y u v) (fun j => hpx _ _ _)
      (by rw [Nat.add_sub_cancel' h2]; exact hw),
    Nat.add_sub_cancel' h2] at e2
  have e4 : (put (List.replicate 32 0) 0 (stepP px (hdiv s) 8 yb ub vb 0 0) >>= fun db =>
      copyOut db ((w - cx) * ch.count) (painted ch.count (rowP px (hdiv s) y u v) cx row)
        (cx * ch.count)) = .ok (painted ch.count (rowP px (hdiv s) y u v) w row) := e2
  cases hp : put (List.replicate 32 0) 0 (stepP px (hdiv s) 8 yb ub vb 0 0) with
  | ok db => rw [hp, Outcome.bind_ok] at e4; exact ⟨db, rfl, e4⟩
  | err x => rw [hp] at e4; cases e4
  | panic => rw [hp] at e4; cases e4

theorem planarTail_ok (hb : rg.biasUv = 128) (hby : rg.biasY < 256) (ht : Coef16 t) (s : Sampling)
    (ch : Channels) {w : Nat} {y u v row : Buf}
    (hy : ∀ x ∈ y, x < 256) (hu : ∀ x ∈ u, x < 256) (hv : ∀ x ∈ v, x < 256)
    (ly : w ≤ y.length) (lu : (w - 1) / hdiv s + 1 ≤ u.length)
    (lv : (w - 1) / hdiv s + 1 ≤ v.length) (hw : w * ch.count ≤ row.length) {cx ux : Nat}
    (h1 : ux * hdiv s = cx) (h2 : cx ≤ w) (h3 : w ≤ cx + 8) :
    ∃ ux', planarTail rdm s ch rg t w y u v
        (painted ch.count (rowP (px rdm false ch rg t) (hdiv s) y u v) cx row) cx ux
      = .ok (painted ch.count (rowP (px rdm false ch rg t) (hdiv s) y u v) w row, w, ux') := by
  unfold planarTail
  by_cases hlt : cx < w
  · rw [if_pos hlt]
    have hd : chromaStep s (w - cx) ≤ 8 := by
      cases s <;> simp only [chromaStep, ceil2] <;> omega
    have h8 : chromaStep s 8 ≤ 8 := by cases s <;> decide
    obtain ⟨yb, ey, ly', y1, y2⟩ := copyIn_ok (src := y) (dst := List.replicate 8 0) (p := cx)
      (n := w - cx) (by omega) (by simp; omega)
    obtain ⟨ub, eu, lu', u1, u2⟩ := copyIn_ok (src := u) (dst := List.replicate 8 0) (p := ux)
      (n := chromaStep s (w - cx)) (chroma_tail h1 hlt lu) (by simp; omega)
    obtain ⟨vb, ev, lv', v1, v2⟩ := copyIn_ok (src := v) (dst := List.replicate 8 0) (p := ux)
      (n := chromaStep s (w - cx)) (chroma_tail h1 hlt lv) (by simp; omega)
    rw [List.length_replicate] at ly' lu' lv'
    have e1 := planarBody_eq (rdm := rdm) hb hby ht .s8 s ch (y := yb) (u := ub) (v := vb)
      (fun x hx => (y2 x hx).elim (hy x) (z256 _ x)) (fun x hx => (u2 x hx).elim (hu x) (z256 _ x))
      (fun x hx => (v2 x hx).elim (hv x) (z256 _ x)) (cx := 0) (ux := 0)
      (show 0 + 8 ≤ _ by omega) (show 0 + chromaStep s 8 ≤ _ by omega)
      (show 0 + chromaStep s 8 ≤ _ by omega) (List.replicate 32 0)
    rw [Nat.zero_mul] at e1
    obtain ⟨db, p0, q0⟩ := tailP (px := px rdm false ch rg t) px_length h1 h2 h3 y1 u1 v1 hw
    refine ⟨ux + chromaStep s (w - cx), ?_⟩
    simp only [ey, eu, ev, e1, Outcome.bind_ok, if_neg (show ¬ 8 < w - cx by omega),
      show Step.n .s8 = 8 from rfl, p0, q0, Nat.add_sub_cancel' h2, Outcome.pure_eq]
  · rw [if_neg hlt]
    obtain rfl : cx = w := by omega
    exact ⟨ux, rfl⟩

theorem planarTail420_ok (hb : rg.biasUv = 128) (hby : rg.biasY < 256) (ht : Coef16 t)
    (ch : Channels) {w : Nat} {y0 y1 u v row0 row1 : Buf}
    (hy0 : ∀ x ∈ y0, x < 256) (hy1 : ∀ x ∈ y1, x < 256) (hu : ∀ x ∈ u, x < 256) (hv : ∀ x ∈ v, x < 256)
    (ly0 : w ≤ y0.length) (ly1 : w ≤ y1.length) (lu : (w - 1) / hdiv .yuv420 + 1 ≤ u.length)
    (lv : (w - 1) / hdiv .yuv420 + 1 ≤ v.length) (hw0 : w * ch.count ≤ row0.length)
    (hw1 : w * ch.count ≤ row1.length) {cx ux : Nat}
    (h1 : ux * hdiv .yuv420 = cx) (h2 : cx ≤ w) (h3 : w ≤ cx + 8) :
    ∃ ux', planarTail420 rdm ch rg t w y0 y1 u v
        (painted ch.count (rowP (px rdm true ch rg t) (hdiv .yuv420) y0 u v) cx row0,
          painted ch.count (rowP (px rdm true ch rg t) (hdiv .yuv420) y1 u v) cx row1) cx ux
      = .ok ((painted ch.count (rowP (px rdm true ch rg t) (hdiv .yuv420) y0 u v) w row0,
          painted ch.count (rowP (px rdm true ch rg t) (hdiv .yuv420) y1 u v) w row1), w, ux') := by
  unfold planarTail420
  by_cases hlt : cx < w
  · rw [if_pos hlt]
    have hd : chromaStep .yuv420 (w - cx) ≤ 8 := by simp only [chromaStep, ceil2]; omega
    have h8 : chromaStep .yuv420 8 ≤ 8 := by decide
    obtain ⟨yb0, ey0, ly0', a1, a2⟩ := copyIn_ok (src := y0) (dst := List.replicate 8 0) (p := cx)
      (n := w - cx) (by omega) (by simp; omega)
    obtain ⟨yb1, ey1, ly1', b1, b2⟩ := copyIn_ok (src := y1) (dst := List.replicate 8 0) (p := cx)
      (n := w - cx) (by omega) (by simp; omega)
    obtain ⟨ub, eu, lu', u1, u2⟩ := copyIn_ok (src := u) (dst := List.replicate 8 0) (p := ux)
      (n := chromaStep .yuv420 (w - cx)) (chroma_tail h1 hlt lu) (by simp; omega)
    obtain ⟨vb, ev, lv', v1, v2⟩ := copyIn_ok (src := v) (dst := List.replicate 8 0) (p := ux)
      (n := chromaStep .yuv420 (w - cx)) (chroma_tail h1 hlt lv) (by simp; omega)
    rw [List.length_replicate] at ly0' ly1' lu' lv'
    have e1 := planarBody420_eq (rdm := rdm) hb hby ht .s8 ch (y0 := yb0) (y1 := yb1) (u := ub) (v := vb)
      (fun x hx => (a2 x hx).elim (hy0 x) (z256 _ x)) (fun x hx => (b2 x hx).elim (hy1 x) (z256 _ x))
      (fun x hx => (u2 x hx).elim (hu x) (z256 _ x))
      (fun x hx => (v2 x hx).elim (hv x) (z256 _ x)) (cx := 0) (ux := 0)
      (show 0 + 8 ≤ _ by omega) (show 0 + 8 ≤ _ by omega) (show 0 + chromaStep .yuv420 8 ≤ _ by omega)
      (show 0 + chromaStep .yuv420 8 ≤ _ by omega) (List.replicate 32 0) (List.replicate 32 0)
    rw [Nat.zero_mul] at e1
    obtain ⟨d0, p0, q0⟩ := tailP (px := px rdm true ch rg t) px_length h1 h2 h3 a1 u1 v1 hw0
    obtain ⟨d1, p1, q1⟩ := tailP (px := px rdm true ch rg t) px_length h1 h2 h3 b1 u1 v1 hw1
    refine ⟨ux + chromaStep .yuv420 (w - cx), ?_⟩
    simp only [ey0, ey1, eu, ev, e1, Outcome.bind_ok, if_neg (show ¬ 8 < w - cx by omega),
      show Step.n .s8 = 8 from rfl, p0, q0, p1, q1, Nat.add_sub_cancel' h2, Outcome.pure_eq]
  · rw [if_neg hlt]
    obtain rfl : cx = w := by omega
    exact ⟨ux, rfl⟩

theorem planarLoop (hb : rg.biasUv = 128) (hby : rg.biasY < 256) (ht : Coef16 t) (st : Step)
    (s : Sampling) (ch : Channels) {w : Nat} {y u v row : Buf}
    (hy : ∀ x ∈ y, x < 256) (hu : ∀ x ∈ u, x < 256) (hv : ∀ x ∈ v, x < 256)
    (ly : w ≤ y.length) (lu : (w - 1) / hdiv s + 1 ≤ u.length)
    (lv : (w - 1) / hdiv s + 1 ≤ v.length) (hw : w * ch.count ≤ row.length) {cx0 ux0 : Nat}
    (h0 : ux0 * hdiv s = cx0) (hle : cx0 ≤ w) :
    ∃ cx ux, vwhile st.n (chromaStep s st.n) w (planarBody rdm st s ch rg t y u v) cx0 ux0
        (painted ch.count (rowP (px rdm false ch rg t) (hdiv s) y u v) cx0 row)
        = .ok (painted ch.count (rowP (px rdm false ch rg t) (hdiv s) y u v) cx row, cx, ux) ∧
      ux * hdiv s = cx ∧ cx ≤ w ∧ w ≤ cx + st.n := by
  obtain ⟨hn, hp⟩ := n_half st
  obtain ⟨cx, ux, e, -, h⟩ := paintLoop (step := st.n) (ustep := chromaStep s st.n) (width := w)
    (cn := ch.count) (hd := hdiv s) hp (chromaStep_hdiv s hn)
    (pix := rowP (px rdm false ch rg t) (hdiv s) y u v) (fun _ => px_length ..) (row := row) hw
    (body := planarBody rdm st s ch rg t y u v) (cx0 := cx0) (ux0 := ux0) h0
    (fun cx ux r _ hux hlt => by
      rw [planarBody_eq hb hby ht st s ch hy hu hv (by omega)
        (chroma_room hux hn (by omega) lu hp) (chroma_room hux hn (by omega) lv hp) r,
        stepP_row _ (hdiv_pos s) _ _ _ _ hux]) hle
  exact ⟨cx, ux, e, h⟩

theorem planarRow_ok (hb : rg.biasUv = 128) (hby : rg.biasY < 256) (ht : Coef16 t) (s : Sampling)
    (ch : Channels) {w : Nat} {y u v row : Buf}
    (hy : ∀ x ∈ y, x < 256) (hu : ∀ x ∈ u, x < 256) (hv : ∀ x ∈ v, x < 256)
    (ly : w ≤ y.length) (lu : (w - 1) / hdiv s + 1 ≤ u.length)
    (lv : (w - 1) / hdiv s + 1 ≤ v.length) (hw : w * ch.count ≤ row.length) :
    ∃ ux, planarRow rdm s ch rg t w y u v row 0 0
      = .ok (painted ch.count (rowP (px rdm false ch rg t) (hdiv s) y u v) w row, w, ux) := by
  obtain ⟨c1, u1, e1, g1, l1, -⟩ := planarLoop (rdm := rdm) hb hby ht .s32 s ch hy hu hv ly lu lv hw
    (Nat.zero_mul _) (Nat.zero_le _)
  obtain ⟨c2, u2, e2, g2, l2, -⟩ := planarLoop (rdm := rdm) hb hby ht .s16 s ch hy hu hv ly lu lv hw g1 l1
  obtain ⟨c3, u3, e3, g3, l3, m3⟩ := planarLoop (rdm := rdm) hb hby ht .s8 s ch hy hu hv ly lu lv hw g2 l2
  obtain ⟨u4, e4⟩ := planarTail_ok (rdm := rdm) hb hby ht s ch hy hu hv ly lu lv hw g3 l3 m3
  rw [painted_zero] at e1
  exact ⟨u4, by
    simp only [planarRow]
    rw [show vwhile 32 (chromaStep s 32) w _ 0 0 row = _ from e1, Outcome.bind_ok]
    simp only []
    rw [show vwhile 16 (chromaStep s 16) w _ c1 u1 _ = _ from e2, Outcome.bind_ok]
    simp only []
    rw [show vwhile 8 (chromaStep s 8) w _ c2 u2 _ = _ from e3, Outcome.bind_ok]
    exact e4⟩

theorem planarLoop420 (hb : rg.biasUv = 128) (hby : rg.biasY < 256) (ht : Coef16 t) (st : Step)
    (ch : Channels) {w : Nat} {y0 y1 u v row0 row1 : Buf}
    (hy0 : ∀ x ∈ y0, x < 256) (hy1 : ∀ x ∈ y1, x < 256) (hu : ∀ x ∈ u, x < 256) (hv : ∀ x ∈ v, x < 256)
    (ly0 : w ≤ y0.length) (ly1 : w ≤ y1.length) (lu : (w - 1) / hdiv .yuv420 + 1 ≤ u.length)
    (lv : (w - 1) / hdiv .yuv420 + 1 ≤ v.length) (hw0 : w * ch.count ≤ row0.length)
    (hw1 : w * ch.count ≤ row1.length) {cx0 ux0 : Nat}
    (h0 : ux0 * hdiv .yuv420 = cx0) (hle : cx0 ≤ w) :
    ∃ cx ux, vwhile st.n (chromaStep .yuv420 st.n) w (planarBody420 rdm st ch rg t y0 y1 u v) cx0 ux0
        (painted ch.count (rowP (px rdm true ch rg t) (hdiv .yuv420) y0 u v) cx0 row0,
          painted ch.count (rowP (px rdm true ch rg t) (hdiv .yuv420) y1 u v) cx0 row1)
        = .ok ((painted ch.count (rowP (px rdm true ch rg t) (hdiv .yuv420) y0 u v) cx row0,
          painted ch.count (rowP (px rdm true ch rg t) (hdiv .yuv420) y1 u v) cx row1), cx, ux) ∧
      ux * hdiv .yuv420 = cx ∧ cx ≤ w ∧ w ≤ cx + st.n := by
  obtain ⟨hn, hp⟩ := n_half st
  obtain ⟨cx, ux, e, -, h⟩ := paintLoop2 (step := st.n) (ustep := chromaStep .yuv420 st.n) (width := w)
    (cn := ch.count) (hd := hdiv .yuv420) hp (chromaStep_hdiv .yuv420 hn)
    (pix0 := rowP (px rdm true ch rg t) (hdiv .yuv420) y0 u v)
    (pix1 := rowP (px rdm true ch rg t) (hdiv .yuv420) y1 u v) (fun _ => px_length ..)
    (fun _ => px_length ..) (row0 := row0) (row1 := row1) hw0 hw1
    (body := planarBody420 rdm st ch rg t y0 y1 u v) (cx0 := cx0) (ux0 := ux0) h0
    (fun cx ux r0 r1 _ hux hlt => by
      rw [planarBody420_eq hb hby ht st ch hy0 hy1 hu hv (by omega) (by omega)
        (chroma_room hux hn (by omega) lu hp) (chroma_room hux hn (by omega) lv hp) r0 r1,
        stepP_row _ (hdiv_pos .yuv420) _ _ _ _ hux, stepP_row _ (hdiv_pos .yuv420) _ _ _ _ hux]) hle
  exact ⟨cx, ux, e, h⟩

theorem planarRow420_ok (hb : rg.biasUv = 128) (hby : rg.biasY < 256) (ht : Coef16 t)
    (ch : Channels) {w : Nat} {y0 y1 u v row0 row1 : Buf}
    (hy0 : ∀ x ∈ y0, x < 256) (hy1 : ∀ x ∈ y1, x < 256) (hu : ∀ x ∈ u, x < 256) (hv : ∀ x ∈ v, x < 256)
    (ly0 : w ≤ y0.length) (ly1 : w ≤ y1.length) (lu : (w - 1) / hdiv .yuv420 + 1 ≤ u.length)
    (lv : (w - 1) / hdiv .yuv420 + 1 ≤ v.length) (hw0 : w * ch.count ≤ row0.length)
    (hw1 : w * ch.count ≤ row1.length) :
    ∃ ux, planarRow420 rdm ch rg t w y0 y1 u v row0 row1 0 0
      = .ok ((painted ch.count (rowP (px rdm true ch rg t) (hdiv .yuv420) y0 u v) w row0,
          painted ch.count (rowP (px rdm true ch rg t) (hdiv .yuv420) y1 u v) w row1), w, ux) := by
  obtain ⟨c2, u2, e2, g2, l2, -⟩ := planarLoop420 (rdm := rdm) hb hby ht .s16 ch hy0 hy1 hu hv ly0 ly1 lu lv
    hw0 hw1 (Nat.zero_mul _) (Nat.zero_le _)
  obtain ⟨c3, u3, e3, g3, l3, m3⟩ := planarLoop420 (rdm := rdm) hb hby ht .s8 ch hy0 hy1 hu hv ly0 ly1 lu lv
    hw0 hw1 g2 l2
  obtain ⟨u4, e4⟩ := planarTail420_ok (rdm := rdm) hb hby ht ch hy0 hy1 hu hv ly0 ly1 lu lv hw0 hw1 g3 l3 m3
  rw [painted_zero, painted_zero] at e2
  exact ⟨u4, by
    simp only [planarRow420]
    rw [show vwhile 16 8 w _ 0 0 (row0, row1) = _ from e2, Outcome.bind_ok]
    simp only []
    rw [show vwhile 8 4 w _ c2 u2 _ = _ from e3, Outcome.bind_ok]
    exact e4⟩

theorem rowHandler_fills (s : Sampling) (ch : Channels) {w : Nat}
    (hb : rg.biasUv = 128) (hby : rg.biasY < 256) (ht : Coef16 t) (px0 : Nat → Nat → Nat → Buf) :
    (rowHandler rdm s ch rg t w).Fills true 256 ch.count w (hdiv s) px0
      (fun _ y u v p => p = px rdm false ch rg t y u v) := by
  intro y u v row hy hu hv ly lu lv hw
  obtain ⟨ux, e⟩ := planarRow_ok (rdm := rdm) hb hby ht s ch hy hu hv ly lu lv hw
  exact ⟨_, _, by simp only [rowHandler, done, e, Outcome.bind_ok]; rfl,
    painted_done (X86.count_pos ch) (fun _ => px_length ..) hw (le_refl _) (.inr rfl)
      fun x hx => rfl, fun x h1 h2 => absurd h1.le (by omega)⟩

theorem rowHandler420_fills (ch : Channels) {w : Nat}
    (hb : rg.biasUv = 128) (hby : rg.biasY < 256) (ht : Coef16 t) (px0 : Nat → Nat → Nat → Buf) :
    (rowHandler420 rdm .yuv420 ch rg t w).Fills 256 ch.count w px0
      (fun _ y u v p => p = px rdm true ch rg t y u v) := by
  intro y0 y1 u v row0 row1 hy0 hy1 hu hv ly0 ly1 lu lv hw0 hw1
  obtain ⟨ux, e⟩ := planarRow420_ok (rdm := rdm) hb hby ht ch hy0 hy1 hu hv ly0 ly1 lu lv hw0 hw1
  exact ⟨_, _, _, by simp only [rowHandler420, e, Outcome.bind_ok]; rfl,
    painted_done (X86.count_pos ch) (fun _ => px_length ..) hw0 (le_refl _) (.inr rfl) fun x hx => rfl,
    painted_done (X86.count_pos ch) (fun _ => px_length ..) hw1 (le_refl _) (.inr rfl) fun x hx => rfl,
    fun y _ x h1 h2 => absurd h1 (by omega)⟩

/-! ## Semi-planar -/

theorem nvBody_eq (hb : rg.biasUv = 128) (hby : rg.biasY < 256) (ht : Coef16 t) (st : Step)
    (s : Sampling) (o : NVOrder) (ch : Channels) {y uv : Buf} (hy : ∀ x ∈ y, x < 256)
    (hu : ∀ x ∈ uv, x < 256) {cx ux : Nat} (ly : cx + st.n ≤ y.length)
    (lu : ux + nvStep s st.n ≤ uv.length) (row : Buf) :
    nvBody rdm st s o ch rg t y uv cx ux row = put row (cx * ch.count)
      (stepPx (px rdm false ch rg t) (hdiv s) st.n o y uv cx ux) := by
  obtain ⟨yr, ey, y1, y2⟩ := load_at ly hy
  obtain ⟨c, ec, c1, c2⟩ := nvChroma_at hb o hu lu
  rw [nvBody, ey, Outcome.bind_ok, ec, Outcome.bind_ok,
    step_put hby ht ch y2 y1 (fun i _ => getD_lt (by decide) hu) (fun i _ => getD_lt (by decide) hu) c1 c2]
  rfl

theorem nvBody420_eq (hb : rg.biasUv = 128) (hby : rg.biasY < 256) (ht : Coef16 t) (st : Step)
    (o : NVOrder) (ch : Channels) {y0 y1 uv : Buf} (hy0 : ∀ x ∈ y0, x < 256) (hy1 : ∀ x ∈ y1, x < 256)
    (hu : ∀ x ∈ uv, x < 256) {cx ux : Nat} (ly0 : cx + st.n ≤ y0.length) (ly1 : cx + st.n ≤ y1.length)
    (lu : ux + st.n ≤ uv.length) (r0 r1 : Buf) :
    nvBody420 rdm st o ch rg t y0 y1 uv cx ux (r0, r1) = (do
      let a ← put r0 (cx * ch.count) (stepPx (px rdm true ch rg t) (hdiv .yuv420) st.n o y0 uv cx ux)
      let b ← put r1 (cx * ch.count) (stepPx (px rdm true ch rg t) (hdiv .yuv420) st.n o y1 uv cx ux)
      return (a, b)) := by
  obtain ⟨yr0, e0, a1, a2⟩ := load_at ly0 hy0
  obtain ⟨yr1, e1, b1, b2⟩ := load_at ly1 hy1
  obtain ⟨c, ec, c1, c2⟩ := nvChroma2_at hb o hu lu
  rw [nvBody420, e0, Outcome.bind_ok, e1, Outcome.bind_ok, ec, Outcome.bind_ok]
  simp only [step_put hby ht ch a2 a1 (fun i _ => getD_lt (by decide) hu)
      (fun i _ => getD_lt (by decide) hu) c1 c2,
    step_put hby ht ch b2 b1 (fun i _ => getD_lt (by decide) hu) (fun i _ => getD_lt (by decide) hu) c1 c2]
  rfl

theorem nvLoop (hb : rg.biasUv = 128) (hby : rg.biasY < 256) (ht : Coef16 t) (st : Step)
    (s : Sampling) (o : NVOrder) (ch : Channels) {w : Nat} {y uv row : Buf}
    (hy : ∀ x ∈ y, x < 256) (hu : ∀ x ∈ uv, x < 256)
    (ly : w ≤ y.length) (lu : 2 * ((w - 1) / hdiv s + 1) ≤ uv.length)
    (hw : w * ch.count ≤ row.length) {cx0 ux0 : Nat} (h0 : AtPair (hdiv s) cx0 ux0) (hle : cx0 ≤ w) :
    ∃ cx ux, vwhile st.n (nvStep s st.n) w (nvBody rdm st s o ch rg t y uv) cx0 ux0
        (painted ch.count (X86.rowPx (px rdm false ch rg t) (hdiv s) o y uv) cx0 row)
        = .ok (painted ch.count (X86.rowPx (px rdm false ch rg t) (hdiv s) o y uv) cx row, cx, ux) ∧
      AtPair (hdiv s) cx ux ∧ cx ≤ w ∧ w ≤ cx + st.n := by
  obtain ⟨hn, hp⟩ := n_half st
  obtain ⟨cx, ux, e, -, h⟩ := paintLoopI (step := st.n) (ustep := nvStep s st.n) (width := w)
    (cn := ch.count) (I := AtPair (hdiv s)) hp (fun cx ux h => h.step hn)
    (pix := X86.rowPx (px rdm false ch rg t) (hdiv s) o y uv) (fun _ => px_length ..) (row := row) hw
    (body := nvBody rdm st s o ch rg t y uv) (cx0 := cx0) (ux0 := ux0) h0
    (fun cx ux r _ hux hlt => by
      rw [nvBody_eq hb hby ht st s o ch hy hu (by omega) (nv_room hux hn (by omega) lu hp) r,
        stepPx_row _ (hdiv_pos s) _ _ _ _ hux]) hle
  exact ⟨cx, ux, e, h⟩

theorem nvRow_ok (hb : rg.biasUv = 128) (hby : rg.biasY < 256) (ht : Coef16 t) (s : Sampling)
    (o : NVOrder) (ch : Channels) {w : Nat} {y uv row : Buf}
    (hy : ∀ x ∈ y, x < 256) (hu : ∀ x ∈ uv, x < 256)
    (ly : w ≤ y.length) (lu : 2 * ((w - 1) / hdiv s + 1) ≤ uv.length)
    (hw : w * ch.count ≤ row.length) :
    ∃ ux, nvRow rdm s o ch rg t w y uv row 0 0
      = .ok (painted ch.count (X86.rowPx (px rdm false ch rg t) (hdiv s) o y uv) w row, w, ux) := by
  obtain ⟨c1, u1, e1, g1, l1, -⟩ := nvLoop (rdm := rdm) hb hby ht .s32 s o ch hy hu ly lu hw
    (.zero _) (Nat.zero_le _)
  obtain ⟨c2, u2, e2, g2, l2, -⟩ := nvLoop (rdm := rdm) hb hby ht .s16 s o ch hy hu ly lu hw g1 l1
  obtain ⟨c3, u3, e3, g3, l3, m3⟩ := nvLoop (rdm := rdm) hb hby ht .s8 s o ch hy hu ly lu hw g2 l2
  obtain ⟨u4, e4⟩ := nvTailPx_ok (n := 8) (N := 8) (px := px rdm false ch rg t) px_length (le_refl _)
    rfl s o hy hu (f := fun yb ub d => nvBody rdm .s8 s o ch rg t yb ub 0 0 d)
    (fun y uv d h1 h2 h3 h4 => by
      have := nvBody_eq (rdm := rdm) hb hby ht .s8 s o ch h1 h2 (cx := 0) (ux := 0)
        (show 0 + 8 ≤ _ by omega)
        (show 0 + nvStep s 8 ≤ _ by
          have : nvStep s 8 ≤ 16 := by cases s <;> decide
          omega) d
      rw [Nat.zero_mul] at this
      exact this) ly lu hw g3 l3 m3
  rw [painted_zero] at e1
  exact ⟨u4, by
    simp only [nvRow]
    rw [show vwhile 32 (nvStep s 32) w _ 0 0 row = _ from e1, Outcome.bind_ok]
    simp only []
    rw [show vwhile 16 (nvStep s 16) w _ c1 u1 _ = _ from e2, Outcome.bind_ok]
    simp only []
    rw [show vwhile 8 (nvStep s 8) w _ c2 u2 _ = _ from e3, Outcome.bind_ok]
    exact e4⟩

theorem nvTail420_ok (hb : rg.biasUv = 128) (hby : rg.biasY < 256) (ht : Coef16 t) (o : NVOrder)
    (ch : Channels) {w : Nat} {y0 y1 uv row0 row1 : Buf}
    (hy0 : ∀ x ∈ y0, x < 256) (hy1 : ∀ x ∈ y1, x < 256) (hu : ∀ x ∈ uv, x < 256)
    (ly0 : w ≤ y0.length) (ly1 : w ≤ y1.length) (lu : 2 * ((w - 1) / hdiv .yuv420 + 1) ≤ uv.length)
    (hw0 : w * ch.count ≤ row0.length)
    (hw1 : w * ch.count ≤ row1.length) {cx ux : Nat}
    (h1 : AtPair (hdiv .yuv420) cx ux) (h2 : cx ≤ w) (h3 : w ≤ cx + 8) :
    ∃ ux', nvTail420 rdm o ch rg t w y0 y1 uv
        (painted ch.count (X86.rowPx (px rdm true ch rg t) (hdiv .yuv420) o y0 uv) cx row0,
          painted ch.count (X86.rowPx (px rdm true ch rg t) (hdiv .yuv420) o y1 uv) cx row1) cx ux
      = .ok ((painted ch.count (X86.rowPx (px rdm true ch rg t) (hdiv .yuv420) o y0 uv) w row0,
          painted ch.count (X86.rowPx (px rdm true ch rg t) (hdiv .yuv420) o y1 uv) w row1), w, ux') := by
  unfold nvTail420
  by_cases hlt : cx < w
  · rw [if_pos hlt]
    have hd : nvStep .yuv420 (w - cx) ≤ 8 := by
      simp only [nvStep, chromaStep, ceil2]; omega
    obtain ⟨yb0, ey0, ly0', a1, a2⟩ := copyIn_ok (src := y0) (dst := List.replicate 8 0) (p := cx)
      (n := w - cx) (by omega) (by simp; omega)
    obtain ⟨yb1, ey1, ly1', b1, b2⟩ := copyIn_ok (src := y1) (dst := List.replicate 8 0) (p := cx)
      (n := w - cx) (by omega) (by simp; omega)
    obtain ⟨ub, eu, lu', u1, u2⟩ := copyIn_ok (src := uv) (dst := List.replicate 8 0) (p := ux)
      (n := nvStep .yuv420 (w - cx)) (nv_tail_room h1 hlt lu) (by simp; omega)
    rw [List.length_replicate] at ly0' ly1' lu'
    have e1 := nvBody420_eq (rdm := rdm) hb hby ht .s8 o ch (y0 := yb0) (y1 := yb1) (uv := ub)
      (fun x hx => (a2 x hx).elim (hy0 x) (z256 _ x)) (fun x hx => (b2 x hx).elim (hy1 x) (z256 _ x))
      (fun x hx => (u2 x hx).elim (hu x) (z256 _ x)) (cx := 0) (ux := 0)
      (show 0 + 8 ≤ _ by omega) (show 0 + 8 ≤ _ by omega) (show 0 + 8 ≤ _ by omega)
      (List.replicate 32 0) (List.replicate 32 0)
    rw [Nat.zero_mul] at e1
    obtain ⟨d0, p0, q0⟩ := tailPut (n := 8) (N := 8) (px := px rdm true ch rg t) px_length (le_refl _)
      (o := o) h1 h2 h3 a1 u1 hw0
    obtain ⟨d1, p1, q1⟩ := tailPut (n := 8) (N := 8) (px := px rdm true ch rg t) px_length (le_refl _)
      (o := o) h1 h2 h3 b1 u1 hw1
    refine ⟨ux + nvStep .yuv420 (w - cx), ?_⟩
    simp only [show 8 * 4 = 32 from rfl] at p0 p1
    simp only [ey0, ey1, eu, e1, Outcome.bind_ok, if_neg (show ¬ 8 < w - cx by omega),
      show Step.n .s8 = 8 from rfl, p0, q0, p1, q1, Nat.add_sub_cancel' h2, Outcome.pure_eq]
  · rw [if_neg hlt]
    obtain rfl : cx = w := by omega
    exact ⟨ux, rfl⟩

theorem nvLoop420 (hb : rg.biasUv = 128) (hby : rg.biasY < 256) (ht : Coef16 t) (st : Step)
    (o : NVOrder) (ch : Channels) {w : Nat} {y0 y1 uv row0 row1 : Buf}
    (hy0 : ∀ x ∈ y0, x < 256) (hy1 : ∀ x ∈ y1, x < 256) (hu : ∀ x ∈ uv, x < 256)
    (ly0 : w ≤ y0.length) (ly1 : w ≤ y1.length) (lu : 2 * ((w - 1) / hdiv .yuv420 + 1) ≤ uv.length)
    (hw0 : w * ch.count ≤ row0.length) (hw1 : w * ch.count ≤ row1.length) {cx0 ux0 : Nat}
    (h0 : AtPair (hdiv .yuv420) cx0 ux0) (hle : cx0 ≤ w) :
    ∃ cx ux, vwhile st.n st.n w (nvBody420 rdm st o ch rg t y0 y1 uv) cx0 ux0
        (painted ch.count (X86.rowPx (px rdm true ch rg t) (hdiv .yuv420) o y0 uv) cx0 row0,
          painted ch.count (X86.rowPx (px rdm true ch rg t) (hdiv .yuv420) o y1 uv) cx0 row1)
        = .ok ((painted ch.count (X86.rowPx (px rdm true ch rg t) (hdiv .yuv420) o y0 uv) cx row0,
          painted ch.count (X86.rowPx (px rdm true ch rg t) (hdiv .yuv420) o y1 uv) cx row1), cx, ux) ∧
      AtPair (hdiv .yuv420) cx ux ∧ cx ≤ w ∧ w ≤ cx + st.n := by
  obtain ⟨hn, hp⟩ := n_half st
  have hs : nvStep .yuv420 st.n = st.n := by simp only [nvStep, chromaStep, ceil2]; omega
  obtain ⟨cx, ux, e, -, h⟩ := paintLoopI2 (step := st.n) (ustep := st.n) (width := w)
    (cn := ch.count) (I := AtPair (hdiv .yuv420)) hp
    (fun cx ux h => by have := h.step (s := .yuv420) hn; rwa [hs] at this)
    (pix0 := X86.rowPx (px rdm true ch rg t) (hdiv .yuv420) o y0 uv)
    (pix1 := X86.rowPx (px rdm true ch rg t) (hdiv .yuv420) o y1 uv) (fun _ => px_length ..)
    (fun _ => px_length ..) (row0 := row0) (row1 := row1) hw0 hw1
    (body := nvBody420 rdm st o ch rg t y0 y1 uv) (cx0 := cx0) (ux0 := ux0) h0
    (fun cx ux r0 r1 _ hux hlt => by
      have room := nv_room hux hn (by omega) lu hp
      rw [hs] at room
      rw [nvBody420_eq hb hby ht st o ch hy0 hy1 hu (by omega) (by omega) room r0 r1,
        stepPx_row _ (hdiv_pos .yuv420) _ _ _ _ hux, stepPx_row _ (hdiv_pos .yuv420) _ _ _ _ hux]) hle
  exact ⟨cx, ux, e, h⟩

theorem nvRow420_ok (hb : rg.biasUv = 128) (hby : rg.biasY < 256) (ht : Coef16 t) (o : NVOrder)
    (ch : Channels) {w : Nat} {y0 y1 uv row0 row1 : Buf}
    (hy0 : ∀ x ∈ y0, x < 256) (hy1 : ∀ x ∈ y1, x < 256) (hu : ∀ x ∈ uv, x < 256)
    (ly0 : w ≤ y0.length) (ly1 : w ≤ y1.length) (lu : 2 * ((w - 1) / hdiv .yuv420 + 1) ≤ uv.length)
    (hw0 : w * ch.count ≤ row0.length) (hw1 : w * ch.count ≤ row1.length) :
    ∃ ux, nvRow420 rdm o ch rg t w y0 y1 uv row0 row1 0 0
      = .ok ((painted ch.count (X86.rowPx (px rdm true ch rg t) (hdiv .yuv420) o y0 uv) w row0,
          painted ch.count (X86.rowPx (px rdm true ch rg t) (hdiv .yuv420) o y1 uv) w row1), w, ux) := by
  obtain ⟨c1, u1, e1, g1, l1, -⟩ := nvLoop420 (rdm := rdm) hb hby ht .s32 o ch hy0 hy1 hu ly0 ly1 lu
    hw0 hw1 (.zero _) (Nat.zero_le _)
  obtain ⟨c2, u2, e2, g2, l2, -⟩ := nvLoop420 (rdm := rdm) hb hby ht .s16 o ch hy0 hy1 hu ly0 ly1 lu
    hw0 hw1 g1 l1
  obtain ⟨c3, u3, e3, g3, l3, m3⟩ := nvLoop420 (rdm := rdm) hb hby ht .s8 o ch hy0 hy1 hu ly0 ly1 lu
    hw0 hw1 g2 l2
  obtain ⟨u4, e4⟩ := nvTail420_ok (rdm := rdm) hb hby ht o ch hy0 hy1 hu ly0 ly1 lu hw0 hw1 g3 l3 m3
  rw [painted_zero, painted_zero] at e1
  exact ⟨u4, by
    simp only [nvRow420]
    rw [show vwhile 32 32 w _ 0 0 (row0, row1) = _ from e1, Outcome.bind_ok]
    simp only []
    rw [show vwhile 16 16 w _ c1 u1 _ = _ from e2, Outcome.bind_ok]
    simp only []
    rw [show vwhile 8 8 w _ c2 u2 _ = _ from e3, Outcome.bind_ok]
    exact e4⟩

theorem rowHandlerNV_fills (o : NVOrder) (s : Sampling) (ch : Channels) {w : Nat}
    (hb : rg.biasUv = 128) (hby : rg.biasY < 256) (ht : Coef16 t) (px0 : Nat → Nat → Nat → Buf) :
    (rowHandlerNV rdm o s ch rg t w).Fills true 256 ch.count w (hdiv s) o.uPos o.vPos px0
      (fun _ y u v p => p = px rdm false ch rg t y u v) := by
  intro y uv row hy hu ly lu hw
  obtain ⟨ux, e⟩ := nvRow_ok (rdm := rdm) hb hby ht s o ch hy hu ly lu hw
  exact ⟨_, _, by simp only [rowHandlerNV, done, e, Outcome.bind_ok]; rfl,
    painted_done (X86.count_pos ch) (fun _ => px_length ..) hw (le_refl _) (.inr rfl)
      fun x hx => rfl, fun x h1 h2 => absurd h1.le (by omega)⟩

theorem rowHandlerNV420_fills (o : NVOrder) (ch : Channels) {w : Nat}
    (hb : rg.biasUv = 128) (hby : rg.biasY < 256) (ht : Coef16 t) (px0 : Nat → Nat → Nat → Buf) :
    (rowHandlerNV420 rdm o .yuv420 ch rg t w).Fills 256 ch.count w o.uPos o.vPos px0
      (fun _ y u v p => p = px rdm true ch rg t y u v) := by
  intro y0 y1 uv row0 row1 hy0 hy1 hu ly0 ly1 lu hw0 hw1
  obtain ⟨ux, e⟩ := nvRow420_ok (rdm := rdm) hb hby ht o ch hy0 hy1 hu ly0 ly1 lu hw0 hw1
  exact ⟨_, _, _, by simp only [rowHandlerNV420, e, Outcome.bind_ok]; rfl,
    painted_done (X86.count_pos ch) (fun _ => px_length ..) hw0 (le_refl _) (.inr rfl) fun x hx => rfl,
    painted_done (X86.count_pos ch) (fun _ => px_length ..) hw1 (le_refl _) (.inr rfl) fun x hx => rfl,
    fun y _ x h1 h2 => absurd h1 (by omega)⟩

/-! ## Grey -/

/-- The grey level of a luma sample above its offset. -/
def grayLev (rdm : Bool) (t : InvCoef) (yo : Nat) : Nat := byteSat (neonLuma rdm t yo)

theorem grey16_at (hty : -32767 ≤ t.y ∧ t.y ≤ 32767) {y : Reg} (hy : ∀ i, i < 16 → y i < 256) {i : Nat}
    (hi : i < 16) : grey16 rdm t y i = grayLev rdm t (y i) := by
  unfold grey16 qmovun grayLev neonLuma
  have hyi := hy i hi
  split
  · have e := s16_expandLow (k := i) (by omega) hyi
    rw [s16_mulh (by rw [e]; omega) hty, e]; rfl
  · have e8 : 8 + (i - 8) = i := by omega
    have e := s16_expandHigh (a := y) (k := i - 8) (by rw [e8]; exact hyi)
    rw [e8] at e
    rw [s16_mulh (by rw [e]; omega) hty, e]; rfl

theorem grey8_at (hty : -32767 ≤ t.y ∧ t.y ≤ 32767) {y : Reg} (hy : ∀ i, i < 8 → y i < 256) {i : Nat}
    (hi : i < 8) : grey8 rdm t y i = grayLev rdm t (y i) := by
  unfold grey8 qmovun grayLev neonLuma
  have hyi := hy i hi
  have e := s16_expandLow (k := i) hi hyi
  rw [if_pos hi, s16_mulh (by rw [e]; omega) hty, e]; rfl

theorem grayBody_eq (hby : rg.biasY < 256) (hty : -32767 ≤ t.y ∧ t.y ≤ 32767) (st : Step)
    (ch : Channels) {y : Buf} (hy : ∀ x ∈ y, x < 256) {cx : Nat} (ly : cx + st.n ≤ y.length) (p : Nat)
    (row : Buf) :
    grayBody rdm st ch rg t y cx p row
      = put row p (grayStep ch (fun y => grayLev rdm t (y - rg.biasY)) st.n y none cx) := by
  obtain ⟨yr, ey, y1, y2⟩ := load_at ly hy
  have h256 : ∀ i, subsU8 yr (set1_8 rg.biasY) i < 256 := by
    intro i; rw [subsU8_at hby]; have := y2 i; omega
  rw [grayBody, ey, Outcome.bind_ok]
  cases st
  · have ly' : cx + 32 ≤ y.length := ly
    simp only [storeRgb_eq]
    rw [put_put _ _ _ _ _ (by
      unfold X86.pixels
      rw [flatMap_length (cn := ch.count) (fun j _ => layout_length' ..), Nat.mul_comm])]
    rw [show Step.n .s32 = 16 + 16 from rfl, ← grayStep_append]
    rw [grayStep_of ch (L := fun y => grayLev rdm t (y - rg.biasY)) (y := y) (a := none) (cx := cx)
        (n := 16) (v := grey16 rdm t (subsU8 yr (set1_8 rg.biasY))) (av := set1_8 255) ?_ (fun _ _ => rfl),
      grayStep_of ch (L := fun y => grayLev rdm t (y - rg.biasY)) (y := y) (a := none) (cx := cx + 16)
        (n := 16) (v := grey16 rdm t (upper 16 (subsU8 yr (set1_8 rg.biasY)))) (av := set1_8 255) ?_
        (fun _ _ => rfl)]
    · intro i hi
      rw [grey16_at (y := upper 16 (subsU8 yr (set1_8 rg.biasY))) hty (fun i _ => h256 _) hi, upper, subsU8_at hby, y1 _ (show 16 + i < 32 by omega),
        show cx + (16 + i) = cx + 16 + i by omega]
    · intro i hi
      rw [grey16_at hty (fun i _ => h256 _) hi, subsU8_at hby, y1 _ (show i < 32 by omega)]
  · simp only [storeRgb_eq]
    refine congrArg (put row p) ?_
    refine grayStep_of ch (L := fun y => grayLev rdm t (y - rg.biasY)) (y := y) (a := none) (cx := cx)
        (n := 16) (v := grey16 rdm t (subsU8 yr (set1_8 rg.biasY))) (av := set1_8 255) ?_
        (fun _ _ => rfl)
    intro i hi
    rw [grey16_at hty (fun i _ => h256 _) hi, subsU8_at hby, y1 _ hi]
  · simp only [storeRgb_eq]
    refine congrArg (put row p) ?_
    refine grayStep_of ch (L := fun y => grayLev rdm t (y - rg.biasY)) (y := y) (a := none) (cx := cx)
        (n := 8) (v := grey8 rdm t (subsU8 yr (set1_8 rg.biasY))) (av := set1_8 255) ?_
        (fun _ _ => rfl)
    intro i hi
    rw [grey8_at hty (fun i _ => h256 _) hi, subsU8_at hby, y1 _ hi]

theorem grayRow_ok (hby : rg.biasY < 256) (hty : -32767 ≤ t.y ∧ t.y ≤ 32767) (ch : Channels) {w : Nat}
    (h0 : 0 < w) {y row : Buf} (hy : ∀ x ∈ y, x < 256) (ly : w ≤ y.length)
    (hw : w * ch.count ≤ row.length) :
    grayRow rdm ch rg t w y row 0
      = .ok (painted ch.count (grayRowPix ch (fun _ y => grayLev rdm t (y - rg.biasY)) y none) w row) := by
  have loop : ∀ (st : Step) (c0 : Nat), c0 < w → ∃ c, vwhile st.n 0 w
      (fun cx _ row => grayBody rdm st ch rg t y cx (cx * ch.count) row) c0 0
        (painted ch.count (grayRowPix ch (fun _ y => grayLev rdm t (y - rg.biasY)) y none) c0 row)
      = .ok (painted ch.count (grayRowPix ch (fun _ y => grayLev rdm t (y - rg.biasY)) y none) c row, c, 0) ∧
      c < w ∧ w ≤ c + st.n := by
    intro st c0 hc0
    have hp := (n_half st).2
    obtain ⟨c, e, k, -, l⟩ := grayLoop (step := st.n) (A := 1) hp (Nat.mod_one _)
      (L := fun _ y => grayLev rdm t (y - rg.biasY)) (M := fun y => grayLev rdm t (y - rg.biasY)) (y := y)
      (a := none) hw (body := fun cx r => grayBody rdm st ch rg t y cx (cx * ch.count) r) (cx0 := c0)
      (Nat.mod_one _) hc0
      (fun cx r _ h => grayBody_eq hby hty st ch hy (by omega) _ r) (fun _ _ _ => rfl)
    refine ⟨c, e, l, ?_⟩
    have h1 := Nat.div_add_mod (w - 1 - c0) st.n
    have h2 := Nat.mod_lt (w - 1 - c0) hp
    rw [Nat.mul_comm] at h1
    omega
  obtain ⟨c1, e1, l1, -⟩ := loop .s32 0 h0
  obtain ⟨c2, e2, l2, -⟩ := loop .s16 c1 l1
  obtain ⟨c3, e3, l3, m3⟩ := loop .s8 c2 l2
  rw [painted_zero] at e1
  simp only [grayRow]
  rw [show vwhile 32 0 w _ 0 0 row = _ from e1, Outcome.bind_ok]
  simp only []
  rw [show vwhile 16 0 w _ c1 0 _ = _ from e2, Outcome.bind_ok]
  simp only []
  rw [show vwhile 8 0 w _ c2 0 _ = _ from e3, Outcome.bind_ok]
  exact grayTail_ok (n := 8) (M := fun y => grayLev rdm t (y - rg.biasY)) hy
    (fun y d hy ly => grayBody_eq hby hty .s8 ch hy (show 0 + 8 ≤ _ by omega) _ d) ly hw l3 m3
    (fun _ _ _ => rfl)

theorem grayHandler_fills (ch : Channels) (m : Matrix) {w : Nat} (h0 : 0 < w) {s : Src}
    (hs : s.cn = 1) :
    (grayHandler rdm ch (getYuvRange 8 .limited) (searchInverse 13 8 .limited m) w).Fills 256 w ch.count
      [s] (fun px => layout ch (grayLevel 8 .limited m (comp px 0 0)) (grayLevel 8 .limited m (comp px 0 0))
        (grayLevel 8 .limited m (comp px 0 0)) 255)
      (fun _ px p => p = grayPix ch (neonGray rdm m (comp px 0 0)) 255) := by
  intro rows row h1 h2 h3
  obtain ⟨y, rfl⟩ := rows_one h1
  obtain ⟨ly, hy⟩ := h2 s y (by simp)
  rw [hs, Nat.mul_one] at ly
  have hby : (getYuvRange 8 .limited).biasY < 256 := by decide
  have hc := grayCoef_search m
  unfold GrayCoef at hc
  have e := grayRow_ok (rdm := rdm) hby (t := searchInverse 13 8 .limited m) (by omega) ch h0 hy ly h3
  refine ⟨_, w, by simp only [grayHandler, List.getD_cons_zero, e, Outcome.bind_ok]; rfl,
    painted_done (X86.count_pos ch) (fun _ => grayRowPix_length ..) h3 (le_refl _) (.inr rfl)
      fun x hx => ?_, fun x h4 h5 => absurd h4 (by omega)⟩
  show _ = grayPix _ _ _
  rw [comp_plane hs (by omega)]; rfl

end Verif.Neon
