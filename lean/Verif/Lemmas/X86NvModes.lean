import Verif.Model.X86NvModes
import Verif.Lemmas.X86NvHandlers
import Verif.Lemmas.X86Wide
/-! # A semi-planar kernel whose steps are right is a right row handler -/
namespace Verif.X86
open Spec

/-- What a body of `n` pixels stores when pixel `(y, u, v)` is `px y u v`. -/
def stepPx (px : Nat → Nat → Nat → Buf) (hd n : Nat) (o : NVOrder) (y uv : Buf) (cx ux : Nat) : Buf :=
  (List.range n).flatMap fun j => px (y.getD (cx + j) 0)
    (uv.getD (ux + (2 * (j / hd) + o.uPos)) 0) (uv.getD (ux + (2 * (j / hd) + o.vPos)) 0)

/-- Pixel `x` of a row. -/
def rowPx (px : Nat → Nat → Nat → Buf) (hd : Nat) (o : NVOrder) (y uv : Buf) (x : Nat) : Buf :=
  px (y.getD x 0) (uv.getD (2 * (x / hd) + o.uPos) 0) (uv.getD (2 * (x / hd) + o.vPos) 0)

theorem stepPx_row (px : Nat → Nat → Nat → Buf) {hd : Nat} (hhd : 0 < hd) (n : Nat)
    (o : NVOrder) (y uv : Buf) {cx ux : Nat} (h : AtPair hd cx ux) :
    stepPx px hd n o y uv cx ux = (List.range n).flatMap fun j => rowPx px hd o y uv (cx + j) := by
  obtain ⟨k, rfl, rfl⟩ := h
  apply range_flatMap_congr
  intro j _
  have e : (k * hd + j) / hd = k + j / hd := by
    rw [Nat.add_comm, Nat.add_mul_div_right _ _ hhd, Nat.add_comm]
  have e1 : ∀ b, 2 * k + (2 * (j / hd) + b) = 2 * (k + j / hd) + b := by intro b; omega
  simp only [rowPx, e, e1]

/-- The pixels of the stack buffers are those of the row. -/
theorem tailPx {s : Sampling} (px : Nat → Nat → Nat → Buf) {w cx ux : Nat} {o : NVOrder}
    {y uv yb uvb : Buf} (h1 : AtPair (hdiv s) cx ux)
    (y1 : ∀ i, i < w - cx → yb.getD i 0 = y.getD (cx + i) 0)
    (u1 : ∀ i, i < nvStep s (w - cx) → uvb.getD i 0 = uv.getD (ux + i) 0) :
    stepPx px (hdiv s) (w - cx) o yb uvb 0 0
      = (List.range (w - cx)).flatMap fun j => rowPx px (hdiv s) o y uv (cx + j) := by
  rw [← stepPx_row px (hdiv_pos s) _ o y uv h1]
  apply range_flatMap_congr
  intro j hj
  have hup := uPos_lt o
  have hvp := vPos_lt o
  have hc : 2 * (j / hdiv s) + 1 < nvStep s (w - cx) := by
    cases s <;> simp only [hdiv, chromaStep, ceil2, nvStep] <;> omega
  rw [Nat.zero_add, Nat.zero_add, Nat.zero_add, y1 j hj, u1 _ (by omega), u1 _ (by omega)]

section
variable {ch : Channels} {px : Nat → Nat → Nat → Buf} (hpx : ∀ y u v, (px y u v).length = ch.count)
include hpx

/-- One row of a stack buffer: the pixels copied out are those of the row. -/
theorem tailPut {n N w cx ux : Nat} (hN : n ≤ N) {s : Sampling} {o : NVOrder} {y uv yb ub row : Buf}
    (h1 : AtPair (hdiv s) cx ux) (h2 : cx ≤ w) (h3 : w ≤ cx + n)
    (y1 : ∀ i, i < w - cx → yb.getD i 0 = y.getD (cx + i) 0)
    (u1 : ∀ i, i < nvStep s (w - cx) → ub.getD i 0 = uv.getD (ux + i) 0)
    (hw : w * ch.count ≤ row.length) :
    ∃ db, put (List.replicate (N * 4) 0) 0 (stepPx px (hdiv s) n o yb ub 0 0) = .ok db ∧
      copyOut db ((w - cx) * ch.count) (painted ch.count (rowPx px (hdiv s) o y uv) cx row)
        (cx * ch.count) = .ok (painted ch.count (rowPx px (hdiv s) o y uv) w row) := by
  have e2 := copyOut_put (N := n) (L := N * 4) (n := w - cx) (cn := ch.count)
    (Nat.mul_le_mul hN (count_le ch)) (by omega)
    (f := fun j => px (yb.getD (0 + j) 0)
      (ub.getD (0 + (2 * (j / hdiv s) + o.uPos)) 0) (ub.getD (0 + (2 * (j / hdiv s) + o.vPos)) 0))
    (fun j => hpx _ _ _) (painted ch.count (rowPx px (hdiv s) o y uv) cx row) (cx * ch.count)
  have e3 := tailPx px (o := o) h1 y1 u1
  rw [show ((List.range (w - cx)).flatMap fun j => px (yb.getD (0 + j) 0)
      (ub.getD (0 + (2 * (j / hdiv s) + o.uPos)) 0) (ub.getD (0 + (2 * (j / hdiv s) + o.vPos)) 0))
      = _ from e3, painted_put (pix := rowPx px (hdiv s) o y uv) (fun j => hpx _ _ _)
      (by rw [Nat.add_sub_cancel' h2]; exact hw),
    Nat.add_sub_cancel' h2] at e2
  have e4 : (put (List.replicate (N * 4) 0) 0 (stepPx px (hdiv s) n o yb ub 0 0) >>= fun db =>
      copyOut db ((w - cx) * ch.count) (painted ch.count (rowPx px (hdiv s) o y uv) cx row)
        (cx * ch.count)) = .ok (painted ch.count (rowPx px (hdiv s) o y uv) w row) := e2
  cases hp : put (List.replicate (N * 4) 0) 0 (stepPx px (hdiv s) n o yb ub 0 0) with
  | ok db => rw [hp, Outcome.bind_ok] at e4; exact ⟨db, rfl, e4⟩
  | err x => rw [hp] at e4; cases e4
  | panic => rw [hp] at e4; cases e4

theorem nvTailPx_ok {n N : Nat} (hnN : n ≤ N) (hN : N % 2 = 0) (s : Sampling) (o : NVOrder) {w : Nat}
    {f : Buf → Buf → Buf → Outcome Buf} {y uv row : Buf}
    (hy : ∀ x ∈ y, x < 256) (hu : ∀ x ∈ uv, x < 256)
    (hf : ∀ y uv d : Buf, (∀ x ∈ y, x < 256) → (∀ x ∈ uv, x < 256) →
      y.length = N → uv.length = N * 2 → f y uv d = put d 0 (stepPx px (hdiv s) n o y uv 0 0))
    (ly : w ≤ y.length) (lu : 2 * ((w - 1) / hdiv s + 1) ≤ uv.length)
    (hw : w * ch.count ≤ row.length) {cx ux : Nat}
    (h1 : AtPair (hdiv s) cx ux) (h2 : cx ≤ w) (h3 : w ≤ cx + n) :
    ∃ ux', nvTailRow N s ch w f y uv (painted ch.count (rowPx px (hdiv s) o y uv) cx row) cx ux
      = .ok (painted ch.count (rowPx px (hdiv s) o y uv) w row, w, ux') := by
  unfold nvTailRow
  by_cases hlt : cx < w
  · rw [if_pos hlt]
    have hd : nvStep s (w - cx) ≤ N * 2 := by
      cases s <;> simp only [nvStep, chromaStep, ceil2] <;> omega
    obtain ⟨yb, ey, ly', y1, y2⟩ := copyIn_ok (src := y) (dst := List.replicate N 0) (p := cx)
      (n := w - cx) (by omega) (by simp; omega)
    obtain ⟨ub, eu, lu', u1, u2⟩ := copyIn_ok (src := uv) (dst := List.replicate (N * 2) 0) (p := ux)
      (n := nvStep s (w - cx)) (nv_tail_room h1 hlt lu) (by simp; omega)
    have e1 := hf yb ub (List.replicate (N * 4) 0)
      (fun x hx => (y2 x hx).elim (hy x) (z256 N x))
      (fun x hx => (u2 x hx).elim (hu x) (z256 _ x)) (by simpa using ly') (by simpa using lu')
    obtain ⟨db, p0, q0⟩ := tailPut hpx hnN (o := o) h1 h2 h3 y1 u1 hw
    refine ⟨ux + nvStep s (w - cx), ?_⟩
    simp only [ey, eu, e1, Outcome.bind_ok, if_neg (show ¬ N < w - cx by omega), p0, q0,
      Nat.add_sub_cancel' h2, Outcome.pure_eq]
  · rw [if_neg hlt]
    obtain rfl : cx = w := by omega
    exact ⟨ux, rfl⟩

theorem nvTailPx2_ok {n N : Nat} (hnN : n ≤ N) (hN : N % 2 = 0) (o : NVOrder) {w : Nat}
    {f : Buf → Buf → Buf → Buf × Buf → Outcome (Buf × Buf)} {y0 y1 uv row0 row1 : Buf}
    (hy0 : ∀ x ∈ y0, x < 256) (hy1 : ∀ x ∈ y1, x < 256) (hu : ∀ x ∈ uv, x < 256)
    (hf : ∀ y0 y1 uv d0 d1 : Buf, (∀ x ∈ y0, x < 256) → (∀ x ∈ y1, x < 256) → (∀ x ∈ uv, x < 256) →
      y0.length = N → y1.length = N → uv.length = N * 2 →
      f y0 y1 uv (d0, d1) = (do
        let a ← put d0 0 (stepPx px (hdiv .yuv420) n o y0 uv 0 0)
        let b ← put d1 0 (stepPx px (hdiv .yuv420) n o y1 uv 0 0)
        return (a, b)))
    (ly0 : w ≤ y0.length) (ly1 : w ≤ y1.length) (lu : 2 * ((w - 1) / 2 + 1) ≤ uv.length)
    (hw0 : w * ch.count ≤ row0.length) (hw1 : w * ch.count ≤ row1.length) {cx ux : Nat}
    (h1 : AtPair (hdiv .yuv420) cx ux) (h2 : cx ≤ w) (h3 : w ≤ cx + n) :
    ∃ ux', nvTailRows N ch w f y0 y1 uv (painted ch.count (rowPx px (hdiv .yuv420) o y0 uv) cx row0,
        painted ch.count (rowPx px (hdiv .yuv420) o y1 uv) cx row1) cx ux
      = .ok ((painted ch.count (rowPx px (hdiv .yuv420) o y0 uv) w row0,
        painted ch.count (rowPx px (hdiv .yuv420) o y1 uv) w row1), w, ux') := by
  unfold nvTailRows
  by_cases hlt : cx < w
  · rw [if_pos hlt]
    have hd : nvStep .yuv420 (w - cx) ≤ N * 2 := by
      simp only [nvStep, chromaStep, ceil2]; omega
    obtain ⟨yb0, ey0, ly0', a1, a2⟩ := copyIn_ok (src := y0) (dst := List.replicate N 0) (p := cx)
      (n := w - cx) (by omega) (by simp; omega)
    obtain ⟨yb1, ey1, ly1', b1, b2⟩ := copyIn_ok (src := y1) (dst := List.replicate N 0) (p := cx)
      (n := w - cx) (by omega) (by simp; omega)
    obtain ⟨ub, eu, lu', u1, u2⟩ := copyIn_ok (src := uv) (dst := List.replicate (N * 2) 0) (p := ux)
      (n := nvStep .yuv420 (w - cx)) (nv_tail_room h1 hlt lu) (by simp; omega)
    have e1 := hf yb0 yb1 ub (List.replicate (N * 4) 0) (List.replicate (N * 4) 0)
      (fun x hx => (a2 x hx).elim (hy0 x) (z256 N x)) (fun x hx => (b2 x hx).elim (hy1 x) (z256 N x))
      (fun x hx => (u2 x hx).elim (hu x) (z256 _ x)) (by simpa using ly0') (by simpa using ly1')
      (by simpa using lu')
    obtain ⟨d0, p0, q0⟩ := tailPut hpx hnN (o := o) h1 h2 h3 a1 u1 hw0
    obtain ⟨d1, p1, q1⟩ := tailPut hpx hnN (o := o) h1 h2 h3 b1 u1 hw1
    refine ⟨ux + nvStep .yuv420 (w - cx), ?_⟩
    simp only [ey0, ey1, eu, e1, Outcome.bind_ok, if_neg (show ¬ N < w - cx by omega),
      Nat.add_sub_cancel' h2, p0, p1, Outcome.pure_eq, q0, q1]
  · rw [if_neg hlt]
    obtain rfl : cx = w := by omega
    exact ⟨ux, rfl⟩

end

/-- The colours of a step are those of `val`. -/
structure NvKernel.Ok (K : NvKernel) (rg : ChromaRange) (t : InvCoef)
    (val : Nat → Nat → Nat → Nat × Nat × Nat) : Prop where
  even : K.n % 2 = 0
  pos : 0 < K.n
  tailEven : K.tail % 2 = 0
  tailLe : K.n ≤ K.tail
  store : ∀ ch p r g b a row, K.store ch p r g b a row = put row p (pixels ch K.n r g b a)
  rgb : ∀ (s : Sampling) (o : NVOrder) (y c0 c1 : Reg), (∀ i, y i < 256) → (∀ i, c0 i < 256) →
    (∀ i, c1 i < 256) → ∀ i, i < K.n →
    ((K.rgb s o rg t y c0 c1).1 i, (K.rgb s o rg t y c0 c1).2.1 i, (K.rgb s o rg t y c0 c1).2.2 i) =
      val (y i) (cat2 K.n c0 c1 (2 * (i / hdiv s) + o.uPos)) (cat2 K.n c0 c1 (2 * (i / hdiv s) + o.vPos))

/-- The pixel of a triple. -/
def pxOf (ch : Channels) (val : Nat → Nat → Nat → Nat × Nat × Nat) (y u v : Nat) : Buf :=
  layout ch (val y u v).1 (val y u v).2.1 (val y u v).2.2 255

theorem pxOf_length (ch : Channels) (val : Nat → Nat → Nat → Nat × Nat × Nat) (y u v : Nat) :
    (pxOf ch val y u v).length = ch.count := layout_length' ..

namespace NvKernel
variable {K : NvKernel} {rg : ChromaRange} {t : InvCoef} {val : Nat → Nat → Nat → Nat × Nat × Nat}

theorem chroma_at (hK : K.Ok rg t val) {s : Sampling} {uv : Buf} {ux : Nat}
    (h : ux + nvStep s K.n ≤ uv.length) (hc : ∀ x ∈ uv, x < 256) :
    ∃ c, K.chroma s uv ux = .ok c ∧ (∀ i, i < nvStep s K.n → cat2 K.n c.1 c.2 i = uv.getD (ux + i) 0) ∧
      (∀ i, c.1 i < 256) ∧ ∀ i, c.2 i < 256 := by
  have he := hK.even
  have sub : ux + K.n ≤ uv.length →
      ∃ c, (load K.n uv ux >>= fun r => Outcome.ok (r, zero)) = .ok c ∧
      (∀ i, i < K.n → cat2 K.n c.1 c.2 i = uv.getD (ux + i) 0) ∧
      (∀ i, c.1 i < 256) ∧ ∀ i, c.2 i < 256 := by
    intro hlen
    obtain ⟨r, e, h3, h4⟩ := load_at hlen hc
    refine ⟨_, by rw [e]; rfl, fun i hi => ?_, h4, fun i => by simp [zero]⟩
    unfold cat2; rw [if_pos hi]; exact h3 i hi
  have e2 : nvStep .yuv420 K.n = K.n := by simp only [nvStep, chromaStep, ceil2]; omega
  cases s
  · rw [e2] at h ⊢; exact sub h
  · rw [show nvStep .yuv422 K.n = K.n from e2] at h ⊢; exact sub h
  · have e3 : nvStep .yuv444 K.n = K.n * 2 := rfl
    rw [e3] at h ⊢
    obtain ⟨a, ea, a1, a2⟩ := load_at (n := K.n) (p := ux) (by omega) hc
    obtain ⟨b, eb, b1, b2⟩ := load_at (n := K.n) (p := ux + K.n) (by omega) hc
    refine ⟨(a, b), by rw [NvKernel.chroma, ea, Outcome.bind_ok, eb, Outcome.bind_ok]; rfl,
      fun i hi => ?_, a2, b2⟩
    unfold cat2
    split
    · exact a1 i (by omega)
    · refine (b1 (i - K.n) (by omega)).trans ?_
      congr 1; omega

/-- The pixels of a step. -/
theorem pixels_at (hK : K.Ok rg t val) (s : Sampling) (o : NVOrder) (ch : Channels) {y uv : Buf}
    {cx ux : Nat} {yr c0 c1 : Reg} (y1 : ∀ i, i < K.n → yr i = y.getD (cx + i) 0) (y2 : ∀ i, yr i < 256)
    (hc : ∀ i, i < nvStep s K.n → cat2 K.n c0 c1 i = uv.getD (ux + i) 0)
    (h0 : ∀ i, c0 i < 256) (h1 : ∀ i, c1 i < 256) :
    pixels ch K.n (K.rgb s o rg t yr c0 c1).1 (K.rgb s o rg t yr c0 c1).2.1 (K.rgb s o rg t yr c0 c1).2.2
      (set1_8 255) = stepPx (pxOf ch val) (hdiv s) K.n o y uv cx ux := by
  apply range_flatMap_congr
  intro i hi
  have hup := uPos_lt o
  have hvp := vPos_lt o
  have he := hK.even
  have hlt : 2 * (i / hdiv s) + 1 < nvStep s K.n := by
    cases s <;> simp only [hdiv, chromaStep, ceil2, nvStep] <;> omega
  have h := hK.rgb s o yr c0 c1 y2 h0 h1 i hi
  rw [hc _ (by omega), hc _ (by omega), y1 i hi] at h
  unfold pxOf
  rw [← h]
  rfl

theorem body_eq (hK : K.Ok rg t val) (s : Sampling) (o : NVOrder) (ch : Channels) {y uv : Buf}
    (hy : ∀ x ∈ y, x < 256) (hu : ∀ x ∈ uv, x < 256) {cx ux : Nat} (ly : cx + K.n ≤ y.length)
    (lu : ux + nvStep s K.n ≤ uv.length) (p : Nat) (row : Buf) :
    K.body s o ch rg t y uv cx ux p row
      = put row p (stepPx (pxOf ch val) (hdiv s) K.n o y uv cx ux) := by
  obtain ⟨yr, ey, y1, y2⟩ := load_at ly hy
  obtain ⟨c, ec, c1, c2, c3⟩ := chroma_at hK lu hu
  rw [NvKernel.body, ey, Outcome.bind_ok, ec, Outcome.bind_ok]
  simp only []
  rw [hK.store, pixels_at hK s o ch y1 y2 c1 c2 c3]

theorem body420_eq (hK : K.Ok rg t val) (o : NVOrder) (ch : Channels) {y0 y1 uv : Buf}
    (hy0 : ∀ x ∈ y0, x < 256) (hy1 : ∀ x ∈ y1, x < 256) (hu : ∀ x ∈ uv, x < 256) {cx ux : Nat}
    (ly0 : cx + K.n ≤ y0.length) (ly1 : cx + K.n ≤ y1.length) (lu : ux + K.n ≤ uv.length) (p : Nat)
    (row0 row1 : Buf) :
    K.body420 o ch rg t y0 y1 uv cx ux p (row0, row1) = (do
      let a ← put row0 p (stepPx (pxOf ch val) (hdiv .yuv420) K.n o y0 uv cx ux)
      let b ← put row1 p (stepPx (pxOf ch val) (hdiv .yuv420) K.n o y1 uv cx ux)
      return (a, b)) := by
  obtain ⟨r0, e0, a1, a2⟩ := load_at ly0 hy0
  obtain ⟨r1, e1, b1, b2⟩ := load_at ly1 hy1
  obtain ⟨c, ec, c1, c2⟩ := load_at lu hu
  have he := hK.even
  have hc : ∀ i, i < nvStep .yuv420 K.n → cat2 K.n c zero i = uv.getD (ux + i) 0 := by
    intro i hi
    have : i < K.n := by simp only [nvStep, chromaStep, ceil2] at hi; omega
    unfold cat2; rw [if_pos this, c1 i this]
  rw [NvKernel.body420, e0, Outcome.bind_ok, e1, Outcome.bind_ok, ec, Outcome.bind_ok]
  simp only []
  rw [hK.store, hK.store, pixels_at hK .yuv420 o ch a1 a2 hc c2 (fun i => by simp [zero]),
    pixels_at hK .yuv420 o ch b1 b2 hc c2 (fun i => by simp [zero])]

theorem row_ok (hK : K.Ok rg t val) (s : Sampling) (o : NVOrder) (ch : Channels) {w : Nat}
    {y uv row : Buf} (hy : ∀ x ∈ y, x < 256) (hu : ∀ x ∈ uv, x < 256)
    (ly : w ≤ y.length) (lu : 2 * ((w - 1) / hdiv s + 1) ≤ uv.length)
    (hw : w * ch.count ≤ row.length) :
    ∃ ux, K.row s o ch rg t w y uv row 0 0
      = .ok (painted ch.count (rowPx (pxOf ch val) (hdiv s) o y uv) w row, w, ux) := by
  have he := hK.even
  have hle := hK.tailLe
  obtain ⟨cx, ux, e, _, h2, h3, h4⟩ := paintLoopI (step := K.n) (ustep := nvStep s K.n) (width := w)
    (cn := ch.count) (I := AtPair (hdiv s)) hK.pos (fun cx ux h => h.step he)
    (fun j => pxOf_length ch val _ _ _) (pix := rowPx (pxOf ch val) (hdiv s) o y uv) (row := row) hw
    (body := fun cx ux row => K.body s o ch rg t y uv cx ux (cx * ch.count) row)
    (cx0 := 0) (ux0 := 0) (AtPair.zero _)
    (by
      intro cx ux r _ hux hlt
      rw [← stepPx_row _ (hdiv_pos s) _ o y uv hux]
      exact body_eq hK s o ch hy hu (by omega) (nv_room hux he (by omega) lu hK.pos) _ _)
    (Nat.zero_le _)
  rw [painted_zero] at e
  simp only [NvKernel.row, e, Outcome.bind_ok]
  exact nvTailPx_ok (pxOf_length ch val) hle hK.tailEven s o hy hu
    (fun y uv d hy hu ly lu => body_eq hK s o ch hy hu (by omega)
      (by cases s <;> simp only [nvStep, chromaStep, ceil2] <;> omega) _ _)
    ly lu hw h2 h3 h4

theorem row420_ok (hK : K.Ok rg t val) (o : NVOrder) (ch : Channels) {w : Nat}
    {y0 y1 uv row0 row1 : Buf} (hy0 : ∀ x ∈ y0, x < 256) (hy1 : ∀ x ∈ y1, x < 256)
    (hu : ∀ x ∈ uv, x < 256) (ly0 : w ≤ y0.length) (ly1 : w ≤ y1.length)
    (lu : 2 * ((w - 1) / 2 + 1) ≤ uv.length)
    (hw0 : w * ch.count ≤ row0.length) (hw1 : w * ch.count ≤ row1.length) :
    ∃ ux, K.row420 o ch rg t w y0 y1 uv row0 row1 0 0
      = .ok ((painted ch.count (rowPx (pxOf ch val) (hdiv .yuv420) o y0 uv) w row0,
        painted ch.count (rowPx (pxOf ch val) (hdiv .yuv420) o y1 uv) w row1), w, ux) := by
  have he := hK.even
  have hle := hK.tailLe
  have e2 : nvStep .yuv420 K.n = K.n := by simp only [nvStep, chromaStep, ceil2]; omega
  obtain ⟨cx, ux, e, _, h2, h3, h4⟩ := paintLoopI2 (step := K.n) (ustep := nvStep .yuv420 K.n)
    (width := w) (cn := ch.count) (I := AtPair (hdiv .yuv420)) hK.pos (fun cx ux h => h.step he)
    (fun j => pxOf_length ch val _ _ _) (fun j => pxOf_length ch val _ _ _)
    (pix0 := rowPx (pxOf ch val) (hdiv .yuv420) o y0 uv)
    (pix1 := rowPx (pxOf ch val) (hdiv .yuv420) o y1 uv) (row0 := row0) (row1 := row1) hw0 hw1
    (body := fun cx ux rows => K.body420 o ch rg t y0 y1 uv cx ux (cx * ch.count) rows)
    (cx0 := 0) (ux0 := 0) (AtPair.zero _)
    (by
      intro cx ux r0 r1 _ hux hlt
      rw [← stepPx_row _ (hdiv_pos .yuv420) _ o y0 uv hux, ← stepPx_row _ (hdiv_pos .yuv420) _ o y1 uv hux]
      have hr := nv_room hux he (by omega) lu hK.pos
      exact body420_eq hK o ch hy0 hy1 hu (by omega) (by omega) (by omega) _ _ _)
    (Nat.zero_le _)
  rw [painted_zero, painted_zero] at e
  simp only [NvKernel.row420, e, Outcome.bind_ok]
  exact nvTailPx2_ok (pxOf_length ch val) hle hK.tailEven o hy0 hy1 hu
    (fun y0 y1 uv d0 d1 hy0 hy1 hu ly0 ly1 lu => body420_eq hK o ch hy0 hy1 hu
      (by omega) (by omega) (by omega) _ _ _)
    ly0 ly1 lu hw0 hw1 h2 h3 h4

theorem handler_fills (hK : K.Ok rg t val) (o : NVOrder) (s : Sampling) (ch : Channels) {w : Nat}
    (px : Nat → Nat → Nat → Buf) :
    (K.handler o s ch rg t w).Fills true 256 ch.count w (hdiv s) o.uPos o.vPos px
      (fun _ y u v p => p = pxOf ch val y u v) := by
  intro y uv row hy hu ly lu hw
  obtain ⟨ux, e⟩ := row_ok hK s o ch hy hu ly lu hw
  exact ⟨_, w, by simp only [NvKernel.handler, done, e, Outcome.bind_ok]; rfl,
    painted_done (count_pos ch) (fun _ => pxOf_length ..) hw (le_refl _) (.inr rfl) fun x _ => rfl,
    fun x h1 h2 => absurd h1.le (by omega)⟩

theorem handler420_fills (hK : K.Ok rg t val) (o : NVOrder) (ch : Channels) {w : Nat}
    (px : Nat → Nat → Nat → Buf) :
    (K.handler420 o .yuv420 ch rg t w).Fills 256 ch.count w o.uPos o.vPos px
      (fun _ y u v p => p = pxOf ch val y u v) := by
  intro y0 y1 uv row0 row1 hy0 hy1 hu ly0 ly1 lu hw0 hw1
  obtain ⟨ux, e⟩ := row420_ok hK o ch hy0 hy1 hu ly0 ly1 lu hw0 hw1
  exact ⟨_, _, w, by simp only [NvKernel.handler420, e, Outcome.bind_ok]; rfl,
    painted_done (count_pos ch) (fun _ => pxOf_length ..) hw0 (le_refl _) (.inr rfl) fun x _ => rfl,
    painted_done (count_pos ch) (fun _ => pxOf_length ..) hw1 (le_refl _) (.inr rfl) fun x _ => rfl,
    fun y _ x h1 h2 => absurd h1 (by omega)⟩

end NvKernel

end Verif.X86
