import Verif.Lemmas.Wasm
import Verif.Lemmas.X86Handlers
import Verif.Lemmas.X86NvHandlers
import Verif.Lemmas.X86Gray
/-! # Rows of the WebAssembly decoders -/
namespace Verif.Wasm
open Spec X86

variable {rg : ChromaRange} {t : InvCoef}

theorem wasmPixelAt_length (ch : Channels) (t : InvCoef) (yo u v : Nat) :
    (wasmPixelAt ch t yo u v).length = ch.count := layout_length' ..

/-- The pixels of a step. -/
theorem step_pixels (hb : rg.biasUv = 128) (hby : rg.biasY < 256) (ht : Coef16 t) (ch : Channels)
    {yr : Reg} {c : Chroma} {Y U V : Nat → Nat} (hY : ∀ i, yr i < 256) (hyr : ∀ i, i < 16 → yr i = Y i)
    (hU : ∀ i, i < 16 → U i < 256) (hV : ∀ i, i < 16 → V i < 256) (hc : c.At U V) :
    X86.pixels ch 16 (rgb16 rg t (subsU8 yr (set1_8 rg.biasY)) c).1
        (rgb16 rg t (subsU8 yr (set1_8 rg.biasY)) c).2.1
        (rgb16 rg t (subsU8 yr (set1_8 rg.biasY)) c).2.2 (set1_8 255)
      = (List.range 16).flatMap fun i => wasmPixelAt ch t (Y i - rg.biasY) (U i) (V i) := by
  apply range_flatMap_congr
  intro i hi
  obtain ⟨a, b, d⟩ := rgb16_at hb ht (y := subsU8 yr (set1_8 rg.biasY))
    (fun i _ => by rw [subsU8_at hby]; have := hY i; omega) hU hV hc hi
  rw [subsU8_at hby, hyr i hi] at a b d
  rw [a, b, d]
  rfl

/-! ## Planar -/

/-- Pixel `x` of a row. -/
def rowPx (ch : Channels) (rg : ChromaRange) (t : InvCoef) (hd : Nat) (y u v : Buf) (x : Nat) : Buf :=
  wasmPixelAt ch t (y.getD x 0 - rg.biasY) (u.getD (x / hd) 0) (v.getD (x / hd) 0)

theorem planarChroma_at {s : Sampling} {u v : Buf} {ux : Nat} (hu : ∀ x ∈ u, x < 256)
    (hv : ∀ x ∈ v, x < 256) (lu : ux + chromaStep s 16 ≤ u.length)
    (lv : ux + chromaStep s 16 ≤ v.length) :
    ∃ c, planarChroma s u v ux = .ok c ∧
      c.At (fun i => u.getD (ux + i / hdiv s) 0) (fun i => v.getD (ux + i / hdiv s) 0) := by
  have sub : ux + 8 ≤ u.length → ux + 8 ≤ v.length → ∃ c,
      (load 8 u ux >>= fun uv => load 8 v ux >>= fun vv =>
        Outcome.ok (widen (zipLo uv uv) (zipLo vv vv))) = .ok c ∧
      c.At (fun i => u.getD (ux + i / 2) 0) (fun i => v.getD (ux + i / 2) 0) := by
    intro lu lv
    obtain ⟨ur, eu, u1, u2⟩ := load_at lu hu
    obtain ⟨vr, ev, v1, v2⟩ := load_at lv hv
    refine ⟨_, by rw [eu, Outcome.bind_ok, ev, Outcome.bind_ok], ?_⟩
    refine (widen_at (fun i hi => ?_) (fun i hi => ?_)).congr (fun i hi => ?_) (fun i hi => ?_)
    · rw [zipLo_at _ hi]; exact u2 _
    · rw [zipLo_at _ hi]; exact v2 _
    · rw [zipLo_at _ hi]; exact u1 _ (by omega)
    · rw [zipLo_at _ hi]; exact v1 _ (by omega)
  cases s
  · exact sub lu lv
  · exact sub lu lv
  · obtain ⟨ur, eu, u1, u2⟩ := load_at (n := 16) lu hu
    obtain ⟨vr, ev, v1, v2⟩ := load_at (n := 16) lv hv
    refine ⟨_, by rw [planarChroma, eu, Outcome.bind_ok, ev, Outcome.bind_ok]; rfl, ?_⟩
    refine (widen_at (fun i _ => u2 i) (fun i _ => v2 i)).congr (fun i hi => ?_) (fun i hi => ?_)
    · rw [u1 i hi]; simp [hdiv]
    · rw [v1 i hi]; simp [hdiv]

theorem row_shift {hd cx ux : Nat} (hhd : 0 < hd) (h : ux * hd = cx) (j : Nat) :
    ux + j / hd = (cx + j) / hd := by
  rw [← h, Nat.add_comm (ux * hd), Nat.add_mul_div_right _ _ hhd, Nat.add_comm]

theorem planarBody_eq (hb : rg.biasUv = 128) (hby : rg.biasY < 256) (ht : Coef16 t) (s : Sampling)
    (ch : Channels) {y u v : Buf} (hy : ∀ x ∈ y, x < 256) (hu : ∀ x ∈ u, x < 256)
    (hv : ∀ x ∈ v, x < 256) {cx ux : Nat} (hux : ux * hdiv s = cx) (ly : cx + 16 ≤ y.length)
    (lu : ux + chromaStep s 16 ≤ u.length) (lv : ux + chromaStep s 16 ≤ v.length) (row : Buf) :
    planarBody s ch rg t y u v cx ux row = put row (cx * ch.count)
      ((List.range 16).flatMap fun j => rowPx ch rg t (hdiv s) y u v (cx + j)) := by
  obtain ⟨yr, ey, y1, y2⟩ := load_at ly hy
  obtain ⟨c, ec, hc⟩ := planarChroma_at hu hv lu lv
  rw [planarBody, ey, Outcome.bind_ok, ec, Outcome.bind_ok, storeRgb_eq,
    step_pixels hb hby ht ch y2 y1 (fun i _ => getD_lt (by decide) hu) (fun i _ => getD_lt (by decide) hv) hc]
  congr 1
  apply range_flatMap_congr
  intro j _
  rw [rowPx, row_shift (hdiv_pos s) hux]

theorem planarBody420_eq (hb : rg.biasUv = 128) (hby : rg.biasY < 256) (ht : Coef16 t) (s : Sampling)
    (ch : Channels) {y0 y1 u v : Buf} (hy0 : ∀ x ∈ y0, x < 256) (hy1 : ∀ x ∈ y1, x < 256)
    (hu : ∀ x ∈ u, x < 256) (hv : ∀ x ∈ v, x < 256) {cx ux : Nat} (hux : ux * hdiv s = cx)
    (ly0 : cx + 16 ≤ y0.length) (ly1 : cx + 16 ≤ y1.length)
    (lu : ux + chromaStep s 16 ≤ u.length) (lv : ux + chromaStep s 16 ≤ v.length) (r0 r1 : Buf) :
    planarBody420 s ch rg t y0 y1 u v cx ux (r0, r1) = (do
      let a ← put r0 (cx * ch.count)
        ((List.range 16).flatMap fun j => rowPx ch rg t (hdiv s) y0 u v (cx + j))
      let b ← put r1 (cx * ch.count)
        ((List.range 16).flatMap fun j => rowPx ch rg t (hdiv s) y1 u v (cx + j))
      return (a, b)) := by
  obtain ⟨yr0, e0, a1, a2⟩ := load_at ly0 hy0
  obtain ⟨yr1, e1, b1, b2⟩ := load_at ly1 hy1
  obtain ⟨c, ec, hc⟩ := planarChroma_at hu hv lu lv
  have key : ∀ y : Buf, ((List.range 16).flatMap fun i => wasmPixelAt ch t (y.getD (cx + i) 0 - rg.biasY)
      (u.getD (ux + i / hdiv s) 0) (v.getD (ux + i / hdiv s) 0))
      = (List.range 16).flatMap fun j => rowPx ch rg t (hdiv s) y u v (cx + j) := by
    intro y
    apply range_flatMap_congr
    intro j _
    rw [rowPx, row_shift (hdiv_pos s) hux]
  rw [planarBody420, e0, Outcome.bind_ok, e1, Outcome.bind_ok, ec, Outcome.bind_ok]
  simp only [storeRgb_eq,
    step_pixels hb hby ht ch a2 a1 (fun i _ => getD_lt (by decide) hu) (fun i _ => getD_lt (by decide) hv) hc,
    step_pixels hb hby ht ch b2 b1 (fun i _ => getD_lt (by decide) hu) (fun i _ => getD_lt (by decide) hv) hc, key]

theorem end16 (w : Nat) : loopEnd 16 w 0 = 16 * ((w - 1) / 16) := by
  unfold loopEnd; omega

theorem mod16_hdiv (s : Sampling) (k : Nat) : 16 * k % hdiv s = 0 := by
  cases s <;> simp only [hdiv] <;> omega

/-- The pixel in column `x` of a row of `w` pixels. -/
def colPx (ch : Channels) (rg : ChromaRange) (t : InvCoef) (px : Nat → Nat → Nat → Buf)
    (w x y u v : Nat) : Buf :=
  if wasmCol w x then wasmPixelAt ch t (y - rg.biasY) u v else px y u v

theorem rowHandler_fills (s : Sampling) (ch : Channels) {w : Nat}
    (hb : rg.biasUv = 128) (hby : rg.biasY < 256) (ht : Coef16 t) (px : Nat → Nat → Nat → Buf) :
    (rowHandler s ch rg t w).Fills true 256 ch.count w (hdiv s) px
      (fun x y u v p => p = colPx ch rg t px w x y u v) := by
  intro y u v row hy hu hv ly lu lv hw
  obtain ⟨cx, ux, e, hc, -, h3, -⟩ := paintLoop (step := 16) (ustep := chromaStep s 16) (width := w)
    (cn := ch.count) (hd := hdiv s) (by decide) (chromaStep_hdiv s rfl)
    (pix := rowPx ch rg t (hdiv s) y u v) (fun _ => wasmPixelAt_length ..) (row := row) hw
    (body := planarBody s ch rg t y u v) (cx0 := 0) (ux0 := 0) (Nat.zero_mul _)
    (fun cx ux r _ hux hlt => planarBody_eq hb hby ht s ch hy hu hv hux (by omega)
      (chroma_room hux rfl (by omega) lu (by decide)) (chroma_room hux rfl (by omega) lv (by decide)) r)
    (Nat.zero_le _)
  rw [painted_zero] at e
  rw [end16] at hc
  subst hc
  refine ⟨_, _, by simp only [rowHandler, done, planarRow, e, Outcome.bind_ok]; rfl,
    painted_done (X86.count_pos ch) (fun _ => wasmPixelAt_length ..) hw h3 (.inl (mod16_hdiv s _))
      fun x hx => ?_, fun x h1 h2 => ?_⟩
  · show _ = colPx ..
    unfold colPx
    rw [if_pos (show wasmCol w x from hx)]
  · have := h1.le
    show _ = colPx ..
    rw [colPx, if_neg (by unfold wasmCol; omega)]

theorem rowHandler420_fills (ch : Channels) {w : Nat}
    (hb : rg.biasUv = 128) (hby : rg.biasY < 256) (ht : Coef16 t) (px : Nat → Nat → Nat → Buf) :
    (rowHandler420 .yuv420 ch rg t w).Fills 256 ch.count w px
      (fun x y u v p => p = colPx ch rg t px w x y u v) := by
  intro y0 y1 u v row0 row1 hy0 hy1 hu hv ly0 ly1 lu lv hw0 hw1
  obtain ⟨cx, ux, e, hc, -, h3, -⟩ := paintLoop2 (step := 16) (ustep := chromaStep .yuv420 16)
    (width := w) (cn := ch.count) (hd := hdiv .yuv420) (by decide) (chromaStep_hdiv .yuv420 rfl)
    (pix0 := rowPx ch rg t (hdiv .yuv420) y0 u v) (pix1 := rowPx ch rg t (hdiv .yuv420) y1 u v)
    (fun _ => wasmPixelAt_length ..) (fun _ => wasmPixelAt_length ..) (row0 := row0) (row1 := row1)
    hw0 hw1 (body := planarBody420 .yuv420 ch rg t y0 y1 u v) (cx0 := 0) (ux0 := 0) (Nat.zero_mul _)
    (fun cx ux r0 r1 _ hux hlt => planarBody420_eq hb hby ht .yuv420 ch hy0 hy1 hu hv hux (by omega)
      (by omega) (chroma_room hux rfl (by omega) lu (by decide))
      (chroma_room hux rfl (by omega) lv (by decide)) r0 r1)
    (Nat.zero_le _)
  rw [painted_zero, painted_zero] at e
  rw [end16] at hc
  subst hc
  have fin : ∀ (y row : Buf), w * ch.count ≤ row.length →
      RowDone ch.count w 2
        (fun x p => p = colPx ch rg t px w x (y.getD x 0) (u.getD (x / 2) 0) (v.getD (x / 2) 0))
        row (painted ch.count (rowPx ch rg t (hdiv .yuv420) y u v) (16 * ((w - 1) / 16)) row)
        (16 * ((w - 1) / 16)) := by
    intro y row hw
    refine painted_done (X86.count_pos ch) (fun _ => wasmPixelAt_length ..) hw h3 (.inl (by omega))
      fun x hx => ?_
    rw [colPx, if_pos (show wasmCol w x from hx)]; rfl
  refine ⟨_, _, _, by simp only [rowHandler420, planarRow420, e, Outcome.bind_ok]; rfl,
    fin y0 row0 hw0, fin y1 row1 hw1, fun y _ x h1 h2 => ?_⟩
  show _ = colPx ..
  rw [colPx, if_neg (by unfold wasmCol; omega)]

/-! ## Semi-planar -/

/-- Where in its pair of bytes the Cb, and the Cr, used for column `x` is. -/
def pairPos (s : Sampling) (p : Nat) (o : NVOrder) (x : Nat) : Nat :=
  match s with
  | .yuv444 => if x % 16 < 8 then o.vPos else o.uPos
  | _ => p

/-- Pixel `x` of a row. -/
def nvPx (ch : Channels) (rg : ChromaRange) (t : InvCoef) (s : Sampling) (o : NVOrder) (y uv : Buf)
    (x : Nat) : Buf :=
  wasmPixelAt ch t (y.getD x 0 - rg.biasY) (uv.getD (2 * (x / hdiv s) + pairPos s o.uPos o x) 0)
    (uv.getD (2 * (x / hdiv s) + pairPos s o.vPos o x) 0)

theorem deinterleave_at (o : NVOrder) (a b : Reg) {i : Nat} (h : i < 16) :
    (ordered o (deinterleave a b)).1 i
      = (if i < 8 then a (2 * i + o.uPos) else b (2 * (i - 8) + o.uPos)) ∧
    (ordered o (deinterleave a b)).2 i
      = (if i < 8 then a (2 * i + o.vPos) else b (2 * (i - 8) + o.vPos)) := by
  cases o <;> interval_cases i <;> exact ⟨rfl, rfl⟩

theorem nvChroma_at {s : Sampling} (o : NVOrder) {uv : Buf} {ux : Nat} (hu : ∀ x ∈ uv, x < 256)
    (lu : ux + nvStep s 16 ≤ uv.length) :
    ∃ c, nvChroma s o uv ux = .ok c ∧
      c.At (fun i => uv.getD (ux + (2 * (i / hdiv s) + pairPos s o.uPos o i)) 0)
        (fun i => uv.getD (ux + (2 * (i / hdiv s) + pairPos s o.vPos o i)) 0) := by
  have hup := uPos_lt o
  have hvp := vPos_lt o
  have sub : ux + 16 ≤ uv.length → ∃ c,
      (load 16 uv ux >>= fun a => Outcome.ok
        (widen (zipLo (ordered o (deinterleave a zero)).1 (ordered o (deinterleave a zero)).1)
          (zipLo (ordered o (deinterleave a zero)).2 (ordered o (deinterleave a zero)).2))) = .ok c ∧
      c.At (fun i => uv.getD (ux + (2 * (i / 2) + o.uPos)) 0)
        (fun i => uv.getD (ux + (2 * (i / 2) + o.vPos)) 0) := by
    intro lu
    obtain ⟨a, ea, a1, a2⟩ := load_at lu hu
    refine ⟨_, by rw [ea, Outcome.bind_ok], ?_⟩
    have d : ∀ i, i < 16 → (ordered o (deinterleave a zero)).1 (i / 2) = a (2 * (i / 2) + o.uPos) ∧
        (ordered o (deinterleave a zero)).2 (i / 2) = a (2 * (i / 2) + o.vPos) := by
      intro i hi
      obtain ⟨p, q⟩ := deinterleave_at o a zero (i := i / 2) (by omega)
      rw [if_pos (by omega)] at p q
      exact ⟨p, q⟩
    refine (widen_at (fun i hi => ?_) (fun i hi => ?_)).congr (fun i hi => ?_) (fun i hi => ?_)
    · rw [zipLo_at _ hi, (d i hi).1]; exact a2 _
    · rw [zipLo_at _ hi, (d i hi).2]; exact a2 _
    · rw [zipLo_at _ hi, (d i hi).1]; exact a1 _ (by omega)
    · rw [zipLo_at _ hi, (d i hi).2]; exact a1 _ (by omega)
  cases s
  · exact sub lu
  · exact sub lu
  · have lu' : ux + 32 ≤ uv.length := lu
    obtain ⟨a, ea, a1, a2⟩ := load_at (n := 16) (l := uv) (p := ux) (by omega) hu
    obtain ⟨b, eb, b1, b2⟩ := load_at (n := 16) (l := uv) (p := ux + 16) (by omega) hu
    refine ⟨_, by rw [nvChroma, ea, Outcome.bind_ok, eb, Outcome.bind_ok]; rfl, ?_⟩
    intro k hk
    obtain ⟨-, q⟩ := deinterleave_at o a b (i := k) (by omega)
    obtain ⟨p, -⟩ := deinterleave_at o a b (i := 8 + k) (by omega)
    rw [if_pos hk, a1 _ (by omega)] at q
    rw [if_neg (by omega), b1 _ (by omega)] at p
    have q' : (ordered o (deinterleave a b)).2 k < 256 := by rw [q]; exact getD_lt (by decide) hu
    have p' : (ordered o (deinterleave a b)).1 (8 + k) < 256 := by rw [p]; exact getD_lt (by decide) hu
    have eL := s16_extendLow q'
    have eH := s16_extendHigh p'
    rw [q] at eL
    rw [p] at eH
    have i1 : k % 16 < 8 := by omega
    have i2 : ¬ (8 + k) % 16 < 8 := by omega
    have j1 : k / hdiv .yuv444 = k := by simp [hdiv]
    have j2 : (8 + k) / hdiv .yuv444 = 8 + k := by simp [hdiv]
    have x2 : ux + 16 + (2 * (8 + k - 8) + o.uPos) = ux + (2 * (8 + k) + o.uPos) := by omega
    rw [x2] at eH
    simp only [pairPos, if_pos i1, if_neg i2, j1, j2]
    exact ⟨eL, eH, eL, eH⟩

theorem pairPos_shift {s : Sampling} {p : Nat} {o : NVOrder} {cx : Nat} (h : cx % 16 = 0) (j : Nat) :
    pairPos s p o (cx + j) = pairPos s p o j := by
  have : (cx + j) % 16 = j % 16 := by omega
  cases s <;> simp only [pairPos, this]

theorem pair_shift {s : Sampling} {p : Nat} {o : NVOrder} {cx ux : Nat} (h : AtPair (hdiv s) cx ux)
    (h16 : cx % 16 = 0) (j : Nat) :
    ux + (2 * (j / hdiv s) + pairPos s p o j)
      = 2 * ((cx + j) / hdiv s) + pairPos s p o (cx + j) := by
  obtain ⟨k, rfl, hk⟩ := h
  rw [pairPos_shift h16, ← row_shift (hdiv_pos s) hk.symm]
  omega

theorem nvBody_eq (hb : rg.biasUv = 128) (hby : rg.biasY < 256) (ht : Coef16 t) (s : Sampling)
    (o : NVOrder) (ch : Channels) {y uv : Buf} (hy : ∀ x ∈ y, x < 256) (hu : ∀ x ∈ uv, x < 256)
    {cx ux : Nat} (hux : AtPair (hdiv s) cx ux) (h16 : cx % 16 = 0) (ly : cx + 16 ≤ y.length)
    (lu : ux + nvStep s 16 ≤ uv.length) (row : Buf) :
    nvBody s o ch rg t y uv cx ux row = put row (cx * ch.count)
      ((List.range 16).flatMap fun j => nvPx ch rg t s o y uv (cx + j)) := by
  obtain ⟨yr, ey, y1, y2⟩ := load_at ly hy
  obtain ⟨c, ec, hc⟩ := nvChroma_at o hu lu
  rw [nvBody, ey, Outcome.bind_ok, ec, Outcome.bind_ok, storeRgb_eq,
    step_pixels hb hby ht ch y2 y1 (fun i _ => getD_lt (by decide) hu) (fun i _ => getD_lt (by decide) hu) hc]
  congr 1
  apply range_flatMap_congr
  intro j _
  rw [nvPx, pair_shift hux h16, pair_shift hux h16]

theorem nvBody420_eq (hb : rg.biasUv = 128) (hby : rg.biasY < 256) (ht : Coef16 t) (s : Sampling)
    (o : NVOrder) (ch : Channels) {y0 y1 uv : Buf} (hy0 : ∀ x ∈ y0, x < 256) (hy1 : ∀ x ∈ y1, x < 256)
    (hu : ∀ x ∈ uv, x < 256) {cx ux : Nat} (hux : AtPair (hdiv s) cx ux) (h16 : cx % 16 = 0)
    (ly0 : cx + 16 ≤ y0.length) (ly1 : cx + 16 ≤ y1.length)
    (lu : ux + nvStep s 16 ≤ uv.length) (r0 r1 : Buf) :
    nvBody420 s o ch rg t y0 y1 uv cx ux (r0, r1) = (do
      let a ← put r0 (cx * ch.count)
        ((List.range 16).flatMap fun j => nvPx ch rg t s o y0 uv (cx + j))
      let b ← put r1 (cx * ch.count)
        ((List.range 16).flatMap fun j => nvPx ch rg t s o y1 uv (cx + j))
      return (a, b)) := by
  obtain ⟨yr0, e0, a1, a2⟩ := load_at ly0 hy0
  obtain ⟨yr1, e1, b1, b2⟩ := load_at ly1 hy1
  obtain ⟨c, ec, hc⟩ := nvChroma_at o hu lu
  have key : ∀ y : Buf, ((List.range 16).flatMap fun i => wasmPixelAt ch t (y.getD (cx + i) 0 - rg.biasY)
      (uv.getD (ux + (2 * (i / hdiv s) + pairPos s o.uPos o i)) 0)
      (uv.getD (ux + (2 * (i / hdiv s) + pairPos s o.vPos o i)) 0))
      = (List.range 16).flatMap fun j => nvPx ch rg t s o y uv (cx + j) := by
    intro y
    apply range_flatMap_congr
    intro j _
    rw [nvPx, pair_shift hux h16, pair_shift hux h16]
  rw [nvBody420, e0, Outcome.bind_ok, e1, Outcome.bind_ok, ec, Outcome.bind_ok]
  simp only [storeRgb_eq,
    step_pixels hb hby ht ch a2 a1 (fun i _ => getD_lt (by decide) hu) (fun i _ => getD_lt (by decide) hu) hc,
    step_pixels hb hby ht ch b2 b1 (fun i _ => getD_lt (by decide) hu) (fun i _ => getD_lt (by decide) hu) hc, key]

/-- The pixel in column `x` of a row of `w` pixels. -/
def nvColPx (ch : Channels) (rg : ChromaRange) (t : InvCoef) (s : Sampling)
    (px : Nat → Nat → Nat → Buf) (w x y u v : Nat) : Buf :=
  if wasmCol w x then
    match s with
    | .yuv444 => if x % 16 < 8 then wasmPixelAt ch t (y - rg.biasY) v v
        else wasmPixelAt ch t (y - rg.biasY) u u
    | _ => wasmPixelAt ch t (y - rg.biasY) u v
  else px y u v

theorem nvPx_col (ch : Channels) (s : Sampling) (o : NVOrder) (y uv : Buf) {w x : Nat}
    (px : Nat → Nat → Nat → Buf) (h : wasmCol w x) :
    nvPx ch rg t s o y uv x = nvColPx ch rg t s px w x (y.getD x 0)
      (uv.getD (2 * (x / hdiv s) + o.uPos) 0) (uv.getD (2 * (x / hdiv s) + o.vPos) 0) := by
  unfold nvColPx
  rw [if_pos h]
  cases s
  · rfl
  · rfl
  · simp only [nvPx, pairPos]
    by_cases h8 : x % 16 < 8
    · simp only [if_pos h8]
    · simp only [if_neg h8]

theorem rowHandlerNV_fills (o : NVOrder) (s : Sampling) (ch : Channels) {w : Nat}
    (hb : rg.biasUv = 128) (hby : rg.biasY < 256) (ht : Coef16 t) (px : Nat → Nat → Nat → Buf) :
    (rowHandlerNV o s ch rg t w).Fills true 256 ch.count w (hdiv s) o.uPos o.vPos px
      (fun x y u v p => p = nvColPx ch rg t s px w x y u v) := by
  intro y uv row hy hu ly lu hw
  obtain ⟨cx, ux, e, hc, -, h3, -⟩ := paintLoopI (step := 16) (ustep := nvStep s 16) (width := w)
    (cn := ch.count) (I := fun cx ux => AtPair (hdiv s) cx ux ∧ cx % 16 = 0) (by decide)
    (fun cx ux h => ⟨h.1.step rfl, by omega⟩)
    (pix := nvPx ch rg t s o y uv) (fun _ => wasmPixelAt_length ..) (row := row) hw
    (body := nvBody s o ch rg t y uv) (cx0 := 0) (ux0 := 0) ⟨.zero _, rfl⟩
    (fun cx ux r _ hux hlt => nvBody_eq hb hby ht s o ch hy hu hux.1 hux.2 (by omega)
      (nv_room hux.1 rfl (by omega) lu (by decide)) r)
    (Nat.zero_le _)
  rw [painted_zero] at e
  rw [end16] at hc
  subst hc
  refine ⟨_, _, by simp only [rowHandlerNV, done, nvRow, e, Outcome.bind_ok]; rfl,
    painted_done (X86.count_pos ch) (fun _ => wasmPixelAt_length ..) hw h3 (.inl (mod16_hdiv s _))
      fun x hx => nvPx_col ch s o y uv px hx, fun x h1 h2 => ?_⟩
  have := h1.le
  show _ = nvColPx ..
  unfold nvColPx
  rw [if_neg (by unfold wasmCol; omega)]

theorem rowHandlerNV420_fills (o : NVOrder) (ch : Channels) {w : Nat}
    (hb : rg.biasUv = 128) (hby : rg.biasY < 256) (ht : Coef16 t) (px : Nat → Nat → Nat → Buf) :
    (rowHandlerNV420 o .yuv420 ch rg t w).Fills 256 ch.count w o.uPos o.vPos px
      (fun x y u v p => p = nvColPx ch rg t .yuv420 px w x y u v) := by
  intro y0 y1 uv row0 row1 hy0 hy1 hu ly0 ly1 lu hw0 hw1
  obtain ⟨cx, ux, e, hc, -, h3, -⟩ := paintLoopI2 (step := 16) (ustep := nvStep .yuv420 16)
    (width := w) (cn := ch.count) (I := fun cx ux => AtPair (hdiv .yuv420) cx ux ∧ cx % 16 = 0)
    (by decide) (fun cx ux h => ⟨h.1.step rfl, by omega⟩)
    (pix0 := nvPx ch rg t .yuv420 o y0 uv) (pix1 := nvPx ch rg t .yuv420 o y1 uv)
    (fun _ => wasmPixelAt_length ..) (fun _ => wasmPixelAt_length ..) (row0 := row0) (row1 := row1)
    hw0 hw1 (body := nvBody420 .yuv420 o ch rg t y0 y1 uv) (cx0 := 0) (ux0 := 0) ⟨.zero _, rfl⟩
    (fun cx ux r0 r1 _ hux hlt => nvBody420_eq hb hby ht .yuv420 o ch hy0 hy1 hu hux.1 hux.2 (by omega)
      (by omega) (nv_room hux.1 rfl (by omega) lu (by decide)) r0 r1)
    (Nat.zero_le _)
  rw [painted_zero, painted_zero] at e
  rw [end16] at hc
  subst hc
  have fin : ∀ (y row : Buf), w * ch.count ≤ row.length →
      RowDone ch.count w 2
        (fun x p => p = nvColPx ch rg t .yuv420 px w x (y.getD x 0) (uv.getD (2 * (x / 2) + o.uPos) 0)
          (uv.getD (2 * (x / 2) + o.vPos) 0))
        row (painted ch.count (nvPx ch rg t .yuv420 o y uv) (16 * ((w - 1) / 16)) row)
        (16 * ((w - 1) / 16)) := by
    intro y row hw
    exact painted_done (X86.count_pos ch) (fun _ => wasmPixelAt_length ..) hw h3 (.inl (by omega))
      fun x hx => nvPx_col ch .yuv420 o y uv px hx
  refine ⟨_, _, _, by simp only [rowHandlerNV420, nvRow420, e, Outcome.bind_ok]; rfl,
    fin y0 row0 hw0, fin y1 row1 hw1, fun y _ x h1 h2 => ?_⟩
  show _ = nvColPx ..
  unfold nvColPx
  rw [if_neg (by unfold wasmCol; omega)]

/-! ## Grey -/

/-- The grey level of a luma sample above its offset. -/
def grayLev (t : InvCoef) (yo : Nat) : Nat := byteSat (mulRound (4 * (yo : Int)) t.y)

theorem grayBody_eq (hby : rg.biasY < 256) (hty : -32767 ≤ t.y ∧ t.y ≤ 32767) (ch : Channels) {y : Buf}
    (hy : ∀ x ∈ y, x < 256) {cx : Nat} (ly : cx + 16 ≤ y.length) (p : Nat) (row : Buf) :
    grayBody ch rg t y cx p row
      = put row p (grayStep ch (fun y => grayLev t (y - rg.biasY)) 16 y none cx) := by
  obtain ⟨yr, ey, y1, y2⟩ := load_at ly hy
  rw [grayBody, ey, Outcome.bind_ok, storeRgb_eq]
  rw [grayStep_of ch (L := fun y => grayLev t (y - rg.biasY)) (y := y) (a := none) (cx := cx) (av := set1_8 255)
    ?_ (fun _ _ => rfl)]
  intro i hi
  have h256 : ∀ i, subsU8 yr (set1_8 rg.biasY) i < 256 := by
    intro i; rw [subsU8_at hby]; have := y2 i; omega
  have lt : ∀ (w : Reg) (k : Nat), (0 ≤ s16 w k ∧ s16 w k ≤ 255) →
      s16 (lumaTerm t w) k = mulRound (4 * s16 w k) t.y := by
    intro w k h
    have e := s16_shl2 w (k := k) (by omega)
    rw [lumaTerm, asI16_id (by omega) (by omega), s16_q15 (by rw [e]; omega) hty, e]
  · have pk := packSat_words
      (fun k => satI16 ((s16 (slli16 2 (extendLow (subsU8 yr (set1_8 rg.biasY)))) k
        * s16 (set1_16 (asI16 t.y)) k + 16384) / 32768))
      (fun k => satI16 ((s16 (slli16 2 (extendHigh (subsU8 yr (set1_8 rg.biasY)))) k
        * s16 (set1_16 (asI16 t.y)) k + 16384) / 32768)) hi
    refine Eq.trans pk ?_
    unfold grayLev
    congr 1
    rw [← y1 i hi, ← subsU8_at (r := yr) hby]
    by_cases h8 : i < 8
    · rw [if_pos h8]
      have a := s16_extendLow (h256 i)
      have b := h256 i
      exact (lt _ i (by rw [a]; omega)).trans (by rw [a])
    · rw [if_neg h8]
      obtain ⟨j, rfl⟩ : ∃ j, i = 8 + j := ⟨i - 8, by omega⟩
      rw [Nat.add_sub_cancel_left]
      have a := s16_extendHigh (h256 (8 + j))
      have b := h256 (8 + j)
      exact (lt _ j (by rw [a]; omega)).trans (by rw [a])

theorem grayRow_ok (hby : rg.biasY < 256) (hty : -32767 ≤ t.y ∧ t.y ≤ 32767) (ch : Channels) {w : Nat}
    (h0 : 0 < w) {y row : Buf} (hy : ∀ x ∈ y, x < 256) (ly : w ≤ y.length)
    (hw : w * ch.count ≤ row.length) :
    grayRow ch rg t w y row 0
      = .ok (painted ch.count (grayRowPix ch (fun _ y => grayLev t (y - rg.biasY)) y none) w row) := by
  obtain ⟨c, e, k, -, l⟩ := grayLoop (step := 16) (A := 16) (by decide) rfl
    (L := fun _ y => grayLev t (y - rg.biasY)) (M := fun y => grayLev t (y - rg.biasY)) (y := y)
    (a := none) hw (body := fun cx r => grayBody ch rg t y cx (cx * ch.count) r) (cx0 := 0) rfl h0
    (fun cx r _ h => grayBody_eq hby hty ch hy (by omega) _ r) (fun _ _ _ => rfl)
  rw [painted_zero] at e
  simp only [grayRow, e, Outcome.bind_ok]
  exact grayTail_ok (M := fun y => grayLev t (y - rg.biasY)) hy
    (fun y d hy ly => grayBody_eq hby hty ch hy (by omega) _ d) ly hw l (by omega) (fun _ _ _ => rfl)

theorem grayHandler_fills (ch : Channels) (m : Matrix) {w : Nat} (h0 : 0 < w) {s : Src}
    (hs : s.cn = 1) :
    (grayHandler ch (getYuvRange 8 .limited) (searchInverse 13 8 .limited m) w).Fills 256 w ch.count
      [s] (fun px => layout ch (grayLevel 8 .limited m (comp px 0 0)) (grayLevel 8 .limited m (comp px 0 0))
        (grayLevel 8 .limited m (comp px 0 0)) 255)
      (fun _ px p => p = grayPix ch (wasmGray m (comp px 0 0)) 255) := by
  intro rows row h1 h2 h3
  obtain ⟨y, rfl⟩ := rows_one h1
  obtain ⟨ly, hy⟩ := h2 s y (by simp)
  rw [hs, Nat.mul_one] at ly
  have hby : (getYuvRange 8 .limited).biasY < 256 := by decide
  have hc := grayCoef_search m
  unfold GrayCoef at hc
  have e := grayRow_ok hby (t := searchInverse 13 8 .limited m) (by omega) ch h0 hy ly h3
  refine ⟨_, w, by simp only [grayHandler, List.getD_cons_zero, e, Outcome.bind_ok]; rfl,
    painted_done (X86.count_pos ch) (fun _ => grayRowPix_length ..) h3 (le_refl _) (.inr rfl)
      fun x hx => ?_, fun x h4 h5 => absurd h4 (by omega)⟩
  show _ = grayPix _ _ _
  rw [comp_plane hs (by omega)]; rfl

end Verif.Wasm
