import Verif.Model.X86DeepAlpha
import Verif.Spec.VecDeepAlpha
import Verif.Lemmas.X86Deep8
import Verif.Lemmas.AlphaDecode
/-! # Rows of the x86 decoders of 10- and 12-bit images with an alpha plane -/
namespace Verif.X86
open Spec

/-- The pixel of three stored words, decoded by `f` after they are brought to native samples, with
alpha `a`. -/
def alphaPix (e : Endianness) (bp : BytesPacking) (d : Nat) (ch : Channels)
    (f : Nat → Nat → Nat → Nat × Nat × Nat) (a y u v : Nat) : Buf :=
  let c := f (nativeSample e bp d y) (nativeSample e bp d u) (nativeSample e bp d v)
  layout ch c.1 c.2.1 c.2.2 a

theorem alphaPix_length (e : Endianness) (bp : BytesPacking) (d : Nat) (ch : Channels)
    (f : Nat → Nat → Nat → Nat × Nat × Nat) (a y u v : Nat) :
    (alphaPix e bp d ch f a y u v).length = ch.count := layout_length' ..

/-- Pixel `x` of a row of planar samples with alpha. -/
def rowA (pix : Nat → Nat → Nat → Nat → Nat → Buf) (src : Nat → Nat) (hd : Nat) (y u v a : Buf)
    (x : Nat) : Buf :=
  pix x (a.getD (src x) 0) (y.getD x 0) (u.getD (x / hd) 0) (v.getD (x / hd) 0)

theorem stepA_row {pix : Nat → Nat → Nat → Nat → Nat → Buf} {src : Nat → Nat} {hd : Nat}
    (hhd : 0 < hd) {n : Nat} {y u v a : Buf} {cx ux : Nat} (h : ux * hd = cx)
    {p0 : Nat → Nat → Nat → Nat → Buf} {s0 : Nat → Nat}
    (hp : ∀ j, j < n → pix (cx + j) = p0 ∧ src (cx + j) = cx + s0 j) :
    ((List.range n).flatMap fun j => p0 (a.getD (cx + s0 j) 0)
      (y.getD (cx + j) 0) (u.getD (ux + j / hd) 0) (v.getD (ux + j / hd) 0))
      = (List.range n).flatMap fun j => rowA pix src hd y u v a (cx + j) := by
  subst h
  apply range_flatMap_congr
  intro j hj
  have e : (ux * hd + j) / hd = ux + j / hd := by
    rw [Nat.add_comm, Nat.add_mul_div_right _ _ hhd, Nat.add_comm]
  simp only [rowA, e, hp j hj]

/-! ## Arithmetic -/

theorem shiftRgb_at {d : Nat} (hd : d = 10 ∨ d = 12) {c : ChromaRange} {t : InvCoef} (ht : DeepCoef t)
    (hbu : c.biasUv < 65536) (yo u v : Reg) {x : Int} {k : Nat} (hx : int16 (w16 yo k) = int16 x) :
    w16 (shiftRgb d c t yo u v).1 k = (shiftRGB d c t x (w16 u k) (w16 v k)).1 ∧
    w16 (shiftRgb d c t yo u v).2.1 k = (shiftRGB d c t x (w16 u k) (w16 v k)).2.1 ∧
    w16 (shiftRgb d c t yo u v).2.2 k = (shiftRGB d c t x (w16 u k) (w16 v k)).2.2 := by
  obtain ⟨t1, t2, t3, t4, t5⟩ := ht
  have hd15 : d ≤ 15 := by rcases hd with rfl | rfl <;> decide
  have el : s16 (mulhrs16 (slli16 2 yo) (set1_16 (asI16 t.y))) k = mulRound (int16 (4 * x)) t.y := by
    rw [asI16_coef (by omega), s16_mulhrs_any _ (by omega), s16_slliLuma yo hx]
  refine ⟨?_, ?_, ?_⟩
  · simp only [shiftRgb, shiftRGB]
    rw [w16_limit hd15, s16_add, el, asI16_coef t2, s16_mulhrs_any _ (by omega), s16_slliSub hbu]
    rfl
  · simp only [shiftRgb, shiftRGB]
    rw [w16_limit hd15, s16_add, s16_add, el, asI16_coef t4, asI16_coef t5,
      s16_mulhrs_any _ (by omega), s16_mulhrs_any _ (by omega), s16_slliSub hbu, s16_slliSub hbu]
    exact congrArg _ (int16_add3 _ _ _)
  · simp only [shiftRgb, shiftRGB]
    rw [w16_limit hd15, s16_add, el, asI16_coef t3, s16_mulhrs_any _ (by omega), s16_slliSub hbu]
    rfl

theorem w16_subLuma {a : Reg} {b : Nat} (hb : b < 65536) (k : Nat) :
    int16 (w16 (sub16 a (set1_16 (b : Int))) k) = int16 ((w16 a k : Int) - b) := by
  rw [sub16, w16_mk16, s16_set1, s16]
  generalize w16 a k = n
  unfold int16 asI16 asU16
  omega

theorem storeShr_alpha {d : Nat} (hd : d = 10 ∨ d = 12) (a : Reg) (k : Nat) :
    satU8 (s16 (storeShr d a) k) = vecAlpha8 d (w16 a k) := by
  rw [storeShr_at hd]; rfl

variable {rg : ChromaRange} {t : InvCoef}

/-- The luma words above their offset, saturating and not. -/
theorem lumaSat {e : Endianness} {bp : BytesPacking} {d : Nat} (hD : Deep d) {yr : Reg} {z j : Nat}
    (hj : j < 16) (hb : RegBytes yr) (hby : rg.biasY < 65536) (hz : w16 yr j = z) :
    int16 (w16 (subsU16 (nativeReg e bp d yr) (set1_16 (rg.biasY : Int))) j)
      = int16 ((nativeSample e bp d z - rg.biasY : Nat) : Int) := by
  rw [w16_subsU (nativeReg_bytes e bp d hb) hby, nativeReg_at e bp hD hb (by omega), hz]

theorem lumaSub {e : Endianness} {bp : BytesPacking} {d : Nat} (hD : Deep d) {yr : Reg} {z j : Nat}
    (hj : j < 16) (hb : RegBytes yr) (hby : rg.biasY < 65536) (hz : w16 yr j = z) :
    int16 (w16 (sub16 (nativeReg e bp d yr) (set1_16 (rg.biasY : Int))) j)
      = int16 ((nativeSample e bp d z : Int) - rg.biasY) := by
  rw [w16_subLuma hby, nativeReg_at e bp hD hb (by omega), hz]

/-! ## 16-bit bodies -/

theorem sseDeepAlphaBody_eq (s : Sampling) (e : Endianness) (bp : BytesPacking) {d : Nat}
    (hd : d = 10 ∨ d = 12) (ch : Channels) (ht : DeepCoef t) (hby : rg.biasY < 65536)
    (hbu : rg.biasUv < 65536) {y u v a : Buf} (hy : ∀ x ∈ y, x < 65536) (hu : ∀ x ∈ u, x < 65536)
    (hv : ∀ x ∈ v, x < 65536) (ha : ∀ x ∈ a, x < 65536) {cx ux : Nat} (ly : cx + 8 ≤ y.length)
    (lu : ux + chromaStep s 8 ≤ u.length) (lv : ux + chromaStep s 8 ≤ v.length)
    (la : cx + 8 ≤ a.length) (p : Nat) (row : Buf) :
    sseDeepAlphaBody s e bp d ch rg t y u v a cx ux p row
      = put row p ((List.range 8).flatMap fun j => alphaPix e bp d ch (deepVecRGB d rg t)
          (a.getD (cx + j) 0) (y.getD (cx + j) 0) (u.getD (ux + j / hdiv s) 0)
          (v.getD (ux + j / hdiv s) 0)) := by
  have hD : Deep d := hd.elim .inl fun h => .inr (.inl h)
  obtain ⟨yr, e1, a1, a2⟩ := load16_at ly hy
  obtain ⟨ur, e2, b1⟩ := sseDeepChroma_at e bp hD lu hu
  obtain ⟨vr, e3, c1⟩ := sseDeepChroma_at e bp hD lv hv
  obtain ⟨ar, e4, d1, _⟩ := load16_at la ha
  unfold sseDeepAlphaBody
  rw [e1, Outcome.bind_ok, e2, Outcome.bind_ok, e3, Outcome.bind_ok]
  simp only [e4, Outcome.bind_ok, sseStore16_eq]
  unfold pixels
  refine congrArg (put row p) (range_flatMap_congr fun j hj => ?_)
  obtain ⟨h1, h2, h3⟩ := deepRgb_at hd ht hby hbu (nativeReg e bp d yr) ur vr
    (nativeReg_bytes e bp d a2) j (by omega)
  rw [h1, h2, h3, nativeReg_at e bp hD a2 (by omega), a1 j hj, b1 j hj, c1 j hj, d1 j hj]
  rfl

theorem avx2DeepAlphaBody_eq (s : Sampling) (e : Endianness) (bp : BytesPacking) {d : Nat}
    (hd : d = 10 ∨ d = 12) (ch : Channels) (ht : DeepCoef t) (hby : rg.biasY < 65536)
    (hbu : rg.biasUv < 65536) {y u v a : Buf} (hy : ∀ x ∈ y, x < 65536) (hu : ∀ x ∈ u, x < 65536)
    (hv : ∀ x ∈ v, x < 65536) (ha : ∀ x ∈ a, x < 65536) {cx ux : Nat} (ly : cx + 16 ≤ y.length)
    (lu : ux + chromaStep s 16 ≤ u.length) (lv : ux + chromaStep s 16 ≤ v.length)
    (la : cx + 16 ≤ a.length) (p : Nat) (row : Buf) :
    avx2DeepAlphaBody s e bp d ch rg t y u v a cx ux p row
      = put row p ((List.range 16).flatMap fun j => alphaPix e bp d ch (subRGB d rg t)
          (a.getD (cx + j) 0) (y.getD (cx + j) 0) (u.getD (ux + j / hdiv s) 0)
          (v.getD (ux + j / hdiv s) 0)) := by
  have hD : Deep d := hd.elim .inl fun h => .inr (.inl h)
  obtain ⟨yr, e1, a1, a2⟩ := load16_at ly hy
  obtain ⟨ur, e2, b1⟩ := avx2DeepChroma_at e bp hD lu hu
  obtain ⟨vr, e3, c1⟩ := avx2DeepChroma_at e bp hD lv hv
  obtain ⟨ar, e4, d1, _⟩ := load16_at la ha
  unfold avx2DeepAlphaBody
  rw [e1, Outcome.bind_ok, e2, Outcome.bind_ok, e3, Outcome.bind_ok]
  simp only [e4, Outcome.bind_ok, avx2Store16_eq]
  unfold pixels
  refine congrArg (put row p) (range_flatMap_congr fun j hj => ?_)
  obtain ⟨h1, h2, h3⟩ := shiftRgb_at hd ht hbu _ ur vr
    (lumaSub (e := e) (bp := bp) hD hj a2 hby (a1 j hj))
  rw [h1, h2, h3, b1 j hj, c1 j hj, d1 j hj]
  rfl

theorem avx2DeepAlphaBody2_eq (s : Sampling) (e : Endianness) (bp : BytesPacking) {d : Nat}
    (hd : d = 10 ∨ d = 12) (ch : Channels) (ht : DeepCoef t) (hby : rg.biasY < 65536)
    (hbu : rg.biasUv < 65536) {y u v a : Buf} (hy : ∀ x ∈ y, x < 65536) (hu : ∀ x ∈ u, x < 65536)
    (hv : ∀ x ∈ v, x < 65536) (ha : ∀ x ∈ a, x < 65536) {cx ux : Nat} (ly : cx + 32 ≤ y.length)
    (lu : ux + chromaStep s 32 ≤ u.length) (lv : ux + chromaStep s 32 ≤ v.length)
    (la : cx + 16 ≤ a.length) (p : Nat) (row : Buf) :
    avx2DeepAlphaBody2 s e bp d ch rg t y u v a cx ux p row
      = put row p ((List.range 32).flatMap fun j => alphaPix e bp d ch (satRGB d rg t)
          (a.getD (cx + j % 16) 0) (y.getD (cx + j) 0) (u.getD (ux + j / hdiv s) 0)
          (v.getD (ux + j / hdiv s) 0)) := by
  have hD : Deep d := hd.elim .inl fun h => .inr (.inl h)
  obtain ⟨y0, e0, a1, a2⟩ := load16_at (p := cx) (n := 16) (by omega) hy
  obtain ⟨y1, e1, a3, a4⟩ := load16_at (p := cx + 16) (n := 16) (by omega) hy
  obtain ⟨ur, e2, b1, b2⟩ := avx2DeepChroma2_at e bp hD lu hu
  obtain ⟨vr, e3, c1, c2⟩ := avx2DeepChroma2_at e bp hD lv hv
  obtain ⟨ar, e4, d1, _⟩ := load16_at la ha
  unfold avx2DeepAlphaBody2
  rw [e0, Outcome.bind_ok, e1, Outcome.bind_ok, e2, Outcome.bind_ok, e3, Outcome.bind_ok]
  simp only [e4, Outcome.bind_ok, avx2Store16_eq]
  rw [put_put _ _ _ _ _ (by rw [pixels_length])]
  unfold pixels
  rw [show (32 : Nat) = 16 + 16 from rfl, range_add_flatMap]
  refine congrArg (put row p) (congrArg₂ (· ++ ·) (range_flatMap_congr fun j hj => ?_)
    (range_flatMap_congr fun j hj => ?_))
  · obtain ⟨h1, h2, h3⟩ := shiftRgb_at hd ht hbu _ ur.1 vr.1
      (lumaSat (e := e) (bp := bp) hD hj a2 hby (a1 j hj))
    rw [h1, h2, h3, b1 j hj, c1 j hj, d1 j hj, Nat.mod_eq_of_lt hj]
    rfl
  · obtain ⟨h1, h2, h3⟩ := shiftRgb_at hd ht hbu _ ur.2 vr.2
      (lumaSat (e := e) (bp := bp) hD hj a4 hby (a3 j hj))
    rw [h1, h2, h3, b2 j hj, c2 j hj, d1 j hj, show (16 + j) % 16 = j by omega, ← Nat.add_assoc]
    rfl

/-! ## 16-bit rows -/

theorem sseDeepAlphaRow_ok (s : Sampling) (e : Endianness) (bp : BytesPacking) {d : Nat}
    (hd : d = 10 ∨ d = 12) (ch : Channels) (ht : DeepCoef t) (hby : rg.biasY < 65536)
    (hbu : rg.biasUv < 65536) {w : Nat} {y u v a row : Buf}
    (hy : ∀ x ∈ y, x < 65536) (hu : ∀ x ∈ u, x < 65536) (hv : ∀ x ∈ v, x < 65536)
    (ha : ∀ x ∈ a, x < 65536)
    (ly : w ≤ y.length) (lu : (w - 1) / hdiv s + 1 ≤ u.length)
    (lv : (w - 1) / hdiv s + 1 ≤ v.length) (la : w ≤ a.length) (hw : w * ch.count ≤ row.length)
    {f : Nat → Nat → Nat → Nat → Nat × Nat × Nat} {src : Nat → Nat} {cx ux : Nat}
    (hf : ∀ x, cx ≤ x → x < vecCols 8 w → f x = deepVecRGB d rg t ∧ src x = x)
    (h0 : ux * hdiv s = cx) (hcx : cx ≤ w) (h8 : cx % 8 = 0) (hlt : cx = 0 ∨ cx < w) (wpos : 0 < w) :
    ∃ ux', sseDeepAlphaRow s e bp d ch rg t w y u v a
        (painted ch.count (rowA (fun x => alphaPix e bp d ch (f x)) src (hdiv s) y u v a) cx row) cx ux
      = .ok (painted ch.count (rowA (fun x => alphaPix e bp d ch (f x)) src (hdiv s) y u v a)
          (vecCols 8 w) row, vecCols 8 w, ux') := by
  unfold vecCols at *
  obtain ⟨cx', ux', e1, h1, h2, h3, h4⟩ := paintLoopI (step := 8) (ustep := chromaStep s 8) (width := w)
    (cn := ch.count) (I := fun cx ux => ux * hdiv s = cx ∧ cx % 8 = 0) (by decide)
    (fun cx ux g => ⟨by rw [Nat.add_mul, g.1, chromaStep_hdiv s rfl], by omega⟩)
    (pix := rowA (fun x => alphaPix e bp d ch (f x)) src (hdiv s) y u v a) (fun _ => alphaPix_length ..)
    (row := row) hw
    (body := fun cx ux row => sseDeepAlphaBody s e bp d ch rg t y u v a cx ux (cx * ch.count) row)
    (cx0 := cx) (ux0 := ux) ⟨h0, h8⟩
    (by
      intro cx1 ux1 r hge hux hlt
      rw [← stepA_row (hdiv_pos s) hux.1 (p0 := alphaPix e bp d ch (deepVecRGB d rg t)) (s0 := fun j => j)
        fun j hj => ?_]
      · exact sseDeepAlphaBody_eq s e bp hd ch ht hby hbu hy hu hv ha (by omega)
          (chroma_room hux.1 rfl (by omega) lu (by decide))
          (chroma_room hux.1 rfl (by omega) lv (by decide)) (by omega) _ _
      · have := hf (cx1 + j) (by omega) (by omega)
        exact ⟨by rw [this.1], this.2⟩)
    hcx
  have e : cx' = 8 * ((w - 1) / 8) := by
    rw [h1, loopEnd]; omega
  rw [← e]
  exact ⟨ux', e1⟩

theorem avx2DeepAlphaRow_ok (s : Sampling) (e : Endianness) (bp : BytesPacking) {d : Nat}
    (hd : d = 10 ∨ d = 12) (ch : Channels) (ht : DeepCoef t) (hby : rg.biasY < 65536)
    (hbu : rg.biasUv < 65536) {w : Nat} {y u v a row : Buf}
    (hy : ∀ x ∈ y, x < 65536) (hu : ∀ x ∈ u, x < 65536) (hv : ∀ x ∈ v, x < 65536)
    (ha : ∀ x ∈ a, x < 65536)
    (ly : w ≤ y.length) (lu : (w - 1) / hdiv s + 1 ≤ u.length)
    (lv : (w - 1) / hdiv s + 1 ≤ v.length) (la : w ≤ a.length) (hw : w * ch.count ≤ row.length)
    {f : Nat → Nat → Nat → Nat → Nat × Nat × Nat}
    (hf : ∀ x, (x < vecCols 32 w → f x = satRGB d rg t) ∧
      (vecCols 32 w ≤ x → x < vecCols 16 w → f x = subRGB d rg t)) (wpos : 0 < w) :
    ∃ ux, avx2DeepAlphaRow s e bp d ch rg t w y u v a row 0 0
      = .ok (painted ch.count (rowA (fun x => alphaPix e bp d ch (f x)) (pairedCol w) (hdiv s) y u v a)
          (vecCols 16 w) row, vecCols 16 w, ux) ∧ ux * hdiv s = vecCols 16 w := by
  unfold vecCols at *
  obtain ⟨cx, ux, e1, h1, h2, h3, h4⟩ := paintLoopI (step := 32) (ustep := chromaStep s 32) (width := w)
    (cn := ch.count) (I := fun cx ux => ux * hdiv s = cx ∧ cx % 32 = 0) (by decide)
    (fun cx ux g => ⟨by rw [Nat.add_mul, g.1, chromaStep_hdiv s rfl], by omega⟩)
    (pix := rowA (fun x => alphaPix e bp d ch (f x)) (pairedCol w) (hdiv s) y u v a)
    (fun _ => alphaPix_length ..) (row := row) hw
    (body := fun cx ux row => avx2DeepAlphaBody2 s e bp d ch rg t y u v a cx ux (cx * ch.count) row)
    (cx0 := 0) (ux0 := 0) ⟨Nat.zero_mul _, rfl⟩
    (by
      intro cx1 ux1 r _ hux hlt
      rw [← stepA_row (hdiv_pos s) hux.1 (p0 := alphaPix e bp d ch (satRGB d rg t))
        (s0 := fun j => j % 16) fun j hj => ?_]
      · exact avx2DeepAlphaBody2_eq s e bp hd ch ht hby hbu hy hu hv ha (by omega)
          (chroma_room hux.1 rfl (by omega) lu (by decide))
          (chroma_room hux.1 rfl (by omega) lv (by decide)) (by omega) _ _
      · refine ⟨by rw [(hf (cx1 + j)).1 (by omega)], ?_⟩
        unfold pairedCol vecCols
        split <;> omega)
    (Nat.zero_le _)
  rw [painted_zero] at e1
  have e32 : cx = 32 * ((w - 1) / 32) := by rw [h1, loopEnd]; omega
  obtain ⟨cx', ux', e2, g1, g2, g3, g4⟩ := paintLoopI (step := 16) (ustep := chromaStep s 16) (width := w)
    (cn := ch.count) (I := fun cx ux => ux * hdiv s = cx ∧ cx % 16 = 0) (by decide)
    (fun cx ux g => ⟨by rw [Nat.add_mul, g.1, chromaStep_hdiv s rfl], by omega⟩)
    (pix := rowA (fun x => alphaPix e bp d ch (f x)) (pairedCol w) (hdiv s) y u v a)
    (fun _ => alphaPix_length ..) (row := row) hw
    (body := fun cx ux row => avx2DeepAlphaBody s e bp d ch rg t y u v a cx ux (cx * ch.count) row)
    (cx0 := cx) (ux0 := ux) ⟨h2.1, by omega⟩
    (by
      intro cx1 ux1 r hge hux hlt
      rw [← stepA_row (hdiv_pos s) hux.1 (p0 := alphaPix e bp d ch (subRGB d rg t))
        (s0 := fun j => j) fun j hj => ?_]
      · exact avx2DeepAlphaBody_eq s e bp hd ch ht hby hbu hy hu hv ha (by omega)
          (chroma_room hux.1 rfl (by omega) lu (by decide))
          (chroma_room hux.1 rfl (by omega) lv (by decide)) (by omega) _ _
      · refine ⟨by rw [(hf (cx1 + j)).2 (by omega) (by omega)], ?_⟩
        unfold pairedCol vecCols
        rw [if_neg (by omega)])
    h3
  have e3 : cx' = 16 * ((w - 1) / 16) := by
    rw [g1, h1]; unfold loopEnd; omega
  unfold avx2DeepAlphaRow
  rw [e1, Outcome.bind_ok, ← e3]
  exact ⟨ux', e2, g2.1⟩

/-! ## The contract of the 16-bit rows -/

/-- The pixel of stored words in column `x` of a row of `w` pixels; `px` is the portable
decoding. -/
def cpuDeepAlpha (cpu : Cpu) (e : Endianness) (bp : BytesPacking) (d : Nat) (ch : Channels)
    (rg : ChromaRange) (t : InvCoef) (w : Nat) (px : Nat → Nat → Nat → Nat → Buf) (x y u v a : Nat) : Buf :=
  if cpu ≠ .plain ∧ d ≤ 12 ∧ x < vecCols 8 w then alphaPix e bp d ch (deepAlphaRGB cpu d rg t w x) a y u v
  else px y u v a

theorem deepAlphaHandler_fills (cpu : Cpu) (s : Sampling) (e : Endianness) (bp : BytesPacking) {d : Nat}
    (hD : Deep d) (ch : Channels) (ht : DeepCoef t) (hby : rg.biasY < 65536)
    (hbu : rg.biasUv < 65536) {w : Nat} (wpos : 0 < w) (px : Nat → Nat → Nat → Nat → Buf) :
    (deepAlphaHandler cpu s e bp d ch rg t w).FillsFrom (deepAlphaSrc cpu d w) false 65536 ch.count w
      (hdiv s) px (fun x y u v a p => p = cpuDeepAlpha cpu e bp d ch rg t w px x y u v a) := by
  intro y u v a row hy hu hv ha ly lu lv la hw
  by_cases hc : cpu = .plain ∨ 12 < d
  · have hs : ∀ x, deepAlphaSrc cpu d w x = x := by
      intro x
      unfold deepAlphaSrc
      rw [if_neg]
      rintro ⟨rfl, h⟩
      rcases hc with h' | h'
      · cases h'
      · omega
    have hq : ∀ x y u v a, cpuDeepAlpha cpu e bp d ch rg t w px x y u v a = px y u v a := by
      intro x y u v a
      unfold cpuDeepAlpha
      rw [if_neg]
      rintro ⟨h1, h2, -⟩
      rcases hc with h' | h'
      · exact h1 h'
      · omega
    have hh : deepAlphaHandler cpu s e bp d ch rg t w y u v a row = .ok (row, 0) := by
      cases cpu with
      | plain => rfl
      | avx2 => exact if_neg (by rcases hc with h | h; cases h; omega)
      | sse41 => exact if_neg (by rcases hc with h | h; cases h; omega)
    refine ⟨row, row, 0, hh, ⟨rfl, fun _ _ => rfl⟩, ⟨Nat.zero_le _, .inl (Nat.zero_mod _), rfl,
      fun x _ hx => absurd hx (Nat.not_lt_zero _), fun _ _ => rfl⟩, fun x _ _ => ?_⟩
    rw [hs]
    exact (hq ..).symm
  have hc1 : cpu ≠ .plain := fun h => hc (.inl h)
  have hc2 : d ≤ 12 := by
    by_contra h; exact hc (.inr (by omega))
  have hd : d = 10 ∨ d = 12 := by rcases hD with h | h | h | h <;> omega
  have key : ∃ ux, deepAlphaHandler cpu s e bp d ch rg t w y u v a row
      = done (.ok (painted ch.count (rowA (fun x => alphaPix e bp d ch (deepAlphaRGB cpu d rg t w x))
          (deepAlphaSrc cpu d w) (hdiv s) y u v a) (vecCols 8 w) row, vecCols 8 w, ux)) := by
    cases cpu with
    | plain => exact absurd rfl hc1
    | sse41 =>
      obtain ⟨ux, e1⟩ := sseDeepAlphaRow_ok s e bp hd ch ht hby hbu hy hu hv ha ly lu lv la hw
        (f := deepAlphaRGB .sse41 d rg t w) (src := deepAlphaSrc .sse41 d w) (cx := 0) (ux := 0)
        (fun x _ _ => ⟨rfl, rfl⟩)
        (Nat.zero_mul _) (Nat.zero_le _) rfl (.inl rfl) wpos
      rw [painted_zero] at e1
      refine ⟨ux, ?_⟩
      rw [← e1]
      exact if_pos hc2
    | avx2 =>
      have hs : deepAlphaSrc .avx2 d w = pairedCol w := by
        funext x; exact if_pos ⟨rfl, hc2⟩
      obtain ⟨ux, e1, h1⟩ := avx2DeepAlphaRow_ok s e bp hd ch ht hby hbu hy hu hv ha ly lu lv la hw
        (f := deepAlphaRGB .avx2 d rg t w)
        (fun x => ⟨fun h => if_pos ⟨rfl, h⟩, fun h h' => by
          unfold deepAlphaRGB
          rw [if_neg (by rintro ⟨-, h2⟩; omega), if_pos ⟨rfl, h'⟩]⟩) wpos
      obtain ⟨ux', e2⟩ := sseDeepAlphaRow_ok s e bp hd ch ht hby hbu hy hu hv ha ly lu lv la hw
        (f := deepAlphaRGB .avx2 d rg t w) (src := pairedCol w) (cx := vecCols 16 w) (ux := ux)
        (fun x h h' => by
          unfold vecCols at *
          have : ¬ x < 32 * ((w - 1) / 32) := by omega
          have h16 : ¬ x < 16 * ((w - 1) / 16) := by omega
          constructor
          · unfold deepAlphaRGB vecCols
            rw [if_neg (by rintro ⟨-, h2⟩; omega), if_neg (by rintro ⟨-, h2⟩; omega)]
          · unfold pairedCol vecCols
            rw [if_neg (by rintro ⟨h2, -⟩; omega)])
        h1 (by unfold vecCols; omega) (by unfold vecCols; omega) (by unfold vecCols; omega) wpos
      refine ⟨ux', ?_⟩
      rw [hs, ← e2]
      refine (if_pos hc2).trans ?_
      show done (avx2DeepAlphaRow s e bp d ch rg t w y u v a row 0 0 >>= _) = _
      rw [e1, Outcome.bind_ok]
  obtain ⟨ux, e1⟩ := key
  rw [e1]
  refine ⟨row, _, _, rfl, ⟨rfl, fun _ _ => rfl⟩, painted_done (count_pos ch)
    (fun _ => alphaPix_length ..) hw (by unfold vecCols; omega) (.inl ?_) fun x hx => ?_, fun x h1 h2 => ?_⟩
  · unfold vecCols; cases s <;> simp only [hdiv] <;> omega
  · simp only [cpuDeepAlpha, if_pos (And.intro hc1 (And.intro hc2 hx))]
    try rfl
  · have hx : ¬ x < vecCols 8 w := by
      intro h3
      rcases h1 with h1 | ⟨-, h1⟩
      · exact absurd h3 (Nat.not_lt.2 h1)
      · unfold vecCols at h3; omega
    have hs : deepAlphaSrc cpu d w x = x := by
      unfold deepAlphaSrc pairedCol
      have : ¬ x < vecCols 32 w := by unfold vecCols at *; omega
      split
      · rw [if_neg (fun h => this h.1)]
      · rfl
    rw [hs]
    simp only [cpuDeepAlpha, if_neg (fun h : cpu ≠ .plain ∧ d ≤ 12 ∧ x < vecCols 8 w => hx h.2.2)]

theorem deepAlphaSrc_lt (cpu : Cpu) (d w x : Nat) (h : x < w) : deepAlphaSrc cpu d w x < w := by
  unfold deepAlphaSrc pairedCol
  split
  · split <;> omega
  · exact h

end Verif.X86
