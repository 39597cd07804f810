import Verif.Lemmas.X86DeepArith
/-! # Rows of the x86 decoders of 10- to 16-bit images -/
namespace Verif.X86
open Spec

/-- Pixel `x` of a row of planar samples decoded by `pix`. -/
def rowOf (pix : Nat → Nat → Nat → Buf) (hd : Nat) (y u v : Buf) (x : Nat) : Buf :=
  pix (y.getD x 0) (u.getD (x / hd) 0) (v.getD (x / hd) 0)

/-- The pixels of a step of `n` pixels. -/
def stepOf (pix : Nat → Nat → Nat → Buf) (hd n : Nat) (y u v : Buf) (cx ux : Nat) : Buf :=
  (List.range n).flatMap fun j =>
    pix (y.getD (cx + j) 0) (u.getD (ux + j / hd) 0) (v.getD (ux + j / hd) 0)

theorem stepOf_row (pix : Nat → Nat → Nat → Buf) {hd : Nat} (hhd : 0 < hd) (n : Nat)
    (y u v : Buf) {cx ux : Nat} (h : ux * hd = cx) :
    stepOf pix hd n y u v cx ux = (List.range n).flatMap fun j => rowOf pix hd y u v (cx + j) := by
  subst h
  apply range_flatMap_congr
  intro j _
  have e : (ux * hd + j) / hd = ux + j / hd := by
    rw [Nat.add_comm, Nat.add_mul_div_right _ _ hhd, Nat.add_comm]
  simp only [rowOf, e]

/-- The last pixels of a row through the stack buffers. -/
theorem deepTail_ok {N : Nat} (hN : 0 < N) (atCx : Bool) (s : Sampling) (ch : Channels) {w : Nat}
    {pix : Nat → Nat → Nat → Buf} (hp : ∀ a b c, (pix a b c).length = ch.count)
    {f : Buf → Buf → Buf → Buf → Outcome Buf} {y u v row : Buf}
    (hy : ∀ x ∈ y, x < 65536) (hu : ∀ x ∈ u, x < 65536) (hv : ∀ x ∈ v, x < 65536)
    (hf : ∀ y u v d : Buf, (∀ x ∈ y, x < 65536) → (∀ x ∈ u, x < 65536) → (∀ x ∈ v, x < 65536) →
      y.length = N → u.length = N → v.length = N →
      f y u v d = put d 0 (stepOf pix (hdiv s) N y u v 0 0))
    (ly : w ≤ y.length) (lu : (w - 1) / hdiv s + 1 ≤ u.length)
    (lv : (w - 1) / hdiv s + 1 ≤ v.length) (hw : w * ch.count ≤ row.length) {cx ux : Nat}
    (h1 : ux * hdiv s = cx) (h2 : cx ≤ w) (h3 : w ≤ cx + N) :
    ∃ ux', deepTail N atCx s ch w f y u v (painted ch.count (rowOf pix (hdiv s) y u v) cx row) cx ux
      = .ok (painted ch.count (rowOf pix (hdiv s) y u v) w row, w, ux') := by
  unfold deepTail
  have hrl : ∀ x, (rowOf pix (hdiv s) y u v x).length = ch.count := fun x => hp ..
  by_cases hlt : cx < w
  · rw [if_pos hlt]
    have z : ∀ x ∈ List.replicate N 0, x < 65536 := by
      intro x hx; rw [(List.mem_replicate.1 hx).2]; decide
    have hdN : chromaStep s (w - cx) ≤ N := by
      cases s <;> simp only [chromaStep, ceil2] <;> omega
    have eup : (if s = .yuv444 ∧ atCx = true then cx else ux) = ux := by
      split
      · rename_i hs
        rw [hs.1] at h1
        rw [← h1]; exact Nat.mul_one _
      · rfl
    obtain ⟨yb, ey, ly', y1, y2⟩ := copyIn_ok (src := y) (dst := List.replicate N 0) (p := cx)
      (n := w - cx) (by omega) (by simp; omega)
    obtain ⟨ub, eu, lu', u1, u2⟩ := copyIn_ok (src := u) (dst := List.replicate N 0) (p := ux)
      (n := chromaStep s (w - cx)) (chroma_tail h1 hlt lu) (by simp; omega)
    obtain ⟨vb, ev, lv', v1, v2⟩ := copyIn_ok (src := v) (dst := List.replicate N 0) (p := ux)
      (n := chromaStep s (w - cx)) (chroma_tail h1 hlt lv) (by simp; omega)
    have e1 := hf yb ub vb (List.replicate (N * 4) 0)
      (fun x hx => (y2 x hx).elim (hy x) (z x)) (fun x hx => (u2 x hx).elim (hu x) (z x))
      (fun x hx => (v2 x hx).elim (hv x) (z x)) (by simpa using ly') (by simpa using lu')
      (by simpa using lv')
    simp only [eup, ey, eu, ev, e1, Outcome.bind_ok, if_neg (show ¬ N < w - cx by omega)]
    have e2 := copyOut_put (N := N) (L := N * 4) (n := w - cx) (cn := ch.count)
      (Nat.mul_le_mul_left _ (count_le ch)) (by omega)
      (f := fun j => pix (yb.getD (0 + j) 0) (ub.getD (0 + j / hdiv s) 0) (vb.getD (0 + j / hdiv s) 0))
      (fun j => hp ..)
      (painted ch.count (rowOf pix (hdiv s) y u v) cx row) (cx * ch.count)
    refine ⟨ux + chromaStep s (w - cx), ?_⟩
    have e3 : ((List.range (w - cx)).flatMap fun j => pix (yb.getD (0 + j) 0)
        (ub.getD (0 + j / hdiv s) 0) (vb.getD (0 + j / hdiv s) 0))
        = (List.range (w - cx)).flatMap fun j => rowOf pix (hdiv s) y u v (cx + j) := by
      rw [← stepOf_row pix (hdiv_pos s) _ y u v h1]
      apply range_flatMap_congr
      intro j hj
      have hc : j / hdiv s < chromaStep s (w - cx) := by
        cases s <;> simp only [hdiv, chromaStep, ceil2] <;> omega
      rw [Nat.zero_add, Nat.zero_add, y1 j hj, u1 _ hc, v1 _ hc]
    rw [e3, painted_put hrl (by rw [Nat.add_sub_cancel' h2]; exact hw), Nat.add_sub_cancel' h2] at e2
    have e4 : (put (List.replicate (N * 4) 0) 0 (stepOf pix (hdiv s) N yb ub vb 0 0) >>= fun db =>
        copyOut db ((w - cx) * ch.count) (painted ch.count (rowOf pix (hdiv s) y u v) cx row)
          (cx * ch.count))
        = .ok (painted ch.count (rowOf pix (hdiv s) y u v) w row) := e2
    simp only [Nat.add_sub_cancel' h2]
    rw [← bind_assoc', e4]
    rfl
  · rw [if_neg hlt]
    obtain rfl : cx = w := by omega
    exact ⟨ux, rfl⟩

/-! ## The bodies -/

/-- The pixel of three stored words, decoded by `f` after they are brought to native samples. -/
def wordsPix (e : Endianness) (bp : BytesPacking) (d : Nat) (ch : Channels)
    (f : Nat → Nat → Nat → Nat × Nat × Nat) (y u v : Nat) : Buf :=
  deepOpaque d ch (f (nativeSample e bp d y) (nativeSample e bp d u) (nativeSample e bp d v))

theorem wordsPix_length (e : Endianness) (bp : BytesPacking) (d : Nat) (ch : Channels)
    (f : Nat → Nat → Nat → Nat × Nat × Nat) (y u v : Nat) :
    (wordsPix e bp d ch f y u v).length = ch.count := layout_length' ..

theorem w16_alpha {d : Nat} (hd : Deep d) (k : Nat) : w16 (set1_16 (2 ^ d - 1)) k = 2 ^ d - 1 := by
  rw [set1_16, w16_mk16]
  rcases hd with rfl | rfl | rfl | rfl <;> rfl

/-- The words of a step. -/
theorem pixels_words {n : Nat} (hn : n ≤ 16) (e : Endianness) (bp : BytesPacking) {d : Nat} (hd : Deep d)
    (ch : Channels) {K : Reg → Reg → Reg → Reg × Reg × Reg} {f : Nat → Nat → Nat → Nat × Nat × Nat}
    (hK : TriplesAt K f) {yr ur vr : Reg} (hyr : RegBytes yr) {ys us vs : Nat → Nat}
    (hy : ∀ k, k < n → w16 yr k = nativeSample e bp d (ys k))
    (hu : ∀ k, k < n → w16 ur k = nativeSample e bp d (us k))
    (hv : ∀ k, k < n → w16 vr k = nativeSample e bp d (vs k)) :
    pixels ch n (w16 (K yr ur vr).1) (w16 (K yr ur vr).2.1) (w16 (K yr ur vr).2.2)
      (w16 (set1_16 (2 ^ d - 1)))
      = (List.range n).flatMap fun j => wordsPix e bp d ch f (ys j) (us j) (vs j) := by
  refine range_flatMap_congr fun j hj => ?_
  obtain ⟨h1, h2, h3⟩ := hK yr ur vr hyr j (by omega)
  rw [h1, h2, h3, w16_alpha hd, hy j hj, hu j hj, hv j hj]
  rfl

variable {rg : ChromaRange} {t : InvCoef}

theorem sseDeepBody_eq (s : Sampling) (e : Endianness) (bp : BytesPacking) {d : Nat}
    (hd : d = 10 ∨ d = 12) (ch : Channels) (ht : DeepCoef t) (hby : rg.biasY < 65536)
    (hbu : rg.biasUv < 65536) {y u v : Buf} (hy : ∀ x ∈ y, x < 65536) (hu : ∀ x ∈ u, x < 65536)
    (hv : ∀ x ∈ v, x < 65536) {cx ux : Nat} (ly : cx + 8 ≤ y.length)
    (lu : ux + chromaStep s 8 ≤ u.length) (lv : ux + chromaStep s 8 ≤ v.length) (p : Nat) (row : Buf) :
    sseDeepBody s e bp d ch rg t y u v cx ux p row
      = put row p (stepOf (wordsPix e bp d ch (deepVecRGB d rg t)) (hdiv s) 8 y u v cx ux) := by
  have hD : Deep d := hd.elim .inl fun h => .inr (.inl h)
  obtain ⟨yr, e1, a1, a2⟩ := load16_at ly hy
  obtain ⟨ur, e2, b1⟩ := sseDeepChroma_at e bp hD lu hu
  obtain ⟨vr, e3, c1⟩ := sseDeepChroma_at e bp hD lv hv
  unfold sseDeepBody
  rw [e1, Outcome.bind_ok, e2, Outcome.bind_ok, e3, Outcome.bind_ok, sseStore16_eq]
  congr 1
  exact pixels_words (by decide) e bp hD ch (deepRgb_at hd ht hby hbu) (nativeReg_bytes e bp d a2)
    (fun k hk => by rw [nativeReg_at e bp hD a2 (by omega), a1 k hk]) b1 c1

theorem avx2DeepBody_eq (s : Sampling) (e : Endianness) (bp : BytesPacking) {d : Nat}
    (hd : d = 10 ∨ d = 12) (ch : Channels) (ht : DeepCoef t) (hby : rg.biasY < 65536)
    (hbu : rg.biasUv < 65536) {y u v : Buf} (hy : ∀ x ∈ y, x < 65536) (hu : ∀ x ∈ u, x < 65536)
    (hv : ∀ x ∈ v, x < 65536) {cx ux : Nat} (ly : cx + 16 ≤ y.length)
    (lu : ux + chromaStep s 16 ≤ u.length) (lv : ux + chromaStep s 16 ≤ v.length) (p : Nat) (row : Buf) :
    avx2DeepBody s e bp d ch rg t y u v cx ux p row
      = put row p (stepOf (wordsPix e bp d ch (deepVecRGB d rg t)) (hdiv s) 16 y u v cx ux) := by
  have hD : Deep d := hd.elim .inl fun h => .inr (.inl h)
  obtain ⟨yr, e1, a1, a2⟩ := load16_at ly hy
  obtain ⟨ur, e2, b1⟩ := avx2DeepChroma_at e bp hD lu hu
  obtain ⟨vr, e3, c1⟩ := avx2DeepChroma_at e bp hD lv hv
  unfold avx2DeepBody
  rw [e1, Outcome.bind_ok, e2, Outcome.bind_ok, e3, Outcome.bind_ok, avx2Store16_eq]
  congr 1
  exact pixels_words (by decide) e bp hD ch (deepRgb_at hd ht hby hbu) (nativeReg_bytes e bp d a2)
    (fun k hk => by rw [nativeReg_at e bp hD a2 (by omega), a1 k hk]) b1 c1

theorem avx2WideBody_eq (s : Sampling) (e : Endianness) (bp : BytesPacking) {d : Nat}
    (hD : Deep d) (ch : Channels) (ht : DeepCoef t) (hby : rg.biasY < 65536)
    {y u v : Buf} (hy : ∀ x ∈ y, x < 65536) (hu : ∀ x ∈ u, x < 65536)
    (hv : ∀ x ∈ v, x < 65536) {cx ux : Nat} (ly : cx + 16 ≤ y.length)
    (lu : ux + chromaStep s 16 ≤ u.length) (lv : ux + chromaStep s 16 ≤ v.length) (p : Nat) (row : Buf) :
    avx2WideBody s e bp d ch rg t y u v cx ux p row
      = put row p (stepOf (wordsPix e bp d ch (deepWideRGB d rg t)) (hdiv s) 16 y u v cx ux) := by
  have hd : d ≤ 16 := by rcases hD with rfl | rfl | rfl | rfl <;> decide
  obtain ⟨yr, e1, a1, a2⟩ := load16_at ly hy
  obtain ⟨ur, e2, b1⟩ := avx2DeepChroma_at e bp hD lu hu
  obtain ⟨vr, e3, c1⟩ := avx2DeepChroma_at e bp hD lv hv
  unfold avx2WideBody
  rw [e1, Outcome.bind_ok, e2, Outcome.bind_ok, e3, Outcome.bind_ok, avx2Store16_eq]
  congr 1
  exact pixels_words (by decide) e bp hD ch (wideRgb_at hd ht hby) (nativeReg_bytes e bp d a2)
    (fun k hk => by rw [nativeReg_at e bp hD a2 (by omega), a1 k hk]) b1 c1

theorem stepOf_split (pix : Nat → Nat → Nat → Buf) (hd : Nat) (y u v : Buf) (cx ux : Nat) :
    stepOf pix hd 32 y u v cx ux
      = ((List.range 16).flatMap fun j =>
          pix (y.getD (cx + j) 0) (u.getD (ux + j / hd) 0) (v.getD (ux + j / hd) 0))
        ++ (List.range 16).flatMap fun j =>
          pix (y.getD (cx + 16 + j) 0) (u.getD (ux + (16 + j) / hd) 0) (v.getD (ux + (16 + j) / hd) 0) := by
  unfold stepOf
  rw [show (32 : Nat) = 16 + 16 from rfl, range_add_flatMap]
  simp only [Nat.add_assoc]

theorem avx2DeepBody2_eq (s : Sampling) (e : Endianness) (bp : BytesPacking) {d : Nat}
    (hd : d = 10 ∨ d = 12) (ch : Channels) (ht : DeepCoef t) (hby : rg.biasY < 65536)
    (hbu : rg.biasUv < 65536) {y u v : Buf} (hy : ∀ x ∈ y, x < 65536) (hu : ∀ x ∈ u, x < 65536)
    (hv : ∀ x ∈ v, x < 65536) {cx ux : Nat} (ly : cx + 32 ≤ y.length)
    (lu : ux + chromaStep s 32 ≤ u.length) (lv : ux + chromaStep s 32 ≤ v.length) (p : Nat) (row : Buf) :
    avx2DeepBody2 s e bp d ch rg t y u v cx ux p row
      = put row p (stepOf (wordsPix e bp d ch (deepVecRGB d rg t)) (hdiv s) 32 y u v cx ux) := by
  have hD : Deep d := hd.elim .inl fun h => .inr (.inl h)
  obtain ⟨y0, e0, a1, a2⟩ := load16_at (p := cx) (n := 16) (by omega) hy
  obtain ⟨y1, e1, a3, a4⟩ := load16_at (p := cx + 16) (n := 16) (by omega) hy
  obtain ⟨ur, e2, b1, b2⟩ := avx2DeepChroma2_at e bp hD lu hu
  obtain ⟨vr, e3, c1, c2⟩ := avx2DeepChroma2_at e bp hD lv hv
  unfold avx2DeepBody2
  rw [e0, Outcome.bind_ok, e1, Outcome.bind_ok, e2, Outcome.bind_ok, e3, Outcome.bind_ok]
  simp only [avx2Store16_eq]
  rw [put_put _ _ _ _ _ (by rw [pixels_length]), stepOf_split]
  congr 1
  congr 1
  · exact pixels_words (by decide) e bp hD ch (deepRgb_at hd ht hby hbu) (nativeReg_bytes e bp d a2)
      (fun k hk => by rw [nativeReg_at e bp hD a2 (by omega), a1 k hk]) b1 c1
  · exact pixels_words (by decide) e bp hD ch (deepRgb_at hd ht hby hbu) (nativeReg_bytes e bp d a4)
      (fun k hk => by rw [nativeReg_at e bp hD a4 (by omega), a3 k hk]) b2 c2

/-! ## Rows -/

theorem chroma_fits (s : Sampling) (N : Nat) : 0 + chromaStep s N ≤ N := by
  cases s <;> simp only [chromaStep, ceil2] <;> omega

theorem sseDeepRow_ok (s : Sampling) (e : Endianness) (bp : BytesPacking) {d : Nat}
    (hd : d = 10 ∨ d = 12) (ch : Channels) (ht : DeepCoef t) (hby : rg.biasY < 65536)
    (hbu : rg.biasUv < 65536) {w : Nat} {y u v row : Buf}
    (hy : ∀ x ∈ y, x < 65536) (hu : ∀ x ∈ u, x < 65536) (hv : ∀ x ∈ v, x < 65536)
    (ly : w ≤ y.length) (lu : (w - 1) / hdiv s + 1 ≤ u.length)
    (lv : (w - 1) / hdiv s + 1 ≤ v.length) (hw : w * ch.count ≤ row.length) :
    ∃ ux, sseDeepRow s e bp d ch rg t w y u v row 0 0
      = .ok (painted ch.count (rowOf (wordsPix e bp d ch (deepVecRGB d rg t)) (hdiv s) y u v) w row,
        w, ux) := by
  have hp := wordsPix_length e bp d ch (deepVecRGB d rg t)
  obtain ⟨cx, ux, e1, _, h2, h3, h4⟩ := paintLoop (step := 8) (ustep := chromaStep s 8) (width := w)
    (cn := ch.count) (hd := hdiv s) (by decide) (chromaStep_hdiv s rfl)
    (pix := rowOf (wordsPix e bp d ch (deepVecRGB d rg t)) (hdiv s) y u v) (fun _ => hp ..)
    (row := row) hw
    (body := fun cx ux row => sseDeepBody s e bp d ch rg t y u v cx ux (cx * ch.count) row)
    (cx0 := 0) (ux0 := 0) (Nat.zero_mul _)
    (by
      intro cx ux r _ hux hlt
      rw [← stepOf_row _ (hdiv_pos s) _ y u v hux]
      exact sseDeepBody_eq s e bp hd ch ht hby hbu hy hu hv (by omega)
        (chroma_room hux rfl (by omega) lu (by decide)) (chroma_room hux rfl (by omega) lv (by decide))
        _ _)
    (Nat.zero_le _)
  rw [painted_zero] at e1
  simp only [sseDeepRow, e1, Outcome.bind_ok]
  exact deepTail_ok (by decide) false s ch hp hy hu hv
    (fun y u v r hy hu hv ly lu lv => sseDeepBody_eq s e bp hd ch ht hby hbu hy hu hv (by omega)
      (by rw [lu]; exact chroma_fits s 8) (by rw [lv]; exact chroma_fits s 8) _ _)
    ly lu lv hw h2 h3 h4

theorem avx2DeepRow_ok (s : Sampling) (e : Endianness) (bp : BytesPacking) {d : Nat}
    (hd : d = 10 ∨ d = 12) (ch : Channels) (ht : DeepCoef t) (hby : rg.biasY < 65536)
    (hbu : rg.biasUv < 65536) {w : Nat} {y u v row : Buf}
    (hy : ∀ x ∈ y, x < 65536) (hu : ∀ x ∈ u, x < 65536) (hv : ∀ x ∈ v, x < 65536)
    (ly : w ≤ y.length) (lu : (w - 1) / hdiv s + 1 ≤ u.length)
    (lv : (w - 1) / hdiv s + 1 ≤ v.length) (hw : w * ch.count ≤ row.length) :
    ∃ ux, avx2DeepRow s e bp d ch rg t w y u v row 0 0
      = .ok (painted ch.count (rowOf (wordsPix e bp d ch (deepVecRGB d rg t)) (hdiv s) y u v) w row,
        w, ux) := by
  have hp := wordsPix_length e bp d ch (deepVecRGB d rg t)
  obtain ⟨cx, ux, e1, _, h2, h3, _⟩ := paintLoop (step := 32) (ustep := chromaStep s 32) (width := w)
    (cn := ch.count) (hd := hdiv s) (by decide) (chromaStep_hdiv s rfl)
    (pix := rowOf (wordsPix e bp d ch (deepVecRGB d rg t)) (hdiv s) y u v) (fun _ => hp ..)
    (row := row) hw
    (body := fun cx ux row => avx2DeepBody2 s e bp d ch rg t y u v cx ux (cx * ch.count) row)
    (cx0 := 0) (ux0 := 0) (Nat.zero_mul _)
    (by
      intro cx ux r _ hux hlt
      rw [← stepOf_row _ (hdiv_pos s) _ y u v hux]
      exact avx2DeepBody2_eq s e bp hd ch ht hby hbu hy hu hv (by omega)
        (chroma_room hux rfl (by omega) lu (by decide)) (chroma_room hux rfl (by omega) lv (by decide))
        _ _)
    (Nat.zero_le _)
  rw [painted_zero] at e1
  obtain ⟨cx', ux', e2, _, g2, g3, g4⟩ := paintLoop (step := 16) (ustep := chromaStep s 16) (width := w)
    (cn := ch.count) (hd := hdiv s) (by decide) (chromaStep_hdiv s rfl)
    (pix := rowOf (wordsPix e bp d ch (deepVecRGB d rg t)) (hdiv s) y u v) (fun _ => hp ..)
    (row := row) hw
    (body := fun cx ux row => avx2DeepBody s e bp d ch rg t y u v cx ux (cx * ch.count) row)
    (cx0 := cx) (ux0 := ux) h2
    (by
      intro cx ux r _ hux hlt
      rw [← stepOf_row _ (hdiv_pos s) _ y u v hux]
      exact avx2DeepBody_eq s e bp hd ch ht hby hbu hy hu hv (by omega)
        (chroma_room hux rfl (by omega) lu (by decide)) (chroma_room hux rfl (by omega) lv (by decide))
        _ _)
    h3
  simp only [avx2DeepRow, e1, Outcome.bind_ok, e2]
  exact deepTail_ok (by decide) true s ch hp hy hu hv
    (fun y u v r hy hu hv ly lu lv => avx2DeepBody_eq s e bp hd ch ht hby hbu hy hu hv (by omega)
      (by rw [lu]; exact chroma_fits s 16) (by rw [lv]; exact chroma_fits s 16) _ _)
    ly lu lv hw g2 g3 g4

theorem avx2WideRow_ok (s : Sampling) (e : Endianness) (bp : BytesPacking) {d : Nat}
    (hD : Deep d) (ch : Channels) (ht : DeepCoef t) (hby : rg.biasY < 65536)
    {w : Nat} {y u v row : Buf}
    (hy : ∀ x ∈ y, x < 65536) (hu : ∀ x ∈ u, x < 65536) (hv : ∀ x ∈ v, x < 65536)
    (ly : w ≤ y.length) (lu : (w - 1) / hdiv s + 1 ≤ u.length)
    (lv : (w - 1) / hdiv s + 1 ≤ v.length) (hw : w * ch.count ≤ row.length) :
    ∃ ux, avx2WideRow s e bp d ch rg t w y u v row 0 0
      = .ok (painted ch.count (rowOf (wordsPix e bp d ch (deepWideRGB d rg t)) (hdiv s) y u v) w row,
        w, ux) := by
  have hp := wordsPix_length e bp d ch (deepWideRGB d rg t)
  obtain ⟨cx, ux, e1, _, h2, h3, h4⟩ := paintLoop (step := 16) (ustep := chromaStep s 16) (width := w)
    (cn := ch.count) (hd := hdiv s) (by decide) (chromaStep_hdiv s rfl)
    (pix := rowOf (wordsPix e bp d ch (deepWideRGB d rg t)) (hdiv s) y u v) (fun _ => hp ..)
    (row := row) hw
    (body := fun cx ux row => avx2WideBody s e bp d ch rg t y u v cx ux (cx * ch.count) row)
    (cx0 := 0) (ux0 := 0) (Nat.zero_mul _)
    (by
      intro cx ux r _ hux hlt
      rw [← stepOf_row _ (hdiv_pos s) _ y u v hux]
      exact avx2WideBody_eq s e bp hD ch ht hby hy hu hv (by omega)
        (chroma_room hux rfl (by omega) lu (by decide)) (chroma_room hux rfl (by omega) lv (by decide))
        _ _)
    (Nat.zero_le _)
  rw [painted_zero] at e1
  simp only [avx2WideRow, e1, Outcome.bind_ok]
  exact deepTail_ok (by decide) true s ch hp hy hu hv
    (fun y u v r hy hu hv ly lu lv => avx2WideBody_eq s e bp hD ch ht hby hy hu hv (by omega)
      (by rw [lu]; exact chroma_fits s 16) (by rw [lv]; exact chroma_fits s 16) _ _)
    ly lu lv hw h2 h3 h4

/-! ## The contract -/

/-- The pixel of three stored words on a processor; `px` is the portable decoding. -/
def cpuDeep (cpu : Cpu) (e : Endianness) (bp : BytesPacking) (d : Nat) (ch : Channels)
    (rg : ChromaRange) (t : InvCoef) (px : Nat → Nat → Nat → Buf) (y u v : Nat) : Buf :=
  match cpu with
  | .plain => px y u v
  | .avx2 => wordsPix e bp d ch (if d = 10 then deepVecRGB d rg t else deepWideRGB d rg t) y u v
  | .sse41 => if d ≤ 12 then wordsPix e bp d ch (deepVecRGB d rg t) y u v else px y u v

theorem deepHandler_fills (cpu : Cpu) (s : Sampling) (e : Endianness) (bp : BytesPacking) {d : Nat}
    (hD : Deep d) (ch : Channels) (ht : DeepCoef t) (hby : rg.biasY < 65536)
    (hbu : rg.biasUv < 65536) {w : Nat} (px : Nat → Nat → Nat → Buf) :
    (deepHandler cpu s e bp d ch rg t w).Fills true 65536 ch.count w (hdiv s) px
      (fun _ y u v p => p = cpuDeep cpu e bp d ch rg t px y u v) := by
  intro y u v row hy hu hv ly lu lv hw
  have full : ∀ {pix : Nat → Nat → Nat → Buf}, (∀ a b c, (pix a b c).length = ch.count) →
      (∀ a b c, pix a b c = cpuDeep cpu e bp d ch rg t px a b c) →
      ∀ {o : Outcome (Buf × Nat × Nat)},
      (∃ ux, o = .ok (painted ch.count (rowOf pix (hdiv s) y u v) w row, w, ux)) →
      ∃ row' cx, done o = .ok (row', cx) ∧
        RowDone ch.count w (hdiv s) (fun x p => p = cpuDeep cpu e bp d ch rg t px (y.getD x 0)
          (u.getD (x / hdiv s) 0) (v.getD (x / hdiv s) 0)) row row' cx ∧
        ∀ x, ScalarCol true cx w x → x < w → px (y.getD x 0) (u.getD (x / hdiv s) 0)
          (v.getD (x / hdiv s) 0) = cpuDeep cpu e bp d ch rg t px (y.getD x 0)
          (u.getD (x / hdiv s) 0) (v.getD (x / hdiv s) 0) := by
    rintro pix hp he o ⟨ux, rfl⟩
    exact ⟨_, w, rfl, painted_done (count_pos ch) (fun _ => hp ..) hw (le_refl _) (.inr rfl)
      fun x _ => he .., fun x h1 h2 => absurd h1.le (by omega)⟩
  have none : (∀ a b c, px a b c = cpuDeep cpu e bp d ch rg t px a b c) →
      ∃ row' cx, noSimd y u v row = .ok (row', cx) ∧
        RowDone ch.count w (hdiv s) (fun x p => p = cpuDeep cpu e bp d ch rg t px (y.getD x 0)
          (u.getD (x / hdiv s) 0) (v.getD (x / hdiv s) 0)) row row' cx ∧
        ∀ x, ScalarCol true cx w x → x < w → px (y.getD x 0) (u.getD (x / hdiv s) 0)
          (v.getD (x / hdiv s) 0) = cpuDeep cpu e bp d ch rg t px (y.getD x 0)
          (u.getD (x / hdiv s) 0) (v.getD (x / hdiv s) 0) := by
    intro he
    exact ⟨row, 0, rfl, ⟨Nat.zero_le _, .inl (Nat.zero_mod _), rfl,
      fun x _ hx => absurd hx (Nat.not_lt_zero _), fun _ _ => rfl⟩, fun x _ _ => he ..⟩
  cases cpu with
  | avx2 =>
    by_cases h10 : d = 10
    · rw [show deepHandler .avx2 s e bp d ch rg t w y u v row
          = done (avx2DeepRow s e bp d ch rg t w y u v row 0 0) from if_pos h10]
      exact full (wordsPix_length e bp d ch _) (fun a b c => by simp only [cpuDeep, if_pos h10])
        (avx2DeepRow_ok s e bp (.inl h10) ch ht hby hbu hy hu hv ly lu lv hw)
    · rw [show deepHandler .avx2 s e bp d ch rg t w y u v row
          = done (avx2WideRow s e bp d ch rg t w y u v row 0 0) from if_neg h10]
      exact full (wordsPix_length e bp d ch _) (fun a b c => by simp only [cpuDeep, if_neg h10])
        (avx2WideRow_ok s e bp hD ch ht hby hy hu hv ly lu lv hw)
  | sse41 =>
    by_cases h12 : d ≤ 12
    · rw [show deepHandler .sse41 s e bp d ch rg t w y u v row
          = done (sseDeepRow s e bp d ch rg t w y u v row 0 0) from if_pos h12]
      exact full (wordsPix_length e bp d ch _) (fun a b c => by simp only [cpuDeep, if_pos h12])
        (sseDeepRow_ok s e bp (by rcases hD with h | h | h | h <;> omega) ch ht hby hbu hy hu hv ly lu lv
          hw)
    · rw [show deepHandler .sse41 s e bp d ch rg t w y u v row = noSimd y u v row from if_neg h12]
      exact none fun a b c => by simp only [cpuDeep, if_neg h12]
  | plain => exact none fun a b c => rfl

end Verif.X86
