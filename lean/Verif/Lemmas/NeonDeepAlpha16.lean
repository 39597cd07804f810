import Verif.Model.NeonDeepAlpha16
import Verif.Spec.NeonDeepAlpha16
import Verif.Lemmas.NeonNvDeep16
import Verif.Lemmas.X86DeepAlpha
/-! # Rows of the 64-bit ARM decoders of 10- to 14-bit images with an alpha plane -/
namespace Verif.Neon
open Spec X86

variable {rg : ChromaRange} {t : InvCoef}

/-! ## The arithmetic -/

theorem alphaWideWords_at {d : Nat} (hd : d ≤ 15) (ht : DeepCoef t) (hby : rg.biasY < 65536) :
    TriplesAt (alphaWideWords d rg t) (neonAlpha16RGB d rg t) := by
  intro y u v hy k _
  obtain ⟨t1, t2, t3, t4, t5⟩ := ht
  have bv := int16_bounds ((w16 v k : Int) - rg.biasUv)
  have bY := int16_bounds ((w16 y k - rg.biasY : Nat) : Int)
  have ml := mul_bounds (a := int16 ((w16 y k - rg.biasY : Nat) : Int)) (t := t.y) (A := 32768) (T := 10000)
    (by omega) t1
  norm_num at ml
  have hl : ∀ o j, o + j = k → s32 (mullS o (subsU16 y (set1_16 (rg.biasY : Int))) t.y) j
      = int16 ((w16 y k - rg.biasY : Nat) : Int) * t.y := by
    intro o j e
    have ey : s16 (subsU16 y (set1_16 (rg.biasY : Int))) k = int16 ((w16 y k - rg.biasY : Nat) : Int) := by
      rw [s16, w16_subsU hy hby k]; rfl
    rw [mullS, s32_mk32, e, ey, asI16_coef (by omega)]
    generalize int16 ((w16 y k - rg.biasY : Nat) : Int) * t.y = p at *
    exact asI32_id (by linarith [ml.1]) (by linarith [ml.2])
  have lim : ∀ (f : Nat → Reg) (X : Int), (∀ o j, o + j = k → s32 (f o) j = X) →
      w16 (minU16 (qrshrunS 13 (f 0) (f 4)) (set1_16 (2 ^ d - 1))) k
        = saturate d (roundShift (2 ^ 12) 13 X) := by
    intro f X hf
    have hx := w16_qrshrunS hf
    have e : (X + 4096) / 8192 = roundShift (2 ^ 12) 13 X := by unfold roundShift; norm_num
    rw [e] at hx
    exact w16_min hd hx
  have one : ∀ (r : Reg) (c : Int), -20000 ≤ c ∧ c ≤ 20000 → ∀ o j, o + j = k →
      s32 (mlalS o (mullS o (subsU16 y (set1_16 (rg.biasY : Int))) t.y)
        (sub16 r (set1_16 (rg.biasUv : Int))) c) j
      = int16 ((w16 y k - rg.biasY : Nat) : Int) * t.y + int16 ((w16 r k : Int) - rg.biasUv) * c := by
    intro r c hc o j e
    have hr : s16 (sub16 r (set1_16 (rg.biasUv : Int))) (o + j) = int16 ((w16 r k : Int) - rg.biasUv) := by
      rw [e]; exact s16_centred ..
    have hL := hl o j e
    generalize int16 ((w16 y k - rg.biasY : Nat) : Int) * t.y = l at ml hL ⊢
    exact s32_mlalS hc hL hr ⟨by linarith [ml.1], by linarith [ml.2]⟩ (int16_bounds _)
  have m := mul_bounds (a := int16 ((w16 v k : Int) - rg.biasUv)) (t := -t.g1) (A := 32768) (T := 20000)
    (by omega) (by omega)
  norm_num at m
  have two : ∀ o j, o + j = k →
      s32 (mlalS o (mlalS o (mullS o (subsU16 y (set1_16 (rg.biasY : Int))) t.y)
        (sub16 v (set1_16 (rg.biasUv : Int))) (-t.g1)) (sub16 u (set1_16 (rg.biasUv : Int))) (-t.g2)) j
      = int16 ((w16 y k - rg.biasY : Nat) : Int) * t.y + int16 ((w16 v k : Int) - rg.biasUv) * -t.g1
        + int16 ((w16 u k : Int) - rg.biasUv) * -t.g2 := by
    intro o j e
    have hr : s16 (sub16 u (set1_16 (rg.biasUv : Int))) (o + j) = int16 ((w16 u k : Int) - rg.biasUv) := by
      rw [e]; exact s16_centred ..
    have hL := one v (-t.g1) (by omega) o j e
    generalize int16 ((w16 y k - rg.biasY : Nat) : Int) * t.y = l at ml hL ⊢
    exact s32_mlalS ⟨by linarith [t5.2], by linarith [t5.1]⟩ hL hr
      ⟨by linarith [ml.1, m.1], by linarith [ml.2, m.2]⟩ (int16_bounds _)
  simp only [alphaWideWords, neonAlpha16RGB]
  refine ⟨lim (fun o => mlalS o (mullS o _ _) _ _) _ fun o j e => one v t.cr t2 o j e,
    lim (fun o => mlalS o (mlalS o (mullS o _ _) _ _) _ _) _ fun o j e => (two o j e).trans (by ring),
    lim (fun o => mlalS o (mullS o _ _) _ _) _ fun o j e => one u t.cb t3 o j e⟩
/-- The colour on 64-bit ARM. -/
def alpha16RGB (rdm : Bool) (d : Nat) (c : ChromaRange) (t : InvCoef) : Nat → Nat → Nat → Nat × Nat × Nat :=
  if rdm = true ∧ d = 10 then neonRdmRGB d c t else neonAlpha16RGB d c t

theorem alpha16Words_at (rdm : Bool) {d : Nat} (hd : d ≤ 15) (ht : DeepCoef t)
    (hby : rg.biasY < 65536) (hbu : rg.biasUv < 65536) :
    TriplesAt (alpha16Words rdm d rg t) (alpha16RGB rdm d rg t) := by
  unfold alpha16Words alpha16RGB
  by_cases h : rdm = true ∧ d = 10
  · rw [if_pos h, if_pos h]
    exact rdmWords_at (.inl h.2) ht hby hbu
  · rw [if_neg h, if_neg h]
    exact alphaWideWords_at hd ht hby

/-! ## Rows -/

variable {K : Reg → Reg → Reg → Reg × Reg × Reg} {f : Nat → Nat → Nat → Nat × Nat × Nat}

/-- The pixels of a step with alpha. -/
def stepAl (pix : Nat → Nat → Nat → Nat → Buf) (hd n : Nat) (y u v a : Buf) (cx ux : Nat) : Buf :=
  (List.range n).flatMap fun j => pix (a.getD (cx + j) 0) (y.getD (cx + j) 0)
    (u.getD (ux + j / hd) 0) (v.getD (ux + j / hd) 0)

theorem pixels_alpha {n : Nat} (hn : n ≤ 16) (e : Endianness) (bp : BytesPacking) {d : Nat}
    (ch : Channels) (hK : TriplesAt K f) {yr ur vr ar : Reg} (hyr : RegBytes yr) {ys us vs as : Nat → Nat}
    (hy : ∀ k, k < n → w16 yr k = nativeSample e bp d (ys k))
    (hu : ∀ k, k < n → w16 ur k = nativeSample e bp d (us k))
    (hv : ∀ k, k < n → w16 vr k = nativeSample e bp d (vs k))
    (ha : ∀ k, k < n → w16 ar k = as k) :
    X86.pixels ch n (w16 (K yr ur vr).1) (w16 (K yr ur vr).2.1) (w16 (K yr ur vr).2.2) (w16 ar)
      = (List.range n).flatMap fun j => alphaPix e bp d ch f (as j) (ys j) (us j) (vs j) := by
  unfold X86.pixels
  refine range_flatMap_congr fun j hj => ?_
  obtain ⟨h1, h2, h3⟩ := hK yr ur vr hyr j (by omega)
  rw [h1, h2, h3, hy j hj, hu j hj, hv j hj, ha j hj]
  rfl

theorem alpha16Body_eq (hK : TriplesAt K f) (s : Sampling) (e : Endianness) (bp : BytesPacking) {d : Nat}
    (hD : Deep d) (ch : Channels) {y u v a : Buf} (hy : ∀ x ∈ y, x < 65536) (hu : ∀ x ∈ u, x < 65536)
    (hv : ∀ x ∈ v, x < 65536) (ha : ∀ x ∈ a, x < 65536) {cx ux : Nat} (ly : cx + 8 ≤ y.length)
    (lu : ux + chromaStep s 8 ≤ u.length) (lv : ux + chromaStep s 8 ≤ v.length) (la : cx + 8 ≤ a.length)
    (p : Nat) (row : Buf) :
    alpha16Body K s e bp d ch y u v a cx ux p row
      = put row p (stepAl (alphaPix e bp d ch f) (hdiv s) 8 y u v a cx ux) := by
  obtain ⟨ar, e0, d1, d2⟩ := load16_at la ha
  obtain ⟨yr, e1, a1, a2⟩ := load16_at ly hy
  obtain ⟨ur, e2, b1⟩ := chroma8_at e bp hD lu hu
  obtain ⟨vr, e3, c1⟩ := chroma8_at e bp hD lv hv
  unfold alpha16Body
  rw [e0, Outcome.bind_ok, e1, Outcome.bind_ok, e2, Outcome.bind_ok, e3, Outcome.bind_ok]
  dsimp only
  rw [storeRgb16, storeRgb_eq]
  congr 1
  exact pixels_alpha (by decide) e bp ch hK (nativeReg_bytes e bp d a2)
    (fun k hk => by rw [nativeReg_at e bp hD a2 (by omega), a1 k hk]) b1 c1 d1

theorem stepAl_split8 (pix : Nat → Nat → Nat → Nat → Buf) (hd : Nat) (y u v a : Buf) (cx ux : Nat) :
    stepAl pix hd 16 y u v a cx ux = stepAl pix hd 8 y u v a cx ux ++
      (List.range 8).flatMap fun j => pix (a.getD (cx + 8 + j) 0) (y.getD (cx + 8 + j) 0)
        (u.getD (ux + (8 + j) / hd) 0) (v.getD (ux + (8 + j) / hd) 0) := by
  unfold stepAl
  rw [show 16 = 8 + 8 from rfl, List.range_add, List.flatMap_append, List.flatMap_map]
  simp only [Nat.add_assoc]

theorem alpha16Body2_eq (hK : TriplesAt K f) (s : Sampling) (e : Endianness) (bp : BytesPacking) {d : Nat}
    (hD : Deep d) (ch : Channels) {y u v a : Buf} (hy : ∀ x ∈ y, x < 65536) (hu : ∀ x ∈ u, x < 65536)
    (hv : ∀ x ∈ v, x < 65536) (ha : ∀ x ∈ a, x < 65536) {cx ux : Nat} (ly : cx + 16 ≤ y.length)
    (lu : ux + chromaStep s 16 ≤ u.length) (lv : ux + chromaStep s 16 ≤ v.length) (la : cx + 16 ≤ a.length)
    (p : Nat) (row : Buf) :
    alpha16Body2 K s e bp d ch y u v a cx ux p row
      = put row p (stepAl (alphaPix e bp d ch f) (hdiv s) 16 y u v a cx ux) := by
  obtain ⟨y0, e0, a1, a2⟩ := load16_at (p := cx) (n := 8) (by omega) hy
  obtain ⟨y1, e1, a3, a4⟩ := load16_at (p := cx + 8) (n := 8) (by omega) hy
  obtain ⟨ur, e2, b1, b2⟩ := chroma16_at e bp hD lu hu
  obtain ⟨vr, e3, c1, c2⟩ := chroma16_at e bp hD lv hv
  obtain ⟨r0, e4, d1, _⟩ := load16_at (p := cx) (n := 8) (by omega) ha
  obtain ⟨r1, e5, d3, _⟩ := load16_at (p := cx + 8) (n := 8) (by omega) ha
  unfold alpha16Body2
  rw [e0, Outcome.bind_ok, e1, Outcome.bind_ok, e2, Outcome.bind_ok, e3, Outcome.bind_ok]
  dsimp only
  rw [e4, Outcome.bind_ok, e5, Outcome.bind_ok]
  simp only [storeRgb16, storeRgb_eq]
  rw [put_put _ _ _ _ _ (by rw [X86.pixels_length]), stepAl_split8]
  congr 1
  congr 1
  · exact pixels_alpha (by decide) e bp ch hK (nativeReg_bytes e bp d a2)
      (fun k hk => by rw [nativeReg_at e bp hD a2 (by omega), a1 k hk]) b1 c1 d1
  · exact pixels_alpha (by decide) e bp ch hK (nativeReg_bytes e bp d a4)
      (fun k hk => by rw [nativeReg_at e bp hD a4 (by omega), a3 k hk]) b2 c2 d3

/-- Beyond the copied words a buffer is as it was. -/
theorem copyIn_rest16 {src dst b : Buf} {p n i : Nat} (h1 : p + n ≤ src.length) (h2 : n ≤ dst.length)
    (e : copyIn src p n dst = .ok b) (hi : n ≤ i) : b.getD i 0 = dst.getD i 0 := by
  have hl : ((src.drop p).take n).length = n := by simp; omega
  rw [copyIn, if_pos h1, put_ok (by omega)] at e
  injection e with e
  subst e
  simp only [splice, List.take_zero, List.nil_append, List.getD_eq_getElem?_getD]
  rw [List.getElem?_append_right (by omega), List.getElem?_drop, hl]
  congr 3; omega

/-- The pixel of four stored words in column `x`: the alpha may be lost. -/
def alpha16Pix (hd : Nat) (pix : Nat → Nat → Nat → Nat → Buf) (w x a y u v : Nat) : Buf :=
  pix (if KeepsAlpha hd w x then a else 0) y u v

theorem keeps_before {hd w x : Nat} (h : x < 8 * ((w - 1) / 8)) : KeepsAlpha hd w x :=
  Nat.lt_of_lt_of_le h (Nat.le_add_right _ _)

theorem keeps_tail (s : Sampling) {w j : Nat} :
    KeepsAlpha (hdiv s) w (8 * ((w - 1) / 8) + j) ↔ j < chromaStep s (w - 8 * ((w - 1) / 8)) := by
  unfold KeepsAlpha
  cases s <;> simp only [hdiv, chromaStep, ceil2] <;> omega

theorem alpha16Tail_ok (s : Sampling) (ch : Channels) {w : Nat}
    {pix : Nat → Nat → Nat → Nat → Buf} (hp : ∀ a b c d, (pix a b c d).length = ch.count)
    {f : Buf → Buf → Buf → Buf → Buf → Outcome Buf} {y u v a row : Buf}
    (hy : ∀ x ∈ y, x < 65536) (hu : ∀ x ∈ u, x < 65536) (hv : ∀ x ∈ v, x < 65536)
    (ha : ∀ x ∈ a, x < 65536)
    (hf : ∀ y u v a d : Buf, (∀ x ∈ y, x < 65536) → (∀ x ∈ u, x < 65536) → (∀ x ∈ v, x < 65536) →
      (∀ x ∈ a, x < 65536) → y.length = 8 → u.length = 8 → v.length = 8 → a.length = 8 →
      f y u v a d = put d 0 (stepAl pix (hdiv s) 8 y u v a 0 0))
    (ly : w ≤ y.length) (lu : (w - 1) / hdiv s + 1 ≤ u.length)
    (lv : (w - 1) / hdiv s + 1 ≤ v.length) (la : w ≤ a.length) (hw : w * ch.count ≤ row.length) {cx ux : Nat}
    (h1 : ux * hdiv s = cx) (hlt : cx < w) (h0 : cx = 8 * ((w - 1) / 8)) :
    let px := rowA (alpha16Pix (hdiv s) pix w) (fun x => x) (hdiv s) y u v a
    ∃ ux', alpha16Tail s ch w f y u v a (painted ch.count px cx row) cx ux
      = .ok (painted ch.count px w row, w, ux') := by
  intro px
  unfold alpha16Tail
  have hrl : ∀ x, (px x).length = ch.count := fun x => hp ..
  have h3 : w ≤ cx + 8 := by omega
  have h2 : cx ≤ w := by omega
  rw [if_pos hlt]
  have z : ∀ x ∈ List.replicate 8 0, x < 65536 := by
    intro x hx; rw [(List.mem_replicate.1 hx).2]; decide
  have hdN : chromaStep s (w - cx) ≤ 8 := by
    cases s <;> simp only [chromaStep, ceil2] <;> omega
  have hdw : chromaStep s (w - cx) ≤ w - cx := by
    cases s <;> simp only [chromaStep, ceil2] <;> omega
  obtain ⟨yb, ey, ly', y1, y2⟩ := copyIn_ok (src := y) (dst := List.replicate 8 0) (p := cx)
    (n := w - cx) (by omega) (by simp; omega)
  obtain ⟨ab, ea, la', a1, a2⟩ := copyIn_ok (src := a) (dst := List.replicate 8 0) (p := cx)
    (n := chromaStep s (w - cx)) (by omega) (by simp; omega)
  obtain ⟨ub, eu, lu', u1, u2⟩ := copyIn_ok (src := u) (dst := List.replicate 8 0) (p := ux)
    (n := chromaStep s (w - cx)) (chroma_tail h1 hlt lu) (by simp; omega)
  obtain ⟨vb, ev, lv', v1, v2⟩ := copyIn_ok (src := v) (dst := List.replicate 8 0) (p := ux)
    (n := chromaStep s (w - cx)) (chroma_tail h1 hlt lv) (by simp; omega)
  have e1 := hf yb ub vb ab (List.replicate (8 * 4) 0)
    (fun x hx => (y2 x hx).elim (hy x) (z x)) (fun x hx => (u2 x hx).elim (hu x) (z x))
    (fun x hx => (v2 x hx).elim (hv x) (z x)) (fun x hx => (a2 x hx).elim (ha x) (z x))
    (by simpa using ly') (by simpa using lu') (by simpa using lv') (by simpa using la')
  have ar : ∀ j, chromaStep s (w - cx) ≤ j → ab.getD j 0 = 0 := by
    intro j hj
    rw [copyIn_rest16 (by omega) (by simp; omega) ea hj, List.getD_eq_getElem?_getD, List.getElem?_replicate]
    split <;> rfl
  simp only [ey, ea, eu, ev, e1, Outcome.bind_ok, if_neg (show ¬ 8 < w - cx by omega)]
  have e2 := copyOut_put (N := 8) (L := 8 * 4) (n := w - cx) (cn := ch.count)
    (Nat.mul_le_mul_left _ (count_le ch)) (by omega)
    (f := fun j => pix (ab.getD (0 + j) 0) (yb.getD (0 + j) 0) (ub.getD (0 + j / hdiv s) 0)
      (vb.getD (0 + j / hdiv s) 0))
    (fun j => hp ..)
    (painted ch.count px cx row) (cx * ch.count)
  refine ⟨ux + chromaStep s (w - cx), ?_⟩
  have e3 : ((List.range (w - cx)).flatMap fun j => pix (ab.getD (0 + j) 0) (yb.getD (0 + j) 0)
      (ub.getD (0 + j / hdiv s) 0) (vb.getD (0 + j / hdiv s) 0))
      = (List.range (w - cx)).flatMap fun j => px (cx + j) := by
    apply range_flatMap_congr
    intro j hj
    have hc : j / hdiv s < chromaStep s (w - cx) := by
      cases s <;> simp only [hdiv, chromaStep, ceil2] <;> omega
    have ed : (cx + j) / hdiv s = ux + j / hdiv s := by
      rw [← h1, Nat.add_comm, Nat.add_mul_div_right _ _ (hdiv_pos s), Nat.add_comm]
    have ek : KeepsAlpha (hdiv s) w (cx + j) ↔ j < chromaStep s (w - cx) := by
      subst h0; exact keeps_tail s
    rw [Nat.zero_add, Nat.zero_add, y1 j hj, u1 _ hc, v1 _ hc]
    simp only [px, rowA, alpha16Pix, ed]
    by_cases hk : j < chromaStep s (w - cx)
    · rw [if_pos (ek.2 hk), a1 j hk]
    · rw [if_neg (fun h => hk (ek.1 h)), ar j (by omega)]
  rw [e3, painted_put hrl (by rw [Nat.add_sub_cancel' h2]; exact hw), Nat.add_sub_cancel' h2] at e2
  have e4 : (put (List.replicate (8 * 4) 0) 0 (stepAl pix (hdiv s) 8 yb ub vb ab 0 0) >>= fun db =>
      copyOut db ((w - cx) * ch.count) (painted ch.count px cx row) (cx * ch.count))
      = .ok (painted ch.count px w row) := e2
  simp only [Nat.add_sub_cancel' h2]
  rw [← bind_assoc', e4]
  rfl

theorem alpha16Row_ok (hK : TriplesAt K f) (s : Sampling) (e : Endianness) (bp : BytesPacking) {d : Nat}
    (hD : Deep d) (ch : Channels) {w : Nat} {y u v a row : Buf}
    (hy : ∀ x ∈ y, x < 65536) (hu : ∀ x ∈ u, x < 65536) (hv : ∀ x ∈ v, x < 65536)
    (ha : ∀ x ∈ a, x < 65536)
    (ly : w ≤ y.length) (lu : (w - 1) / hdiv s + 1 ≤ u.length)
    (lv : (w - 1) / hdiv s + 1 ≤ v.length) (la : w ≤ a.length) (hw : w * ch.count ≤ row.length)
    (wpos : 0 < w) :
    ∃ ux, alpha16Row K s e bp d ch w y u v a row
      = .ok (painted ch.count (rowA (alpha16Pix (hdiv s) (alphaPix e bp d ch f) w) (fun x => x) (hdiv s) y u v a)
          w row, w, ux) := by
  have hp := alphaPix_length e bp d ch f
  have hkeep : ∀ {cx n j : Nat}, cx % 8 = 0 → n % 8 = 0 → cx + n < w → j < n →
      alpha16Pix (hdiv s) (alphaPix e bp d ch f) w (cx + j) = alphaPix e bp d ch f := by
    intro cx n j h1 h2 h3 h4
    funext a y u v
    exact congrArg (alphaPix e bp d ch f · y u v) (if_pos (keeps_before (by omega)))
  obtain ⟨cx, ux, e1, f1, h2, h3, _⟩ := paintLoopI (step := 16) (ustep := chromaStep s 16) (width := w)
    (cn := ch.count) (I := fun cx ux => ux * hdiv s = cx ∧ cx % 8 = 0) (by decide)
    (fun cx ux g => ⟨by rw [Nat.add_mul, g.1, chromaStep_hdiv s rfl], by omega⟩)
    (pix := rowA (alpha16Pix (hdiv s) (alphaPix e bp d ch f) w) (fun x => x) (hdiv s) y u v a) (fun _ => hp ..)
    (row := row) hw
    (body := fun cx ux row => alpha16Body2 K s e bp d ch y u v a cx ux (cx * ch.count) row)
    (cx0 := 0) (ux0 := 0) ⟨Nat.zero_mul _, rfl⟩
    (by
      rintro cx ux r - ⟨hux, hm⟩ hlt
      rw [← stepA_row (hdiv_pos s) hux (p0 := alphaPix e bp d ch f) (s0 := fun j => j)
        fun j hj => ⟨hkeep hm (n := 16) rfl hlt hj, rfl⟩]
      exact alpha16Body2_eq hK s e bp hD ch hy hu hv ha (by omega)
        (chroma_room hux rfl (by omega) lu (by decide)) (chroma_room hux rfl (by omega) lv (by decide))
        (by omega) _ _)
    (Nat.zero_le _)
  rw [painted_zero] at e1
  obtain ⟨cx', ux', e2, g1, g2, g3, g4⟩ := paintLoopI (step := 8) (ustep := chromaStep s 8) (width := w)
    (cn := ch.count) (I := fun cx ux => ux * hdiv s = cx ∧ cx % 8 = 0) (by decide)
    (fun cx ux g => ⟨by rw [Nat.add_mul, g.1, chromaStep_hdiv s rfl], by omega⟩)
    (pix := rowA (alpha16Pix (hdiv s) (alphaPix e bp d ch f) w) (fun x => x) (hdiv s) y u v a) (fun _ => hp ..)
    (row := row) hw
    (body := fun cx ux row => alpha16Body K s e bp d ch y u v a cx ux (cx * ch.count) row)
    (cx0 := cx) (ux0 := ux) h2
    (by
      rintro cx ux r - ⟨hux, hm⟩ hlt
      rw [← stepA_row (hdiv_pos s) hux (p0 := alphaPix e bp d ch f) (s0 := fun j => j)
        fun j hj => ⟨hkeep hm (n := 8) rfl hlt hj, rfl⟩]
      exact alpha16Body_eq hK s e bp hD ch hy hu hv ha (by omega)
        (chroma_room hux rfl (by omega) lu (by decide)) (chroma_room hux rfl (by omega) lv (by decide))
        (by omega) _ _)
    h3
  have hlt0 : cx < w := by rw [f1, loopEnd]; omega
  have hlt : cx' < w := by rw [g1, loopEnd]; omega
  simp only [alpha16Row, e1, Outcome.bind_ok, e2]
  exact alpha16Tail_ok s ch hp hy hu hv ha
    (fun y u v a r hy hu hv ha ly lu lv la => alpha16Body_eq hK s e bp hD ch hy hu hv ha (by omega)
      (by rw [lu]; exact chroma_fits s 8) (by rw [lv]; exact chroma_fits s 8) (by omega) _ _)
    ly lu lv la hw g2.1 hlt (by have := g2.2; omega)

/-! ## The whole row is done -/

theorem whileGo_le {σ : Type} {step ustep w : Nat} {body : Nat → Nat → σ → Outcome σ} :
    ∀ (n cx ux : Nat) (a : σ) (r : σ × Nat × Nat), cx ≤ w → whileGo step ustep w body n cx ux a = .ok r →
      r.2.1 ≤ w := by
  intro n
  induction n with
  | zero =>
    intro cx ux a r h e
    injection e with e
    subst e; exact h
  | succ n ih =>
    intro cx ux a r h e
    unfold whileGo at e
    split at e
    · cases hb : body cx ux a with
      | ok b =>
        rw [hb, Outcome.bind_ok] at e
        exact ih _ _ _ _ (by omega) e
      | err x => rw [hb] at e; exact absurd e (by intro h; injection h)
      | panic => rw [hb] at e; exact absurd e (by intro h; injection h)
    · injection e with e
      subst e; exact h

theorem ok_of_bind {α β : Type} {o : Outcome α} {g : α → Outcome β} {b : β} (h : (o >>= g) = .ok b) :
    ∃ a, o = .ok a ∧ g a = .ok b := by
  cases o with
  | ok a => exact ⟨a, rfl, h⟩
  | err x => exact absurd h (by intro h; injection h)
  | panic => exact absurd h (by intro h; injection h)

/-- Whatever the buffers, the NEON code does not return before the end of the row. -/
theorem alpha16Handler_width {rdm : Bool} {s : Sampling} {e : Endianness} {bp : BytesPacking} {d : Nat}
    {ch : Channels} {w : Nat} {y u v a row : Buf} {r : Buf × Nat}
    (h : alpha16Handler rdm s e bp d ch rg t w y u v a row = .ok r) : r.2 = w := by
  unfold alpha16Handler done at h
  obtain ⟨q, h1, h2⟩ := ok_of_bind h
  injection h2 with h2
  subst h2
  unfold alpha16Row at h1
  obtain ⟨q1, g1, h1⟩ := ok_of_bind h1
  obtain ⟨q2, g2, h1⟩ := ok_of_bind h1
  have l1 := whileGo_le _ _ _ _ _ (Nat.zero_le _) g1
  have l2 := whileGo_le _ _ _ _ _ l1 g2
  unfold alpha16Tail at h1
  by_cases hc : q2.2.1 < w
  · rw [if_pos hc] at h1
    dsimp only at h1
    by_cases h8 : 8 < w - q2.2.1
    · rw [if_pos h8] at h1
      exact absurd h1 (by intro h; injection h)
    rw [if_neg h8] at h1
    obtain ⟨_, _, h1⟩ := ok_of_bind h1
    obtain ⟨_, _, h1⟩ := ok_of_bind h1
    obtain ⟨_, _, h1⟩ := ok_of_bind h1
    obtain ⟨_, _, h1⟩ := ok_of_bind h1
    obtain ⟨_, _, h1⟩ := ok_of_bind h1
    obtain ⟨_, _, h1⟩ := ok_of_bind h1
    injection h1 with h1
    subst h1
    show q2.2.1 + (w - q2.2.1) = w
    omega
  · rw [if_neg hc] at h1
    injection h1 with h1
    subst h1
    show q2.2.1 = w
    omega

theorem eachChunk_skip {n p k : Nat} (hn : 0 < n) (h : k ≤ p) (g : Nat → Buf → Outcome Buf) (l : Buf) :
    eachChunk n p k g l = .ok l := by
  unfold eachChunk
  rw [if_neg (by omega), show k - p = 0 by omega]
  simp only [forChunks, Outcome.bind_ok]
  exact congrArg Outcome.ok (List.take_append_drop _ _)

/-- The handler does whole rows. -/
def WholeRows (hd : AlphaHandler) (w : Nat) : Prop := ∀ y u v a row r, hd y u v a row = .ok r → r.2 = w

theorem bind_congr_ok {α β : Type} {o : Outcome α} {f g : α → Outcome β} (h : ∀ a, o = .ok a → f a = g a) :
    (o >>= f) = (o >>= g) := by
  cases o with
  | ok a => exact h a rfl
  | err x => rfl
  | panic => rfl

theorem halvedSlice_guard {w cn : Nat} (hcn : 0 < cn) (hw : w % 2 = 0) {hd : AlphaHandler} (h : WholeRows hd w)
    (put : AlphaPut) (yr ur vr ar row : Buf) :
    alphaHalvedSlice false w cn put hd yr ur vr ar row = alphaHalvedSlice true w cn put hd yr ur vr ar row := by
  unfold alphaHalvedSlice
  refine bind_congr_ok fun y hy => bind_congr_ok fun u _ => bind_congr_ok fun v _ => bind_congr_ok fun a _ => ?_
  have ly : y.length ≤ w := by
    unfold slice at hy
    split at hy
    · injection hy with hy
      subst hy; rw [List.length_take]; omega
    · exact absurd hy (by intro h; injection h)
  congr 1
  funext row
  unfold alphaHalvedRow
  refine bind_congr_ok fun r hr => ?_
  have hc := h _ _ _ _ _ _ hr
  obtain ⟨r', cx⟩ := r
  dsimp only at hc ⊢
  subst hc
  unfold rowPairs
  rw [if_neg (by simp), if_pos ⟨rfl, rfl⟩, eachChunk_skip (by omega) (by unfold min5 min4; omega),
    Outcome.bind_ok, if_pos hw]
  rfl

theorem alphaFrame_guard {s : Sampling} {cn : Nat} (hcn : 0 < cn) {i : PlanarAlpha} (hw : s = .yuv444 ∨ i.width % 2 = 0)
    {hd : AlphaHandler} (h : WholeRows hd i.width) (put : AlphaPut) (rgba : Buf) (stride : Nat) :
    alphaFrame true false cn put hd s i rgba stride = alphaFrame true true cn put hd s i rgba stride := by
  cases s with
  | yuv444 =>
    simp only [alphaFrame, alpha444]
    congr 1
    funext r row
    refine bind_congr_ok fun y hy => ?_
    have ly : y.length ≤ i.width := by
      unfold slice at hy
      split at hy
      · injection hy with hy
        subst hy; rw [List.length_take]; omega
      · exact absurd hy (by intro h; injection h)
    refine bind_congr_ok fun q hq => ?_
    have hc := h _ _ _ _ _ _ hq
    obtain ⟨r', cx⟩ := q
    dsimp only at hc ⊢
    subst hc
    unfold rowSingles
    rw [if_neg (by simp), if_pos ⟨rfl, rfl⟩, eachChunk_skip hcn (by unfold min5 min4; omega)]
  | yuv422 =>
    have hw : i.width % 2 = 0 := hw.elim (fun h => nomatch h) id
    simp only [alphaFrame, alpha422, if_true, halvedSlice_guard hcn hw h]
  | yuv420 =>
    have hw : i.width % 2 = 0 := hw.elim (fun h => nomatch h) id
    have e : ∀ y u v a, alphaHalvedSlice false i.width cn put hd y u v a
        = alphaHalvedSlice true i.width cn put hd y u v a :=
      fun y u v a => funext fun row => halvedSlice_guard hcn hw h put y u v a row
    simp only [alphaFrame, alpha420, e]

/-- The handler with its offset rounded down to even. -/
def evenDone (hd : AlphaHandler) : AlphaHandler := fun y u v a row => do
  let r ← hd y u v a row
  return (r.1, 2 * (r.2 / 2))

theorem halvedRow_even {w cn : Nat} (put : AlphaPut) (hd : AlphaHandler) (y u v a row : Buf) :
    alphaHalvedRow false w cn put hd y u v a row = alphaHalvedRow false w cn put (evenDone hd) y u v a row := by
  unfold alphaHalvedRow evenDone
  rw [bind_assoc']
  refine bind_congr_ok fun r _ => ?_
  rw [show (pure (r.1, 2 * (r.2 / 2)) : Outcome (Buf × Nat)) = .ok (r.1, 2 * (r.2 / 2)) from rfl, Outcome.bind_ok]
  obtain ⟨r', cx⟩ := r
  dsimp only
  unfold rowPairs
  rw [if_neg (by simp), if_neg (by simp), show 2 * (cx / 2) / 2 = cx / 2 by omega]

theorem alphaFrame_even {s : Sampling} {cn : Nat} (hs : s ≠ .yuv444) (i : PlanarAlpha) (hd : AlphaHandler)
    (put : AlphaPut) (rgba : Buf) (stride : Nat) :
    alphaFrame true false cn put hd s i rgba stride = alphaFrame true false cn put (evenDone hd) s i rgba stride := by
  have e : ∀ y u v a, alphaHalvedSlice false i.width cn put hd y u v a
      = alphaHalvedSlice false i.width cn put (evenDone hd) y u v a := by
    intro y u v a
    funext row
    unfold alphaHalvedSlice
    have e' : ∀ y u v a, alphaHalvedRow false i.width cn put hd y u v a
        = alphaHalvedRow false i.width cn put (evenDone hd) y u v a :=
      fun y u v a => funext fun row => halvedRow_even put hd y u v a row
    simp only [e']
  cases s with
  | yuv444 => exact absurd rfl hs
  | yuv422 => simp only [alphaFrame, alpha422, if_true, e]
  | yuv420 => simp only [alphaFrame, alpha420, e]

/-! ## Handlers -/

section
variable (rdm : Bool) (s : Sampling) (e : Endianness) (bp : BytesPacking) {d : Nat}
  (hD : Deep d) (hd : d ≤ 15) (ch : Channels) (ht : DeepCoef t) (hby : rg.biasY < 65536)
  (hbu : rg.biasUv < 65536) {w : Nat} (wpos : 0 < w) (px : Nat → Nat → Nat → Nat → Buf)
include hD hd ht hby hbu wpos

/-- Where the portable code redoes nothing. -/
theorem alpha16Handler_fills :
    (alpha16Handler rdm s e bp d ch rg t w).FillsFrom (fun x => x) true 65536 ch.count w (hdiv s) px
      (fun x y u v a p => p = alpha16Pix (hdiv s) (alphaPix e bp d ch (alpha16RGB rdm d rg t)) w x a y u v) := by
  intro y u v a row hy hu hv ha ly lu lv la hw
  have hp := alphaPix_length e bp d ch (alpha16RGB rdm d rg t)
  obtain ⟨ux, e1⟩ := alpha16Row_ok (alpha16Words_at rdm hd ht hby hbu) s e bp hD ch hy hu hv ha ly lu lv la hw wpos
  unfold alpha16Handler
  rw [e1]
  exact ⟨row, _, _, rfl, ⟨rfl, fun _ _ => rfl⟩, painted_done (X86.count_pos ch) (fun _ => hp ..) hw (le_refl _)
    (.inr rfl) fun x hx => rfl, fun x h1 h2 => absurd h2 (Nat.not_lt.2 h1.le)⟩

/-- Rows of odd width with halved chroma: the portable code redoes the last pixel. -/
theorem alpha16Handler_odd (hs : hdiv s = 2) (hodd : w % 2 = 1) :
    (evenDone (alpha16Handler rdm s e bp d ch rg t w)).FillsFrom (fun x => x) false 65536 ch.count w (hdiv s) px
      (fun x y u v a p => p = if x + 1 = w then px y u v a
        else alpha16Pix (hdiv s) (alphaPix e bp d ch (alpha16RGB rdm d rg t)) w x a y u v) := by
  intro y u v a row hy hu hv ha ly lu lv la hw
  have hp := alphaPix_length e bp d ch (alpha16RGB rdm d rg t)
  obtain ⟨ux, e1⟩ := alpha16Row_ok (alpha16Words_at rdm hd ht hby hbu) s e bp hD ch hy hu hv ha ly lu lv la hw wpos
  generalize hpx : rowA (alpha16Pix (hdiv s) (alphaPix e bp d ch (alpha16RGB rdm d rg t)) w) (fun x => x) (hdiv s)
    y u v a = q at e1
  have hq : ∀ x, (q x).length = ch.count := fun x => by rw [← hpx]; exact hp ..
  have eo : evenDone (alpha16Handler rdm s e bp d ch rg t w) y u v a row
      = .ok (painted ch.count q w row, 2 * (w / 2)) := by
    unfold evenDone alpha16Handler
    rw [e1]; rfl
  refine ⟨painted ch.count q w row, painted ch.count q w row, 2 * (w / 2), eo,
    ⟨painted_length hq hw, fun k hk => ?_⟩, ⟨by omega, .inl (by rw [hs]; omega), rfl, fun x z hx hz => ?_,
      fun _ _ => rfl⟩, fun x h1 h2 => ?_⟩
  · have hl : ((List.range w).flatMap q).length = w * ch.count := flatMap_length fun j _ => hq j
    unfold painted
    rw [List.getElem?_append_right (by omega), List.getElem?_drop, hl, Nat.add_sub_cancel' hk]
  · obtain rfl : z = 0 := by omega
    rw [painted_pixel hq (by omega)]
    show q x = _
    rw [if_neg (by omega), ← hpx]
    rfl
  · have : x + 1 = w := by
      rcases h1 with h1 | ⟨-, h1⟩
      · omega
      · exact h1
    show _ = _
    rw [if_pos this]

end

end Verif.Neon
