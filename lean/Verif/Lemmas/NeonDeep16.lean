import Verif.Model.NeonDeep16
import Verif.Spec.NeonDeep16
import Verif.Lemmas.NeonGrayDeep
import Verif.Lemmas.X86DeepRows
/-! # Rows of the 64-bit ARM decoders of 10- to 16-bit images to RGB of the same depth -/
namespace Verif.Neon
open Spec X86

/-! ## The arithmetic -/

variable {rg : ChromaRange} {t : InvCoef}

theorem s16_centred (r : Reg) (b k : Nat) : s16 (sub16 r (set1_16 (b : Int))) k = int16 ((w16 r k : Int) - b) := by
  rw [s16_sub, s16_set1]
  unfold s16 int16 asI16; omega

/-- One lane of an accumulation, when the sum stays in 32 bits. -/
theorem s32_mlalS {o j : Nat} {acc v : Reg} {c L V : Int} (hc : -20000 ≤ c ∧ c ≤ 20000) (hl : s32 acc j = L)
    (hv : s16 v (o + j) = V) (hL : -1400000000 ≤ L ∧ L ≤ 1400000000) (hV : -32768 ≤ V ∧ V ≤ 32767) :
    s32 (mlalS o acc v c) j = L + V * c := by
  have m := mul_bounds (a := V) (t := c) (A := 32768) (T := 20000) (by omega) hc
  rw [mlalS, s32_mk32, hl, hv, asI16_coef hc]
  generalize V * c = p at *
  exact asI32_id (by omega) (by omega)

theorem s32_luma {o j y : Nat} {v : Reg} {c : Int} (hc : 0 ≤ c ∧ c ≤ 10000) (hy : y < 65536)
    (h : w16 v (o + j) = y) :
    s32 (mlalU o (set1_32 (2 ^ 12 - 1)) v c) j = y * c + 4095 := by
  have p := part_at hc hy h
  have m := mul_bounds (a := (y : Int)) (t := c) (A := 65535) (T := 10000) (by omega) (by omega)
  rw [s32, p]
  generalize (y : Int) * c = x at *
  exact asI32_id (by omega) (by omega)

theorem w16_qshrunS {f : Nat → Reg} {k : Nat} {X : Int} (h : ∀ o j, o + j = k → s32 (f o) j = X) :
    w16 (qshrunS 13 (f 0) (f 4)) k = satU16 (X / 8192) := by
  have e : (if k < 4 then s32 (f 0) k / 2 ^ 13 else s32 (f 4) (k - 4) / 2 ^ 13) = X / 8192 := by
    by_cases h4 : k < 4
    · rw [if_pos h4, h 0 k (by omega)]; norm_num
    · rw [if_neg h4, h 4 (k - 4) (by omega)]; norm_num
  rw [qshrunS, w16_mk16, e]
  unfold satU16 asU16; omega

theorem wideWords_at {d : Nat} (hd : d ≤ 16) (ht : DeepCoef t) (h0 : 0 ≤ t.y) (hby : rg.biasY < 65536) :
    TriplesAt (wideWords d rg t) (neonWideRGB d rg t) := by
  intro y u v hy k _
  obtain ⟨t1, t2, t3, t4, t5⟩ := ht
  have ey := w16_subsU hy hby k
  have yl : w16 y k - rg.biasY < 65536 := by have := w16_lt hy k; omega
  have bu := int16_bounds ((w16 u k : Int) - rg.biasUv)
  have bv := int16_bounds ((w16 v k : Int) - rg.biasUv)
  have ml := mul_bounds (a := ((w16 y k - rg.biasY : Nat) : Int)) (t := t.y) (A := 65535) (T := 10000)
    (by omega) t1
  norm_num at ml
  have hl : ∀ o j, o + j = k → s32 (mlalU o (set1_32 (2 ^ 12 - 1)) (subsU16 y (set1_16 (rg.biasY : Int))) t.y) j
      = ((w16 y k - rg.biasY : Nat) : Int) * t.y + 4095 :=
    fun o j e => s32_luma ⟨h0, t1.2⟩ yl (e ▸ ey)
  have lim : ∀ (f : Nat → Reg) (X : Int), (∀ o j, o + j = k → s32 (f o) j = X + 4095) →
      w16 (if d = 16 then qshrunS 13 (f 0) (f 4) else minU16 (qshrunS 13 (f 0) (f 4)) (set1_16 (2 ^ d - 1))) k
        = saturate d (roundShift (2 ^ 12 - 1) 13 X) := by
    intro f X hf
    have hx := w16_qshrunS hf
    have e : (X + 4095) / 8192 = roundShift (2 ^ 12 - 1) 13 X := by unfold roundShift; norm_num
    rw [e] at hx
    by_cases h16 : d = 16
    · rw [if_pos h16, hx, h16, satU16_saturate]
    · rw [if_neg h16]
      exact w16_min (by omega) hx
  have one : ∀ (r : Reg) (c : Int), -20000 ≤ c ∧ c ≤ 20000 → ∀ o j, o + j = k →
      s32 (mlalS o (mlalU o (set1_32 (2 ^ 12 - 1)) (subsU16 y (set1_16 (rg.biasY : Int))) t.y)
        (sub16 r (set1_16 (rg.biasUv : Int))) c) j
      = ((w16 y k - rg.biasY : Nat) : Int) * t.y + 4095 + int16 ((w16 r k : Int) - rg.biasUv) * c := by
    intro r c hc o j e
    have hr : s16 (sub16 r (set1_16 (rg.biasUv : Int))) (o + j) = int16 ((w16 r k : Int) - rg.biasUv) := by
      rw [e]; exact s16_centred ..
    have hL := hl o j e
    generalize ((w16 y k - rg.biasY : Nat) : Int) * t.y = l at ml hL ⊢
    exact s32_mlalS hc hL hr ⟨by linarith [ml.1], by linarith [ml.2]⟩ (int16_bounds _)
  have m := mul_bounds (a := int16 ((w16 v k : Int) - rg.biasUv)) (t := -t.g1) (A := 32768) (T := 20000)
    (by omega) (by omega)
  norm_num at m
  have two : ∀ o j, o + j = k →
      s32 (mlalS o (mlalS o (mlalU o (set1_32 (2 ^ 12 - 1)) (subsU16 y (set1_16 (rg.biasY : Int))) t.y)
        (sub16 v (set1_16 (rg.biasUv : Int))) (-t.g1)) (sub16 u (set1_16 (rg.biasUv : Int))) (-t.g2)) j
      = ((w16 y k - rg.biasY : Nat) : Int) * t.y + 4095 + int16 ((w16 v k : Int) - rg.biasUv) * -t.g1
        + int16 ((w16 u k : Int) - rg.biasUv) * -t.g2 := by
    intro o j e
    have hr : s16 (sub16 u (set1_16 (rg.biasUv : Int))) (o + j) = int16 ((w16 u k : Int) - rg.biasUv) := by
      rw [e]; exact s16_centred ..
    have hL := one v (-t.g1) (by omega) o j e
    generalize ((w16 y k - rg.biasY : Nat) : Int) * t.y = l at ml hL ⊢
    exact s32_mlalS ⟨by linarith [t5.2], by linarith [t5.1]⟩ hL hr
      ⟨by linarith [ml.1, m.1], by linarith [ml.2, m.2]⟩ (int16_bounds _)
  simp only [wideWords, neonWideRGB]
  refine ⟨lim (fun o => mlalS o (mlalU o _ _ _) _ _) _ fun o j e => (one v t.cr t2 o j e).trans (by ring),
    lim (fun o => mlalS o (mlalS o (mlalU o _ _ _) _ _) _ _) _ fun o j e => (two o j e).trans (by ring),
    lim (fun o => mlalS o (mlalU o _ _ _) _ _) _ fun o j e => (one u t.cb t3 o j e).trans (by ring)⟩

theorem s16_mulh_any {a : Reg} {c : Int} (hc : -20000 ≤ c ∧ c ≤ 20000) (k : Nat) :
    s16 (mulh true a c) k = mulRound (s16 a k) c := by
  have hb := s16_bounds a k
  have m := mul_bounds (a := s16 a k) (t := c) (A := 32768) (T := 20000) (by omega) hc
  rw [mulh, if_pos rfl, s16_mk16]
  unfold mulRound satI16
  generalize s16 a k * c = p at *
  unfold asI16; omega

theorem s16_mlah_any {a b : Reg} {c L V : Int} {k : Nat} (hl : s16 a k = L) (hv : s16 b k = V) :
    s16 (mlah true a b c) k = sat16 (L + mulRound V c) := by
  rw [mlah, if_pos rfl, s16_mk16, hl, hv]
  unfold mulRound satI16 sat16
  generalize V * c = p at *
  unfold asI16; omega

theorem saturate_sat16 {d : Nat} (hd : d ≤ 15) (x : Int) : saturate d (sat16 x) = saturate d x := by
  have h1 : (2 : Int) ^ d ≤ 2 ^ 15 := pow_le_pow_right₀ (by norm_num) hd
  have h0 : (1 : Int) ≤ 2 ^ d := one_le_pow₀ (by norm_num)
  unfold saturate sat16
  generalize (2 : Int) ^ d = p at *
  omega

theorem rdmWords_at {d : Nat} (hd : d = 10 ∨ d = 12) (ht : DeepCoef t) (hby : rg.biasY < 65536) (hbu : rg.biasUv < 65536) :
    TriplesAt (rdmWords d rg t) (neonRdmRGB d rg t) := by
  intro y u v hy k _
  obtain ⟨t1, t2, t3, t4, t5⟩ := ht
  have hd15 : d ≤ 15 := by omega
  have el : s16 (mulh true (expandBp d (subsU16 y (set1_16 (rg.biasY : Int)))) (asI16 t.y)) k
      = mulRound (longLuma d (w16 y k - rg.biasY)) t.y := by
    rw [asI16_coef (by omega), s16_mulh_any (by omega), expandBp_at hd (a := subsU16 _ _) (mk16_bytes _),
      w16_subsU hy hby]
  refine ⟨?_, ?_, ?_⟩
  · simp only [rdmWords, neonRdmRGB]
    rw [w16_limit hd15, s16_mlah_any el (s16_slliSub hbu k), asI16_coef t2, saturate_sat16 hd15]
  · simp only [rdmWords, neonRdmRGB]
    rw [w16_limit hd15, s16_mlah_any (s16_mlah_any el (s16_slliSub hbu k)) (s16_slliSub hbu k),
      asI16_coef (t := -t.g1) (by omega), asI16_coef (t := -t.g2) (by omega), saturate_sat16 hd15]
  · simp only [rdmWords, neonRdmRGB]
    rw [w16_limit hd15, s16_mlah_any el (s16_slliSub hbu k), asI16_coef t3, saturate_sat16 hd15]

/-- Red, green and blue of native samples on 64-bit ARM. -/
def armRGB (rdm : Bool) (d : Nat) (c : ChromaRange) (t : InvCoef) : Nat → Nat → Nat → Nat × Nat × Nat :=
  if rdm = true ∧ d = 10 then neonRdmRGB d c t else neonWideRGB d c t

theorem deep16Words_at (rdm : Bool) {d : Nat} (hd : d ≤ 16) (ht : DeepCoef t) (h0 : 0 ≤ t.y)
    (hby : rg.biasY < 65536) (hbu : rg.biasUv < 65536) :
    TriplesAt (deep16Words rdm d rg t) (armRGB rdm d rg t) := by
  unfold deep16Words armRGB
  by_cases h : rdm = true ∧ d = 10
  · rw [if_pos h, if_pos h]
    obtain ⟨-, rfl⟩ := h
    exact rdmWords_at (.inl rfl) ht hby hbu
  · rw [if_neg h, if_neg h]
    exact wideWords_at hd ht h0 hby

/-! ## Chroma -/

theorem chroma8_at (e : Endianness) (bp : BytesPacking) {d : Nat} (hd : Deep d)
    {s : Sampling} {c : Buf} {ux : Nat} (h : ux + chromaStep s 8 ≤ c.length)
    (hc : ∀ x ∈ c, x < 65536) :
    ∃ r, chroma8 s e bp d c ux = .ok r ∧
      ∀ k, k < 8 → w16 r k = nativeSample e bp d (c.getD (ux + k / hdiv s) 0) :=
  sseDeepChroma_at e bp hd h hc

theorem chroma16_at (e : Endianness) (bp : BytesPacking) {d : Nat} (hd : Deep d)
    {s : Sampling} {c : Buf} {ux : Nat} (h : ux + chromaStep s 16 ≤ c.length)
    (hc : ∀ x ∈ c, x < 65536) :
    ∃ r, chroma16 s e bp d c ux = .ok r ∧
      (∀ k, k < 8 → w16 r.1 k = nativeSample e bp d (c.getD (ux + k / hdiv s) 0)) ∧
      ∀ k, k < 8 → w16 r.2 k = nativeSample e bp d (c.getD (ux + (8 + k) / hdiv s) 0) := by
  have half : ux + 8 ≤ c.length →
      ∃ r : Reg × Reg, (load16 8 c ux >>= fun r => Outcome.ok
        (unpacklo 2 (nativeReg e bp d r) (nativeReg e bp d r),
          unpackhi 2 (nativeReg e bp d r) (nativeReg e bp d r))) = .ok r ∧
      (∀ k, k < 8 → w16 r.1 k = nativeSample e bp d (c.getD (ux + k / 2) 0)) ∧
      ∀ k, k < 8 → w16 r.2 k = nativeSample e bp d (c.getD (ux + (8 + k) / 2) 0) := by
    intro h
    obtain ⟨r, e1, h1, h2⟩ := load16_at h hc
    refine ⟨_, by rw [e1]; rfl, fun k hk => ?_, fun k hk => ?_⟩
    · show w16 (unpacklo 2 _ _) k = _
      rw [w16_dupLo, nativeReg_at e bp hd h2 (by omega), h1 _ (by omega)]
      congr 3; omega
    · show w16 (unpackhi 2 _ _) k = _
      rw [w16_dupHi, nativeReg_at e bp hd h2 (by omega), h1 _ (by omega)]
      congr 3; omega
  cases s
  · exact half h
  · exact half h
  · have h : ux + 16 ≤ c.length := h
    obtain ⟨r, e1, h1, h2⟩ := load16_at (n := 8) (p := ux) (by omega) hc
    obtain ⟨r', e1', h1', h2'⟩ := load16_at (n := 8) (p := ux + 8) (by omega) hc
    refine ⟨(nativeReg e bp d r, nativeReg e bp d r'), ?_, fun k hk => ?_, fun k hk => ?_⟩
    · simp only [chroma16, e1, e1', Outcome.bind_ok]; rfl
    · rw [nativeReg_at e bp hd h2 (by omega), h1 _ hk, hdiv, Nat.div_one]
    · rw [nativeReg_at e bp hd h2' (by omega), h1' _ hk, hdiv, Nat.div_one, Nat.add_assoc]

/-! ## Rows -/

variable {K : Reg → Reg → Reg → Reg × Reg × Reg} {f : Nat → Nat → Nat → Nat × Nat × Nat}

theorem deep16Body_eq (hK : TriplesAt K f) (s : Sampling) (e : Endianness) (bp : BytesPacking) {d : Nat}
    (hD : Deep d) (ch : Channels) {y u v : Buf} (hy : ∀ x ∈ y, x < 65536) (hu : ∀ x ∈ u, x < 65536)
    (hv : ∀ x ∈ v, x < 65536) {cx ux : Nat} (ly : cx + 8 ≤ y.length)
    (lu : ux + chromaStep s 8 ≤ u.length) (lv : ux + chromaStep s 8 ≤ v.length) (p : Nat) (row : Buf) :
    deep16Body K s e bp d ch y u v cx ux p row
      = put row p (stepOf (wordsPix e bp d ch f) (hdiv s) 8 y u v cx ux) := by
  obtain ⟨yr, e1, a1, a2⟩ := load16_at ly hy
  obtain ⟨ur, e2, b1⟩ := chroma8_at e bp hD lu hu
  obtain ⟨vr, e3, c1⟩ := chroma8_at e bp hD lv hv
  unfold deep16Body
  rw [e1, Outcome.bind_ok, e2, Outcome.bind_ok, e3, Outcome.bind_ok]
  dsimp only
  rw [storeRgb16, storeRgb_eq]
  congr 1
  exact pixels_words (by decide) e bp hD ch hK (nativeReg_bytes e bp d a2)
    (fun k hk => by rw [nativeReg_at e bp hD a2 (by omega), a1 k hk]) b1 c1

theorem stepOf_split8 (pix : Nat → Nat → Nat → Buf) (hd : Nat) (y u v : Buf) (cx ux : Nat) :
    stepOf pix hd 16 y u v cx ux
      = ((List.range 8).flatMap fun j =>
          pix (y.getD (cx + j) 0) (u.getD (ux + j / hd) 0) (v.getD (ux + j / hd) 0))
        ++ (List.range 8).flatMap fun j =>
          pix (y.getD (cx + 8 + j) 0) (u.getD (ux + (8 + j) / hd) 0) (v.getD (ux + (8 + j) / hd) 0) := by
  unfold stepOf
  rw [show (16 : Nat) = 8 + 8 from rfl, range_add_flatMap]
  simp only [Nat.add_assoc]

theorem deep16Body2_eq (hK : TriplesAt K f) (s : Sampling) (e : Endianness) (bp : BytesPacking) {d : Nat}
    (hD : Deep d) (ch : Channels) {y u v : Buf} (hy : ∀ x ∈ y, x < 65536) (hu : ∀ x ∈ u, x < 65536)
    (hv : ∀ x ∈ v, x < 65536) {cx ux : Nat} (ly : cx + 16 ≤ y.length)
    (lu : ux + chromaStep s 16 ≤ u.length) (lv : ux + chromaStep s 16 ≤ v.length) (p : Nat) (row : Buf) :
    deep16Body2 K s e bp d ch y u v cx ux p row
      = put row p (stepOf (wordsPix e bp d ch f) (hdiv s) 16 y u v cx ux) := by
  obtain ⟨y0, e0, a1, a2⟩ := load16_at (p := cx) (n := 8) (by omega) hy
  obtain ⟨y1, e1, a3, a4⟩ := load16_at (p := cx + 8) (n := 8) (by omega) hy
  obtain ⟨ur, e2, b1, b2⟩ := chroma16_at e bp hD lu hu
  obtain ⟨vr, e3, c1, c2⟩ := chroma16_at e bp hD lv hv
  unfold deep16Body2
  rw [e0, Outcome.bind_ok, e1, Outcome.bind_ok, e2, Outcome.bind_ok, e3, Outcome.bind_ok]
  simp only [storeRgb16, storeRgb_eq]
  rw [put_put _ _ _ _ _ (by rw [X86.pixels_length]), stepOf_split8]
  congr 1
  congr 1
  · exact pixels_words (by decide) e bp hD ch hK (nativeReg_bytes e bp d a2)
      (fun k hk => by rw [nativeReg_at e bp hD a2 (by omega), a1 k hk]) b1 c1
  · exact pixels_words (by decide) e bp hD ch hK (nativeReg_bytes e bp d a4)
      (fun k hk => by rw [nativeReg_at e bp hD a4 (by omega), a3 k hk]) b2 c2

theorem deep16Row_ok (hK : TriplesAt K f) (s : Sampling) (e : Endianness) (bp : BytesPacking) {d : Nat}
    (hD : Deep d) (ch : Channels) {w : Nat} {y u v row : Buf}
    (hy : ∀ x ∈ y, x < 65536) (hu : ∀ x ∈ u, x < 65536) (hv : ∀ x ∈ v, x < 65536)
    (ly : w ≤ y.length) (lu : (w - 1) / hdiv s + 1 ≤ u.length)
    (lv : (w - 1) / hdiv s + 1 ≤ v.length) (hw : w * ch.count ≤ row.length) :
    ∃ ux, deep16Row K s e bp d ch w y u v row
      = .ok (painted ch.count (rowOf (wordsPix e bp d ch f) (hdiv s) y u v) w row, w, ux) := by
  have hp := wordsPix_length e bp d ch f
  obtain ⟨cx, ux, e1, _, h2, h3, _⟩ := paintLoop (step := 16) (ustep := chromaStep s 16) (width := w)
    (cn := ch.count) (hd := hdiv s) (by decide) (chromaStep_hdiv s rfl)
    (pix := rowOf (wordsPix e bp d ch f) (hdiv s) y u v) (fun _ => hp ..)
    (row := row) hw
    (body := fun cx ux row => deep16Body2 K s e bp d ch y u v cx ux (cx * ch.count) row)
    (cx0 := 0) (ux0 := 0) (Nat.zero_mul _)
    (by
      intro cx ux r _ hux hlt
      rw [← stepOf_row _ (hdiv_pos s) _ y u v hux]
      exact deep16Body2_eq hK s e bp hD ch hy hu hv (by omega)
        (chroma_room hux rfl (by omega) lu (by decide)) (chroma_room hux rfl (by omega) lv (by decide))
        _ _)
    (Nat.zero_le _)
  rw [painted_zero] at e1
  obtain ⟨cx', ux', e2, _, g2, g3, g4⟩ := paintLoop (step := 8) (ustep := chromaStep s 8) (width := w)
    (cn := ch.count) (hd := hdiv s) (by decide) (chromaStep_hdiv s rfl)
    (pix := rowOf (wordsPix e bp d ch f) (hdiv s) y u v) (fun _ => hp ..)
    (row := row) hw
    (body := fun cx ux row => deep16Body K s e bp d ch y u v cx ux (cx * ch.count) row)
    (cx0 := cx) (ux0 := ux) h2
    (by
      intro cx ux r _ hux hlt
      rw [← stepOf_row _ (hdiv_pos s) _ y u v hux]
      exact deep16Body_eq hK s e bp hD ch hy hu hv (by omega)
        (chroma_room hux rfl (by omega) lu (by decide)) (chroma_room hux rfl (by omega) lv (by decide))
        _ _)
    h3
  simp only [deep16Row, e1, Outcome.bind_ok, e2]
  exact deepTail_ok (by decide) false s ch hp hy hu hv
    (fun y u v r hy hu hv ly lu lv => deep16Body_eq hK s e bp hD ch hy hu hv (by omega)
      (by rw [lu]; exact chroma_fits s 8) (by rw [lv]; exact chroma_fits s 8) _ _)
    ly lu lv hw g2 g3 g4

theorem deep16Handler_fills (rdm : Bool) (s : Sampling) (e : Endianness) (bp : BytesPacking) {d : Nat}
    (hD : Deep d) (ch : Channels) (ht : DeepCoef t) (h0 : 0 ≤ t.y) (hby : rg.biasY < 65536)
    (hbu : rg.biasUv < 65536) {w : Nat} (px : Nat → Nat → Nat → Buf) :
    (deep16Handler rdm s e bp d ch rg t w).Fills true 65536 ch.count w (hdiv s) px
      (fun _ y u v p => p = wordsPix e bp d ch (armRGB rdm d rg t) y u v) := by
  intro y u v row hy hu hv ly lu lv hw
  have hd : d ≤ 16 := by rcases hD with rfl | rfl | rfl | rfl <;> decide
  obtain ⟨ux, eq⟩ := deep16Row_ok (deep16Words_at rdm hd ht h0 hby hbu) s e bp hD ch hy hu hv ly lu lv hw
  refine ⟨_, w, by unfold deep16Handler; rw [eq]; rfl,
    painted_done (X86.count_pos ch) (fun _ => wordsPix_length ..) hw (le_refl _) (.inr rfl)
      fun x _ => rfl, fun x h1 h2 => absurd h1.le (by omega)⟩

end Verif.Neon
