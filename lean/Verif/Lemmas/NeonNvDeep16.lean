import Verif.Model.NeonNvDeep16
import Verif.Lemmas.NeonDeep16
import Verif.Lemmas.X86NvDeep
/-! # Rows of the 64-bit ARM decoders of semi-planar 10- and 12-bit images -/
namespace Verif.Neon
open Spec X86

variable {rg : ChromaRange} {t : InvCoef}

/-! ## The arithmetic -/

theorem w16_qrshrunS {f : Nat → Reg} {k : Nat} {X : Int} (h : ∀ o j, o + j = k → s32 (f o) j = X) :
    w16 (qrshrunS 13 (f 0) (f 4)) k = satU16 ((X + 4096) / 8192) := by
  have e : ((if k < 4 then s32 (f 0) k else s32 (f 4) (k - 4)) + 2 ^ (13 - 1)) / 2 ^ 13 = (X + 4096) / 8192 := by
    by_cases h4 : k < 4
    · rw [if_pos h4, h 0 k (by omega)]; norm_num
    · rw [if_neg h4, h 4 (k - 4) (by omega)]; norm_num
  rw [qrshrunS, w16_mk16, e]
  unfold satU16 asU16; omega

theorem nvWideWords_at {d : Nat} (hd : d ≤ 15) (ht : DeepCoef t) :
    TriplesAt (nvWideWords d rg t) (neonNvRGB d rg t) := by
  intro y u v _ k _
  obtain ⟨t1, t2, t3, t4, t5⟩ := ht
  have bv := int16_bounds ((w16 v k : Int) - rg.biasUv)
  have bY := int16_bounds ((w16 y k : Int) - rg.biasY)
  have ml := mul_bounds (a := int16 ((w16 y k : Int) - rg.biasY)) (t := t.y) (A := 32768) (T := 10000)
    (by omega) t1
  norm_num at ml
  have hl : ∀ o j, o + j = k → s32 (mullS o (sub16 y (set1_16 (rg.biasY : Int))) t.y) j
      = int16 ((w16 y k : Int) - rg.biasY) * t.y := by
    intro o j e
    rw [mullS, s32_mk32, e, s16_centred, asI16_coef (by omega)]
    generalize int16 ((w16 y k : Int) - rg.biasY) * t.y = p at *
    exact asI32_id (by linarith [ml.1]) (by linarith [ml.2])
  have lim : ∀ (f : Nat → Reg) (X : Int), (∀ o j, o + j = k → s32 (f o) j = X) →
      w16 (minU16 (qrshrunS 13 (f 0) (f 4)) (set1_16 (2 ^ d - 1))) k
        = saturate d (roundShift (2 ^ 12) 13 X) := by
    intro f X hf
    have hx := w16_qrshrunS hf
    have e : (X + 4096) / 8192 = roundShift (2 ^ 12) 13 X := by unfold roundShift; norm_num
    rw [e] at hx
    exact w16_min hd hx
  have one : ∀ (r : Reg) (c : Int), -20000 ≤ c ∧ c ≤ 20000 → ∀ o j, o + j = k →
      s32 (mlalS o (mullS o (sub16 y (set1_16 (rg.biasY : Int))) t.y)
        (sub16 r (set1_16 (rg.biasUv : Int))) c) j
      = int16 ((w16 y k : Int) - rg.biasY) * t.y + int16 ((w16 r k : Int) - rg.biasUv) * c := by
    intro r c hc o j e
    have hr : s16 (sub16 r (set1_16 (rg.biasUv : Int))) (o + j) = int16 ((w16 r k : Int) - rg.biasUv) := by
      rw [e]; exact s16_centred ..
    have hL := hl o j e
    generalize int16 ((w16 y k : Int) - rg.biasY) * t.y = l at ml hL ⊢
    exact s32_mlalS hc hL hr ⟨by linarith [ml.1], by linarith [ml.2]⟩ (int16_bounds _)
  have m := mul_bounds (a := int16 ((w16 v k : Int) - rg.biasUv)) (t := -t.g1) (A := 32768) (T := 20000)
    (by omega) (by omega)
  norm_num at m
  have two : ∀ o j, o + j = k →
      s32 (mlalS o (mlalS o (mullS o (sub16 y (set1_16 (rg.biasY : Int))) t.y)
        (sub16 v (set1_16 (rg.biasUv : Int))) (-t.g1)) (sub16 u (set1_16 (rg.biasUv : Int))) (-t.g2)) j
      = int16 ((w16 y k : Int) - rg.biasY) * t.y + int16 ((w16 v k : Int) - rg.biasUv) * -t.g1
        + int16 ((w16 u k : Int) - rg.biasUv) * -t.g2 := by
    intro o j e
    have hr : s16 (sub16 u (set1_16 (rg.biasUv : Int))) (o + j) = int16 ((w16 u k : Int) - rg.biasUv) := by
      rw [e]; exact s16_centred ..
    have hL := one v (-t.g1) (by omega) o j e
    generalize int16 ((w16 y k : Int) - rg.biasY) * t.y = l at ml hL ⊢
    exact s32_mlalS ⟨by linarith [t5.2], by linarith [t5.1]⟩ hL hr
      ⟨by linarith [ml.1, m.1], by linarith [ml.2, m.2]⟩ (int16_bounds _)
  simp only [nvWideWords, neonNvRGB]
  refine ⟨lim (fun o => mlalS o (mullS o _ _) _ _) _ fun o j e => one v t.cr t2 o j e,
    lim (fun o => mlalS o (mlalS o (mullS o _ _) _ _) _ _) _ fun o j e => (two o j e).trans (by ring),
    lim (fun o => mlalS o (mullS o _ _) _ _) _ fun o j e => one u t.cb t3 o j e⟩

/-- Red, green and blue of native samples in the semi-planar kernels. -/
def armNvRGB (rdm : Bool) (d : Nat) (c : ChromaRange) (t : InvCoef) : Nat → Nat → Nat → Nat × Nat × Nat :=
  if rdm = true then neonRdmRGB d c t else neonNvRGB d c t

theorem nvDeep16Words_at (rdm : Bool) {d : Nat} (hd : d = 10 ∨ d = 12) (ht : DeepCoef t)
    (hby : rg.biasY < 65536) (hbu : rg.biasUv < 65536) :
    TriplesAt (nvDeep16Words rdm d rg t) (armNvRGB rdm d rg t) := by
  unfold nvDeep16Words armNvRGB
  by_cases h : rdm = true
  · rw [if_pos ⟨h, by omega⟩, if_pos h]
    exact rdmWords_at hd ht hby hbu
  · rw [if_neg fun g => h g.1, if_neg h]
    exact nvWideWords_at (by omega) ht

/-! ## Chroma -/

theorem ld2_at {n : Nat} {l : Buf} {p : Nat} (h : p + 2 * n ≤ l.length) (hb : ∀ x ∈ l, x < 65536) :
    ∃ r, ld2 n l p = .ok r ∧ RegBytes r.1 ∧ RegBytes r.2 ∧
      (∀ k, k < n → w16 r.1 k = l.getD (p + 2 * k) 0) ∧ ∀ k, k < n → w16 r.2 k = l.getD (p + (2 * k + 1)) 0 := by
  refine ⟨_, if_pos h, ?_, ?_, fun k hk => ?_, fun k hk => ?_⟩
  · dsimp only; exact mk16_bytes _
  · dsimp only; exact mk16_bytes _
  · rw [w16_mk16, if_pos hk]
    have : l.getD (p + 2 * k) 0 < 65536 := getD_lt (by decide) hb
    exact asU16_nat this
  · rw [w16_mk16, if_pos hk]
    have : l.getD (p + (2 * k + 1)) 0 < 65536 := getD_lt (by decide) hb
    exact asU16_nat this

theorem swapUv_at (o : NVOrder) {r : Reg × Reg} {l : Buf} {p n : Nat} (b1 : RegBytes r.1) (b2 : RegBytes r.2)
    (h1 : ∀ k, k < n → w16 r.1 k = l.getD (p + 2 * k) 0)
    (h2 : ∀ k, k < n → w16 r.2 k = l.getD (p + (2 * k + 1)) 0) :
    RegBytes (swapUv o r).1 ∧ RegBytes (swapUv o r).2 ∧
      (∀ k, k < n → w16 (swapUv o r).1 k = l.getD (p + (2 * k + o.uPos)) 0) ∧
      ∀ k, k < n → w16 (swapUv o r).2 k = l.getD (p + (2 * k + o.vPos)) 0 := by
  cases o
  · exact ⟨b1, b2, h1, h2⟩
  · exact ⟨b2, b1, h2, h1⟩

theorem nvChroma8_at (o : NVOrder) (e : Endianness) (bp : BytesPacking) {d : Nat} (hd : Deep d)
    {s : Sampling} {uv : Buf} {ux : Nat} (h : ux + nvStep s 8 ≤ uv.length) (hc : ∀ x ∈ uv, x < 65536) :
    ∃ r, nvChroma8 s o e bp d uv ux = .ok r ∧
      (∀ k, k < 8 → w16 r.1 k = nativeSample e bp d (uv.getD (ux + (2 * (k / hdiv s) + o.uPos)) 0)) ∧
      ∀ k, k < 8 → w16 r.2 k = nativeSample e bp d (uv.getD (ux + (2 * (k / hdiv s) + o.vPos)) 0) := by
  have half : ux + 8 ≤ uv.length →
      ∃ r : Reg × Reg, (ld2 4 uv ux >>= fun r => Outcome.ok
        (unpacklo 2 (nativeReg e bp d (swapUv o r).1) (nativeReg e bp d (swapUv o r).1),
          unpacklo 2 (nativeReg e bp d (swapUv o r).2) (nativeReg e bp d (swapUv o r).2))) = .ok r ∧
      (∀ k, k < 8 → w16 r.1 k = nativeSample e bp d (uv.getD (ux + (2 * (k / 2) + o.uPos)) 0)) ∧
      ∀ k, k < 8 → w16 r.2 k = nativeSample e bp d (uv.getD (ux + (2 * (k / 2) + o.vPos)) 0) := by
    intro h
    obtain ⟨r, e1, b1, b2, h1, h2⟩ := ld2_at (n := 4) h hc
    obtain ⟨c1, c2, g1, g2⟩ := swapUv_at o b1 b2 h1 h2
    refine ⟨_, by rw [e1]; rfl, fun k hk => ?_, fun k hk => ?_⟩
    · show w16 (unpacklo 2 _ _) k = _
      rw [w16_dupLo, nativeReg_at e bp hd c1 (by omega), g1 _ (by omega)]
      congr 5; omega
    · show w16 (unpacklo 2 _ _) k = _
      rw [w16_dupLo, nativeReg_at e bp hd c2 (by omega), g2 _ (by omega)]
      congr 5; omega
  cases s
  · exact half h
  · exact half h
  · obtain ⟨r, e1, b1, b2, h1, h2⟩ := ld2_at (n := 8) h hc
    obtain ⟨c1, c2, g1, g2⟩ := swapUv_at o b1 b2 h1 h2
    refine ⟨(nativeReg e bp d (swapUv o r).1, nativeReg e bp d (swapUv o r).2), ?_, fun k hk => ?_,
      fun k hk => ?_⟩
    · simp only [nvChroma8, e1, Outcome.bind_ok]; rfl
    · rw [nativeReg_at e bp hd c1 (by omega), g1 _ hk, hdiv, Nat.div_one]
    · rw [nativeReg_at e bp hd c2 (by omega), g2 _ hk, hdiv, Nat.div_one]

/-! ## Rows -/

variable {K : Reg → Reg → Reg → Reg × Reg × Reg} {f : Nat → Nat → Nat → Nat × Nat × Nat}

theorem nvDeep16Body_eq (hK : TriplesAt K f) (o : NVOrder) (s : Sampling) (e : Endianness) (bp : BytesPacking)
    {d : Nat} (hD : Deep d) (ch : Channels) {y uv : Buf} (hy : ∀ x ∈ y, x < 65536) (hu : ∀ x ∈ uv, x < 65536)
    {cx ux : Nat} (ly : cx + 8 ≤ y.length) (lu : ux + nvStep s 8 ≤ uv.length)
    {fu fv : Nat → Nat}
    (hfu : ∀ k, k < 8 → fu (cx + k) = uv.getD (ux + (2 * (k / hdiv s) + o.uPos)) 0)
    (hfv : ∀ k, k < 8 → fv (cx + k) = uv.getD (ux + (2 * (k / hdiv s) + o.vPos)) 0)
    (p : Nat) (row : Buf) :
    nvDeep16Body K o s e bp d ch y uv cx ux p row
      = put row p ((List.range 8).flatMap fun j =>
          wordsPix e bp d ch f (y.getD (cx + j) 0) (fu (cx + j)) (fv (cx + j))) := by
  obtain ⟨yr, e1, a1, a2⟩ := load16_at ly hy
  obtain ⟨r, e2, b1, c1⟩ := nvChroma8_at o e bp hD lu hu
  unfold nvDeep16Body
  rw [e1, Outcome.bind_ok, e2, Outcome.bind_ok]
  dsimp only
  rw [storeRgb16, storeRgb_eq]
  congr 1
  exact pixels_words (by decide) e bp hD ch hK (nativeReg_bytes e bp d a2)
    (fun k hk => by rw [nativeReg_at e bp hD a2 (by omega), a1 k hk])
    (fun k hk => by rw [b1 k hk, hfu k hk]) (fun k hk => by rw [c1 k hk, hfv k hk])

/-- The pixel of column `x`; `px` is the portable code. -/
def armNvDeep (rdm : Bool) (e : Endianness) (bp : BytesPacking) (d : Nat) (ch : Channels) (w : Nat)
    (rg : ChromaRange) (t : InvCoef) (px : Nat → Nat → Nat → Buf) (x y u v : Nat) : Buf :=
  if x < groupCols w then wordsPix e bp d ch (armNvRGB rdm d rg t) y u v else px y u v

theorem nvDeep16Handler_fills (rdm : Bool) (o : NVOrder) (s : Sampling) (e : Endianness)
    (bp : BytesPacking) {d : Nat} (hd : d = 10 ∨ d = 12) (ch : Channels) (ht : DeepCoef t)
    (hby : rg.biasY < 65536) (hbu : rg.biasUv < 65536) {w : Nat} (hwp : 0 < w) (px : Nat → Nat → Nat → Buf) :
    (nvDeep16Handler rdm o s e bp d ch rg t w).FillsRow false 65536 ch.count w (hdiv s) o.uPos o.vPos px
      (fun x y fu fv p => p = armNvDeep rdm e bp d ch w rg t px x y (fu x) (fv x)) := by
  intro y uv row fu fv hy hu ly lu hw hfu hfv
  have hD : Deep d := hd.elim .inl fun h => .inr (.inl h)
  have hp := wordsPix_length e bp d ch (armNvRGB rdm d rg t)
  have gl : groupCols w + 1 ≤ w := by unfold groupCols; omega
  have hst : nvStep s 8 * hdiv s = 16 := by cases s <;> rfl
  obtain ⟨cx, ux, e1, h1, ⟨h2, h2'⟩, h3, h4⟩ := paintLoopI (step := 8) (ustep := nvStep s 8) (width := w)
    (cn := ch.count) (by decide) (I := fun cx ux => ux * hdiv s = 2 * cx ∧ cx % 8 = 0)
    (by
      intro cx ux g
      refine ⟨?_, by omega⟩
      rw [Nat.add_mul, g.1, hst]; omega)
    (pix := fun x => wordsPix e bp d ch (armNvRGB rdm d rg t) (y.getD x 0) (fu x) (fv x))
    (fun _ => hp ..) (row := row) hw
    (body := fun cx ux row =>
      nvDeep16Body (nvDeep16Words rdm d rg t) o s e bp d ch y uv cx ux (cx * ch.count) row)
    (cx0 := 0) (ux0 := 0) ⟨Nat.zero_mul _, rfl⟩
    (by
      rintro cx ux r _ ⟨hux, h8⟩ hlt
      have eq : ∀ k, 2 * ((cx + k) / hdiv s) = ux + 2 * (k / hdiv s) := by
        intro k
        cases s <;> simp only [hdiv] at hux ⊢ <;> omega
      have room : ux + nvStep s 8 ≤ uv.length := by
        cases s <;> simp only [hdiv, nvStep, chromaStep, ceil2] at * <;> omega
      refine nvDeep16Body_eq (nvDeep16Words_at rdm hd ht hby hbu) o s e bp hD ch hy hu (by omega) room
        ?_ ?_ _ _
      · intro k hk
        rw [hfu _ (by omega), eq, Nat.add_assoc]
      · intro k hk
        rw [hfv _ (by omega), eq, Nat.add_assoc])
    (Nat.zero_le _)
  rw [painted_zero] at e1
  have hcx : cx = groupCols w := by rw [h1]; unfold loopEnd groupCols; omega
  refine ⟨_, cx, by unfold nvDeep16Handler nvDeep16Row; rw [e1]; rfl,
    painted_done (X86.count_pos ch) (fun _ => hp ..) hw h3 (.inl ?_) ?_, ?_⟩
  · cases s <;> simp only [hdiv] <;> omega
  · intro x hx
    exact (if_pos (by omega)).symm
  · intro x hx hxw
    refine (if_neg ?_).symm
    rcases hx with h | h <;> omega

end Verif.Neon
