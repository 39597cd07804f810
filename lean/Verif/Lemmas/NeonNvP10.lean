import Verif.Model.NeonNvP10
import Verif.Spec.NeonNvP10
import Verif.Lemmas.NeonNvDeep16
import Verif.Lemmas.NeonNvModes
import Verif.Lemmas.NeonDeep8
import Verif.Lemmas.X86NvModes
/-! # Rows of the 64-bit ARM decoders of P010, P210 and P410 -/
namespace Verif.Neon
open Spec X86

/-- The coefficients of a mode are small enough for its kernel. -/
def Nv10Coef (md : Mode) (t : InvCoef) : Prop :=
  match md with
  | .fast => DeepCoef t
  | .balanced => DeepCoef t
  | .professional => (0 ≤ t.y ∧ t.y ≤ 20000) ∧ (0 ≤ t.cb ∧ t.cb ≤ 65534) ∧
      (-32767 ≤ t.g1 ∧ t.g1 ≤ 32767) ∧ (-32767 ≤ t.g2 ∧ t.g2 ≤ 32767)

theorem shrn_word {q : Nat} {f : Nat → Reg} {k : Nat} {X : Int} (h : ∀ o j, o + j = k → s32 (f o) j = X)
    (b : -32768 ≤ X / 2 ^ q ∧ X / 2 ^ q ≤ 32767) : s16 (shrn q (f 0) (f 4)) k = X / 2 ^ q := by
  rw [shrn, s16_mk16]
  by_cases h4 : k < 4
  · rw [if_pos h4, h 0 k (by omega)]; exact asI16_id b.1 b.2
  · rw [if_neg h4, h 4 (k - 4) (by omega)]; exact asI16_id b.1 b.2

section
variable {t : InvCoef} {y u v : Reg} {k : Nat} {Y cb cr : Int}
  (hy : s16 y k = Y) (hu : s16 u k = cb) (hv : s16 v k = cr)
  (bY : 0 ≤ Y ∧ Y ≤ 1023) (bu : -512 ≤ cb ∧ cb ≤ 511) (bv : -512 ≤ cr ∧ cr ≤ 511)
include hy hu hv bY bu bv

theorem nv10Words_at (ht : DeepCoef t) :
    s16 (nv10Words t y u v).1 k = (Y * t.y + cr * t.cr + 4095) / 2 ^ 13 ∧
    s16 (nv10Words t y u v).2.1 k = (Y * t.y - cr * t.g1 - cb * t.g2 + 4095) / 2 ^ 13 ∧
    s16 (nv10Words t y u v).2.2 k = (Y * t.y + cb * t.cb + 4095) / 2 ^ 13 := by
  obtain ⟨t1, t2, t3, t4, t5⟩ := ht
  have m0 := mul_bounds (a := Y) (t := t.y) (A := 1023) (T := 10000) (by omega) t1
  have m1 := mul_bounds (a := cr) (t := t.cr) (A := 512) (T := 20000) (by omega) t2
  have m2 := mul_bounds (a := cb) (t := t.cb) (A := 512) (T := 20000) (by omega) t3
  have m3 := mul_bounds (a := cr) (t := -t.g1) (A := 512) (T := 20000) (by omega) (by omega)
  have m4 := mul_bounds (a := cb) (t := -t.g2) (A := 512) (T := 20000) (by omega) (by omega)
  norm_num only at m0 m1 m2 m3 m4
  have n1 : Y * t.y - cr * t.g1 - cb * t.g2 = Y * t.y + cr * -t.g1 + cb * -t.g2 := by ring
  have lane : ∀ {o j : Nat}, o + j = k → ∀ w : Reg, s16 w (o + j) = s16 w k := fun h w => by rw [h]
  have base : ∀ j, s32 (set1_32 (2 ^ 12 - 1)) j = 4095 := fun j => by rw [s32_set1]; decide
  have sl : ∀ {o j : Nat}, o + j = k → s32 (mlalS o (set1_32 (2 ^ 12 - 1)) y t.y) j = 4095 + Y * t.y :=
    fun h => s32_mlalS (by omega) (base _) ((lane h y).trans hy) (by norm_num) (by omega)
  rw [n1]
  generalize hL : Y * t.y = L at *
  refine ⟨?_, ?_, ?_⟩
  · rw [show L + cr * t.cr + 4095 = 4095 + L + cr * t.cr by ring]
    refine shrn_word (f := fun o => mlalS o (mlalS o (set1_32 (2 ^ 12 - 1)) y t.y) v t.cr)
      (fun o j h => s32_mlalS t2 (sl h) ((lane h v).trans hv) (by omega) (by omega)) ?_
    generalize cr * t.cr = A at *
    norm_num only; omega
  · rw [show L + cr * -t.g1 + cb * -t.g2 + 4095 = 4095 + L + cr * -t.g1 + cb * -t.g2 by ring]
    refine shrn_word (f := fun o => mlalS o (mlalS o (mlalS o (set1_32 (2 ^ 12 - 1)) y t.y) v (-t.g1)) u (-t.g2))
      (fun o j h => s32_mlalS (by omega)
        (s32_mlalS (by omega) (sl h) ((lane h v).trans hv) (by omega) (by omega))
        ((lane h u).trans hu) ?_ (by omega)) ?_
    · generalize cr * -t.g1 = A at *
      omega
    · generalize cr * -t.g1 = A at *
      generalize cb * -t.g2 = B at *
      norm_num only; omega
  · rw [show L + cb * t.cb + 4095 = 4095 + L + cb * t.cb by ring]
    refine shrn_word (f := fun o => mlalS o (mlalS o (set1_32 (2 ^ 12 - 1)) y t.y) u t.cb)
      (fun o j h => s32_mlalS t3 (sl h) ((lane h u).trans hu) (by omega) (by omega)) ?_
    generalize cb * t.cb = A at *
    norm_num only; omega

theorem nv10ProfWords_at (ht : Nv10Coef .professional t) :
    s16 (nv10ProfWords t y u v).1 k = (Y * t.y + cr * int16 t.cr + 16383) / 2 ^ 14 ∧
    s16 (nv10ProfWords t y u v).2.1 k = (Y * t.y - cr * t.g1 - cb * t.g2 + 16383) / 2 ^ 14 ∧
    s16 (nv10ProfWords t y u v).2.2 k = (Y * t.y + cb * t.cb + 16383) / 2 ^ 14 := by
  obtain ⟨t1, t3, t4, t5⟩ := ht
  have m0 := mul_bounds (a := Y) (t := t.y) (A := 1023) (T := 20000) (by omega) (by omega)
  have bi := int16_bounds t.cr
  have m1 := mul_bounds (a := cr) (t := int16 t.cr) (A := 512) (T := 32768) (by omega) (by omega)
  have m2 := mul_bounds (a := cb) (t := t.cb - 32767) (A := 512) (T := 32767) (by omega) (by omega)
  have m3 := mul_bounds (a := cr) (t := -t.g1) (A := 512) (T := 32767) (by omega) (by omega)
  have m4 := mul_bounds (a := cb) (t := -t.g2) (A := 512) (T := 32767) (by omega) (by omega)
  norm_num only at m0 m1 m2 m3 m4
  have n1 : Y * t.y - cr * t.g1 - cb * t.g2 = Y * t.y + cr * -t.g1 + cb * -t.g2 := by ring
  have n2 : cb * t.cb = cb * (t.cb - 32767) + cb * 32767 := by ring
  have lane : ∀ {o j : Nat}, o + j = k → ∀ w : Reg, s16 w (o + j) = s16 w k := fun h w => by rw [h]
  have base : ∀ j, s32 (set1_32 (2 ^ 15 - 1)) j = 32767 := fun j => by rw [s32_set1]; decide
  have ey : asI16 t.y = t.y := asI16_id (by omega) (by omega)
  have er : asI16 t.cr = int16 t.cr := rfl
  have eb : asI16 (t.cb - 32767) = t.cb - 32767 := asI16_id (by omega) (by omega)
  have e1 : asI16 (-t.g1) = -t.g1 := asI16_id (by omega) (by omega)
  have e2 : asI16 (-t.g2) = -t.g2 := asI16_id (by omega) (by omega)
  have sl : ∀ {o j : Nat}, o + j = k →
      s32 (qdmlal o (set1_32 (2 ^ 15 - 1)) y t.y) j = 32767 + 2 * (Y * t.y) :=
    fun h => s32_qdmlal (base _) ((lane h y).trans hy) (by omega) (by omega)
  have half : ∀ X : Int, (X + 16383) / 2 ^ 14 = (32767 + 2 * X) / 2 ^ 15 := by
    intro X; norm_num only; omega
  simp only [nv10ProfWords, ey, er, eb, e1, e2]
  rw [n1, n2, half, half, half]
  generalize hL : Y * t.y = L at *
  refine ⟨?_, ?_, ?_⟩
  · rw [show 32767 + 2 * (L + cr * int16 t.cr) = 32767 + 2 * L + 2 * (cr * int16 t.cr) by ring]
    refine shrn_word (f := fun o => qdmlal o (qdmlal o (set1_32 (2 ^ 15 - 1)) y t.y) v (int16 t.cr))
      (fun o j h => s32_qdmlal (sl h) ((lane h v).trans hv) (by omega) (by omega)) ?_
    generalize cr * int16 t.cr = A at *
    norm_num only; omega
  · rw [show 32767 + 2 * (L + cr * -t.g1 + cb * -t.g2)
      = 32767 + 2 * L + 2 * (cr * -t.g1) + 2 * (cb * -t.g2) by ring]
    refine shrn_word
      (f := fun o => qdmlal o (qdmlal o (qdmlal o (set1_32 (2 ^ 15 - 1)) y t.y) v (-t.g1)) u (-t.g2))
      (fun o j h => s32_qdmlal (s32_qdmlal (sl h) ((lane h v).trans hv) (by omega) (by omega))
        ((lane h u).trans hu) ?_ (by omega)) ?_
    · generalize cr * -t.g1 = A at *
      omega
    · generalize cr * -t.g1 = A at *
      generalize cb * -t.g2 = B at *
      norm_num only; omega
  · rw [show 32767 + 2 * (L + (cb * (t.cb - 32767) + cb * 32767))
      = 32767 + 2 * L + 2 * (cb * (t.cb - 32767)) + 2 * (cb * 32767) by ring]
    refine shrn_word
      (f := fun o => qdmlal o (qdmlal o (qdmlal o (set1_32 (2 ^ 15 - 1)) y t.y) u (t.cb - 32767)) u 32767)
      (fun o j h => s32_qdmlal (s32_qdmlal (sl h) ((lane h u).trans hu) (by omega) (by omega))
        ((lane h u).trans hu) ?_ (by omega)) ?_
    · generalize cb * (t.cb - 32767) = A at *
      omega
    · generalize cb * (t.cb - 32767) = A at *
      norm_num only; omega

/-- The three bytes of lane `k`. -/
theorem nv10Kernel_at {md : Mode} (ht : Nv10Coef md t) :
    packShiftS 10 (nv10Kernel md t y u v).1 k = nv10Cut md (Y * t.y + cr * nv10Cr md t.cr) ∧
    packShiftS 10 (nv10Kernel md t y u v).2.1 k = nv10Cut md (Y * t.y - cr * t.g1 - cb * t.g2) ∧
    packShiftS 10 (nv10Kernel md t y u v).2.2 k = nv10Cut md (Y * t.y + cb * t.cb) := by
  have fin : ∀ (r : Reg) (X : Int), s16 r k = (X + nv10Round md) / 2 ^ nv10Bits md →
      packShiftS 10 r k = nv10Cut md X := by
    intro r X h
    rw [packShiftS, if_pos rfl, qshrun16, h, nv10Cut]
    generalize (X + nv10Round md) / 2 ^ nv10Bits md = z
    unfold satU8 byteSat; norm_num only
  cases md
  · obtain ⟨h1, h2, h3⟩ := nv10Words_at hy hu hv bY bu bv ht
    exact ⟨fin _ _ h1, fin _ _ h2, fin _ _ h3⟩
  · obtain ⟨h1, h2, h3⟩ := nv10Words_at hy hu hv bY bu bv ht
    exact ⟨fin _ _ h1, fin _ _ h2, fin _ _ h3⟩
  · obtain ⟨h1, h2, h3⟩ := nv10ProfWords_at hy hu hv bY bu bv ht
    exact ⟨fin _ _ h1, fin _ _ h2, fin _ _ h3⟩
end

/-! ## Rows -/

variable {rg : ChromaRange} {t : InvCoef}

/-- The pixel of three stored words. -/
def nv10Px (md : Mode) (e : Endianness) (ch : Channels) (c : ChromaRange) (t : InvCoef) (y u v : Nat) : Buf :=
  nv10Pixel md ch c t (nativeSample e .msb 10 y) (nativeSample e .msb 10 u) (nativeSample e .msb 10 v)

theorem nv10Px_length (md : Mode) (e : Endianness) (ch : Channels) (c : ChromaRange) (t : InvCoef)
    (y u v : Nat) : (nv10Px md e ch c t y u v).length = ch.count := layout_length' ..

theorem nv10Body_eq {md : Mode} (ht : Nv10Coef md t) (hby : rg.biasY < 65536) (hbu : rg.biasUv = 512)
    (o : NVOrder) (s : Sampling) (e : Endianness) (ch : Channels) {y uv : Buf}
    (hy : ∀ x ∈ y, x < 65536) (hu : ∀ x ∈ uv, x < 65536) {cx ux : Nat} (ly : cx + 8 ≤ y.length)
    (lu : ux + nvStep s 8 ≤ uv.length) (p : Nat) (row : Buf) :
    nv10Body md o s e .msb ch rg t y uv cx ux p row
      = put row p (stepPx (nv10Px md e ch rg t) (hdiv s) 8 o y uv cx ux) := by
  have hD : Deep 10 := .inl rfl
  obtain ⟨yr, e1, a1, a2⟩ := load16_at ly hy
  obtain ⟨r, e2, b1, c1⟩ := nvChroma8_at o e .msb hD lu hu
  unfold nv10Body
  rw [e1, Outcome.bind_ok, e2, Outcome.bind_ok]
  dsimp only
  rw [storeRgb_eq]
  unfold X86.pixels stepPx
  refine congrArg (put row p) (range_flatMap_congr fun j hj => ?_)
  have lt : ∀ {l : Buf} (k : Nat), (∀ x ∈ l, x < 65536) → nativeSample e .msb 10 (l.getD k 0) < 1024 :=
    fun k hl => nativeSample_msb_lt e (by decide) (getD_lt (by decide) hl)
  have hx : s16 (subsU16 (nativeReg e .msb 10 yr) (set1_16 (rg.biasY : Int))) j
      = ((nativeSample e .msb 10 (y.getD (cx + j) 0) - rg.biasY : Nat) : Int) := by
    rw [s16, w16_subsU (nativeReg_bytes e .msb 10 a2) hby, nativeReg_at e .msb hD a2 (by omega), a1 j hj]
    have := lt (cx + j) hy
    exact asI16_id (by omega) (by omega)
  have hc : ∀ (w : Reg) (k : Nat), w16 w j = nativeSample e .msb 10 (uv.getD k 0) →
      s16 (sub16 w (set1_16 (rg.biasUv : Int))) j = (nativeSample e .msb 10 (uv.getD k 0) : Int) - rg.biasUv := by
    intro w k h
    rw [s16_subBias, h, hbu]
    have := lt k hu
    exact asI16_id (by omega) (by omega)
  have ly' := lt (cx + j) hy
  have lu' := lt (ux + (2 * (j / hdiv s) + o.uPos)) hu
  have lv' := lt (ux + (2 * (j / hdiv s) + o.vPos)) hu
  obtain ⟨h1, h2, h3⟩ := nv10Kernel_at hx (hc _ _ (b1 j hj)) (hc _ _ (c1 j hj)) (by omega) (by omega)
    (by omega) ht
  rw [h1, h2, h3, show set1_8 255 j = 255 from rfl]
  simp only [nv10Px, nv10Pixel, nv10RGB]

theorem z65536 (N : Nat) : ∀ x ∈ List.replicate N 0, x < 65536 := by
  intro x hx; rw [List.eq_of_mem_replicate hx]; decide

/-- The end of a row of words through the stack buffers. -/
theorem nvTailWords_ok {ch : Channels} {px : Nat → Nat → Nat → Buf} (hpx : ∀ y u v, (px y u v).length = ch.count)
    {N : Nat} (hN : N % 2 = 0) (s : Sampling) (o : NVOrder) {w : Nat}
    {f : Buf → Buf → Buf → Outcome Buf} {y uv row : Buf}
    (hy : ∀ x ∈ y, x < 65536) (hu : ∀ x ∈ uv, x < 65536)
    (hf : ∀ y uv d : Buf, (∀ x ∈ y, x < 65536) → (∀ x ∈ uv, x < 65536) →
      y.length = N → uv.length = N * 2 → f y uv d = put d 0 (stepPx px (hdiv s) N o y uv 0 0))
    (ly : w ≤ y.length) (lu : 2 * ((w - 1) / hdiv s + 1) ≤ uv.length)
    (hw : w * ch.count ≤ row.length) {cx ux : Nat}
    (h1 : AtPair (hdiv s) cx ux) (h2 : cx ≤ w) (h3 : w ≤ cx + N) :
    ∃ ux', nvTailRow N s ch w f y uv (painted ch.count (X86.rowPx px (hdiv s) o y uv) cx row) cx ux
      = .ok (painted ch.count (X86.rowPx px (hdiv s) o y uv) w row, w, ux') := by
  unfold nvTailRow
  by_cases hlt : cx < w
  · rw [if_pos hlt]
    have hd : nvStep s (w - cx) ≤ N * 2 := by
      cases s <;> simp only [nvStep, chromaStep, ceil2] <;> omega
    obtain ⟨yb, ey, ly', y1, y2⟩ := copyIn_ok (src := y) (dst := List.replicate N 0) (p := cx)
      (n := w - cx) (by omega) (by simp; omega)
    obtain ⟨ub, eu, lu', u1, u2⟩ := copyIn_ok (src := uv) (dst := List.replicate (N * 2) 0) (p := ux)
      (n := nvStep s (w - cx)) (nv_tail_room h1 hlt lu) (by simp; omega)
    have e1 := hf yb ub (List.replicate (N * 4) 0)
      (fun x hx => (y2 x hx).elim (hy x) (z65536 N x))
      (fun x hx => (u2 x hx).elim (hu x) (z65536 _ x)) (by simpa using ly') (by simpa using lu')
    obtain ⟨db, p0, q0⟩ := tailPut hpx (le_refl N) (o := o) h1 h2 h3 y1 u1 hw
    refine ⟨ux + nvStep s (w - cx), ?_⟩
    simp only [ey, eu, e1, Outcome.bind_ok, if_neg (show ¬ N < w - cx by omega), p0, q0,
      Nat.add_sub_cancel' h2, Outcome.pure_eq]
  · rw [if_neg hlt]
    obtain rfl : cx = w := by omega
    exact ⟨ux, rfl⟩

theorem nv10Row_ok {md : Mode} (ht : Nv10Coef md t) (hby : rg.biasY < 65536) (hbu : rg.biasUv = 512)
    (o : NVOrder) (s : Sampling) (e : Endianness) (ch : Channels) {w : Nat} {y uv row : Buf}
    (hy : ∀ x ∈ y, x < 65536) (hu : ∀ x ∈ uv, x < 65536) (ly : w ≤ y.length)
    (lu : 2 * ((w - 1) / hdiv s + 1) ≤ uv.length) (hw : w * ch.count ≤ row.length) :
    ∃ ux, nv10Row md o s e .msb ch rg t w y uv row
      = .ok (painted ch.count (X86.rowPx (nv10Px md e ch rg t) (hdiv s) o y uv) w row, w, ux) := by
  obtain ⟨cx, ux, e1, _, h2, h3, h4⟩ := paintLoopI (step := 8) (ustep := nvStep s 8) (width := w)
    (cn := ch.count) (I := AtPair (hdiv s)) (by decide) (fun cx ux h => h.step rfl)
    (fun j => nv10Px_length md e ch rg t _ _ _) (pix := X86.rowPx (nv10Px md e ch rg t) (hdiv s) o y uv)
    (row := row) hw
    (body := fun cx ux row => nv10Body md o s e .msb ch rg t y uv cx ux (cx * ch.count) row)
    (cx0 := 0) (ux0 := 0) (AtPair.zero _)
    (by
      intro cx ux r _ hux hlt
      rw [← stepPx_row _ (hdiv_pos s) _ o y uv hux]
      exact nv10Body_eq ht hby hbu o s e ch hy hu (by omega) (nv_room hux rfl (by omega) lu (by decide)) _ _)
    (Nat.zero_le _)
  rw [painted_zero] at e1
  simp only [nv10Row, e1, Outcome.bind_ok]
  exact nvTailWords_ok (nv10Px_length md e ch rg t) rfl s o hy hu
    (fun y uv d hy hu ly lu => nv10Body_eq ht hby hbu o s e ch hy hu (by omega)
      (by cases s <;> simp only [nvStep, chromaStep, ceil2] <;> omega) _ _)
    ly lu hw h2 h3 h4

theorem nv10Handler_fills {md : Mode} (ht : Nv10Coef md t) (hby : rg.biasY < 65536) (hbu : rg.biasUv = 512)
    (o : NVOrder) (s : Sampling) (e : Endianness) (ch : Channels) {w : Nat} (px : Nat → Nat → Nat → Buf) :
    (nv10Handler md o s e .msb ch rg t w).FillsRow true 65536 ch.count w (hdiv s) o.uPos o.vPos px
      (fun x y fu fv p => p = nv10Px md e ch rg t y (fu x) (fv x)) := by
  intro y uv row fu fv hy hu ly lu hw hfu hfv
  obtain ⟨ux, e1⟩ := nv10Row_ok ht hby hbu o s e ch hy hu ly lu hw
  refine ⟨_, w, by simp only [nv10Handler, e1]; rfl,
    painted_done (X86.count_pos ch) (fun _ => nv10Px_length ..) hw (le_refl _) (.inr rfl) fun x hx => ?_,
    fun x h1 h2 => absurd h1.le (by omega)⟩
  dsimp only
  rw [hfu x hx, hfv x hx]

end Verif.Neon
