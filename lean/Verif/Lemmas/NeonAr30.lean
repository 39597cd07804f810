import Verif.Model.NeonAr30
import Verif.Spec.NeonAr30
import Verif.Lemmas.NeonNvP10
/-! # Rows of the 64-bit ARM decoders of P010 to 30-bit RGB -/
namespace Verif.Neon
open Spec X86

/-- The coefficients of the kernel. -/
def Ar30Coef (t : InvCoef) : Prop :=
  (0 ≤ t.y ∧ t.y ≤ 20000) ∧ (0 ≤ t.cb ∧ t.cb ≤ 65534) ∧
    (-32767 ≤ t.g1 ∧ t.g1 ≤ 32767) ∧ (-32767 ≤ t.g2 ∧ t.g2 ≤ 32767)

/-- One lane of an accumulation, when the sum stays in 32 bits. -/
theorem s32_mlalS_cast {o j : Nat} {acc v : Reg} {c L V : Int} (hl : s32 acc j = L) (hv : s16 v (o + j) = V)
    (hL : -1000000000 ≤ L ∧ L ≤ 1000000000) (hV : -1024 ≤ V ∧ V ≤ 1024) :
    s32 (mlalS o acc v c) j = L + V * int16 c := by
  have bi := int16_bounds c
  have m := mul_bounds (a := V) (t := int16 c) (A := 1024) (T := 32768) (by omega) (by omega)
  rw [mlalS, s32_mk32, hl, hv, show asI16 c = int16 c from rfl]
  generalize V * int16 c = p at *
  exact asI32_id (by omega) (by omega)

theorem w16_out {f : Nat → Reg} {k : Nat} {X : Int} (h : ∀ o j, o + j = k → s32 (f o) j = X + 16383) :
    w16 (minU16 (qshrunS 14 (f 0) (f 4)) (set1_16 (2 ^ 10 - 1))) k = neonAr30Comp X := by
  have e : (if k < 4 then s32 (f 0) k / 2 ^ 14 else s32 (f 4) (k - 4) / 2 ^ 14) = (X + 16383) / 2 ^ 14 := by
    by_cases h4 : k < 4
    · rw [if_pos h4, h 0 k (by omega)]
    · rw [if_neg h4, h 4 (k - 4) (by omega)]
  have hx : w16 (qshrunS 14 (f 0) (f 4)) k = satU16 ((X + 16383) / 2 ^ 14) := by
    rw [qshrunS, w16_mk16, e]
    unfold satU16 asU16; omega
  have h1 : w16 (set1_16 (2 ^ 10 - 1)) k = 1023 := by
    rw [show ((2 : Int) ^ 10 - 1) = ((1023 : Nat) : Int) by norm_num, w16_set1 (by decide)]
  rw [minU16, w16_mk16, hx, h1]
  unfold neonAr30Comp saturate satU16 asU16
  generalize (X + 16383) / 2 ^ 14 = z
  norm_num only
  omega

section
variable {t : InvCoef} {y u v : Reg} {k : Nat} {Y cb cr : Int}
  (hy : s16 y k = Y) (hu : s16 u k = cb) (hv : s16 v k = cr)
  (bY : 0 ≤ Y ∧ Y ≤ 1023) (bu : -512 ≤ cb ∧ cb ≤ 511) (bv : -512 ≤ cr ∧ cr ≤ 511)
include hy hu hv bY bu bv

theorem ar30Words_at (ht : Ar30Coef t) :
    w16 (ar30Words t y u v).1 k = neonAr30Comp (Y * t.y + cr * int16 t.cr) ∧
    w16 (ar30Words t y u v).2.1 k = neonAr30Comp (Y * t.y - cr * t.g1 - cb * t.g2) ∧
    w16 (ar30Words t y u v).2.2 k = neonAr30Comp (Y * t.y + cb * t.cb) := by
  obtain ⟨t1, t3, t4, t5⟩ := ht
  have m0 := mul_bounds (a := Y) (t := t.y) (A := 1023) (T := 20000) (by omega) (by omega)
  have m2 := mul_bounds (a := cb) (t := t.cb - 32767) (A := 512) (T := 32767) (by omega) (by omega)
  have m3 := mul_bounds (a := cr) (t := -t.g1) (A := 512) (T := 32767) (by omega) (by omega)
  norm_num only at m0 m2 m3
  have n1 : Y * t.y - cr * t.g1 - cb * t.g2 = Y * t.y + cr * -t.g1 + cb * -t.g2 := by ring
  have n2 : cb * t.cb = cb * (t.cb - 32767) + cb * 32767 := by ring
  have lane : ∀ {o j : Nat}, o + j = k → ∀ w : Reg, s16 w (o + j) = s16 w k := fun h w => by rw [h]
  have base : ∀ j, s32 (set1_32 (2 ^ 14 - 1)) j = 16383 := fun j => by rw [s32_set1]; decide
  have ey : int16 t.y = t.y := asI16_id (by omega) (by omega)
  have eb : int16 (t.cb - 32767) = t.cb - 32767 := asI16_id (by omega) (by omega)
  have e1 : int16 (-t.g1) = -t.g1 := asI16_id (by omega) (by omega)
  have e2 : int16 (-t.g2) = -t.g2 := asI16_id (by omega) (by omega)
  have e3 : int16 32767 = 32767 := by decide
  have sl : ∀ {o j : Nat}, o + j = k → s32 (mlalS o (set1_32 (2 ^ 14 - 1)) y t.y) j = 16383 + Y * t.y := by
    intro o j h
    rw [s32_mlalS_cast (base _) ((lane h y).trans hy) (by omega) (by omega), ey]
  rw [n1, n2]
  generalize hL : Y * t.y = L at *
  have bA : -1000000000 ≤ 16383 + L + cr * -t.g1 ∧ 16383 + L + cr * -t.g1 ≤ 1000000000 := by
    constructor <;> linarith [m0.1, m0.2, m3.1, m3.2]
  have bB : -1000000000 ≤ 16383 + L + cb * (t.cb - 32767) ∧ 16383 + L + cb * (t.cb - 32767) ≤ 1000000000 := by
    constructor <;> linarith [m0.1, m0.2, m2.1, m2.2]
  refine ⟨w16_out (f := fun o => mlalS o (mlalS o (set1_32 (2 ^ 14 - 1)) y t.y) v t.cr) fun o j h => ?_,
    w16_out (f := fun o => mlalS o (mlalS o (mlalS o (set1_32 (2 ^ 14 - 1)) y t.y) v (-t.g1)) u (-t.g2))
      fun o j h => ?_,
    w16_out (f := fun o => mlalS o (mlalS o (mlalS o (set1_32 (2 ^ 14 - 1)) y t.y) u (t.cb - 32767)) u 32767)
      fun o j h => ?_⟩
  · rw [s32_mlalS_cast (sl h) ((lane h v).trans hv) (by omega) (by omega)]; ring
  · have s1 := s32_mlalS_cast (c := -t.g1) (sl h) ((lane h v).trans hv) (by omega) (by omega)
    rw [e1] at s1
    rw [s32_mlalS_cast s1 ((lane h u).trans hu) bA (by omega), e2]
    ring
  · have s1 := s32_mlalS_cast (c := t.cb - 32767) (sl h) ((lane h u).trans hu) (by omega) (by omega)
    rw [eb] at s1
    rw [s32_mlalS_cast s1 ((lane h u).trans hu) bB (by omega), e3]
    ring
end

/-! ## Rows -/

variable {rg : ChromaRange} {t : InvCoef}

/-- The pixel of three stored words. -/
def ar30Px (ob : ByteOrder30) (l : Rgb30) (e : Endianness) (c : ChromaRange) (t : InvCoef) (y u v : Nat) : Buf :=
  let p := neonAr30RGB c t (nativeSample e .msb 10 y) (nativeSample e .msb 10 u) (nativeSample e .msb 10 v)
  neBytes .little (zipAr30 ob l p.1 p.2.1 p.2.2)

theorem ar30Px_length (ob : ByteOrder30) (l : Rgb30) (e : Endianness) (c : ChromaRange) (t : InvCoef)
    (y u v : Nat) : (ar30Px ob l e c t y u v).length = Channels.rgba.count := rfl

theorem ar30Four_two (ob : ByteOrder30) (l : Rgb30) (c : Reg × Reg × Reg) :
    ar30Four ob l c 0 ++ ar30Four ob l c 4 = (List.range 8).flatMap fun j =>
      neBytes .little (zipAr30 ob l (w16 c.1 j) (w16 c.2.1 j) (w16 c.2.2 j)) := by
  unfold ar30Four
  rw [show List.range 8 = List.range 4 ++ (List.range 4).map (4 + ·) from rfl, List.flatMap_append, List.flatMap_map]
  simp only [Nat.zero_add]

theorem ar30Four_length (ob : ByteOrder30) (l : Rgb30) (c : Reg × Reg × Reg) (k : Nat) :
    (ar30Four ob l c k).length = 4 * 4 := flatMap_length fun _ _ => rfl

theorem ar30Body_eq (ht : Ar30Coef t) (hby : rg.biasY < 65536) (hbu : rg.biasUv = 512)
    (ob : ByteOrder30) (l : Rgb30) (o : NVOrder) (s : Sampling) (e : Endianness) {y uv : Buf}
    (hy : ∀ x ∈ y, x < 65536) (hu : ∀ x ∈ uv, x < 65536) {cx ux : Nat} (ly : cx + 8 ≤ y.length)
    (lu : ux + nvStep s 8 ≤ uv.length) (p : Nat) (row : Buf) :
    ar30Body ob l o s e .msb rg t y uv cx ux p row
      = put row p (stepPx (ar30Px ob l e rg t) (hdiv s) 8 o y uv cx ux) := by
  have hD : Deep 10 := .inl rfl
  obtain ⟨yr, e1, a1, a2⟩ := load16_at ly hy
  obtain ⟨r, e2, b1, c1⟩ := nvChroma8_at o e .msb hD lu hu
  unfold ar30Body
  rw [e1, Outcome.bind_ok, e2, Outcome.bind_ok]
  dsimp only
  rw [put_put _ _ _ _ _ (by rw [ar30Four_length]), ar30Four_two]
  unfold stepPx
  refine congrArg (put row p) (range_flatMap_congr fun j hj => ?_)
  have lt : ∀ {l : Buf} (k : Nat), (∀ x ∈ l, x < 65536) → nativeSample e .msb 10 (l.getD k 0) < 1024 :=
    fun k hl => nativeSample_msb_lt e (by decide) (getD_lt (by decide) hl)
  have hx : s16 (subsU16 (nativeReg e .msb 10 yr) (set1_16 (rg.biasY : Int))) j
      = ((nativeSample e .msb 10 (y.getD (cx + j) 0) - rg.biasY : Nat) : Int) := by
    rw [s16, w16_subsU (nativeReg_bytes e .msb 10 a2) hby, nativeReg_at e .msb hD a2 (by omega), a1 j hj]
    have := lt (cx + j) hy
    exact asI16_id (by omega) (by omega)
  have hc : ∀ (w : Reg) (k : Nat), w16 w j = nativeSample e .msb 10 (uv.getD k 0) →
      s16 (sub16 w (set1_16 (rg.biasUv : Int))) j = (nativeSample e .msb 10 (uv.getD k 0) : Int) - rg.biasUv := by
    intro w k h
    rw [s16_subBias, h, hbu]
    have := lt k hu
    exact asI16_id (by omega) (by omega)
  have ly' := lt (cx + j) hy
  have lu' := lt (ux + (2 * (j / hdiv s) + o.uPos)) hu
  have lv' := lt (ux + (2 * (j / hdiv s) + o.vPos)) hu
  obtain ⟨h1, h2, h3⟩ := ar30Words_at hx (hc _ _ (b1 j hj)) (hc _ _ (c1 j hj)) (by omega) (by omega)
    (by omega) ht
  rw [h1, h2, h3]
  simp only [ar30Px, neonAr30RGB]

theorem ar30Row_ok (ht : Ar30Coef t) (hby : rg.biasY < 65536) (hbu : rg.biasUv = 512)
    (ob : ByteOrder30) (l : Rgb30) (o : NVOrder) (s : Sampling) (e : Endianness) {w : Nat} {y uv row : Buf}
    (hy : ∀ x ∈ y, x < 65536) (hu : ∀ x ∈ uv, x < 65536) (ly : w ≤ y.length)
    (lu : 2 * ((w - 1) / hdiv s + 1) ≤ uv.length) (hw : w * 4 ≤ row.length) :
    ∃ ux, ar30Row ob l o s e .msb rg t w y uv row
      = .ok (painted 4 (X86.rowPx (ar30Px ob l e rg t) (hdiv s) o y uv) w row, w, ux) := by
  obtain ⟨cx, ux, e1, _, h2, h3, h4⟩ := paintLoopI (step := 8) (ustep := nvStep s 8) (width := w)
    (cn := 4) (I := AtPair (hdiv s)) (by decide) (fun cx ux h => h.step rfl)
    (fun j => ar30Px_length ob l e rg t _ _ _) (pix := X86.rowPx (ar30Px ob l e rg t) (hdiv s) o y uv)
    (row := row) hw
    (body := fun cx ux row => ar30Body ob l o s e .msb rg t y uv cx ux (cx * 4) row)
    (cx0 := 0) (ux0 := 0) (AtPair.zero _)
    (by
      intro cx ux r _ hux hlt
      rw [← stepPx_row _ (hdiv_pos s) _ o y uv hux]
      exact ar30Body_eq ht hby hbu ob l o s e hy hu (by omega) (nv_room hux rfl (by omega) lu (by decide)) _ _)
    (Nat.zero_le _)
  rw [painted_zero] at e1
  simp only [ar30Row, e1, Outcome.bind_ok]
  exact nvTailWords_ok (ch := .rgba) (ar30Px_length ob l e rg t) rfl s o hy hu
    (fun y uv d hy hu ly lu => ar30Body_eq ht hby hbu ob l o s e hy hu (by omega)
      (by cases s <;> simp only [nvStep, chromaStep, ceil2] <;> omega) _ _)
    ly lu hw h2 h3 h4

theorem ar30Handler_fills (ht : Ar30Coef t) (hby : rg.biasY < 65536) (hbu : rg.biasUv = 512)
    (ob : ByteOrder30) (l : Rgb30) (o : NVOrder) (s : Sampling) (e : Endianness) {w : Nat}
    (px : Nat → Nat → Nat → Buf) :
    (ar30Handler ob l o s e .msb rg t w).FillsRow true 65536 4 w (hdiv s) o.uPos o.vPos px
      (fun x y fu fv p => p = ar30Px ob l e rg t y (fu x) (fv x)) := by
  intro y uv row fu fv hy hu ly lu hw hfu hfv
  obtain ⟨ux, e1⟩ := ar30Row_ok ht hby hbu ob l o s e hy hu ly lu hw
  refine ⟨_, w, by simp only [ar30Handler, e1]; rfl,
    painted_done (by decide) (fun _ => ar30Px_length ..) hw (le_refl _) (.inr rfl) fun x hx => ?_,
    fun x h1 h2 => absurd h1.le (by omega)⟩
  dsimp only
  rw [hfu x hx, hfv x hx]

end Verif.Neon
