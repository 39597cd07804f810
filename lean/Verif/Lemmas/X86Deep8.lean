import Verif.Model.X86Deep8
import Verif.Spec.VecDeep8
import Verif.Lemmas.X86DeepRows
import Verif.Lemmas.X86YuyRgb
/-! # Rows of the x86 decoders of 10- and 12-bit images to 8 bits -/
namespace Verif.X86
open Spec

/-- Pixel `x` of a row of planar samples, by a function of the column and the samples. -/
def rowAt (pix : Nat → Nat → Nat → Nat → Buf) (hd : Nat) (y u v : Buf) (x : Nat) : Buf :=
  pix x (y.getD x 0) (u.getD (x / hd) 0) (v.getD (x / hd) 0)

theorem stepAt_row (pix : Nat → Nat → Nat → Nat → Buf) {hd : Nat} (hhd : 0 < hd) (n : Nat)
    (y u v : Buf) {cx ux : Nat} (h : ux * hd = cx) :
    ((List.range n).flatMap fun j =>
      pix (cx + j) (y.getD (cx + j) 0) (u.getD (ux + j / hd) 0) (v.getD (ux + j / hd) 0))
      = (List.range n).flatMap fun j => rowAt pix hd y u v (cx + j) := by
  subst h
  apply range_flatMap_congr
  intro j _
  have e : (ux * hd + j) / hd = ux + j / hd := by
    rw [Nat.add_comm, Nat.add_mul_div_right _ _ hhd, Nat.add_comm]
  simp only [rowAt, e]

/-! ## Arithmetic -/

theorem s16_srai16 (n : Nat) (a : Reg) (k : Nat) : s16 (srai16 n a) k = s16 a k / 2 ^ n := by
  have h := s16_bounds a k
  have hp : (1 : Int) ≤ 2 ^ n := one_le_pow₀ (by norm_num)
  rw [srai16, s16_mk16]
  have h1 : s16 a k / 2 ^ n ≤ 32767 := by
    apply Int.le_of_lt_add_one
    apply Int.ediv_lt_of_lt_mul (by omega)
    nlinarith
  have h2 : -32768 ≤ s16 a k / 2 ^ n := by
    apply Int.le_ediv_of_mul_le (by omega)
    nlinarith
  exact asI16_id h2 h1

theorem storeShr_at {d : Nat} (hd : d = 10 ∨ d = 12) (a : Reg) (k : Nat) :
    s16 (storeShr d a) k = s16 a k / 2 ^ (d - 8) := by
  rcases hd with rfl | rfl
  · exact s16_srai16 2 a k
  · exact s16_srai16 4 a k

theorem s16_slliLuma (a : Reg) {x : Int} {k : Nat} (h : int16 (w16 a k) = int16 x) :
    s16 (slli16 2 a) k = int16 (4 * x) := by
  rw [s16, w16_slli]
  generalize w16 a k = n at *
  unfold int16 asI16 at *
  omega

/-- The three shifted words of lane `k`. -/
theorem deep8Rgb_at {d : Nat} (hd : d = 10 ∨ d = 12) {c : ChromaRange} {t : InvCoef} (ht : DeepCoef t)
    (hbu : c.biasUv < 65536) (yo u v : Reg) {x : Int} {k : Nat} (hx : int16 (w16 yo k) = int16 x) :
    satU8 (s16 (deep8Rgb d c t yo u v).1 k) = (deep8RGB d c t x (w16 u k) (w16 v k)).1 ∧
    satU8 (s16 (deep8Rgb d c t yo u v).2.1 k) = (deep8RGB d c t x (w16 u k) (w16 v k)).2.1 ∧
    satU8 (s16 (deep8Rgb d c t yo u v).2.2 k) = (deep8RGB d c t x (w16 u k) (w16 v k)).2.2 := by
  obtain ⟨t1, t2, t3, t4, t5⟩ := ht
  have el : s16 (mulhrs16 (slli16 2 yo) (set1_16 (asI16 t.y))) k = mulRound (int16 (4 * x)) t.y := by
    rw [asI16_coef (by omega), s16_mulhrs_any _ (by omega), s16_slliLuma yo hx]
  refine ⟨?_, ?_, ?_⟩
  · simp only [deep8Rgb, deep8RGB]
    rw [storeShr_at hd, s16_add, el, asI16_coef t2, s16_mulhrs_any _ (by omega), s16_slliSub hbu]
    rfl
  · simp only [deep8Rgb, deep8RGB]
    rw [storeShr_at hd, s16_add, s16_add, el, asI16_coef t4, asI16_coef t5,
      s16_mulhrs_any _ (by omega), s16_mulhrs_any _ (by omega), s16_slliSub hbu, s16_slliSub hbu,
      int16_add3]
    rfl
  · simp only [deep8Rgb, deep8RGB]
    rw [storeShr_at hd, s16_add, el, asI16_coef t3, s16_mulhrs_any _ (by omega), s16_slliSub hbu]
    rfl

/-- The bytes of the alpha register. -/
theorem wordAlpha_at {d : Nat} (hd : d = 10 ∨ d = 12) {cx : Nat} (hcx : cx % 2 = 0) (j : Nat) :
    set1_16 (2 ^ d - 1) j = wordAlpha d (cx + j) := by
  have e : (cx + j) % 2 = j % 2 := by omega
  unfold set1_16 mk16 wordAlpha
  rw [e]
  have e1 : asU16 (2 ^ 10 - 1) = 1023 := by decide
  have e2 : asU16 (2 ^ 12 - 1) = 4095 := by decide
  rcases hd with rfl | rfl
  · simp only [e1]
  · simp only [e2]

variable {rg : ChromaRange} {t : InvCoef}

/-- The pixel of three stored words. -/
def words8Pix (e : Endianness) (bp : BytesPacking) (d : Nat) (ch : Channels) (c : ChromaRange)
    (t : InvCoef) (x y u v : Nat) : Buf :=
  deep8VecPixel d ch c t x (nativeSample e bp d y) (nativeSample e bp d u) (nativeSample e bp d v)

theorem words8Pix_length (e : Endianness) (bp : BytesPacking) (d : Nat) (ch : Channels)
    (c : ChromaRange) (t : InvCoef) (x y u v : Nat) :
    (words8Pix e bp d ch c t x y u v).length = ch.count := layout_length' ..

theorem sseDeep8Body_eq (s : Sampling) (e : Endianness) (bp : BytesPacking) {d : Nat}
    (hd : d = 10 ∨ d = 12) (ch : Channels) (ht : DeepCoef t) (hby : rg.biasY < 65536)
    (hbu : rg.biasUv < 65536) {y u v : Buf} (hy : ∀ x ∈ y, x < 65536) (hu : ∀ x ∈ u, x < 65536)
    (hv : ∀ x ∈ v, x < 65536) {cx ux : Nat} (hcx : cx % 2 = 0) (ly : cx + 8 ≤ y.length)
    (lu : ux + chromaStep s 8 ≤ u.length) (lv : ux + chromaStep s 8 ≤ v.length) (p : Nat) (row : Buf) :
    sseDeep8Body s e bp d ch rg t y u v cx ux p row
      = put row p ((List.range 8).flatMap fun j => words8Pix e bp d ch rg t (cx + j)
          (y.getD (cx + j) 0) (u.getD (ux + j / hdiv s) 0) (v.getD (ux + j / hdiv s) 0)) := by
  have hD : Deep d := hd.elim .inl fun h => .inr (.inl h)
  obtain ⟨yr, e1, a1, a2⟩ := load16_at ly hy
  obtain ⟨ur, e2, b1⟩ := sseDeepChroma_at e bp hD lu hu
  obtain ⟨vr, e3, c1⟩ := sseDeepChroma_at e bp hD lv hv
  unfold sseDeep8Body
  rw [e1, Outcome.bind_ok, e2, Outcome.bind_ok, e3, Outcome.bind_ok, sseStoreHalf_eq]
  unfold pixels
  refine congrArg (put row p) (range_flatMap_congr fun j hj => ?_)
  have hx : int16 (w16 (subsU16 (nativeReg e bp d yr) (set1_16 (rg.biasY : Int))) j)
      = int16 ((nativeSample e bp d (y.getD (cx + j) 0) - rg.biasY : Nat) : Int) := by
    rw [w16_subsU (nativeReg_bytes e bp d a2) hby, nativeReg_at e bp hD a2 (by omega), a1 j hj]
  obtain ⟨h1, h2, h3⟩ := deep8Rgb_at hd ht hbu _ ur vr hx
  rw [packus_low hj, packus_low hj, packus_low hj, h1, h2, h3, wordAlpha_at hd hcx, b1 j hj, c1 j hj]
  rfl

theorem avx2Deep8Body_eq (s : Sampling) (e : Endianness) (bp : BytesPacking) {d : Nat}
    (hd : d = 10 ∨ d = 12) (ch : Channels) (ht : DeepCoef t) (hby : rg.biasY < 65536)
    (hbu : rg.biasUv < 65536) {y u v : Buf} (hy : ∀ x ∈ y, x < 65536) (hu : ∀ x ∈ u, x < 65536)
    (hv : ∀ x ∈ v, x < 65536) {cx ux : Nat} (hcx : cx % 2 = 0) (ly : cx + 16 ≤ y.length)
    (lu : ux + chromaStep s 16 ≤ u.length) (lv : ux + chromaStep s 16 ≤ v.length) (p : Nat) (row : Buf) :
    avx2Deep8Body s e bp d ch rg t y u v cx ux p row
      = put row p ((List.range 16).flatMap fun j => words8Pix e bp d ch rg t (cx + j)
          (y.getD (cx + j) 0) (u.getD (ux + j / hdiv s) 0) (v.getD (ux + j / hdiv s) 0)) := by
  have hD : Deep d := hd.elim .inl fun h => .inr (.inl h)
  obtain ⟨yr, e1, a1, a2⟩ := load16_at ly hy
  obtain ⟨ur, e2, b1⟩ := avx2DeepChroma_at e bp hD lu hu
  obtain ⟨vr, e3, c1⟩ := avx2DeepChroma_at e bp hD lv hv
  unfold avx2Deep8Body
  rw [e1, Outcome.bind_ok, e2, Outcome.bind_ok, e3, Outcome.bind_ok, avx2StoreHalf_eq]
  unfold pixels
  refine congrArg (put row p) (range_flatMap_congr fun j hj => ?_)
  have hx : int16 (w16 (subsU16 (nativeReg e bp d yr) (set1_16 (rg.biasY : Int))) j)
      = int16 ((nativeSample e bp d (y.getD (cx + j) 0) - rg.biasY : Nat) : Int) := by
    rw [w16_subsU (nativeReg_bytes e bp d a2) hby, nativeReg_at e bp hD a2 (by omega), a1 j hj]
  obtain ⟨h1, h2, h3⟩ := deep8Rgb_at hd ht hbu _ ur vr hx
  have h32 : j < 32 := by omega
  rw [avx2PackU16_at _ _ h32, avx2PackU16_at _ _ h32, avx2PackU16_at _ _ h32, if_pos hj, if_pos hj,
    if_pos hj, h1, h2, h3, wordAlpha_at hd hcx, b1 j hj, c1 j hj]
  rfl

theorem avx2Deep8Body2_eq (s : Sampling) (e : Endianness) (bp : BytesPacking) {d : Nat}
    (hd : d = 10 ∨ d = 12) (ch : Channels) (ht : DeepCoef t) (hby : rg.biasY < 65536)
    (hbu : rg.biasUv < 65536) {y u v : Buf} (hy : ∀ x ∈ y, x < 65536) (hu : ∀ x ∈ u, x < 65536)
    (hv : ∀ x ∈ v, x < 65536) {cx ux : Nat} (hcx : cx % 2 = 0) (ly : cx + 32 ≤ y.length)
    (lu : ux + chromaStep s 32 ≤ u.length) (lv : ux + chromaStep s 32 ≤ v.length) (p : Nat) (row : Buf) :
    avx2Deep8Body2 s e bp d ch rg t y u v cx ux p row
      = put row p ((List.range 32).flatMap fun j => words8Pix e bp d ch rg t (cx + j)
          (y.getD (cx + j) 0) (u.getD (ux + j / hdiv s) 0) (v.getD (ux + j / hdiv s) 0)) := by
  have hD : Deep d := hd.elim .inl fun h => .inr (.inl h)
  obtain ⟨y0, e0, a1, a2⟩ := load16_at (p := cx) (n := 16) (by omega) hy
  obtain ⟨y1, e1, a3, a4⟩ := load16_at (p := cx + 16) (n := 16) (by omega) hy
  obtain ⟨ur, e2, b1, b2⟩ := avx2DeepChroma2_at e bp hD lu hu
  obtain ⟨vr, e3, c1, c2⟩ := avx2DeepChroma2_at e bp hD lv hv
  unfold avx2Deep8Body2
  rw [e0, Outcome.bind_ok, e1, Outcome.bind_ok, e2, Outcome.bind_ok, e3, Outcome.bind_ok, avx2Store_eq]
  unfold pixels
  refine congrArg (put row p) (range_flatMap_congr fun j hj => ?_)
  rw [avx2PackU16_at _ _ hj, avx2PackU16_at _ _ hj, avx2PackU16_at _ _ hj, wordAlpha_at hd hcx]
  by_cases h16 : j < 16
  · have hx : int16 (w16 (subsU16 (nativeReg e bp d y0) (set1_16 (rg.biasY : Int))) j)
        = int16 ((nativeSample e bp d (y.getD (cx + j) 0) - rg.biasY : Nat) : Int) := by
      rw [w16_subsU (nativeReg_bytes e bp d a2) hby, nativeReg_at e bp hD a2 (by omega), a1 j h16]
    obtain ⟨h1, h2, h3⟩ := deep8Rgb_at hd ht hbu _ ur.1 vr.1 hx
    rw [if_pos h16, if_pos h16, if_pos h16, h1, h2, h3, b1 j h16, c1 j h16]
    rfl
  · obtain ⟨k, rfl⟩ : ∃ k, j = 16 + k := ⟨j - 16, by omega⟩
    have hk : k < 16 := by omega
    have hx : int16 (w16 (subsU16 (nativeReg e bp d y1) (set1_16 (rg.biasY : Int))) k)
        = int16 ((nativeSample e bp d (y.getD (cx + (16 + k)) 0) - rg.biasY : Nat) : Int) := by
      rw [w16_subsU (nativeReg_bytes e bp d a4) hby, nativeReg_at e bp hD a4 (by omega), a3 k hk,
        Nat.add_assoc]
    obtain ⟨h1, h2, h3⟩ := deep8Rgb_at hd ht hbu _ ur.2 vr.2 hx
    rw [if_neg h16, if_neg h16, if_neg h16, Nat.add_sub_cancel_left, h1, h2, h3, b2 k hk, c2 k hk]
    rfl

/-! ## Rows -/

theorem sseDeep8Row_ok (s : Sampling) (e : Endianness) (bp : BytesPacking) {d : Nat}
    (hd : d = 10 ∨ d = 12) (ch : Channels) (ht : DeepCoef t) (hby : rg.biasY < 65536)
    (hbu : rg.biasUv < 65536) {w : Nat} {y u v row : Buf}
    (hy : ∀ x ∈ y, x < 65536) (hu : ∀ x ∈ u, x < 65536) (hv : ∀ x ∈ v, x < 65536)
    (ly : w ≤ y.length) (lu : (w - 1) / hdiv s + 1 ≤ u.length)
    (lv : (w - 1) / hdiv s + 1 ≤ v.length) (hw : w * ch.count ≤ row.length) {cx ux : Nat}
    (h0 : ux * hdiv s = cx) (hcx : cx ≤ w) (h8 : cx % 8 = 0) (hlt : cx = 0 ∨ cx < w) (wpos : 0 < w) :
    ∃ ux', sseDeep8Row s e bp d ch rg t w y u v
        (painted ch.count (rowAt (words8Pix e bp d ch rg t) (hdiv s) y u v) cx row) cx ux
      = .ok (painted ch.count (rowAt (words8Pix e bp d ch rg t) (hdiv s) y u v) (8 * ((w - 1) / 8)) row,
        8 * ((w - 1) / 8), ux') := by
  have hp := words8Pix_length e bp d ch rg t
  obtain ⟨cx', ux', e1, h1, h2, h3, h4⟩ := paintLoopI (step := 8) (ustep := chromaStep s 8) (width := w)
    (cn := ch.count) (I := fun cx ux => ux * hdiv s = cx ∧ cx % 8 = 0) (by decide)
    (fun cx ux g => ⟨by rw [Nat.add_mul, g.1, chromaStep_hdiv s rfl], by omega⟩)
    (pix := rowAt (words8Pix e bp d ch rg t) (hdiv s) y u v) (fun _ => hp ..)
    (row := row) hw
    (body := fun cx ux row => sseDeep8Body s e bp d ch rg t y u v cx ux (cx * ch.count) row)
    (cx0 := cx) (ux0 := ux) ⟨h0, h8⟩
    (by
      intro cx ux r _ hux hlt
      rw [← stepAt_row _ (hdiv_pos s) _ y u v hux.1]
      exact sseDeep8Body_eq s e bp hd ch ht hby hbu hy hu hv (by omega) (by omega)
        (chroma_room hux.1 rfl (by omega) lu (by decide)) (chroma_room hux.1 rfl (by omega) lv (by decide))
        _ _)
    hcx
  have e : cx' = 8 * ((w - 1) / 8) := by
    rw [h1, loopEnd]; omega
  rw [← e]
  exact ⟨ux', e1⟩

theorem avx2Deep8Row_ok (s : Sampling) (e : Endianness) (bp : BytesPacking) {d : Nat}
    (hd : d = 10 ∨ d = 12) (ch : Channels) (ht : DeepCoef t) (hby : rg.biasY < 65536)
    (hbu : rg.biasUv < 65536) {w : Nat} {y u v row : Buf}
    (hy : ∀ x ∈ y, x < 65536) (hu : ∀ x ∈ u, x < 65536) (hv : ∀ x ∈ v, x < 65536)
    (ly : w ≤ y.length) (lu : (w - 1) / hdiv s + 1 ≤ u.length)
    (lv : (w - 1) / hdiv s + 1 ≤ v.length) (hw : w * ch.count ≤ row.length) (wpos : 0 < w) :
    ∃ ux, avx2Deep8Row s e bp d ch rg t w y u v row 0 0
      = .ok (painted ch.count (rowAt (words8Pix e bp d ch rg t) (hdiv s) y u v) (16 * ((w - 1) / 16)) row,
        16 * ((w - 1) / 16), ux) ∧ ux * hdiv s = 16 * ((w - 1) / 16) := by
  have hp := words8Pix_length e bp d ch rg t
  obtain ⟨cx, ux, e1, h1, h2, h3, h4⟩ := paintLoopI (step := 32) (ustep := chromaStep s 32) (width := w)
    (cn := ch.count) (I := fun cx ux => ux * hdiv s = cx ∧ cx % 2 = 0) (by decide)
    (fun cx ux g => ⟨by rw [Nat.add_mul, g.1, chromaStep_hdiv s rfl], by omega⟩)
    (pix := rowAt (words8Pix e bp d ch rg t) (hdiv s) y u v) (fun _ => hp ..)
    (row := row) hw
    (body := fun cx ux row => avx2Deep8Body2 s e bp d ch rg t y u v cx ux (cx * ch.count) row)
    (cx0 := 0) (ux0 := 0) ⟨Nat.zero_mul _, rfl⟩
    (by
      intro cx ux r _ hux hlt
      rw [← stepAt_row _ (hdiv_pos s) _ y u v hux.1]
      exact avx2Deep8Body2_eq s e bp hd ch ht hby hbu hy hu hv hux.2 (by omega)
        (chroma_room hux.1 rfl (by omega) lu (by decide)) (chroma_room hux.1 rfl (by omega) lv (by decide))
        _ _)
    (Nat.zero_le _)
  rw [painted_zero] at e1
  obtain ⟨cx', ux', e2, g1, g2, g3, g4⟩ := paintLoopI (step := 16) (ustep := chromaStep s 16) (width := w)
    (cn := ch.count) (I := fun cx ux => ux * hdiv s = cx ∧ cx % 2 = 0) (by decide)
    (fun cx ux g => ⟨by rw [Nat.add_mul, g.1, chromaStep_hdiv s rfl], by omega⟩)
    (pix := rowAt (words8Pix e bp d ch rg t) (hdiv s) y u v) (fun _ => hp ..)
    (row := row) hw
    (body := fun cx ux row => avx2Deep8Body s e bp d ch rg t y u v cx ux (cx * ch.count) row)
    (cx0 := cx) (ux0 := ux) h2
    (by
      intro cx ux r _ hux hlt
      rw [← stepAt_row _ (hdiv_pos s) _ y u v hux.1]
      exact avx2Deep8Body_eq s e bp hd ch ht hby hbu hy hu hv hux.2 (by omega)
        (chroma_room hux.1 rfl (by omega) lu (by decide)) (chroma_room hux.1 rfl (by omega) lv (by decide))
        _ _)
    h3
  have e3 : cx' = 16 * ((w - 1) / 16) := by
    rw [g1, h1]; unfold loopEnd; omega
  unfold avx2Deep8Row
  rw [e1, Outcome.bind_ok, ← e3]
  exact ⟨ux', e2, g2.1⟩

/-! ## The contract -/

/-- The pixel of three stored words in column `x` of a row of `w` pixels; `px` is the portable
decoding. -/
def cpuDeep8 (cpu : Cpu) (e : Endianness) (bp : BytesPacking) (d : Nat) (ch : Channels)
    (rg : ChromaRange) (t : InvCoef) (w : Nat) (px : Nat → Nat → Nat → Buf) (x y u v : Nat) : Buf :=
  if cpu ≠ .plain ∧ x < 8 * ((w - 1) / 8) then words8Pix e bp d ch rg t x y u v else px y u v

theorem deep8Handler_fills (cpu : Cpu) (s : Sampling) (e : Endianness) (bp : BytesPacking) {d : Nat}
    (hd : d = 10 ∨ d = 12) (ch : Channels) (ht : DeepCoef t) (hby : rg.biasY < 65536)
    (hbu : rg.biasUv < 65536) {w : Nat} (wpos : 0 < w) (px : Nat → Nat → Nat → Buf) :
    (deep8Handler cpu s e bp d ch rg t w).Fills false 65536 ch.count w (hdiv s) px
      (fun x y u v p => p = cpuDeep8 cpu e bp d ch rg t w px x y u v) := by
  intro y u v row hy hu hv ly lu lv hw
  have hp := words8Pix_length e bp d ch rg t
  by_cases hc : cpu = .plain
  · subst hc
    exact ⟨row, 0, rfl, ⟨Nat.zero_le _, .inl (Nat.zero_mod _), rfl,
      fun x _ hx => absurd hx (Nat.not_lt_zero _), fun _ _ => rfl⟩, fun x _ _ => rfl⟩
  have key : ∃ ux, deep8Handler cpu s e bp d ch rg t w y u v row
      = done (.ok (painted ch.count (rowAt (words8Pix e bp d ch rg t) (hdiv s) y u v)
          (8 * ((w - 1) / 8)) row, 8 * ((w - 1) / 8), ux)) := by
    cases cpu with
    | plain => exact absurd rfl hc
    | sse41 =>
      obtain ⟨ux, e1⟩ := sseDeep8Row_ok s e bp hd ch ht hby hbu hy hu hv ly lu lv hw (cx := 0) (ux := 0)
        (Nat.zero_mul _) (Nat.zero_le _) rfl (.inl rfl) wpos
      rw [painted_zero] at e1
      exact ⟨ux, congrArg done e1⟩
    | avx2 =>
      obtain ⟨ux, e1, h1⟩ := avx2Deep8Row_ok s e bp hd ch ht hby hbu hy hu hv ly lu lv hw wpos
      obtain ⟨ux', e2⟩ := sseDeep8Row_ok s e bp hd ch ht hby hbu hy hu hv ly lu lv hw h1
        (by omega) (by omega) (by omega) wpos
      refine ⟨ux', ?_⟩
      show done (avx2Deep8Row s e bp d ch rg t w y u v row 0 0 >>= _) = _
      rw [e1, Outcome.bind_ok, e2]
  obtain ⟨ux, e1⟩ := key
  rw [e1]
  refine ⟨_, _, rfl, painted_done (count_pos ch) (fun _ => hp ..) hw (by omega) (.inl ?_)
    fun x hx => ?_, fun x h1 h2 => ?_⟩
  · cases s <;> simp only [hdiv] <;> omega
  · simp only [cpuDeep8, if_pos (And.intro hc hx)]
    try rfl
  · have : ¬ (cpu ≠ .plain ∧ x < 8 * ((w - 1) / 8)) := by
      rintro ⟨-, h3⟩
      rcases h1 with h1 | ⟨-, h1⟩
      · exact absurd h3 (Nat.not_lt.2 h1)
      · omega
    simp only [cpuDeep8, if_neg this]

end Verif.X86
