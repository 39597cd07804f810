import Verif.Model.NeonDeepAlpha
import Verif.Spec.NeonDeepAlpha
import Verif.Lemmas.NeonDeep8
import Verif.Lemmas.X86DeepAlpha
/-! # Rows of the 64-bit ARM decoders of 10- and 12-bit images with an alpha plane -/
namespace Verif.Neon
open Spec X86

variable {rg : ChromaRange} {t : InvCoef}

/-- The pixel of four stored words. -/
def wordsAPix (e : Endianness) (bp : BytesPacking) (d : Nat) (ch : Channels) (c : ChromaRange)
    (t : InvCoef) (_x a y u v : Nat) : Buf :=
  neonAlpha8Pixel d ch c t (nativeSample e bp d a) (nativeSample e bp d y) (nativeSample e bp d u)
    (nativeSample e bp d v)

theorem wordsAPix_length (e : Endianness) (bp : BytesPacking) (d : Nat) (ch : Channels)
    (c : ChromaRange) (t : InvCoef) (x a y u v : Nat) :
    (wordsAPix e bp d ch c t x a y u v).length = ch.count := layout_length' ..

theorem packShift_word {d : Nat} (hd : d = 10 ∨ d = 12) (a : Reg) (k : Nat) :
    packShift d a k = alpha8 d (w16 a k) := by
  unfold alpha8
  rcases hd with rfl | rfl
  · exact Nat.min_comm ..
  · exact Nat.min_comm ..

theorem deepAlpha8Body_eq (s : Sampling) (e : Endianness) (bp : BytesPacking) {d : Nat}
    (hd : d = 10 ∨ d = 12) (ch : Channels) (ht : DeepCoef t) (hby : rg.biasY < 65536)
    {y u v a : Buf} (hy : ∀ x ∈ y, x < 65536) (hu : ∀ x ∈ u, x < 65536)
    (hv : ∀ x ∈ v, x < 65536) (ha : ∀ x ∈ a, x < 65536) {cx ux : Nat} (ly : cx + 8 ≤ y.length)
    (lu : ux + chromaStep s 8 ≤ u.length) (lv : ux + chromaStep s 8 ≤ v.length) (la : cx + 8 ≤ a.length)
    (p : Nat) (row : Buf) :
    deepAlpha8Body s e bp d ch rg t y u v a cx ux p row
      = put row p ((List.range 8).flatMap fun j => wordsAPix e bp d ch rg t 0 (a.getD (cx + j) 0)
          (y.getD (cx + j) 0) (u.getD (ux + j / hdiv s) 0) (v.getD (ux + j / hdiv s) 0)) := by
  have hD : Deep d := hd.elim .inl fun h => .inr (.inl h)
  obtain ⟨ar, e0, d1, d2⟩ := load16_at la ha
  obtain ⟨yr, e1, a1, a2⟩ := load16_at ly hy
  obtain ⟨ur, e2, b1⟩ := deepChroma_at e bp hD rg lu hu
  obtain ⟨vr, e3, c1⟩ := deepChroma_at e bp hD rg lv hv
  unfold deepAlpha8Body
  rw [e0, Outcome.bind_ok, e1, Outcome.bind_ok, e2, Outcome.bind_ok, e3, Outcome.bind_ok, storeRgb_eq]
  unfold X86.pixels
  refine congrArg (put row p) (range_flatMap_congr fun j hj => ?_)
  have hx : s16 (subsU16 (nativeReg e bp d yr) (set1_16 (rg.biasY : Int))) j
      = int16 ((nativeSample e bp d (y.getD (cx + j) 0) - rg.biasY : Nat) : Int) := by
    rw [s16, w16_subsU (nativeReg_bytes e bp d a2) hby, nativeReg_at e bp hD a2 (by omega), a1 j hj]
    rfl
  obtain ⟨h1, h2, h3⟩ := deepWords_at hd ht hx (b1 j hj) (c1 j hj)
  rw [h1, h2, h3, packShift_word hd, nativeReg_at e bp hD d2 (by omega), d1 j hj]
  simp only [wordsAPix, neonAlpha8Pixel, neonDeep8RGB]

theorem deepAlpha8Row_ok (s : Sampling) (e : Endianness) (bp : BytesPacking) {d : Nat}
    (hd : d = 10 ∨ d = 12) (ch : Channels) (ht : DeepCoef t) (hby : rg.biasY < 65536)
    {w : Nat} {y u v a row : Buf}
    (hy : ∀ x ∈ y, x < 65536) (hu : ∀ x ∈ u, x < 65536) (hv : ∀ x ∈ v, x < 65536)
    (ha : ∀ x ∈ a, x < 65536)
    (ly : w ≤ y.length) (lu : (w - 1) / hdiv s + 1 ≤ u.length)
    (lv : (w - 1) / hdiv s + 1 ≤ v.length) (la : w ≤ a.length) (hw : w * ch.count ≤ row.length) (wpos : 0 < w) :
    ∃ ux', deepAlpha8Row s e bp d ch rg t w y u v a row 0 0
      = .ok (painted ch.count (rowA (wordsAPix e bp d ch rg t) (fun x => x) (hdiv s) y u v a)
          (8 * ((w - 1) / 8)) row, 8 * ((w - 1) / 8), ux') := by
  have hp := wordsAPix_length e bp d ch rg t
  obtain ⟨cx', ux', e1, h1, h2, h3, h4⟩ := paintLoopI (step := 8) (ustep := chromaStep s 8) (width := w)
    (cn := ch.count) (I := fun cx ux => ux * hdiv s = cx) (by decide)
    (fun cx ux g => by rw [Nat.add_mul, g, chromaStep_hdiv s rfl])
    (pix := rowA (wordsAPix e bp d ch rg t) (fun x => x) (hdiv s) y u v a) (fun _ => hp ..)
    (row := row) hw
    (body := fun cx ux row => deepAlpha8Body s e bp d ch rg t y u v a cx ux (cx * ch.count) row)
    (cx0 := 0) (ux0 := 0) (Nat.zero_mul _)
    (by
      intro cx ux r _ hux hlt
      rw [← stepA_row (hdiv_pos s) hux (p0 := wordsAPix e bp d ch rg t 0) (s0 := fun j => j)
        fun j _ => ⟨rfl, rfl⟩]
      exact deepAlpha8Body_eq s e bp hd ch ht hby hy hu hv ha (by omega)
        (chroma_room hux rfl (by omega) lu (by decide)) (chroma_room hux rfl (by omega) lv (by decide))
        (by omega) _ _)
    (Nat.zero_le _)
  have e : cx' = 8 * ((w - 1) / 8) := by
    rw [h1, loopEnd]; omega
  rw [painted_zero] at e1
  rw [← e]
  exact ⟨ux', e1⟩

/-- The pixel of four stored words in column `x` of a row of `w` pixels; `px` is the portable decoding. -/
def rowAlpha8 (e : Endianness) (bp : BytesPacking) (d : Nat) (ch : Channels)
    (rg : ChromaRange) (t : InvCoef) (w : Nat) (px : Nat → Nat → Nat → Nat → Buf) (x y u v a : Nat) : Buf :=
  if x < 8 * ((w - 1) / 8) then wordsAPix e bp d ch rg t x a y u v else px y u v a

theorem deepAlpha8Handler_fills (s : Sampling) (e : Endianness) (bp : BytesPacking) {d : Nat}
    (hd : d = 10 ∨ d = 12) (ch : Channels) (ht : DeepCoef t) (hby : rg.biasY < 65536)
    {w : Nat} (wpos : 0 < w) (px : Nat → Nat → Nat → Nat → Buf) :
    (deepAlpha8Handler s e bp d ch rg t w).FillsFrom (fun x => x) false 65536 ch.count w (hdiv s) px
      (fun x y u v a p => p = rowAlpha8 e bp d ch rg t w px x y u v a) := by
  intro y u v a row hy hu hv ha ly lu lv la hw
  have hp := wordsAPix_length e bp d ch rg t
  obtain ⟨ux, e1⟩ := deepAlpha8Row_ok s e bp hd ch ht hby hy hu hv ha ly lu lv la hw wpos
  unfold deepAlpha8Handler
  rw [e1]
  refine ⟨row, _, _, rfl, ⟨rfl, fun _ _ => rfl⟩, painted_done (X86.count_pos ch) (fun _ => hp ..) hw (by omega)
    (.inl ?_) fun x hx => ?_, fun x h1 h2 => ?_⟩
  · cases s <;> simp only [hdiv] <;> omega
  · simp only [rowAlpha8, if_pos hx]
    try rfl
  · have : ¬ x < 8 * ((w - 1) / 8) := by
      intro h3
      rcases h1 with h1 | ⟨-, h1⟩
      · exact absurd h3 (Nat.not_lt.2 h1)
      · omega
    simp only [rowAlpha8, if_neg this]

end Verif.Neon
