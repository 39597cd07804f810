import Verif.Model.NeonNvModes
import Verif.Spec.NeonNvModes
import Verif.Lemmas.X86NvFast
import Verif.Lemmas.NeonEncode
import Verif.Lemmas.NeonYuyRgb
/-! # The NEON kernels of the professional and fast semi-planar decoders -/
namespace Verif.Neon
open Spec X86

theorem modeChroma_at {rg : ChromaRange} (hb : rg.biasUv = 128) (s : Sampling) (o : NVOrder)
    (c0 c1 : Reg) {i : Nat} (hi : i < 16) :
    (modeChroma s o rg c0 c1).1 i = (cat2 16 c0 c1 (2 * (i / hdiv s) + o.uPos) + 128) % 256 ∧
    (modeChroma s o rg c0 c1).2 i = (cat2 16 c0 c1 (2 * (i / hdiv s) + o.vPos) + 128) % 256 := by
  obtain ⟨p1, p2⟩ := uPos_le o
  have shared : ∀ p, p ≤ 1 → c0 (2 * (i / 2) + p) = cat2 16 c0 c1 (2 * (i / 2) + p) := by
    intro p hp
    rw [cat2, if_pos (by omega)]
  have two : doubled .s16 (sub8 (ordered o (deinterleave c0)).1 (corr rg)) i
        = (cat2 16 c0 c1 (2 * (i / 2) + o.uPos) + 128) % 256 ∧
      doubled .s16 (sub8 (ordered o (deinterleave c0)).2 (corr rg)) i
        = (cat2 16 c0 c1 (2 * (i / 2) + o.vPos) + 128) % 256 := by
    obtain ⟨e1, e2⟩ := ordered_at o c0 (i / 2)
    rw [doubled_at .s16 _ hi, doubled_at .s16 _ hi]
    exact ⟨sub8_at hb (e1.trans (shared _ p1)), sub8_at hb (e2.trans (shared _ p2))⟩
  cases s with
  | yuv420 => exact two
  | yuv422 => exact two
  | yuv444 =>
    simp only [hdiv, Nat.div_one]
    obtain ⟨e1, e2⟩ := ordered_at o (combine 16 c0 c1) i
    exact ⟨sub8_at hb e1, sub8_at hb e2⟩

/-! ## Professional mode -/

theorem s32_qdmlal {o j : Nat} {acc v : Reg} {c A x : Int} (ha : s32 acc j = A) (hv : s16 v (o + j) = x)
    (hA : -100000000 ≤ A ∧ A ≤ 100000000) (hx : -100000000 ≤ x * c ∧ x * c ≤ 100000000) :
    s32 (qdmlal o acc v c) j = A + 2 * (x * c) := by
  rw [qdmlal, s32_mk32, ha, hv]
  generalize x * c = p at *
  unfold asI32 satI32; omega

theorem s32_qdmull {o j : Nat} {v : Reg} {c x : Int} (hv : s16 v (o + j) = x)
    (hx : -100000000 ≤ x * c ∧ x * c ≤ 100000000) : s32 (qdmull o v c) j = 2 * (x * c) := by
  rw [qdmull, s32_mk32, hv]
  generalize x * c = p at *
  unfold asI32 satI32; omega

theorem word_prod {x c : Int} (hx : -128 ≤ x ∧ x ≤ 255) (hc : -32768 ≤ c ∧ c ≤ 32767) :
    -8400000 ≤ x * c ∧ x * c ≤ 8400000 := by
  have h := X86.mul_bounds (A := 255) (T := 32768) (a := x) (t := c) ⟨by omega, by omega⟩ ⟨by omega, by omega⟩
  omega

theorem s32_roundY (j : Nat) : s32 (set1_32 (2 ^ 14 - 1)) j = 16383 := by
  rw [s32_set1]; decide

/-- The three sums of one pixel, each doubled. -/
theorem prof_sums {two : Bool} {t : InvCoef} (ht : ProfFits t) {y u v : Reg} {o j : Nat} {Y cb cr : Int}
    (hy : s16 y (o + j) = Y) (hu : s16 u (o + j) = cb) (hv : s16 v (o + j) = cr)
    (bY : 0 ≤ Y ∧ Y ≤ 255) (bu : -128 ≤ cb ∧ cb ≤ 127) (bv : -128 ≤ cr ∧ cr ≤ 127) :
    s32 (profR o t y v) j = 16383 + 2 * (Y * t.y + int16 t.cr * cr) ∧
    s32 (profGreen two o t y u v) j = 16383 + 2 * (Y * t.y - t.g1 * cr - t.g2 * cb) ∧
    s32 (profB o t y u) j = 16383 + 2 * (Y * t.y + t.cb * cb) ∧
    (-30000000 ≤ Y * t.y + int16 t.cr * cr ∧ Y * t.y + int16 t.cr * cr ≤ 30000000) ∧
    (-30000000 ≤ Y * t.y - t.g1 * cr - t.g2 * cb ∧ Y * t.y - t.g1 * cr - t.g2 * cb ≤ 30000000) ∧
    (-30000000 ≤ Y * t.y + t.cb * cb ∧ Y * t.y + t.cb * cb ≤ 30000000) := by
  have hty := ht.y
  have htb := ht.cb
  have hg1 := ht.g1
  have hg2 := ht.g2
  have ey : asI16 t.y = t.y := asI16_id (by omega) (by omega)
  have er : asI16 t.cr = int16 t.cr := rfl
  have eb : asI16 (t.cb - 32767) = t.cb - 32767 := asI16_id (by omega) (by omega)
  have e1 : asI16 (-t.g1) = -t.g1 := asI16_id (by omega) (by omega)
  have e2 : asI16 (-t.g2) = -t.g2 := asI16_id (by omega) (by omega)
  have br : -32768 ≤ int16 t.cr ∧ int16 t.cr ≤ 32767 := by unfold int16; omega
  have m0 := word_prod (x := Y) (c := t.y) ⟨by omega, by omega⟩ ⟨by omega, by omega⟩
  have m1 := word_prod (x := cr) (c := int16 t.cr) ⟨by omega, by omega⟩ br
  have m2 := word_prod (x := cb) (c := t.cb - 32767) ⟨by omega, by omega⟩ ⟨by omega, by omega⟩
  have m3 := word_prod (x := cb) (c := 32767) ⟨by omega, by omega⟩ ⟨by omega, by omega⟩
  have m4 := word_prod (x := cr) (c := -t.g1) ⟨by omega, by omega⟩ ⟨by omega, by omega⟩
  have m5 := word_prod (x := cb) (c := -t.g2) ⟨by omega, by omega⟩ ⟨by omega, by omega⟩
  have sy : s32 (profY o t y) j = 16383 + 2 * (Y * t.y) := by
    unfold profY
    rw [ey]
    exact s32_qdmlal (s32_roundY j) hy (by omega) (by omega)
  have q1 : int16 t.cr * cr = cr * int16 t.cr := mul_comm ..
  have q2 : t.cb * cb = cb * (t.cb - 32767) + cb * 32767 := by ring
  have q3 : t.g1 * cr = -(cr * -t.g1) := by ring
  have q4 : t.g2 * cb = -(cb * -t.g2) := by ring
  rw [q1, q2, q3, q4]
  refine ⟨?_, ?_, ?_, ?_, ?_, ?_⟩
  · unfold profR
    rw [er, s32_qdmlal sy hv (by omega) (by omega)]
    ring
  · unfold profGreen
    rw [e1, e2]
    cases two
    · rw [if_neg (by decide), s32_qdmlal (s32_qdmlal sy hv (by omega) (by omega)) hu (by omega) (by omega)]
      ring
    · rw [if_pos rfl, add32v, s32_mk32, sy,
        s32_qdmlal (s32_qdmull hv (by omega)) hu (by omega) (by omega)]
      generalize Y * t.y = a at *
      generalize cr * -t.g1 = b at *
      generalize cb * -t.g2 = c at *
      unfold asI32; omega
  · unfold profB
    rw [eb, s32_qdmlal (s32_qdmlal sy hu (by omega) (by omega)) hu (by omega) (by omega)]
    ring
  · generalize Y * t.y = a at *
    generalize cr * int16 t.cr = b at *
    omega
  · generalize Y * t.y = a at *
    generalize cr * -t.g1 = b at *
    generalize cb * -t.g2 = c at *
    omega
  · generalize Y * t.y = a at *
    generalize cb * (t.cb - 32767) = b at *
    generalize cb * 32767 = c at *
    omega

theorem shrn_at {lo hi : Reg} {k : Nat} {x : Int}
    (h0 : k < 4 → s32 lo k = 16383 + 2 * x) (h1 : 4 ≤ k → s32 hi (k - 4) = 16383 + 2 * x)
    (b : -30000000 ≤ x ∧ x ≤ 30000000) :
    s16 (shrn 15 lo hi) k = (x + (2 ^ (14 - 1) - 1)) / 2 ^ 14 := by
  rw [shrn, s16_mk16]
  have e : (16383 + 2 * x) / 2 ^ 15 = (x + (2 ^ (14 - 1) - 1)) / 2 ^ 14 := by norm_num; omega
  by_cases h : k < 4
  · rw [if_pos h, h0 h, e]
    exact asI16_id (by norm_num; omega) (by norm_num; omega)
  · rw [if_neg h, h1 (by omega), e]
    exact asI16_id (by norm_num; omega) (by norm_num; omega)

/-- Eight pixels. -/
theorem profWords_at {two : Bool} {t : InvCoef} (ht : ProfFits t) {y u v : Reg} {k : Nat} {Y cb cr : Int}
    (hy : s16 y k = Y) (hu : s16 u k = cb) (hv : s16 v k = cr)
    (bY : 0 ≤ Y ∧ Y ≤ 255) (bu : -128 ≤ cb ∧ cb ≤ 127) (bv : -128 ≤ cr ∧ cr ≤ 127) :
    s16 (profWords two t y u v).1 k = (Y * t.y + int16 t.cr * cr + (2 ^ (14 - 1) - 1)) / 2 ^ 14 ∧
    s16 (profWords two t y u v).2.1 k
      = (Y * t.y - t.g1 * cr - t.g2 * cb + (2 ^ (14 - 1) - 1)) / 2 ^ 14 ∧
    s16 (profWords two t y u v).2.2 k = (Y * t.y + t.cb * cb + (2 ^ (14 - 1) - 1)) / 2 ^ 14 := by
  have lo := prof_sums (two := two) ht (o := 0) (j := k) (by rw [Nat.zero_add]; exact hy)
    (by rw [Nat.zero_add]; exact hu) (by rw [Nat.zero_add]; exact hv) bY bu bv
  have hi : 4 ≤ k → _ := fun h => prof_sums (two := two) ht (o := 4) (j := k - 4)
    (by rw [show 4 + (k - 4) = k by omega]; exact hy) (by rw [show 4 + (k - 4) = k by omega]; exact hu)
    (by rw [show 4 + (k - 4) = k by omega]; exact hv) bY bu bv
  exact ⟨shrn_at (fun _ => lo.1) (fun h => (hi h).1) lo.2.2.2.1,
    shrn_at (fun _ => lo.2.1) (fun h => (hi h).2.1) lo.2.2.2.2.1,
    shrn_at (fun _ => lo.2.2.1) (fun h => (hi h).2.2.1) lo.2.2.2.2.2⟩

theorem qmovun_at {a b : Reg} {i : Nat} {x : Int} (h0 : i < 8 → s16 a i = x)
    (h1 : 8 ≤ i → s16 b (i - 8) = x) : qmovun a b i = (max (min x (2 ^ 8 - 1)) 0).toNat := by
  have sat : satU8 x = (max (min x (2 ^ 8 - 1)) 0).toNat := by unfold satU8; norm_num; omega
  rw [← sat]
  unfold qmovun
  by_cases h : i < 8
  · rw [if_pos h, h0 h]
  · rw [if_neg h, h1 (by omega)]

theorem profColours_ok {two : Bool} {rg : ChromaRange} {t : InvCoef} (ht : ProfFits t)
    (hb : rg.biasUv = 128) (hby : rg.biasY < 256)
    (s : Sampling) (o : NVOrder) (y c0 c1 : Reg) (hy : ∀ i, y i < 256) (h0 : ∀ i, c0 i < 256)
    (h1 : ∀ i, c1 i < 256) (i : Nat) (hi : i < 16) :
    ((profColours two s o rg t y c0 c1).1 i, (profColours two s o rg t y c0 c1).2.1 i,
      (profColours two s o rg t y c0 c1).2.2 i) =
    profDecoded t rg.biasY (y i) (cat2 16 c0 c1 (2 * (i / hdiv s) + o.uPos))
      (cat2 16 c0 c1 (2 * (i / hdiv s) + o.vPos)) := by
  obtain ⟨cu, cv⟩ := modeChroma_at hb s o c0 c1 hi
  have lu := cat2_lt (n := 16) h0 h1 (2 * (i / hdiv s) + o.uPos)
  have lv := cat2_lt (n := 16) h0 h1 (2 * (i / hdiv s) + o.vPos)
  have ly := hy i
  generalize cat2 16 c0 c1 (2 * (i / hdiv s) + o.uPos) = U at *
  generalize cat2 16 c0 c1 (2 * (i / hdiv s) + o.vPos) = V at *
  have hY := subsU8_at (r := y) (i := i) hby
  have dy : ((max (y i) rg.biasY : Nat) : Int) - (rg.biasY : Int) = ((y i - rg.biasY : Nat) : Int) := by omega
  have part : ∀ h k, h + k = i →
      s16 (wide 0 h (subsU8 y (set1_8 rg.biasY))) k = ((y i - rg.biasY : Nat) : Int) ∧
      s16 (movlS8 (half h (modeChroma s o rg c0 c1).1)) k = (U : Int) - 128 ∧
      s16 (movlS8 (half h (modeChroma s o rg c0 c1).2)) k = (V : Int) - 128 := by
    intro h k e
    refine ⟨?_, ?_, ?_⟩
    · rw [wide, s16_mk16, e, hY]
      norm_num
      exact asI16_id (by omega) (by omega)
    · rw [movlS8, s16_mk16, half, e, cu, asI8_off lu]
      exact asI16_id (by omega) (by omega)
    · rw [movlS8, s16_mk16, half, e, cv, asI8_off lv]
      exact asI16_id (by omega) (by omega)
  have words : ∀ h k, h + k = i → _ := fun h k e => profWords_at (two := two) ht (part h k e).1 (part h k e).2.1
    (part h k e).2.2 (by omega) (by omega) (by omega)
  unfold profDecoded decodeRGB
  simp only [profColours, dy]
  refine Prod.ext ?_ (Prod.ext ?_ ?_) <;> dsimp only
  · exact qmovun_at (fun h => (words 0 i (by omega)).1) (fun h => (words 8 (i - 8) (by omega)).1)
  · exact qmovun_at (fun h => (words 0 i (by omega)).2.1) (fun h => (words 8 (i - 8) (by omega)).2.1)
  · exact qmovun_at (fun h => (words 0 i (by omega)).2.2) (fun h => (words 8 (i - 8) (by omega)).2.2)

theorem profNv_ok (two : Bool) {rg : ChromaRange} {t : InvCoef} (ht : ProfFits t) (hb : rg.biasUv = 128)
    (hby : rg.biasY < 256) : (profNv two).Ok rg t (profDecoded t rg.biasY) where
  even := by cases two <;> rfl
  pos := by cases two <;> decide
  tailEven := by cases two <;> rfl
  tailLe := le_refl _
  store := storeRgb_eq 16
  rgb := profColours_ok ht hb hby

/-! ## Fast mode -/

theorem s16_mlalS8 {acc a : Reg} {k : Nat} {c A x : Int} (ha : s16 acc k = asI16 A) (hx : asI8 (a k) = x)
    (hc : -127 ≤ c ∧ c ≤ 127) : s16 (mlalS8 acc a c) k = asI16 (A + x * c) := by
  have e : asI8 c = c := by unfold asI8; omega
  rw [mlalS8, s16_mk16, ha, hx, e]
  generalize x * c = p
  unfold asI16; omega

theorem fastBytes_at {t : InvCoef} (ht : NvFastFits t) (hy80 : t.y ≤ 80) {y u v : Reg} {k Y : Nat} {cb cr : Int}
    (hY : Y < 256) (hy : y k = Y) (hu : asI8 (u k) = cb) (hv : asI8 (v k) = cr) :
    (fastBytes t y u v).1 k = (max (min ((int16 (Y * t.y + t.cr * cr) + 32) / 2 ^ 6) 255) 0).toNat ∧
    (fastBytes t y u v).2.1 k
      = (max (min ((int16 (Y * t.y - (t.g1 * cr + t.g2 * cb)) + 32) / 2 ^ 6) 255) 0).toNat ∧
    (fastBytes t y u v).2.2 k = (max (min ((int16 (Y * t.y + t.cb * cb) + 32) / 2 ^ 6) 255) 0).toNat := by
  have hcr := ht.cr
  have hcb := ht.cb
  have hg1 := ht.g1
  have hg2 := ht.g2
  have hm := s16_mull8 hy hY ⟨ht.y.1, hy80⟩
  have b := mulc_bounds (x := (Y : Int)) (M := 255) ⟨by omega, by omega⟩ ⟨ht.y.1, hy80⟩ (by omega)
  have hm' : s16 (mull8 y (asU8 t.y)) k = asI16 (Y * t.y) := by
    rw [hm, asI16_id (by omega) (by omega)]
  have sat : ∀ x : Int, satU8 ((x + 32) / 64) = (max (min ((x + 32) / 2 ^ 6) 255) 0).toNat := by
    intro x; unfold satU8; norm_num; omega
  have e16 : ∀ x, int16 x = asI16 x := fun _ => rfl
  have q1 : Y * t.y + t.cr * cr = Y * t.y + cr * t.cr := by ring
  have q2 : (Y : Int) * t.y - (t.g1 * cr + t.g2 * cb) = Y * t.y + cr * -t.g1 + cb * -t.g2 := by ring
  have q3 : Y * t.y + t.cb * cb = Y * t.y + cb * t.cb := by ring
  simp only [fastBytes, qrshrun6]
  rw [q1, q2, q3]
  refine ⟨?_, ?_, ?_⟩
  · rw [s16_mlalS8 hm' hv (by omega), sat, e16]
  · rw [s16_mlalS8 (s16_mlalS8 hm' hv (by omega)) hu (by omega), sat, e16]
  · rw [s16_mlalS8 hm' hu (by omega), sat, e16]

theorem combine8_at {a b : Reg} {i x : Nat} (h0 : i < 8 → a i = x) (h1 : 8 ≤ i → b (i - 8) = x) :
    combine 8 a b i = x := by
  unfold combine
  by_cases h : i < 8
  · rw [if_pos h, h0 h]
  · rw [if_neg h, h1 (by omega)]

theorem fastColours_ok {rg : ChromaRange} {t : InvCoef} (ht : NvFastFits t) (hy80 : t.y ≤ 80)
    (hb : rg.biasUv = 128) (hby : rg.biasY < 256)
    (s : Sampling) (o : NVOrder) (y c0 c1 : Reg) (hy : ∀ i, y i < 256) (h0 : ∀ i, c0 i < 256)
    (h1 : ∀ i, c1 i < 256) (i : Nat) (hi : i < 16) :
    ((fastColours s o rg t y c0 c1).1 i, (fastColours s o rg t y c0 c1).2.1 i,
      (fastColours s o rg t y c0 c1).2.2 i) =
    neonFastDecoded t rg.biasY (y i) (cat2 16 c0 c1 (2 * (i / hdiv s) + o.uPos))
      (cat2 16 c0 c1 (2 * (i / hdiv s) + o.vPos)) := by
  obtain ⟨cu, cv⟩ := modeChroma_at hb s o c0 c1 hi
  have lu := cat2_lt (n := 16) h0 h1 (2 * (i / hdiv s) + o.uPos)
  have lv := cat2_lt (n := 16) h0 h1 (2 * (i / hdiv s) + o.vPos)
  have ly := hy i
  generalize cat2 16 c0 c1 (2 * (i / hdiv s) + o.uPos) = U at *
  generalize cat2 16 c0 c1 (2 * (i / hdiv s) + o.vPos) = V at *
  have hY := subsU8_at (r := y) (i := i) hby
  have words : ∀ h k, h + k = i → _ := fun h k e => fastBytes_at ht hy80 (Y := y i - rg.biasY) (k := k)
    (y := half h (subsU8 y (set1_8 rg.biasY))) (u := half h (modeChroma s o rg c0 c1).1)
    (v := half h (modeChroma s o rg c0 c1).2) (cb := (U : Int) - 128) (cr := (V : Int) - 128) (by omega)
    (by rw [half, e, hY]) (by rw [half, e, cu, asI8_off lu]) (by rw [half, e, cv, asI8_off lv])
  unfold neonFastDecoded
  simp only [fastColours]
  refine Prod.ext ?_ (Prod.ext ?_ ?_) <;> dsimp only
  · exact combine8_at (fun h => (words 0 i (by omega)).1) (fun h => (words 8 (i - 8) (by omega)).1)
  · exact combine8_at (fun h => (words 0 i (by omega)).2.1) (fun h => (words 8 (i - 8) (by omega)).2.1)
  · exact combine8_at (fun h => (words 0 i (by omega)).2.2) (fun h => (words 8 (i - 8) (by omega)).2.2)

theorem fastNv_ok {rg : ChromaRange} {t : InvCoef} (ht : NvFastFits t) (hy80 : t.y ≤ 80)
    (hb : rg.biasUv = 128) (hby : rg.biasY < 256) : fastNv.Ok rg t (neonFastDecoded t rg.biasY) where
  even := rfl
  pos := by decide
  tailEven := rfl
  tailLe := le_refl _
  store := storeRgb_eq 16
  rgb := fastColours_ok ht hy80 hb hby

end Verif.Neon
