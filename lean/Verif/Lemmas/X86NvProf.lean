import Verif.Spec.ModeDecode
import Verif.Lemmas.X86NvModes
import Verif.Lemmas.X86Prof
import Verif.Lemmas.X86Fast
import Verif.Lemmas.X86Deep8
import Verif.Lemmas.X86DeepEncArith
import Mathlib.Tactic.IntervalCases
import Mathlib.Tactic.Linarith
import Mathlib.Tactic.Ring
/-! # The colours of the professional and fast semi-planar kernels -/
namespace Verif.X86
open Spec

/-! ## Chroma bytes -/

theorem sub8_at {a : Reg} {i : Nat} (h : a i < 256) : asI8 (sub8 a (set1_8 (128 : Nat)) i) = (a i : Int) - 128 := by
  unfold sub8 set1_8 asI8 asU8; omega

theorem cat2_sub8 (n : Nat) (a b c : Reg) (i : Nat) (hc : ∀ i j, c i = c j) :
    cat2 n (sub8 a c) (sub8 b c) i = sub8 (cat2 n a b) c i := by
  by_cases h : i < n
  · simp only [cat2, sub8, if_pos h]
  · simp only [cat2, sub8, if_neg h, hc (i - n) i]

theorem cat2_lt {n : Nat} {a b : Reg} (ha : ∀ i, a i < 256) (hb : ∀ i, b i < 256) (i : Nat) :
    cat2 n a b i < 256 := by
  unfold cat2; split
  · exact ha _
  · exact hb _

theorem cat2_chroma {n : Nat} {a b : Reg} (ha : ∀ i, a i < 256) (hb : ∀ i, b i < 256) (i : Nat) :
    asI8 (cat2 n (sub8 a (set1_8 (128 : Nat))) (sub8 b (set1_8 (128 : Nat))) i) = (cat2 n a b i : Int) - 128 := by
  rw [cat2_sub8 _ _ _ _ _ (fun _ _ => rfl)]
  exact sub8_at (cat2_lt ha hb i)

/-! ## Professional mode -/

/-- Register `j` of a quadruple. -/
def Quad.nth (q : Quad) : Nat → Reg
  | 0 => q.1
  | 1 => q.2.1
  | 2 => q.2.2.1
  | _ => q.2.2.2

theorem Quad.map_nth (f : Reg → Reg) (q : Quad) (j : Nat) : Quad.nth (Quad.map f q) j = f (Quad.nth q j) := by
  rcases j with _ | _ | _ | _ <;> rfl

theorem Quad.map2_nth (f : Reg → Reg → Reg) (q r : Quad) (j : Nat) :
    Quad.nth (Quad.map2 f q r) j = f (Quad.nth q j) (Quad.nth r j) := by
  rcases j with _ | _ | _ | _ <;> rfl

theorem packWords {a b c d r : Reg} {i e : Nat} {x : Int}
    (hr : r = if i % 16 < 8 then (if i % 8 < 4 then a else b) else (if i % 8 < 4 then c else d))
    (he : e = i / 16 * 4 + i % 4) (hx : s32 r e = x) (hx' : x ≤ 32767) :
    packus16 (packus32 a b) (packus32 c d) i = satU8 x := by
  subst hx he
  have key : ∀ p q : Reg, s32 (if i % 8 < 4 then p else q) (i / 16 * 4 + i % 4) ≤ 32767 →
      s16 (packus32 p q) (i / 16 * 8 + i % 8)
        = satU16 (s32 (if i % 8 < 4 then p else q) (i / 16 * 4 + i % 4)) := by
    intro p q h
    have e := w16_packus p q (i / 16 * 8 + i % 8)
    rw [show (i / 16 * 8 + i % 8) % 8 = i % 8 by omega,
      show (i / 16 * 8 + i % 8) / 8 * 4 + (i / 16 * 8 + i % 8) % 4 = i / 16 * 4 + i % 4 by omega] at e
    exact s16_small e (by unfold satU16; omega)
  have sat : ∀ x : Int, satU8 (satU16 x : Nat) = satU8 x := by
    intro x; unfold satU8 satU16; omega
  unfold packus16
  by_cases h8 : i % 16 < 8
  · rw [if_pos h8] at hr ⊢
    subst hr
    rw [key _ _ hx', sat]
  · rw [if_neg h8] at hr ⊢
    subst hr
    rw [key _ _ hx', sat]

theorem profPack_at {q : Quad} {i : Nat} {x : Int} (h : s32 (Quad.nth q (i % 16 / 4)) (i / 16 * 4 + i % 4) = x)
    (h1 : -268435456 ≤ x) (h2 : x ≤ 268435456) : profPack q i = satU8 (x / 2 ^ 14) := by
  have hs : ∀ r, s32 r (i / 16 * 4 + i % 4) = x →
      s32 (srai32 14 r) (i / 16 * 4 + i % 4) = x / 2 ^ 14 := by
    intro r hr
    rw [s32_srai, hr]; exact asI32_id (by omega) (by omega)
  refine packWords (r := srai32 14 (Quad.nth q (i % 16 / 4))) (e := i / 16 * 4 + i % 4) ?_ rfl (hs _ h)
    (by omega)
  have : i % 16 / 4 = 0 ∨ i % 16 / 4 = 1 ∨ i % 16 / 4 = 2 ∨ i % 16 / 4 = 3 := by omega
  rcases this with e | e | e | e <;> rw [e]
  · rw [if_pos (by omega), if_pos (by omega)]; rfl
  · rw [if_pos (by omega), if_neg (by omega)]; rfl
  · rw [if_neg (by omega), if_pos (by omega)]; rfl
  · rw [if_neg (by omega), if_neg (by omega)]; rfl

theorem widen32_at (y : Reg) {i : Nat} (hi : i < 32) :
    w16 (Quad.nth (widen32 y) (i % 16 / 4)) (2 * (i / 16 * 4 + i % 4)) = y i ∧
    w16 (Quad.nth (widen32 y) (i % 16 / 4)) (2 * (i / 16 * 4 + i % 4) + 1) = 0 := by
  interval_cases i <;> exact ⟨rfl, rfl⟩

theorem avx2ProfUv_at (s : Sampling) (c0 c1 : Reg) {i : Nat} (hi : i < 32) :
    Quad.nth (avx2ProfUv s c0 c1) (i % 16 / 4) (2 * (i / 16 * 4 + i % 4))
      = cat2 32 c0 c1 (2 * (i / hdiv s)) ∧
    Quad.nth (avx2ProfUv s c0 c1) (i % 16 / 4) (2 * (i / 16 * 4 + i % 4) + 1)
      = cat2 32 c0 c1 (2 * (i / hdiv s) + 1) := by
  cases s <;> interval_cases i <;> exact ⟨rfl, rfl⟩

theorem sseProfUv_at (s : Sampling) (c0 c1 : Reg) {i : Nat} (hi : i < 16) :
    Quad.nth (sseProfUv s c0 c1) (i % 16 / 4) (2 * (i / 16 * 4 + i % 4))
      = cat2 16 c0 c1 (2 * (i / hdiv s)) ∧
    Quad.nth (sseProfUv s c0 c1) (i % 16 / 4) (2 * (i / 16 * 4 + i % 4) + 1)
      = cat2 16 c0 c1 (2 * (i / hdiv s) + 1) := by
  cases s <;> interval_cases i <;> exact ⟨rfl, rfl⟩

theorem s16_cvtI8 (r : Reg) (k : Nat) : s16 (cvtI8 r) k = asI8 (r k) := by
  rw [cvtI8, s16_mk16]; exact asI16_id (by unfold asI8; omega) (by unfold asI8; omega)

theorem profUu_at (c : Reg) (o : NVOrder) {d : Nat} (hd : d < 8) :
    w16 (shuffle8 c (profUu o)) (2 * d) = w16 c (2 * d + o.uPos) ∧
    w16 (shuffle8 c (profUu o)) (2 * d + 1) = w16 c (2 * d + o.uPos) := by
  cases o <;> interval_cases d <;> exact ⟨rfl, rfl⟩

theorem mulBound {a w : Int} (ha : -256 ≤ a ∧ a ≤ 256) (hw : -32768 ≤ w ∧ w ≤ 32768) :
    -8388608 ≤ a * w ∧ a * w ≤ 8388608 := by
  obtain ⟨a1, a2⟩ := ha
  obtain ⟨w1, w2⟩ := hw
  constructor <;> nlinarith

/-- A 32-bit sum of the luma term and the two chroma terms. -/
theorem nvProfSum {y c w : Reg} {d : Nat} {Y a b wa wb ty : Int}
    (hy : s16 y (2 * d) = Y) (hy' : s16 y (2 * d + 1) = 0) (ha : s16 c (2 * d) = a)
    (hb : s16 c (2 * d + 1) = b) (hwa : s16 w (2 * d) = wa) (hwb : s16 w (2 * d + 1) = wb)
    (bY : 0 ≤ Y ∧ Y ≤ 255) (ba : -128 ≤ a ∧ a ≤ 127) (bb : -128 ≤ b ∧ b ≤ 127)
    (bt : 0 ≤ ty ∧ ty ≤ 32767) :
    s32 (mulAdd (mulAdd (set1_32 (2 ^ 13 - 1)) y (set1_16 ty)) c w) d = 8191 + Y * ty + (a * wa + b * wb) ∧
    s32 (mulSub (mulAdd (set1_32 (2 ^ 13 - 1)) y (set1_16 ty)) c w) d = 8191 + Y * ty - (a * wa + b * wb) ∧
    -33554432 ≤ 8191 + Y * ty + (a * wa + b * wb) ∧ 8191 + Y * ty + (a * wa + b * wb) ≤ 33554432 ∧
    -33554432 ≤ 8191 + Y * ty - (a * wa + b * wb) ∧ 8191 + Y * ty - (a * wa + b * wb) ≤ 33554432 := by
  have m1 := mulBound (a := Y) (w := ty) (by omega) (by omega)
  have hwa' := s16_bounds w (2 * d)
  have hwb' := s16_bounds w (2 * d + 1)
  rw [hwa] at hwa'
  rw [hwb] at hwb'
  have m2 := mulBound (a := a) (w := wa) (by omega) (by omega)
  have m3 := mulBound (a := b) (w := wb) (by omega) (by omega)
  have et : asI16 ty = ty := asI16_id (by omega) (by omega)
  generalize hYt : Y * ty = P at *
  generalize hab : a * wa = p at *
  generalize hbb : b * wb = q at *
  clear ba bb bY bt hwa' hwb'
  have k1 := asI32_id (x := P) (by omega) (by omega)
  have k2 := asI32_id (x := p + q) (by omega) (by omega)
  have k3 := asI32_id (x := 8191 + P) (by omega) (by omega)
  have k4 := asI32_id (x := 8191 + P + (p + q)) (by omega) (by omega)
  have k5 := asI32_id (x := 8191 + P - (p + q)) (by omega) (by omega)
  refine ⟨?_, ?_, by omega, by omega, by omega, by omega⟩
  all_goals
    have e1 : s32 (madd16 y (set1_16 ty)) d = P := by
      rw [s32_madd, s16_set1, s16_set1, hy, hy', et, zero_mul, add_zero, hYt, k1]
    have e2 : s32 (madd16 c w) d = p + q := by
      rw [s32_madd, ha, hb, hwa, hwb, hab, hbb, k2]
    have e3 : s32 (mulAdd (set1_32 (2 ^ 13 - 1)) y (set1_16 ty)) d = 8191 + P := by
      rw [mulAdd, s32_add, s32_set1, e1, show asI32 (2 ^ 13 - 1) = 8191 by norm_num [asI32], k3]
  · rw [mulAdd, s32_add, e3, e2, k4]
  · rw [mulSub, s32_sub, e3, e2, k5]

/-- The coefficients fit their words. -/
structure ProfFits (t : InvCoef) : Prop where
  y : 0 ≤ t.y ∧ t.y ≤ 32767
  cb : 0 ≤ t.cb ∧ t.cb ≤ 65534
  g1 : 0 ≤ t.g1 ∧ t.g1 ≤ 32767
  g2 : 0 ≤ t.g2 ∧ t.g2 ≤ 32767

theorem profRgb_ok {uv : Sampling → Reg → Reg → Quad} {n : Nat} (hn : n ≤ 32)
    (huv : ∀ (s : Sampling) (c0 c1 : Reg) (i : Nat), i < n →
      Quad.nth (uv s c0 c1) (i % 16 / 4) (2 * (i / 16 * 4 + i % 4)) = cat2 n c0 c1 (2 * (i / hdiv s)) ∧
      Quad.nth (uv s c0 c1) (i % 16 / 4) (2 * (i / 16 * 4 + i % 4) + 1)
        = cat2 n c0 c1 (2 * (i / hdiv s) + 1))
    {rg : ChromaRange} {t : InvCoef} (ht : ProfFits t) (hb : rg.biasUv = 128) (hby : rg.biasY < 256)
    (s : Sampling) (o : NVOrder) (y c0 c1 : Reg) (hy : ∀ i, y i < 256) (h0 : ∀ i, c0 i < 256)
    (h1 : ∀ i, c1 i < 256) (i : Nat) (hi : i < n) :
    ((profRgb uv s o rg t y c0 c1).1 i, (profRgb uv s o rg t y c0 c1).2.1 i,
      (profRgb uv s o rg t y c0 c1).2.2 i) =
    profDecoded t rg.biasY (y i) (cat2 n c0 c1 (2 * (i / hdiv s) + o.uPos))
      (cat2 n c0 c1 (2 * (i / hdiv s) + o.vPos)) := by
  set d := i / 16 * 4 + i % 4 with hd
  have hd8 : d < 8 := by omega
  set j := i % 16 / 4 with hj
  obtain ⟨uy, uz⟩ := widen32_at (subsU8 y (set1_8 rg.biasY)) (i := i) (by omega)
  rw [← hd, ← hj, subsU8_at hby] at uy
  rw [← hd, ← hj] at uz
  obtain ⟨u0, u1⟩ := huv s (sub8 c0 (set1_8 rg.biasUv)) (sub8 c1 (set1_8 rg.biasUv)) i hi
  rw [← hd, ← hj] at u0 u1
  rw [hb] at u0 u1
  have A := cat2_chroma (n := n) h0 h1 (2 * (i / hdiv s))
  have B := cat2_chroma (n := n) h0 h1 (2 * (i / hdiv s) + 1)
  have a256 := cat2_lt (n := n) h0 h1 (2 * (i / hdiv s))
  have b256 := cat2_lt (n := n) h0 h1 (2 * (i / hdiv s) + 1)
  rw [← u0] at A
  rw [← u1] at B
  rw [← s16_cvtI8] at A B
  have y256 := hy i
  have sy := s16_small uy (by omega)
  have sz := s16_small uz (by omega)
  generalize hU : cat2 n c0 c1 (2 * (i / hdiv s)) = p at *
  generalize hV : cat2 n c0 c1 (2 * (i / hdiv s) + 1) = q at *
  have bp : -128 ≤ (p : Int) - 128 ∧ (p : Int) - 128 ≤ 127 := by omega
  have bq : -128 ≤ (q : Int) - 128 ∧ (q : Int) - 128 ≤ 127 := by omega
  have bY : (0 : Int) ≤ ((y i - rg.biasY : Nat) : Int) ∧ ((y i - rg.biasY : Nat) : Int) ≤ 255 := by omega
  have ecb1 : asI16 32767 = 32767 := rfl
  have ecb2 : asI16 (t.cb - 32767) = t.cb - 32767 := by have := ht.cb; exact asI16_id (by omega) (by omega)
  have eg1 : asI16 t.g1 = t.g1 := by have := ht.g1; exact asI16_id (by omega) (by omega)
  have eg2 : asI16 t.g2 = t.g2 := by have := ht.g2; exact asI16_id (by omega) (by omega)
  have e0 : asI16 0 = 0 := rfl
  have dy : ((max (y i) rg.biasY : Nat) : Int) - (rg.biasY : Int) = ((y i - rg.biasY : Nat) : Int) := by omega
  have sat : ∀ x x' : Int, x = 8191 + x' →
      satU8 (x / 2 ^ 14) = (max (min ((x' + (2 ^ (14 - 1) - 1)) / 2 ^ 14) (2 ^ 8 - 1)) 0).toNat := by
    intro x x' h; unfold satU8; norm_num; omega
  have fin : ∀ {Q : Quad} {x x' : Int}, s32 (Quad.nth Q j) d = x → x = 8191 + x' → -33554432 ≤ x →
      x ≤ 33554432 →
      profPack Q i = (max (min ((x' + (2 ^ (14 - 1) - 1)) / 2 ^ 14) (2 ^ 8 - 1)) 0).toNat := by
    intro Q x x' h1 h2 h3 h4
    rw [← sat x x' h2]
    exact profPack_at h1 (by omega) (by omega)
  have hu := profUu_at (cvtI8 (Quad.nth (uv s (sub8 c0 (set1_8 (128 : Nat))) (sub8 c1 (set1_8 (128 : Nat)))) j)) o hd8
  have hu0 := s16_eq_of hu.1
  have hu1 := s16_eq_of hu.2
  unfold profDecoded decodeRGB
  simp only [profRgb, hb, dy]
  cases o with
  | uv =>
    simp only [NVOrder.uPos, NVOrder.vPos, Nat.add_zero] at hu0 hu1 ⊢
    rw [hU, hV]
    obtain ⟨r1, _, r2, r3, _, _⟩ := nvProfSum sy sz A B (s16_interleaved 0 t.cr d).1
      (s16_interleaved 0 t.cr d).2 bY bp bq ht.y
    obtain ⟨_, g1, _, _, g2, g3⟩ := nvProfSum sy sz A B (s16_interleaved t.g2 t.g1 d).1
      (s16_interleaved t.g2 t.g1 d).2 bY bp bq ht.y
    obtain ⟨b1, _, b2, b3, _, _⟩ := nvProfSum sy sz (hu0.trans A) (hu1.trans A)
      (s16_interleaved 32767 (t.cb - 32767) d).1 (s16_interleaved 32767 (t.cb - 32767) d).2 bY bp bp ht.y
    simp only [e0, ecb1, ecb2, eg1, eg2] at r1 r2 r3 g1 g2 g3 b1 b2 b3
    refine Prod.ext ?_ (Prod.ext ?_ ?_) <;> dsimp only
    · refine fin (by rw [Quad.map2_nth, Quad.map_nth, Quad.map_nth]; exact r1) ?_ r2 r3
      unfold asI16 int16; ring
    · refine fin (by rw [Quad.map2_nth, Quad.map_nth, Quad.map_nth]; exact g1) ?_ g2 g3
      ring
    · refine fin (by rw [Quad.map2_nth, Quad.map_nth, Quad.map_nth]; exact b1) ?_ b2 b3
      ring
  | vu =>
    simp only [NVOrder.uPos, NVOrder.vPos, Nat.add_zero] at hu0 hu1 ⊢
    rw [hU, hV]
    obtain ⟨r1, _, r2, r3, _, _⟩ := nvProfSum sy sz A B (s16_interleaved t.cr 0 d).1
      (s16_interleaved t.cr 0 d).2 bY bp bq ht.y
    obtain ⟨_, g1, _, _, g2, g3⟩ := nvProfSum sy sz A B (s16_interleaved t.g1 t.g2 d).1
      (s16_interleaved t.g1 t.g2 d).2 bY bp bq ht.y
    obtain ⟨b1, _, b2, b3, _, _⟩ := nvProfSum sy sz (hu0.trans B) (hu1.trans B)
      (s16_interleaved 32767 (t.cb - 32767) d).1 (s16_interleaved 32767 (t.cb - 32767) d).2 bY bq bq ht.y
    simp only [e0, ecb1, ecb2, eg1, eg2] at r1 r2 r3 g1 g2 g3 b1 b2 b3
    refine Prod.ext ?_ (Prod.ext ?_ ?_) <;> dsimp only
    · refine fin (by rw [Quad.map2_nth, Quad.map_nth, Quad.map_nth]; exact r1) ?_ r2 r3
      unfold asI16 int16; ring
    · refine fin (by rw [Quad.map2_nth, Quad.map_nth, Quad.map_nth]; exact g1) ?_ g2 g3
      ring
    · refine fin (by rw [Quad.map2_nth, Quad.map_nth, Quad.map_nth]; exact b1) ?_ b2 b3
      ring

theorem avx2NvProf_ok {rg : ChromaRange} {t : InvCoef} (ht : ProfFits t) (hb : rg.biasUv = 128)
    (hby : rg.biasY < 256) : avx2NvProf.Ok rg t (profDecoded t rg.biasY) where
  even := rfl
  pos := by decide
  tailEven := rfl
  tailLe := le_refl _
  store := avx2Store_eq
  rgb := profRgb_ok (le_refl _) (fun s c0 c1 _ hi => avx2ProfUv_at s c0 c1 hi) ht hb hby

theorem sseNvProf_ok {rg : ChromaRange} {t : InvCoef} (ht : ProfFits t) (hb : rg.biasUv = 128)
    (hby : rg.biasY < 256) : sseNvProf.Ok rg t (profDecoded t rg.biasY) where
  even := rfl
  pos := by decide
  tailEven := rfl
  tailLe := by decide
  store := sseStore_eq
  rgb := profRgb_ok (by decide) (fun s c0 c1 _ hi => sseProfUv_at s c0 c1 hi) ht hb hby

theorem profFits_search (rg : YuvRange) (m : Matrix) : ProfFits (searchInverse 14 8 rg m) := by
  cases rg <;> cases m <;> exact ⟨by decide +kernel, by decide +kernel, by decide +kernel, by decide +kernel⟩

end Verif.X86
