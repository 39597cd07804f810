import Verif.Model.X86Prof
import Verif.Spec.ProfEncode
import Verif.Lemmas.X86Parts
import Verif.Lemmas.X86DeepEncArith
/-! # The arithmetic of the professional mode -/
namespace Verif.X86
open Spec

/-- Weights of 16 bits whose sums for words up to `B` give a byte when shifted by `q`. -/
def ByteFits (q B : Nat) (bias : Int) (k : Int × Int × Int) : Prop :=
  (-32768 ≤ k.1 ∧ k.1 ≤ 32767) ∧ (-32768 ≤ k.2.1 ∧ k.2.1 ≤ 32767) ∧ (-32768 ≤ k.2.2 ∧ k.2.2 ≤ 32767) ∧
  0 ≤ bias + B * (min 0 k.1 + min 0 k.2.1 + min 0 k.2.2) ∧
  bias + B * (max 0 k.1 + max 0 k.2.1 + max 0 k.2.2) < 256 * 2 ^ q ∧ q ≤ 16

instance (q B : Nat) (bias : Int) (k : Int × Int × Int) : Decidable (ByteFits q B bias k) := by
  unfold ByteFits; infer_instance

theorem mul_between_nat {a B : Nat} {k : Int} (h : a ≤ B) :
    (B : Int) * min 0 k ≤ a * k ∧ (a : Int) * k ≤ B * max 0 k := by
  have h' : (a : Int) ≤ B := by omega
  have h0 : (0 : Int) ≤ a := by omega
  by_cases hk : 0 ≤ k
  · rw [min_eq_left hk, max_eq_right hk]
    constructor <;> nlinarith
  · rw [min_eq_right (by omega), max_eq_left (by omega)]
    constructor <;> nlinarith

variable {q B : Nat} {bias : Int} {k : Int × Int × Int}

theorem ByteFits.sum (h : ByteFits q B bias k) {r g b : Nat} (hr : r ≤ B) (hg : g ≤ B) (hb : b ≤ B) :
    0 ≤ exactSum bias k r g b ∧ exactSum bias k r g b < 256 * 2 ^ q ∧
      exactSum bias k r g b ≤ 16777216 := by
  obtain ⟨_, _, _, h1, h2, hq⟩ := h
  have m1 := mul_between_nat (k := k.1) hr
  have m2 := mul_between_nat (k := k.2.1) hg
  have m3 := mul_between_nat (k := k.2.2) hb
  have e : (256 : Int) * 2 ^ q ≤ 256 * 2 ^ 16 := by
    have := pow_le_pow_right₀ (show (1 : Int) ≤ 2 by omega) hq
    omega
  rw [Int.mul_add, Int.mul_add] at h1 h2
  unfold exactSum
  norm_num at e
  refine ⟨by linarith, by linarith, by linarith⟩

theorem ByteFits.byte (h : ByteFits q B bias k) {r g b : Nat} (hr : r ≤ B) (hg : g ≤ B) (hb : b ≤ B) :
    0 ≤ exactSum bias k r g b / 2 ^ q ∧ exactSum bias k r g b / 2 ^ q < 256 := by
  obtain ⟨h1, h2, _⟩ := h.sum hr hg hb
  have hp : (0 : Int) < 2 ^ q := by positivity
  exact ⟨Int.ediv_nonneg h1 (Int.le_of_lt hp), Int.ediv_lt_of_lt_mul hp h2⟩

theorem profSum_at (h : ByteFits q B bias k) {rg bz : Reg} {j r g b : Nat} (hr : r ≤ B) (hg : g ≤ B)
    (hb : b ≤ B) (h1 : s16 rg (2 * j) = r) (h2 : s16 rg (2 * j + 1) = g) (h3 : s16 bz (2 * j) = b)
    (h4 : s16 bz (2 * j + 1) = 0) :
    s32 (profSum q bias k rg bz) j = exactSum bias k r g b / 2 ^ q := by
  obtain ⟨s0, _, s1⟩ := h.sum hr hg hb
  have hby := h.byte hr hg hb
  have hbl := blueDword_ok k.2.2 h.2.2.1.1 h.2.2.1.2 j
  rw [blueDword] at hbl
  unfold profSum srli32
  rw [s32_mk32, add32v, w32_mk32, s32_set1, s32_add, s32_madd, s32_madd, (s16_interleaved k.1 k.2.1 j).1,
    (s16_interleaved k.1 k.2.1 j).2, h1, h2, h3, h4, hbl, Int.zero_mul, Int.add_zero,
    asI16_id h.1.1 h.1.2, asI16_id h.2.1.1 h.2.1.2]
  unfold exactSum at *
  generalize (r : Int) * k.1 = x at *
  generalize (g : Int) * k.2.1 = y at *
  generalize (b : Int) * k.2.2 = z at *
  have e : asU32 (asI32 bias + asI32 (asI32 (x + y) + asI32 z)) = (x + y + z + bias).toNat := by
    unfold asU32 asI32; omega
  rw [e]
  have e2 : (((x + y + z + bias).toNat / 2 ^ q : Nat) : Int) = (x + y + z + bias) / 2 ^ q := by
    rw [Int.natCast_ediv, Int.toNat_of_nonneg s0]; norm_num
  rw [e2, asI32_id] <;> omega

/-- The words of the three channels. -/
def Words (c : Reg × Reg × Reg) (j r g b : Nat) : Prop :=
  s16 c.1 j = r ∧ s16 c.2.1 j = g ∧ s16 c.2.2 j = b

theorem s16_eq_of {a b : Reg} {i j : Nat} (h : w16 a i = w16 b j) : s16 a i = s16 b j := by
  unfold s16; rw [h]

theorem avx2Interleave16_at (x y : Reg) {j : Nat} (hj : j < 8) :
    s16 (avx2Interleave16 x y).1 (2 * j) = s16 x j ∧ s16 (avx2Interleave16 x y).1 (2 * j + 1) = s16 y j ∧
    s16 (avx2Interleave16 x y).2 (2 * j) = s16 x (j + 8) ∧
    s16 (avx2Interleave16 x y).2 (2 * j + 1) = s16 y (j + 8) := by
  have key : w16 (avx2Interleave16 x y).1 (2 * j) = w16 x j ∧
      w16 (avx2Interleave16 x y).1 (2 * j + 1) = w16 y j ∧
      w16 (avx2Interleave16 x y).2 (2 * j) = w16 x (j + 8) ∧
      w16 (avx2Interleave16 x y).2 (2 * j + 1) = w16 y (j + 8) := by
    simp only [avx2Interleave16]
    rw [w16_permLo _ _ (by omega), w16_permLo _ _ (by omega), w16_permHi _ _ (by omega),
      w16_permHi _ _ (by omega), w16_unpacklo2, w16_unpacklo2, w16_unpackhi2, w16_unpackhi2,
      w16_unpacklo2, w16_unpacklo2, w16_unpackhi2, w16_unpackhi2]
    have : j = 0 ∨ j = 1 ∨ j = 2 ∨ j = 3 ∨ j = 4 ∨ j = 5 ∨ j = 6 ∨ j = 7 := by omega
    rcases this with rfl | rfl | rfl | rfl | rfl | rfl | rfl | rfl <;>
      exact ⟨rfl, rfl, rfl, rfl⟩
  exact ⟨s16_eq_of key.1, s16_eq_of key.2.1, s16_eq_of key.2.2.1, s16_eq_of key.2.2.2⟩

theorem s16_byteWord {a : Reg} {j : Nat} {x : Int} (hx : 0 ≤ x) (hx' : x < 256)
    (h : w16 a j = satU16 x) : s16 a j = x := by
  rw [s16, h]; unfold satU16 asI16; omega

theorem avx2ProfDot_at (h : ByteFits q B bias k) {c : Reg × Reg × Reg} {j r g b : Nat} (hj : j < 16)
    (hr : r ≤ B) (hg : g ≤ B) (hb : b ≤ B) (hc : Words c j r g b) :
    s16 (avx2ProfDot q bias k c) j = exactSum bias k r g b / 2 ^ q := by
  obtain ⟨h1, h2, h3⟩ := hc
  have hby := h.byte hr hg hb
  refine s16_byteWord hby.1 hby.2 ?_
  unfold avx2ProfDot
  simp only []
  rw [w16_perm4 _ (by omega), w16_packus]
  refine congrArg satU16 ?_
  by_cases h8 : j < 8
  · obtain ⟨a1, a2, _, _⟩ := avx2Interleave16_at c.1 c.2.1 h8
    obtain ⟨b1, b2, _, _⟩ := avx2Interleave16_at c.2.2 zero h8
    have key := profSum_at h hr hg hb (a1.trans h1) (a2.trans h2) (b1.trans h3) (b2.trans (s16_zero _))
    refine Eq.trans ?_ key
    have : j = 0 ∨ j = 1 ∨ j = 2 ∨ j = 3 ∨ j = 4 ∨ j = 5 ∨ j = 6 ∨ j = 7 := by omega
    rcases this with rfl | rfl | rfl | rfl | rfl | rfl | rfl | rfl <;> rfl
  · obtain ⟨i, rfl⟩ : ∃ i, j = i + 8 := ⟨j - 8, by omega⟩
    have hi : i < 8 := by omega
    obtain ⟨_, _, a1, a2⟩ := avx2Interleave16_at c.1 c.2.1 hi
    obtain ⟨_, _, b1, b2⟩ := avx2Interleave16_at c.2.2 zero hi
    have key := profSum_at h hr hg hb (a1.trans h1) (a2.trans h2) (b1.trans h3) (b2.trans (s16_zero _))
    refine Eq.trans ?_ key
    have : i = 0 ∨ i = 1 ∨ i = 2 ∨ i = 3 ∨ i = 4 ∨ i = 5 ∨ i = 6 ∨ i = 7 := by omega
    rcases this with rfl | rfl | rfl | rfl | rfl | rfl | rfl | rfl <;> rfl

theorem sseProfDot_at (h : ByteFits q B bias k) {c : Reg × Reg × Reg} {j r g b : Nat} (hj : j < 8)
    (hr : r ≤ B) (hg : g ≤ B) (hb : b ≤ B) (hc : Words c j r g b) :
    s16 (sseProfDot q bias k c) j = exactSum bias k r g b / 2 ^ q := by
  obtain ⟨h1, h2, h3⟩ := hc
  have hby := h.byte hr hg hb
  refine s16_byteWord hby.1 hby.2 ?_
  unfold sseProfDot sseInterleave16
  simp only []
  rw [w16_packus]
  refine congrArg satU16 ?_
  by_cases h8 : j % 8 < 4
  · have ej : (j / 8 * 4 + j % 4) / 4 * 8 + (j / 8 * 4 + j % 4) % 4 = j := by omega
    rw [if_pos h8]
    refine profSum_at h hr hg hb ?_ ?_ ?_ ?_
    · rw [(s16_unpacklo2 _ _ _).1, ej, h1]
    · rw [(s16_unpacklo2 _ _ _).2, ej, h2]
    · rw [(s16_unpacklo2 _ _ _).1, ej, h3]
    · rw [(s16_unpacklo2 _ _ _).2, s16_zero]
  · have ej : (j / 8 * 4 + j % 4) / 4 * 8 + 4 + (j / 8 * 4 + j % 4) % 4 = j := by omega
    rw [if_neg h8]
    refine profSum_at h hr hg hb ?_ ?_ ?_ ?_
    · rw [(s16_unpackhi2 _ _ _).1, ej, h1]
    · rw [(s16_unpackhi2 _ _ _).2, ej, h2]
    · rw [(s16_unpackhi2 _ _ _).1, ej, h3]
    · rw [(s16_unpackhi2 _ _ _).2, s16_zero]

/-! ## The words -/

theorem zextLo_at {c : Reg × Reg × Reg} {j r g b : Nat} (h : BytesAt c (j / 8 * 16 + j % 8) r g b) :
    Words (zextLo c) j r g b := by
  obtain ⟨⟨h1, h2⟩, ⟨h3, h4⟩, h5, h6⟩ := h
  refine ⟨?_, ?_, ?_⟩ <;> simp only [zextLo, s16, w16_unpacklo1, zero, Nat.mul_zero, Nat.add_zero, h1, h3, h5] <;>
    exact asI16_id (by omega) (by omega)
theorem zextHi_at {c : Reg × Reg × Reg} {j r g b : Nat} (h : BytesAt c (j / 8 * 16 + 8 + j % 8) r g b) :
    Words (zextHi c) j r g b := by
  obtain ⟨⟨h1, h2⟩, ⟨h3, h4⟩, h5, h6⟩ := h
  refine ⟨?_, ?_, ?_⟩ <;> simp only [zextHi, s16, w16_unpackhi1, zero, Nat.mul_zero, Nat.add_zero, h1, h3, h5] <;>
    exact asI16_id (by omega) (by omega)

theorem s16_sum2 {a : Reg} {j x y : Nat} (hx : a (2 * j) = x) (hx' : x < 256)
    (hy : a (2 * j + 1) = y) (hy' : y < 256) :
    s16 (maddubs a (set1_8 1)) j = ((x + y : Nat) : Int) := by
  have e1 : asI8 ((asU8 1 : Nat) : Int) = 1 := by decide
  rw [maddubs, s16_mk16, hx, hy]
  simp only [set1_8, e1]
  unfold satI16
  rw [asI16_id] <;> omega

theorem sumPairs_at {c : Reg × Reg × Reg} {j r g b r' g' b' : Nat} (h : BytesAt c (2 * j) r g b)
    (h' : BytesAt c (2 * j + 1) r' g' b') : Words (sumPairs c) j (r + r') (g + g') (b + b') := by
  obtain ⟨⟨h1, h2⟩, ⟨h3, h4⟩, h5, h6⟩ := h
  obtain ⟨⟨i1, i2⟩, ⟨i3, i4⟩, i5, i6⟩ := h'
  exact ⟨s16_sum2 h1 h2 i1 i2, s16_sum2 h3 h4 i3 i4, s16_sum2 h5 h6 i5 i6⟩

theorem encVal_exact (q bias : Nat) (k : Int × Int × Int) (r g b : Nat) :
    encVal q k.1 k.2.1 k.2.2 bias r g b = exactSum (profBias q bias) k r g b / 2 ^ q := rfl

theorem satU8_low8 {x : Int} (h : 0 ≤ x) (h' : x < 256) : satU8 x = low8 x := by
  unfold satU8 low8; omega

/-! ## The bytes -/

variable {bias : Nat} {c : Reg × Reg × Reg} {R G B' : Nat → Nat}

theorem profBytes_at {dot : Nat → Int → Int × Int × Int → Reg × Reg × Reg → Reg} {n : Nat}
    (hd : ∀ (c : Reg × Reg × Reg) j r g b, j < n / 2 → r ≤ 255 → g ≤ 255 → b ≤ 255 → Words c j r g b →
      s16 (dot 15 (profBias 15 bias) k c) j = exactSum (profBias 15 bias) k r g b / 2 ^ 15)
    (h : ByteFits 15 255 (profBias 15 bias) k) (hn : n % 16 = 0) (hc : Chans c n R G B') {i : Nat}
    (hi : i < n) :
    profBytes dot bias k c i = low8 (encVal 15 k.1 k.2.1 k.2.2 bias (R i) (G i) (B' i)) := by
  have hb := hc i hi
  have r255 : R i ≤ 255 := by have := hb.1.2; omega
  have g255 : G i ≤ 255 := by have := hb.2.1.2; omega
  have b255 : B' i ≤ 255 := by have := hb.2.2.2; omega
  have hby := h.byte r255 g255 b255
  rw [encVal_exact, ← satU8_low8 hby.1 hby.2]
  unfold profBytes packus16
  split
  · refine congrArg satU8 (hd _ _ _ _ _ (by omega) r255 g255 b255 (zextLo_at ?_))
    have e : (i / 16 * 8 + i % 8) / 8 * 16 + (i / 16 * 8 + i % 8) % 8 = i := by omega
    rw [e]; exact hb
  · refine congrArg satU8 (hd _ _ _ _ _ (by omega) r255 g255 b255 (zextHi_at ?_))
    have e : (i / 16 * 8 + i % 8) / 8 * 16 + 8 + (i / 16 * 8 + i % 8) % 8 = i := by omega
    rw [e]; exact hb

theorem avx2ProfPairs_at (h : ByteFits 16 510 (profBias 16 bias) k) (hc : Chans c 32 R G B') {i : Nat}
    (hi : i < 16) :
    avx2ProfPairs bias k c i = low8 (encVal 16 k.1 k.2.1 k.2.2 bias (R (2 * i) + R (2 * i + 1))
      (G (2 * i) + G (2 * i + 1)) (B' (2 * i) + B' (2 * i + 1))) := by
  have key : ∀ d : Reg, permute4x64 0xD8 (packus16 d d) i = satU8 (s16 d i) := by
    intro d; interval_cases i <;> rfl
  have hb := hc (2 * i) (by omega)
  have hb' := hc (2 * i + 1) (by omega)
  have r255 : R (2 * i) + R (2 * i + 1) ≤ 510 := by have := hb.1.2; have := hb'.1.2; omega
  have g255 : G (2 * i) + G (2 * i + 1) ≤ 510 := by have := hb.2.1.2; have := hb'.2.1.2; omega
  have b255 : B' (2 * i) + B' (2 * i + 1) ≤ 510 := by have := hb.2.2.2; have := hb'.2.2.2; omega
  have hby := h.byte r255 g255 b255
  rw [encVal_exact, ← satU8_low8 hby.1 hby.2, avx2ProfPairs, key]
  exact congrArg satU8 (avx2ProfDot_at h (by omega) r255 g255 b255 (sumPairs_at hb hb'))

theorem sseProfPairs_at (h : ByteFits 16 510 (profBias 16 bias) k) (hc : Chans c 16 R G B') {i : Nat}
    (hi : i < 8) :
    sseProfPairs bias k c i = low8 (encVal 16 k.1 k.2.1 k.2.2 bias (R (2 * i) + R (2 * i + 1))
      (G (2 * i) + G (2 * i + 1)) (B' (2 * i) + B' (2 * i + 1))) := by
  have hb := hc (2 * i) (by omega)
  have hb' := hc (2 * i + 1) (by omega)
  have r255 : R (2 * i) + R (2 * i + 1) ≤ 510 := by have := hb.1.2; have := hb'.1.2; omega
  have g255 : G (2 * i) + G (2 * i + 1) ≤ 510 := by have := hb.2.1.2; have := hb'.2.1.2; omega
  have b255 : B' (2 * i) + B' (2 * i + 1) ≤ 510 := by have := hb.2.2.2; have := hb'.2.2.2; omega
  have hby := h.byte r255 g255 b255
  rw [encVal_exact, ← satU8_low8 hby.1 hby.2, sseProfPairs, packus_low (by omega)]
  exact congrArg satU8 (sseProfDot_at h (by omega) r255 g255 b255 (sumPairs_at hb hb'))

/-! ## The steps -/

/-- The registers hold the components of `n` pixels. -/
def HoldsPx (ch : Channels) (n : Nat) (c : Reg × Reg × Reg) (p : Nat → Buf) : Prop :=
  Chans c n (fun x => red ch (p x)) (fun x => green ch (p x)) (fun x => blue ch (p x))

theorem profFits (rg : YuvRange) (m : Matrix) :
    ByteFits 15 255 (profBias 15 (getYuvRange 8 rg).biasY) (kLuma (searchForward 15 8 rg m)) ∧
    (ByteFits 15 255 (profBias 15 (getYuvRange 8 rg).biasUv) (kCb (searchForward 15 8 rg m)) ∧
    ByteFits 15 255 (profBias 15 (getYuvRange 8 rg).biasUv) (kCr (searchForward 15 8 rg m))) ∧
    ByteFits 16 510 (profBias 16 (getYuvRange 8 rg).biasUv) (kCb (searchForward 15 8 rg m)) ∧
    ByteFits 16 510 (profBias 16 (getYuvRange 8 rg).biasUv) (kCr (searchForward 15 8 rg m)) := by
  cases rg <;> cases m <;> decide +kernel

theorem avgUp_one (x : Nat) : avgUp [x] = x := by
  unfold avgUp; simp

theorem avx2Prof_ok (ch : Channels) (rg : YuvRange) (m : Matrix) :
    PartOk (avx2Prof ch (getYuvRange 8 rg) (searchForward 15 8 rg m)) ch (profVals ch rg m)
      (HoldsPx ch 32) := by
  obtain ⟨fy, ⟨fu, fv⟩, gu, gv⟩ := profFits rg m
  have hd : ∀ (bias : Nat) (k : Int × Int × Int), ByteFits 15 255 (profBias 15 bias) k →
      ∀ (c : Reg × Reg × Reg) j r g b, j < 32 / 2 → r ≤ 255 → g ≤ 255 → b ≤ 255 → Words c j r g b →
      s16 (avx2ProfDot 15 (profBias 15 bias) k c) j = exactSum (profBias 15 bias) k r g b / 2 ^ 15 :=
    fun bias k h c j r g b hj hr hg hb hc => avx2ProfDot_at h (by omega) hr hg hb hc
  unfold profVals luma8 lumaVal cb8 cbVal cr8 crVal profCb profCr avx2Prof
  generalize searchForward 15 8 rg m = t at *
  generalize getYuvRange 8 rg = y at *
  simp only [List.map_cons, List.map_nil, avgUp_one]
  constructor <;> dsimp only
  · decide
  · decide
  · intro src x0 hb hl
    obtain ⟨c, e, hp⟩ := avx2Load_at ch hl
    exact ⟨c, e, hp.chans hb⟩
  · intro c p hc i hi
    exact profBytes_at (hd _ _ fy) fy rfl hc hi
  · intro c p hc i hi
    exact profBytes_at (hd _ _ fu) fu rfl hc hi
  · intro c p hc i hi
    exact profBytes_at (hd _ _ fv) fv rfl hc hi
  · exact fun c p hc i hi => avx2ProfPairs_at gu hc hi
  · exact fun c p hc i hi => avx2ProfPairs_at gv hc hi
  · exact fun c p d r hc hd i hi => avx2ProfPairs_at gu (Chans.avg hc hd) hi
  · exact fun c p d r hc hd i hi => avx2ProfPairs_at gv (Chans.avg hc hd) hi
  · exact avx2Interleave2_low
  · exact avx2Interleave2_bytes

theorem sseProf_ok (ch : Channels) (rg : YuvRange) (m : Matrix) :
    PartOk (sseProf ch (getYuvRange 8 rg) (searchForward 15 8 rg m)) ch (profVals ch rg m)
      (HoldsPx ch 16) := by
  obtain ⟨fy, ⟨fu, fv⟩, gu, gv⟩ := profFits rg m
  have hd : ∀ (bias : Nat) (k : Int × Int × Int), ByteFits 15 255 (profBias 15 bias) k →
      ∀ (c : Reg × Reg × Reg) j r g b, j < 16 / 2 → r ≤ 255 → g ≤ 255 → b ≤ 255 → Words c j r g b →
      s16 (sseProfDot 15 (profBias 15 bias) k c) j = exactSum (profBias 15 bias) k r g b / 2 ^ 15 :=
    fun bias k h c j r g b hj hr hg hb hc => sseProfDot_at h (by omega) hr hg hb hc
  unfold profVals luma8 lumaVal cb8 cbVal cr8 crVal profCb profCr sseProf
  generalize searchForward 15 8 rg m = t at *
  generalize getYuvRange 8 rg = y at *
  simp only [List.map_cons, List.map_nil, avgUp_one]
  constructor <;> dsimp only
  · decide
  · decide
  · intro src x0 hb hl
    obtain ⟨c, e, hp⟩ := sseLoad_at ch hl
    exact ⟨c, e, hp.chans hb⟩
  · intro c p hc i hi
    exact profBytes_at (hd _ _ fy) fy rfl hc hi
  · intro c p hc i hi
    exact profBytes_at (hd _ _ fu) fu rfl hc hi
  · intro c p hc i hi
    exact profBytes_at (hd _ _ fv) fv rfl hc hi
  · exact fun c p hc i hi => sseProfPairs_at gu hc hi
  · exact fun c p hc i hi => sseProfPairs_at gv hc hi
  · exact fun c p d r hc hd i hi => sseProfPairs_at gu (Chans.avg hc hd) hi
  · exact fun c p d r hc hd i hi => sseProfPairs_at gv (Chans.avg hc hd) hi
  · exact sseInterleave2_low
  · exact sseInterleave2_bytes

end Verif.X86
