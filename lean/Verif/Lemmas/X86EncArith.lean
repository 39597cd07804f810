import Verif.Model.X86Encode
import Verif.Spec.VecEncode
import Verif.Lemmas.X86Load
/-! # The arithmetic of the x86 encoders -/
namespace Verif.X86
open Spec

/-- The weights and the offset of one output: nothing wraps and nothing is negative. -/
def DotOk (bias : Int) (k : Int × Int × Int) : Prop :=
  (-8192 ≤ k.1 ∧ k.1 ≤ 8192) ∧ (-8192 ≤ k.2.1 ∧ k.2.1 ≤ 8192) ∧ (-8192 ≤ k.2.2 ∧ k.2.2 ≤ 8192) ∧
  bias ≤ 1000 ∧
  0 ≤ bias + (min 0 (mulRound 4095 k.1) + min 0 (mulRound 4095 k.2.1) + min 0 (mulRound 4095 k.2.2))

instance (bias : Int) (k : Int × Int × Int) : Decidable (DotOk bias k) := by
  unfold DotOk; infer_instance

theorem mulRound_word {w : Nat} {k : Int} (hw : w ≤ 4095) (hk : -8192 ≤ k ∧ k ≤ 8192) :
    min 0 (mulRound 4095 k) ≤ mulRound w k ∧ mulRound w k ≤ 1024 ∧ -1024 ≤ mulRound w k := by
  have h1 := mul_bounds (a := (w : Int)) (t := k) (A := 4095) (T := 8192) (by omega) (by omega)
  have h2 : 0 ≤ (w : Int) * k ∨ 4095 * k ≤ (w : Int) * k := by
    by_cases h : 0 ≤ k
    · exact .inl (Int.mul_nonneg (by omega) h)
    · exact .inr (by nlinarith)
  unfold mulRound
  generalize (w : Int) * k = p at h1 h2
  omega

theorem s16_mulhrs12 {a : Reg} {t : Int} {k w : Nat} (ha : s16 a k = w) (hw : w ≤ 4095)
    (ht : -8192 ≤ t ∧ t ≤ 8192) : s16 (mulhrs16 a (set1_16 (asI16 t))) k = mulRound w t := by
  have hb := mulRound_word hw ht
  rw [mulhrs16, s16_mk16, s16_set1, asI16_asI16, asI16_id (x := t) (by omega) (by omega), ha]
  have e : ((w : Int) * t / 16384 + 1) / 2 = mulRound w t := by
    unfold mulRound; generalize (w : Int) * t = p; omega
  rw [e, asI16_id (by omega) (by omega)]

theorem w16_of_s16 {r : Reg} {k : Nat} {x : Int} (hx : 0 ≤ x) (hr : w16 r k < 65536)
    (h : s16 r k = x) : w16 r k = x.toNat := by
  unfold s16 asI16 at h; omega

theorem w16_mk16_lt (f : Nat → Int) (k : Nat) : w16 (mk16 f) k < 65536 := by
  rw [w16_mk16]; exact asU16_lt _

/-- Word `k` of the three channels. -/
def WordsAt (c : Reg × Reg × Reg) (k r g b : Nat) : Prop :=
  (s16 c.1 k = r ∧ r ≤ 4095) ∧ (s16 c.2.1 k = g ∧ g ≤ 4095) ∧ (s16 c.2.2 k = b ∧ b ≤ 4095)

theorem encDot_at {bias : Int} {k : Int × Int × Int} (h : DotOk bias k) {c : Reg × Reg × Reg}
    {j r g b : Nat} (hc : WordsAt c j r g b) : satU8 (s16 (encDot bias k c) j) = vecSum bias k r g b := by
  obtain ⟨k1, k2, k3, hb, hs⟩ := h
  obtain ⟨⟨r1, r2⟩, ⟨g1, g2⟩, b1, b2⟩ := hc
  have m1 := mulRound_word r2 k1
  have m2 := mulRound_word g2 k2
  have m3 := mulRound_word b2 k3
  unfold encDot vecSum
  have e : s16 (add16 (set1_16 bias) (add16
      (add16 (mulhrs16 c.1 (set1_16 (asI16 k.1))) (mulhrs16 c.2.1 (set1_16 (asI16 k.2.1))))
      (mulhrs16 c.2.2 (set1_16 (asI16 k.2.2))))) j
      = bias + (mulRound r k.1 + mulRound g k.2.1 + mulRound b k.2.2) := by
    rw [s16_add, s16_add, s16_add, s16_set1, s16_mulhrs12 r1 r2 k1, s16_mulhrs12 g1 g2 k2,
      s16_mulhrs12 b1 b2 k3, asI16_id (x := bias) (by omega) (by omega),
      asI16_id (x := mulRound r k.1 + mulRound g k.2.1) (by omega) (by omega),
      asI16_id (x := mulRound r k.1 + mulRound g k.2.1 + mulRound b k.2.2) (by omega) (by omega),
      asI16_id (by omega) (by omega)]
  generalize hS : bias + (mulRound r k.1 + mulRound g k.2.1 + mulRound b k.2.2) = S at e
  have hS0 : 0 ≤ S := by omega
  have hS1 : S ≤ 10000 := by omega
  have e1 := w16_of_s16 hS0 (w16_mk16_lt _ _) e
  rw [srli16, s16_mk16]
  unfold add16 at e1 ⊢
  rw [e1]
  have e2 : ((S.toNat / 2 ^ 2 : Nat) : Int) = S / 4 := by omega
  rw [e2, asI16_id (by omega) (by omega)]
  rfl

theorem s16_srli4 {a : Reg} {k x : Nat} (hx : x < 256) (h : w16 a k = x + 256 * x) :
    s16 (srli16 4 a) k = (expand12 x : Nat) := by
  rw [srli16, s16_mk16, h]
  unfold expand12
  rw [asI16_id] <;> omega

theorem expand12_le {x : Nat} (h : x < 256) : expand12 x ≤ 4095 := by unfold expand12; omega

/-- The bytes of the three channels at index `i`. -/
def BytesAt (c : Reg × Reg × Reg) (i r g b : Nat) : Prop :=
  (c.1 i = r ∧ r < 256) ∧ (c.2.1 i = g ∧ g < 256) ∧ (c.2.2 i = b ∧ b < 256)

theorem wideLo_at {c : Reg × Reg × Reg} {k r g b : Nat} (h : BytesAt c (k / 8 * 16 + k % 8) r g b) :
    WordsAt (wideLo c) k (expand12 r) (expand12 g) (expand12 b) := by
  obtain ⟨⟨h1, h2⟩, ⟨h3, h4⟩, h5, h6⟩ := h
  refine ⟨⟨s16_srli4 h2 ?_, expand12_le h2⟩, ⟨s16_srli4 h4 ?_, expand12_le h4⟩, s16_srli4 h6 ?_,
    expand12_le h6⟩
  · rw [w16_unpacklo1, h1]
  · rw [w16_unpacklo1, h3]
  · rw [w16_unpacklo1, h5]

theorem wideHi_at {c : Reg × Reg × Reg} {k r g b : Nat}
    (h : BytesAt c (k / 8 * 16 + 8 + k % 8) r g b) :
    WordsAt (wideHi c) k (expand12 r) (expand12 g) (expand12 b) := by
  obtain ⟨⟨h1, h2⟩, ⟨h3, h4⟩, h5, h6⟩ := h
  refine ⟨⟨s16_srli4 h2 ?_, expand12_le h2⟩, ⟨s16_srli4 h4 ?_, expand12_le h4⟩, s16_srli4 h6 ?_,
    expand12_le h6⟩
  · rw [w16_unpackhi1, h1]
  · rw [w16_unpackhi1, h3]
  · rw [w16_unpackhi1, h5]

theorem s16_pair {a : Reg} {k x y : Nat} (hx : a (2 * k) = x) (hx' : x < 256)
    (hy : a (2 * k + 1) = y) (hy' : y < 256) :
    s16 (maddubs a (set1_8 8)) k = ((8 * (x + y) : Nat) : Int) := by
  have e8 : asI8 ((asU8 8 : Nat) : Int) = 8 := by decide
  rw [maddubs, s16_mk16, hx, hy]
  simp only [set1_8, e8]
  unfold satI16
  rw [asI16_id] <;> omega

theorem pairWords_at {c : Reg × Reg × Reg} {k r g b r' g' b' : Nat} (h : BytesAt c (2 * k) r g b)
    (h' : BytesAt c (2 * k + 1) r' g' b') :
    WordsAt (pairWords c) k (8 * (r + r')) (8 * (g + g')) (8 * (b + b')) := by
  obtain ⟨⟨h1, h2⟩, ⟨h3, h4⟩, h5, h6⟩ := h
  obtain ⟨⟨i1, i2⟩, ⟨i3, i4⟩, i5, i6⟩ := h'
  exact ⟨⟨s16_pair h1 h2 i1 i2, by omega⟩, ⟨s16_pair h3 h4 i3 i4, by omega⟩, s16_pair h5 h6 i5 i6,
    by omega⟩

theorem avgRows_at {c d : Reg × Reg × Reg} {i r g b r' g' b' : Nat} (h : BytesAt c i r g b)
    (h' : BytesAt d i r' g' b') :
    BytesAt (avgRows c d) i ((r + r' + 1) / 2) ((g + g' + 1) / 2) ((b + b' + 1) / 2) := by
  obtain ⟨⟨h1, h2⟩, ⟨h3, h4⟩, h5, h6⟩ := h
  obtain ⟨⟨i1, i2⟩, ⟨i3, i4⟩, i5, i6⟩ := h'
  refine ⟨⟨?_, by omega⟩, ⟨?_, by omega⟩, ?_, by omega⟩ <;> simp only [avgRows, avg8]
  · rw [h1, i1]
  · rw [h3, i3]
  · rw [h5, i5]

/-- The bytes of `n` pixels. -/
def Chans (c : Reg × Reg × Reg) (n : Nat) (R G B : Nat → Nat) : Prop :=
  ∀ i, i < n → BytesAt c i (R i) (G i) (B i)

variable {bias : Int} {k : Int × Int × Int} {c : Reg × Reg × Reg} {R G B : Nat → Nat}

theorem dotBytes_at (h : DotOk bias k) {n : Nat} (hn : n % 16 = 0) (hc : Chans c n R G B) {i : Nat}
    (hi : i < n) :
    dotBytes bias k c i = vecSum bias k (expand12 (R i)) (expand12 (G i)) (expand12 (B i)) := by
  unfold dotBytes packus16
  split
  · refine encDot_at h (wideLo_at ?_)
    have e : (i / 16 * 8 + i % 8) / 8 * 16 + (i / 16 * 8 + i % 8) % 8 = i := by omega
    rw [e]; exact hc i hi
  · refine encDot_at h (wideHi_at ?_)
    have e : (i / 16 * 8 + i % 8) / 8 * 16 + 8 + (i / 16 * 8 + i % 8) % 8 = i := by omega
    rw [e]; exact hc i hi

theorem dotBytesLow_at (h : DotOk bias k) (hc : Chans c 8 R G B) {i : Nat} (hi : i < 8) :
    dotBytesLow bias k c i = vecSum bias k (expand12 (R i)) (expand12 (G i)) (expand12 (B i)) := by
  unfold dotBytesLow
  rw [packus_low hi]
  refine encDot_at h (wideLo_at ?_)
  have e : i / 8 * 16 + i % 8 = i := by omega
  rw [e]; exact hc i hi

theorem ssePairs_at (h : DotOk bias k) {n : Nat} (hn : n ≤ 16) (hc : Chans c n R G B) {i : Nat}
    (hi : 2 * i + 1 < n) :
    ssePairs bias k c i = vecSum bias k (8 * (R (2 * i) + R (2 * i + 1)))
      (8 * (G (2 * i) + G (2 * i + 1))) (8 * (B (2 * i) + B (2 * i + 1))) := by
  unfold ssePairs
  rw [packus_low (by omega)]
  exact encDot_at h (pairWords_at (hc _ (by omega)) (hc _ (by omega)))

theorem avx2Pairs_at (h : DotOk bias k) (hc : Chans c 32 R G B) {i : Nat} (hi : i < 16) :
    avx2Pairs bias k c i = vecSum bias k (8 * (R (2 * i) + R (2 * i + 1)))
      (8 * (G (2 * i) + G (2 * i + 1))) (8 * (B (2 * i) + B (2 * i + 1))) := by
  have key : ∀ d : Reg, permute4x64 0xD8 (packus16 d d) i = satU8 (s16 d i) := by
    intro d; interval_cases i <;> rfl
  unfold avx2Pairs
  rw [key]
  exact encDot_at h (pairWords_at (hc _ (by omega)) (hc _ (by omega)))

end Verif.X86
