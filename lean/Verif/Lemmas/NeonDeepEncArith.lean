import Verif.Model.NeonDeepEncode
import Verif.Spec.NeonDeepEncode
import Verif.Lemmas.NeonDeep16
import Verif.Lemmas.X86DeepEncFrames
/-! # The arithmetic of the 64-bit ARM encoders of 10- to 16-bit images -/
namespace Verif.Neon
open X86 Spec

/-! ## 32-bit sums -/

theorem w32_mlalU (o : Nat) (acc v : Reg) (c : Int) (j : Nat) :
    w32 (mlalU o acc v c) j = (w32 acc j + w16 v (o + j) * asU16 c) % 4294967296 := by
  rw [mlalU, w32_mk32]; unfold asU32
  generalize w16 v (o + j) * asU16 c = p
  omega

theorem w32_mlslU (o : Nat) (acc v : Reg) (c : Int) (j : Nat) :
    (w32 (mlslU o acc v c) j : Int) = ((w32 acc j : Int) - (w16 v (o + j) * asU16 c : Nat)) % 4294967296 := by
  rw [mlslU, w32_mk32]; unfold asU32
  generalize w16 v (o + j) * asU16 c = p
  omega

theorem w32_wideBias {bias : Nat} (h : bias ≤ 32768) (j : Nat) :
    w32 (wideBias bias) j = bias * 32768 + 16383 := by
  rw [wideBias, set1_32, w32_mk32]; unfold asU32
  norm_num
  omega

theorem asU16_weight {c : Int} (h : 0 ≤ c ∧ c ≤ 32767) : ((asU16 c : Nat) : Int) = c := by
  unfold asU16; omega

theorem part_luma {o j bias r g b : Nat} {c : Rgb} {k1 k2 k3 : Int} (hb : bias ≤ 4096)
    (h1 : 0 ≤ k1 ∧ k1 ≤ 32767) (h2 : 0 ≤ k2 ∧ k2 ≤ 32767) (h3 : 0 ≤ k3 ∧ k3 ≤ 32767) (h : k1 + k2 + k3 ≤ 32769)
    (br : r < 65536) (bg : g < 65536) (bb : b < 65536)
    (e1 : w16 c.1 (o + j) = r) (e2 : w16 c.2.1 (o + j) = g) (e3 : w16 c.2.2 (o + j) = b) :
    (w32 (mlalU o (mlalU o (mlalU o (wideBias bias) c.1 k1) c.2.1 k2) c.2.2 k3) j : Int)
      = r * k1 + g * k2 + b * k3 + (bias * 2 ^ 15 + (2 ^ (15 - 1) - 1)) := by
  rw [w32_mlalU, w32_mlalU, w32_mlalU, w32_wideBias (by omega), e1, e2, e3]
  obtain ⟨a1, rfl⟩ := Int.eq_ofNat_of_zero_le h1.1
  obtain ⟨a2, rfl⟩ := Int.eq_ofNat_of_zero_le h2.1
  obtain ⟨a3, rfl⟩ := Int.eq_ofNat_of_zero_le h3.1
  have m1 : r * a1 ≤ 65535 * a1 := Nat.mul_le_mul_right _ (by omega)
  have m2 : g * a2 ≤ 65535 * a2 := Nat.mul_le_mul_right _ (by omega)
  have m3 : b * a3 ≤ 65535 * a3 := Nat.mul_le_mul_right _ (by omega)
  rw [X86.asU16_nat (x := a1) (by omega), X86.asU16_nat (x := a2) (by omega), X86.asU16_nat (x := a3) (by omega)]
  rw [show ((r : Int) * (a1 : Int)) = ((r * a1 : Nat) : Int) by push_cast; rfl,
    show ((g : Int) * (a2 : Int)) = ((g * a2 : Nat) : Int) by push_cast; rfl,
    show ((b : Int) * (a3 : Int)) = ((b * a3 : Nat) : Int) by push_cast; rfl]
  generalize r * a1 = p1 at *
  generalize g * a2 = p2 at *
  generalize b * a3 = p3 at *
  norm_num
  omega

/-- One positive and two negative weights. -/
def SignOk (d : Nat) (bias : Nat) (x y z : Int) : Prop :=
  (0 ≤ x ∧ x ≤ 20000) ∧ (y ≤ 0 ∧ -20000 ≤ y) ∧ (z ≤ 0 ∧ -20000 ≤ z)
    ∧ 0 ≤ (2 ^ d - 1) * (y + z) + ((bias : Int) * 32768 + 16383)

instance (d bias : Nat) (x y z : Int) : Decidable (SignOk d bias x y z) := by unfold SignOk; infer_instance

theorem part_chroma {d o j bias x y z : Nat} {vx vy vz : Reg} {kx ky kz : Int} (hb : bias ≤ 32768)
    (hk : SignOk d bias kx ky kz) (hd : d ≤ 16)
    (bx : x < 2 ^ d) (by_ : y < 2 ^ d) (bz : z < 2 ^ d)
    (e1 : w16 vx (o + j) = x) (e2 : w16 vy (o + j) = y) (e3 : w16 vz (o + j) = z) :
    (w32 (mlslU o (mlslU o (mlalU o (wideBias bias) vx kx.natAbs) vy ky.natAbs) vz kz.natAbs) j : Int)
      = x * kx + y * ky + z * kz + (bias * 2 ^ 15 + (2 ^ (15 - 1) - 1)) := by
  obtain ⟨h1, h2, h3, h4⟩ := hk
  have hp : (2 : Nat) ^ d ≤ 2 ^ 16 := Nat.pow_le_pow_right (by decide) hd
  rw [w32_mlslU, w32_mlslU, w32_mlalU, w32_wideBias hb, e1, e2, e3]
  obtain ⟨a1, rfl⟩ := Int.eq_ofNat_of_zero_le h1.1
  obtain ⟨a2, e2⟩ := Int.eq_ofNat_of_zero_le (show 0 ≤ -ky by omega)
  obtain ⟨a3, e3⟩ := Int.eq_ofNat_of_zero_le (show 0 ≤ -kz by omega)
  obtain rfl : ky = -(a2 : Int) := by omega
  obtain rfl : kz = -(a3 : Int) := by omega
  have hq : ((2 ^ d : Nat) : Int) = (2 : Int) ^ d := by push_cast; rfl
  have h4' : (2 ^ d - 1) * (a2 + a3) ≤ bias * 32768 + 16383 := by
    have h1p : 1 ≤ 2 ^ d := Nat.one_le_two_pow
    zify [h1p]
    linarith [h4]
  have m1 : x * a1 ≤ 65535 * a1 := Nat.mul_le_mul_right _ (by omega)
  have m2 : y * a2 ≤ (2 ^ d - 1) * a2 := Nat.mul_le_mul_right _ (by omega)
  have m3 : z * a3 ≤ (2 ^ d - 1) * a3 := Nat.mul_le_mul_right _ (by omega)
  rw [Nat.mul_add] at h4'
  rw [show ((a1 : Int).natAbs : Int) = a1 by simp, show ((-(a2 : Int)).natAbs : Int) = a2 by simp,
    show ((-(a3 : Int)).natAbs : Int) = a3 by simp,
    X86.asU16_nat (x := a1) (by omega), X86.asU16_nat (x := a2) (by omega), X86.asU16_nat (x := a3) (by omega)]
  rw [show ((x : Int) * (a1 : Int)) = ((x * a1 : Nat) : Int) by push_cast; rfl,
    show ((y : Int) * -(a2 : Int)) = -((y * a2 : Nat) : Int) by push_cast; ring,
    show ((z : Int) * -(a3 : Int)) = -((z * a3 : Nat) : Int) by push_cast; ring]
  generalize x * a1 = p1 at *
  generalize y * a2 = p2 at *
  generalize z * a3 = p3 at *
  generalize (2 ^ d - 1) * a2 = q2 at *
  generalize (2 ^ d - 1) * a3 = q3 at *
  clear hq h4 hp bx by_ bz e1 e2 e3 h2 h3
  norm_num
  omega

theorem shr_toNat {a : Nat} {b : Int} (h : (a : Int) = b) : a / 2 ^ 15 = (b / 2 ^ 15).toNat := by
  subst h
  norm_num
  omega

theorem wideLuma_at {rg : ChromaRange} {t : FwdCoef} (hb : rg.biasY ≤ 4096)
    (h1 : 0 ≤ t.yr ∧ t.yr ≤ 32767) (h2 : 0 ≤ t.yg ∧ t.yg ≤ 32767) (h3 : 0 ≤ t.yb ∧ t.yb ≤ 32767)
    (h : t.yr + t.yg + t.yb ≤ 32769) {c : Rgb} {j r g b : Nat} (hj : j < 8)
    (br : r < 65536) (bg : g < 65536) (bb : b < 65536)
    (e1 : w16 c.1 j = r) (e2 : w16 c.2.1 j = g) (e3 : w16 c.2.2 j = b) :
    w16 (wideLuma rg t c) j = neonLumaOf false rg t r g b := by
  simp only [wideLuma, neonLumaOf, Bool.false_eq_true, if_false]
  rw [shrnU, w16_mk16]
  have key : ∀ o i, o + i = j → w32 (mlalU o (mlalU o (mlalU o (wideBias rg.biasY) c.1 t.yr) c.2.1 t.yg)
      c.2.2 t.yb) i / 2 ^ 15 = (encVal 15 t.yr t.yg t.yb rg.biasY r g b).toNat := by
    intro o i hoi
    exact shr_toNat (part_luma hb h1 h2 h3 h br bg bb (by rw [hoi, e1]) (by rw [hoi, e2]) (by rw [hoi, e3]))
  have fin : ∀ n : Nat, asU16 (n : Int) = n % 65536 := by intro n; unfold asU16; omega
  by_cases h4 : j < 4
  · rw [if_pos h4, key 0 j (by omega), fin]
  · rw [if_neg h4, key 4 (j - 4) (by omega), fin]

theorem wideChroma_at {d : Nat} (hd : d ≤ 16) {rg : ChromaRange} {vx vy vz : Reg} {kx ky kz : Int}
    (hb : rg.biasUv ≤ 32768) (hy : rg.biasY + rg.rangeUv < 65536) (hk : SignOk d rg.biasUv kx ky kz)
    {j x y z : Nat} (hj : j < 8) (bx : x < 2 ^ d) (by_ : y < 2 ^ d) (bz : z < 2 ^ d)
    (e1 : w16 vx j = x) (e2 : w16 vy j = y) (e3 : w16 vz j = z) :
    w16 (wideChroma rg vx vy vz kx ky kz) j
      = min (max ((x * kx + y * ky + z * kz + (rg.biasUv * 2 ^ 15 + (2 ^ (15 - 1) - 1))) / 2 ^ 15 : Int).toNat
          rg.biasY) (rg.biasY + rg.rangeUv) := by
  simp only [wideChroma]
  have key : ∀ o i, o + i = j → w32 (mlslU o (mlslU o (mlalU o (wideBias rg.biasUv) vx kx.natAbs) vy ky.natAbs)
      vz kz.natAbs) i / 2 ^ 15
      = ((x * kx + y * ky + z * kz + (rg.biasUv * 2 ^ 15 + (2 ^ (15 - 1) - 1))) / 2 ^ 15 : Int).toNat := by
    intro o i hoi
    exact shr_toNat (part_chroma hb hk hd bx by_ bz (by rw [hoi, e1]) (by rw [hoi, e2]) (by rw [hoi, e3]))
  have eq : w16 (qshrnU 15
      (mlslU 0 (mlslU 0 (mlalU 0 (wideBias rg.biasUv) vx kx.natAbs) vy ky.natAbs) vz kz.natAbs)
      (mlslU 4 (mlslU 4 (mlalU 4 (wideBias rg.biasUv) vx kx.natAbs) vy ky.natAbs) vz kz.natAbs)) j
      = min 65535 ((x * kx + y * ky + z * kz + (rg.biasUv * 2 ^ 15 + (2 ^ (15 - 1) - 1))) / 2 ^ 15 : Int).toNat := by
    rw [qshrnU, w16_mk16]
    by_cases h4 : j < 4
    · rw [if_pos h4, key 0 j (by omega), X86.asU16_nat (by omega)]
    · rw [if_neg h4, key 4 (j - 4) (by omega), X86.asU16_nat (by omega)]
  rw [minU16, w16_mk16, maxU16, w16_mk16, eq, w16_set1 (by omega), w16_set1 (by omega)]
  generalize ((x * kx + y * ky + z * kz + (rg.biasUv * 2 ^ 15 + (2 ^ (15 - 1) - 1))) / 2 ^ 15 : Int).toNat = v
  rw [X86.asU16_nat (by omega)]
  rw [X86.asU16_nat (by omega)]; omega

/-! ## 16-bit sums -/

theorem mulRound_12 {w : Nat} {k : Int} (hw : w < 4096) (hk : -32767 ≤ k ∧ k ≤ 32767) :
    -4096 ≤ mulRound w k ∧ mulRound w k ≤ 4096 := by
  have h1 := mul_bounds (a := (w : Int)) (t := k) (A := 4095) (T := 32767) (by omega) (by omega)
  unfold mulRound
  generalize (w : Int) * k = p at *
  omega

theorem s16_word {r : Reg} {k x : Nat} (h : w16 r k = x) (hx : x < 32768) : s16 r k = x := by
  rw [s16, h]; exact asI16_id (by omega) (by omega)

theorem rdmSum_at {bias : Nat} (hb : bias ≤ 512) {k : Int × Int × Int} (h1 : -32767 ≤ k.1 ∧ k.1 ≤ 32767)
    (h2 : -32767 ≤ k.2.1 ∧ k.2.1 ≤ 32767) (h3 : -32767 ≤ k.2.2 ∧ k.2.2 ≤ 32767) {c : Rgb} {j r g b : Nat}
    (br : r < 4096) (bg : g < 4096) (bb : b < 4096)
    (e1 : w16 c.1 j = r) (e2 : w16 c.2.1 j = g) (e3 : w16 c.2.2 j = b) :
    s16 (rdmSum bias k c) j = neonRdmSum bias k r g b
      ∧ (-3600 ≤ neonRdmSum bias k r g b ∧ neonRdmSum bias k r g b ≤ 4000) := by
  have m1 := mulRound_12 br h1
  have m2 := mulRound_12 bg h2
  have m3 := mulRound_12 bb h3
  have e0 : s16 (quarterBias bias) j = (bias : Int) * 4 + 1 := by
    rw [quarterBias, s16_set1]; exact asI16_id (by omega) (by omega)
  rw [rdmSum, s16_srai16, asI16_id (x := k.1) (by omega) (by omega),
    asI16_id (x := k.2.1) (by omega) (by omega), asI16_id (x := k.2.2) (by omega) (by omega),
    s16_mlah_any (s16_mlah_any (s16_mlah_any e0 (s16_word e1 (by omega))) (s16_word e2 (by omega)))
      (s16_word e3 (by omega))]
  unfold neonRdmSum
  generalize mulRound r k.1 = p1 at *
  generalize mulRound g k.2.1 = p2 at *
  generalize mulRound b k.2.2 = p3 at *
  unfold sat16
  norm_num
  omega

theorem mulRound_nonneg {w : Nat} {k : Int} (h : 0 ≤ k) : 0 ≤ mulRound w k := by
  unfold mulRound
  have : 0 ≤ (w : Int) * k := Int.mul_nonneg (by omega) h
  omega

theorem rdmLuma_at {rg : ChromaRange} {t : FwdCoef} (hb : rg.biasY ≤ 512) (hr : rg.biasY + rg.rangeY < 1024)
    (h1 : 0 ≤ t.yr ∧ t.yr ≤ 32767) (h2 : 0 ≤ t.yg ∧ t.yg ≤ 32767) (h3 : 0 ≤ t.yb ∧ t.yb ≤ 32767)
    {c : Rgb} {j r g b : Nat} (br : r < 4096) (bg : g < 4096) (bb : b < 4096)
    (e1 : w16 c.1 j = r) (e2 : w16 c.2.1 j = g) (e3 : w16 c.2.2 j = b) :
    w16 (rdmLuma rg t c) j = neonLumaOf true rg t r g b := by
  obtain ⟨e, -, -⟩ := rdmSum_at hb (k := kLuma t) (show _ ∧ _ from ⟨by have := h1.1; show _ ≤ t.yr; omega, h1.2⟩)
    (show _ ∧ _ from ⟨by have := h2.1; show _ ≤ t.yg; omega, h2.2⟩)
    (show _ ∧ _ from ⟨by have := h3.1; show _ ≤ t.yb; omega, h3.2⟩) br bg bb e1 e2 e3
  have p : 0 ≤ neonRdmSum rg.biasY (kLuma t) r g b := by
    have := mulRound_nonneg (w := r) h1.1
    have := mulRound_nonneg (w := g) h2.1
    have := mulRound_nonneg (w := b) h3.1
    unfold neonRdmSum
    simp only [kLuma]
    omega
  simp only [neonLumaOf, if_true]
  rw [rdmLuma, minS16, w16_mk16, e, s16_set1, asI16_id (by omega) (by omega)]
  show _ = (min (neonRdmSum rg.biasY (kLuma t) r g b) _).toNat
  generalize neonRdmSum rg.biasY (kLuma t) r g b = s at *
  unfold asU16
  omega

theorem rdmChroma_at {rg : ChromaRange} {k : Int × Int × Int} (hu : rg.biasUv ≤ 512) (hb : rg.biasY ≤ 64)
    (hr : rg.biasY + rg.rangeUv < 1024) (h1 : -32767 ≤ k.1 ∧ k.1 ≤ 32767)
    (h2 : -32767 ≤ k.2.1 ∧ k.2.1 ≤ 32767) (h3 : -32767 ≤ k.2.2 ∧ k.2.2 ≤ 32767) {c : Rgb} {j r g b : Nat}
    (br : r < 4096) (bg : g < 4096) (bb : b < 4096)
    (e1 : w16 c.1 j = r) (e2 : w16 c.2.1 j = g) (e3 : w16 c.2.2 j = b) :
    w16 (rdmChroma rg k c) j = neonChromaOf true rg k r g b := by
  obtain ⟨e, l, u⟩ := rdmSum_at hu h1 h2 h3 br bg bb e1 e2 e3
  have e0 : s16 (quarterBias rg.biasY) j = (rg.biasY : Int) * 4 + 1 := by
    rw [quarterBias, s16_set1]; exact asI16_id (by omega) (by omega)
  simp only [neonChromaOf, if_true]
  rw [rdmChroma, minS16, w16_mk16, max16, s16_mk16, e, e0, s16_set1,
    asI16_id (x := ((rg.biasY + rg.rangeUv : Nat) : Int)) (by omega) (by omega)]
  generalize neonRdmSum rg.biasUv k r g b = s at *
  rw [asI16_id (by omega) (by omega)]
  unfold asU16
  omega

/-- A 10-bit word and its two highest bits. -/
theorem expand10_at {a : Reg} {k x : Nat} (h : w16 a k = x) (hx : x < 1024) :
    w16 (expandBp 10 a) k = longWord x := by
  have e : ∀ x < 1024, (4 * x ||| x / 256) = longWord x := by decide +kernel
  show w16 (or16 (slli16 2 a) (srli16 8 a)) k = _
  rw [or16, w16_mk16, w16_slli, srli16, w16_mk16, h]
  rw [show asU16 ((x / 2 ^ 8 : Nat) : Int) = x / 256 from X86.asU16_nat (by omega),
    show x * 2 ^ 2 % 65536 = 4 * x by omega, e x hx]
  refine X86.asU16_nat ?_
  unfold longWord; omega

end Verif.Neon
