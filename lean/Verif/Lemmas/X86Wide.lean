import Verif.Lemmas.X86
import Verif.Model.X86Rdp
/-! # 32-bit elements of vector registers -/
namespace Verif.X86
open Spec

theorem asI32_id {x : Int} (h1 : -2147483648 ≤ x) (h2 : x ≤ 2147483647) : asI32 x = x := by
  unfold asI32; omega

theorem asI32_asU32 (x : Int) : asI32 ((asU32 x : Nat) : Int) = asI32 x := by
  unfold asI32 asU32; omega

theorem asU32_lt (x : Int) : asU32 x < 4294967296 := by unfold asU32; omega

theorem w16_mk32_lo (f : Nat → Int) (k : Nat) : w16 (mk32 f) (2 * k) = asU32 (f k) % 65536 := by
  unfold w16 mk32
  rw [show 2 * (2 * k) / 4 = k by omega, show 2 * (2 * k) % 4 = 0 by omega,
    show (2 * (2 * k) + 1) / 4 = k by omega, show (2 * (2 * k) + 1) % 4 = 1 by omega]
  generalize asU32 (f k) = n
  omega

theorem w16_mk32_hi (f : Nat → Int) (k : Nat) : w16 (mk32 f) (2 * k + 1) = asU32 (f k) / 65536 := by
  have := asU32_lt (f k)
  unfold w16 mk32
  rw [show 2 * (2 * k + 1) / 4 = k by omega, show 2 * (2 * k + 1) % 4 = 2 by omega,
    show (2 * (2 * k + 1) + 1) / 4 = k by omega, show (2 * (2 * k + 1) + 1) % 4 = 3 by omega]
  generalize asU32 (f k) = n at *
  omega

theorem w32_mk32 (f : Nat → Int) (k : Nat) : w32 (mk32 f) k = asU32 (f k) := by
  unfold w32
  rw [w16_mk32_lo, w16_mk32_hi]
  omega

theorem s32_mk32 (f : Nat → Int) (k : Nat) : s32 (mk32 f) k = asI32 (f k) := by
  unfold s32; rw [w32_mk32, asI32_asU32]

theorem s32_madd (a b : Reg) (k : Nat) : s32 (madd16 a b) k
    = asI32 (s16 a (2 * k) * s16 b (2 * k) + s16 a (2 * k + 1) * s16 b (2 * k + 1)) := s32_mk32 _ _

theorem s32_add (a b : Reg) (k : Nat) : s32 (add32v a b) k = asI32 (s32 a k + s32 b k) := s32_mk32 _ _

theorem s32_sub (a b : Reg) (k : Nat) : s32 (sub32v a b) k = asI32 (s32 a k - s32 b k) := s32_mk32 _ _

theorem s32_set1 (x : Int) (k : Nat) : s32 (set1_32 x) k = asI32 x := s32_mk32 _ _

theorem s32_srai (n : Nat) (a : Reg) (k : Nat) : s32 (srai32 n a) k = asI32 (s32 a k / 2 ^ n) :=
  s32_mk32 _ _

theorem s16_interleaved (a b : Int) (k : Nat) :
    s16 (set1_32 (interleaved a b)) (2 * k) = asI16 a ∧
    s16 (set1_32 (interleaved a b)) (2 * k + 1) = asI16 b := by
  unfold s16 set1_32
  rw [w16_mk32_lo, w16_mk32_hi]
  have ha := asU16_lt a
  have hb := asU16_lt b
  rw [← asI16_asU16 a, ← asI16_asU16 b]
  unfold interleaved
  generalize asU16 a = m at *
  generalize asU16 b = n at *
  have e : asU32 (asI32 ((n : Int) * 65536 + m)) = n * 65536 + m := by
    unfold asU32 asI32; omega
  rw [e]
  constructor
  · rw [show (n * 65536 + m) % 65536 = m by omega]
  · rw [show (n * 65536 + m) / 65536 = n by omega]

theorem s16_unpacklo2 (a b : Reg) (k : Nat) :
    s16 (unpacklo 2 a b) (2 * k) = s16 a (k / 4 * 8 + k % 4) ∧
    s16 (unpacklo 2 a b) (2 * k + 1) = s16 b (k / 4 * 8 + k % 4) := by
  unfold s16
  rw [w16_unpacklo2, w16_unpacklo2]
  constructor
  · rw [if_pos (by omega)]; congr 3; omega
  · rw [if_neg (by omega)]; congr 3; omega

theorem s16_unpackhi2 (a b : Reg) (k : Nat) :
    s16 (unpackhi 2 a b) (2 * k) = s16 a (k / 4 * 8 + 4 + k % 4) ∧
    s16 (unpackhi 2 a b) (2 * k + 1) = s16 b (k / 4 * 8 + 4 + k % 4) := by
  unfold s16
  rw [w16_unpackhi2, w16_unpackhi2]
  constructor
  · rw [if_pos (by omega)]; congr 3; omega
  · rw [if_neg (by omega)]; congr 3; omega

theorem s16_packs32 (a b : Reg) (k : Nat) : s16 (packs32 a b) k
    = satI16 (s32 (if k % 8 < 4 then a else b) (k / 8 * 4 + k % 4)) := by
  unfold packs32
  rw [s16_mk16, asI16_id] <;> (unfold satI16; omega)

theorem s16_zero (k : Nat) : s16 zero k = 0 := by
  show asI16 ((0 + 256 * 0 : Nat) : Int) = 0; decide

theorem s32_dotLo {r g b : Reg} {kr kg kb : Int} (hr : -32768 ≤ kr ∧ kr ≤ 32767)
    (hg : -32768 ≤ kg ∧ kg ≤ 32767) (hb : -32768 ≤ kb ∧ kb ≤ 32767) (k : Nat) :
    s32 (add32v (madd16 (unpacklo 2 r g) (set1_32 (interleaved kr kg)))
      (madd16 (unpacklo 2 b zero) (set1_16 (asI16 kb)))) k
      = asI32 (s16 r (k / 4 * 8 + k % 4) * kr + s16 g (k / 4 * 8 + k % 4) * kg
        + s16 b (k / 4 * 8 + k % 4) * kb) := by
  rw [s32_add, s32_madd, s32_madd, (s16_interleaved kr kg k).1, (s16_interleaved kr kg k).2,
    (s16_unpacklo2 _ _ k).1, (s16_unpacklo2 _ _ k).2, (s16_unpacklo2 _ _ k).1,
    (s16_unpacklo2 _ _ k).2, s16_set1, s16_set1, s16_zero, asI16_asI16, asI16_id hr.1 hr.2,
    asI16_id hg.1 hg.2, asI16_id hb.1 hb.2]
  generalize s16 r _ * kr = x
  generalize s16 g _ * kg = y
  generalize s16 b _ * kb = z
  unfold asI32; omega

theorem s32_dotHi {r g b : Reg} {kr kg kb : Int} (hr : -32768 ≤ kr ∧ kr ≤ 32767)
    (hg : -32768 ≤ kg ∧ kg ≤ 32767) (hb : -32768 ≤ kb ∧ kb ≤ 32767) (k : Nat) :
    s32 (add32v (madd16 (unpackhi 2 r g) (set1_32 (interleaved kr kg)))
      (madd16 (unpackhi 2 b zero) (set1_16 (asI16 kb)))) k
      = asI32 (s16 r (k / 4 * 8 + 4 + k % 4) * kr + s16 g (k / 4 * 8 + 4 + k % 4) * kg
        + s16 b (k / 4 * 8 + 4 + k % 4) * kb) := by
  rw [s32_add, s32_madd, s32_madd, (s16_interleaved kr kg k).1, (s16_interleaved kr kg k).2,
    (s16_unpackhi2 _ _ k).1, (s16_unpackhi2 _ _ k).2, (s16_unpackhi2 _ _ k).1,
    (s16_unpackhi2 _ _ k).2, s16_set1, s16_set1, s16_zero, asI16_asI16, asI16_id hr.1 hr.2,
    asI16_id hg.1 hg.2, asI16_id hb.1 hb.2]
  generalize s16 r _ * kr = x
  generalize s16 g _ * kg = y
  generalize s16 b _ * kb = z
  unfold asI32; omega

/-- Two registers of 32-bit elements made from the low and high halves of the lanes, packed with
saturation: the elements are in order again. -/
theorem s16_packHalves {a b : Reg} {F : Nat → Int} (ha : ∀ k, s32 a k = F (k / 4 * 8 + k % 4))
    (hb : ∀ k, s32 b k = F (k / 4 * 8 + 4 + k % 4)) (k : Nat) :
    s16 (packs32 a b) k = satI16 (F k) := by
  rw [s16_packs32]
  by_cases h : k % 8 < 4
  · rw [if_pos h, ha]; congr 2; omega
  · rw [if_neg h, hb]; congr 2; omega

/-- Sixteen weighted sums. -/
theorem dotHalf_at {q : Nat} {r g b : Reg} {kr kg kb : Int} (hr : -32768 ≤ kr ∧ kr ≤ 32767)
    (hg : -32768 ≤ kg ∧ kg ≤ 32767) (hb : -32768 ≤ kb ∧ kb ≤ 32767) (k : Nat) :
    s16 (dotHalf q kr kg kb r g b) k
      = satI16 (asI32 (asI32 (s16 r k * kr + s16 g k * kg + s16 b k * kb) / 2 ^ q)) := by
  refine s16_packHalves
    (F := fun k => asI32 (asI32 (s16 r k * kr + s16 g k * kg + s16 b k * kb) / 2 ^ q)) ?_ ?_ k
  · intro k; rw [s32_srai, s32_dotLo hr hg hb]
  · intro k; rw [s32_srai, s32_dotHi hr hg hb]

theorem store16_two {a b : Reg} {q : Nat} {row : Buf} :
    (store16 16 a q row >>= fun row => store16 16 b (q + 16) row)
      = put row q ((List.range 32).map fun i => w16 (if i < 16 then a else b) (i % 16)) := by
  unfold store16
  rw [put_put _ _ _ _ _ (by simp)]
  congr 1

end Verif.X86
