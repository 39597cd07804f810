import Verif.Lemmas.NeonYuyRgb
import Verif.Props.X86YuyRgb
/-!
# C123: decoding packed 4:2:2 to RGB on 64-bit ARM
-/
namespace Verif
open Spec X86

/-- C123: what decoding a packed 4:2:2 frame writes: every pixel is that of `neonYuyPixel`, nothing else is
touched, and nothing is read or written outside of the buffers. -/
theorem c123_neon_exact (t : Yuy2) (ch : Channels) (i : Packed) (rgb : Buf) (stride : Nat)
    (rg : YuvRange) (m : Matrix) (hi : GoodPacked i 256)
    (hd : GoodDst rgb.length stride i.width i.height ch.count) :
    ∃ out, Neon.yuy2ToRgbNeon t ch i rgb stride rg m = .ok out ∧
      FrameSpec out rgb stride i.width i.height ch.count (neonYuyPixel t ch i rg m) := by
  have hcn := X86.count_pos ch
  have hst : 0 < stride := Nat.lt_of_lt_of_le (Nat.mul_pos hi.wpos hcn) hd.cols_le
  unfold Neon.yuy2ToRgbNeon yuy2ToRgb
  rw [hi.accepted, hd.accepted hi.wpos hi.hpos hi.w32 hi.h32 hcn (count_le ch)]
  simp only [Outcome.bind_ok]
  obtain ⟨out, e, h⟩ := (Neon.yuyRgbFrame_neon t ch rg m hi (putYuy8_ok ch rg m) hd.cols_le hd.full).spec
    hcn hst hd.cols_le hd.full.1
  exact ⟨out, e, frameRel_eq h⟩

/-- Rounding ties up instead of down raises a sample by one at most. -/
theorem sat_tie (x : Int) :
    saturate 8 (roundShift (2 ^ 5 - 1) 6 x) ≤ saturate 8 (roundShift (2 ^ 5) 6 x) ∧
    saturate 8 (roundShift (2 ^ 5) 6 x) ≤ saturate 8 (roundShift (2 ^ 5 - 1) 6 x) + 1 := by
  unfold saturate roundShift
  constructor <;> omega

/-- C123: compared with an x86 processor with vector code, every component of every pixel is the same or one
more. -/
theorem c123_x86_near (cpu : Cpu) (hc : cpu ≠ .plain) (t : Yuy2) (ch : Channels) (i : Packed)
    (rg : YuvRange) (m : Matrix) (x y : Nat) :
    ∃ r g b r' g' b' : Nat, x86YuyPixel cpu t ch i rg m x y = layout ch r g b 255 ∧
      neonYuyPixel t ch i rg m x y = layout ch r' g' b' 255 ∧
      (r ≤ r' ∧ r' ≤ r + 1) ∧ (g ≤ g' ∧ g' ≤ g + 1) ∧ (b ≤ b' ∧ b' ≤ b + 1) := by
  have e : yuyVecEnd cpu i.width = (i.width - 1) / 16 * 16 := by cases cpu <;> first | rfl | exact absurd rfl hc
  unfold x86YuyPixel x86Luma neonYuyPixel
  rw [e]
  by_cases h : x < (i.width - 1) / 16 * 16
  · rw [if_pos h, if_pos h]
    exact ⟨_, _, _, _, _, _, rfl, rfl, sat_tie _, sat_tie _, sat_tie _⟩
  · rw [if_neg h, if_neg h]
    exact ⟨_, _, _, _, _, _, rfl, rfl, ⟨Nat.le_refl _, Nat.le_succ _⟩, ⟨Nat.le_refl _, Nat.le_succ _⟩,
      ⟨Nat.le_refl _, Nat.le_succ _⟩⟩

/-- C123: compared with the portable code, a component of a pixel whose luma is not below the offset is the
same or one more.  Partial: a darker pixel is further off, see `c123_divergence`. -/
theorem c123_portable_partial (t : Yuy2) (ch : Channels) (i : Packed) (rg : YuvRange) (m : Matrix)
    (x y : Nat) (hY : (getYuvRange 8 rg).biasY ≤ Packed.Y t i x y) :
    ∃ r g b r' g' b' : Nat, yuyPixelAt t ch i rg m x y = layout ch r g b 255 ∧
      neonYuyPixel t ch i rg m x y = layout ch r' g' b' 255 ∧
      (r ≤ r' ∧ r' ≤ r + 1) ∧ (g ≤ g' ∧ g' ≤ g + 1) ∧ (b ≤ b' ∧ b' ≤ b + 1) := by
  obtain ⟨r, g, b, r', g', b', h1, h⟩ := c123_x86_near .sse41 (by decide) t ch i rg m x y
  refine ⟨r, g, b, r', g', b', ?_, h⟩
  rw [← h1]
  unfold x86YuyPixel x86Luma yuyPixelAt
  rw [Nat.max_eq_left hY, ite_self]

/-- C123: whatever the luma, no component is below that of the portable code, nor more than 20 above. -/
theorem c123_divergence (t : Yuy2) (ch : Channels) (i : Packed) (rg : YuvRange) (m : Matrix) (x y : Nat) :
    ∃ r g b r' g' b' : Nat, yuyPixelAt t ch i rg m x y = layout ch r g b 255 ∧
      neonYuyPixel t ch i rg m x y = layout ch r' g' b' 255 ∧
      (r ≤ r' ∧ r' ≤ r + 20) ∧ (g ≤ g' ∧ g' ≤ g + 20) ∧ (b ≤ b' ∧ b' ≤ b + 20) := by
  obtain ⟨r, g, b, r1, g1, b1, h1, h2, h3, h4, h5⟩ := c79_divergence .sse41 t ch i rg m x y
  obtain ⟨r2, g2, b2, r', g', b', k1, k2, k3, k4, k5⟩ := c123_x86_near .sse41 (by decide) t ch i rg m x y
  rw [h2] at k1
  have q : r1 = r2 ∧ g1 = g2 ∧ b1 = b2 := by
    cases ch <;> simp only [layout, List.cons.injEq] at k1 <;> omega
  obtain ⟨rfl, rfl, rfl⟩ := q
  exact ⟨r, g, b, r', g', b', h1, k2, by omega, by omega, by omega⟩

/-- C123: accuracy: a pixel whose luma is not below the offset is within 4.5 steps of the exact decoding.
Partial: darker pixels are decoded as if their luma were the offset. -/
theorem c123_close_partial (t : Yuy2) (ch : Channels) (i : Packed) (rg : YuvRange) (m : Matrix)
    (hi : GoodPacked i 256) (x y : Nat)
    (hY : (getYuvRange 8 rg).biasY ≤ Packed.Y t i x y) :
    ∃ r g b : Nat, neonYuyPixel t ch i rg m x y = layout ch r g b 255 ∧
      |(r : Rat) - satQ 8 (exactR 8 rg m (Packed.Y t i x y) (Packed.U t i x y) (Packed.V t i x y))|
        ≤ 1 / 2 + 2 ^ 8 / 2 ^ 6 ∧
      |(g : Rat) - satQ 8 (exactG 8 rg m (Packed.Y t i x y) (Packed.U t i x y) (Packed.V t i x y))|
        ≤ 1 / 2 + 2 ^ 8 / 2 ^ 6 ∧
      |(b : Rat) - satQ 8 (exactB 8 rg m (Packed.Y t i x y) (Packed.U t i x y) (Packed.V t i x y))|
        ≤ 1 / 2 + 2 ^ 8 / 2 ^ 6 := by
  unfold neonYuyPixel
  by_cases h : x < (i.width - 1) / 16 * 16
  · rw [if_pos h, Nat.max_eq_left hY]
    exact fixedPixel_close (by decide) (by unfold Depth; omega) _ (Or.inr rfl) ch rg m
      (c06_inverse_tables 6 8 (by unfold Prec; omega) (by unfold Depth; omega) rg m).2 _ _ _
      (getD_byte hi.bound _) (getD_byte hi.bound _) (getD_byte hi.bound _)
  · rw [if_neg h]
    exact c36_close ch rg m _ _ _ (getD_byte hi.bound _) (getD_byte hi.bound _) (getD_byte hi.bound _)

/-! ## Non-vacuity and the differences -/

example : ∃ out, Neon.yuy2ToRgbNeon .yuyv .rgb midYuy (zeros 51) 51 .limited .bt601 = .ok out ∧
    FrameSpec out (zeros 51) 51 17 1 3 (neonYuyPixel .yuyv .rgb midYuy .limited .bt601) :=
  c123_neon_exact .yuyv .rgb midYuy (zeros 51) 51 .limited .bt601 midYuy_good (dst17_good .rgb)

example : (getYuvRange 8 .limited).biasY ≤ Packed.Y .yuyv midYuy 3 0 := by decide

/-- 17 columns of the same samples, whose red and green are half way between two values. -/
def tieYuy : Packed :=
  { yuy := (List.range 36).map fun k => [100, 128, 100, 144].getD (k % 4) 0, yuyStride := 36
    width := 17, height := 1 }

theorem tieYuy_good : GoodPacked tieYuy 256 := by
  refine ⟨by decide, by decide, by unfold U32; decide, by unfold U32; decide, by unfold U32; decide,
    by decide, by decide, by decide, by decide⟩

/-- C123 fails across processors: a full-range frame whose red and green are ties gets red 123 from the vector code
and 122 from the scalar code, on the same row and on other processors. -/
theorem c123_tie :
    (∃ out, Neon.yuy2ToRgbNeon .yuyv .rgb tieYuy (zeros 51) 51 .full .bt601 = .ok out ∧
      pixelAt out 51 3 0 0 = [123, 89, 100] ∧ pixelAt out 51 3 16 0 = [122, 88, 100]) ∧
    (∃ out, yuy2ToRgbOn .avx2 .yuyv .rgb tieYuy (zeros 51) 51 .full .bt601 = .ok out ∧
      pixelAt out 51 3 0 0 = [122, 88, 100]) := by
  constructor
  · obtain ⟨out, e, h⟩ := c123_neon_exact .yuyv .rgb tieYuy (zeros 51) 51 .full .bt601
      tieYuy_good (dst17_good .rgb)
    refine ⟨out, e, ?_, ?_⟩
    · exact (frameSpec_pixel (x := 0) (y := 0) h (by decide) (by decide) rfl).trans (by decide +kernel)
    · exact (frameSpec_pixel (x := 16) (y := 0) h (by decide) (by decide) rfl).trans (by decide +kernel)
  · obtain ⟨out, e, h⟩ := c79_x86_exact .avx2 .yuyv .rgb tieYuy (zeros 51) 51 .full .bt601
      tieYuy_good (dst17_good .rgb)
    exact ⟨out, e,
      (frameSpec_pixel (x := 0) (y := 0) h (by decide) (by decide) rfl).trans (by decide +kernel)⟩

/-- C123 fails across processors: a dark limited-range frame is decoded brighter by the vector code than by
the scalar code after it on the row. -/
theorem c123_dark :
    ∃ out, Neon.yuy2ToRgbNeon .yuyv .rgb darkYuy (zeros 51) 51 .limited .bt601 = .ok out ∧
      pixelAt out 51 3 0 0 = [115, 0, 145] ∧ pixelAt out 51 3 16 0 = [96, 0, 126] := by
  obtain ⟨out, e, h⟩ := c123_neon_exact .yuyv .rgb darkYuy (zeros 51) 51 .limited .bt601
    darkYuy_good (dst17_good .rgb)
  refine ⟨out, e, ?_, ?_⟩
  · exact (frameSpec_pixel (x := 0) (y := 0) h (by decide) (by decide) rfl).trans (by decide +kernel)
  · exact (frameSpec_pixel (x := 16) (y := 0) h (by decide) (by decide) rfl).trans (by decide +kernel)

end Verif
