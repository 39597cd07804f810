import Verif.Lemmas.X86YuyRgbRows
import Verif.Props.Yuy2
import Verif.Props.Identity
/-!
# C79: decoding packed 4:2:2 to RGB on x86 processors
-/
namespace Verif
open Spec X86

/-- On a processor without vector extensions the decoder is the scalar one. -/
theorem c79_plain_is_scalar (t : Yuy2) (ch : Channels) (i : Packed) (rgb : Buf) (stride : Nat)
    (rg : YuvRange) (m : Matrix) :
    yuy2ToRgbOn .plain t ch i rgb stride rg m = yuy2ToRgb x64 t ch noYuyRgb i rgb stride rg m := rfl

/-- C79: what decoding a packed 4:2:2 frame writes on each class of processor: every pixel is the
decoding of its samples, except that the vector code takes luma samples below the offset for the
offset; nothing else is written. -/
theorem c79_x86_exact (cpu : Cpu) (t : Yuy2) (ch : Channels) (i : Packed) (rgb : Buf) (stride : Nat)
    (rg : YuvRange) (m : Matrix) (hi : GoodPacked i 256)
    (hd : GoodDst rgb.length stride i.width i.height ch.count) :
    ∃ out, yuy2ToRgbOn cpu t ch i rgb stride rg m = .ok out ∧
      FrameSpec out rgb stride i.width i.height ch.count (x86YuyPixel cpu t ch i rg m) := by
  have hcn := count_pos ch
  have hst : 0 < stride := Nat.lt_of_lt_of_le (Nat.mul_pos hi.wpos hcn) hd.cols_le
  unfold yuy2ToRgbOn yuy2ToRgb
  rw [hi.accepted, hd.accepted hi.wpos hi.hpos hi.w32 hi.h32 hcn (count_le ch)]
  simp only [Outcome.bind_ok]
  obtain ⟨out, e, h⟩ := (yuyRgbFrame_x86 cpu t ch rg m hi (putYuy8_ok ch rg m) hd.cols_le hd.full).spec
    hcn hst hd.cols_le hd.full.1
  exact ⟨out, e, frameRel_eq h⟩

/-- C79: in full range every class of processor returns the same frame. -/
theorem c79_agree_full (cpu : Cpu) (t : Yuy2) (ch : Channels) (i : Packed) (rgb : Buf) (stride : Nat)
    (m : Matrix) (hi : GoodPacked i 256) (hd : GoodDst rgb.length stride i.width i.height ch.count) :
    ∃ out, yuy2ToRgbOn cpu t ch i rgb stride .full m = .ok out ∧
      FrameSpec out rgb stride i.width i.height ch.count (yuyPixelAt t ch i .full m) := by
  obtain ⟨out, e, h⟩ := c79_x86_exact cpu t ch i rgb stride .full m hi hd
  refine ⟨out, e, frameSpec_congr h fun x y _ _ => ?_⟩
  unfold x86YuyPixel x86Luma
  rw [show (getYuvRange 8 .full).biasY = 0 from rfl, Nat.max_zero, ite_self]

/-- C79: in limited range the processors agree too, provided that no luma sample is below the offset
16.  Partial: without that condition they do not, see `c79_differ`. -/
theorem c79_agree_partial (cpu : Cpu) (t : Yuy2) (ch : Channels) (i : Packed) (rgb : Buf) (stride : Nat)
    (rg : YuvRange) (m : Matrix) (hi : GoodPacked i 256)
    (hd : GoodDst rgb.length stride i.width i.height ch.count)
    (hY : ∀ x y, x < i.width → y < i.height → 16 ≤ Packed.Y t i x y) :
    ∃ out, yuy2ToRgbOn cpu t ch i rgb stride rg m = .ok out ∧
      FrameSpec out rgb stride i.width i.height ch.count (yuyPixelAt t ch i rg m) := by
  obtain ⟨out, e, h⟩ := c79_x86_exact cpu t ch i rgb stride rg m hi hd
  refine ⟨out, e, frameSpec_congr h fun x y hx hy => ?_⟩
  have h16 := hY x y hx hy
  have hb : (getYuvRange 8 rg).biasY ≤ 16 := by cases rg <;> decide
  unfold x86YuyPixel x86Luma
  rw [Nat.max_eq_left (by omega), ite_self]

theorem sat_shift_near {a b : Int} (h1 : a ≤ b) (h2 : b ≤ a + 1216) :
    saturate 8 (roundShift (2 ^ 5 - 1) 6 a) ≤ saturate 8 (roundShift (2 ^ 5 - 1) 6 b) ∧
    saturate 8 (roundShift (2 ^ 5 - 1) 6 b) ≤ saturate 8 (roundShift (2 ^ 5 - 1) 6 a) + 19 := by
  unfold saturate roundShift
  constructor <;> omega

/-- C79: how far the processors can be apart: the vector code makes dark pixels brighter, by at most
19 steps in each component. -/
theorem c79_divergence (cpu : Cpu) (t : Yuy2) (ch : Channels) (i : Packed) (rg : YuvRange) (m : Matrix)
    (x y : Nat) :
    ∃ r g b r' g' b' : Nat, yuyPixelAt t ch i rg m x y = layout ch r g b 255 ∧
      x86YuyPixel cpu t ch i rg m x y = layout ch r' g' b' 255 ∧
      (r ≤ r' ∧ r' ≤ r + 19) ∧ (g ≤ g' ∧ g' ≤ g + 19) ∧ (b ≤ b' ∧ b' ≤ b + 19) := by
  have hb : (getYuvRange 8 rg).biasY ≤ 16 := by cases rg <;> decide
  have ht : 0 ≤ (computedInverse 6 8 rg m).y ∧ (computedInverse 6 8 rg m).y ≤ 76 := by
    cases rg <;> cases m <;> decide +kernel
  generalize hl : x86Luma cpu rg i.width x (Packed.Y t i x y) = l
  have hd : Packed.Y t i x y ≤ l ∧ l ≤ Packed.Y t i x y + 16 := by
    rw [← hl]; unfold x86Luma; split <;> omega
  generalize hs : computedInverse 6 8 rg m = s at ht
  have k : ∀ z : Int,
      ((Packed.Y t i x y : Int) - (getYuvRange 8 rg).biasY) * s.y + z
        ≤ ((l : Int) - (getYuvRange 8 rg).biasY) * s.y + z ∧
      ((l : Int) - (getYuvRange 8 rg).biasY) * s.y + z
        ≤ ((Packed.Y t i x y : Int) - (getYuvRange 8 rg).biasY) * s.y + z + 1216 := by
    intro z
    obtain ⟨d1, d2⟩ := hd
    have e1 : (Packed.Y t i x y : Int) ≤ l := by exact_mod_cast d1
    have e2 : (l : Int) ≤ Packed.Y t i x y + 16 := by exact_mod_cast d2
    constructor
    · nlinarith [mul_nonneg (sub_nonneg.2 e1) ht.1]
    · nlinarith [mul_nonneg (sub_nonneg.2 e2) ht.1]
  refine ⟨_, _, _, _, _, _, rfl, rfl, ?_, ?_, ?_⟩
  · rw [hl, hs]; exact sat_shift_near (k _).1 (k _).2
  · rw [hl, hs]
    refine sat_shift_near ?_ ?_ <;> unfold linG
    · have := (k (-(s.g1 * ((Packed.V t i x y : Int) - (getYuvRange 8 rg).biasUv)
        + s.g2 * ((Packed.U t i x y : Int) - (getYuvRange 8 rg).biasUv)))).1
      linarith
    · have := (k (-(s.g1 * ((Packed.V t i x y : Int) - (getYuvRange 8 rg).biasUv)
        + s.g2 * ((Packed.U t i x y : Int) - (getYuvRange 8 rg).biasUv)))).2
      linarith
  · rw [hl, hs]; exact sat_shift_near (k _).1 (k _).2

/-- C79: accuracy on every processor: a pixel whose luma is not below the offset is within 4.5 steps
of the exact decoding.  Partial: darker pixels are decoded as if their luma were the offset. -/
theorem c79_close_partial (cpu : Cpu) (t : Yuy2) (ch : Channels) (i : Packed) (rg : YuvRange) (m : Matrix)
    (hi : GoodPacked i 256) (x y : Nat) (hx : x < i.width) (hy : y < i.height)
    (hY : (getYuvRange 8 rg).biasY ≤ Packed.Y t i x y) :
    ∃ r g b : Nat, x86YuyPixel cpu t ch i rg m x y = layout ch r g b 255 ∧
      |(r : Rat) - satQ 8 (exactR 8 rg m (Packed.Y t i x y) (Packed.U t i x y) (Packed.V t i x y))|
        ≤ 1 / 2 + 2 ^ 8 / 2 ^ 6 ∧
      |(g : Rat) - satQ 8 (exactG 8 rg m (Packed.Y t i x y) (Packed.U t i x y) (Packed.V t i x y))|
        ≤ 1 / 2 + 2 ^ 8 / 2 ^ 6 ∧
      |(b : Rat) - satQ 8 (exactB 8 rg m (Packed.Y t i x y) (Packed.U t i x y) (Packed.V t i x y))|
        ≤ 1 / 2 + 2 ^ 8 / 2 ^ 6 := by
  have hl : x86Luma cpu rg i.width x (Packed.Y t i x y) = Packed.Y t i x y := by
    unfold x86Luma; rw [Nat.max_eq_left hY, ite_self]
  obtain ⟨r, g, b, h⟩ := c36_close ch rg m (Packed.Y t i x y) (Packed.U t i x y) (Packed.V t i x y)
    (getD_byte hi.bound _) (getD_byte hi.bound _) (getD_byte hi.bound _)
  refine ⟨r, g, b, ?_, h.2⟩
  unfold x86YuyPixel
  rw [hl]; exact h.1

/-! ## Non-vacuity and the difference -/

/-- 17 columns of the darkest luma with strong chroma. -/
def darkYuy : Packed :=
  { yuy := (List.range 36).map fun k => if k % 2 = 0 then 0 else 200, yuyStride := 36
    width := 17, height := 1 }

theorem darkYuy_good : GoodPacked darkYuy 256 := by
  refine ⟨by decide, by decide, by unfold U32; decide, by unfold U32; decide, by unfold U32; decide,
    by decide, by decide, by decide, by decide⟩

/-- 17 columns of mid-range luma. -/
def midYuy : Packed :=
  { yuy := (List.range 36).map fun k => 60 + 3 * k, yuyStride := 36, width := 17, height := 1 }

theorem midYuy_good : GoodPacked midYuy 256 := by
  refine ⟨by decide, by decide, by unfold U32; decide, by unfold U32; decide, by unfold U32; decide,
    by decide, by decide, by decide, by decide⟩

theorem dst17_good (ch : Channels) : GoodDst (zeros (17 * ch.count)).length (17 * ch.count) 17 1 ch.count := by
  cases ch <;> refine ⟨by unfold U32; decide, by decide, by unfold FullRows; decide, by decide⟩

/-- A frame all processors decode alike. -/
example : ∃ out, yuy2ToRgbOn .avx2 .yuyv .rgb midYuy (zeros 51) 51 .limited .bt601 = .ok out ∧
    FrameSpec out (zeros 51) 51 17 1 3 (yuyPixelAt .yuyv .rgb midYuy .limited .bt601) :=
  c79_agree_partial .avx2 .yuyv .rgb midYuy (zeros 51) 51 .limited .bt601 midYuy_good (dst17_good .rgb)
    (by
      have : ∀ x, x < 17 → ∀ y, y < 1 → 16 ≤ Packed.Y .yuyv midYuy x y := by decide
      exact fun x y hx hy => this x hx y hy)

/-- C79 fails across processors: the same dark limited-range frame is decoded to different pixels with
and without vector code, and within one row by the vector code and by the scalar code after it. -/
theorem c79_differ :
    (∃ out, yuy2ToRgbOn .sse41 .yuyv .rgb darkYuy (zeros 51) 51 .limited .bt601 = .ok out ∧
      pixelAt out 51 3 0 0 = [115, 0, 145] ∧ pixelAt out 51 3 16 0 = [96, 0, 126]) ∧
    (∃ out, yuy2ToRgbOn .plain .yuyv .rgb darkYuy (zeros 51) 51 .limited .bt601 = .ok out ∧
      pixelAt out 51 3 0 0 = [96, 0, 126]) := by
  constructor
  · obtain ⟨out, e, h⟩ := c79_x86_exact .sse41 .yuyv .rgb darkYuy (zeros 51) 51 .limited .bt601
      darkYuy_good (dst17_good .rgb)
    refine ⟨out, e, ?_, ?_⟩
    · exact (frameSpec_pixel (x := 0) (y := 0) h (by decide) (by decide) rfl).trans (by decide +kernel)
    · exact (frameSpec_pixel (x := 16) (y := 0) h (by decide) (by decide) rfl).trans (by decide +kernel)
  · obtain ⟨out, e, h⟩ := c79_x86_exact .plain .yuyv .rgb darkYuy (zeros 51) 51 .limited .bt601
      darkYuy_good (dst17_good .rgb)
    exact ⟨out, e,
      (frameSpec_pixel (x := 0) (y := 0) h (by decide) (by decide) rfl).trans (by decide +kernel)⟩

end Verif
