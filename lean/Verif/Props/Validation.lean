import Verif.Lemmas.Checks
/-!
# C01–C04: argument validation and allocation
-/
namespace Verif
open Spec

/-! ## C01 planar, gray and alpha images -/

/-- All scalar fields of a planar image are `u32` values. -/
def Planar.U32s (i : Planar) : Prop :=
  U32 i.yStride ∧ U32 i.uStride ∧ U32 i.vStride ∧ U32 i.width ∧ U32 i.height

/-- C01, planar images: on a 64-bit target the constraint check succeeds exactly
for non-empty images all of whose luma samples, and the U and V samples covering
every pixel, are inside the supplied slices (and inside their row). -/
theorem c01_planar_check_iff (i : Planar) (s : Sampling) (h : i.U32s) :
    i.check x64 s = .ok () ↔
      0 < i.width ∧ 0 < i.height ∧
      PlaneCovers i.y.length i.yStride 1 1 i.width i.height ∧
      PlaneCovers i.u.length i.uStride (hdiv s) (vdiv s) i.width i.height ∧
      PlaneCovers i.v.length i.vStride (hdiv s) (vdiv s) i.width i.height := by
  obtain ⟨h1, h2, h3, h4, h5⟩ := h
  unfold U32 at *
  have e : i.check x64 s = .ok () ↔
      (checkY8 x64 i.y.length i.yStride i.width i.height = .ok () ∧
       checkChroma x64 i.u.length i.uStride i.width i.height s = .ok () ∧
       checkChroma x64 i.v.length i.vStride i.width i.height s = .ok ()) := by
    unfold Planar.check
    cases checkY8 x64 i.y.length i.yStride i.width i.height <;>
      cases checkChroma x64 i.u.length i.uStride i.width i.height s <;> simp
  rw [e, checkY8_ok_iff h1 h4 h5, checkChroma_ok_iff h2 h4 h5, checkChroma_ok_iff h3 h4 h5]
  constructor
  · rintro ⟨⟨a, b, c⟩, ⟨_, _, d⟩, ⟨_, _, e⟩⟩
    exact ⟨a, b, (lumaCovers_iff a b).2 c, (planeCovers_iff a b).2 d, (planeCovers_iff a b).2 e⟩
  · rintro ⟨a, b, c, d, e⟩
    exact ⟨⟨a, b, (lumaCovers_iff a b).1 c⟩, ⟨a, b, (planeCovers_iff a b).1 d⟩,
      ⟨a, b, (planeCovers_iff a b).1 e⟩⟩

/-- C01: validation itself never panics on a 64-bit target (no size computation overflows). -/
theorem c01_planar_check_no_panic (i : Planar) (s : Sampling) (h : i.U32s) :
    i.check x64 s ≠ .panic := by
  obtain ⟨h1, h2, h3, h4, h5⟩ := h
  have a := checkY8_no_panic (len := i.y.length) h1 h4 h5
  have b := checkChroma_no_panic (len := i.u.length) (s := s) h2 h4 h5
  have c := checkChroma_no_panic (len := i.v.length) (s := s) h3 h4 h5
  unfold Planar.check
  revert a b c
  cases checkY8 x64 i.y.length i.yStride i.width i.height <;>
    cases checkChroma x64 i.u.length i.uStride i.width i.height s <;> simp

/-- C01, gray images. -/
theorem c01_gray_check_iff (i : Gray) (h : U32 i.yStride ∧ U32 i.width ∧ U32 i.height) :
    i.check x64 = .ok () ↔
      0 < i.width ∧ 0 < i.height ∧ PlaneCovers i.y.length i.yStride 1 1 i.width i.height := by
  obtain ⟨h1, h4, h5⟩ := h
  unfold Gray.check
  rw [checkY8_ok_iff h1 h4 h5]
  constructor
  · rintro ⟨a, b, c⟩; exact ⟨a, b, (lumaCovers_iff a b).2 c⟩
  · rintro ⟨a, b, c⟩; exact ⟨a, b, (lumaCovers_iff a b).1 c⟩

/-- C01, gray images with alpha. -/
theorem c01_gray_alpha_check_iff (i : GrayAlpha)
    (h : U32 i.yStride ∧ U32 i.aStride ∧ U32 i.width ∧ U32 i.height) :
    i.check x64 = .ok () ↔
      0 < i.width ∧ 0 < i.height ∧ PlaneCovers i.y.length i.yStride 1 1 i.width i.height ∧
      PlaneCovers i.a.length i.aStride 1 1 i.width i.height := by
  obtain ⟨h1, h2, h4, h5⟩ := h
  have e : i.check x64 = .ok () ↔
      (checkY8 x64 i.y.length i.yStride i.width i.height = .ok () ∧
       checkY8 x64 i.a.length i.aStride i.width i.height = .ok ()) := by
    unfold GrayAlpha.check
    cases checkY8 x64 i.y.length i.yStride i.width i.height <;> simp
  rw [e, checkY8_ok_iff h1 h4 h5, checkY8_ok_iff h2 h4 h5]
  constructor
  · rintro ⟨⟨a, b, c⟩, ⟨_, _, d⟩⟩
    exact ⟨a, b, (lumaCovers_iff a b).2 c, (lumaCovers_iff a b).2 d⟩
  · rintro ⟨a, b, c, d⟩
    exact ⟨⟨a, b, (lumaCovers_iff a b).1 c⟩, ⟨a, b, (lumaCovers_iff a b).1 d⟩⟩

/-- C01, planar images with alpha. -/
theorem c01_planar_alpha_check_iff (i : PlanarAlpha) (s : Sampling)
    (h : U32 i.yStride ∧ U32 i.uStride ∧ U32 i.vStride ∧ U32 i.aStride ∧ U32 i.width ∧
      U32 i.height) :
    i.check x64 s = .ok () ↔
      0 < i.width ∧ 0 < i.height ∧
      PlaneCovers i.y.length i.yStride 1 1 i.width i.height ∧
      PlaneCovers i.a.length i.aStride 1 1 i.width i.height ∧
      PlaneCovers i.u.length i.uStride (hdiv s) (vdiv s) i.width i.height ∧
      PlaneCovers i.v.length i.vStride (hdiv s) (vdiv s) i.width i.height := by
  obtain ⟨h1, h2, h3, ha, h4, h5⟩ := h
  have e : i.check x64 s = .ok () ↔
      (checkY8 x64 i.y.length i.yStride i.width i.height = .ok () ∧
       checkY8 x64 i.a.length i.aStride i.width i.height = .ok () ∧
       checkChroma x64 i.u.length i.uStride i.width i.height s = .ok () ∧
       checkChroma x64 i.v.length i.vStride i.width i.height s = .ok ()) := by
    unfold PlanarAlpha.check
    cases checkY8 x64 i.y.length i.yStride i.width i.height <;>
      cases checkY8 x64 i.a.length i.aStride i.width i.height <;>
      cases checkChroma x64 i.u.length i.uStride i.width i.height s <;> simp
  rw [e, checkY8_ok_iff h1 h4 h5, checkY8_ok_iff ha h4 h5, checkChroma_ok_iff h2 h4 h5,
    checkChroma_ok_iff h3 h4 h5]
  constructor
  · rintro ⟨⟨a, b, c⟩, ⟨_, _, d⟩, ⟨_, _, e⟩, ⟨_, _, f⟩⟩
    exact ⟨a, b, (lumaCovers_iff a b).2 c, (lumaCovers_iff a b).2 d, (planeCovers_iff a b).2 e,
      (planeCovers_iff a b).2 f⟩
  · rintro ⟨a, b, c, d, e, f⟩
    exact ⟨⟨a, b, (lumaCovers_iff a b).1 c⟩, ⟨a, b, (lumaCovers_iff a b).1 d⟩,
      ⟨a, b, (planeCovers_iff a b).1 e⟩, ⟨a, b, (planeCovers_iff a b).1 f⟩⟩

/-- A 3×3 4:2:0 image with a padded luma stride, a truncated last luma row and
2×2 chroma planes: accepted. -/
example : (⟨zeros 13, 5, zeros 4, 2, zeros 5, 3, 3, 3⟩ : Planar).check x64 .yuv420 = .ok () := by
  decide
/-- One sample less and it is rejected. -/
example : (⟨zeros 12, 5, zeros 4, 2, zeros 5, 3, 3, 3⟩ : Planar).check x64 .yuv420 =
    .err (.lumaPlaneSizeMismatch ⟨15, 12⟩) := by decide

/-! ## C02 packed RGB buffers -/

/-- C02: the packed buffer check succeeds exactly when the image is non-empty, its
size is addressable, and every component of every pixel is inside the buffer and
inside its row. -/
theorem c02_rgba_check_iff (len stride w h cn : Nat) (hs : U32 stride) (hw : U32 w) (hh : U32 h)
    (hcn : 0 < cn) (hcn4 : cn ≤ 4) :
    checkRgba x64 len stride w h cn = .ok () ↔
      0 < w ∧ 0 < h ∧ w * h * cn < 2 ^ 64 ∧ PackedCovers len stride cn w h := by
  rw [checkRgba_ok_iff hs hw hh hcn hcn4]
  constructor
  · rintro ⟨a, b, c, d⟩; exact ⟨a, b, c, (packedCovers_iff a b hcn).2 d⟩
  · rintro ⟨a, b, c, d⟩; exact ⟨a, b, c, (packedCovers_iff a b hcn).1 d⟩

/-- C02: every outcome of the check, with the numbers it reports; in particular it
never panics, i.e. none of its size computations overflows on a 64-bit target. -/
theorem c02_rgba_check_report (len stride w h cn : Nat) (hs : U32 stride) (hw : U32 w) (hh : U32 h)
    (hcn : 0 < cn) (hcn4 : cn ≤ 4) :
    (w = 0 ∨ h = 0 → checkRgba x64 len stride w h cn = .err .zeroBaseSize) ∧
    (0 < w → 0 < h → 2 ^ 64 ≤ w * h * cn →
      checkRgba x64 len stride w h cn = .err .pointerOverflow) ∧
    (0 < w → 0 < h → w * h * cn < 2 ^ 64 → len < stride * (h - 1) + w * cn →
      checkRgba x64 len stride w h cn = .err (.destinationSizeMismatch ⟨stride * h, len⟩)) ∧
    (0 < w → 0 < h → w * h * cn < 2 ^ 64 → stride * (h - 1) + w * cn ≤ len → stride < w * cn →
      checkRgba x64 len stride w h cn = .err (.minimumStrideSizeMismatch ⟨w * cn, stride⟩)) ∧
    checkRgba x64 len stride w h cn ≠ .panic := by
  refine ⟨?_, ?_, ?_, ?_, checkRgba_no_panic hs hw hh hcn hcn4⟩ <;>
    rw [checkRgba_eq hs hw hh hcn hcn4]
  · intro h0; rw [if_pos h0]
  · intro a b c; rw [if_neg (by omega), if_pos c]
  · intro a b c d; rw [if_neg (by omega), if_neg (by omega), if_pos d]
  · intro a b c d e; rw [if_neg (by omega), if_neg (by omega), if_neg (by omega), if_pos e]

example : checkRgba x64 19 8 2 3 3 = .err (.destinationSizeMismatch ⟨24, 19⟩) := by decide
example : checkRgba x64 22 8 2 3 3 = .ok () := by decide
example : checkRgba x64 100 5 2 3 3 = .err (.minimumStrideSizeMismatch ⟨6, 5⟩) := by decide

/-- The restriction of C02 to 64-bit targets is necessary: on a 32-bit release
build the product `stride * (height - 1)` wraps and a 4-element buffer is
accepted for a 1×3 RGBA image with stride 2^31. -/
theorem c02_rgba_check_wraps_on_32bit :
    checkRgba ⟨32, true⟩ 4 (2 ^ 31) 1 3 4 = .ok () ∧ ¬ PackedCovers 4 (2 ^ 31) 4 1 3 := by
  refine ⟨by decide, fun h => ?_⟩
  have := h 0 1 0 (by omega) (by omega) (by omega)
  omega

/-! ## C03 bi-planar images -/

/-- C03: the interleaved chroma plane must be tightly packed: its rows hold exactly
the U/V pairs that cover the image, and the plane has exactly the rows needed. -/
theorem c03_biplanar_check_iff (i : BiPlanar) (s : Sampling)
    (h : U32 i.yStride ∧ U32 i.uvStride ∧ U32 i.width ∧ U32 i.height)
    (hw : U32 (s.chromaWidth i.width * 2)) :
    i.check x64 s = .ok () ↔
      0 < i.width ∧ 0 < i.height ∧
      PlaneCovers i.y.length i.yStride 1 1 i.width i.height ∧
      i.uvStride = 2 * ((i.width - 1) / hdiv s + 1) ∧
      i.uv.length = i.uvStride * ((i.height - 1) / vdiv s + 1) := by
  obtain ⟨h1, h2, h4, h5⟩ := h
  have e : i.check x64 s = .ok () ↔
      (checkY8 x64 i.y.length i.yStride i.width i.height = .ok () ∧
       checkInterleaved x64 i.uv.length i.uvStride i.width i.height s = .ok ()) := by
    unfold BiPlanar.check
    cases checkY8 x64 i.y.length i.yStride i.width i.height <;> simp
  rw [e, checkY8_ok_iff h1 h4 h5, checkInterleaved_ok_iff h2 hw h5]
  constructor
  · rintro ⟨⟨a, b, c⟩, ⟨_, _, d, f⟩⟩
    refine ⟨a, b, (lumaCovers_iff a b).2 c, ?_, ?_⟩
    · rw [last_div_hdiv a]; have := chromaWidth_pos (s := s) a; omega
    · rw [last_div_vdiv b, f]; have := chromaHeight_pos (s := s) b
      rw [show s.chromaHeight i.height - 1 + 1 = s.chromaHeight i.height by omega]
  · rintro ⟨a, b, c, d, f⟩
    have p := chromaWidth_pos (s := s) a
    have q := chromaHeight_pos (s := s) b
    rw [last_div_hdiv a] at d
    rw [last_div_vdiv b, show s.chromaHeight i.height - 1 + 1 = s.chromaHeight i.height by omega] at f
    exact ⟨⟨a, b, (lumaCovers_iff a b).1 c⟩, a, b, by omega, f⟩

/-- C03: in an accepted bi-planar image both samples of the pair covering any pixel are
inside the chroma plane. -/
theorem c03_biplanar_in_bounds (i : BiPlanar) (s : Sampling)
    (h : U32 i.yStride ∧ U32 i.uvStride ∧ U32 i.width ∧ U32 i.height)
    (hw : U32 (s.chromaWidth i.width * 2)) (hok : i.check x64 s = .ok ())
    (x y : Nat) (hx : x < i.width) (hy : y < i.height) (k : Nat) (hk : k < 2) :
    y * i.yStride + x < i.y.length ∧
    x / hdiv s * 2 + k < i.uvStride ∧
    y / vdiv s * i.uvStride + (x / hdiv s * 2 + k) < i.uv.length := by
  obtain ⟨a, b, c, d, f⟩ := (c03_biplanar_check_iff i s h hw).1 hok
  have hl := c x y hx hy
  rw [last_div_hdiv a] at d
  rw [last_div_vdiv b] at f
  have p := chromaWidth_pos (s := s) a
  have q := chromaHeight_pos (s := s) b
  have e1 := div_hdiv_lt (s := s) hx
  have e2 := div_vdiv_lt (s := s) hy
  have hcol : x / hdiv s * 2 + k < i.uvStride := by omega
  refine ⟨by simpa using hl.2, hcol, ?_⟩
  have e3 : s.chromaHeight i.height - 1 + 1 = s.chromaHeight i.height := by omega
  rw [f, e3]
  have : (y / vdiv s + 1) * i.uvStride ≤ s.chromaHeight i.height * i.uvStride :=
    Nat.mul_le_mul_right _ e2
  rw [Nat.succ_mul, Nat.mul_comm (s.chromaHeight i.height)] at this
  omega

example : (⟨zeros 15, 5, zeros 8, 4, 3, 3⟩ : BiPlanar).check x64 .yuv420 = .ok () := by decide

/-- The bound on the width in C03 is necessary: for a 4:4:4 bi-planar image of
width 2^31 the doubled width overflows `u32`; in a release build the check then
accepts an empty chroma plane. -/
theorem c03_interleaved_width_overflow :
    checkInterleaved ⟨64, true⟩ 0 0 (2 ^ 31) 1 .yuv444 = .ok () ∧
    checkInterleaved ⟨64, false⟩ 0 0 (2 ^ 31) 1 .yuv444 = .panic := by decide

/-- Rows of the interleaved plane may not be padded: a 2×2 NV12 image whose chroma
row is padded to four elements is rejected although all its samples are in bounds. -/
theorem c03_padded_chroma_rejected :
    (⟨zeros 4, 2, zeros 4, 4, 2, 2⟩ : BiPlanar).check x64 .yuv420 =
      .err (.chromaPlaneSizeMismatch ⟨4, 4⟩) := by decide

/-! ## Packed 4:2:2 frames (part of C35/C36) -/

/-- The packed 4:2:2 check pins the length to two components per pixel of the
width rounded up to even — but it does not look at the stride at all. -/
theorem packed422_check_iff (i : Packed)
    (h : U32 i.yuyStride ∧ U32 i.width ∧ U32 i.height)
    (hsz : 2 * (i.width + 1) * i.height < 2 ^ 64) :
    i.check x64 = .ok () ↔
      0 < i.width ∧ 0 < i.height ∧ i.yuy.length = 4 * ceil2 i.width * i.height := by
  obtain ⟨h1, h2, h3⟩ := h
  unfold U32 at *
  unfold Packed.check checkPacked422
  have e1 := mul_lt_64 h1 h3
  have e2 := mul_lt_64 h2 h3
  have hmono : 2 * i.width * i.height ≤ 2 * (i.width + 1) * i.height :=
    Nat.mul_le_mul_right _ (by omega)
  by_cases h0 : i.width = 0 ∨ i.height = 0
  · rw [if_pos h0]; simp; omega
  · rw [if_neg h0]
    simp only [overflow2_ok e1, overflow2_ok e2, Outcome.bind_ok]
    by_cases hp : i.width % 2 = 0
    · have : 4 * ceil2 i.width = 2 * i.width := by unfold ceil2; omega
      simp only [hp, if_true, usize_ok (show 2 * i.width < 2 ^ 64 by omega), Outcome.bind_ok,
        usize_ok (show 2 * i.width * i.height < 2 ^ 64 by omega), this,
        usize_ok e1]
      split <;> simp <;> omega
    · have : 4 * ceil2 i.width = 2 * (i.width + 1) := by unfold ceil2; omega
      simp only [hp, if_false, usize_ok (show i.width + 1 < 2 ^ 64 by omega), Outcome.bind_ok,
        usize_ok (show 2 * (i.width + 1) < 2 ^ 64 by omega),
        usize_ok (show 2 * (i.width + 1) * i.height < 2 ^ 64 by omega), this, usize_ok e1]
      split <;> simp <;> omega

/-- The size bound in `packed422_check_iff` is needed: the product `2 * width * height`
is not overflow-checked; a release build accepts a 290948384-element buffer for a
3037000500×3037000500 frame. -/
theorem packed422_check_wraps :
    checkPacked422 ⟨64, true⟩ 290948384 0 3037000500 3037000500 = .ok () := by decide

example : (⟨zeros 24, 8, 3, 3⟩ : Packed).check x64 = .ok () := by decide

/-! ## C04 allocation -/

/-- C04: an allocated planar image passes its own check and its planes hold exactly
one sample per luma and chroma position. -/
theorem c04_planar_alloc_valid (w h : Nat) (s : Sampling) (hw : U32 w) (hh : U32 h)
    (hw0 : 0 < w) (hh0 : 0 < h) :
    ∃ i, Planar.alloc x64 w h s = .ok i ∧ i.check x64 s = .ok () ∧
      i.width = w ∧ i.height = h ∧
      i.y.length = w * h ∧
      i.u.length = ((w - 1) / hdiv s + 1) * ((h - 1) / vdiv s + 1) ∧
      i.v.length = ((w - 1) / hdiv s + 1) * ((h - 1) / vdiv s + 1) := by
  have hcw := chromaWidth_lt (s := s) hw
  have hch := chromaHeight_lt (s := s) hh
  have pcw := chromaWidth_pos (s := s) hw0
  have pch := chromaHeight_pos (s := s) hh0
  have hmod : s.chromaWidth w % 2 ^ 32 = s.chromaWidth w := Nat.mod_eq_of_lt hcw
  have e1 : Planar.alloc x64 w h s = .ok
      { y := zeros (w * h), yStride := w, u := zeros (s.chromaWidth w * s.chromaHeight h),
        uStride := s.chromaWidth w, v := zeros (s.chromaWidth w * s.chromaHeight h),
        vStride := s.chromaWidth w, width := w, height := h } := by
    simp only [Planar.alloc, usize_ok (mul_lt_64 hw hh), usize_ok (mul_lt_64 hcw hch),
      Outcome.bind_ok, Outcome.pure_eq, hmod]
  have e2 : (w - 1) / hdiv s + 1 = s.chromaWidth w := by rw [last_div_hdiv hw0]; omega
  have e3 : (h - 1) / vdiv s + 1 = s.chromaHeight h := by rw [last_div_vdiv hh0]; omega
  refine ⟨_, e1, ?_, rfl, rfl, by simp [zeros], by simp [zeros, e2, e3], by simp [zeros, e2, e3]⟩
  have k : ∀ a b : Nat, 0 < b → a * (b - 1) + a ≤ a * b := by
    intro a b hb
    have : a * (b - 1 + 1) = a * (b - 1) + a := Nat.mul_succ _ _
    rw [show b - 1 + 1 = b by omega] at this; omega
  rw [Planar.check, (checkY8_ok_iff hw hw hh).2, Outcome.bind_ok,
    (checkChroma_ok_iff hcw hw hh).2, Outcome.bind_ok]
  · exact ⟨hw0, hh0, Nat.le_refl _, by simp only [zeros, List.length_replicate]; exact k _ _ pch⟩
  · exact ⟨hw0, hh0, Nat.le_refl _, by simp only [zeros, List.length_replicate]; exact k _ _ hh0⟩

/-- C04 for bi-planar images (the interleaved row must itself be a `u32`). -/
theorem c04_biplanar_alloc_valid (w h : Nat) (s : Sampling) (hw : U32 w) (hh : U32 h)
    (hw0 : 0 < w) (hh0 : 0 < h) (hw2 : U32 (2 * ((w - 1) / hdiv s + 1))) :
    ∃ i, BiPlanar.alloc x64 w h s = .ok i ∧ i.check x64 s = .ok () ∧
      i.width = w ∧ i.height = h ∧ i.y.length = w * h ∧
      i.uv.length = 2 * ((w - 1) / hdiv s + 1) * ((h - 1) / vdiv s + 1) := by
  have pcw := chromaWidth_pos (s := s) hw0
  have pch := chromaHeight_pos (s := s) hh0
  have e2 : (w - 1) / hdiv s + 1 = s.chromaWidth w := by rw [last_div_hdiv hw0]; omega
  have e3 : (h - 1) / vdiv s + 1 = s.chromaHeight h := by rw [last_div_vdiv hh0]; omega
  rw [e2, Nat.mul_comm] at hw2
  have hcw : s.chromaWidth w * 2 < 2 ^ 32 := hw2
  have hch := chromaHeight_lt (s := s) hh
  have hmod : s.chromaWidth w * 2 % 2 ^ 32 = s.chromaWidth w * 2 := Nat.mod_eq_of_lt hcw
  have e1 : BiPlanar.alloc x64 w h s = .ok
      { y := zeros (w * h), yStride := w,
        uv := zeros (s.chromaWidth w * 2 * s.chromaHeight h),
        uvStride := s.chromaWidth w * 2, width := w, height := h } := by
    simp only [BiPlanar.alloc, usize_ok (mul_lt_64 hw hh),
      usize_ok (show s.chromaWidth w * 2 < 2 ^ 64 by omega), usize_ok (mul_lt_64 hcw hch),
      Outcome.bind_ok, Outcome.pure_eq, hmod]
  refine ⟨_, e1, ?_, rfl, rfl, by simp [zeros], by simp [zeros, e2, e3, Nat.mul_comm]⟩
  have k : ∀ a b : Nat, 0 < b → a * (b - 1) + a ≤ a * b := by
    intro a b hb
    have : a * (b - 1 + 1) = a * (b - 1) + a := Nat.mul_succ _ _
    rw [show b - 1 + 1 = b by omega] at this; omega
  rw [BiPlanar.check, (checkY8_ok_iff hw hw hh).2, Outcome.bind_ok,
    (checkInterleaved_ok_iff hcw hcw hh).2]
  · exact ⟨hw0, hh0, rfl, by simp [zeros]⟩
  · exact ⟨hw0, hh0, Nat.le_refl _, by simp only [zeros, List.length_replicate]; exact k _ _ hh0⟩

/-- C04 for gray images. -/
theorem c04_gray_alloc_valid (w h : Nat) (hw : U32 w) (hh : U32 h) (hw0 : 0 < w) (hh0 : 0 < h) :
    ∃ i, Gray.alloc x64 w h = .ok i ∧ i.check x64 = .ok () ∧
      i.width = w ∧ i.height = h ∧ i.y.length = w * h := by
  have e1 : Gray.alloc x64 w h = .ok
      { y := zeros (w * h), yStride := w, width := w, height := h } := by
    simp only [Gray.alloc, usize_ok (mul_lt_64 hw hh), Outcome.bind_ok, Outcome.pure_eq]
  refine ⟨_, e1, ?_, rfl, rfl, by simp [zeros]⟩
  have k : ∀ a b : Nat, 0 < b → a * (b - 1) + a ≤ a * b := by
    intro a b hb
    have : a * (b - 1 + 1) = a * (b - 1) + a := Nat.mul_succ _ _
    rw [show b - 1 + 1 = b by omega] at this; omega
  rw [Gray.check, (checkY8_ok_iff hw hw hh).2]
  exact ⟨hw0, hh0, Nat.le_refl _, by simp only [zeros, List.length_replicate]; exact k _ _ hh0⟩

example : (Planar.alloc x64 3 5 .yuv420).isOk = true := by decide
example : (BiPlanar.alloc x64 3 5 .yuv444).isOk = true := by decide

end Verif
