import Verif.Model.Checks
import Verif.Spec.Geometry
/-! # Lemmas about the validators -/
namespace Verif
open Spec

theorem ceil2_pos {n : Nat} (h : 0 < n) : 0 < ceil2 n := by unfold ceil2; omega
theorem ceil2_le {n : Nat} : ceil2 n ≤ n + 0 + (1 - n) := by unfold ceil2; omega

theorem mul_lt_64 {a b : Nat} (ha : a < 2 ^ 32) (hb : b < 2 ^ 32) : a * b < 2 ^ 64 := by
  calc a * b ≤ (2 ^ 32 - 1) * (2 ^ 32 - 1) := Nat.mul_le_mul (by omega) (by omega)
    _ < 2 ^ 64 := by decide

theorem chromaWidth_lt {s : Sampling} {w : Nat} (h : w < 2 ^ 32) : s.chromaWidth w < 2 ^ 32 := by
  cases s <;> simp only [Sampling.chromaWidth, ceil2] <;> omega
theorem chromaHeight_lt {s : Sampling} {w : Nat} (h : w < 2 ^ 32) : s.chromaHeight w < 2 ^ 32 := by
  cases s <;> simp only [Sampling.chromaHeight, ceil2] <;> omega
theorem chromaWidth_pos {s : Sampling} {w : Nat} (h : 0 < w) : 0 < s.chromaWidth w := by
  cases s <;> simp only [Sampling.chromaWidth, ceil2] <;> omega
theorem chromaHeight_pos {s : Sampling} {w : Nat} (h : 0 < w) : 0 < s.chromaHeight w := by
  cases s <;> simp only [Sampling.chromaHeight, ceil2] <;> omega

theorem div_hdiv_lt {s : Sampling} {x w : Nat} (h : x < w) : x / hdiv s < s.chromaWidth w := by
  cases s <;> simp only [Sampling.chromaWidth, ceil2, hdiv] <;> omega
theorem div_vdiv_lt {s : Sampling} {x w : Nat} (h : x < w) : x / vdiv s < s.chromaHeight w := by
  cases s <;> simp only [Sampling.chromaHeight, ceil2, vdiv] <;> omega
theorem last_div_hdiv {s : Sampling} {w : Nat} (h : 0 < w) :
    (w - 1) / hdiv s = s.chromaWidth w - 1 := by
  cases s <;> simp only [Sampling.chromaWidth, ceil2, hdiv] <;> omega
theorem last_div_vdiv {s : Sampling} {w : Nat} (h : 0 < w) :
    (w - 1) / vdiv s = s.chromaHeight w - 1 := by
  cases s <;> simp only [Sampling.chromaHeight, ceil2, vdiv] <;> omega

/-- The length the validators ask for: all rows but the last in full, and the
last one up to its width. -/
theorem row_index_lt {x y w h stride : Nat} (hx : x < w) (hy : y < h) :
    y * stride + x < stride * (h - 1) + w := by
  have : y * stride ≤ (h - 1) * stride := Nat.mul_le_mul_right _ (by omega)
  rw [Nat.mul_comm stride]; omega

theorem usize_ok {x : Nat} (h : x < 2 ^ 64) : x64.usize x = .ok x := by
  unfold Target.usize; exact if_pos h
theorem u32_ok {x : Nat} (h : x < 2 ^ 32) : x64.u32 x = .ok x := by
  unfold Target.u32; exact if_pos h
theorem overflow2_ok {a b : Nat} (h : a * b < 2 ^ 64) : checkOverflow2 x64 a b = .ok () := by
  unfold checkOverflow2; exact if_pos h

theorem need_lt_64 {stride h w : Nat} (h1 : stride < 2 ^ 32) (h2 : h < 2 ^ 32) (h3 : w < 2 ^ 32) :
    stride * (h - 1) + w < 2 ^ 64 := by
  have : stride * (h - 1) ≤ (2 ^ 32 - 1) * (2 ^ 32 - 2) := Nat.mul_le_mul (by omega) (by omega)
  have e : (2 ^ 32 - 1) * (2 ^ 32 - 2) + 2 ^ 32 ≤ 2 ^ 64 := by decide
  omega

/-- Closed form of the luma check on a 64-bit target. -/
theorem checkY8_eq {len stride w h : Nat} (hs : stride < 2 ^ 32) (hw : w < 2 ^ 32)
    (hh : h < 2 ^ 32) :
    checkY8 x64 len stride w h =
      if w = 0 ∨ h = 0 then .err .zeroBaseSize
      else if stride * h < w * h then .err (.lumaPlaneMinimumSizeMismatch ⟨w * h, stride * h⟩)
      else if len < stride * (h - 1) + w then .err (.lumaPlaneSizeMismatch ⟨stride * h, len⟩)
      else .ok () := by
  unfold checkY8
  have h4 := need_lt_64 hs hh hw
  simp only [overflow2_ok (mul_lt_64 hs hh), overflow2_ok (mul_lt_64 hw hh), Outcome.bind_ok,
    usize_ok (show stride * (h - 1) < 2 ^ 64 by omega), usize_ok h4]

theorem checkChroma_eq {len stride w h : Nat} {s : Sampling} (hs : stride < 2 ^ 32)
    (hw : w < 2 ^ 32) (hh : h < 2 ^ 32) :
    checkChroma x64 len stride w h s =
      if w = 0 ∨ h = 0 then .err .zeroBaseSize
      else if stride * s.chromaHeight h < s.chromaWidth w * s.chromaHeight h then
        .err (.chromaPlaneMinimumSizeMismatch
          ⟨s.chromaWidth w * s.chromaHeight h, stride * s.chromaHeight h⟩)
      else if len < stride * (s.chromaHeight h - 1) + s.chromaWidth w then
        .err (.chromaPlaneMinimumSizeMismatch
          ⟨stride * (s.chromaHeight h - 1) + s.chromaWidth w, len⟩)
      else .ok () := by
  unfold checkChroma
  have hcw := chromaWidth_lt (s := s) hw
  have hch := chromaHeight_lt (s := s) hh
  have h4 := need_lt_64 hs hch hcw
  simp only [overflow2_ok (mul_lt_64 hs hch), overflow2_ok (mul_lt_64 hcw hch), Outcome.bind_ok,
    usize_ok (show stride * (s.chromaHeight h - 1) < 2 ^ 64 by omega), usize_ok h4]

theorem checkY8_ok_iff {len stride w h : Nat} (hs : stride < 2 ^ 32) (hw : w < 2 ^ 32)
    (hh : h < 2 ^ 32) :
    checkY8 x64 len stride w h = .ok () ↔
      0 < w ∧ 0 < h ∧ w ≤ stride ∧ stride * (h - 1) + w ≤ len := by
  rw [checkY8_eq hs hw hh]
  by_cases h0 : w = 0 ∨ h = 0
  · rw [if_pos h0]; constructor
    · intro hh; cases hh
    · rintro ⟨a, b, _⟩; omega
  · rw [if_neg h0]
    have hhp : 0 < h := by omega
    have hmul : stride * h < w * h ↔ stride < w := by
      constructor
      · intro h1; exact Nat.lt_of_mul_lt_mul_right h1
      · intro h1; exact Nat.mul_lt_mul_of_pos_right h1 hhp
    simp only [hmul]
    by_cases h1 : stride < w
    · rw [if_pos h1]; constructor
      · intro hh; cases hh
      · rintro ⟨_, _, h, _⟩; omega
    · rw [if_neg h1]
      by_cases h2 : len < stride * (h - 1) + w
      · rw [if_pos h2]; constructor
        · intro hh; cases hh
        · rintro ⟨_, _, _, h⟩; omega
      · rw [if_neg h2]; simp; omega

theorem checkChroma_ok_iff {len stride w h : Nat} {s : Sampling} (hs : stride < 2 ^ 32)
    (hw : w < 2 ^ 32) (hh : h < 2 ^ 32) :
    checkChroma x64 len stride w h s = .ok () ↔
      0 < w ∧ 0 < h ∧ s.chromaWidth w ≤ stride ∧
        stride * (s.chromaHeight h - 1) + s.chromaWidth w ≤ len := by
  rw [checkChroma_eq hs hw hh]
  by_cases h0 : w = 0 ∨ h = 0
  · rw [if_pos h0]; constructor
    · intro hh; cases hh
    · rintro ⟨a, b, _⟩; omega
  · rw [if_neg h0]
    have hhp : 0 < s.chromaHeight h := chromaHeight_pos (by omega)
    have hmul : stride * s.chromaHeight h < s.chromaWidth w * s.chromaHeight h ↔
        stride < s.chromaWidth w := by
      constructor
      · intro h1; exact Nat.lt_of_mul_lt_mul_right h1
      · intro h1; exact Nat.mul_lt_mul_of_pos_right h1 hhp
    simp only [hmul]
    by_cases h1 : stride < s.chromaWidth w
    · rw [if_pos h1]; constructor
      · intro hh; cases hh
      · rintro ⟨_, _, h, _⟩; omega
    · rw [if_neg h1]
      by_cases h2 : len < stride * (s.chromaHeight h - 1) + s.chromaWidth w
      · rw [if_pos h2]; constructor
        · intro hh; cases hh
        · rintro ⟨_, _, _, h⟩; omega
      · rw [if_neg h2]; simp; omega

/-- The arithmetic form of "the plane holds the chroma of every pixel". -/
theorem planeCovers_iff {len stride w h : Nat} {s : Sampling} (hw : 0 < w) (hh : 0 < h) :
    PlaneCovers len stride (hdiv s) (vdiv s) w h ↔
      s.chromaWidth w ≤ stride ∧ stride * (s.chromaHeight h - 1) + s.chromaWidth w ≤ len := by
  have p1 := chromaWidth_pos (s := s) hw
  constructor
  · intro hc
    have := hc (w - 1) (h - 1) (by omega) (by omega)
    rw [last_div_hdiv hw, last_div_vdiv hh, Nat.mul_comm] at this
    omega
  · rintro ⟨h1, h2⟩ x y hx hy
    have a := div_hdiv_lt (s := s) hx
    have b := row_index_lt (stride := stride) a (div_vdiv_lt (s := s) hy)
    omega

theorem lumaCovers_iff {len stride w h : Nat} (hw : 0 < w) (hh : 0 < h) :
    PlaneCovers len stride 1 1 w h ↔ w ≤ stride ∧ stride * (h - 1) + w ≤ len :=
  planeCovers_iff (s := .yuv444) hw hh

theorem packedCovers_iff {len stride cn w h : Nat} (hw : 0 < w) (hh : 0 < h) (hc : 0 < cn) :
    PackedCovers len stride cn w h ↔ w * cn ≤ stride ∧ stride * (h - 1) + w * cn ≤ len := by
  have hm : w * cn = (w - 1) * cn + cn := by
    have : (w - 1 + 1) * cn = (w - 1) * cn + cn := Nat.succ_mul _ _
    rwa [show w - 1 + 1 = w by omega] at this
  constructor
  · intro h1
    have := h1 (w - 1) (h - 1) (cn - 1) (by omega) (by omega) (by omega)
    rw [Nat.mul_comm (h - 1)] at this
    omega
  · rintro ⟨h1, h2⟩ x y c hx hy hcc
    have hl : x * cn + c < w * cn := by
      have : x * cn ≤ (w - 1) * cn := Nat.mul_le_mul_right _ (by omega)
      omega
    have b := row_index_lt (stride := stride) hl hy
    omega

theorem overflow3_ok {w h cn : Nat} (h3 : w * h * cn < 2 ^ 64) (hcn : 0 < cn) :
    checkOverflow3 x64 w h cn = .ok () := by
  have : w * h < 2 ^ 64 := Nat.lt_of_le_of_lt (Nat.le_mul_of_pos_right _ hcn) h3
  unfold checkOverflow3; exact (if_pos this).trans (if_pos h3)

theorem overflow3_err {w h cn : Nat} (h3 : 2 ^ 64 ≤ w * h * cn) :
    checkOverflow3 x64 w h cn = .err .pointerOverflow := by
  unfold checkOverflow3
  by_cases h1 : w * h < 2 ^ 64
  · exact (if_pos h1).trans (if_neg (Nat.not_lt.2 h3))
  · exact if_neg h1

/-- Closed form of the packed buffer check on a 64-bit target: no computation overflows. -/
theorem checkRgba_eq {len stride w h cn : Nat} (hs : stride < 2 ^ 32)
    (hw : w < 2 ^ 32) (hh : h < 2 ^ 32) (hcn : 0 < cn) (hcn4 : cn ≤ 4) :
    checkRgba x64 len stride w h cn =
      if w = 0 ∨ h = 0 then .err .zeroBaseSize
      else if 2 ^ 64 ≤ w * h * cn then .err .pointerOverflow
      else if len < stride * (h - 1) + w * cn then
        .err (.destinationSizeMismatch ⟨stride * h, len⟩)
      else if stride < w * cn then .err (.minimumStrideSizeMismatch ⟨w * cn, stride⟩)
      else .ok () := by
  unfold checkRgba
  by_cases h0 : w = 0 ∨ h = 0
  · rw [if_pos h0, if_pos h0]
  · rw [if_neg h0, if_neg h0]
    by_cases h3 : 2 ^ 64 ≤ w * h * cn
    · rw [if_pos h3]
      simp only [overflow3_err h3, Outcome.bind_err]
    · rw [if_neg h3]
      have h3' : w * h * cn < 2 ^ 64 := by omega
      have hrow : w * cn < 2 ^ 64 := by
        calc w * cn ≤ w * 4 := Nat.mul_le_mul_left _ hcn4
          _ < 2 ^ 64 := by omega
      have hneed : stride * (h - 1) + w * cn < 2 ^ 64 := by
        -- the product w*h*cn is below 2^64, so either h or w*cn is small
        by_cases hbig : w * cn ≤ 2 ^ 32
        · have : stride * (h - 1) ≤ (2 ^ 32 - 1) * (2 ^ 32 - 2) :=
            Nat.mul_le_mul (by omega) (by omega)
          have e : (2 ^ 32 - 1) * (2 ^ 32 - 2) + 2 ^ 32 < 2 ^ 64 := by decide
          omega
        · have hh2 : h < 2 ^ 32 := hh
          have : w * cn * h < 2 ^ 64 := by rw [Nat.mul_right_comm]; exact h3'
          have hmul : (2 ^ 32 + 1) * h ≤ w * cn * h := Nat.mul_le_mul_right _ (by omega)
          have hb : w * cn < 2 ^ 34 := by
            calc w * cn ≤ w * 4 := Nat.mul_le_mul_left _ hcn4
              _ < 2 ^ 34 := by omega
          have hstr : stride * (h - 1) ≤ (2 ^ 32 - 1) * (h - 1) := Nat.mul_le_mul_right _ (by omega)
          have e1 : (2 ^ 32 - 1) * (h - 1) + (h - 1) = 2 ^ 32 * (h - 1) := by
            have : (2 ^ 32 - 1 + 1) * (h - 1) = (2 ^ 32 - 1) * (h - 1) + (h - 1) := Nat.succ_mul _ _
            omega
          have hsmall : h ≤ 2 ^ 32 - 1 := by omega
          -- w*cn*h < 2^64 with w*cn > 2^32
          have key : stride * (h - 1) + w * cn ≤ w * cn * h := by
            have hh1 : w * cn * h = w * cn * (h - 1) + w * cn := by
              have : w * cn * (h - 1 + 1) = w * cn * (h - 1) + w * cn := Nat.mul_succ _ _
              rwa [show h - 1 + 1 = h by omega] at this
            have : stride * (h - 1) ≤ w * cn * (h - 1) := Nat.mul_le_mul_right _ (by omega)
            omega
          omega
      have hexp : stride * h < 2 ^ 64 := mul_lt_64 hs hh
      simp only [overflow3_ok h3' hcn, Outcome.bind_ok, usize_ok hrow, usize_ok hneed,
        usize_ok (show stride * (h - 1) < 2 ^ 64 by omega), usize_ok hexp]

theorem checkRgba_ok_iff {len stride w h cn : Nat} (hs : stride < 2 ^ 32)
    (hw : w < 2 ^ 32) (hh : h < 2 ^ 32) (hcn : 0 < cn) (hcn4 : cn ≤ 4) :
    checkRgba x64 len stride w h cn = .ok () ↔
      0 < w ∧ 0 < h ∧ w * h * cn < 2 ^ 64 ∧ w * cn ≤ stride ∧
        stride * (h - 1) + w * cn ≤ len := by
  rw [checkRgba_eq hs hw hh hcn hcn4]
  repeat' split
  all_goals simp only [reduceCtorEq, false_iff, true_iff]
  all_goals omega

theorem checkRgba_no_panic {len stride w h cn : Nat} (hs : stride < 2 ^ 32)
    (hw : w < 2 ^ 32) (hh : h < 2 ^ 32) (hcn : 0 < cn) (hcn4 : cn ≤ 4) :
    checkRgba x64 len stride w h cn ≠ .panic := by
  rw [checkRgba_eq hs hw hh hcn hcn4]
  repeat' split
  all_goals simp only [ne_eq, reduceCtorEq, not_false_eq_true]

theorem checkY8_no_panic {len stride w h : Nat} (hs : stride < 2 ^ 32)
    (hw : w < 2 ^ 32) (hh : h < 2 ^ 32) : checkY8 x64 len stride w h ≠ .panic := by
  rw [checkY8_eq hs hw hh]
  repeat' split
  all_goals simp only [ne_eq, reduceCtorEq, not_false_eq_true]

theorem checkChroma_no_panic {len stride w h : Nat} {s : Sampling} (hs : stride < 2 ^ 32)
    (hw : w < 2 ^ 32) (hh : h < 2 ^ 32) : checkChroma x64 len stride w h s ≠ .panic := by
  rw [checkChroma_eq hs hw hh]
  repeat' split
  all_goals simp only [ne_eq, reduceCtorEq, not_false_eq_true]

/-- Closed form of the interleaved chroma check on a 64-bit target. -/
theorem checkInterleaved_eq {len stride w h : Nat} {s : Sampling} (hs : stride < 2 ^ 32)
    (hw : s.chromaWidth w * 2 < 2 ^ 32) (hh : h < 2 ^ 32) :
    checkInterleaved x64 len stride w h s =
      if w = 0 ∨ h = 0 then .err .zeroBaseSize
      else if stride * s.chromaHeight h < s.chromaWidth w * 2 * s.chromaHeight h then
        .err (.chromaPlaneMinimumSizeMismatch
          ⟨s.chromaWidth w * 2 * s.chromaHeight h, stride * s.chromaHeight h⟩)
      else if stride * s.chromaHeight h ≠ len ∨ s.chromaWidth w * 2 * s.chromaHeight h ≠ len then
        .err (.chromaPlaneSizeMismatch ⟨stride * s.chromaHeight h, len⟩)
      else .ok () := by
  unfold checkInterleaved
  have hch := chromaHeight_lt (s := s) hh
  simp only [u32_ok hw, overflow2_ok (mul_lt_64 hs hch), overflow2_ok (mul_lt_64 hw hch),
    Outcome.bind_ok]

theorem checkInterleaved_ok_iff {len stride w h : Nat} {s : Sampling} (hs : stride < 2 ^ 32)
    (hw : s.chromaWidth w * 2 < 2 ^ 32) (hh : h < 2 ^ 32) :
    checkInterleaved x64 len stride w h s = .ok () ↔
      0 < w ∧ 0 < h ∧ stride = s.chromaWidth w * 2 ∧ len = stride * s.chromaHeight h := by
  rw [checkInterleaved_eq hs hw hh]
  by_cases h0 : w = 0 ∨ h = 0
  · rw [if_pos h0]; constructor
    · intro hh; cases hh
    · rintro ⟨a, b, _⟩; omega
  · rw [if_neg h0]
    have hhp : 0 < s.chromaHeight h := chromaHeight_pos (by omega)
    by_cases h1 : stride * s.chromaHeight h < s.chromaWidth w * 2 * s.chromaHeight h
    · rw [if_pos h1]; constructor
      · intro hh; cases hh
      · rintro ⟨_, _, h, _⟩; rw [h] at h1; omega
    · rw [if_neg h1]
      by_cases h2 : stride * s.chromaHeight h ≠ len ∨ s.chromaWidth w * 2 * s.chromaHeight h ≠ len
      · rw [if_pos h2]; constructor
        · intro hh; cases hh
        · rintro ⟨_, _, h, h'⟩; rw [h] at h' h2; omega
      · rw [if_neg h2]
        have h3 : stride * s.chromaHeight h = s.chromaWidth w * 2 * s.chromaHeight h := by omega
        have h4 := Nat.eq_of_mul_eq_mul_right hhp h3
        simp only [true_iff]
        omega

end Verif
