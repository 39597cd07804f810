import Verif.Lemmas.X86Gray
import Verif.Props.Gray
import Verif.Props.X86Decode
import Verif.Props.X86Encode
import Verif.Props.Identity
/-!
# C71, C72, C73: the grey converters on x86 processors
-/
namespace Verif
open Spec X86

/-- On a processor without vector extensions the converters are the scalar ones. -/
theorem c71_plain_is_scalar (ch : Channels) (i : Gray) (rgba : Buf) (stride : Nat) (rg : YuvRange)
    (m : Matrix) : yToRgbxOn .plain x64 ch i rgba stride rg m = yToRgbx x64 ch noMap i rgba stride rg m :=
  rfl
theorem c72_plain_is_scalar (ch : Channels) (i : GrayAlpha) (rgba : Buf) (stride : Nat)
    (rg : YuvRange) (m : Matrix) :
    yAlphaToRgbxOn .plain x64 ch i rgba stride rg m = yAlphaToRgbx x64 ch noMap i rgba stride rg m := rfl
theorem c73_plain_is_scalar (ch : Channels) (i : Gray) (rgba : Buf) (stride : Nat) (rg : YuvRange)
    (m : Matrix) : rgbxToYOn .plain x64 ch i rgba stride rg m = rgbxToY x64 ch noMap i rgba stride rg m :=
  rfl

/-! ## C71 -/

/-- The grey level of the luma sample `y` in column `x` of a row of `w` pixels. -/
def cpuGrayLevel (cpu : Cpu) (rg : YuvRange) (m : Matrix) (w x y : Nat) : Nat :=
  match rg, cpu with
  | .full, _ => y
  | .limited, .plain => grayLevel 8 .limited m y
  | .limited, .avx2 => vecGrayLevel m y
  | .limited, .sse41 => sseGrayLevel m w x y

/-- C71: what decoding a grey image writes on each class of processor: every pixel is grey and
opaque, the level is a function of the luma sample (on SSE4.1 also of the column), nothing else is
written. -/
theorem c71_x86_gray (cpu : Cpu) (ch : Channels) (i : Gray) (rgba : Buf) (stride : Nat) (rg : YuvRange)
    (m : Matrix) (hi : GoodGray i 256) (hd : GoodDst rgba.length stride i.width i.height ch.count) :
    ∃ out, yToRgbxOn cpu x64 ch i rgba stride rg m = .ok out ∧
      FrameSpec out rgba stride i.width i.height ch.count (fun x y =>
        let l := cpuGrayLevel cpu rg m i.width x (at' i.y i.yStride x y)
        layout ch l l l 255) := by
  have hcn := count_pos ch
  have hs : ∀ s ∈ graySrc i, GoodSrc s i.width i.height 256 := by
    intro s hs; rw [List.mem_singleton] at hs; subst hs; exact goodSrc_plane hi.y
  cases rg with
  | full =>
    have e : yToRgbxOn cpu x64 ch i rgba stride .full m = yToRgbx x64 ch noMap i rgba stride .full m := rfl
    rw [e]
    exact c26_gray_decode_exact ch i rgba stride .full m hi hd
  | limited =>
    unfold yToRgbxOn yToRgbx
    rw [hd.accepted hi.wpos hi.hpos hi.w32 hi.h32 hcn (count_le ch), hi.accepted]
    simp only [Outcome.bind_ok]
    obtain ⟨out, e, h⟩ := mapFrame_cols (cutDst := true) hi.wpos hcn hs
      (grayBody_ok (a := 255) (ch := ch) Nat.one_pos (fun y hy => grayVal8_ok .limited m hy))
      (grayHandler_fills cpu ch m hi.wpos rfl) hd.cols_le hd.full (Or.inl rfl)
    refine ⟨out, e, frameRel_eq ⟨h.1, fun x y hx hy => ?_, h.2.2⟩⟩
    have := h.2.1 x y hx hy
    simp only [pixelsAt, List.map_cons, List.map_nil] at this
    rw [pixelAt_one hx hy hi.y] at this
    rw [this]
    cases cpu <;> rfl

/-- The level of the vector code is that of the scalar code or one more. -/
theorem vecGray_scalar (m : Matrix) {y : Nat} (hy : y < 256) :
    grayLevel 8 .limited m y ≤ vecGrayLevel m y ∧ vecGrayLevel m y ≤ grayLevel 8 .limited m y + 1 := by
  have h : ∀ y, y < 256 → grayLevel 8 .limited m y ≤ vecGrayLevel m y ∧
      vecGrayLevel m y ≤ grayLevel 8 .limited m y + 1 := by
    cases m <;> decide +kernel
  exact h y hy

/-- The luma samples of limited range for which the signed subtraction of the SSE4.1 code is right. -/
def SignedSafe (y : Nat) : Prop := 16 ≤ y ∧ (y < 128 ∨ 144 ≤ y)

instance (y : Nat) : Decidable (SignedSafe y) := inferInstanceAs (Decidable (_ ∧ _))

theorem vecGraySigned_eq (m : Matrix) {y : Nat} (hy : y < 256) (h : SignedSafe y) :
    vecGraySigned m y = vecGrayLevel m y := by
  unfold vecGraySigned vecGrayLevel
  rw [signedLuma_eq (rg := .limited) hy fun _ => h]

theorem cpuGrayLevel_vec {cpu : Cpu} {rg : YuvRange} {m : Matrix} {w x y : Nat} (hy : y < 256)
    (h : cpu = .sse41 → rg = .limited → x < 16 * ((w - 1) / 16) ∨ SignedSafe y) :
    grayLevel 8 rg m y ≤ cpuGrayLevel cpu rg m w x y ∧
      cpuGrayLevel cpu rg m w x y ≤ grayLevel 8 rg m y + 1 := by
  have hv := vecGray_scalar m hy
  cases rg with
  | full => exact ⟨le_refl _, Nat.le_succ _⟩
  | limited =>
    cases cpu with
    | plain => exact ⟨le_refl _, Nat.le_succ _⟩
    | avx2 => exact hv
    | sse41 =>
      simp only [cpuGrayLevel, sseGrayLevel]
      by_cases hx : x < 16 * ((w - 1) / 16)
      · rw [if_pos hx]; exact hv
      · rw [if_neg hx, vecGraySigned_eq m hy ((h rfl rfl).resolve_left hx)]; exact hv

theorem gray_lt {i : Gray} (hi : GoodGray i 256) {x y : Nat} (hx : x < i.width) (hy : y < i.height) :
    at' i.y i.yStride x y < 256 := by
  have := fullRows_row hi.y.full hy
  have := hi.y.cols_le
  exact bnd_getD hi.y.bound (by omega)

/-- Two opaque grey pixels whose levels differ by at most one. -/
def GrayClose (ch : Channels) (p q : Buf) : Prop :=
  ∃ a b, p = layout ch a a a 255 ∧ q = layout ch b b b 255 ∧ a ≤ b + 1 ∧ b ≤ a + 1

/-- C71: a processor with AVX2 and one without vector extensions decode a grey image to levels that
differ by at most one, whatever the samples. -/
theorem c71_avx2_agrees (ch : Channels) (i : Gray) (rgba : Buf) (stride : Nat) (rg : YuvRange)
    (m : Matrix) (hi : GoodGray i 256) (hd : GoodDst rgba.length stride i.width i.height ch.count) :
    ∃ out out', yToRgbxOn .avx2 x64 ch i rgba stride rg m = .ok out ∧
      yToRgbxOn .plain x64 ch i rgba stride rg m = .ok out' ∧
      ∀ x y, x < i.width → y < i.height →
        GrayClose ch (pixelAt out stride ch.count x y) (pixelAt out' stride ch.count x y) := by
  obtain ⟨out, e, h⟩ := c71_x86_gray .avx2 ch i rgba stride rg m hi hd
  obtain ⟨out', e', h'⟩ := c71_x86_gray .plain ch i rgba stride rg m hi hd
  refine ⟨out, out', e, e', fun x y hx hy => ?_⟩
  rw [frameSpec_pixel h hx hy (layout_length ..), frameSpec_pixel h' hx hy (layout_length ..)]
  have v := cpuGrayLevel_vec (cpu := .avx2) (rg := rg) (m := m) (w := i.width) (x := x)
    (gray_lt hi hx hy) (by intro h; cases h)
  have e : cpuGrayLevel .plain rg m i.width x (at' i.y i.yStride x y)
      = grayLevel 8 rg m (at' i.y i.yStride x y) := by cases rg <;> rfl
  exact ⟨_, _, rfl, rfl, by rw [e]; omega, by rw [e]; omega⟩

/-- C71, what holds: any two processors decode a grey image to levels that differ by at most one, when
every sample of a limited-range image is `SignedSafe`.
Missing: the other samples, for which the claim is false on SSE4.1. -/
theorem c71_cpu_agreement_partial (cpu cpu' : Cpu) (ch : Channels) (i : Gray) (rgba : Buf)
    (stride : Nat) (rg : YuvRange) (m : Matrix) (hi : GoodGray i 256)
    (hd : GoodDst rgba.length stride i.width i.height ch.count)
    (hsafe : rg = .limited → ∀ x y, x < i.width → y < i.height → SignedSafe (at' i.y i.yStride x y)) :
    ∃ out out', yToRgbxOn cpu x64 ch i rgba stride rg m = .ok out ∧
      yToRgbxOn cpu' x64 ch i rgba stride rg m = .ok out' ∧
      ∀ x y, x < i.width → y < i.height →
        GrayClose ch (pixelAt out stride ch.count x y) (pixelAt out' stride ch.count x y) := by
  obtain ⟨out, e, h⟩ := c71_x86_gray cpu ch i rgba stride rg m hi hd
  obtain ⟨out', e', h'⟩ := c71_x86_gray cpu' ch i rgba stride rg m hi hd
  refine ⟨out, out', e, e', fun x y hx hy => ?_⟩
  rw [frameSpec_pixel h hx hy (layout_length ..), frameSpec_pixel h' hx hy (layout_length ..)]
  have v := fun cpu => cpuGrayLevel_vec (cpu := cpu) (rg := rg) (m := m) (w := i.width) (x := x)
    (gray_lt hi hx hy) fun _ hr => Or.inr (hsafe hr x y hx hy)
  have v1 := v cpu
  have v2 := v cpu'
  exact ⟨_, _, rfl, rfl, by omega, by omega⟩

/-- The exact expansion of a limited-range sample, saturated. -/
theorem vecGray_exact (m : Matrix) {y : Nat} (hy : y < 256) :
    |(vecGrayLevel m y : Rat) - satQ 8 (maxV 8 * normY 8 .limited y)| ≤ 4 / 3 := by
  have h : ∀ y, y < 256 →
      (3 * (219 * (vecGrayLevel m y : Int) - max 0 (min (255 * ((y : Int) - 16)) (255 * 219))) ≤ 4 * 219 ∧
      -(4 * 219) ≤ 3 * (219 * (vecGrayLevel m y : Int)
        - max 0 (min (255 * ((y : Int) - 16)) (255 * 219)))) := by
    cases m <;> decide +kernel
  obtain ⟨h1, h2⟩ := h y hy
  have e : satQ 8 (maxV 8 * normY 8 .limited y)
      = (max 0 (min (255 * ((y : Int) - 16)) (255 * 219)) : Int) / (219 : Rat) := by
    have e1 : maxV 8 * normY 8 .limited y = (255 * ((y : Int) - 16) : Int) / (219 : Rat) := by
      unfold maxV normY offY gainY; norm_num; ring
    rw [e1]
    unfold satQ maxV
    have g : ∀ a : Rat, max 0 (min (a / 219) (2 ^ 8 - 1)) = max 0 (min a (255 * 219)) / 219 := by
      intro a
      have h0 : (0 : Rat) ≤ 219 := by norm_num
      rw [← max_div_div_right h0, ← min_div_div_right h0]
      norm_num
    rw [g]
    push_cast
    norm_num
  rw [e, abs_le]
  generalize max 0 (min (255 * ((y : Int) - 16)) (255 * 219)) = q at h1 h2 ⊢
  have h1' : (3 * (219 * (vecGrayLevel m y : Rat) - (q : Rat))) ≤ 4 * 219 := by exact_mod_cast h1
  have h2' : -(4 * 219 : Rat) ≤ (3 * (219 * (vecGrayLevel m y : Rat) - (q : Rat))) := by
    exact_mod_cast h2
  constructor <;> linarith

/-- C71: on AVX2 every level is within 4/3 of the ITU expansion of its sample. -/
theorem c71_avx2_accuracy (ch : Channels) (i : Gray) (rgba : Buf) (stride : Nat) (m : Matrix)
    (hi : GoodGray i 256) (hd : GoodDst rgba.length stride i.width i.height ch.count) :
    ∃ out, yToRgbxOn .avx2 x64 ch i rgba stride .limited m = .ok out ∧
      ∀ x y, x < i.width → y < i.height → ∃ l,
        pixelAt out stride ch.count x y = layout ch l l l 255 ∧
        |(l : Rat) - satQ 8 (maxV 8 * normY 8 .limited (at' i.y i.yStride x y))| ≤ 4 / 3 := by
  obtain ⟨out, e, h⟩ := c71_x86_gray .avx2 ch i rgba stride .limited m hi hd
  refine ⟨out, e, fun x y hx hy => ⟨_, frameSpec_pixel h hx hy (layout_length ..), ?_⟩⟩
  exact vecGray_exact m (gray_lt hi hx hy)

/-- C71: black and white, 16 and 235, are 0 and 255 on every processor. -/
theorem c71_black_white (cpu : Cpu) (m : Matrix) (w x : Nat) :
    cpuGrayLevel cpu .limited m w x 16 = 0 ∧ cpuGrayLevel cpu .limited m w x 235 = 255 := by
  have h : ∀ m, grayLevel 8 .limited m 16 = 0 ∧ vecGrayLevel m 16 = 0 ∧ vecGraySigned m 16 = 0 ∧
      grayLevel 8 .limited m 235 = 255 ∧ vecGrayLevel m 235 = 255 ∧ vecGraySigned m 235 = 255 := by
    intro m; cases m <;> decide +kernel
  obtain ⟨h1, h2, h3, h4, h5, h6⟩ := h m
  cases cpu <;> simp only [cpuGrayLevel, sseGrayLevel]
  · exact ⟨h2, h5⟩
  · split <;> exact ⟨by assumption, by assumption⟩
  · exact ⟨h1, h4⟩

/-- C71: on AVX2 a brighter sample never gives a darker level. -/
theorem c71_avx2_monotone (rg : YuvRange) (m : Matrix) (w x x' y y' : Nat) (h : y ≤ y') :
    cpuGrayLevel .avx2 rg m w x y ≤ cpuGrayLevel .avx2 rg m w x' y' := by
  cases rg with
  | full => exact h
  | limited =>
    show vecGrayLevel m y ≤ vecGrayLevel m y'
    have hc := (grayY_coef (d := 8) (Or.inl rfl) m).1
    unfold vecGrayLevel vecGray byteSat mulRound
    have h1 : expand10 (y - (getYuvRange 8 .limited).biasY)
        ≤ expand10 (y' - (getYuvRange 8 .limited).biasY) := by unfold expand10; omega
    have h2 := Int.mul_le_mul_of_nonneg_right h1 hc
    omega

/-- C71 fails on SSE4.1: the three samples 0, 130 and 15, below and inside the range of limited luma,
decode to 255, 150 and 255 instead of 0, 133 (AVX2: 133) and 0: black noise becomes white. -/
def darkGray : Gray := { y := [0, 130, 15], yStride := 3, width := 3, height := 1 }
theorem c71_sse_black_is_white :
    yToRgbxOn .sse41 x64 .rgb darkGray (List.replicate 9 7) 9 .limited .bt709
      = .ok [255, 255, 255, 150, 150, 150, 255, 255, 255] ∧
    yToRgbxOn .plain x64 .rgb darkGray (List.replicate 9 7) 9 .limited .bt709
      = .ok [0, 0, 0, 133, 133, 133, 0, 0, 0] := by decide +kernel

theorem darkGray_good : GoodGray darkGray 256 where
  wpos := by decide
  hpos := by decide
  w32 := by unfold U32; decide
  h32 := by unfold U32; decide
  y := ⟨by unfold U32; decide, by decide, by unfold FullRows; decide, by decide⟩

/-- … and the level of a sample depends on its column: in a row of 17 equal samples 130 the last
pixel is brighter than the others. -/
theorem c71_sse_position_dependent (m : Matrix) (i : Gray) (hi : GoodGray i 256)
    (hw : i.width = 17) (hv : ∀ x y, x < i.width → y < i.height → at' i.y i.yStride x y = 130)
    (rgba : Buf) (stride : Nat) (hd : GoodDst rgba.length stride i.width i.height 3) :
    ∃ out, yToRgbxOn .sse41 x64 .rgb i rgba stride .limited m = .ok out ∧
      ∀ y, y < i.height → pixelAt out stride 3 16 y = [150, 150, 150] ∧
        ∀ x, x < 16 → pixelAt out stride 3 x y = [133, 133, 133] := by
  obtain ⟨out, e, h⟩ := c71_x86_gray .sse41 .rgb i rgba stride .limited m hi hd
  have t : ∀ m, vecGrayLevel m 130 = 133 ∧ vecGraySigned m 130 = 150 := by
    intro m; cases m <;> decide +kernel
  refine ⟨out, e, fun y hy => ⟨?_, fun x hx => ?_⟩⟩
  · have := frameSpec_pixel h (x := 16) (y := y) (by omega) hy (layout_length ..)
    simp only [hv 16 y (by omega) hy, cpuGrayLevel, sseGrayLevel, hw, (t m).2] at this
    exact this
  · have := frameSpec_pixel h (x := x) (y := y) (by omega) hy (layout_length ..)
    simp only [hv x y (by omega) hy, cpuGrayLevel, sseGrayLevel, hw] at this
    rw [if_pos (by omega), (t m).1] at this
    exact this

example : GoodGray demoGray 256 ∧ GoodDst (List.replicate 20 7).length 10 3 2 3 ∧
    yToRgbxOn .avx2 x64 .rgb demoGray (List.replicate 20 7) 10 .limited .bt709 = .ok
    [0, 0, 0, 131, 131, 131, 255, 255, 255, 7, 0, 0, 0, 255, 255, 255, 71, 71, 71, 7] := by
  refine ⟨⟨by decide, by decide, by unfold U32; decide, by unfold U32; decide,
    ⟨by unfold U32; decide, by decide, by unfold FullRows; decide, by decide⟩⟩,
    ⟨by unfold U32; decide, by decide, by unfold FullRows; decide, by decide⟩, ?_⟩
  decide +kernel
/-- The hypothesis of the partial theorem is met by a sample image with several grey levels. -/
example : let i : Gray := { y := [16, 127, 235, 200, 255, 77], yStride := 3, width := 3, height := 2 }
    (∀ x, x < 3 → ∀ y, y < 2 → SignedSafe (at' i.y i.yStride x y)) ∧
    yToRgbxOn .sse41 x64 .rgb i (List.replicate 18 7) 9 .limited .bt709 = .ok
      [0, 0, 0, 130, 130, 130, 255, 255, 255, 215, 215, 215, 255, 255, 255, 71, 71, 71] := by
  decide +kernel

/-! ## C72 -/

/-- The level in column `x` of a row of `w` pixels with alpha. -/
def cpuGrayAlphaLevel (cpu : Cpu) (rg : YuvRange) (m : Matrix) (w x y : Nat) : Nat :=
  match rg, cpu with
  | .full, _ => y
  | .limited, .plain => grayLevel 8 .limited m y
  | .limited, _ => vecGrayAlphaLevel m w x y

/-- C72: what decoding a grey image with alpha writes on each class of processor. -/
theorem c72_x86_gray_alpha (cpu : Cpu) (ch : Channels) (ha : ch.hasAlpha = true) (i : GrayAlpha)
    (rgba : Buf) (stride : Nat) (rg : YuvRange) (m : Matrix) (hi : GoodGrayAlpha i 256)
    (hd : GoodDst rgba.length stride i.width i.height ch.count) :
    ∃ out, yAlphaToRgbxOn cpu x64 ch i rgba stride rg m = .ok out ∧
      FrameSpec out rgba stride i.width i.height ch.count (fun x y =>
        let l := cpuGrayAlphaLevel cpu rg m i.width x (at' i.y i.yStride x y)
        layout ch l l l (at' i.a i.aStride x y)) := by
  have hcn := count_pos ch
  have hs : ∀ s ∈ grayAlphaSrc i, GoodSrc s i.width i.height 256 := by
    intro s hs
    simp only [List.mem_cons, List.not_mem_nil, or_false] at hs
    rcases hs with rfl | rfl
    · exact goodSrc_plane hi.y
    · exact goodSrc_plane hi.a
  cases rg with
  | full =>
    have e : yAlphaToRgbxOn cpu x64 ch i rgba stride .full m
        = yAlphaToRgbx x64 ch noMap i rgba stride .full m := rfl
    rw [e]
    obtain ⟨out, e, h⟩ := c26_gray_alpha_decode ch ha i rgba stride .full m hi hd (fun _ _ => False)
      noMap noMap_ok
    exact ⟨out, e, frameRel_or_eq h fun x y p _ _ hp => hp.resolve_right fun a => a.2⟩
  | limited =>
    unfold yAlphaToRgbxOn yAlphaToRgbx
    rw [if_neg (by simp [ha]), hd.accepted hi.wpos hi.hpos hi.w32 hi.h32 hcn (count_le ch), hi.accepted]
    simp only [Outcome.bind_ok]
    obtain ⟨out, e, h⟩ := mapFrame_cols (cutDst := false) hi.wpos hcn hs
      (grayAlphaBody_ok (ch := ch) Nat.one_pos Nat.one_pos (fun y hy => grayVal8_ok .limited m hy))
      (grayAlphaHandler_fills cpu ch m hi.wpos rfl rfl)
      hd.cols_le hd.full (Or.inr ⟨_, List.mem_cons_self, rfl⟩)
    refine ⟨out, e, frameRel_eq ⟨h.1, fun x y hx hy => ?_, h.2.2⟩⟩
    have := h.2.1 x y hx hy
    simp only [pixelsAt, List.map_cons, List.map_nil] at this
    rw [pixelAt_one hx hy hi.y, pixelAt_one hx hy hi.a] at this
    rw [this]
    cases cpu <;> rfl

/-- C72: processors with AVX2 and with SSE4.1 only write the same bytes. -/
theorem c72_avx2_is_sse (ch : Channels) (ha : ch.hasAlpha = true) (i : GrayAlpha)
    (rgba : Buf) (stride : Nat) (rg : YuvRange) (m : Matrix) (hi : GoodGrayAlpha i 256)
    (hd : GoodDst rgba.length stride i.width i.height ch.count) :
    yAlphaToRgbxOn .avx2 x64 ch i rgba stride rg m = yAlphaToRgbxOn .sse41 x64 ch i rgba stride rg m := by
  obtain ⟨out, e, h⟩ := c72_x86_gray_alpha .avx2 ch ha i rgba stride rg m hi hd
  obtain ⟨out', e', h'⟩ := c72_x86_gray_alpha .sse41 ch ha i rgba stride rg m hi hd
  have hf : ∀ x y, cpuGrayAlphaLevel .avx2 rg m i.width x (at' i.y i.yStride x y)
      = cpuGrayAlphaLevel .sse41 rg m i.width x (at' i.y i.yStride x y) := by
    intro x y; cases rg <;> rfl
  simp only [hf] at h
  rw [e, e', frameSpec_unique h' h]

theorem grayA_lt {i : GrayAlpha} (hi : GoodGrayAlpha i 256) {x y : Nat} (hx : x < i.width)
    (hy : y < i.height) : at' i.y i.yStride x y < 256 := by
  have := fullRows_row hi.y.full hy
  have := hi.y.cols_le
  exact bnd_getD hi.y.bound (by omega)

/-- The columns in which the signed subtraction is used. -/
def SignedColumn (w x : Nat) : Prop := 16 * ((w - 1) / 16) ≤ x ∧ x < 8 * ((w - 1) / 8)

theorem cpuGrayAlphaLevel_close {cpu : Cpu} {rg : YuvRange} {m : Matrix} {w x y : Nat} (hy : y < 256)
    (h : cpu ≠ .plain → rg = .limited → SignedColumn w x → SignedSafe y) :
    grayLevel 8 rg m y ≤ cpuGrayAlphaLevel cpu rg m w x y ∧
      cpuGrayAlphaLevel cpu rg m w x y ≤ grayLevel 8 rg m y + 1 := by
  have hv := vecGray_scalar m hy
  have hvec : cpu ≠ .plain → rg = .limited → grayLevel 8 .limited m y ≤ vecGrayAlphaLevel m w x y ∧
      vecGrayAlphaLevel m w x y ≤ grayLevel 8 .limited m y + 1 := by
    intro hc hr
    unfold vecGrayAlphaLevel
    split
    · exact hv
    · split
      · rw [vecGraySigned_eq m hy (h hc hr ⟨by omega, by assumption⟩)]; exact hv
      · exact ⟨le_refl _, Nat.le_succ _⟩
  cases rg with
  | full => exact ⟨le_refl _, Nat.le_succ _⟩
  | limited =>
    cases cpu with
    | plain => exact ⟨le_refl _, Nat.le_succ _⟩
    | avx2 => exact hvec (by decide) rfl
    | sse41 => exact hvec (by decide) rfl

/-- C72, what holds: on any two processors the levels differ by at most one and alpha is the sample of
the alpha plane, when the samples of limited range in the columns of `SignedColumn` are `SignedSafe`.
Missing: the other samples in these columns, for which the claim about the level is false. -/
theorem c72_cpu_agreement_partial (cpu cpu' : Cpu) (ch : Channels) (ha : ch.hasAlpha = true)
    (i : GrayAlpha) (rgba : Buf) (stride : Nat) (rg : YuvRange) (m : Matrix) (hi : GoodGrayAlpha i 256)
    (hd : GoodDst rgba.length stride i.width i.height ch.count)
    (hsafe : rg = .limited → ∀ x y, x < i.width → y < i.height → SignedColumn i.width x →
      SignedSafe (at' i.y i.yStride x y)) :
    ∃ out out', yAlphaToRgbxOn cpu x64 ch i rgba stride rg m = .ok out ∧
      yAlphaToRgbxOn cpu' x64 ch i rgba stride rg m = .ok out' ∧
      ∀ x y, x < i.width → y < i.height → ∃ a b,
        pixelAt out stride ch.count x y = layout ch a a a (at' i.a i.aStride x y) ∧
        pixelAt out' stride ch.count x y = layout ch b b b (at' i.a i.aStride x y) ∧
        a ≤ b + 1 ∧ b ≤ a + 1 := by
  obtain ⟨out, e, h⟩ := c72_x86_gray_alpha cpu ch ha i rgba stride rg m hi hd
  obtain ⟨out', e', h'⟩ := c72_x86_gray_alpha cpu' ch ha i rgba stride rg m hi hd
  refine ⟨out, out', e, e', fun x y hx hy => ?_⟩
  have v := fun cpu => cpuGrayAlphaLevel_close (cpu := cpu) (rg := rg) (m := m) (w := i.width) (x := x)
    (grayA_lt hi hx hy) fun _ hr hc => hsafe hr x y hx hy hc
  have v1 := v cpu
  have v2 := v cpu'
  exact ⟨_, _, frameSpec_pixel h hx hy (layout_length ..), frameSpec_pixel h' hx hy (layout_length ..),
    by omega, by omega⟩

/-- A row of nine samples 0 with alpha 200. -/
def darkGrayAlpha : GrayAlpha :=
  { y := List.replicate 9 0, yStride := 9, a := List.replicate 9 200, aStride := 9, width := 9, height := 1 }

theorem darkGrayAlpha_good : GoodGrayAlpha darkGrayAlpha 256 where
  wpos := by decide
  hpos := by decide
  w32 := by unfold U32; decide
  h32 := by unfold U32; decide
  y := ⟨by unfold U32; decide, by decide, by unfold FullRows; decide, by decide⟩
  a := ⟨by unfold U32; decide, by decide, by unfold FullRows; decide, by decide⟩

/-- C72 fails with either extension: a row of nine samples 0 decodes to eight white pixels and a black
one; without vector code all nine are black. -/
theorem c72_black_is_white (cpu : Cpu) :
    ∃ out, yAlphaToRgbxOn cpu x64 .rgba darkGrayAlpha (List.replicate 36 7) 36 .limited .bt709 = .ok out ∧
      (∀ x, x < 8 → pixelAt out 36 4 x 0 =
        if cpu = .plain then [0, 0, 0, 200] else [255, 255, 255, 200]) ∧
      pixelAt out 36 4 8 0 = [0, 0, 0, 200] := by
  obtain ⟨out, e, h⟩ := c72_x86_gray_alpha cpu .rgba rfl darkGrayAlpha (List.replicate 36 7) 36 .limited
    .bt709 darkGrayAlpha_good ⟨by unfold U32; decide, by decide, by unfold FullRows; decide, by decide⟩
  refine ⟨out, e, fun x hx => ?_, ?_⟩
  · have := frameSpec_pixel h (x := x) (y := 0) (by simp [darkGrayAlpha]; omega) (by decide)
      (layout_length ..)
    refine this.trans ?_
    have t : ∀ cpu, ∀ x, x < 8 → (fun l => layout .rgba l l l (at' darkGrayAlpha.a
        darkGrayAlpha.aStride x 0)) (cpuGrayAlphaLevel cpu .limited .bt709 darkGrayAlpha.width x
          (at' darkGrayAlpha.y darkGrayAlpha.yStride x 0))
        = if cpu = .plain then [0, 0, 0, 200] else [255, 255, 255, 200] := by
      intro cpu; cases cpu <;> decide +kernel
    exact t cpu x hx
  · have := frameSpec_pixel h (x := 8) (y := 0) (by decide) (by decide) (layout_length ..)
    refine this.trans ?_
    cases cpu <;> decide +kernel

/-- The hypothesis of the partial theorem is met: nine pixels, of which only the last is outside the
nominal range. -/
example : let i : GrayAlpha := { darkGrayAlpha with y := [16, 17, 100, 127, 144, 200, 235, 255, 3] }
    (∀ x, x < 9 → 16 * ((9 - 1) / 16) ≤ x ∧ x < 8 * ((9 - 1) / 8) → SignedSafe (at' i.y i.yStride x 0)) ∧
    yAlphaToRgbxOn .sse41 x64 .rgba i (List.replicate 36 7) 36 .limited .bt709 = .ok
      [0, 0, 0, 200, 1, 1, 1, 200, 98, 98, 98, 200, 130, 130, 130, 200, 150, 150, 150, 200, 215, 215, 215,
        200, 255, 255, 255, 200, 255, 255, 255, 200, 0, 0, 0, 200] := by decide +kernel

/-! ## C73 -/

/-- The luma sample in column `x` of a row of `w` pixels. -/
def cpuGrayLuma (cpu : Cpu) (ch : Channels) (rg : YuvRange) (m : Matrix) (w x : Nat) (px : Buf) : Nat :=
  match cpu with
  | .plain => luma8 13 ch rg m px
  | .avx2 => avx2ToGrayLuma ch rg m w x px
  | .sse41 => vecLuma ch rg m px

/-- C73: what encoding to a grey image writes on each class of processor. -/
theorem c73_x86_to_gray (cpu : Cpu) (ch : Channels) (i : Gray) (rgba : Buf) (stride : Nat)
    (rg : YuvRange) (m : Matrix) (D : Nat) (hi : GoodGray i D)
    (hs : GoodDst rgba.length stride i.width i.height ch.count) (hb : Bytes rgba) :
    ∃ out, rgbxToYOn cpu x64 ch i rgba stride rg m = .ok out ∧
      FrameSpec out i.y i.yStride i.width i.height 1 (fun x y =>
        [cpuGrayLuma cpu ch rg m i.width x (pixelAt rgba stride ch.count x y)]) := by
  have hcn := count_pos ch
  have hg : ∀ s ∈ packedSrc ch rgba stride, GoodSrc s i.width i.height 256 := by
    intro s hs'; rw [List.mem_singleton] at hs'; subst hs'; exact goodSrc_packed hcn hs hb
  unfold rgbxToYOn rgbxToY
  rw [hs.accepted hi.wpos hi.hpos hi.w32 hi.h32 hcn (count_le ch), hi.accepted]
  simp only [Outcome.bind_ok]
  obtain ⟨out, e, h⟩ := mapFrame_cols (cutDst := true) hi.wpos (by decide) hg
    (toGrayBody_ok (rg := rg) (m := m) rfl) (toGrayHandler_fills cpu ch rg m hi.wpos rfl)
    (by rw [Nat.mul_one]; exact hi.y.cols_le) hi.y.full (Or.inl rfl)
  refine ⟨out, e, frameRel_eq ⟨h.1, fun x y hx hy => ?_, h.2.2⟩⟩
  have := h.2.1 x y hx hy
  simp only [pixelsAt, List.map_cons, List.map_nil, List.getD_cons_zero] at this
  rw [this]
  cases cpu <;> rfl

/-- The samples the AVX2 code loses: from the last group of 32 on, the second half of every 16. -/
def LostColumn (cpu : Cpu) (w x : Nat) : Prop := cpu = .avx2 ∧ 32 * ((w - 1) / 32) ≤ x ∧ 8 ≤ x % 16

instance (cpu : Cpu) (w x : Nat) : Decidable (LostColumn cpu w x) := inferInstanceAs (Decidable (_ ∧ _))

theorem cpuGrayLuma_eq (cpu : Cpu) (ch : Channels) (rg : YuvRange) (m : Matrix) (w x : Nat) (px : Buf) :
    cpuGrayLuma cpu ch rg m w x px = if LostColumn cpu w x then 0 else cpuLuma cpu ch rg m px := by
  cases cpu with
  | plain => rw [if_neg (fun h => by cases h.1)]; rfl
  | sse41 => rw [if_neg (fun h => by cases h.1)]; rfl
  | avx2 =>
    simp only [cpuGrayLuma, avx2ToGrayLuma, LostColumn, true_and]
    rfl

/-- C73, what holds: in the columns that are not lost, any two processors store samples that differ by
at most one, and each is within 1.36 of the exact luma.
Missing: the lost columns of AVX2, where the claim is false. -/
theorem c73_cpu_agreement_partial (cpu cpu' : Cpu) (ch : Channels) (i : Gray) (rgba : Buf)
    (stride : Nat) (rg : YuvRange) (m : Matrix) (D : Nat) (hi : GoodGray i D)
    (hs : GoodDst rgba.length stride i.width i.height ch.count) (hb : Bytes rgba) :
    ∃ out out', rgbxToYOn cpu x64 ch i rgba stride rg m = .ok out ∧
      rgbxToYOn cpu' x64 ch i rgba stride rg m = .ok out' ∧
      ∀ x y, x < i.width → y < i.height → ¬ LostColumn cpu i.width x → ¬ LostColumn cpu' i.width x →
        at' out i.yStride x y ≤ at' out' i.yStride x y + 1 ∧
        at' out' i.yStride x y ≤ at' out i.yStride x y + 1 ∧
        ∀ px, px = pixelAt rgba stride ch.count x y →
          |(at' out i.yStride x y : Rat) - exactY 8 rg m (red ch px) (green ch px) (blue ch px)|
            ≤ 136 / 100 := by
  obtain ⟨out, e, h⟩ := c73_x86_to_gray cpu ch i rgba stride rg m D hi hs hb
  obtain ⟨out', e', h'⟩ := c73_x86_to_gray cpu' ch i rgba stride rg m D hi hs hb
  refine ⟨out, out', e, e', fun x y hx hy l1 l2 => ?_⟩
  rw [frameSpec_at h hx hy, frameSpec_at h' hx hy, cpuGrayLuma_eq, cpuGrayLuma_eq, if_neg l1, if_neg l2]
  refine ⟨cpuLuma_close _ _ _ _ _ (mem_pixelAt hb), cpuLuma_close _ _ _ _ _ (mem_pixelAt hb), ?_⟩
  rintro px rfl
  exact cpuLuma_exact cpu ch rg m (mem_pixelAt hb)

/-- C73: without AVX2 the claim holds in every column. -/
theorem c73_sse_agreement (ch : Channels) (i : Gray) (rgba : Buf)
    (stride : Nat) (rg : YuvRange) (m : Matrix) (D : Nat) (hi : GoodGray i D)
    (hs : GoodDst rgba.length stride i.width i.height ch.count) (hb : Bytes rgba) :
    ∃ out out', rgbxToYOn .sse41 x64 ch i rgba stride rg m = .ok out ∧
      rgbxToYOn .plain x64 ch i rgba stride rg m = .ok out' ∧
      ∀ x y, x < i.width → y < i.height →
        at' out i.yStride x y ≤ at' out' i.yStride x y + 1 ∧
        at' out' i.yStride x y ≤ at' out i.yStride x y + 1 := by
  obtain ⟨out, out', e, e', h⟩ := c73_cpu_agreement_partial .sse41 .plain ch i rgba stride rg m D hi hs hb
  refine ⟨out, out', e, e', fun x y hx hy => ?_⟩
  obtain ⟨h1, h2, -⟩ := h x y hx hy (fun h => by cases h.1) (fun h => by cases h.1)
  exact ⟨h1, h2⟩

/-- C73, what holds: on one processor, the samples that are not lost are those of the luma plane of
the colour encoder.
Missing: the lost columns of AVX2, where the claim is false. -/
theorem c73_same_as_colour_partial (cpu : Cpu) (ch : Channels) (s : Sampling) (i : Gray) (j : Planar)
    (rgba : Buf) (stride : Nat) (rg : YuvRange) (m : Matrix) (D : Nat) (hi : GoodGray i D)
    (hj : GoodPlanar j s D) (hw : j.width = i.width ∧ j.height = i.height)
    (hs : GoodDst rgba.length stride i.width i.height ch.count) (hb : Bytes rgba) :
    ∃ out out', rgbxToYOn cpu x64 ch i rgba stride rg m = .ok out ∧
      rgbxToYuvOn cpu ch s j rgba stride rg m = .ok out' ∧
      ∀ x y, x < i.width → y < i.height → ¬ LostColumn cpu i.width x →
        at' out i.yStride x y = at' out'.y j.yStride x y := by
  obtain ⟨out, e, h⟩ := c73_x86_to_gray cpu ch i rgba stride rg m D hi hs hb
  obtain ⟨out', e', h'⟩ := c59_x86_encode cpu ch s j rgba stride rg m D hj
    (by rw [hw.1, hw.2]; exact hs) hb
  refine ⟨out, out', e, e', fun x y hx hy l1 => ?_⟩
  rw [frameSpec_at h hx hy, frameSpec_at h'.y (by rw [hw.1]; exact hx) (by rw [hw.2]; exact hy),
    cpuGrayLuma_eq, if_neg l1]

/-- C73: in full range, a grey plane that is decoded and encoded again comes back within one code
value, on processors without AVX2. -/
theorem c73_full_round_trip (cpu : Cpu) (hcpu : cpu ≠ .avx2) (ch : Channels) (i j : Gray) (rgba : Buf)
    (stride : Nat) (m m' : Matrix) (hi : GoodGray i 256) (hj : GoodGray j 256)
    (hw : j.width = i.width ∧ j.height = i.height)
    (hd : GoodDst rgba.length stride i.width i.height ch.count) (hb : Bytes rgba) :
    ∃ mid out, yToRgbxOn cpu x64 ch i rgba stride .full m = .ok mid ∧
      rgbxToYOn cpu x64 ch j mid stride .full m' = .ok out ∧
      ∀ x y, x < i.width → y < i.height →
        at' out j.yStride x y ≤ at' i.y i.yStride x y + 1 ∧
        at' i.y i.yStride x y ≤ at' out j.yStride x y + 1 := by
  obtain ⟨mid, e1, h1⟩ := c71_x86_gray cpu ch i rgba stride .full m hi hd
  have hb' : Bytes mid := frameSpec_bound' h1 hb fun x y hx hy => by
    have := gray_lt hi hx hy
    exact layout_bound ch this this this (by decide)
  obtain ⟨out, e2, h2⟩ := c73_x86_to_gray cpu ch j mid stride .full m' 256 hj
    (by rw [h1.1, hw.1, hw.2]; exact hd) hb'
  refine ⟨mid, out, e1, e2, fun x y hx hy => ?_⟩
  rw [frameSpec_at h2 (by rw [hw.1]; exact hx) (by rw [hw.2]; exact hy), cpuGrayLuma_eq,
    if_neg (fun h => hcpu h.1)]
  have hp := frameSpec_pixel h1 hx hy (layout_length ..)
  have hv : luma8 13 ch .full m' (pixelAt mid stride ch.count x y) = at' i.y i.yStride x y := by
    rw [hp]
    exact luma8_gray ch m' _ _ (gray_lt hi hx hy) (layout_colours ..)
  have c1 := cpuLuma_close cpu .plain ch .full m' (mem_pixelAt (stride := stride) (cn := ch.count) (x := x)
    (y := y) hb')
  have c2 := cpuLuma_close .plain cpu ch .full m' (mem_pixelAt (stride := stride) (cn := ch.count) (x := x)
    (y := y) hb')
  have e : cpuLuma .plain ch .full m' (pixelAt mid stride ch.count x y) = at' i.y i.yStride x y := hv
  rw [e] at c1 c2
  exact ⟨c1, c2⟩

/-- C73 fails on AVX2: encoding a white row of 16 pixels stores white, 255, in the first eight samples
and black, 0, in the last eight.  The image is any one whose pixels are all white. -/
theorem c73_avx2_half_is_black (ch : Channels) (m : Matrix) (i : Gray) (rgba : Buf) (stride : Nat)
    (hi : GoodGray i 256) (hw : i.width = 16)
    (hs : GoodDst rgba.length stride i.width i.height ch.count) (hb : Bytes rgba)
    (hv : ∀ x y, x < i.width → y < i.height → pixelAt rgba stride ch.count x y = layout ch 255 255 255 255) :
    ∃ out, rgbxToYOn .avx2 x64 ch i rgba stride .full m = .ok out ∧
      ∀ y, y < i.height → (∀ x, x < 8 → at' out i.yStride x y = 255) ∧
        ∀ x, 8 ≤ x → x < 16 → at' out i.yStride x y = 0 := by
  obtain ⟨out, e, h⟩ := c73_x86_to_gray .avx2 ch i rgba stride .full m 256 hi hs hb
  have t : ∀ ch m, vecLuma ch .full m (layout ch 255 255 255 255) = 255 := by
    intro ch m; cases ch <;> cases m <;> decide +kernel
  refine ⟨out, e, fun y hy => ⟨fun x hx => ?_, fun x h8 hx => ?_⟩⟩
  · rw [frameSpec_at h (by omega) hy, hv x y (by omega) hy, cpuGrayLuma_eq,
      if_neg (by unfold LostColumn; omega)]
    exact t ch m
  · rw [frameSpec_at h (by omega) hy, cpuGrayLuma_eq,
      if_pos ⟨rfl, by omega, by omega⟩]

/-- Sixteen white pixels. -/
def white16 : Buf := List.replicate 48 255
def gray16 : Gray := { y := List.replicate 16 7, yStride := 16, width := 16, height := 1 }

example : GoodGray gray16 256 ∧ GoodDst white16.length 48 16 1 3 ∧ Bytes white16 ∧
    (∀ x y, x < 16 → y < 1 → pixelAt white16 48 3 x y = layout .rgb 255 255 255 255) := by
  refine ⟨⟨by decide, by decide, by unfold U32; decide, by unfold U32; decide,
    ⟨by unfold U32; decide, by decide, by unfold FullRows; decide, by decide⟩⟩,
    ⟨by unfold U32; decide, by decide, by unfold FullRows; decide, by decide⟩, by unfold Bytes; decide, ?_⟩
  have : ∀ x, x < 16 → ∀ y, y < 1 → pixelAt white16 48 3 x y = layout .rgb 255 255 255 255 := by decide
  exact fun x y hx hy => this x hx y hy
/-- Some columns are not lost on AVX2. -/
example : ¬ LostColumn .avx2 40 5 ∧ ¬ LostColumn .avx2 40 15 ∧ LostColumn .avx2 48 40 := by decide
example : rgbxToYOn .sse41 x64 .rgb demoGray
    [10, 20, 30, 0, 0, 0, 255, 255, 255, 7, 255, 0, 0, 0, 255, 0, 0, 0, 255, 7] 10 .full .bt601
    = .ok [18, 0, 255, 9, 76, 150, 29, 9] := by decide +kernel

end Verif
