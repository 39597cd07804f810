import Verif.Lemmas.X86Handlers
import Verif.Props.PlanarDecode
import Verif.Lemmas.VecArith
/-!
# C53, C54, C55: 8-bit planar YCbCr to RGB on x86 processors
-/
namespace Verif
open Spec X86

/-- The pixel the vector arithmetic gives at `(x, y)`. -/
abbrev planarVecPixel (ch : Channels) (s : Sampling) (i : Planar) (rg : YuvRange) (m : Matrix)
    (x y : Nat) : Buf :=
  vecPixel ch rg m (Planar.Y i x y) (Planar.U i s x y) (Planar.V i s x y)

theorem coef16_search (rg : YuvRange) (m : Matrix) : Coef16 (searchInverse 13 8 rg m) := by
  cases rg <;> cases m <;> (unfold Coef16; decide +kernel)

/-! ## C54 -/

/-- The pixel at `(x, y)` on each class of processor. -/
def cpuPixel (cpu : Cpu) (ch : Channels) (s : Sampling) (i : Planar) (rg : YuvRange) (m : Matrix)
    (x y : Nat) : Buf :=
  match cpu with
  | .plain => planarPixel ch s i rg m x y
  | .avx2 => planarVecPixel ch s i rg m x y
  | .sse41 => ssePixel (s = .yuv420 ∧ y ≠ 2 * (i.height / 2)) ch rg m i.width x (Planar.Y i x y)
      (Planar.U i s x y) (Planar.V i s x y)

theorem x86_decode_rel (cpu : Cpu) (ch : Channels) (s : Sampling) (i : Planar) (rgba : Buf)
    (stride : Nat) (rg : YuvRange) (m : Matrix) (hi : GoodPlanar i s 256)
    (hdst : GoodDst rgba.length stride i.width i.height ch.count) :
    ∃ out, yuvToRgbxOn cpu ch s i rgba stride rg m = .ok out ∧
      FrameRel out rgba stride i.width i.height ch.count (fun x y p =>
        p = cpuPixel cpu ch s i rg m x y) := by
  have hb : (getYuvRange 8 rg).biasUv = 128 := by cases rg <;> rfl
  have hby : (getYuvRange 8 rg).biasY < 256 := by cases rg <;> decide
  have hr := hi.rows
  have hcfg : DecodeCfg 13 8 := Or.inr (Or.inl ⟨rfl, Or.inl rfl⟩)
  have hcn := count_pos ch
  have hst : 0 < stride := Nat.lt_of_lt_of_le (Nat.mul_pos hr.wpos hcn) hdst.cols_le
  have p1 := putRow_ok hcfg ch rg m
  have p2 := putTwoRow_ok hcfg ch rg m
  have h1 := rowHandler_fills (w := i.width) cpu s ch hb hby (coef16_search rg m)
    (decodedPixel 13 8 ch rg m 255)
  have h2 := rowHandler420_fills (w := i.width) cpu ch hb hby (coef16_search rg m)
    (decodedPixel 13 8 ch rg m 255)
  have eq1 : ∀ x y, ¬ (s = .yuv420 ∧ y ≠ 2 * (i.height / 2)) →
      cpuRow cpu false ch (getYuvRange 8 rg) (searchInverse 13 8 rg m)
        (decodedPixel 13 8 ch rg m 255) i.width x (Planar.Y i x y) (Planar.U i s x y)
        (Planar.V i s x y) = cpuPixel cpu ch s i rg m x y := by
    intro x y hn
    cases cpu <;> simp only [cpuRow, cpuPixel, ssePixel, hn, decide_false, Bool.false_eq_true,
      if_false] <;> rfl
  have eq2 : ∀ x y, (s = .yuv420 ∧ y ≠ 2 * (i.height / 2)) →
      cpuRow cpu true ch (getYuvRange 8 rg) (searchInverse 13 8 rg m)
        (decodedPixel 13 8 ch rg m 255) i.width x (Planar.Y i x y) (Planar.U i s x y)
        (Planar.V i s x y) = cpuPixel cpu ch s i rg m x y := by
    intro x y hn
    cases cpu <;> simp only [cpuRow, cpuPixel, ssePixel, decide_eq_true hn, if_true] <;> rfl
  have fin : ∀ {o : Outcome Buf} {P : Nat → Nat → Buf → Prop}, (∃ out, o = .ok out ∧
      FrameRel out rgba stride i.width i.height ch.count P) →
      (∀ x y p, x < i.width → y < i.height → P x y p → p = cpuPixel cpu ch s i rg m x y) →
      ∃ out, o = .ok out ∧ FrameRel out rgba stride i.width i.height ch.count (fun x y p =>
          p = cpuPixel cpu ch s i rg m x y) := by
    rintro o P ⟨out, e, h⟩ hp
    exact ⟨out, e, h.1, fun x y hx hy => hp x y _ hx hy (h.2.1 x y hx hy), h.2.2⟩
  unfold yuvToRgbxOn yuvToRgbx yuvToRgbxImpl
  rw [hdst.accepted hi.wpos hi.hpos hi.w32 hi.h32 hcn (count_le ch), hi.accepted]
  simp only [Outcome.bind_ok]
  cases s with
  | yuv444 =>
    exact fin ((decode444_q hr hcn p1 h1 hdst.cols_le hdst.full).spec hcn hst hdst.cols_le
      hdst.full.1) fun x y p _ _ h => h.trans (eq1 x y (by simp))
  | yuv422 =>
    exact fin ((decode422_q hr hcn p1 h1 hdst.cols_le hdst.full).spec hcn hst hdst.cols_le
      hdst.full.1) fun x y p _ _ h => h.trans (eq1 x y (by simp))
  | yuv420 =>
    refine fin ((decode420_q hr hcn p1 p2 h1 h2 hdst.cols_le hdst.full).spec hcn hst hdst.cols_le
      hdst.full.1) fun x y p _ _ h => ?_
    by_cases hy : y = 2 * (i.height / 2)
    · rw [if_pos hy] at h
      exact Eq.trans h (eq1 x y (by simp [hy]))
    · rw [if_neg hy] at h
      exact Eq.trans h (eq2 x y ⟨rfl, hy⟩)

/-- C54: on every class of x86 processor the decoder succeeds on every good image and destination —
no load or store of the vector code leaves its slice, no loop diverges, whatever the width, the
strides and the padding — and writes exactly the pixels of the image.  Every pixel is determined:
the fixed-point decoding of its samples without vector code, the vector decoding on AVX2, and on
SSE4.1 one of three decodings depending on its column (`ssePixel`). -/
theorem c54_x86_decode (cpu : Cpu) (ch : Channels) (s : Sampling) (i : Planar) (rgba : Buf)
    (stride : Nat) (rg : YuvRange) (m : Matrix) (hi : GoodPlanar i s 256)
    (hdst : GoodDst rgba.length stride i.width i.height ch.count) :
    ∃ out, yuvToRgbxOn cpu ch s i rgba stride rg m = .ok out ∧
      FrameSpec out rgba stride i.width i.height ch.count (cpuPixel cpu ch s i rg m) := by
  obtain ⟨out, e, h⟩ := x86_decode_rel cpu ch s i rgba stride rg m hi hdst
  exact ⟨out, e, frameRel_eq h⟩

/-- … so a pixel is the fixed-point decoding of its samples, or the vector decoding of them, or
(SSE4.1 only) that of the 8-pixel steps. -/
theorem cpuPixel_cases (cpu : Cpu) (ch : Channels) (s : Sampling) (i : Planar) (rg : YuvRange)
    (m : Matrix) (x y : Nat) :
    cpuPixel cpu ch s i rg m x y = planarPixel ch s i rg m x y ∨
    cpuPixel cpu ch s i rg m x y = planarVecPixel ch s i rg m x y ∨
    (cpu = .sse41 ∧ cpuPixel cpu ch s i rg m x y = vecPixelSigned ch rg m (Planar.Y i x y)
      (Planar.U i s x y) (Planar.V i s x y)) := by
  cases cpu
  · exact .inr (.inl rfl)
  · unfold cpuPixel ssePixel
    simp only
    split
    · exact .inr (.inl rfl)
    · split
      · split
        · exact .inr (.inl rfl)
        · exact .inr (.inr ⟨trivial, rfl⟩)
      · exact .inl rfl
  · exact .inl rfl

theorem x86_decode_cases (cpu : Cpu) (ch : Channels) (s : Sampling) (i : Planar) (rgba : Buf)
    (stride : Nat) (rg : YuvRange) (m : Matrix) (hi : GoodPlanar i s 256)
    (hdst : GoodDst rgba.length stride i.width i.height ch.count) :
    ∃ out, yuvToRgbxOn cpu ch s i rgba stride rg m = .ok out ∧
      FrameRel out rgba stride i.width i.height ch.count (fun x y p =>
        p = planarPixel ch s i rg m x y ∨ p = planarVecPixel ch s i rg m x y ∨
        (cpu = .sse41 ∧ p = vecPixelSigned ch rg m (Planar.Y i x y) (Planar.U i s x y)
          (Planar.V i s x y))) := by
  obtain ⟨out, e, h⟩ := x86_decode_rel cpu ch s i rgba stride rg m hi hdst
  refine ⟨out, e, h.1, fun x y hx hy => ?_, h.2.2⟩
  rw [h.2.1 x y hx hy]
  exact cpuPixel_cases cpu ch s i rg m x y

/-- Of a processor without vector extensions only the first possibility remains. -/
theorem c54_plain_is_scalar (ch : Channels) (s : Sampling) (i : Planar) (rgba : Buf)
    (stride : Nat) (rg : YuvRange) (m : Matrix) :
    yuvToRgbxOn .plain ch s i rgba stride rg m =
      yuvToRgbx x64 ch s noSimd noSimd420 i rgba stride rg m := by
  have e : ∀ c t w, rowHandler .plain s ch c t w = noSimd := by
    intro c t w; cases s <;> rfl
  have e2 : ∀ c t w, rowHandler420 .plain s ch c t w = noSimd420 := by
    intro c t w; cases s <;> rfl
  unfold yuvToRgbxOn
  simp only [e, e2]

/-! ## C55 -/

theorem avx2_decode_rel (ch : Channels) (s : Sampling) (i : Planar) (rgba : Buf)
    (stride : Nat) (rg : YuvRange) (m : Matrix) (hi : GoodPlanar i s 256)
    (hdst : GoodDst rgba.length stride i.width i.height ch.count) :
    ∃ out, yuvToRgbxOn .avx2 ch s i rgba stride rg m = .ok out ∧
      FrameRel out rgba stride i.width i.height ch.count (fun x y p =>
        p = planarVecPixel ch s i rg m x y) :=
  x86_decode_rel .avx2 ch s i rgba stride rg m hi hdst

/-- C55 on AVX2: the decoder writes exactly the vector decoding of the samples covering each pixel;
the scalar code is never reached. -/
theorem c55_avx2_decode (ch : Channels) (s : Sampling) (i : Planar) (rgba : Buf)
    (stride : Nat) (rg : YuvRange) (m : Matrix) (hi : GoodPlanar i s 256)
    (hdst : GoodDst rgba.length stride i.width i.height ch.count) :
    ∃ out, yuvToRgbxOn .avx2 ch s i rgba stride rg m = .ok out ∧
      FrameSpec out rgba stride i.width i.height ch.count (planarVecPixel ch s i rg m) := by
  obtain ⟨out, e, h⟩ := avx2_decode_rel ch s i rgba stride rg m hi hdst
  exact ⟨out, e, frameRel_eq h⟩

/-- C55: on AVX2 a pixel depends on the samples shown at it only: not on its position, the size of
the image, the sampling, the strides, the padding or the previous destination contents. -/
theorem c55_avx2_samples_only (ch : Channels) (s s' : Sampling) (i j : Planar) (dst dst' : Buf)
    (stride stride' : Nat) (rg : YuvRange) (m : Matrix)
    (hi : GoodPlanar i s 256) (hj : GoodPlanar j s' 256)
    (hdst : GoodDst dst.length stride i.width i.height ch.count)
    (hdst' : GoodDst dst'.length stride' j.width j.height ch.count) :
    ∃ out out', yuvToRgbxOn .avx2 ch s i dst stride rg m = .ok out ∧
      yuvToRgbxOn .avx2 ch s' j dst' stride' rg m = .ok out' ∧
      ∀ x y x' y', x < i.width → y < i.height → x' < j.width → y' < j.height →
        Planar.Y i x y = Planar.Y j x' y' → Planar.U i s x y = Planar.U j s' x' y' →
        Planar.V i s x y = Planar.V j s' x' y' →
        pixelAt out stride ch.count x y = pixelAt out' stride' ch.count x' y' := by
  obtain ⟨out, e, h⟩ := avx2_decode_rel ch s i dst stride rg m hi hdst
  obtain ⟨out', e', h'⟩ := avx2_decode_rel ch s' j dst' stride' rg m hj hdst'
  refine ⟨out, out', e, e', fun x y x' y' hx hy hx' hy' a b c => ?_⟩
  rw [h.2.1 x y hx hy, h'.2.1 x' y' hx' hy']
  unfold planarVecPixel
  rw [a, b, c]

/-- C55 without vector code: the same. -/
theorem c55_plain_samples_only (ch : Channels) (s s' : Sampling) (i j : Planar) (dst dst' : Buf)
    (stride stride' : Nat) (rg : YuvRange) (m : Matrix)
    (hi : GoodPlanar i s 256) (hj : GoodPlanar j s' 256)
    (hdst : GoodDst dst.length stride i.width i.height ch.count)
    (hdst' : GoodDst dst'.length stride' j.width j.height ch.count) :
    ∃ out out', yuvToRgbxOn .plain ch s i dst stride rg m = .ok out ∧
      yuvToRgbxOn .plain ch s' j dst' stride' rg m = .ok out' ∧
      ∀ x y x' y', x < i.width → y < i.height → x' < j.width → y' < j.height →
        Planar.Y i x y = Planar.Y j x' y' → Planar.U i s x y = Planar.U j s' x' y' →
        Planar.V i s x y = Planar.V j s' x' y' →
        pixelAt out stride ch.count x y = pixelAt out' stride' ch.count x' y' := by
  rw [c54_plain_is_scalar, c54_plain_is_scalar]
  obtain ⟨out, e, h⟩ := c15_planar_decode ch s i dst stride rg m hi hdst (fun _ _ _ _ => False)
    noSimd noSimd420 noSimd_ok noSimd420_ok
  obtain ⟨out', e', h'⟩ := c15_planar_decode ch s' j dst' stride' rg m hj hdst'
    (fun _ _ _ _ => False) noSimd noSimd420 noSimd_ok noSimd420_ok
  refine ⟨out, out', e, e', fun x y x' y' hx hy hx' hy' a b c => ?_⟩
  have p := h.2.1 x y hx hy
  have q := h'.2.1 x' y' hx' hy'
  simp only [or_false] at p q
  rw [p, q]
  unfold planarPixel
  rw [a, b, c]

/-- A 9×1 4:4:4 image of one gray. -/
def flat9 (y : Nat) : Planar :=
  ⟨List.replicate 9 y, 9, List.replicate 9 128, 9, List.replicate 9 128, 9, 9, 1⟩

theorem flat9_good : GoodPlanar (flat9 200) .yuv444 256 where
  wpos := by decide
  hpos := by decide
  w32 := by unfold U32; decide
  h32 := by unfold U32; decide
  y := ⟨by unfold U32; decide, by decide, by unfold FullRows; decide, by decide⟩
  u := ⟨by unfold U32; decide, by decide, by unfold FullRows; decide, by decide⟩
  v := ⟨by unfold U32; decide, by decide, by unfold FullRows; decide, by decide⟩

/-- C55 fails on SSE4.1: in a 9-pixel row of one gray (luma 130, limited range) the first eight
pixels decode to 150 and the last to 133; the exact value is 132.74. -/
theorem c55_sse_position_dependent :
    ∃ out, yuvToRgbxOn .sse41 .rgb .yuv444 (flat9 130) (List.replicate 27 0) 27 .limited .bt601 =
        .ok out ∧
      (∀ x, x < 8 → pixelAt out 27 3 x 0 = [150, 150, 150]) ∧ pixelAt out 27 3 8 0 = [133, 133, 133] :=
  ⟨[150, 150, 150, 150, 150, 150, 150, 150, 150, 150, 150, 150, 150, 150, 150, 150, 150, 150, 150,
    150, 150, 150, 150, 150, 133, 133, 133], by decide +kernel, by decide +kernel, by decide +kernel⟩

/-- … and a row just below black (luma 15) becomes white except for its last pixel. -/
theorem c55_sse_black_is_white :
    ∃ out, yuvToRgbxOn .sse41 .rgb .yuv444 (flat9 15) (List.replicate 27 7) 27 .limited .bt601 =
        .ok out ∧
      (∀ x, x < 8 → pixelAt out 27 3 x 0 = [255, 255, 255]) ∧ pixelAt out 27 3 8 0 = [0, 0, 0] :=
  ⟨[255, 255, 255, 255, 255, 255, 255, 255, 255, 255, 255, 255, 255, 255, 255, 255, 255, 255, 255,
    255, 255, 255, 255, 255, 0, 0, 0], by decide +kernel, by decide +kernel, by decide +kernel⟩

/-! ## C53 -/

/-- The luma values for which the 8-pixel steps of the SSE4.1 kernels are right. -/
theorem signedLuma_eq {rg : YuvRange} {y : Nat} (hy : y < 256)
    (h : rg = .limited → 16 ≤ y ∧ (y < 128 ∨ 144 ≤ y)) :
    signedLuma (getYuvRange 8 rg).biasY y = y - (getYuvRange 8 rg).biasY := by
  cases rg with
  | full => show signedLuma 0 y = y - 0; unfold signedLuma; simp only; omega
  | limited =>
    have := h rfl
    show signedLuma 16 y = y - 16
    unfold signedLuma; simp only; omega

/-- Closeness of two pixels: red and blue differ by at most two code values, green by at most
three; alpha is opaque. -/
def PixelsClose (ch : Channels) (p q : Buf) : Prop :=
  ∃ r g b r' g' b' : Nat, p = layout ch r g b 255 ∧ q = layout ch r' g' b' 255 ∧
    (r ≤ r' + 2 ∧ r' ≤ r + 2) ∧ (g ≤ g' + 3 ∧ g' ≤ g + 3) ∧ (b ≤ b' + 2 ∧ b' ≤ b + 2)

theorem PixelsClose.refl (ch : Channels) (r g b : Nat) :
    PixelsClose ch (layout ch r g b 255) (layout ch r g b 255) :=
  ⟨r, g, b, r, g, b, rfl, rfl, by omega, by omega, by omega⟩

theorem PixelsClose.symm {ch : Channels} {p q : Buf} (h : PixelsClose ch p q) : PixelsClose ch q p := by
  obtain ⟨r, g, b, r', g', b', e, e', h1, h2, h3⟩ := h
  exact ⟨r', g', b', r, g, b, e', e, by omega, by omega, by omega⟩

theorem near_int {a b n : Nat} {E D : Rat} (ha : |(a : Rat) - E| ≤ D) (hb : |(b : Rat) - E| ≤ 54 / 100)
    (hD : D + 54 / 100 < n + 1) : a ≤ b + n ∧ b ≤ a + n := by
  obtain ⟨a1, a2⟩ := abs_le.1 ha
  obtain ⟨b1, b2⟩ := abs_le.1 hb
  constructor
  · have : (a : Rat) < (b + n + 1 : Nat) := by push_cast; linarith
    have : a < b + n + 1 := by exact_mod_cast this
    omega
  · have : (b : Rat) < (a + n + 1 : Nat) := by push_cast; linarith
    have : b < a + n + 1 := by exact_mod_cast this
    omega

/-- Scalar and vector arithmetic on luma not below black. -/
theorem scalar_vec_close (ch : Channels) (rg : YuvRange) (m : Matrix) {y u v : Nat} (hy : y < 256)
    (hu : u < 256) (hv : v < 256) (hb : (getYuvRange 8 rg).biasY ≤ y) :
    PixelsClose ch (vecPixel ch rg m y u v) (decodedPixel 13 8 ch rg m 255 y u v) := by
  obtain ⟨r, g, b, e, h1, h2, h3⟩ := decodeRGB_close rg m hy hu hv
  obtain ⟨k1, k2, k3⟩ := vecRGB_close rg m hy hu hv
  have hm : max (y : Rat) ((getYuvRange 8 rg).biasY : Rat) = y := max_eq_left (by exact_mod_cast hb)
  rw [hm] at k1 k2 k3
  refine ⟨_, _, _, r, g, b, rfl, ?_, near_int k1 h1 (by norm_num), near_int k2 h2 (by norm_num),
    near_int k3 h3 (by norm_num)⟩
  unfold decodedPixel
  simp only [e]

/-- C53, what holds: two processors of whatever class decode an image whose luma is not below black
— and, for SSE4.1 in limited range, does not lie in 128…143 — to pixels whose red and blue differ
by at most two code values and whose green differs by at most three; they write the same area.
Missing: luma below black, and those luma values on SSE4.1, where the claim is false. -/
theorem c53_cpu_agreement_partial (cpu cpu' : Cpu) (ch : Channels) (s : Sampling) (i : Planar)
    (dst : Buf) (stride : Nat) (rg : YuvRange) (m : Matrix) (hi : GoodPlanar i s 256)
    (hdst : GoodDst dst.length stride i.width i.height ch.count)
    (hblack : ∀ x y, x < i.width → y < i.height → (getYuvRange 8 rg).biasY ≤ Planar.Y i x y)
    (hsse : (cpu = .sse41 ∨ cpu' = .sse41) → rg = .limited →
      ∀ x y, x < i.width → y < i.height → Planar.Y i x y < 128 ∨ 144 ≤ Planar.Y i x y) :
    ∃ out out', yuvToRgbxOn cpu ch s i dst stride rg m = .ok out ∧
      yuvToRgbxOn cpu' ch s i dst stride rg m = .ok out' ∧
      (∀ x y, x < i.width → y < i.height →
        PixelsClose ch (pixelAt out stride ch.count x y) (pixelAt out' stride ch.count x y)) ∧
      (∀ k, ¬ InFrame stride i.width i.height ch.count k → out[k]? = dst[k]? ∧ out'[k]? = dst[k]?) := by
  obtain ⟨out, e, h⟩ := x86_decode_cases cpu ch s i dst stride rg m hi hdst
  obtain ⟨out', e', h'⟩ := x86_decode_cases cpu' ch s i dst stride rg m hi hdst
  refine ⟨out, out', e, e', fun x y hx hy => ?_, fun k hk => ⟨h.2.2 k hk, h'.2.2 k hk⟩⟩
  obtain ⟨b1, b2, b3⟩ := hi.sample_lt hx hy
  have hbk := hblack x y hx hy
  have hs : ∀ c, (c = cpu ∨ c = cpu') → c = .sse41 →
      vecPixelSigned ch rg m (Planar.Y i x y) (Planar.U i s x y) (Planar.V i s x y) =
        planarVecPixel ch s i rg m x y := by
    intro c hc hc'
    unfold planarVecPixel vecPixel vecPixelSigned
    rw [signedLuma_eq b1]
    rintro rfl
    exact ⟨hbk, hsse (by rcases hc with rfl | rfl <;> simp [hc']) rfl x y hx hy⟩
  have key := scalar_vec_close ch rg m b1 b2 b3 hbk
  have r1 : PixelsClose ch (planarPixel ch s i rg m x y) (planarPixel ch s i rg m x y) := by
    obtain ⟨_, _, _, _, _, _, _, eq, _⟩ := key
    show PixelsClose ch (decodedPixel ..) (decodedPixel ..)
    rw [eq]; exact PixelsClose.refl ..
  have r2 : PixelsClose ch (planarVecPixel ch s i rg m x y) (planarVecPixel ch s i rg m x y) :=
    PixelsClose.refl ..
  have norm : ∀ c p, (c = cpu ∨ c = cpu') → (p = planarPixel ch s i rg m x y ∨
      p = planarVecPixel ch s i rg m x y ∨ (c = .sse41 ∧ p = vecPixelSigned ch rg m
        (Planar.Y i x y) (Planar.U i s x y) (Planar.V i s x y))) →
      p = planarPixel ch s i rg m x y ∨ p = planarVecPixel ch s i rg m x y := by
    intro c p hc hp
    rcases hp with hp | hp | ⟨hc', hp⟩
    · exact .inl hp
    · exact .inr hp
    · exact .inr (hp.trans (hs c hc hc'))
  rcases norm cpu _ (.inl rfl) (h.2.1 x y hx hy) with a | a <;>
    rcases norm cpu' _ (.inr rfl) (h'.2.1 x y hx hy) with b | b <;> rw [a, b]
  · exact r1
  · exact key.symm
  · exact key
  · exact r2

/-- C53 against the standard: on every processor, under the same conditions, every pixel is within
2.45 code values (green: 3.05) of the saturated exact ITU-R result of its samples. -/
theorem c53_cpu_accuracy_partial (cpu : Cpu) (ch : Channels) (s : Sampling) (i : Planar)
    (dst : Buf) (stride : Nat) (rg : YuvRange) (m : Matrix) (hi : GoodPlanar i s 256)
    (hdst : GoodDst dst.length stride i.width i.height ch.count)
    (hblack : ∀ x y, x < i.width → y < i.height → (getYuvRange 8 rg).biasY ≤ Planar.Y i x y)
    (hsse : cpu = .sse41 → rg = .limited →
      ∀ x y, x < i.width → y < i.height → Planar.Y i x y < 128 ∨ 144 ≤ Planar.Y i x y) :
    ∃ out, yuvToRgbxOn cpu ch s i dst stride rg m = .ok out ∧
      FrameRel out dst stride i.width i.height ch.count (fun x y p =>
        ∃ r g b : Nat, p = layout ch r g b 255 ∧
        let Y : Rat := Planar.Y i x y
        let U : Rat := Planar.U i s x y
        let V : Rat := Planar.V i s x y
        |(r : Rat) - satQ 8 (exactR 8 rg m Y U V)| ≤ 49 / 20 ∧
        |(g : Rat) - satQ 8 (exactG 8 rg m Y U V)| ≤ 61 / 20 ∧
        |(b : Rat) - satQ 8 (exactB 8 rg m Y U V)| ≤ 49 / 20) := by
  obtain ⟨out, e, h⟩ := x86_decode_cases cpu ch s i dst stride rg m hi hdst
  refine ⟨out, e, h.1, fun x y hx hy => ?_, h.2.2⟩
  obtain ⟨b1, b2, b3⟩ := hi.sample_lt hx hy
  have hbk := hblack x y hx hy
  obtain ⟨k1, k2, k3⟩ := vecRGB_close rg m b1 b2 b3
  have hm : max (Planar.Y i x y : Rat) ((getYuvRange 8 rg).biasY : Rat) = Planar.Y i x y :=
    max_eq_left (by exact_mod_cast hbk)
  rw [hm] at k1 k2 k3
  rcases h.2.1 x y hx hy with a | a | ⟨hc, a⟩
  · obtain ⟨r, g, b, e1, a1, a2, a3⟩ := decodeRGB_close rg m b1 b2 b3
    refine ⟨r, g, b, ?_, le_trans a1 (by norm_num), le_trans a2 (by norm_num),
      le_trans a3 (by norm_num)⟩
    rw [a]; unfold planarPixel decodedPixel; simp only [e1]
  · exact ⟨_, _, _, a, k1, k2, k3⟩
  · rw [vecPixelSigned, signedLuma_eq b1 (fun hl => ⟨by subst hl; exact hbk, hsse hc hl x y hx hy⟩)] at a
    exact ⟨_, _, _, a, k1, k2, k3⟩

/-- C53 fails for luma below black: on AVX2 the sample (3, 138, 205) is red 123 and blue 20, without
vector code red 108 and blue 5 — the vector code clamps the luma to black first. -/
theorem c53_below_black_differs :
    let i : Planar := ⟨[3], 1, [138], 1, [205], 1, 1, 1⟩
    yuvToRgbxOn .avx2 .rgb .yuv444 i [0, 0, 0] 3 .limited .bt601 = .ok [123, 0, 20] ∧
    yuvToRgbxOn .plain .rgb .yuv444 i [0, 0, 0] 3 .limited .bt601 = .ok [108, 0, 5] := by
  constructor <;> decide +kernel

/-- C53 fails on SSE4.1: a row of one gray, luma 130, comes out 17 levels brighter than on the other
processors except for its last pixel. -/
theorem c53_sse_differs :
    yuvToRgbxOn .sse41 .rgb .yuv444 (flat9 130) (List.replicate 27 0) 27 .limited .bt601 =
      .ok (List.replicate 24 150 ++ List.replicate 3 133) ∧
    yuvToRgbxOn .avx2 .rgb .yuv444 (flat9 130) (List.replicate 27 0) 27 .limited .bt601 =
      .ok (List.replicate 27 133) ∧
    yuvToRgbxOn .plain .rgb .yuv444 (flat9 130) (List.replicate 27 0) 27 .limited .bt601 =
      .ok (List.replicate 27 133) := by
  refine ⟨?_, ?_, ?_⟩ <;> decide +kernel

/-! ## Neutral chroma and monotonicity on AVX2 -/

/-- C12 on AVX2: pixels whose chroma samples are neutral are gray; black, and white in both ranges,
are exact. -/
theorem c12_avx2_gray (ch : Channels) (rg : YuvRange) (m : Matrix) :
    (∀ y, ∃ g, vecPixel ch rg m y 128 128 = layout ch g g g 255) ∧
    vecPixel ch rg m (getYuvRange 8 rg).biasY 128 128 = layout ch 0 0 0 255 ∧
    vecPixel ch rg m (match rg with | .limited => 235 | .full => 255) 128 128
      = layout ch 255 255 255 255 := by
  refine ⟨fun y => ⟨byteSat (mulRound (expand10 (y - (getYuvRange 8 rg).biasY))
    (searchInverse 13 8 rg m).y), ?_⟩, ?_, ?_⟩
  · unfold vecPixel vecPixelAt; rw [vecRGB_gray]
  · cases rg <;> cases m <;> (unfold vecPixel vecPixelAt; rw [vecRGB_gray]; congr 1 <;> decide +kernel)
  · cases rg <;> cases m <;> (unfold vecPixel vecPixelAt; rw [vecRGB_gray]; congr 1 <;> decide +kernel)

/-- C14 on AVX2: raising the luma of a pixel lowers none of its components. -/
theorem c14_avx2_monotone_luma (ch : Channels) (rg : YuvRange) (m : Matrix) {y y' : Nat} (h : y ≤ y')
    (u v : Nat) : ∃ r g b r' g' b', vecPixel ch rg m y u v = layout ch r g b 255 ∧
      vecPixel ch rg m y' u v = layout ch r' g' b' 255 ∧ r ≤ r' ∧ g ≤ g' ∧ b ≤ b' := by
  have ht : 0 ≤ (searchInverse 13 8 rg m).y := by cases rg <;> cases m <;> decide +kernel
  exact ⟨_, _, _, _, _, _, rfl, rfl, vecRGB_mono ht (Nat.sub_le_sub_right h _) u v⟩

/-- The hypotheses of C53–C55 are met by `demo420`, whose luma is at least 16; it does hold luma
values the SSE4.1 condition excludes, and a version without them meets that too. -/
example : GoodPlanar demo420 .yuv420 256 ∧
    (∀ x, x < 3 → ∀ y, y < 3 → 16 ≤ Planar.Y demo420 x y) ∧
    GoodDst (List.replicate 33 7).length 11 3 3 3 :=
  ⟨demo420_good, by decide, by unfold U32; decide, by decide, by unfold FullRows; decide, by decide⟩
example : GoodPlanar (flat9 200) .yuv444 256 ∧ GoodDst (List.replicate 27 7).length 27 9 1 3 ∧
    ∀ x, x < 9 → ∀ y, y < 1 → 16 ≤ Planar.Y (flat9 200) x y ∧ 144 ≤ Planar.Y (flat9 200) x y :=
  ⟨flat9_good, ⟨by unfold U32; decide, by decide, by unfold FullRows; decide, by decide⟩,
    by decide⟩

end Verif
