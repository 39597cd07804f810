import Verif.Lemmas.NeonDeepAlpha16
import Verif.Props.NeonNvDeep16
import Verif.Props.X86DeepAlpha
/-!
# C144, C145: planar 10- to 14-bit YCbCr with an alpha plane to RGBA of the same depth on 64-bit ARM
-/
namespace Verif
open Spec X86

/-! ## C144 -/

/-- The pixel of native colour samples with the stored alpha `a` in column `x` of a row of `w` pixels, in the NEON
code; `hd` columns share a chroma sample. -/
def alpha16Arm (rdm : Bool) (d : Nat) (ch : Channels) (rg : YuvRange) (m : Matrix) (hd w x a y u v : Nat) : Buf :=
  let c := if rdm = true ∧ d = 10 then neonRdmRGB d (getYuvRange d rg) (searchInverse 13 d rg m) y u v
    else neonAlpha16RGB d (getYuvRange d rg) (searchInverse 13 d rg m) y u v
  layout ch c.1 c.2.1 c.2.2 (if KeepsAlpha hd w x then a else 0)

/-- The pixel at `(x, y)` in the NEON code. -/
def alpha16ArmPixel (rdm : Bool) (e : Endianness) (bp : BytesPacking) (d : Nat) (ch : Channels)
    (s : Sampling) (i : PlanarAlpha) (rg : YuvRange) (m : Matrix) (x y : Nat) : Buf :=
  let j := opaqueImage i
  alpha16Arm rdm d ch rg m (hdiv s) i.width x (alphaAt i x y)
    (nativeSample e bp d (Planar.Y j x y)) (nativeSample e bp d (Planar.U j s x y))
    (nativeSample e bp d (Planar.V j s x y))

/-- The pixel at `(x, y)` in the portable code. -/
def alpha16Portable (e : Endianness) (bp : BytesPacking) (d : Nat) (ch : Channels)
    (s : Sampling) (i : PlanarAlpha) (rg : YuvRange) (m : Matrix) (x y : Nat) : Buf :=
  let j := opaqueImage i
  deepAlphaPixel (2 ^ 12 - 1) 13 13 d d ch rg m (alphaAt i x y)
    (nativeSample e bp d (Planar.Y j x y)) (nativeSample e bp d (Planar.U j s x y))
    (nativeSample e bp d (Planar.V j s x y))

/-- The pixel at `(x, y)`: in rows of odd width with halved chroma the portable code redoes the last pixel. -/
def alpha16Pixel (rdm : Bool) (e : Endianness) (bp : BytesPacking) (d : Nat) (ch : Channels)
    (s : Sampling) (i : PlanarAlpha) (rg : YuvRange) (m : Matrix) (x y : Nat) : Buf :=
  if hdiv s = 2 ∧ i.width % 2 = 1 ∧ x + 1 = i.width then alpha16Portable e bp d ch s i rg m x y
  else alpha16ArmPixel rdm e bp d ch s i rg m x y

/-- C144: on 64-bit ARM the decoders of 10-, 12- and 14-bit images with an alpha plane to RGBA of the same depth
succeed on every good image and destination, whatever the words stored in the image — no load or store of the
NEON code leaves its slice — and write exactly the pixels of the image, each the stated function of its column,
the samples and the alpha shown at it. -/
theorem c144_neon_alpha16 (rdm : Bool) (e : Endianness) (bp : BytesPacking) (d : Nat)
    (hD : Deep d) (hd : d ≠ 16) (ch : Channels) (hch : ch = .rgba ∨ ch = .bgra) (s : Sampling)
    (i : PlanarAlpha) (rgba : Buf) (stride : Nat) (rg : YuvRange) (m : Matrix)
    (hi : GoodPlanarAlpha i s 65536) (hdst : GoodDst rgba.length stride i.width i.height ch.count) :
    ∃ out, Neon.p16AlphaToRgb16 rdm e bp d ch s i rgba stride rg m = .ok out ∧
      FrameRel out rgba stride i.width i.height ch.count (fun x y p =>
        p = alpha16Pixel rdm e bp d ch s i rg m x y) := by
  have hd15 : d ≤ 15 := by rcases hD with rfl | rfl | rfl | rfl <;> omega
  have ha : ¬ ch.hasAlpha = false := by rcases hch with rfl | rfl <;> decide
  have hcn := count_pos ch
  have hst : 0 < stride := Nat.lt_of_lt_of_le (Nat.mul_pos hi.wpos hcn) hdst.cols_le
  obtain ⟨hby, hbu⟩ := deep_bias hD rg
  have hbu' : (getYuvRange d rg).biasUv < 65536 := by
    rw [hbu]; rcases hD with rfl | rfl | rfl | rfl <;> decide
  unfold Neon.p16AlphaToRgb16 p16AlphaToRgb16
  rw [if_neg ha, hdst.accepted hi.wpos hi.hpos hi.w32 hi.h32 hcn (count_le ch), hi.accepted]
  simp only [Outcome.bind_ok]
  by_cases hc : s = .yuv444 ∨ i.width % 2 = 0
  · have hf := Neon.alpha16Handler_fills (w := i.width) rdm s e bp hD hd15 ch (deepCoef_search hD rg m) hby hbu'
      hi.wpos (fun y u v a => deepAlphaPixel (2 ^ 12 - 1) 13 13 d d ch rg m a (toNe e bp y (16 - d))
        (toNe e bp u (16 - d)) (toNe e bp v (16 - d)))
    rw [Neon.alphaFrame_guard hcn hc (fun _ _ _ _ _ _ h => Neon.alpha16Handler_width h)]
    obtain ⟨out, e1, h⟩ := (alphaFrame_src hi.rows hcn (fun x hx => hx)
      (putP16Alpha_ok hD.depth e bp ch rg m) hf hdst.cols_le hdst.full).spec hcn hst hdst.cols_le hdst.full.1
    refine ⟨out, e1, h.1, fun x y hx hy => ?_, h.2.2⟩
    refine (h.2.1 x y hx hy).trans ?_
    unfold alpha16Pixel
    rw [if_neg (by
      rintro ⟨h2, h3, -⟩
      rcases hc with rfl | hc
      · exact absurd h2 (by decide)
      · omega)]
    simp only [Neon.alpha16Pix, alphaPix, Neon.alpha16RGB, alpha16ArmPixel, alpha16Arm]
    split <;> rfl
  · have hs : s ≠ .yuv444 := fun h => hc (.inl h)
    have h2 : hdiv s = 2 := by cases s <;> first | rfl | exact absurd rfl hs
    have hodd : i.width % 2 = 1 := by
      have : i.width % 2 ≠ 0 := fun h => hc (.inr h)
      omega
    have hf := Neon.alpha16Handler_odd (w := i.width) rdm s e bp hD hd15 ch (deepCoef_search hD rg m) hby hbu'
      hi.wpos (fun y u v a => deepAlphaPixel (2 ^ 12 - 1) 13 13 d d ch rg m a (toNe e bp y (16 - d))
        (toNe e bp u (16 - d)) (toNe e bp v (16 - d))) h2 hodd
    rw [Neon.alphaFrame_even hs]
    obtain ⟨out, e1, h⟩ := (alphaFrame_src hi.rows hcn (fun x hx => hx)
      (putP16Alpha_ok hD.depth e bp ch rg m) hf hdst.cols_le hdst.full).spec hcn hst hdst.cols_le hdst.full.1
    refine ⟨out, e1, h.1, fun x y hx hy => ?_, h.2.2⟩
    obtain ⟨b1, b2, b3⟩ := hi.opaque.sample_lt hx hy
    refine (h.2.1 x y hx hy).trans ?_
    unfold alpha16Pixel
    by_cases hl : x + 1 = i.width
    · rw [if_pos hl, if_pos ⟨h2, hodd, hl⟩]
      simp only [alpha16Portable, ← toNe_eq e bp b1, ← toNe_eq e bp b2, ← toNe_eq e bp b3]
      rfl
    · rw [if_neg hl, if_neg (fun h => hl h.2.2)]
      simp only [Neon.alpha16Pix, alphaPix, Neon.alpha16RGB, alpha16ArmPixel, alpha16Arm]
      split <;> rfl

/-! ## C145 -/

/-- The alpha of an RGBA or BGRA pixel. -/
def alphaOf (p : Buf) : Nat := p.getD 3 0

theorem alphaOf_layout {ch : Channels} (hch : ch = .rgba ∨ ch = .bgra) (r g b a : Nat) :
    alphaOf (layout ch r g b a) = a := by
  rcases hch with rfl | rfl <;> rfl

/-- C145, what holds: the columns before the last block of one to eight, and in that block the first half of them
(all of them for 4:4:4), carry the alpha stored for them.
Missing: the other columns of the last block of 4:2:0 and 4:2:2 rows, where the claim is false. -/
theorem c145_alpha_partial (rdm : Bool) (e : Endianness) (bp : BytesPacking) (d : Nat)
    (hD : Deep d) (hd : d ≠ 16) (ch : Channels) (hch : ch = .rgba ∨ ch = .bgra) (s : Sampling)
    (i : PlanarAlpha) (rgba : Buf) (stride : Nat) (rg : YuvRange) (m : Matrix)
    (hi : GoodPlanarAlpha i s 65536) (hdst : GoodDst rgba.length stride i.width i.height ch.count) :
    ∃ out, Neon.p16AlphaToRgb16 rdm e bp d ch s i rgba stride rg m = .ok out ∧
      ∀ x y, x < i.width → y < i.height → KeepsAlpha (hdiv s) i.width x →
        alphaOf (pixelAt out stride ch.count x y) = alphaAt i x y := by
  obtain ⟨out, e1, h⟩ := c144_neon_alpha16 rdm e bp d hD hd ch hch s i rgba stride rg m hi hdst
  refine ⟨out, e1, fun x y hx hy hk => ?_⟩
  rw [h.2.1 x y hx hy]
  unfold alpha16Pixel
  split
  · exact alphaOf_layout hch ..
  · exact (alphaOf_layout hch ..).trans (if_pos hk)

/-- C145 for 4:4:4: every pixel carries the alpha stored for it. -/
theorem c145_alpha_444 (rdm : Bool) (e : Endianness) (bp : BytesPacking) (d : Nat)
    (hD : Deep d) (hd : d ≠ 16) (ch : Channels) (hch : ch = .rgba ∨ ch = .bgra)
    (i : PlanarAlpha) (rgba : Buf) (stride : Nat) (rg : YuvRange) (m : Matrix)
    (hi : GoodPlanarAlpha i .yuv444 65536) (hdst : GoodDst rgba.length stride i.width i.height ch.count) :
    ∃ out, Neon.p16AlphaToRgb16 rdm e bp d ch .yuv444 i rgba stride rg m = .ok out ∧
      ∀ x y, x < i.width → y < i.height → alphaOf (pixelAt out stride ch.count x y) = alphaAt i x y := by
  obtain ⟨out, e1, h⟩ := c145_alpha_partial rdm e bp d hD hd ch hch .yuv444 i rgba stride rg m hi hdst
  refine ⟨out, e1, fun x y hx hy => h x y hx hy ?_⟩
  unfold KeepsAlpha
  simp only [hdiv]
  omega

/-- C145 fails for 4:2:0 and 4:2:2: whatever the image, its alpha plane and the matrix, in every row of every image
the second half of the last block of columns (but for the last column of rows of odd width) is fully transparent. -/
theorem c145_violated_lost_alpha (rdm : Bool) (e : Endianness) (bp : BytesPacking) (d : Nat)
    (hD : Deep d) (hd : d ≠ 16) (ch : Channels) (hch : ch = .rgba ∨ ch = .bgra) (s : Sampling)
    (hs : s ≠ .yuv444) (i : PlanarAlpha) (rgba : Buf) (stride : Nat) (rg : YuvRange) (m : Matrix)
    (hi : GoodPlanarAlpha i s 65536) (hdst : GoodDst rgba.length stride i.width i.height ch.count) :
    ∃ out, Neon.p16AlphaToRgb16 rdm e bp d ch s i rgba stride rg m = .ok out ∧
      ∀ x y, y < i.height → x < i.width → (x + 1 < i.width ∨ i.width % 2 = 0) →
        8 * ((i.width - 1) / 8) + (i.width - 8 * ((i.width - 1) / 8) + 1) / 2 ≤ x →
        alphaOf (pixelAt out stride ch.count x y) = 0 := by
  obtain ⟨out, e1, h⟩ := c144_neon_alpha16 rdm e bp d hD hd ch hch s i rgba stride rg m hi hdst
  refine ⟨out, e1, fun x y hy hx ho hk => ?_⟩
  have h2 : hdiv s = 2 := by cases s <;> first | rfl | exact absurd rfl hs
  rw [h.2.1 x y hx hy]
  unfold alpha16Pixel
  rw [if_neg (by rintro ⟨-, h3, h4⟩; omega)]
  refine (alphaOf_layout hch ..).trans (if_neg ?_)
  rw [h2]
  unfold KeepsAlpha
  simp only [Nat.not_lt]
  exact hk

/-- Red, green and blue of the portable decoder. -/
def portableRGB (d : Nat) (rg : YuvRange) (m : Matrix) (y u v : Nat) : Nat × Nat × Nat :=
  let t := searchInverse 13 d rg m
  let c := getYuvRange d rg
  let q := fun x => saturate d (roundShift (2 ^ 12 - 1) 13 x)
  (q (linR t c.biasY c.biasUv y v), q (linG t c.biasY c.biasUv y u v), q (linB t c.biasY c.biasUv y u))

theorem deep_tie (d : Nat) (x : Int) :
    saturate d (roundShift (2 ^ 12 - 1) 13 x) ≤ saturate d (roundShift (2 ^ 12) 13 x) ∧
    saturate d (roundShift (2 ^ 12) 13 x) ≤ saturate d (roundShift (2 ^ 12 - 1) 13 x) + 1 := by
  unfold saturate roundShift
  generalize (2 : Int) ^ d = z
  constructor <;> omega

theorem neonAlpha16_above {d : Nat} (hD : Deep d) (hd : d ≠ 16) (rg : YuvRange) (m : Matrix) {y u v : Nat}
    (h : LegalSamples d rg y u v) :
    OneBelow (portableRGB d rg m y u v)
      (neonAlpha16RGB d (getYuvRange d rg) (searchInverse 13 d rg m) y u v) := by
  obtain ⟨h0, hy, hu, hv⟩ := h
  obtain ⟨-, hbu⟩ := deep_bias hD rg
  have hp : 2 ^ d ≤ 16384 := by rcases hD with rfl | rfl | rfl | rfl <;> first | decide | exact absurd rfl hd
  have hp' : 2 ^ (d - 1) ≤ 32768 := by rcases hD with rfl | rfl | rfl | rfl <;> decide
  have key : ∀ n : Nat, n < 2 ^ d → int16 ((n : Int) - (getYuvRange d rg).biasUv)
      = (n : Int) - (getYuvRange d rg).biasUv := by
    intro n hn; rw [hbu]; apply int16_small <;> omega
  have hl : int16 ((y - (getYuvRange d rg).biasY : Nat) : Int) = (y : Int) - (getYuvRange d rg).biasY := by
    rw [int16_small] <;> omega
  unfold neonAlpha16RGB portableRGB linR linG linB OneBelow
  simp only [hl, key u hu, key v hv]
  generalize ((y : Int) - (getYuvRange d rg).biasY) * (searchInverse 13 d rg m).y = l
  rw [Int.mul_comm ((v : Int) - _) _, Int.mul_comm ((v : Int) - _) (searchInverse 13 d rg m).g1,
    Int.mul_comm ((u : Int) - _) (searchInverse 13 d rg m).g2,
    Int.mul_comm ((u : Int) - _) (searchInverse 13 d rg m).cb]
  exact ⟨deep_tie .., deep_tie .., deep_tie ..⟩

/-- C145, the colours without rounding multiply-accumulate (or at 12 and 14 bits): for samples of the depth with luma
not below black every component is that of the portable decoder, or one above it.
Missing: luma below black and words beyond the depth; the other kernel is in `c145_agreement_partial`. -/
theorem c145_colours_partial (rdm : Bool) (e : Endianness) (bp : BytesPacking) (d : Nat)
    (hD : Deep d) (hd : d ≠ 16) (hr : rdm = false ∨ d ≠ 10) (ch : Channels) (hch : ch = .rgba ∨ ch = .bgra)
    (s : Sampling) (i : PlanarAlpha) (rgba : Buf) (stride : Nat) (rg : YuvRange) (m : Matrix)
    (hi : GoodPlanarAlpha i s 65536) (hdst : GoodDst rgba.length stride i.width i.height ch.count)
    (hl : LegalImage e bp d s (opaqueImage i) rg) :
    ∃ out, Neon.p16AlphaToRgb16 rdm e bp d ch s i rgba stride rg m = .ok out ∧
      ∀ x y, x < i.width → y < i.height → ∃ c a, pixelAt out stride ch.count x y = layout ch c.1 c.2.1 c.2.2 a ∧
        OneBelow (portableRGB d rg m (nativeSample e bp d (Planar.Y (opaqueImage i) x y))
          (nativeSample e bp d (Planar.U (opaqueImage i) s x y))
          (nativeSample e bp d (Planar.V (opaqueImage i) s x y))) c := by
  obtain ⟨out, e1, h⟩ := c144_neon_alpha16 rdm e bp d hD hd ch hch s i rgba stride rg m hi hdst
  refine ⟨out, e1, fun x y hx hy => ?_⟩
  rw [h.2.1 x y hx hy]
  unfold alpha16Pixel
  by_cases hp : hdiv s = 2 ∧ i.width % 2 = 1 ∧ x + 1 = i.width
  · rw [if_pos hp]
    exact ⟨portableRGB d rg m _ _ _, _, rfl,
      ⟨Nat.le_refl _, Nat.le_succ _⟩, ⟨Nat.le_refl _, Nat.le_succ _⟩, ⟨Nat.le_refl _, Nat.le_succ _⟩⟩
  · rw [if_neg hp]
    refine ⟨_, _, rfl, ?_⟩
    rw [if_neg (by rintro ⟨h1, h2⟩; rcases hr with hr | hr <;> simp_all)]
    exact neonAlpha16_above hD hd rg m (hl x y hx hy)

/-- Two colours differ by at most `n` in each component. -/
def WithinRGB (n : Nat) (c r : Nat × Nat × Nat) : Prop :=
  (c.1 ≤ r.1 + n ∧ r.1 ≤ c.1 + n) ∧ (c.2.1 ≤ r.2.1 + n ∧ r.2.1 ≤ c.2.1 + n) ∧
    (c.2.2 ≤ r.2.2 + n ∧ r.2.2 ≤ c.2.2 + n)

theorem rdm_within (rg : YuvRange) (m : Matrix) {y u v : Nat} (h : LegalSamples 10 rg y u v) :
    WithinRGB 2 (portableRGB 10 rg m y u v) (neonRdmRGB 10 (getYuvRange 10 rg) (searchInverse 13 10 rg m) y u v) := by
  rw [neonRdm_eq (.inl rfl) rg m h]
  obtain ⟨r, g, b, r', g', b', e, e', h1, h2, h3⟩ := deepVec_close (.inl rfl) rg m h .rgba
  simp only [deepOpaque, deepPixel, layout, List.cons.injEq, and_true] at e e'
  obtain ⟨rfl, rfl, rfl⟩ := e
  obtain ⟨rfl, rfl, rfl⟩ := e'
  exact ⟨h1.symm, h2.symm, h3.symm⟩

/-- C145, the colours of both kernels: for samples of the depth with luma not below black every component is within
two code values of that of the portable decoder.
Missing: luma below black and words beyond the depth, where the claim is false. -/
theorem c145_agreement_partial (rdm : Bool) (e : Endianness) (bp : BytesPacking) (d : Nat)
    (hD : Deep d) (hd : d ≠ 16) (ch : Channels) (hch : ch = .rgba ∨ ch = .bgra)
    (s : Sampling) (i : PlanarAlpha) (rgba : Buf) (stride : Nat) (rg : YuvRange) (m : Matrix)
    (hi : GoodPlanarAlpha i s 65536) (hdst : GoodDst rgba.length stride i.width i.height ch.count)
    (hl : LegalImage e bp d s (opaqueImage i) rg) :
    ∃ out, Neon.p16AlphaToRgb16 rdm e bp d ch s i rgba stride rg m = .ok out ∧
      ∀ x y, x < i.width → y < i.height → ∃ c a, pixelAt out stride ch.count x y = layout ch c.1 c.2.1 c.2.2 a ∧
        WithinRGB 2 (portableRGB d rg m (nativeSample e bp d (Planar.Y (opaqueImage i) x y))
          (nativeSample e bp d (Planar.U (opaqueImage i) s x y))
          (nativeSample e bp d (Planar.V (opaqueImage i) s x y))) c := by
  by_cases hq : rdm = true ∧ d = 10
  · obtain ⟨rfl, rfl⟩ := hq
    obtain ⟨out, e1, h⟩ := c144_neon_alpha16 true e bp 10 hD hd ch hch s i rgba stride rg m hi hdst
    refine ⟨out, e1, fun x y hx hy => ?_⟩
    rw [h.2.1 x y hx hy]
    unfold alpha16Pixel
    by_cases hp : hdiv s = 2 ∧ i.width % 2 = 1 ∧ x + 1 = i.width
    · rw [if_pos hp]
      refine ⟨portableRGB 10 rg m _ _ _, _, rfl, ?_⟩
      unfold WithinRGB
      omega
    · rw [if_neg hp]
      refine ⟨_, _, rfl, ?_⟩
      rw [if_pos ⟨rfl, rfl⟩]
      exact rdm_within rg m (hl x y hx hy)
  · obtain ⟨out, e1, h⟩ := c145_colours_partial rdm e bp d hD hd (by
      cases rdm
      · exact .inl rfl
      · exact .inr fun h => hq ⟨rfl, h⟩) ch hch s i rgba stride rg m hi hdst hl
    refine ⟨out, e1, fun x y hx hy => ?_⟩
    obtain ⟨c, a, h1, h2⟩ := h x y hx hy
    refine ⟨c, a, h1, ?_⟩
    unfold OneBelow at h2
    unfold WithinRGB
    omega

/-- A 4:2:2 image of one row of eight pixels of the same samples and alpha. -/
def alphaRow422 (y u v a : Nat) : PlanarAlpha :=
  { y := List.replicate 8 y, yStride := 8, u := List.replicate 4 u, uStride := 4
    v := List.replicate 4 v, vStride := 4, a := List.replicate 8 a, aStride := 8, width := 8, height := 1 }

theorem alphaRow422_good {y u v a : Nat} (hy : y < 65536) (hu : u < 65536) (hv : v < 65536) (ha : a < 65536) :
    GoodPlanarAlpha (alphaRow422 y u v a) .yuv422 65536 := by
  have hr : ∀ {n z : Nat}, z < 65536 → ∀ x ∈ List.replicate n z, x < 65536 := by
    intro n z hz x hx; rw [(List.mem_replicate.1 hx).2]; exact hz
  have u8 : U32 8 := by unfold U32; decide
  have u4 : U32 4 := by unfold U32; decide
  have u1 : U32 1 := by unfold U32; decide
  exact {
    wpos := by show 0 < 8; decide
    hpos := Nat.one_pos
    w32 := u8
    h32 := u1
    y := ⟨u8, Nat.le_refl 8, by simp [alphaRow422, FullRows], hr hy⟩
    u := ⟨u4, by show cover 8 2 ≤ 4; decide, by simp [alphaRow422, FullRows, cover, vdiv], hr hu⟩
    v := ⟨u4, by show cover 8 2 ≤ 4; decide, by simp [alphaRow422, FullRows, cover, vdiv], hr hv⟩
    a := ⟨u8, Nat.le_refl 8, by simp [alphaRow422, FullRows], hr ha⟩ }

/-- C145 fails, a picture: of eight opaque grey pixels of a 12-bit 4:2:2 image the first four come out opaque and the
other four fully transparent. -/
theorem c145_violated_opaque (rdm : Bool) :
    ∃ out, Neon.p16AlphaToRgb16 rdm .little .lsb 12 .rgba .yuv422 (alphaRow422 2048 2048 2048 4095)
        (List.replicate 32 7) 32 .full .bt709 = .ok out ∧
      (∀ x, x < 4 → pixelAt out 32 4 x 0 = [2048, 2048, 2048, 4095]) ∧
      ∀ x, 4 ≤ x → x < 8 → pixelAt out 32 4 x 0 = [2048, 2048, 2048, 0] := by
  obtain ⟨out, e1, h⟩ := c144_neon_alpha16 rdm .little .lsb 12 (.inr (.inl rfl)) (by decide) .rgba (.inl rfl) .yuv422
    (alphaRow422 2048 2048 2048 4095) (List.replicate 32 7) 32 .full .bt709
    (alphaRow422_good (by decide) (by decide) (by decide) (by decide))
    (lineDst_good (by show 0 < 8 ∧ 8 < 1000; decide) rfl _ List.length_replicate)
  have key : ∀ x, x < 8 → pixelAt out 32 4 x 0
      = alpha16Pixel rdm .little .lsb 12 .rgba .yuv422 (alphaRow422 2048 2048 2048 4095) .full .bt709 x 0 :=
    fun x hx => h.2.1 x 0 hx Nat.one_pos
  have c0 : ∀ x < 4, alpha16Pixel rdm .little .lsb 12 .rgba .yuv422 (alphaRow422 2048 2048 2048 4095) .full .bt709 x 0
      = [2048, 2048, 2048, 4095] := by cases rdm <;> decide +kernel
  have c1 : ∀ x < 8, 4 ≤ x → alpha16Pixel rdm .little .lsb 12 .rgba .yuv422 (alphaRow422 2048 2048 2048 4095) .full
      .bt709 x 0 = [2048, 2048, 2048, 0] := by cases rdm <;> decide +kernel
  exact ⟨out, e1, fun x hx => (key x (by omega)).trans (c0 x hx), fun x h4 hx => (key x hx).trans (c1 x hx h4)⟩

/-- C145 fails below black as in the decoders without alpha: luma 0 of a limited-range 12-bit image counts as black. -/
theorem c145_violated_below_black :
    alpha16Arm false 12 .rgba .limited .bt709 1 9 0 4095 0 2048 3000
        ≠ deepAlphaPixel (2 ^ 12 - 1) 13 13 12 12 .rgba .limited .bt709 4095 0 2048 3000 := by
  decide +kernel

/-- The hypotheses of the colour statement are met: a row of a legal colour. -/
example : LegalImage .little .lsb 12 .yuv422 (opaqueImage (alphaRow422 500 1000 3000 700)) .limited := by
  have h : ∀ x < 8, ∀ y < 1, LegalSamples 12 .limited
      (nativeSample .little .lsb 12 (Planar.Y (opaqueImage (alphaRow422 500 1000 3000 700)) x y))
      (nativeSample .little .lsb 12 (Planar.U (opaqueImage (alphaRow422 500 1000 3000 700)) .yuv422 x y))
      (nativeSample .little .lsb 12 (Planar.V (opaqueImage (alphaRow422 500 1000 3000 700)) .yuv422 x y)) := by
    unfold LegalSamples; decide
  exact fun x y hx hy => h x hx y hy

/-- The columns of the failure exist: in a row of 20 pixels the last two. -/
example : ∀ x < 20, (8 * ((20 - 1) / 8) + (20 - 8 * ((20 - 1) / 8) + 1) / 2 ≤ x ↔ 18 ≤ x) := by
  intro x; omega

/-- Which columns of a row of 20 pixels keep their alpha with halved chroma: all but the last two. -/
example : KeepsAlpha 2 20 17 ∧ ¬ KeepsAlpha 2 20 18 := by decide

end Verif
