import Verif.Lemmas.NeonAlpha
import Verif.Props.Neon
import Verif.Props.X86Alpha
/-!
# C114, C115: 8-bit planar YCbCr with an alpha plane on 64-bit ARM
-/
namespace Verif
open Spec Neon

theorem neonMulCol_lt {w x : Nat} (h : x < w) : neonMulCol w x < w := by
  unfold neonMulCol
  split
  · split <;> omega
  · exact h

/-- C114: on 64-bit ARM the decoder with an alpha plane succeeds on every good image and destination — no
load or store of the vector code leaves its slice, whatever the width, the strides and the padding — and
writes exactly the pixels of the image, as `neonAlphaAt` says. -/
theorem c114_neon_alpha_decode (rdm : Bool) (ch : Channels) (hch : ch = .rgba ∨ ch = .bgra) (s : Sampling)
    (i : PlanarAlpha) (rgba : Buf) (stride : Nat) (rg : YuvRange) (m : Matrix) (pm : Bool)
    (hi : GoodPlanarAlpha i s 256) (hdst : GoodDst rgba.length stride i.width i.height ch.count) :
    ∃ out, yuvAlphaToRgbxNeon rdm ch s i rgba stride rg m pm = .ok out ∧
      FrameSpec out rgba stride i.width i.height ch.count (neonAlphaAt rdm pm ch s i rg m) := by
  have ha : ¬ ch.hasAlpha = false := by rcases hch with rfl | rfl <;> decide
  have hcn := X86.count_pos ch
  have hst : 0 < stride := Nat.lt_of_lt_of_le (Nat.mul_pos hi.wpos hcn) hdst.cols_le
  unfold yuvAlphaToRgbxNeon yuvAlphaToRgbx
  rw [if_neg ha, hdst.accepted hi.wpos hi.hpos hi.w32 hi.h32 hcn (count_le ch), hi.accepted]
  simp only [Outcome.bind_ok]
  have f1 := alphaHandler_fills_mul (rdm := rdm) (pm := pm) s ch rg m (w := i.width) (coef16_search rg m)
    (fun y u v a => alphaPixel pm 13 8 ch rg m a y u v)
  have f2 := alphaHandler_fills_own (rdm := rdm) (pm := pm) s ch rg m (w := i.width) (coef16_search rg m)
    (fun y u v a => alphaPixel pm 13 8 ch rg m a y u v)
  obtain ⟨out, e, h⟩ := (alphaFrame_src hi.rows hcn (fun x hx => neonMulCol_lt hx)
    (putAlpha_AlphaPutOk pm ch rg m) f1 hdst.cols_le hdst.full).spec hcn hst hdst.cols_le hdst.full.1
  obtain ⟨out', e', h'⟩ := (alphaFrame_q hi.rows hcn (putAlpha_AlphaPutOk pm ch rg m) f2 hdst.cols_le
    hdst.full).spec hcn hst hdst.cols_le hdst.full.1
  obtain rfl : out = out' := by rw [e] at e'; exact Outcome.ok.inj e'
  refine ⟨out, e, frameRel_eq ⟨h.1, fun x y hx hy => ?_, h.2.2⟩⟩
  obtain ⟨a, p⟩ := h.2.1 x y hx hy
  obtain ⟨am, q⟩ := h'.2.1 x y hx hy
  rw [p] at q
  have k := layout_alpha_inj hch q
  refine p.trans ?_
  unfold neonAlphaAt
  rw [apx_split, apx_split, k]
  rfl

example : GoodPlanarAlpha (flat33 100 90 80 70) .yuv444 256 ∧
    GoodDst 132 132 33 1 (Channels.count .rgba) :=
  ⟨flat33_good (by decide) (by decide) (by decide) (by decide), by unfold U32; decide, by decide,
    by unfold FullRows; decide, by decide⟩

theorem neonAlphaAt_length (rdm pm : Bool) (ch : Channels) (s : Sampling) (i : PlanarAlpha) (rg : YuvRange)
    (m : Matrix) (x y : Nat) : (neonAlphaAt rdm pm ch s i rg m x y).length = ch.count := layout_length ..

theorem layout_alphaOr {ch : Channels} (hch : ch = .rgba ∨ ch = .bgra) (r g b a : Nat) :
    alphaOr 0 ch (layout ch r g b a) = a := by rcases hch with rfl | rfl <;> rfl

/-! ## What alpha is stored -/

/-- C114, what holds: the fourth component of a pixel is its alpha sample, premultiplied or not — with
4:4:4 sampling everywhere, else except in the second half of the last group of at most 16 pixels of every
row.
Missing: those columns, where `c114_alpha_lost` shows 0. -/
theorem c114_alpha_stored_partial (rdm : Bool) (ch : Channels) (hch : ch = .rgba ∨ ch = .bgra)
    (s : Sampling) (i : PlanarAlpha) (dst : Buf) (stride : Nat) (rg : YuvRange) (m : Matrix) (pm : Bool)
    (hi : GoodPlanarAlpha i s 256) (hdst : GoodDst dst.length stride i.width i.height ch.count) :
    ∃ out, yuvAlphaToRgbxNeon rdm ch s i dst stride rg m pm = .ok out ∧
      ∀ x y, x < i.width → y < i.height →
        (s = .yuv444 ∨ x < 16 * ((i.width - 1) / 16) + (i.width - 16 * ((i.width - 1) / 16) + 1) / 2) →
        alphaOr 0 ch (pixelAt out stride ch.count x y) = alphaAt i x y := by
  obtain ⟨out, e, h⟩ := c114_neon_alpha_decode rdm ch hch s i dst stride rg m pm hi hdst
  refine ⟨out, e, fun x y hx hy hc => ?_⟩
  rw [frameSpec_pixel h hx hy (neonAlphaAt_length ..)]
  have : neonLost s i.width x = false := by
    unfold neonLost
    rcases hc with rfl | hc
    · rfl
    · rw [decide_eq_false (by omega), Bool.and_false]
  unfold neonAlphaAt neonAlphaPixel
  rw [layout_alphaOr hch, this]
  rfl

/-- C114 fails: with 4:2:0 and 4:2:2 sampling the second half of the last group of at most 16 pixels of
every row is fully transparent, whatever its alpha samples, and black if premultiplication was asked for. -/
theorem c114_alpha_lost (rdm : Bool) (ch : Channels) (hch : ch = .rgba ∨ ch = .bgra)
    (s : Sampling) (hs : s ≠ .yuv444) (i : PlanarAlpha) (dst : Buf) (stride : Nat) (rg : YuvRange) (m : Matrix)
    (pm : Bool)
    (hi : GoodPlanarAlpha i s 256) (hdst : GoodDst dst.length stride i.width i.height ch.count) :
    ∃ out, yuvAlphaToRgbxNeon rdm ch s i dst stride rg m pm = .ok out ∧
      ∀ x y, x < i.width → y < i.height →
        16 * ((i.width - 1) / 16) + (i.width - 16 * ((i.width - 1) / 16) + 1) / 2 ≤ x →
        alphaOr 0 ch (pixelAt out stride ch.count x y) = 0 ∧
        (pm = true → pixelAt out stride ch.count x y = [0, 0, 0, 0]) := by
  obtain ⟨out, e, h⟩ := c114_neon_alpha_decode rdm ch hch s i dst stride rg m pm hi hdst
  refine ⟨out, e, fun x y hx hy hc => ?_⟩
  rw [frameSpec_pixel h hx hy (neonAlphaAt_length ..)]
  have : neonLost s i.width x = true := by
    unfold neonLost
    rw [decide_eq_true hc, Bool.and_true]
    cases s <;> first | rfl | exact absurd rfl hs
  unfold neonAlphaAt neonAlphaPixel
  rw [layout_alphaOr hch, this]
  refine ⟨rfl, ?_⟩
  rintro rfl
  simp only [if_true, Nat.mul_zero]
  rcases hch with rfl | rfl <;> rfl

/-- A 4×1 opaque white 4:2:2 image: on 64-bit ARM the last two pixels are transparent. -/
theorem c114_alpha_lost_witness :
    let i : PlanarAlpha := ⟨[235, 235, 235, 235], 4, [128, 128], 2, [128, 128], 2, [255, 255, 255, 255], 4, 4, 1⟩
    yuvAlphaToRgbxNeon true .rgba .yuv422 i (List.replicate 16 7) 16 .limited .bt709 false =
      .ok [255, 255, 255, 255, 255, 255, 255, 255, 255, 255, 255, 0, 255, 255, 255, 0] ∧
    yuvAlphaToRgbxNeon true .rgba .yuv422 i (List.replicate 16 7) 16 .limited .bt709 true =
      .ok [255, 255, 255, 255, 255, 255, 255, 255, 0, 0, 0, 0, 0, 0, 0, 0] ∧
    yuvAlphaToRgbx x64 .rgba .yuv422 noAlphaSimd i (List.replicate 16 7) 16 .limited .bt709 false =
      .ok (List.replicate 16 255) := by
  refine ⟨?_, ?_, ?_⟩ <;> decide +kernel

/-! ## The colours without premultiplication -/

/-- C114: straight decoding of an image whose luma is not below black gives red and blue within two and
green within three code values of those of the portable code, in every pixel. -/
theorem c114_straight_agreement (rdm : Bool) (ch : Channels) (hch : ch = .rgba ∨ ch = .bgra)
    (s : Sampling) (i : PlanarAlpha) (dst : Buf) (stride : Nat) (rg : YuvRange) (m : Matrix)
    (hi : GoodPlanarAlpha i s 256) (hdst : GoodDst dst.length stride i.width i.height ch.count)
    (hblack : ∀ x y, x < i.width → y < i.height →
      (getYuvRange 8 rg).biasY ≤ Planar.Y (opaqueImage i) x y) :
    ∃ out out', yuvAlphaToRgbxNeon rdm ch s i dst stride rg m false = .ok out ∧
      yuvAlphaToRgbx x64 ch s noAlphaSimd i dst stride rg m false = .ok out' ∧
      (∀ x y, x < i.width → y < i.height →
        let p := pixelAt out stride ch.count x y
        let q := pixelAt out' stride ch.count x y
        (red ch p ≤ red ch q + 2 ∧ red ch q ≤ red ch p + 2) ∧
        (green ch p ≤ green ch q + 3 ∧ green ch q ≤ green ch p + 3) ∧
        (blue ch p ≤ blue ch q + 2 ∧ blue ch q ≤ blue ch p + 2)) ∧
      (∀ k, ¬ InFrame stride i.width i.height ch.count k → out[k]? = out'[k]?) := by
  obtain ⟨out, e, h⟩ := c114_neon_alpha_decode rdm ch hch s i dst stride rg m false hi hdst
  obtain ⟨out', e', h'⟩ := c68_x86_alpha .plain ch hch s i dst stride rg m false hi hdst
  rw [c68_plain_is_scalar] at e'
  refine ⟨out, out', e, e', fun x y hx hy => ?_, fun k hk => (h.2.2 k hk).trans (h'.2.2 k hk).symm⟩
  obtain ⟨r, g, b, r', g', b', e1, e2, n1, n2, n3⟩ := neon_near rdm true ch rg m
    (Planar.U (opaqueImage i) s x y) (Planar.V (opaqueImage i) s x y) (hi.opaque.sample_lt hx hy).1
    (hblack x y hx hy)
  have k := frameSpec_pixel h hx hy (neonAlphaAt_length ..)
  have k' := frameSpec_pixel h' hx hy (layout_length ..)
  simp only
  rw [k, k']
  have c1 := layout_colours ch r g b 255
  have c2 := layout_colours ch r' g' b' 255
  rw [← e1] at c1
  rw [← e2] at c2
  unfold neonPixel neonPixelAt at c1
  unfold decodedPixel at c2
  simp only [(layout_colours ..).1, (layout_colours ..).2.1, (layout_colours ..).2.2] at c1 c2
  unfold neonAlphaAt neonAlphaPixel cpuAlphaPixel alphaPlanePixel alphaPixel
  simp only [Bool.false_eq_true, if_false, (layout_colours ..).1, (layout_colours ..).2.1,
    (layout_colours ..).2.2]
  rw [c1.1, c1.2.1, c1.2.2]
  simp only [opaqueImage] at c2
  obtain ⟨d1, d2, d3⟩ := c2
  refine ⟨?_, ?_, ?_⟩
  · exact (congrArg (fun z => r ≤ z + 2 ∧ z ≤ r + 2) d1).mpr n1
  · exact (congrArg (fun z => g ≤ z + 3 ∧ z ≤ g + 3) d2).mpr n2
  · exact (congrArg (fun z => b ≤ z + 2 ∧ z ≤ b + 2) d3).mpr n3

/-! ## C115: premultiplication -/

/-- The division rounds as it should or one down. -/
theorem neonDiv_rel {a c : Nat} (ha : a < 256) (hc : c < 256) :
    neonDiv (c * a) ≤ premul c a ∧ premul c a ≤ neonDiv (c * a) + 1 ∧ neonDiv (c * a) ≤ a ∧
    (a = 0 → neonDiv (c * a) = 0) ∧ (a = 255 → neonDiv (c * a) = c) := by
  obtain ⟨h1, h2⟩ := mul255_le ha hc
  refine ⟨?_, ?_, ?_, ?_, ?_⟩
  · unfold neonDiv premul; generalize c * a = w at *; omega
  · unfold neonDiv premul; generalize c * a = w at *; omega
  · unfold neonDiv; generalize c * a = w at *; omega
  · rintro rfl; rw [Nat.mul_zero]; decide
  · rintro rfl; unfold neonDiv; omega

/-- Straight and premultiplied decoding of one image, pixel by pixel. -/
theorem neon_alpha_pair (rdm : Bool) (ch : Channels) (hch : ch = .rgba ∨ ch = .bgra) (s : Sampling)
    (i : PlanarAlpha) (dst : Buf) (stride : Nat) (rg : YuvRange) (m : Matrix)
    (hi : GoodPlanarAlpha i s 256) (hdst : GoodDst dst.length stride i.width i.height ch.count) :
    ∃ out straight, yuvAlphaToRgbxNeon rdm ch s i dst stride rg m true = .ok out ∧
      yuvAlphaToRgbxNeon rdm ch s i dst stride rg m false = .ok straight ∧
      ∀ x y, x < i.width → y < i.height → ∀ c ∈ [red ch, green ch, blue ch],
        c (pixelAt straight stride ch.count x y) < 256 ∧
        c (pixelAt out stride ch.count x y) = neonDiv (c (pixelAt straight stride ch.count x y) *
          if neonLost s i.width x then 0 else alphaAt i (neonMulCol i.width x) y) := by
  obtain ⟨out, e, h⟩ := c114_neon_alpha_decode rdm ch hch s i dst stride rg m true hi hdst
  obtain ⟨straight, e', h'⟩ := c114_neon_alpha_decode rdm ch hch s i dst stride rg m false hi hdst
  refine ⟨out, straight, e, e', fun x y hx hy c hc => ?_⟩
  rw [frameSpec_pixel h hx hy (neonAlphaAt_length ..), frameSpec_pixel h' hx hy (neonAlphaAt_length ..)]
  obtain ⟨b1, b2, b3⟩ := neonRGB_lt rdm true (searchInverse 13 8 rg m)
    (Planar.Y (opaqueImage i) x y - (getYuvRange 8 rg).biasY) (Planar.U (opaqueImage i) s x y)
    (Planar.V (opaqueImage i) s x y)
  simp only [List.mem_cons, List.not_mem_nil, or_false] at hc
  unfold neonAlphaAt neonAlphaPixel
  simp only [if_true, Bool.false_eq_true, if_false]
  rcases hc with rfl | rfl | rfl
  · rw [(layout_colours ..).1, (layout_colours ..).1]; exact ⟨b1, rfl⟩
  · rw [(layout_colours ..).2.1, (layout_colours ..).2.1]; exact ⟨b2, rfl⟩
  · rw [(layout_colours ..).2.2, (layout_colours ..).2.2]; exact ⟨b3, rfl⟩

/-- C115, what holds: after the groups of 32 pixels of a row (and so in every column of an image at most 32
pixels wide), but for the columns whose alpha is lost with sub-sampled chroma, a premultiplied component is
the straight one times alpha over 255, rounded or one less, does not exceed alpha, is zero for a
transparent pixel and is the straight one for an opaque pixel.
Missing: the groups of 32, where `c115_wrong_alpha` and `c115_swapped_witness` show the claim false, and the
columns of `c114_alpha_lost`. -/
theorem c115_premultiplied_partial (rdm : Bool) (ch : Channels) (hch : ch = .rgba ∨ ch = .bgra) (s : Sampling)
    (i : PlanarAlpha) (dst : Buf) (stride : Nat) (rg : YuvRange) (m : Matrix)
    (hi : GoodPlanarAlpha i s 256) (hdst : GoodDst dst.length stride i.width i.height ch.count) :
    ∃ out straight, yuvAlphaToRgbxNeon rdm ch s i dst stride rg m true = .ok out ∧
      yuvAlphaToRgbxNeon rdm ch s i dst stride rg m false = .ok straight ∧
      ∀ x y, x < i.width → y < i.height → 32 * ((i.width - 1) / 32) ≤ x →
        (s = .yuv444 ∨ x < 16 * ((i.width - 1) / 16) + (i.width - 16 * ((i.width - 1) / 16) + 1) / 2) →
        ∀ c ∈ [red ch, green ch, blue ch],
        let p := c (pixelAt out stride ch.count x y)
        let q := c (pixelAt straight stride ch.count x y)
        let a := alphaAt i x y
        p ≤ premul q a ∧ premul q a ≤ p + 1 ∧ p ≤ a ∧ (a = 0 → p = 0) ∧ (a = 255 → p = q) := by
  obtain ⟨out, straight, e, e', h⟩ := neon_alpha_pair rdm ch hch s i dst stride rg m hi hdst
  refine ⟨out, straight, e, e', fun x y hx hy h32 hc c hcm => ?_⟩
  obtain ⟨b, k⟩ := h x y hx hy c hcm
  have hl : neonLost s i.width x = false := by
    unfold neonLost
    rcases hc with rfl | hc
    · rfl
    · rw [decide_eq_false (by omega), Bool.and_false]
  have hm : neonMulCol i.width x = x := by unfold neonMulCol; rw [if_neg (by omega)]
  rw [hl, hm] at k
  simp only [Bool.false_eq_true, if_false] at k
  simp only
  rw [k]
  exact neonDiv_rel (alphaSample_lt hi hx hy) b

/-- C115 fails in the groups of 32 pixels: the colours of a pixel are multiplied by the alpha of the pixel
sixteen columns away in the other half of its group, not by its own. -/
theorem c115_wrong_alpha (rdm : Bool) (ch : Channels) (hch : ch = .rgba ∨ ch = .bgra) (s : Sampling)
    (i : PlanarAlpha) (dst : Buf) (stride : Nat) (rg : YuvRange) (m : Matrix)
    (hi : GoodPlanarAlpha i s 256) (hdst : GoodDst dst.length stride i.width i.height ch.count) :
    ∃ out straight, yuvAlphaToRgbxNeon rdm ch s i dst stride rg m true = .ok out ∧
      yuvAlphaToRgbxNeon rdm ch s i dst stride rg m false = .ok straight ∧
      ∀ x y, x < 32 * ((i.width - 1) / 32) → y < i.height → ∀ c ∈ [red ch, green ch, blue ch],
        let p := c (pixelAt out stride ch.count x y)
        let q := c (pixelAt straight stride ch.count x y)
        let a := alphaAt i (if x % 32 < 16 then x + 16 else x - 16) y
        p ≤ premul q a ∧ premul q a ≤ p + 1 := by
  obtain ⟨out, straight, e, e', h⟩ := neon_alpha_pair rdm ch hch s i dst stride rg m hi hdst
  refine ⟨out, straight, e, e', fun x y hx hy c hcm => ?_⟩
  have hxw : x < i.width := by omega
  obtain ⟨b, k⟩ := h x y hxw hy c hcm
  rw [neonLost_false (by omega)] at k
  have hm : neonMulCol i.width x = if x % 32 < 16 then x + 16 else x - 16 := by
    unfold neonMulCol; rw [if_pos hx]
  have hlt := alphaSample_lt hi (neonMulCol_lt hxw) hy
  rw [hm] at k hlt
  simp only [Bool.false_eq_true, if_false] at k
  simp only
  rw [k]
  obtain ⟨n1, n2, -⟩ := neonDiv_rel hlt b
  exact ⟨n1, n2⟩

/-- A row of 33 white pixels, the first sixteen opaque, the others transparent.  Premultiplied on 64-bit ARM
the opaque ones become black and sixteen transparent ones stay white; the portable code does the
opposite. -/
theorem c115_swapped_witness :
    let i : PlanarAlpha := ⟨List.replicate 33 235, 33, List.replicate 33 128, 33, List.replicate 33 128, 33,
      List.replicate 16 255 ++ List.replicate 17 0, 33, 33, 1⟩
    yuvAlphaToRgbxNeon true .rgba .yuv444 i (List.replicate 132 7) 132 .limited .bt709 true =
      .ok (List.replicate 16 [0, 0, 0, 255] ++ List.replicate 16 [255, 255, 255, 0] ++ [[0, 0, 0, 0]]).flatten ∧
    yuvAlphaToRgbx x64 .rgba .yuv444 noAlphaSimd i (List.replicate 132 7) 132 .limited .bt709 true =
      .ok (List.replicate 16 [255, 255, 255, 255] ++ List.replicate 17 [0, 0, 0, 0]).flatten := by
  refine ⟨?_, ?_⟩ <;> decide +kernel

end Verif
