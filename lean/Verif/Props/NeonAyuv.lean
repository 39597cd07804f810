import Verif.Lemmas.NeonAyuv
import Verif.Spec.NeonAyuv
import Verif.Props.X86Ayuv
import Verif.Props.NeonAlpha
/-!
# C124, C125: packed 4:4:4 with alpha on 64-bit ARM
-/
namespace Verif
open Spec X86 Neon

/-! ## C124 -/

/-- C124: decoding a packed 4:4:4 image succeeds on every good image and destination — no load or store of
the vector code leaves its row — and writes exactly the pixels of the image, each determined by its own four
bytes; nothing else is touched. -/
theorem c124_neon_packed (rdm : Bool) (f : Packed444) (ch : Channels) (i : Packed) (dst : Buf)
    (stride : Nat) (rg : YuvRange) (m : Matrix) (pm : Bool) (hi : GoodPacked444 i)
    (hd : GoodDst dst.length stride i.width i.height ch.count) :
    ∃ out, ayuvToRgbxNeon rdm f ch i dst stride rg m pm = .ok out ∧
      FrameSpec out dst stride i.width i.height ch.count
        (fun x y => neonPackedPixel rdm pm f ch rg m (pixelAt i.yuy i.yuyStride 4 x y)) := by
  have hb : (getYuvRange 8 rg).biasUv = 128 := by cases rg <;> rfl
  have hby : (getYuvRange 8 rg).biasY < 256 := by cases rg <;> decide
  have hg : ∀ s ∈ [(⟨i.yuy, i.yuyStride, 4, true⟩ : Src)], GoodSrc s i.width i.height 256 := by
    intro s hs'
    rw [List.mem_singleton] at hs'
    subst hs'
    exact goodSrc_packed (by decide) hi.src hi.bytes
  unfold ayuvToRgbxNeon ayuvToRgbx
  rw [hi.src.accepted hi.wpos hi.hpos hi.w32 hi.h32 (by decide) (by decide),
    hd.accepted hi.wpos hi.hpos hi.w32 hi.h32 (X86.count_pos ch) (X86.count_le ch)]
  simp only [Outcome.bind_ok]
  have hh := Neon.ayuvHandler_fills (rdm := rdm) (pm := pm) (s := ⟨i.yuy, i.yuyStride, 4, true⟩) f ch hi.wpos
    hb hby
    (show Coef16 (searchInverse 13 8 rg m).castI16 by rw [castI16_search]; exact coef16_search rg m)
    rfl (packedPixel pm f ch rg m)
  obtain ⟨out, e, h⟩ := mapFrame_cols (cutDst := true) hi.wpos (X86.count_pos ch) hg
    (ayuvBody_ok (pm := pm) (f := f) (ch := ch) (rg := rg) (m := m) rfl) hh hd.cols_le
    hd.full (Or.inl rfl)
  refine ⟨out, e, frameRel_eq ⟨h.1, fun x y hx hy => ?_, h.2.2⟩⟩
  have := h.2.1 x y hx hy
  simp only [pixelsAt, List.map_cons, List.map_nil, List.getD_cons_zero, castI16_search] at this
  rw [this]
  rfl

theorem neonPackedPixel_length (rdm pm : Bool) (f : Packed444) (ch : Channels) (rg : YuvRange) (m : Matrix)
    (px : Buf) : (neonPackedPixel rdm pm f ch rg m px).length = ch.count := layout_length ..

/-- C124: the fourth component of every pixel (if the layout has one) is the alpha of its packed pixel,
premultiplied or not. -/
theorem c124_alpha_stored (rdm : Bool) (f : Packed444) (ch : Channels) (i : Packed) (dst : Buf)
    (stride : Nat) (rg : YuvRange) (m : Matrix) (pm : Bool) (hi : GoodPacked444 i)
    (hd : GoodDst dst.length stride i.width i.height ch.count) :
    ∃ out, ayuvToRgbxNeon rdm f ch i dst stride rg m pm = .ok out ∧
      ∀ x y, x < i.width → y < i.height →
        let a := (packedAt f i x y).2.2.2
        alphaOr a ch (pixelAt out stride ch.count x y) = a := by
  obtain ⟨out, e, h⟩ := c124_neon_packed rdm f ch i dst stride rg m pm hi hd
  refine ⟨out, e, fun x y hx hy => ?_⟩
  have k := frameSpec_pixel h hx hy (neonPackedPixel_length ..)
  simp only
  rw [k]
  cases ch <;> rfl

/-- C124: straight decoding of an image whose luma is not below black gives red and blue within two and
green within three code values of those of the portable code (which SSE4.1 processors run too), in every
pixel, and leaves the same padding. -/
theorem c124_straight_agreement (rdm : Bool) (f : Packed444) (ch : Channels) (i : Packed)
    (dst : Buf) (stride : Nat) (rg : YuvRange) (m : Matrix) (hi : GoodPacked444 i)
    (hd : GoodDst dst.length stride i.width i.height ch.count)
    (hblack : ∀ x y, x < i.width → y < i.height → (getYuvRange 8 rg).biasY ≤ (packedAt f i x y).1) :
    ∃ out out', ayuvToRgbxNeon rdm f ch i dst stride rg m false = .ok out ∧
      ayuvToRgbx x64 f ch noMap i dst stride rg m false = .ok out' ∧
      (∀ x y, x < i.width → y < i.height →
        let p := pixelAt out stride ch.count x y
        let q := pixelAt out' stride ch.count x y
        (red ch p ≤ red ch q + 2 ∧ red ch q ≤ red ch p + 2) ∧
        (green ch p ≤ green ch q + 3 ∧ green ch q ≤ green ch p + 3) ∧
        (blue ch p ≤ blue ch q + 2 ∧ blue ch q ≤ blue ch p + 2)) ∧
      (∀ k, ¬ InFrame stride i.width i.height ch.count k → out[k]? = out'[k]?) := by
  obtain ⟨out, e, h⟩ := c124_neon_packed rdm f ch i dst stride rg m false hi hd
  obtain ⟨out', e', h'⟩ := c80_x86_packed .plain f ch i dst stride rg m false hi hd
  rw [(c80_sse_is_scalar f ch i dst stride rg m false).2] at e'
  refine ⟨out, out', e, e', fun x y hx hy => ?_, fun k hk => (h.2.2 k hk).trans (h'.2.2 k hk).symm⟩
  obtain ⟨b1, b2, b3, b4⟩ := packedAt_lt (f := f) hi x y
  have hbk := hblack x y hx hy
  generalize hS : packedAt f i x y = S at *
  obtain ⟨Y, U, V, A⟩ := S
  simp only at b1 b2 b3 b4 hbk
  obtain ⟨r, g, b, r', g', b', e1, e2, n1, n2, n3⟩ := neon_near rdm true ch rg m U V b1 hbk
  have S1 : samples444 f (pixelAt i.yuy i.yuyStride 4 x y) = (Y, U, V, A) := hS
  have k := frameSpec_pixel h hx hy (neonPackedPixel_length ..)
  have k' := frameSpec_pixel h' hx hy (layout_length ..)
  simp only
  rw [k, k']
  have c1 := layout_colours ch r g b 255
  have c2 := layout_colours ch r' g' b' 255
  rw [← e1] at c1
  rw [← e2] at c2
  unfold neonPixel neonPixelAt at c1
  unfold decodedPixel at c2
  simp only [(layout_colours ..).1, (layout_colours ..).2.1, (layout_colours ..).2.2] at c1 c2
  unfold neonPackedPixel neonAlphaPixel cpuPackedPixel packedPixel alphaPixel
  simp only [S1, Bool.false_eq_true, if_false, (layout_colours ..).1, (layout_colours ..).2.1,
    (layout_colours ..).2.2]
  rw [c1.1, c1.2.1, c1.2.2]
  obtain ⟨d1, d2, d3⟩ := c2
  refine ⟨?_, ?_, ?_⟩
  · exact (congrArg (fun z => r ≤ z + 2 ∧ z ≤ r + 2) d1).mpr n1
  · exact (congrArg (fun z => g ≤ z + 3 ∧ z ≤ g + 3) d2).mpr n2
  · exact (congrArg (fun z => b ≤ z + 2 ∧ z ≤ b + 2) d3).mpr n3

/-! ## C125 -/

/-- C125: in every pixel a premultiplied component is the straight one times the alpha of the pixel over 255,
rounded or one less; it does not exceed alpha, is zero for a transparent pixel and the straight one for an
opaque pixel. -/
theorem c125_premultiplied (rdm : Bool) (f : Packed444) (ch : Channels) (i : Packed) (dst : Buf)
    (stride : Nat) (rg : YuvRange) (m : Matrix) (hi : GoodPacked444 i)
    (hd : GoodDst dst.length stride i.width i.height ch.count) :
    ∃ out straight, ayuvToRgbxNeon rdm f ch i dst stride rg m true = .ok out ∧
      ayuvToRgbxNeon rdm f ch i dst stride rg m false = .ok straight ∧
      ∀ x y, x < i.width → y < i.height → ∀ c ∈ [red ch, green ch, blue ch],
        let a := (packedAt f i x y).2.2.2
        let p := c (pixelAt out stride ch.count x y)
        let q := c (pixelAt straight stride ch.count x y)
        p ≤ premul q a ∧ premul q a ≤ p + 1 ∧ p ≤ a ∧ (a = 0 → p = 0) ∧ (a = 255 → p = q) := by
  obtain ⟨out, e, h⟩ := c124_neon_packed rdm f ch i dst stride rg m true hi hd
  obtain ⟨straight, e', h'⟩ := c124_neon_packed rdm f ch i dst stride rg m false hi hd
  refine ⟨out, straight, e, e', fun x y hx hy c hc => ?_⟩
  obtain ⟨-, -, -, b4⟩ := packedAt_lt (f := f) hi x y
  have k := frameSpec_pixel h hx hy (neonPackedPixel_length ..)
  have k' := frameSpec_pixel h' hx hy (neonPackedPixel_length ..)
  simp only
  rw [k, k']
  unfold neonPackedPixel neonAlphaPixel
  unfold packedAt at b4 ⊢
  generalize samples444 f (pixelAt i.yuy i.yuyStride 4 x y) = S at b4 ⊢
  obtain ⟨c1, c2, c3⟩ := neonRGB_lt rdm true (searchInverse 13 8 rg m) (S.1 - (getYuvRange 8 rg).biasY) S.2.1
    S.2.2.1
  simp only [List.mem_cons, List.not_mem_nil, or_false] at hc
  simp only [if_true, Bool.false_eq_true, if_false]
  rcases hc with rfl | rfl | rfl
  · rw [(layout_colours ..).1, (layout_colours ..).1]; exact neonDiv_rel b4 c1
  · rw [(layout_colours ..).2.1, (layout_colours ..).2.1]; exact neonDiv_rel b4 c2
  · rw [(layout_colours ..).2.2, (layout_colours ..).2.2]; exact neonDiv_rel b4 c3

/-- C125 on the pixel AVX2 gets wrong (`c81_avx2_wraps`): red 255 times 200/255 is 200 here. -/
theorem c125_no_wrap :
    ayuvToRgbxNeon true .ayuv .rgba (onePixel [200, 235, 128, 240]) [7, 7, 7, 7] 4 .limited .bt709 true
      = .ok [200, 154, 200, 200] ∧
    ayuvToRgbxNeon false .ayuv .rgba (onePixel [200, 235, 128, 240]) [7, 7, 7, 7] 4 .limited .bt709 true
      = .ok [200, 154, 200, 200] := by
  constructor <;> decide +kernel

set_option maxRecDepth 8000 in
example : ∃ out straight, ayuvToRgbxNeon true .ayuv .rgba row40 (List.replicate 160 0) 160 .limited .bt601 true
      = .ok out ∧
    ayuvToRgbxNeon true .ayuv .rgba row40 (List.replicate 160 0) 160 .limited .bt601 false = .ok straight ∧
    ∀ x y, x < 40 → y < 1 → ∀ c ∈ [red .rgba, green .rgba, blue .rgba],
      let a := (packedAt .ayuv row40 x y).2.2.2
      let p := c (pixelAt out 160 4 x y)
      let q := c (pixelAt straight 160 4 x y)
      p ≤ premul q a ∧ premul q a ≤ p + 1 ∧ p ≤ a ∧ (a = 0 → p = 0) ∧ (a = 255 → p = q) :=
  c125_premultiplied true .ayuv .rgba row40 (List.replicate 160 0) 160 .limited .bt601 row40_good
    ⟨by unfold U32; decide, by decide, by unfold FullRows; decide, by decide⟩

end Verif
