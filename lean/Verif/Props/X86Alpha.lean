import Verif.Lemmas.X86Alpha
import Verif.Props.Alpha
import Verif.Props.X86Decode
/-!
# C68, C69, C70: 8-bit planar YCbCr with an alpha plane on x86 processors
-/
namespace Verif
open Spec X86

/-- The pixel at `(x, y)` on each class of processor. -/
def Spec.cpuAlphaPixel (cpu : Cpu) (pm : Bool) (ch : Channels) (s : Sampling) (i : PlanarAlpha)
    (rg : YuvRange) (m : Matrix) (x y : Nat) : Buf :=
  let j := opaqueImage i
  match cpu with
  | .plain => alphaPlanePixel pm ch s i rg m x y
  | .avx2 => avx2AlphaPixel pm ch rg m i.width x (alphaAt i x y) (Planar.Y j x y) (Planar.U j s x y)
      (Planar.V j s x y)
  | .sse41 => sseAlphaPixel pm ch rg m i.width x (alphaAt i x y) (Planar.Y j x y) (Planar.U j s x y)
      (Planar.V j s x y)

/-! ## C68 -/

/-- C68: on every class of x86 processor the decoder with an alpha plane succeeds on every good image
and destination — no load or store of the vector code leaves its slice, whatever the width, the
strides and the padding — and writes exactly the pixels of the image, each of them determined by its
samples, its alpha and (for the choice between two arithmetics) its column. -/
theorem c68_x86_alpha (cpu : Cpu) (ch : Channels) (hch : ch = .rgba ∨ ch = .bgra) (s : Sampling)
    (i : PlanarAlpha) (rgba : Buf) (stride : Nat) (rg : YuvRange) (m : Matrix) (pm : Bool)
    (hi : GoodPlanarAlpha i s 256) (hdst : GoodDst rgba.length stride i.width i.height ch.count) :
    ∃ out, yuvAlphaToRgbxOn cpu ch s i rgba stride rg m pm = .ok out ∧
      FrameSpec out rgba stride i.width i.height ch.count (cpuAlphaPixel cpu pm ch s i rg m) := by
  have hb : (getYuvRange 8 rg).biasUv = 128 := by cases rg <;> rfl
  have hby : (getYuvRange 8 rg).biasY < 256 := by cases rg <;> decide
  have ha : ¬ ch.hasAlpha = false := by rcases hch with rfl | rfl <;> decide
  have hcn := count_pos ch
  have hst : 0 < stride := Nat.lt_of_lt_of_le (Nat.mul_pos hi.wpos hcn) hdst.cols_le
  unfold yuvAlphaToRgbxOn yuvAlphaToRgbx
  rw [if_neg ha, hdst.accepted hi.wpos hi.hpos hi.w32 hi.h32 (count_pos ch) (count_le ch),
    hi.accepted]
  simp only [Outcome.bind_ok]
  have hf := alphaHandlerOn_fills (w := i.width) cpu pm s ch hb hby (coef16_search rg m)
    (fun y u v a => alphaPixel pm 13 8 ch rg m a y u v)
  obtain ⟨out, e, h⟩ := (alphaFrame_q hi.rows hcn (putAlpha_AlphaPutOk pm ch rg m) hf hdst.cols_le
    hdst.full).spec hcn hst hdst.cols_le hdst.full.1
  refine ⟨out, e, frameRel_eq ⟨h.1, fun x y hx hy => ?_, h.2.2⟩⟩
  refine (h.2.1 x y hx hy).trans ?_
  cases cpu <;> rfl

/-- A processor without vector extensions runs the scalar code. -/
theorem c68_plain_is_scalar (ch : Channels) (s : Sampling) (i : PlanarAlpha) (rgba : Buf)
    (stride : Nat) (rg : YuvRange) (m : Matrix) (pm : Bool) :
    yuvAlphaToRgbxOn .plain ch s i rgba stride rg m pm =
      yuvAlphaToRgbx x64 ch s noAlphaSimd i rgba stride rg m pm := rfl

/-! ## What premultiplication does to a component -/

/-- The components the premultiplication treats correctly: all of them without vector code and in
the 32-pixel steps of AVX2; in the last pixels of a row on AVX2 those whose straight value is below
255; in the 16-pixel steps of SSE4.1 those whose straight value is neither 0 nor 255. -/
def Spec.PremulSafe (cpu : Cpu) (w x c : Nat) : Prop :=
  match cpu with
  | .plain => True
  | .avx2 => x < 32 * ((w - 1) / 32) ∨ c < 255
  | .sse41 => 16 * ((w - 1) / 16) ≤ x ∨ (0 < c ∧ c < 255)

/-- What is known of the premultiplied component `c'` where the straight one is `c`. -/
structure PremulRel (cpu : Cpu) (w x a c c' : Nat) : Prop where
  /-- transparent is black -/
  clear : a = 0 → c' = 0
  near : PremulSafe cpu w x c → c' ≤ premul c a + 1 ∧ premul c a ≤ c' + 1
  le : PremulSafe cpu w x c → c' ≤ a
  same : PremulSafe cpu w x c → a = 255 →
    c' = c ∨ (cpu = .avx2 ∧ 128 ≤ c ∧ c' + 1 = c)

theorem premul_rel (cpu : Cpu) (w x : Nat) {a c : Nat} (hc : c < 256) :
    PremulRel cpu w x a c (premul c a) := by
  have h1 : c * a ≤ 255 * a := Nat.mul_le_mul_right _ (by omega)
  refine ⟨?_, fun _ => by omega, fun _ => by unfold premul; omega, ?_⟩
  · rintro rfl; unfold premul; omega
  · rintro _ rfl; unfold premul; omega

theorem mul255_le {a c : Nat} (ha : a < 256) (hc : c < 256) : c * a ≤ 255 * a ∧ c * a ≤ 65025 := by
  have h1 : c * a ≤ 255 * a := Nat.mul_le_mul_right _ (by omega)
  omega

theorem premul_split {w q r : Nat} (h : w = 256 * q + r) :
    (2 * w + 255) / 510 = q + (2 * (q + r) + 255) / 510 := by omega

theorem avx2Div_split {w q r : Nat} (h : w = 256 * q + r) (hr : r < 256) (hw : w ≤ 65025) :
    avx2Div w = q + (q + r + (r + 127) / 256) / 256 := by
  have e : (w + 127) % 65536 / 256 = q + (r + 127) / 256 := by omega
  unfold avx2Div
  rw [e]
  omega

theorem sseDiv_split {w q r : Nat} (h : w = 256 * q + r) (hr : r < 256) (hw : w ≤ 65025) :
    sseDiv w = q + (q + r + 127) / 256 := by
  have e : w / 256 = q := by omega
  unfold sseDiv
  rw [e]
  omega

theorem avx2Div_rel {a c : Nat} (ha : a < 256) (hc : c < 256) :
    (a = 0 → avx2Div (c * a) = 0) ∧
    (avx2Div (c * a) ≤ premul c a + 1 ∧ premul c a ≤ avx2Div (c * a) + 1) ∧ avx2Div (c * a) ≤ a ∧
    (a = 255 → avx2Div (c * a) = c ∨ (128 ≤ c ∧ avx2Div (c * a) + 1 = c)) := by
  obtain ⟨h1, h2⟩ := mul255_le ha hc
  refine ⟨?_, ?_, ?_, ?_⟩
  · rintro rfl; rw [Nat.mul_zero]; decide
  all_goals
    have hs : c * a = 256 * (c * a / 256) + c * a % 256 := by omega
    have hr : c * a % 256 < 256 := by omega
    rw [avx2Div_split hs hr h2]
  · rw [premul, premul_split hs]
    generalize c * a / 256 = q at *; generalize c * a % 256 = r at *; omega
  · generalize c * a = w at *; omega
  · rintro rfl; omega

theorem sseDiv_rel {a c : Nat} (ha : a < 256) (hc : c < 256) :
    (sseDiv (c * a) ≤ premul c a + 1 ∧ premul c a ≤ sseDiv (c * a) + 1) ∧ sseDiv (c * a) ≤ a ∧
    (a = 255 → sseDiv (c * a) = c) := by
  obtain ⟨h1, h2⟩ := mul255_le ha hc
  have hs : c * a = 256 * (c * a / 256) + c * a % 256 := by omega
  have hr : c * a % 256 < 256 := by omega
  rw [sseDiv_split hs hr h2]
  refine ⟨?_, ?_, ?_⟩
  · rw [premul, premul_split hs]
    generalize c * a / 256 = q at *; generalize c * a % 256 = r at *; omega
  · generalize c * a = w at *; omega
  · rintro rfl; omega

theorem wrap16_mul {c a : Nat} (ha : a < 256) (hc : c < 256) : wrap16 ((c : Int) * a) = c * a := by
  have : c * a ≤ 255 * 255 := Nat.mul_le_mul (by omega) (by omega)
  rw [show (c : Int) * a = ((c * a : Nat) : Int) by push_cast; rfl]
  exact wrap16_small (by omega)

/-- The vector kernels. -/
theorem avx2_rel (w x : Nat) {a : Nat} (ha : a < 256) (s : Int) :
    PremulRel .avx2 w x a (byteSat s) (vecPremul (avx2Kind w x) s a) := by
  have hc := byteSat_lt s
  obtain ⟨r1, r2, r3, r4⟩ := avx2Div_rel ha hc
  unfold avx2Kind
  by_cases hx : x < 32 * ((w - 1) / 32)
  · rw [if_pos hx]
    exact ⟨r1, fun _ => r2, fun _ => r3, fun _ h => (r4 h).imp_right fun h => ⟨rfl, h⟩⟩
  · rw [if_neg hx]
    have key : PremulSafe .avx2 w x (byteSat s) → vecPremul .avx2Tail s a = avx2Div (byteSat s * a) := by
      intro h
      have h := h.resolve_left hx
      have : max s 0 = (byteSat s : Int) := by unfold byteSat at h ⊢; omega
      unfold vecPremul
      simp only [this, wrap16_mul ha hc]
    refine ⟨?_, fun h => by rw [key h]; exact r2, fun h => by rw [key h]; exact r3,
      fun h h' => by rw [key h]; exact (r4 h').imp_right fun h => ⟨rfl, h⟩⟩
    rintro rfl
    simp [vecPremul, wrap16, avx2Div]

theorem sse_rel (w x : Nat) {a : Nat} (ha : a < 256) (s : Int) (hx : x < 16 * ((w - 1) / 16)) :
    PremulRel .sse41 w x a (byteSat s) (vecPremul .sse s a) := by
  have hc := byteSat_lt s
  obtain ⟨r2, r3, r4⟩ := sseDiv_rel ha hc
  have key : PremulSafe .sse41 w x (byteSat s) → vecPremul .sse s a = sseDiv (byteSat s * a) := by
    intro h
    have h := h.resolve_left (by omega)
    have : s = (byteSat s : Int) := by unfold byteSat at h ⊢; omega
    have e := wrap16_mul ha hc
    rw [← this] at e
    show sseDiv (wrap16 (s * a)) = _
    rw [e]
  refine ⟨?_, fun h => by rw [key h]; exact r2, fun h => by rw [key h]; exact r3,
    fun h h' => by rw [key h]; exact .inl (r4 h')⟩
  rintro rfl
  simp [vecPremul, wrap16, sseDiv]

/-- The straight and the premultiplied pixel. -/
theorem cpuAlphaPixel_pair (cpu : Cpu) (ch : Channels) (s : Sampling) (i : PlanarAlpha)
    (rg : YuvRange) (m : Matrix) (hi : GoodPlanarAlpha i s 256) {x y : Nat} (hx : x < i.width)
    (hy : y < i.height) :
    ∃ r g b r' g' b',
      cpuAlphaPixel cpu false ch s i rg m x y = layout ch r g b (alphaAt i x y) ∧
      cpuAlphaPixel cpu true ch s i rg m x y = layout ch r' g' b' (alphaAt i x y) ∧
      PremulRel cpu i.width x (alphaAt i x y) r r' ∧ PremulRel cpu i.width x (alphaAt i x y) g g' ∧
      PremulRel cpu i.width x (alphaAt i x y) b b' := by
  have ha := alphaSample_lt hi hx hy
  obtain ⟨b1, b2, b3⟩ := hi.opaque.sample_lt hx hy
  have scal : ∃ r g b r' g' b',
      alphaPlanePixel false ch s i rg m x y = layout ch r g b (alphaAt i x y) ∧
      alphaPlanePixel true ch s i rg m x y = layout ch r' g' b' (alphaAt i x y) ∧
      PremulRel cpu i.width x (alphaAt i x y) r r' ∧ PremulRel cpu i.width x (alphaAt i x y) g g' ∧
      PremulRel cpu i.width x (alphaAt i x y) b b' := by
    have hlt : ∀ s : Int, (max (min ((s + (2 ^ (13 - 1) - 1)) / 2 ^ 13) (2 ^ 8 - 1)) 0).toNat < 256 := by
      intro s; norm_num
    exact ⟨_, _, _, _, _, _, rfl, rfl, premul_rel _ _ _ (hlt _), premul_rel _ _ _ (hlt _),
      premul_rel _ _ _ (hlt _)⟩
  cases cpu with
  | plain => exact scal
  | avx2 =>
    exact ⟨_, _, _, _, _, _, rfl, rfl, avx2_rel _ _ ha _, avx2_rel _ _ ha _, avx2_rel _ _ ha _⟩
  | sse41 =>
    by_cases h : x < 16 * ((i.width - 1) / 16)
    · have e : ∀ pm, cpuAlphaPixel .sse41 pm ch s i rg m x y = vecAlphaPixel .sse pm ch rg m
          (alphaAt i x y) (Planar.Y (opaqueImage i) x y) (Planar.U (opaqueImage i) s x y)
          (Planar.V (opaqueImage i) s x y) := by
        intro pm; simp only [cpuAlphaPixel, sseAlphaPixel, if_pos h]
      rw [e, e]
      exact ⟨_, _, _, _, _, _, rfl, rfl, sse_rel _ _ ha _ h, sse_rel _ _ ha _ h, sse_rel _ _ ha _ h⟩
    · obtain ⟨r, g, b, r', g', b', e, e', h'⟩ := scal
      refine ⟨r, g, b, r', g', b', ?_, ?_, h'⟩
      · simp only [cpuAlphaPixel, sseAlphaPixel, if_neg h]; exact e
      · simp only [cpuAlphaPixel, sseAlphaPixel, if_neg h]; exact e'

/-- Straight and premultiplied decoding of one image on one processor, pixel by pixel. -/
theorem x86_alpha_pair (cpu : Cpu) (ch : Channels) (hch : ch = .rgba ∨ ch = .bgra) (s : Sampling)
    (i : PlanarAlpha) (dst : Buf) (stride : Nat) (rg : YuvRange) (m : Matrix)
    (hi : GoodPlanarAlpha i s 256) (hdst : GoodDst dst.length stride i.width i.height ch.count) :
    ∃ out straight, yuvAlphaToRgbxOn cpu ch s i dst stride rg m true = .ok out ∧
      yuvAlphaToRgbxOn cpu ch s i dst stride rg m false = .ok straight ∧
      ∀ x y, x < i.width → y < i.height →
        let p := pixelAt out stride ch.count x y
        let q := pixelAt straight stride ch.count x y
        (∀ c ∈ [red ch, green ch, blue ch], PremulRel cpu i.width x (alphaAt i x y) (c q) (c p)) ∧
        alphaOr 0 ch p = alphaAt i x y ∧ alphaOr 0 ch q = alphaAt i x y := by
  obtain ⟨out, e, h⟩ := c68_x86_alpha cpu ch hch s i dst stride rg m true hi hdst
  obtain ⟨straight, e', h'⟩ := c68_x86_alpha cpu ch hch s i dst stride rg m false hi hdst
  refine ⟨out, straight, e, e', fun x y hx hy => ?_⟩
  obtain ⟨r, g, b, r', g', b', q1, q2, p1, p2, p3⟩ := cpuAlphaPixel_pair cpu ch s i rg m hi hx hy
  have k := frameSpec_pixel h hx hy (by rw [q2]; exact layout_length ..)
  have k' := frameSpec_pixel h' hx hy (by rw [q1]; exact layout_length ..)
  simp only
  rw [k, k', q1, q2]
  refine ⟨?_, by rcases hch with rfl | rfl <;> rfl, by rcases hch with rfl | rfl <;> rfl⟩
  intro c hc
  simp only [List.mem_cons, List.not_mem_nil, or_false] at hc
  rcases hc with rfl | rfl | rfl
  · rw [(layout_colours ..).1, (layout_colours ..).1]; exact p1
  · rw [(layout_colours ..).2.1, (layout_colours ..).2.1]; exact p2
  · rw [(layout_colours ..).2.2, (layout_colours ..).2.2]; exact p3

/-- C68: the fourth component of every pixel is its alpha sample, on every processor, premultiplied
or not. -/
theorem c68_alpha_stored (cpu : Cpu) (ch : Channels) (hch : ch = .rgba ∨ ch = .bgra) (s : Sampling)
    (i : PlanarAlpha) (dst : Buf) (stride : Nat) (rg : YuvRange) (m : Matrix) (pm : Bool)
    (hi : GoodPlanarAlpha i s 256) (hdst : GoodDst dst.length stride i.width i.height ch.count) :
    ∃ out, yuvAlphaToRgbxOn cpu ch s i dst stride rg m pm = .ok out ∧
      ∀ x y, x < i.width → y < i.height →
        alphaOr 0 ch (pixelAt out stride ch.count x y) = alphaAt i x y := by
  obtain ⟨out, straight, e, e', h⟩ := x86_alpha_pair cpu ch hch s i dst stride rg m hi hdst
  cases pm with
  | true => exact ⟨out, e, fun x y hx hy => (h x y hx hy).2.1⟩
  | false => exact ⟨straight, e', fun x y hx hy => (h x y hx hy).2.2⟩

/-- C68: straight decoding gives on AVX2 the colours of the AVX2 decoder without alpha, for every
image. -/
theorem c68_avx2_same_colours (ch : Channels) (hch : ch = .rgba ∨ ch = .bgra) (s : Sampling)
    (i : PlanarAlpha) (dst : Buf) (stride : Nat) (rg : YuvRange) (m : Matrix)
    (hi : GoodPlanarAlpha i s 256) (hdst : GoodDst dst.length stride i.width i.height ch.count) :
    ∃ out plain, yuvAlphaToRgbxOn .avx2 ch s i dst stride rg m false = .ok out ∧
      yuvToRgbxOn .avx2 ch s (opaqueImage i) dst stride rg m = .ok plain ∧
      ∀ x y, x < i.width → y < i.height →
        let p := pixelAt out stride ch.count x y
        let q := pixelAt plain stride ch.count x y
        red ch p = red ch q ∧ green ch p = green ch q ∧ blue ch p = blue ch q := by
  obtain ⟨out, e, h⟩ := c68_x86_alpha .avx2 ch hch s i dst stride rg m false hi hdst
  obtain ⟨plain, e', h'⟩ := c55_avx2_decode ch s (opaqueImage i) dst stride rg m hi.opaque hdst
  refine ⟨out, plain, e, e', fun x y hx hy => ?_⟩
  have k := frameSpec_pixel h hx hy (layout_length ..)
  have k' := frameSpec_pixel h' hx hy (layout_length ..)
  simp only
  rw [k, k']
  unfold cpuAlphaPixel avx2AlphaPixel vecAlphaPixel planarVecPixel vecPixel vecPixelAt
  simp only [Bool.false_eq_true, if_false]
  rw [(layout_colours ..).1, (layout_colours ..).2.1, (layout_colours ..).2.2,
    (layout_colours ..).1, (layout_colours ..).2.1, (layout_colours ..).2.2]
  exact ⟨rfl, rfl, rfl⟩

/-- C68: straight decoding of an image whose luma is not below black gives on any two processors
red and blue within two and green within three code values of each other.  (The SSE4.1 kernel of this
decoder has no 8-pixel steps, so the exception of C53 for luma 128…143 does not arise.) -/
theorem c68_straight_agreement (cpu cpu' : Cpu) (ch : Channels) (hch : ch = .rgba ∨ ch = .bgra)
    (s : Sampling) (i : PlanarAlpha) (dst : Buf) (stride : Nat) (rg : YuvRange) (m : Matrix)
    (hi : GoodPlanarAlpha i s 256) (hdst : GoodDst dst.length stride i.width i.height ch.count)
    (hblack : ∀ x y, x < i.width → y < i.height →
      (getYuvRange 8 rg).biasY ≤ Planar.Y (opaqueImage i) x y) :
    ∃ out out', yuvAlphaToRgbxOn cpu ch s i dst stride rg m false = .ok out ∧
      yuvAlphaToRgbxOn cpu' ch s i dst stride rg m false = .ok out' ∧
      ∀ x y, x < i.width → y < i.height →
        let p := pixelAt out stride ch.count x y
        let q := pixelAt out' stride ch.count x y
        (red ch p ≤ red ch q + 2 ∧ red ch q ≤ red ch p + 2) ∧
        (green ch p ≤ green ch q + 3 ∧ green ch q ≤ green ch p + 3) ∧
        (blue ch p ≤ blue ch q + 2 ∧ blue ch q ≤ blue ch p + 2) := by
  obtain ⟨out, e, h⟩ := c68_x86_alpha cpu ch hch s i dst stride rg m false hi hdst
  obtain ⟨out', e', h'⟩ := c68_x86_alpha cpu' ch hch s i dst stride rg m false hi hdst
  refine ⟨out, out', e, e', fun x y hx hy => ?_⟩
  obtain ⟨b1, b2, b3⟩ := hi.opaque.sample_lt hx hy
  obtain ⟨r, g, b, e1, h1, h2, h3⟩ := decodeRGB_close rg m b1 b2 b3
  obtain ⟨k1, k2, k3⟩ := vecRGB_close rg m b1 b2 b3
  have hm : max (Planar.Y (opaqueImage i) x y : Rat) ((getYuvRange 8 rg).biasY : Rat)
      = Planar.Y (opaqueImage i) x y := max_eq_left (by exact_mod_cast hblack x y hx hy)
  rw [hm] at k1 k2 k3
  have n1 := near_int k1 h1 (n := 2) (by norm_num)
  have n2 := near_int k2 h2 (n := 3) (by norm_num)
  have n3 := near_int k3 h3 (n := 2) (by norm_num)
  generalize hV : vecRGB (searchInverse 13 8 rg m)
    (Planar.Y (opaqueImage i) x y - (getYuvRange 8 rg).biasY) (Planar.U (opaqueImage i) s x y)
    (Planar.V (opaqueImage i) s x y) = V at n1 n2 n3
  have S : alphaPlanePixel false ch s i rg m x y = layout ch r g b (alphaAt i x y) := by
    unfold alphaPlanePixel alphaPixel; simp only [e1]; rfl
  have W : ∀ k, vecAlphaPixel k false ch rg m (alphaAt i x y) (Planar.Y (opaqueImage i) x y)
      (Planar.U (opaqueImage i) s x y) (Planar.V (opaqueImage i) s x y)
      = layout ch V.1 V.2.1 V.2.2 (alphaAt i x y) := by
    intro k; rw [← hV]; rfl
  have cases' : ∀ c, cpuAlphaPixel c false ch s i rg m x y = layout ch r g b (alphaAt i x y) ∨
      cpuAlphaPixel c false ch s i rg m x y = layout ch V.1 V.2.1 V.2.2 (alphaAt i x y) := by
    intro c
    cases c with
    | plain => exact .inl S
    | avx2 => exact .inr (W _)
    | sse41 =>
      unfold cpuAlphaPixel sseAlphaPixel
      simp only
      split
      · exact .inr (W _)
      · exact .inl S
  have len : ∀ c, (cpuAlphaPixel c false ch s i rg m x y).length = ch.count := by
    intro c; rcases cases' c with h | h <;> rw [h] <;> exact layout_length ..
  simp only
  rw [frameSpec_pixel h hx hy (len _), frameSpec_pixel h' hx hy (len _)]
  rcases cases' cpu with q | q <;> rcases cases' cpu' with q' | q' <;> rw [q, q'] <;>
    simp only [(layout_colours ..).1, (layout_colours ..).2.1, (layout_colours ..).2.2] <;> omega

/-! ## C69 -/

/-- C69, what holds: on every processor a premultiplied component is within one of the straight
component times alpha over 255 — for all components without vector code and in the 32-pixel steps of
AVX2, elsewhere for the components that are not saturated (`PremulSafe`).
Missing: saturated components in the last pixels of a row on AVX2 and in the 16-pixel steps on
SSE4.1, where the claim is false. -/
theorem c69_premultiplied_partial (cpu : Cpu) (ch : Channels) (hch : ch = .rgba ∨ ch = .bgra)
    (s : Sampling) (i : PlanarAlpha) (dst : Buf) (stride : Nat) (rg : YuvRange) (m : Matrix)
    (hi : GoodPlanarAlpha i s 256) (hdst : GoodDst dst.length stride i.width i.height ch.count) :
    ∃ out straight, yuvAlphaToRgbxOn cpu ch s i dst stride rg m true = .ok out ∧
      yuvAlphaToRgbxOn cpu ch s i dst stride rg m false = .ok straight ∧
      ∀ x y, x < i.width → y < i.height → ∀ c ∈ [red ch, green ch, blue ch],
        let p := c (pixelAt out stride ch.count x y)
        let q := c (pixelAt straight stride ch.count x y)
        PremulSafe cpu i.width x q →
          p ≤ premul q (alphaAt i x y) + 1 ∧ premul q (alphaAt i x y) ≤ p + 1 := by
  obtain ⟨out, straight, e, e', h⟩ := x86_alpha_pair cpu ch hch s i dst stride rg m hi hdst
  exact ⟨out, straight, e, e', fun x y hx hy c hc => ((h x y hx hy).1 c hc).near⟩

/-- C69: on every processor fully transparent pixels are black when premultiplied, without
exception. -/
theorem c69_transparent_is_black (cpu : Cpu) (ch : Channels) (hch : ch = .rgba ∨ ch = .bgra)
    (s : Sampling) (i : PlanarAlpha) (dst : Buf) (stride : Nat) (rg : YuvRange) (m : Matrix)
    (hi : GoodPlanarAlpha i s 256) (hdst : GoodDst dst.length stride i.width i.height ch.count) :
    ∃ out, yuvAlphaToRgbxOn cpu ch s i dst stride rg m true = .ok out ∧
      ∀ x y, x < i.width → y < i.height → alphaAt i x y = 0 →
        ∀ c ∈ [red ch, green ch, blue ch, alphaOr 0 ch], c (pixelAt out stride ch.count x y) = 0 := by
  obtain ⟨out, straight, e, _, h⟩ := x86_alpha_pair cpu ch hch s i dst stride rg m hi hdst
  refine ⟨out, e, fun x y hx hy ha c hc => ?_⟩
  obtain ⟨h1, h2, _⟩ := h x y hx hy
  simp only [List.mem_cons, List.not_mem_nil, or_false] at hc
  rcases hc with rfl | rfl | rfl | rfl
  · exact (h1 _ (by simp)).clear ha
  · exact (h1 _ (by simp)).clear ha
  · exact (h1 _ (by simp)).clear ha
  · exact h2.trans ha

/-- A row of 33 equal samples, 4:4:4. -/
def flat33 (y u v a : Nat) : PlanarAlpha :=
  ⟨List.replicate 33 y, 33, List.replicate 33 u, 33, List.replicate 33 v, 33, List.replicate 33 a, 33,
    33, 1⟩

theorem flat33_good {y u v a : Nat} (hy : y < 256) (hu : u < 256) (hv : v < 256) (ha : a < 256) :
    GoodPlanarAlpha (flat33 y u v a) .yuv444 256 where
  wpos := by simp [flat33]
  hpos := by simp [flat33]
  w32 := by unfold U32; simp [flat33]
  h32 := by unfold U32; simp [flat33]
  y := ⟨by unfold U32; simp [flat33], by simp [flat33], by unfold FullRows; simp [flat33],
    fun s hs => by rw [(List.mem_replicate.1 hs).2]; exact hy⟩
  u := ⟨by unfold U32; simp [flat33], by simp [flat33, cover, hdiv],
    by unfold FullRows; simp [flat33, cover, vdiv],
    fun s hs => by rw [(List.mem_replicate.1 hs).2]; exact hu⟩
  v := ⟨by unfold U32; simp [flat33], by simp [flat33, cover, hdiv],
    by unfold FullRows; simp [flat33, cover, vdiv],
    fun s hs => by rw [(List.mem_replicate.1 hs).2]; exact hv⟩
  a := ⟨by unfold U32; simp [flat33], by simp [flat33], by unfold FullRows; simp [flat33],
    fun s hs => by rw [(List.mem_replicate.1 hs).2]; exact ha⟩

/-- Decoding that row into RGBA: the first 32 pixels are `p`, the last is `q`. -/
def Flat33Gives (cpu : Cpu) (pm : Bool) (y u v a : Nat) (p q : Buf) : Prop :=
  ∃ out, yuvAlphaToRgbxOn cpu .rgba .yuv444 (flat33 y u v a) (List.replicate 132 7) 132 .limited
      .bt709 pm = .ok out ∧
    (∀ x, x < 32 → pixelAt out 132 4 x 0 = p) ∧ pixelAt out 132 4 32 0 = q

theorem flat33_gives {cpu : Cpu} {pm : Bool} {y u v a : Nat} {p q : Buf} (hy : y < 256) (hu : u < 256)
    (hv : v < 256) (ha : a < 256)
    (h1 : ∀ x, x < 32 →
      cpuAlphaPixel cpu pm .rgba .yuv444 (flat33 y u v a) .limited .bt709 x 0 = p)
    (h2 : cpuAlphaPixel cpu pm .rgba .yuv444 (flat33 y u v a) .limited .bt709 32 0 = q)
    (hp : p.length = 4) (hq : q.length = 4) : Flat33Gives cpu pm y u v a p q := by
  obtain ⟨out, e, h⟩ := c68_x86_alpha cpu .rgba (.inl rfl) .yuv444 (flat33 y u v a)
    (List.replicate 132 7) 132 .limited .bt709 pm (flat33_good hy hu hv ha)
    ⟨by unfold U32; decide, by simp [flat33, Channels.count], by unfold FullRows; simp [flat33], by simp⟩
  refine ⟨out, e, fun x hx => ?_, ?_⟩
  · have := frameSpec_pixel h (x := x) (y := 0) (by simp [flat33]; omega) (by simp [flat33])
      (by rw [h1 x hx]; exact hp)
    rw [h1 x hx] at this
    exact this
  · have := frameSpec_pixel h (x := 32) (y := 0) (by simp [flat33]) (by simp [flat33])
      (by rw [h2]; exact hq)
    rw [h2] at this
    exact this

/-- C69 fails on SSE4.1: premultiplying opaque white gives opaque black, except in the last pixel. -/
theorem c69_sse_white_is_black :
    Flat33Gives .sse41 true 235 128 128 255 [0, 0, 0, 255] [255, 255, 255, 255] ∧
    Flat33Gives .plain true 235 128 128 255 [255, 255, 255, 255] [255, 255, 255, 255] :=
  ⟨flat33_gives (by decide) (by decide) (by decide) (by decide) (by decide +kernel)
    (by decide +kernel) rfl rfl,
   flat33_gives (by decide) (by decide) (by decide) (by decide) (by decide +kernel)
    (by decide +kernel) rfl rfl⟩

/-- … and saturated-to-zero components come back: red and blue 0 become 175 and 147. -/
theorem c69_sse_zero_comes_back :
    Flat33Gives .sse41 true 100 16 16 200 [175, 143, 147, 200] [0, 142, 0, 200] ∧
    Flat33Gives .sse41 false 100 16 16 200 [0, 182, 0, 200] [0, 181, 0, 200] :=
  ⟨flat33_gives (by decide) (by decide) (by decide) (by decide) (by decide +kernel)
    (by decide +kernel) rfl rfl,
   flat33_gives (by decide) (by decide) (by decide) (by decide) (by decide +kernel)
    (by decide +kernel) rfl rfl⟩

/-- C69 fails on AVX2 in the last pixels of a row: red 255 times 200/255 is 199 in the first 32
pixels, 101 in the last. -/
theorem c69_avx2_tail_wraps :
    Flat33Gives .avx2 true 235 128 240 200 [199, 153, 199, 200] [101, 153, 200, 200] :=
  flat33_gives (by decide) (by decide) (by decide) (by decide) (by decide +kernel)
    (by decide +kernel) rfl rfl

/-! ## C70 -/

/-- C70, what holds: on every processor a premultiplied component does not exceed alpha, with the
exceptions of `PremulSafe`.
Missing: those exceptions, where the claim is false. -/
theorem c70_colour_le_alpha_partial (cpu : Cpu) (ch : Channels) (hch : ch = .rgba ∨ ch = .bgra)
    (s : Sampling) (i : PlanarAlpha) (dst : Buf) (stride : Nat) (rg : YuvRange) (m : Matrix)
    (hi : GoodPlanarAlpha i s 256) (hdst : GoodDst dst.length stride i.width i.height ch.count) :
    ∃ out straight, yuvAlphaToRgbxOn cpu ch s i dst stride rg m true = .ok out ∧
      yuvAlphaToRgbxOn cpu ch s i dst stride rg m false = .ok straight ∧
      ∀ x y, x < i.width → y < i.height → ∀ c ∈ [red ch, green ch, blue ch],
        PremulSafe cpu i.width x (c (pixelAt straight stride ch.count x y)) →
          c (pixelAt out stride ch.count x y) ≤ alphaOr 0 ch (pixelAt out stride ch.count x y) := by
  obtain ⟨out, straight, e, e', h⟩ := x86_alpha_pair cpu ch hch s i dst stride rg m hi hdst
  refine ⟨out, straight, e, e', fun x y hx hy c hc hs => ?_⟩
  obtain ⟨h1, h2, _⟩ := h x y hx hy
  exact le_of_le_of_eq ((h1 c hc).le hs) h2.symm

/-- C70, what holds of opaque pixels: premultiplication changes nothing, with the exceptions of
`PremulSafe`, and except that on AVX2 components from 128 up lose one.
Missing: those exceptions, where the claim is false. -/
theorem c70_opaque_unchanged_partial (cpu : Cpu) (ch : Channels) (hch : ch = .rgba ∨ ch = .bgra)
    (s : Sampling) (i : PlanarAlpha) (dst : Buf) (stride : Nat) (rg : YuvRange) (m : Matrix)
    (hi : GoodPlanarAlpha i s 256) (hdst : GoodDst dst.length stride i.width i.height ch.count) :
    ∃ out straight, yuvAlphaToRgbxOn cpu ch s i dst stride rg m true = .ok out ∧
      yuvAlphaToRgbxOn cpu ch s i dst stride rg m false = .ok straight ∧
      ∀ x y, x < i.width → y < i.height → alphaAt i x y = 255 → ∀ c ∈ [red ch, green ch, blue ch],
        let p := c (pixelAt out stride ch.count x y)
        let q := c (pixelAt straight stride ch.count x y)
        PremulSafe cpu i.width x q → p = q ∨ (cpu = .avx2 ∧ 128 ≤ q ∧ p + 1 = q) := by
  obtain ⟨out, straight, e, e', h⟩ := x86_alpha_pair cpu ch hch s i dst stride rg m hi hdst
  exact ⟨out, straight, e, e', fun x y hx hy ha c hc hs => ((h x y hx hy).1 c hc).same hs ha⟩

/-- C70 fails on SSE4.1: blue 201 with alpha 200. -/
theorem c70_sse_exceeds_alpha :
    Flat33Gives .sse41 true 235 128 240 200 [101, 154, 201, 200] [200, 153, 200, 200] :=
  flat33_gives (by decide) (by decide) (by decide) (by decide) (by decide +kernel)
    (by decide +kernel) rfl rfl

/-- C70 fails on AVX2: premultiplying opaque white gives 254. -/
theorem c70_avx2_opaque_changes :
    Flat33Gives .avx2 true 235 128 128 255 [254, 254, 254, 255] [255, 255, 255, 255] ∧
    Flat33Gives .avx2 false 235 128 128 255 [255, 255, 255, 255] [255, 255, 255, 255] :=
  ⟨flat33_gives (by decide) (by decide) (by decide) (by decide) (by decide +kernel)
    (by decide +kernel) rfl rfl,
   flat33_gives (by decide) (by decide) (by decide) (by decide) (by decide +kernel)
    (by decide +kernel) rfl rfl⟩

/-- The hypotheses of C68–C70 are met by `demoAlpha`; on a wide row some components are safe, with
alpha neither 0 nor 255. -/
example : GoodPlanarAlpha demoAlpha .yuv420 256 ∧ GoodDst (List.replicate 39 7).length 13 3 3 4 ∧
    (∀ x y, x < 3 → y < 3 → (getYuvRange 8 .limited).biasY ≤ Planar.Y (opaqueImage demoAlpha) x y) :=
  ⟨demoAlpha_good, ⟨by unfold U32; decide, by decide, by unfold FullRows; decide, by decide⟩, by
    have : ∀ x, x < 3 → ∀ y, y < 3 →
      (getYuvRange 8 .limited).biasY ≤ Planar.Y (opaqueImage demoAlpha) x y := by decide
    exact fun x y hx hy => this x hx y hy⟩
example : GoodPlanarAlpha (flat33 100 128 128 200) .yuv444 256 ∧
    Flat33Gives .sse41 false 100 128 128 200 [98, 98, 98, 200] [98, 98, 98, 200] ∧
    Flat33Gives .sse41 true 100 128 128 200 [77, 77, 77, 200] [77, 77, 77, 200] ∧
    Flat33Gives .avx2 true 100 128 128 200 [76, 76, 76, 200] [76, 76, 76, 200] ∧
    PremulSafe .sse41 33 5 98 ∧ PremulSafe .avx2 33 32 98 :=
  ⟨flat33_good (by decide) (by decide) (by decide) (by decide),
   flat33_gives (by decide) (by decide) (by decide) (by decide) (by decide +kernel)
    (by decide +kernel) rfl rfl,
   flat33_gives (by decide) (by decide) (by decide) (by decide) (by decide +kernel)
    (by decide +kernel) rfl rfl,
   flat33_gives (by decide) (by decide) (by decide) (by decide) (by decide +kernel)
    (by decide +kernel) rfl rfl,
   by simp [PremulSafe], by simp [PremulSafe]⟩

end Verif
