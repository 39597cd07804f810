import Verif.Lemmas.X86Ayuv
import Verif.Props.Packed444
import Verif.Props.X86Alpha
/-!
# C80, C81: packed 4:4:4 with alpha on x86 processors
-/
namespace Verif
open Spec X86

/-- What the image must satisfy: positive 32-bit size, room for every packed pixel, bytes. -/
structure GoodPacked444 (i : Packed) : Prop where
  wpos : 0 < i.width
  hpos : 0 < i.height
  w32 : U32 i.width
  h32 : U32 i.height
  src : GoodDst i.yuy.length i.yuyStride i.width i.height 4
  bytes : Bytes i.yuy

/-- The packed pixel at `(x, y)`: luma, Cb, Cr, alpha. -/
def Spec.packedAt (f : Packed444) (i : Packed) (x y : Nat) : Nat × Nat × Nat × Nat :=
  samples444 f (pixelAt i.yuy i.yuyStride 4 x y)

/-- The pixel at `(x, y)` on each class of processor. -/
def Spec.cpuPackedPixel (cpu : Cpu) (pm : Bool) (f : Packed444) (ch : Channels) (i : Packed)
    (rg : YuvRange) (m : Matrix) (x y : Nat) : Buf :=
  let px := pixelAt i.yuy i.yuyStride 4 x y
  match cpu with
  | .avx2 => avx2PackedPixel pm f ch rg m i.width x px
  | _ => packedPixel pm f ch rg m px

/-! ## C80 -/

/-- C80: on every class of x86 processor the packed 4:4:4 decoders succeed on every good image and
destination — no load or store of the vector code leaves its slice — and write exactly the pixels of
the image, each determined by its packed samples and (for the choice between two arithmetics) its
column. -/
theorem c80_x86_packed (cpu : Cpu) (f : Packed444) (ch : Channels) (i : Packed) (dst : Buf)
    (stride : Nat) (rg : YuvRange) (m : Matrix) (pm : Bool) (hi : GoodPacked444 i)
    (hd : GoodDst dst.length stride i.width i.height ch.count) :
    ∃ out, ayuvToRgbxOn cpu f ch i dst stride rg m pm = .ok out ∧
      FrameSpec out dst stride i.width i.height ch.count (cpuPackedPixel cpu pm f ch i rg m) := by
  have hb : (getYuvRange 8 rg).biasUv = 128 := by cases rg <;> rfl
  have hby : (getYuvRange 8 rg).biasY < 256 := by cases rg <;> decide
  have hg : ∀ s ∈ [(⟨i.yuy, i.yuyStride, 4, true⟩ : Src)], GoodSrc s i.width i.height 256 := by
    intro s hs'
    rw [List.mem_singleton] at hs'
    subst hs'
    exact goodSrc_packed (by decide) hi.src hi.bytes
  unfold ayuvToRgbxOn ayuvToRgbx
  rw [hi.src.accepted hi.wpos hi.hpos hi.w32 hi.h32 (by decide) (by decide),
    hd.accepted hi.wpos hi.hpos hi.w32 hi.h32 (count_pos ch) (count_le ch)]
  simp only [Outcome.bind_ok]
  have hh := ayuvHandler_fills (s := ⟨i.yuy, i.yuyStride, 4, true⟩) cpu pm f ch hi.wpos hb hby
    (show Coef16 (searchInverse 13 8 rg m).castI16 by rw [castI16_search]; exact coef16_search rg m)
    rfl (packedPixel pm f ch rg m)
  obtain ⟨out, e, h⟩ := mapFrame_cols (cutDst := true) hi.wpos (count_pos ch) hg
    (ayuvBody_ok (pm := pm) (f := f) (ch := ch) (rg := rg) (m := m) rfl) hh hd.cols_le
    hd.full (Or.inl rfl)
  refine ⟨out, e, frameRel_eq ⟨h.1, fun x y hx hy => ?_, h.2.2⟩⟩
  have := h.2.1 x y hx hy
  simp only [pixelsAt, List.map_cons, List.map_nil, List.getD_cons_zero, castI16_search] at this
  rw [this]
  cases cpu <;> rfl

/-- Processors with SSE4.1 only, and with no vector extension, run the scalar code. -/
theorem c80_sse_is_scalar (f : Packed444) (ch : Channels) (i : Packed) (dst : Buf) (stride : Nat)
    (rg : YuvRange) (m : Matrix) (pm : Bool) :
    ayuvToRgbxOn .sse41 f ch i dst stride rg m pm = ayuvToRgbx x64 f ch noMap i dst stride rg m pm ∧
    ayuvToRgbxOn .plain f ch i dst stride rg m pm = ayuvToRgbx x64 f ch noMap i dst stride rg m pm :=
  ⟨rfl, rfl⟩

theorem packedAt_lt {f : Packed444} {i : Packed} (hi : GoodPacked444 i) (x y : Nat) :
    (packedAt f i x y).1 < 256 ∧ (packedAt f i x y).2.1 < 256 ∧ (packedAt f i x y).2.2.1 < 256 ∧
      (packedAt f i x y).2.2.2 < 256 :=
  samples444_lt f (bnd_take (bnd_drop hi.bytes))

/-- The components a premultiplication treats correctly: all of them without vector code and in
the 32-pixel steps of AVX2; in the last pixels of a row on AVX2 (at most 32, all of them in a narrow
image) those whose straight value is neither 0 nor 255. -/
def Spec.PackedSafe (cpu : Cpu) (w x c : Nat) : Prop :=
  cpu = .avx2 → x < 32 * ((w - 1) / 32) ∨ (0 < c ∧ c < 255)

/-- What is known of the premultiplied component `c'` where the straight one is `c`. -/
structure PackedRel (cpu : Cpu) (w x a c c' : Nat) : Prop where
  clear : a = 0 → c' = 0
  near : PackedSafe cpu w x c → c' ≤ premul c a + 1 ∧ premul c a ≤ c' + 1
  le : PackedSafe cpu w x c → c' ≤ a
  same : PackedSafe cpu w x c → a = 255 → c' = c ∨ (cpu = .avx2 ∧ 128 ≤ c ∧ c' + 1 = c)

theorem packed_scalar_rel (cpu : Cpu) (w x : Nat) {a c : Nat} (hc : c < 256) :
    PackedRel cpu w x a c (premul c a) := by
  have h := premul_rel .plain w x (a := a) hc
  exact ⟨h.clear, fun _ => h.near trivial, fun _ => h.le trivial,
    fun _ ha => .inl ((h.same trivial ha).resolve_right fun h => nomatch h.1)⟩

theorem packed_avx2_rel (w x : Nat) {a : Nat} (ha : a < 256) (s : Int) :
    PackedRel .avx2 w x a (byteSat s) (vecPremul (ayuvKind w x) s a) := by
  have hc := byteSat_lt s
  obtain ⟨r1, r2, r3, r4⟩ := avx2Div_rel ha hc
  unfold ayuvKind
  by_cases hx : x < 32 * ((w - 1) / 32)
  · rw [if_pos hx]
    exact ⟨r1, fun _ => r2, fun _ => r3, fun _ h => (r4 h).imp_right fun h => ⟨rfl, h⟩⟩
  · rw [if_neg hx]
    have key : PackedSafe .avx2 w x (byteSat s) → vecPremul .avx2Raw s a = avx2Div (byteSat s * a) := by
      intro h
      have h := (h rfl).resolve_left hx
      have : s = (byteSat s : Int) := by unfold byteSat at h ⊢; omega
      have e := wrap16_mul ha hc
      rw [← this] at e
      show avx2Div (wrap16 (s * a)) = _
      rw [e]
    refine ⟨?_, fun h => by rw [key h]; exact r2, fun h => by rw [key h]; exact r3,
      fun h h' => by rw [key h]; exact (r4 h').imp_right fun h => ⟨rfl, h⟩⟩
    rintro rfl
    simp [vecPremul, wrap16, avx2Div]

/-- The straight and the premultiplied pixel. -/
theorem cpuPackedPixel_pair (cpu : Cpu) (f : Packed444) (ch : Channels) (i : Packed)
    (rg : YuvRange) (m : Matrix) (hi : GoodPacked444 i) (x y : Nat) :
    ∃ r g b r' g' b',
      cpuPackedPixel cpu false f ch i rg m x y = layout ch r g b (packedAt f i x y).2.2.2 ∧
      cpuPackedPixel cpu true f ch i rg m x y = layout ch r' g' b' (packedAt f i x y).2.2.2 ∧
      PackedRel cpu i.width x (packedAt f i x y).2.2.2 r r' ∧
      PackedRel cpu i.width x (packedAt f i x y).2.2.2 g g' ∧
      PackedRel cpu i.width x (packedAt f i x y).2.2.2 b b' := by
  obtain ⟨-, -, -, ha⟩ := packedAt_lt (f := f) hi x y
  have scal : ∃ r g b r' g' b',
      packedPixel false f ch rg m (pixelAt i.yuy i.yuyStride 4 x y)
        = layout ch r g b (packedAt f i x y).2.2.2 ∧
      packedPixel true f ch rg m (pixelAt i.yuy i.yuyStride 4 x y)
        = layout ch r' g' b' (packedAt f i x y).2.2.2 ∧
      PackedRel cpu i.width x (packedAt f i x y).2.2.2 r r' ∧
      PackedRel cpu i.width x (packedAt f i x y).2.2.2 g g' ∧
      PackedRel cpu i.width x (packedAt f i x y).2.2.2 b b' := by
    have hlt : ∀ s : Int, (max (min ((s + (2 ^ (13 - 1) - 1)) / 2 ^ 13) (2 ^ 8 - 1)) 0).toNat < 256 := by
      intro s; norm_num
    exact ⟨_, _, _, _, _, _, rfl, rfl, packed_scalar_rel _ _ _ (hlt _), packed_scalar_rel _ _ _ (hlt _),
      packed_scalar_rel _ _ _ (hlt _)⟩
  cases cpu with
  | plain => exact scal
  | sse41 => exact scal
  | avx2 =>
    exact ⟨_, _, _, _, _, _, rfl, rfl, packed_avx2_rel _ _ ha _, packed_avx2_rel _ _ ha _,
      packed_avx2_rel _ _ ha _⟩

/-- Straight and premultiplied decoding of one image on one processor, pixel by pixel. -/
theorem x86_packed_pair (cpu : Cpu) (f : Packed444) (ch : Channels) (i : Packed) (dst : Buf)
    (stride : Nat) (rg : YuvRange) (m : Matrix) (hi : GoodPacked444 i)
    (hd : GoodDst dst.length stride i.width i.height ch.count) :
    ∃ out straight, ayuvToRgbxOn cpu f ch i dst stride rg m true = .ok out ∧
      ayuvToRgbxOn cpu f ch i dst stride rg m false = .ok straight ∧
      ∀ x y, x < i.width → y < i.height →
        let a := (packedAt f i x y).2.2.2
        let p := pixelAt out stride ch.count x y
        let q := pixelAt straight stride ch.count x y
        (∀ c ∈ [red ch, green ch, blue ch], PackedRel cpu i.width x a (c q) (c p)) ∧
        alphaOr a ch p = a ∧ alphaOr a ch q = a := by
  obtain ⟨out, e, h⟩ := c80_x86_packed cpu f ch i dst stride rg m true hi hd
  obtain ⟨straight, e', h'⟩ := c80_x86_packed cpu f ch i dst stride rg m false hi hd
  refine ⟨out, straight, e, e', fun x y hx hy => ?_⟩
  obtain ⟨r, g, b, r', g', b', q1, q2, p1, p2, p3⟩ := cpuPackedPixel_pair cpu f ch i rg m hi x y
  have k := frameSpec_pixel h hx hy (by rw [q2]; exact layout_length ..)
  have k' := frameSpec_pixel h' hx hy (by rw [q1]; exact layout_length ..)
  simp only
  rw [k, k', q1, q2]
  refine ⟨?_, by cases ch <;> rfl, by cases ch <;> rfl⟩
  intro c hc
  simp only [List.mem_cons, List.not_mem_nil, or_false] at hc
  rcases hc with rfl | rfl | rfl
  · rw [(layout_colours ..).1, (layout_colours ..).1]; exact p1
  · rw [(layout_colours ..).2.1, (layout_colours ..).2.1]; exact p2
  · rw [(layout_colours ..).2.2, (layout_colours ..).2.2]; exact p3

/-- C80: the fourth component of every pixel (if the layout has one) is the alpha of its packed
pixel, on every processor, premultiplied or not. -/
theorem c80_alpha_stored (cpu : Cpu) (f : Packed444) (ch : Channels) (i : Packed) (dst : Buf)
    (stride : Nat) (rg : YuvRange) (m : Matrix) (pm : Bool) (hi : GoodPacked444 i)
    (hd : GoodDst dst.length stride i.width i.height ch.count) :
    ∃ out, ayuvToRgbxOn cpu f ch i dst stride rg m pm = .ok out ∧
      ∀ x y, x < i.width → y < i.height →
        let a := (packedAt f i x y).2.2.2
        alphaOr a ch (pixelAt out stride ch.count x y) = a := by
  obtain ⟨out, straight, e, e', h⟩ := x86_packed_pair cpu f ch i dst stride rg m hi hd
  cases pm with
  | true => exact ⟨out, e, fun x y hx hy => (h x y hx hy).2.1⟩
  | false => exact ⟨straight, e', fun x y hx hy => (h x y hx hy).2.2⟩

/-- C80: straight decoding of an image whose luma is not below black gives on any two processors
red and blue within two and green within three code values of each other. -/
theorem c80_straight_agreement (cpu cpu' : Cpu) (f : Packed444) (ch : Channels) (i : Packed)
    (dst : Buf) (stride : Nat) (rg : YuvRange) (m : Matrix) (hi : GoodPacked444 i)
    (hd : GoodDst dst.length stride i.width i.height ch.count)
    (hblack : ∀ x y, x < i.width → y < i.height → (getYuvRange 8 rg).biasY ≤ (packedAt f i x y).1) :
    ∃ out out', ayuvToRgbxOn cpu f ch i dst stride rg m false = .ok out ∧
      ayuvToRgbxOn cpu' f ch i dst stride rg m false = .ok out' ∧
      ∀ x y, x < i.width → y < i.height →
        let p := pixelAt out stride ch.count x y
        let q := pixelAt out' stride ch.count x y
        (red ch p ≤ red ch q + 2 ∧ red ch q ≤ red ch p + 2) ∧
        (green ch p ≤ green ch q + 3 ∧ green ch q ≤ green ch p + 3) ∧
        (blue ch p ≤ blue ch q + 2 ∧ blue ch q ≤ blue ch p + 2) := by
  obtain ⟨out, e, h⟩ := c80_x86_packed cpu f ch i dst stride rg m false hi hd
  obtain ⟨out', e', h'⟩ := c80_x86_packed cpu' f ch i dst stride rg m false hi hd
  refine ⟨out, out', e, e', fun x y hx hy => ?_⟩
  obtain ⟨b1, b2, b3, b4⟩ := packedAt_lt (f := f) hi x y
  have hbk := hblack x y hx hy
  generalize hS : packedAt f i x y = S at *
  obtain ⟨Y, U, V, A⟩ := S
  simp only at b1 b2 b3 b4 hbk
  obtain ⟨r, g, b, e1, h1, h2, h3⟩ := decodeRGB_close rg m b1 b2 b3
  obtain ⟨k1, k2, k3⟩ := vecRGB_close rg m b1 b2 b3
  have hm : max (Y : Rat) ((getYuvRange 8 rg).biasY : Rat) = Y := max_eq_left (by exact_mod_cast hbk)
  rw [hm] at k1 k2 k3
  have n1 := near_int k1 h1 (n := 2) (by norm_num)
  have n2 := near_int k2 h2 (n := 3) (by norm_num)
  have n3 := near_int k3 h3 (n := 2) (by norm_num)
  generalize hV : vecRGB (searchInverse 13 8 rg m) (Y - (getYuvRange 8 rg).biasY) U V = W
    at n1 n2 n3
  have cases' : ∀ c, cpuPackedPixel c false f ch i rg m x y = layout ch r g b A ∨
      cpuPackedPixel c false f ch i rg m x y = layout ch W.1 W.2.1 W.2.2 A := by
    have S : packedPixel false f ch rg m (pixelAt i.yuy i.yuyStride 4 x y) = layout ch r g b A := by
      unfold packedPixel
      rw [show samples444 f (pixelAt i.yuy i.yuyStride 4 x y) = (Y, U, V, A) from hS]
      unfold alphaPixel; simp only [e1]; rfl
    intro c
    cases c with
    | plain => exact .inl S
    | sse41 => exact .inl S
    | avx2 =>
      refine .inr ?_
      unfold cpuPackedPixel avx2PackedPixel
      simp only
      rw [show samples444 f (pixelAt i.yuy i.yuyStride 4 x y) = (Y, U, V, A) from hS, ← hV]
      rfl
  have len : ∀ c, (cpuPackedPixel c false f ch i rg m x y).length = ch.count := by
    intro c; rcases cases' c with h | h <;> rw [h] <;> exact layout_length ..
  simp only
  rw [frameSpec_pixel h hx hy (len _), frameSpec_pixel h' hx hy (len _)]
  rcases cases' cpu with q | q <;> rcases cases' cpu' with q' | q' <;> rw [q, q'] <;>
    simp only [(layout_colours ..).1, (layout_colours ..).2.1, (layout_colours ..).2.2] <;> omega

/-! ## C81 -/

/-- C81, what holds: on every processor a premultiplied component is within one of the straight
component times alpha over 255 — for all components without vector code and in the 32-pixel steps of
AVX2, in the last pixels of a row on AVX2 for the components that are not saturated (`PackedSafe`).
Missing: the saturated components there, where the claim is false. -/
theorem c81_premultiplied_partial (cpu : Cpu) (f : Packed444) (ch : Channels) (i : Packed) (dst : Buf)
    (stride : Nat) (rg : YuvRange) (m : Matrix) (hi : GoodPacked444 i)
    (hd : GoodDst dst.length stride i.width i.height ch.count) :
    ∃ out straight, ayuvToRgbxOn cpu f ch i dst stride rg m true = .ok out ∧
      ayuvToRgbxOn cpu f ch i dst stride rg m false = .ok straight ∧
      ∀ x y, x < i.width → y < i.height → ∀ c ∈ [red ch, green ch, blue ch],
        let a := (packedAt f i x y).2.2.2
        let p := c (pixelAt out stride ch.count x y)
        let q := c (pixelAt straight stride ch.count x y)
        PackedSafe cpu i.width x q → p ≤ a ∧ p ≤ premul q a + 1 ∧ premul q a ≤ p + 1 := by
  obtain ⟨out, straight, e, e', h⟩ := x86_packed_pair cpu f ch i dst stride rg m hi hd
  exact ⟨out, straight, e, e', fun x y hx hy c hc hs =>
    ⟨((h x y hx hy).1 c hc).le hs, ((h x y hx hy).1 c hc).near hs⟩⟩

/-- C81, what holds of opaque pixels: premultiplication changes nothing, with the exceptions of
`PackedSafe`, and except that on AVX2 components from 128 up lose one.
Missing: those exceptions, where the claim is false. -/
theorem c81_opaque_unchanged_partial (cpu : Cpu) (f : Packed444) (ch : Channels) (i : Packed)
    (dst : Buf) (stride : Nat) (rg : YuvRange) (m : Matrix) (hi : GoodPacked444 i)
    (hd : GoodDst dst.length stride i.width i.height ch.count) :
    ∃ out straight, ayuvToRgbxOn cpu f ch i dst stride rg m true = .ok out ∧
      ayuvToRgbxOn cpu f ch i dst stride rg m false = .ok straight ∧
      ∀ x y, x < i.width → y < i.height → (packedAt f i x y).2.2.2 = 255 →
        ∀ c ∈ [red ch, green ch, blue ch],
        let p := c (pixelAt out stride ch.count x y)
        let q := c (pixelAt straight stride ch.count x y)
        PackedSafe cpu i.width x q → p = q ∨ (cpu = .avx2 ∧ 128 ≤ q ∧ p + 1 = q) := by
  obtain ⟨out, straight, e, e', h⟩ := x86_packed_pair cpu f ch i dst stride rg m hi hd
  exact ⟨out, straight, e, e', fun x y hx hy ha c hc hs => ((h x y hx hy).1 c hc).same hs ha⟩

/-- C81: on every processor fully transparent pixels are black when premultiplied, without
exception. -/
theorem c81_transparent_is_black (cpu : Cpu) (f : Packed444) (ch : Channels) (i : Packed) (dst : Buf)
    (stride : Nat) (rg : YuvRange) (m : Matrix) (hi : GoodPacked444 i)
    (hd : GoodDst dst.length stride i.width i.height ch.count) :
    ∃ out, ayuvToRgbxOn cpu f ch i dst stride rg m true = .ok out ∧
      ∀ x y, x < i.width → y < i.height → (packedAt f i x y).2.2.2 = 0 →
        ∀ c ∈ [red ch, green ch, blue ch], c (pixelAt out stride ch.count x y) = 0 := by
  obtain ⟨out, straight, e, _, h⟩ := x86_packed_pair cpu f ch i dst stride rg m hi hd
  exact ⟨out, e, fun x y hx hy ha c hc => ((h x y hx hy).1 c hc).clear ha⟩

/-- C81 for AVX2 without the exceptions: images wide enough that the column lies in a 32-pixel
step. -/
theorem c81_wide_columns (f : Packed444) (ch : Channels) (i : Packed) (dst : Buf)
    (stride : Nat) (rg : YuvRange) (m : Matrix) (hi : GoodPacked444 i)
    (hd : GoodDst dst.length stride i.width i.height ch.count) :
    ∃ out straight, ayuvToRgbxOn .avx2 f ch i dst stride rg m true = .ok out ∧
      ayuvToRgbxOn .avx2 f ch i dst stride rg m false = .ok straight ∧
      ∀ x y, x < i.width - 32 → y < i.height → ∀ c ∈ [red ch, green ch, blue ch],
        let a := (packedAt f i x y).2.2.2
        let p := c (pixelAt out stride ch.count x y)
        let q := c (pixelAt straight stride ch.count x y)
        p ≤ a ∧ p ≤ premul q a + 1 ∧ premul q a ≤ p + 1 := by
  obtain ⟨out, straight, e, e', h⟩ := c81_premultiplied_partial .avx2 f ch i dst stride rg m hi hd
  exact ⟨out, straight, e, e', fun x y hx hy c hc =>
    h x y (by omega) hy c hc fun _ => .inl (by omega)⟩

/-- One packed pixel. -/
def onePixel (l : Buf) : Packed := ⟨l, 4, 1, 1⟩

theorem onePixel_good {a b c d : Nat} (h : a < 256 ∧ b < 256 ∧ c < 256 ∧ d < 256) :
    GoodPacked444 (onePixel [a, b, c, d]) where
  wpos := Nat.one_pos
  hpos := Nat.one_pos
  w32 := by unfold U32; simp [onePixel]
  h32 := by unfold U32; simp [onePixel]
  src := ⟨by unfold U32; simp [onePixel], by simp [onePixel],
    by unfold FullRows; simp [onePixel], by simp [onePixel]⟩
  bytes := by
    intro s hs
    simp only [onePixel, List.mem_cons, List.not_mem_nil, or_false] at hs
    omega

theorem onePixel_gives (cpu : Cpu) (pm : Bool) {a b c d : Nat}
    (h : a < 256 ∧ b < 256 ∧ c < 256 ∧ d < 256) {p : Buf}
    (e : cpuPackedPixel cpu pm .ayuv .rgba (onePixel [a, b, c, d]) .limited .bt709 0 0 = p)
    (hp : p.length = 4) :
    ayuvToRgbxOn cpu .ayuv .rgba (onePixel [a, b, c, d]) [7, 7, 7, 7] 4 .limited .bt709 pm = .ok p := by
  obtain ⟨out, e', h⟩ := c80_x86_packed cpu .ayuv .rgba (onePixel [a, b, c, d]) [7, 7, 7, 7] 4 .limited
    .bt709 pm (onePixel_good h)
    ⟨by unfold U32; decide, Nat.le_refl 4, by unfold FullRows; simp [onePixel], by decide⟩
  have k := frameSpec_pixel h (x := 0) (y := 0) Nat.one_pos Nat.one_pos (by rw [e]; exact hp)
  rw [e] at k
  rw [e', ← k]
  have hl : out.length = 4 := h.1
  obtain ⟨_, _, _, _, rfl⟩ := length_four hl
  rfl

/-- C81 fails on AVX2, on a single pixel: red 255 times 200/255 is 101 instead of 200. -/
theorem c81_avx2_wraps :
    ayuvToRgbxOn .avx2 .ayuv .rgba (onePixel [200, 235, 128, 240]) [7, 7, 7, 7] 4 .limited .bt709 true
      = .ok [101, 153, 200, 200] ∧
    ayuvToRgbxOn .avx2 .ayuv .rgba (onePixel [200, 235, 128, 240]) [7, 7, 7, 7] 4 .limited .bt709 false
      = .ok [255, 196, 255, 200] ∧
    ayuvToRgbxOn .sse41 .ayuv .rgba (onePixel [200, 235, 128, 240]) [7, 7, 7, 7] 4 .limited .bt709 true
      = .ok [200, 153, 200, 200] :=
  ⟨onePixel_gives _ _ (by decide) (by decide +kernel) rfl,
   onePixel_gives _ _ (by decide) (by decide +kernel) rfl,
   onePixel_gives _ _ (by decide) (by decide +kernel) rfl⟩

/-- … and a component that is zero comes back: red 0 and blue 0 become 175 and 147 with alpha 200; red is
255, far above alpha, with alpha 1. -/
theorem c81_avx2_zero_comes_back :
    ayuvToRgbxOn .avx2 .ayuv .rgba (onePixel [200, 100, 16, 16]) [7, 7, 7, 7] 4 .limited .bt709 true
      = .ok [175, 142, 147, 200] ∧
    ayuvToRgbxOn .avx2 .ayuv .rgba (onePixel [200, 100, 16, 16]) [7, 7, 7, 7] 4 .limited .bt709 false
      = .ok [0, 182, 0, 200] ∧
    ayuvToRgbxOn .avx2 .ayuv .rgba (onePixel [1, 100, 16, 16]) [7, 7, 7, 7] 4 .limited .bt709 true
      = .ok [255, 0, 0, 1] ∧
    ayuvToRgbxOn .sse41 .ayuv .rgba (onePixel [1, 100, 16, 16]) [7, 7, 7, 7] 4 .limited .bt709 true
      = .ok [0, 1, 0, 1] :=
  ⟨onePixel_gives _ _ (by decide) (by decide +kernel) rfl,
   onePixel_gives _ _ (by decide) (by decide +kernel) rfl,
   onePixel_gives _ _ (by decide) (by decide +kernel) rfl,
   onePixel_gives _ _ (by decide) (by decide +kernel) rfl⟩

/-- The hypotheses of C80 and C81 are met, by a row in which some columns are in a 32-pixel step, and
some components are safe with alpha neither 0 nor 255. -/
def row40 : Packed := ⟨(List.range 40).flatMap fun x => [5 * x, 60 + x, 128, 120 + x], 160, 40, 1⟩

set_option maxRecDepth 8000 in
theorem row40_good : GoodPacked444 row40 where
  wpos := by decide
  hpos := by decide
  w32 := by unfold U32; decide
  h32 := by unfold U32; decide
  src := ⟨by unfold U32; decide, by decide, by unfold FullRows; decide, by decide⟩
  bytes := by unfold Bytes; decide

set_option maxRecDepth 8000 in
example : GoodPacked444 row40 ∧ GoodDst (List.replicate 160 0).length 160 40 1 4 ∧
    (∀ x y, x < 40 → y < 1 → (getYuvRange 8 .limited).biasY ≤ (packedAt .ayuv row40 x y).1) ∧
    PackedSafe .avx2 40 7 0 ∧ PackedSafe .avx2 40 35 98 ∧
    (packedAt .ayuv row40 35 0) = (95, 128, 155, 175) :=
  ⟨row40_good, ⟨by unfold U32; decide, by decide, by unfold FullRows; decide, by decide⟩, by
    have : ∀ x, x < 40 → ∀ y, y < 1 →
      (getYuvRange 8 .limited).biasY ≤ (packedAt .ayuv row40 x y).1 := by decide +kernel
    exact fun x y hx hy => this x hx y hy, by simp [PackedSafe], by simp [PackedSafe], by decide +kernel⟩
example : ayuvToRgbxOn .avx2 .ayuv .rgba (onePixel [200, 100, 128, 128]) [7, 7, 7, 7] 4 .limited .bt709
      true = .ok [76, 76, 76, 200] :=
  onePixel_gives _ _ (by decide) (by decide +kernel) rfl

end Verif
