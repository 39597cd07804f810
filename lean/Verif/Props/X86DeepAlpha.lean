import Verif.Lemmas.X86DeepAlpha8
import Verif.Props.X86Deep8
import Verif.Props.Alpha
/-!
# C87 to C90: planar 10- to 16-bit YCbCr with an alpha plane on x86 processors
-/
namespace Verif
open Spec X86

/-! ## C87 -/

/-- The pixel of native samples with alpha `a` in column `x` of a row of `w` pixels, on a processor:
at 10 and 12 bits vector code does all but the last one to eight columns. -/
def deepAlphaCpu (cpu : Cpu) (d : Nat) (ch : Channels) (rg : YuvRange) (m : Matrix) (w x a y u v : Nat) :
    Buf :=
  if cpu ≠ .plain ∧ d ≤ 12 ∧ x < vecCols 8 w then
    let c := deepAlphaRGB cpu d (getYuvRange d rg) (searchInverse 13 d rg m) w x y u v
    layout ch c.1 c.2.1 c.2.2 a
  else deepAlphaPixel (2 ^ 12 - 1) 13 13 d d ch rg m a y u v

/-- The pixel at `(x, y)` on a processor. -/
def deepAlphaCpuPixel (cpu : Cpu) (e : Endianness) (bp : BytesPacking) (d : Nat) (ch : Channels)
    (s : Sampling) (i : PlanarAlpha) (rg : YuvRange) (m : Matrix) (x y : Nat) : Buf :=
  let j := opaqueImage i
  deepAlphaCpu cpu d ch rg m i.width x (alphaAt i (deepAlphaSrc cpu d i.width x) y)
    (nativeSample e bp d (Planar.Y j x y)) (nativeSample e bp d (Planar.U j s x y))
    (nativeSample e bp d (Planar.V j s x y))

theorem deepAlphaCpu_length (cpu : Cpu) (d : Nat) (ch : Channels) (rg : YuvRange) (m : Matrix)
    (w x a y u v : Nat) : (deepAlphaCpu cpu d ch rg m w x a y u v).length = ch.count := by
  unfold deepAlphaCpu; split <;> exact layout_length' ..

/-- C87: on every class of x86 processor the decoders of images with an alpha plane to RGBA and BGRA
of the same depth succeed on every good image and destination, whatever the words stored in the
image — no load or store of the vector code leaves its slice — and write exactly the pixels of the
image, each the stated function of its column, the native samples shown at it and an alpha of its
row. -/
theorem c87_deep_alpha (cpu : Cpu) (e : Endianness) (bp : BytesPacking) (d : Nat) (hd : Deep d)
    (ch : Channels) (hch : ch = .rgba ∨ ch = .bgra) (s : Sampling) (i : PlanarAlpha) (rgba : Buf)
    (stride : Nat) (rg : YuvRange) (m : Matrix) (hi : GoodPlanarAlpha i s 65536)
    (hdst : GoodDst rgba.length stride i.width i.height ch.count) :
    ∃ out, p16AlphaToRgb16On cpu e bp d ch s i rgba stride rg m = .ok out ∧
      FrameSpec out rgba stride i.width i.height ch.count
        (deepAlphaCpuPixel cpu e bp d ch s i rg m) := by
  have ha : ¬ ch.hasAlpha = false := by rcases hch with rfl | rfl <;> decide
  have hcn := count_pos ch
  have hst : 0 < stride := Nat.lt_of_lt_of_le (Nat.mul_pos hi.wpos hcn) hdst.cols_le
  obtain ⟨hby, hbu⟩ := deep_bias hd rg
  have hbu' : (getYuvRange d rg).biasUv < 65536 := by
    rw [hbu]; rcases hd with rfl | rfl | rfl | rfl <;> decide
  have hf := deepAlphaHandler_fills (w := i.width) cpu s e bp hd ch (deepCoef_search hd rg m) hby hbu'
    hi.wpos (fun y u v a => deepAlphaPixel (2 ^ 12 - 1) 13 13 d d ch rg m a (toNe e bp y (16 - d))
        (toNe e bp u (16 - d)) (toNe e bp v (16 - d)))
  unfold p16AlphaToRgb16On p16AlphaToRgb16
  rw [if_neg ha, hdst.accepted hi.wpos hi.hpos hi.w32 hi.h32 hcn (count_le ch), hi.accepted]
  simp only [Outcome.bind_ok]
  obtain ⟨out, e1, h⟩ := (alphaFrame_src hi.rows hcn (fun x hx => deepAlphaSrc_lt cpu d i.width x hx)
    (putP16Alpha_ok hd.depth e bp ch rg m) hf hdst.cols_le hdst.full).spec hcn hst hdst.cols_le hdst.full.1
  refine ⟨out, e1, frameRel_eq ⟨h.1, fun x y hx hy => ?_, h.2.2⟩⟩
  refine (h.2.1 x y hx hy).trans ?_
  obtain ⟨b1, b2, b3⟩ := hi.opaque.sample_lt hx hy
  have ne : ∀ a, deepAlphaPixel (2 ^ 12 - 1) 13 13 d d ch rg m a
      (toNe e bp (Planar.Y (opaqueImage i) x y) (16 - d))
      (toNe e bp (Planar.U (opaqueImage i) s x y) (16 - d))
      (toNe e bp (Planar.V (opaqueImage i) s x y) (16 - d))
      = deepAlphaPixel (2 ^ 12 - 1) 13 13 d d ch rg m a
        (nativeSample e bp d (Planar.Y (opaqueImage i) x y))
        (nativeSample e bp d (Planar.U (opaqueImage i) s x y))
        (nativeSample e bp d (Planar.V (opaqueImage i) s x y)) := by
    intro a; rw [toNe_eq e bp b1, toNe_eq e bp b2, toNe_eq e bp b3]
  simp only [cpuDeepAlpha, deepAlphaCpuPixel, deepAlphaCpu, ← ne]
  rfl

/-- A processor without vector code runs the portable decoder, and so does every processor at 14 and
16 bits. -/
theorem c87_plain_is_portable (cpu : Cpu) (e : Endianness) (bp : BytesPacking) (d : Nat)
    (hp : cpu = .plain ∨ 12 < d)
    (ch : Channels) (s : Sampling) (i : PlanarAlpha) (rgba : Buf) (stride : Nat) (rg : YuvRange)
    (m : Matrix) : p16AlphaToRgb16On cpu e bp d ch s i rgba stride rg m
      = p16AlphaToRgb16 x64 e bp d ch s noAlphaSimd i rgba stride rg m := by
  unfold p16AlphaToRgb16On
  congr 1
  funext y u v a row
  cases cpu with
  | plain => rfl
  | avx2 => exact if_neg (by rcases hp with h | h <;> [exact absurd h (by decide); omega])
  | sse41 => exact if_neg (by rcases hp with h | h <;> [exact absurd h (by decide); omega])

/-- The image with its luma and chroma samples, but not its alpha samples, mapped. -/
def Spec.mapColours (f : Nat → Nat) (i : PlanarAlpha) : PlanarAlpha :=
  { i with y := i.y.map f, u := i.u.map f, v := i.v.map f }

/-- C87: on every processor byte order and packing only represent the luma and chroma samples. -/
theorem c87_representation (cpu : Cpu) (e : Endianness) (bp : BytesPacking) (d : Nat) (hd : Deep d)
    (ch : Channels) (hch : ch = .rgba ∨ ch = .bgra) (s : Sampling) (i : PlanarAlpha) (rgba : Buf)
    (stride : Nat) (rg : YuvRange) (m : Matrix) (hi : GoodPlanarAlpha i s 65536)
    (hdst : GoodDst rgba.length stride i.width i.height ch.count) :
    ∃ out, p16AlphaToRgb16On cpu e bp d ch s i rgba stride rg m = .ok out ∧
      p16AlphaToRgb16On cpu .little .lsb d ch s (mapColours (nativeSample e bp d) i) rgba
        stride rg m = .ok out := by
  have hg : GoodPlanarAlpha (mapColours (nativeSample e bp d) i) s 65536 := by
    have h := native_map_good e bp d hi.opaque
    exact ⟨hi.wpos, hi.hpos, hi.w32, hi.h32, h.y, h.u, h.v, hi.a⟩
  obtain ⟨out, e1, hr⟩ := c87_deep_alpha cpu e bp d hd ch hch s i rgba stride rg m hi hdst
  obtain ⟨out', e2, hr'⟩ := c87_deep_alpha cpu .little .lsb d hd ch hch s
    (mapColours (nativeSample e bp d) i) rgba stride rg m hg hdst
  refine ⟨out, e1, ?_⟩
  rw [e2]; congr 1
  refine frameSpec_unique hr' ⟨hr.1, fun x y c hx hy hc => ?_, hr.2.2⟩
  rw [hr.2.1 x y c hx hy hc]
  have hz := nativeSample_zero e bp d
  unfold deepAlphaCpuPixel
  simp only [Planar.Y, Planar.U, Planar.V, opaqueImage, mapColours, at'_map hz]
  rfl

/-! ## C88 -/

/-- Components at most `n` apart. -/
def Spec.Within (n : Nat) (c c' : Nat × Nat × Nat) : Prop :=
  (c.1 ≤ c'.1 + n ∧ c'.1 ≤ c.1 + n) ∧ (c.2.1 ≤ c'.2.1 + n ∧ c'.2.1 ≤ c.2.1 + n) ∧
    (c.2.2 ≤ c'.2.2 + n ∧ c'.2.2 ≤ c.2.2 + n)

/-- Red, green and blue of native samples in the portable decoder: the fixed-point sums, rounded and
saturated to the depth. -/
def deepRounded (d : Nat) (rg : YuvRange) (m : Matrix) (y u v : Nat) : Nat × Nat × Nat :=
  let t := searchInverse 13 d rg m
  let c := getYuvRange d rg
  let q := fun s => saturate d (roundShift (2 ^ 12 - 1) 13 s)
  (q (linR t c.biasY c.biasUv y v), q (linG t c.biasY c.biasUv y u v), q (linB t c.biasY c.biasUv y u))

theorem deepVec_within {d : Nat} (hd : d = 10 ∨ d = 12) (rg : YuvRange) (m : Matrix) {y u v : Nat}
    (h : LegalSamples d rg y u v) :
    Within 2 (deepVecRGB d (getYuvRange d rg) (searchInverse 13 d rg m) y u v) (deepRounded d rg m y u v) := by
  obtain ⟨r, g, b, r', g', b', e1, e2, h1, h2, h3⟩ := deepVec_close hd rg m h .rgb
  simp only [deepOpaque, layout, List.cons.injEq] at e1
  simp only [deepPixel, layout, List.cons.injEq] at e2
  obtain ⟨rfl, rfl, rfl, -⟩ := e1
  obtain ⟨rfl, rfl, rfl, -⟩ := e2
  exact ⟨h1, h2, h3⟩

theorem shift_within {d : Nat} (hd : d = 10 ∨ d = 12) (rg : YuvRange) (m : Matrix) {y u v : Nat}
    (h : LegalSamples d rg y u v) :
    Within 2 (shiftRGB d (getYuvRange d rg) (searchInverse 13 d rg m) ((y : Int) - (getYuvRange d rg).biasY)
      u v) (deepRounded d rg m y u v) := by
  have hD : Deep d := hd.elim .inl fun h => .inr (.inl h)
  obtain ⟨h0, hy, hu, hv⟩ := h
  obtain ⟨-, hbu⟩ := deep_bias hD rg
  obtain ⟨t1, t2, t3, t4, t5⟩ := deepCoef_search hD rg m
  have ty : 0 ≤ (searchInverse 13 d rg m).y := by
    rcases hd with rfl | rfl <;> cases rg <;> cases m <;> decide +kernel
  have hp : (2 ^ (d - 1) : Nat) * 2 = 2 ^ d ∧ 2 ^ d ≤ 4096 := by rcases hd with rfl | rfl <;> decide
  have key : ∀ n : Nat, n < 2 ^ d → int16 (4 * ((n : Int) - (getYuvRange d rg).biasUv))
      = 4 * ((n : Int) - (getYuvRange d rg).biasUv) ∧
      (-2048 ≤ (n : Int) - (getYuvRange d rg).biasUv ∧ (n : Int) - (getYuvRange d rg).biasUv ≤ 2048) := by
    intro n hn; rw [hbu]; constructor
    · apply int16_small <;> omega
    · omega
  obtain ⟨ku, bu⟩ := key u hu
  obtain ⟨kv, bv⟩ := key v hv
  have bY : 0 ≤ (y : Int) - (getYuvRange d rg).biasY ∧ (y : Int) - (getYuvRange d rg).biasY ≤ 4095 := by omega
  have ky : int16 (4 * ((y : Int) - (getYuvRange d rg).biasY)) = 4 * ((y : Int) - (getYuvRange d rg).biasY) :=
    int16_small (by omega) (by omega)
  unfold deepRounded shiftRGB Within
  generalize hc : getYuvRange d rg = c at *
  generalize ht : searchInverse 13 d rg m = t at *
  have mr : ∀ a k : Int, mulRound (4 * a) k = (4 * (k * a) + 16384) / 32768 := by
    intro a k; unfold mulRound; rw [show 4 * a * k = 4 * (k * a) by ring]
  have prod : ∀ a k : Int, -2048 ≤ a ∧ a ≤ 2048 → -20000 ≤ k ∧ k ≤ 20000 →
      -40960000 ≤ k * a ∧ k * a ≤ 40960000 := by
    intro a k ha hk
    have := mul_bounds (A := 2048) (T := 20000) ha hk
    rw [Int.mul_comm]; omega
  have bl := mul_bounds (A := 4095) (T := 10000) (a := (y : Int) - c.biasY) (t := t.y) (by omega) t1
  have comp : ∀ A B : Int, -40960000 ≤ A ∧ A ≤ 40960000 → -40960000 ≤ B ∧ B ≤ 40960000 →
      let l := ((y : Int) - c.biasY) * t.y
      let v := (4 * l + 16384) / 32768 + (4 * A + 16384) / 32768 + (4 * B + 16384) / 32768
      let p := saturate d (roundShift (2 ^ 12 - 1) 13 (l + A + B))
      saturate d (int16 v) ≤ p + 2 ∧ p ≤ saturate d (int16 v) + 2 := by
    intro A B hA hB
    have r := round_terms (Y := (y : Int) - c.biasY) (e := 0) (A := A) (B := B) (ty := t.y) (by omega)
      ⟨ty, t1.2⟩
    simp only at r ⊢
    rw [Int.add_zero, mr, Int.mul_comm t.y] at r
    generalize ((y : Int) - c.biasY) * t.y = l at *
    rw [int16_small (by omega) (by omega)]
    exact saturate_near r.1 r.2
  have cR := comp (t.cr * ((v : Int) - c.biasUv)) 0 (prod _ _ bv t2) (by omega)
  have cB := comp (t.cb * ((u : Int) - c.biasUv)) 0 (prod _ _ bu t3) (by omega)
  have cG := comp (-t.g1 * ((v : Int) - c.biasUv)) (-t.g2 * ((u : Int) - c.biasUv))
    (prod _ _ bv (by omega)) (prod _ _ bu (by omega))
  refine ⟨?_, ?_, ?_⟩
  · simp only [linR, ky, kv, mr, Int.mul_comm t.y]
    simpa using cR
  · simp only [linG, ky, kv, ku, mr, Int.mul_comm t.y]
    simpa [sub_eq_add_neg] using cG
  · simp only [linB, ky, ku, mr, Int.mul_comm t.y]
    simpa using cB

/-- The colours of a pixel, whatever the processor and the column, against the portable ones. -/
theorem deepAlphaCpu_close (cpu : Cpu) {d : Nat} (hd : Deep d) (ch : Channels) (rg : YuvRange) (m : Matrix)
    (w x a : Nat) {y u v : Nat} (h : LegalSamples d rg y u v) :
    ∃ c, deepAlphaCpu cpu d ch rg m w x a y u v = layout ch c.1 c.2.1 c.2.2 a ∧
      Within 2 c (deepRounded d rg m y u v) := by
  unfold deepAlphaCpu
  split
  · rename_i hc
    have hd2 : d = 10 ∨ d = 12 := by rcases hd with h | h | h | h <;> omega
    refine ⟨_, rfl, ?_⟩
    unfold deepAlphaRGB
    have ey : ((y - (getYuvRange d rg).biasY : Nat) : Int) = (y : Int) - (getYuvRange d rg).biasY := by
      have := h.1; omega
    split
    · simp only [satRGB, ey]; exact shift_within hd2 rg m h
    · split
      · exact shift_within hd2 rg m h
      · exact deepVec_within hd2 rg m h
  · exact ⟨deepRounded d rg m y u v, rfl, by unfold Within; omega⟩

/-- C88, what holds: for samples of the depth with luma not below black every processor writes
colours at most two code values from those of the portable decoder, in the same area; and where the
processor has no AVX2, or at 14 and 16 bits, or in images up to 32 pixels wide, every pixel has the
alpha word stored for it.  Missing: wider images on AVX2, luma below black and samples beyond the
depth, where the claim is false. -/
theorem c88_agreement_partial (cpu : Cpu) (e : Endianness) (bp : BytesPacking) (d : Nat) (hd : Deep d)
    (ch : Channels) (hch : ch = .rgba ∨ ch = .bgra) (s : Sampling) (i : PlanarAlpha) (rgba : Buf)
    (stride : Nat) (rg : YuvRange) (m : Matrix) (hi : GoodPlanarAlpha i s 65536)
    (hdst : GoodDst rgba.length stride i.width i.height ch.count)
    (hl : LegalImage e bp d s (opaqueImage i) rg) :
    ∃ out, p16AlphaToRgb16On cpu e bp d ch s i rgba stride rg m = .ok out ∧
      (∀ x y, x < i.width → y < i.height → ∃ c a, pixelAt out stride ch.count x y
          = layout ch c.1 c.2.1 c.2.2 a ∧
        Within 2 c (deepRounded d rg m (nativeSample e bp d (Planar.Y (opaqueImage i) x y))
          (nativeSample e bp d (Planar.U (opaqueImage i) s x y))
          (nativeSample e bp d (Planar.V (opaqueImage i) s x y))) ∧
        (cpu ≠ .avx2 ∨ 12 < d ∨ i.width ≤ 32 → a = alphaAt i x y)) ∧
      ∀ k, ¬ InFrame stride i.width i.height ch.count k → out[k]? = rgba[k]? := by
  obtain ⟨out, e1, h⟩ := c87_deep_alpha cpu e bp d hd ch hch s i rgba stride rg m hi hdst
  refine ⟨out, e1, fun x y hx hy => ?_, h.2.2⟩
  obtain ⟨c, e2, hw⟩ := deepAlphaCpu_close cpu hd ch rg m i.width x
    (alphaAt i (deepAlphaSrc cpu d i.width x) y) (hl x y hx hy)
  refine ⟨c, _, (frameSpec_pixel h (x := x) (y := y) hx hy (deepAlphaCpu_length ..)).trans e2, hw, fun ho => ?_⟩
  congr 1
  unfold deepAlphaSrc
  split
  · rename_i hc
    unfold pairedCol
    rw [if_neg]
    rintro ⟨h1, h2⟩
    unfold vecCols at h1
    rcases ho with ho | ho | ho
    · exact ho hc.1
    · omega
    · omega
  · rfl

/-- C88 fails for alpha on every processor with AVX2: at 10 and 12 bits, in every image at least 33
pixels wide, the right half of every block of 32 pixels gets the alpha of the left half. -/
theorem c88_avx2_alpha_shifted (e : Endianness) (bp : BytesPacking) (d : Nat) (hd : d = 10 ∨ d = 12)
    (ch : Channels) (hch : ch = .rgba ∨ ch = .bgra) (s : Sampling) (i : PlanarAlpha) (rgba : Buf)
    (stride : Nat) (rg : YuvRange) (m : Matrix) (hi : GoodPlanarAlpha i s 65536)
    (hdst : GoodDst rgba.length stride i.width i.height ch.count) :
    ∃ out, p16AlphaToRgb16On .avx2 e bp d ch s i rgba stride rg m = .ok out ∧
      ∀ b x y, 32 * b + 32 < i.width → 16 ≤ x → x < 32 → y < i.height → ∃ r g bl,
        pixelAt out stride ch.count (32 * b + x) y
          = layout ch r g bl (alphaAt i (32 * b + x - 16) y) := by
  obtain ⟨out, e1, h⟩ := c87_deep_alpha .avx2 e bp d (hd.elim .inl fun h => .inr (.inl h)) ch hch s i rgba
    stride rg m hi hdst
  refine ⟨out, e1, fun b x y hb h16 h32 hy => ?_⟩
  rw [frameSpec_pixel h (x := 32 * b + x) (y := y) (by omega) hy (deepAlphaCpu_length ..), deepAlphaCpuPixel]
  have hs : deepAlphaSrc .avx2 d i.width (32 * b + x) = 32 * b + x - 16 := by
    unfold deepAlphaSrc pairedCol vecCols
    rw [if_pos ⟨rfl, by omega⟩, if_pos ⟨by omega, by omega⟩]
  simp only [hs, deepAlphaCpu]
  split
  · exact ⟨_, _, _, rfl⟩
  · exact ⟨_, _, _, rfl⟩

/-- A line of `n` pixels of the same samples with the given alpha. -/
def alphaLine (n y u v : Nat) (a : Buf) : PlanarAlpha :=
  { y := List.replicate n y, yStride := n, u := List.replicate n u, uStride := n
    v := List.replicate n v, vStride := n, a := a, aStride := n, width := n, height := 1 }

theorem alphaLine_good {n y u v : Nat} {a : Buf} (hn : 0 < n) (hn' : n < 1000) (hy : y < 65536)
    (hu : u < 65536) (hv : v < 65536) (ha : a.length = n) (hb : ∀ x ∈ a, x < 65536) :
    GoodPlanarAlpha (alphaLine n y u v a) .yuv444 65536 := by
  have h1 : U32 1 := by unfold U32; decide
  have h9 : U32 n := by unfold U32; omega
  have h2 : FullRows n n 1 := by unfold FullRows; rw [Nat.mul_add, Nat.mul_one]; omega
  have h3 : cover n (hdiv .yuv444) = n ∧ cover 1 (vdiv .yuv444) = 1 := by
    exact ⟨by simp only [cover, hdiv, Nat.div_one]; omega, by decide⟩
  have h4 : FullRows n n (cover 1 (vdiv .yuv444)) := by rw [h3.2]; exact h2
  have hr : ∀ {z : Nat}, z < 65536 → ∀ x ∈ List.replicate n z, x < 65536 := by
    intro z hz x hx; rw [(List.mem_replicate.1 hx).2]; exact hz
  exact {
    wpos := hn
    hpos := Nat.one_pos
    w32 := h9
    h32 := h1
    y := ⟨h9, Nat.le_refl n, by simpa [alphaLine] using h2, hr hy⟩
    u := ⟨h9, Nat.le_of_eq h3.1, by simpa [alphaLine] using h4, hr hu⟩
    v := ⟨h9, Nat.le_of_eq h3.1, by simpa [alphaLine] using h4, hr hv⟩
    a := ⟨h9, Nat.le_refl n, by simpa [alphaLine, ha] using h2, hb⟩ }

theorem lineDst_good {n st : Nat} (hn : 0 < n ∧ n < 1000) (hs : st = 4 * n) (l : Buf) (hl : l.length = st) :
    GoodDst l.length st n 1 4 :=
  ⟨by unfold U32; omega, by omega, by unfold FullRows; rw [Nat.mul_add, Nat.mul_one]; omega, by omega⟩

/-- C88 fails, a picture: 33 gray pixels, the first 16 transparent, the others opaque.  On AVX2 the
pixels 16 to 31 come out transparent, without they are opaque. -/
theorem c88_violated_alpha (cpu : Cpu) :
    let i := alphaLine 33 200 512 512 (List.replicate 16 0 ++ List.replicate 17 1023)
    ∃ out, p16AlphaToRgb16On cpu .little .lsb 10 .rgba .yuv444 i (List.replicate 132 7) 132 .full .bt709
        = .ok out ∧
      pixelAt out 132 4 16 0 = [200, 200, 200, if cpu = .avx2 then 0 else 1023] := by
  intro i
  obtain ⟨out, e, h⟩ := c87_deep_alpha cpu .little .lsb 10 (.inl rfl) .rgba (.inl rfl) .yuv444 i
    (List.replicate 132 7) 132 .full .bt709
    (alphaLine_good (by decide) (by decide) (by decide) (by decide) (by decide) (by decide) (by decide))
    (lineDst_good (by show 0 < 33 ∧ 33 < 1000; decide) rfl _ List.length_replicate)
  refine ⟨out, e, (frameSpec_pixel h (x := 16) (y := 0) (by show 16 < 33; decide) Nat.one_pos
    (deepAlphaCpu_length ..)).trans ?_⟩
  cases cpu <;> decide +kernel

/-- C88 fails below black: in a line of 49 equal pixels with luma 0 and strong chroma, 12 bits in
limited range, AVX2 makes the first 32 pixels 299 code values brighter than the next 16; the last
pixel is decoded as the latter. -/
theorem c88_violated_position :
    let i := alphaLine 49 0 2048 3000 (List.replicate 49 4095)
    ∃ out, p16AlphaToRgb16On .avx2 .little .lsb 12 .rgba .yuv444 i (List.replicate 196 7) 196 .limited
        .bt709 = .ok out ∧
      pixelAt out 196 4 0 0 = [1713, 0, 0, 4095] ∧ pixelAt out 196 4 32 0 = [1414, 0, 0, 4095] ∧
      pixelAt out 196 4 48 0 = [1414, 0, 0, 4095] := by
  intro i
  obtain ⟨out, e, h⟩ := c87_deep_alpha .avx2 .little .lsb 12 (.inr (.inl rfl)) .rgba (.inl rfl) .yuv444 i
    (List.replicate 196 7) 196 .limited .bt709
    (alphaLine_good (by decide) (by decide) (by decide) (by decide) (by decide) (by decide) (by decide))
    (lineDst_good (by show 0 < 49 ∧ 49 < 1000; decide) rfl _ List.length_replicate)
  refine ⟨out, e, ?_, ?_, ?_⟩
  · refine (frameSpec_pixel h (x := 0) (y := 0) (by show 0 < 49; decide) Nat.one_pos
      (deepAlphaCpu_length ..)).trans ?_
    decide +kernel
  · refine (frameSpec_pixel h (x := 32) (y := 0) (by show 32 < 49; decide) Nat.one_pos
      (deepAlphaCpu_length ..)).trans ?_
    decide +kernel
  · refine (frameSpec_pixel h (x := 48) (y := 0) (by show 48 < 49; decide) Nat.one_pos
      (deepAlphaCpu_length ..)).trans ?_
    decide +kernel

/-! ## C89 -/

/-- The pixel of native samples with alpha word `a` in column `x` of a row of `w` pixels, on a
processor: vector code does all but the last one to eight columns. -/
def deepAlpha8Cpu (cpu : Cpu) (d : Nat) (ch : Channels) (rg : YuvRange) (m : Matrix) (w x a y u v : Nat) :
    Buf :=
  if cpu ≠ .plain ∧ x < vecCols 8 w then
    let c := deepAlpha8RGB cpu d (getYuvRange d rg) (searchInverse 13 d rg m) w x y u v
    layout ch c.1 c.2.1 c.2.2 (vecAlpha8 d a)
  else p10AlphaPixel d ch rg m (alpha8 d a) y u v

/-- The pixel at `(x, y)` on a processor. -/
def deepAlpha8CpuPixel (cpu : Cpu) (e : Endianness) (bp : BytesPacking) (d : Nat) (ch : Channels)
    (s : Sampling) (i : PlanarAlpha) (rg : YuvRange) (m : Matrix) (x y : Nat) : Buf :=
  let j := opaqueImage i
  deepAlpha8Cpu cpu d ch rg m i.width x (alphaAt i (deepAlpha8Src cpu i.width x) y)
    (nativeSample e bp d (Planar.Y j x y)) (nativeSample e bp d (Planar.U j s x y))
    (nativeSample e bp d (Planar.V j s x y))

theorem deepAlpha8Cpu_length (cpu : Cpu) (d : Nat) (ch : Channels) (rg : YuvRange) (m : Matrix)
    (w x a y u v : Nat) : (deepAlpha8Cpu cpu d ch rg m w x a y u v).length = ch.count := by
  unfold deepAlpha8Cpu; split <;> exact layout_length' ..

/-- C89: on every class of x86 processor, for the widths its stores can deal with (`SafeWidth8`) and
without padding for 4:2:2, the decoders of 10- and 12-bit images with an alpha plane to 8-bit RGBA
and BGRA write exactly the pixels of the image, each the stated function of its column, the native
samples shown at it and an alpha of its row. -/
theorem c89_deep8_alpha_partial (cpu : Cpu) (e : Endianness) (bp : BytesPacking) (d : Nat)
    (hd : d = 10 ∨ d = 12) (ch : Channels) (hch : ch = .rgba ∨ ch = .bgra) (s : Sampling)
    (i : PlanarAlpha) (rgba : Buf) (stride : Nat) (rg : YuvRange) (m : Matrix)
    (hi : GoodPlanarAlpha i s 65536) (hdst : GoodDst rgba.length stride i.width i.height ch.count)
    (ht : s = .yuv422 → TightAlpha i stride ch.count) (hw : SafeWidth8 cpu i.width) :
    ∃ out, p16AlphaToRgb8On cpu e bp d ch s i rgba stride rg m = .ok out ∧
      FrameSpec out rgba stride i.width i.height ch.count
        (deepAlpha8CpuPixel cpu e bp d ch s i rg m) := by
  have hD : Deep d := hd.elim .inl fun h => .inr (.inl h)
  have ha : ¬ ch.hasAlpha = false := by rcases hch with rfl | rfl <;> decide
  have hcn := count_pos ch
  have hst : 0 < stride := Nat.lt_of_lt_of_le (Nat.mul_pos hi.wpos hcn) hdst.cols_le
  obtain ⟨hby, hbu⟩ := deep_bias hD rg
  have hbu' : (getYuvRange d rg).biasUv < 65536 := by
    rw [hbu]; rcases hd with rfl | rfl <;> decide
  have hf := deepAlpha8Handler_fills (w := i.width) cpu s e bp hd ch (deepCoef_search hD rg m) hby hbu'
    hi.wpos hw (fun y u v a => p10AlphaPixel d ch rg m (alpha8 d a) (toNe e bp y (16 - d))
        (toNe e bp u (16 - d)) (toNe e bp v (16 - d)))
  unfold p16AlphaToRgb8On p16AlphaToRgb8
  rw [if_neg ha, hdst.accepted hi.wpos hi.hpos hi.w32 hi.h32 hcn (count_le ch), hi.accepted]
  simp only [Outcome.bind_ok]
  obtain ⟨out, e1, h⟩ := (alphaFrame_src hi.rows hcn (fun x hx => deepAlpha8Src_lt cpu i.width x hx)
    (putP10Alpha_ok hd e bp ch rg m) hf hdst.cols_le hdst.full).spec hcn hst hdst.cols_le hdst.full.1
  refine ⟨out, ?_, frameRel_eq ⟨h.1, fun x y hx hy => ?_, h.2.2⟩⟩
  · rw [← e1]
    cases s
    · rfl
    · have t := ht rfl
      have c2 : cover i.width 2 = ceil2 i.width := cover_hdiv (s := .yuv422) hi.wpos
      exact alpha422_tight hi.rows hdst.full t.dst t.y (t.u.trans c2) (t.v.trans c2) t.a
    · rfl
  refine (h.2.1 x y hx hy).trans ?_
  obtain ⟨b1, b2, b3⟩ := hi.opaque.sample_lt hx hy
  have ne : ∀ a, p10AlphaPixel d ch rg m a
      (toNe e bp (Planar.Y (opaqueImage i) x y) (16 - d))
      (toNe e bp (Planar.U (opaqueImage i) s x y) (16 - d))
      (toNe e bp (Planar.V (opaqueImage i) s x y) (16 - d))
      = p10AlphaPixel d ch rg m a
        (nativeSample e bp d (Planar.Y (opaqueImage i) x y))
        (nativeSample e bp d (Planar.U (opaqueImage i) s x y))
        (nativeSample e bp d (Planar.V (opaqueImage i) s x y)) := by
    intro a; rw [toNe_eq e bp b1, toNe_eq e bp b2, toNe_eq e bp b3]
  simp only [cpuDeepAlpha8, deepAlpha8CpuPixel, deepAlpha8Cpu, ← ne]
  rfl

/-- A processor without vector code runs the portable decoder. -/
theorem c89_plain_is_portable (e : Endianness) (bp : BytesPacking) (d : Nat)
    (ch : Channels) (s : Sampling) (i : PlanarAlpha) (rgba : Buf) (stride : Nat) (rg : YuvRange)
    (m : Matrix) : p16AlphaToRgb8On .plain e bp d ch s i rgba stride rg m
      = p16AlphaToRgb8 x64 e bp d ch s noAlphaSimd i rgba stride rg m := rfl

/-- C89 fails: for every other width the decoders store outside the destination row they are given,
in 4:2:0 for every image of whatever size and padding, in 4:2:2 and 4:4:4 whenever the destination
rows are not padded.  (In 4:4:4 and 4:2:2 the row of a one-row image is the whole destination, so
the store is outside the buffer.) -/
theorem c89_stores_outside (cpu : Cpu) (e : Endianness) (bp : BytesPacking) (d : Nat)
    (hd : d = 10 ∨ d = 12) (ch : Channels) (hch : ch = .rgba ∨ ch = .bgra) (s : Sampling)
    (i : PlanarAlpha) (rgba : Buf) (stride : Nat) (rg : YuvRange) (m : Matrix)
    (hi : GoodPlanarAlpha i s 65536) (hdst : GoodDst rgba.length stride i.width i.height ch.count)
    (hs : s = .yuv420 ∨ stride = i.width * ch.count) (hw : ¬ SafeWidth8 cpu i.width) :
    p16AlphaToRgb8On cpu e bp d ch s i rgba stride rg m = .panic := by
  have hD : Deep d := hd.elim .inl fun h => .inr (.inl h)
  have ha : ¬ ch.hasAlpha = false := by rcases hch with rfl | rfl <;> decide
  obtain ⟨hby, hbu⟩ := deep_bias hD rg
  have hbu' : (getYuvRange d rg).biasUv < 65536 := by
    rw [hbu]; rcases hd with rfl | rfl <;> decide
  unfold p16AlphaToRgb8On p16AlphaToRgb8
  rw [if_neg ha, hdst.accepted hi.wpos hi.hpos hi.w32 hi.h32 (count_pos ch) (count_le ch), hi.accepted]
  simp only [Outcome.bind_ok]
  refine alphaFrame_panics hi.rows (count_pos ch) ?_ hdst.cols_le hs hdst.full
  intro y u v a row hy hu hv ha ly lu lv la hr
  exact deepAlpha8Handler_panics cpu s e bp hd ch (deepCoef_search hD rg m) hby hbu' hi.wpos hw hy hu hv ha
    ly lu lv la hr

/-- C89: with SSE4.1 the widths that stay in bounds are those up to eight and the multiples of
eight; with AVX2 those whose remainder modulo 16 is at most eight. -/
theorem c89_safe_widths (w : Nat) :
    (SafeWidth8 .sse41 w ↔ w ≤ 8 ∨ w % 8 = 0) ∧ (SafeWidth8 .avx2 w ↔ w % 16 ≤ 8) ∧
      SafeWidth8 .plain w := ⟨Iff.rfl, Iff.rfl, trivial⟩

/-- Ten pixels: out of bounds with SSE4.1 and AVX2, and well without. -/
example (cpu : Cpu) (hc : cpu ≠ .plain) :
    p16AlphaToRgb8On cpu .little .lsb 10 .rgba .yuv444 (alphaLine 10 500 400 600 (List.replicate 10 1023))
      (List.replicate 40 7) 40 .limited .bt709 = .panic := by
  refine c89_stores_outside cpu .little .lsb 10 (.inl rfl) .rgba (.inl rfl) .yuv444 _ _ 40 .limited .bt709
    (alphaLine_good (by decide) (by decide) (by decide) (by decide) (by decide) (by decide) (by decide))
    (lineDst_good (by show 0 < 10 ∧ 10 < 1000; decide) rfl _ List.length_replicate) (.inr rfl) ?_
  cases cpu with
  | plain => exact absurd rfl hc
  | avx2 => show ¬ 10 % 16 ≤ 8; decide
  | sse41 => show ¬ (10 ≤ 8 ∨ 10 % 8 = 0); decide

/-! ## C90 -/

theorem sat8_of_legal {d : Nat} {rg : YuvRange} {y u v : Nat} (h : LegalSamples d rg y u v) (cpu : Cpu)
    (t : InvCoef) (w x : Nat) :
    deepAlpha8RGB cpu d (getYuvRange d rg) t w x y u v
      = deep8RGB d (getYuvRange d rg) t ((y - (getYuvRange d rg).biasY : Nat) : Int) u v := by
  have ey : ((y - (getYuvRange d rg).biasY : Nat) : Int) = (y : Int) - (getYuvRange d rg).biasY := by
    have := h.1; omega
  unfold deepAlpha8RGB
  split
  · simp only [sub8RGB, ey]
  · rfl

theorem vecAlpha8_small {d a : Nat} (h : a < 32768) : vecAlpha8 d a = alpha8 d a := by
  unfold vecAlpha8 alpha8
  rw [int16_small (by omega) (by omega)]
  have : ((a : Int) / 2 ^ (d - 8)) = ((a / 2 ^ (d - 8) : Nat) : Int) := by push_cast; rfl
  rw [this]
  unfold byteSat
  generalize a / 2 ^ (d - 8) = q
  omega

/-- C90, what holds: with BT.601, BT.709 and BT.2020, for samples of the depth with luma not below
black whose components do not round to 256 or more, and for the widths that stay in bounds, every
processor writes colours at most one below the correctly rounded ones and never above, in the same
area; and without AVX2, or in images up to 32 pixels wide, alpha words below 32768 give the upper
eight bits of the alpha.  Missing: other widths, wide images on AVX2, larger alpha words, luma below
black, samples beyond the depth and bright colours, where the claim is false. -/
theorem c90_agreement_partial (cpu : Cpu) (e : Endianness) (bp : BytesPacking) (d : Nat)
    (hd : d = 10 ∨ d = 12) (ch : Channels) (hch : ch = .rgba ∨ ch = .bgra) (s : Sampling)
    (i : PlanarAlpha) (rgba : Buf) (stride : Nat) (rg : YuvRange) (m : Matrix) (hm : Stored m)
    (hi : GoodPlanarAlpha i s 65536) (hdst : GoodDst rgba.length stride i.width i.height ch.count)
    (ht : s = .yuv422 → TightAlpha i stride ch.count) (hw : SafeWidth8 cpu i.width)
    (hl : LegalImage e bp d s (opaqueImage i) rg)
    (hno : ∀ x y, x < i.width → y < i.height → NoOverflow8 d rg m
      (nativeSample e bp d (Planar.Y (opaqueImage i) x y))
      (nativeSample e bp d (Planar.U (opaqueImage i) s x y))
      (nativeSample e bp d (Planar.V (opaqueImage i) s x y))) :
    ∃ out, p16AlphaToRgb8On cpu e bp d ch s i rgba stride rg m = .ok out ∧
      (∀ x y, x < i.width → y < i.height → ∃ c a, pixelAt out stride ch.count x y
          = layout ch c.1 c.2.1 c.2.2 a ∧
        OneBelow c (rounded8 d rg m (nativeSample e bp d (Planar.Y (opaqueImage i) x y))
          (nativeSample e bp d (Planar.U (opaqueImage i) s x y))
          (nativeSample e bp d (Planar.V (opaqueImage i) s x y))) ∧
        (cpu ≠ .avx2 ∨ i.width ≤ 32 → alphaAt i x y < 32768 → a = alpha8 d (alphaAt i x y))) ∧
      ∀ k, ¬ InFrame stride i.width i.height ch.count k → out[k]? = rgba[k]? := by
  obtain ⟨out, e1, h⟩ := c89_deep8_alpha_partial cpu e bp d hd ch hch s i rgba stride rg m hi hdst ht hw
  refine ⟨out, e1, fun x y hx hy => ?_, h.2.2⟩
  have hL := hl x y hx hy
  obtain ⟨n1, n2, n3⟩ := hno x y hx hy
  have src : cpu ≠ .avx2 ∨ i.width ≤ 32 → deepAlpha8Src cpu i.width x = x := by
    intro ho
    unfold deepAlpha8Src
    split
    · rename_i hc
      unfold pairedCol
      rw [if_neg]
      rintro ⟨h1, h2⟩
      unfold vecCols at h1
      rcases ho with ho | ho
      · exact ho hc
      · omega
    · rfl
  rw [frameSpec_pixel h (x := x) (y := y) hx hy (deepAlpha8Cpu_length ..), deepAlpha8CpuPixel]
  simp only [deepAlpha8Cpu]
  split
  · refine ⟨_, _, rfl, ?_, fun ho ha => ?_⟩
    · rw [sat8_of_legal hL, ← p10Inverse_stored hd rg hm]
      exact c86_vec_below d hd rg m _ _ _ hL
    · rw [src ho, vecAlpha8_small ha]
  · refine ⟨rounded8 d rg m (nativeSample e bp d (Planar.Y (opaqueImage i) x y))
        (nativeSample e bp d (Planar.U (opaqueImage i) s x y))
        (nativeSample e bp d (Planar.V (opaqueImage i) s x y)),
      alpha8 d (alphaAt i (deepAlpha8Src cpu i.width x) y), ?_,
      ⟨⟨Nat.le_refl _, Nat.le_succ _⟩, ⟨Nat.le_refl _, Nat.le_succ _⟩, ⟨Nat.le_refl _, Nat.le_succ _⟩⟩,
      fun ho ha => by rw [src ho]⟩
    unfold p10AlphaPixel rounded8
    rw [p10Inverse_stored hd rg hm]
    simp only [p10Wrap_sat hd n1, p10Wrap_sat hd n2, p10Wrap_sat hd n3]

/-- C90 fails for alpha on AVX2: in every image at least 33 pixels wide whose width stays in bounds
the right half of every block of 32 pixels gets the alpha of the left half. -/
theorem c90_avx2_alpha_shifted (e : Endianness) (bp : BytesPacking) (d : Nat) (hd : d = 10 ∨ d = 12)
    (ch : Channels) (hch : ch = .rgba ∨ ch = .bgra) (s : Sampling) (i : PlanarAlpha) (rgba : Buf)
    (stride : Nat) (rg : YuvRange) (m : Matrix) (hi : GoodPlanarAlpha i s 65536)
    (hdst : GoodDst rgba.length stride i.width i.height ch.count)
    (ht : s = .yuv422 → TightAlpha i stride ch.count) (hw : i.width % 16 ≤ 8) :
    ∃ out, p16AlphaToRgb8On .avx2 e bp d ch s i rgba stride rg m = .ok out ∧
      ∀ b x y, 32 * b + 32 < i.width → 16 ≤ x → x < 32 → y < i.height → ∃ r g bl,
        pixelAt out stride ch.count (32 * b + x) y
          = layout ch r g bl (vecAlpha8 d (alphaAt i (32 * b + x - 16) y)) := by
  obtain ⟨out, e1, h⟩ := c89_deep8_alpha_partial .avx2 e bp d hd ch hch s i rgba stride rg m hi hdst ht hw
  refine ⟨out, e1, fun b x y hb h16 h32 hy => ?_⟩
  rw [frameSpec_pixel h (x := 32 * b + x) (y := y) (by omega) hy (deepAlpha8Cpu_length ..),
    deepAlpha8CpuPixel]
  have hs : deepAlpha8Src .avx2 i.width (32 * b + x) = 32 * b + x - 16 := by
    unfold deepAlpha8Src pairedCol vecCols
    rw [if_pos rfl, if_pos ⟨by omega, by omega⟩]
  simp only [hs, deepAlpha8Cpu]
  rw [if_pos ⟨by decide, by unfold vecCols; omega⟩]
  exact ⟨_, _, _, rfl⟩

/-- C90 fails, a picture: 33 gray pixels, the first 16 transparent, the others opaque.  On AVX2 the
pixel 16 comes out transparent, without vector code it is opaque. -/
theorem c90_violated_alpha (cpu : Cpu) (hc : cpu ≠ .sse41) :
    let i := alphaLine 33 512 512 512 (List.replicate 16 0 ++ List.replicate 17 1023)
    ∃ out, p16AlphaToRgb8On cpu .little .lsb 10 .rgba .yuv444 i (List.replicate 132 7) 132 .full .bt709
        = .ok out ∧
      pixelAt out 132 4 16 0 = [128, 128, 128, if cpu = .avx2 then 0 else 255] := by
  intro i
  obtain ⟨out, e, h⟩ := c89_deep8_alpha_partial cpu .little .lsb 10 (.inl rfl) .rgba (.inl rfl) .yuv444 i
    (List.replicate 132 7) 132 .full .bt709
    (alphaLine_good (by decide) (by decide) (by decide) (by decide) (by decide) (by decide) (by decide))
    (lineDst_good (by show 0 < 33 ∧ 33 < 1000; decide) rfl _ List.length_replicate) (by intro h; cases h)
    (by cases cpu with
        | plain => exact trivial
        | avx2 => show 33 % 16 ≤ 8; decide
        | sse41 => exact absurd rfl hc)
  refine ⟨out, e, (frameSpec_pixel h (x := 16) (y := 0) (by show 16 < 33; decide) Nat.one_pos
    (deepAlpha8Cpu_length ..)).trans ?_⟩
  cases cpu with
  | plain => decide +kernel
  | avx2 => decide +kernel
  | sse41 => exact absurd rfl hc

/-- C90 fails for alpha words from 32768: with vector code they are transparent, without opaque. -/
theorem c90_large_alpha (d : Nat) (hd : d = 10 ∨ d = 12) (a : Nat) (h : 32768 ≤ a) (h' : a < 65536) :
    vecAlpha8 d a = 0 ∧ alpha8 d a = 255 := by
  have e : int16 (a : Int) = (a : Int) - 65536 := by
    have : int16 ((a : Int) - 65536) = (a : Int) - 65536 := int16_small (by omega) (by omega)
    rw [← this]
    unfold int16
    omega
  unfold vecAlpha8 alpha8
  rw [e]
  unfold byteSat
  rcases hd with rfl | rfl <;> norm_num <;> omega

/-- The hypotheses of the agreements are met: sixteen pixels of a legal colour without overflow. -/
example : let i := alphaLine 16 500 400 600 (List.replicate 16 700)
    SafeWidth8 .avx2 16 ∧ SafeWidth8 .sse41 16 ∧ LegalImage .little .lsb 10 .yuv444 (opaqueImage i) .limited ∧
    (∀ x y, x < 16 → y < 1 → NoOverflow8 10 .limited .bt709
      (nativeSample .little .lsb 10 (Planar.Y (opaqueImage i) x y))
      (nativeSample .little .lsb 10 (Planar.U (opaqueImage i) .yuv444 x y))
      (nativeSample .little .lsb 10 (Planar.V (opaqueImage i) .yuv444 x y))) := by
  intro i
  have h : ∀ x < 16, ∀ y < 1, LegalSamples 10 .limited
      (nativeSample .little .lsb 10 (Planar.Y (opaqueImage i) x y))
      (nativeSample .little .lsb 10 (Planar.U (opaqueImage i) .yuv444 x y))
      (nativeSample .little .lsb 10 (Planar.V (opaqueImage i) .yuv444 x y)) := by
    unfold LegalSamples; decide
  have h' : ∀ x < 16, ∀ y < 1, NoOverflow8 10 .limited .bt709
      (nativeSample .little .lsb 10 (Planar.Y (opaqueImage i) x y))
      (nativeSample .little .lsb 10 (Planar.U (opaqueImage i) .yuv444 x y))
      (nativeSample .little .lsb 10 (Planar.V (opaqueImage i) .yuv444 x y)) := by
    unfold NoOverflow8; decide +kernel
  exact ⟨by show 16 % 16 ≤ 8; decide, .inr rfl, fun x y hx hy => h x hx y hy,
    fun x y hx hy => h' x hx y hy⟩

end Verif
