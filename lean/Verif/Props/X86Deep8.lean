import Verif.Lemmas.X86Deep8
import Verif.Props.X86Deep
/-!
# C85, C86: planar 10- and 12-bit YCbCr to 8-bit RGB on x86 processors
-/
namespace Verif
open Spec X86

theorem deepCoef_p10 {d : Nat} (hd : d = 10 ∨ d = 12) (rg : YuvRange) (m : Matrix) :
    DeepCoef (p10Inverse d rg m) := by
  rcases hd with rfl | rfl <;> cases rg <;> cases m <;> (unfold DeepCoef; decide +kernel)

/-! ## C85 -/

/-- The pixel of native samples in column `x` of a row of `w` pixels, on a processor: vector code
does all but the last one to eight columns. -/
def deep8Cpu (cpu : Cpu) (d : Nat) (ch : Channels) (rg : YuvRange) (m : Matrix) (w x y u v : Nat) :
    Buf :=
  if cpu ≠ .plain ∧ x < 8 * ((w - 1) / 8) then
    deep8VecPixel d ch (getYuvRange d rg) (p10Inverse d rg m) x y u v
  else p10Pixel d ch rg m y u v

/-- The pixel at `(x, y)` on a processor. -/
def deep8CpuPixel (cpu : Cpu) (e : Endianness) (bp : BytesPacking) (d : Nat) (ch : Channels)
    (s : Sampling) (i : Planar) (rg : YuvRange) (m : Matrix) (x y : Nat) : Buf :=
  deep8Cpu cpu d ch rg m i.width x (nativeSample e bp d (Planar.Y i x y))
    (nativeSample e bp d (Planar.U i s x y)) (nativeSample e bp d (Planar.V i s x y))

theorem deep8Cpu_length (cpu : Cpu) (d : Nat) (ch : Channels) (rg : YuvRange) (m : Matrix)
    (w x y u v : Nat) : (deep8Cpu cpu d ch rg m w x y u v).length = ch.count := by
  unfold deep8Cpu; split <;> exact layout_length' ..

/-- C85: on every class of x86 processor the 10- and 12-bit planar decoders to 8-bit RGB succeed on
every good image and destination, whatever the words stored in the image — no load or store of the
vector code leaves its slice — and write exactly the pixels of the image, each the stated function
of its column and of the native samples shown at it. -/
theorem c85_deep8_decode (cpu : Cpu) (e : Endianness) (bp : BytesPacking) (d : Nat)
    (hd : d = 10 ∨ d = 12) (ch : Channels) (s : Sampling) (i : Planar) (rgba : Buf) (stride : Nat)
    (rg : YuvRange) (m : Matrix) (hi : GoodPlanar i s 65536)
    (hdst : GoodDst rgba.length stride i.width i.height ch.count) :
    ∃ out, p16ToRgb8On cpu e bp d ch s i rgba stride rg m = .ok out ∧
      FrameSpec out rgba stride i.width i.height ch.count (deep8CpuPixel cpu e bp d ch s i rg m) := by
  have hD : Deep d := hd.elim .inl fun h => .inr (.inl h)
  have hr := hi.rows
  have hcn := count_pos ch
  have hst : 0 < stride := Nat.lt_of_lt_of_le (Nat.mul_pos hr.wpos hcn) hdst.cols_le
  obtain ⟨hby, hbu⟩ := deep_bias hD rg
  have hbu' : (getYuvRange d rg).biasUv < 65536 := by
    rw [hbu]; rcases hd with rfl | rfl <;> decide
  have hf := deep8Handler_fills (w := i.width) cpu s e bp hd ch (deepCoef_p10 hd rg m) hby hbu' hr.wpos
    (fun y u v => p10Pixel d ch rg m (toNe e bp y (16 - d)) (toNe e bp u (16 - d))
        (toNe e bp v (16 - d)))
  unfold p16ToRgb8On p16ToRgb8
  rw [hdst.accepted hi.wpos hi.hpos hi.w32 hi.h32 hcn (count_le ch), hi.accepted]
  simp only [Outcome.bind_ok]
  obtain ⟨out, e1, h⟩ := (deepFrame_q hr hcn (putP10_ok hd e bp ch rg m) hf hdst.cols_le
    hdst.full).spec hcn hst hdst.cols_le hdst.full.1
  refine ⟨out, e1, frameRel_eq ⟨h.1, fun x y hx hy => ?_, h.2.2⟩⟩
  refine (h.2.1 x y hx hy).trans ?_
  obtain ⟨b1, b2, b3⟩ := hi.sample_lt hx hy
  have ne : p10Pixel d ch rg m (toNe e bp (Planar.Y i x y) (16 - d))
      (toNe e bp (Planar.U i s x y) (16 - d)) (toNe e bp (Planar.V i s x y) (16 - d))
      = p10Pixel d ch rg m (nativeSample e bp d (Planar.Y i x y))
        (nativeSample e bp d (Planar.U i s x y)) (nativeSample e bp d (Planar.V i s x y)) := by
    rw [toNe_eq e bp b1, toNe_eq e bp b2, toNe_eq e bp b3]
  simp only [cpuDeep8, deep8CpuPixel, deep8Cpu, ← ne]
  rfl

/-- C85: a processor with AVX2 writes the buffer a processor with SSE4.1 only writes. -/
theorem c85_same_buffers (e : Endianness) (bp : BytesPacking) (d : Nat) (hd : d = 10 ∨ d = 12)
    (ch : Channels) (s : Sampling) (i : Planar) (rgba : Buf) (stride : Nat) (rg : YuvRange)
    (m : Matrix) (hi : GoodPlanar i s 65536)
    (hdst : GoodDst rgba.length stride i.width i.height ch.count) :
    p16ToRgb8On .avx2 e bp d ch s i rgba stride rg m
      = p16ToRgb8On .sse41 e bp d ch s i rgba stride rg m := by
  obtain ⟨out, e1, h1⟩ := c85_deep8_decode .avx2 e bp d hd ch s i rgba stride rg m hi hdst
  obtain ⟨out', e2, h2⟩ := c85_deep8_decode .sse41 e bp d hd ch s i rgba stride rg m hi hdst
  rw [e1, e2]
  congr 1
  refine frameSpec_unique h1 ⟨h2.1, fun x y c hx hy hc => ?_, h2.2.2⟩
  rw [h2.2.1 x y c hx hy hc]
  simp [deep8CpuPixel, deep8Cpu]

/-- A processor without vector code runs the portable decoder. -/
theorem c85_plain_is_portable (e : Endianness) (bp : BytesPacking) (d : Nat)
    (ch : Channels) (s : Sampling) (i : Planar) (rgba : Buf) (stride : Nat) (rg : YuvRange)
    (m : Matrix) : p16ToRgb8On .plain e bp d ch s i rgba stride rg m
      = p16ToRgb8 x64 e bp d ch s noSimd i rgba stride rg m := rfl

/-- C85: on every processor byte order and packing only represent the samples. -/
theorem c85_representation (cpu : Cpu) (e : Endianness) (bp : BytesPacking) (d : Nat)
    (hd : d = 10 ∨ d = 12) (ch : Channels) (s : Sampling) (i : Planar) (rgba : Buf) (stride : Nat)
    (rg : YuvRange) (m : Matrix) (hi : GoodPlanar i s 65536)
    (hdst : GoodDst rgba.length stride i.width i.height ch.count) :
    ∃ out, p16ToRgb8On cpu e bp d ch s i rgba stride rg m = .ok out ∧
      p16ToRgb8On cpu .little .lsb d ch s (Planar.mapSamples (nativeSample e bp d) i) rgba
        stride rg m = .ok out := by
  obtain ⟨out, e1, hr⟩ := c85_deep8_decode cpu e bp d hd ch s i rgba stride rg m hi hdst
  obtain ⟨out', e2, hr'⟩ := c85_deep8_decode cpu .little .lsb d hd ch s
    (Planar.mapSamples (nativeSample e bp d) i) rgba stride rg m (native_map_good e bp d hi) hdst
  refine ⟨out, e1, ?_⟩
  rw [e2]; congr 1
  refine frameSpec_unique hr' ⟨hr.1, fun x y c hx hy hc => ?_, hr.2.2⟩
  rw [hr.2.1 x y c hx hy hc]
  have hz := nativeSample_zero e bp d
  unfold deep8CpuPixel
  simp only [Planar.Y, Planar.U, Planar.V, Planar.mapSamples, at'_map hz]
  rfl

/-! ## C86 -/

/-- Red, green and blue of native samples: the fixed-point sums rounded to 8 bits and saturated. -/
def rounded8 (d : Nat) (rg : YuvRange) (m : Matrix) (y u v : Nat) : Nat × Nat × Nat :=
  let t := p10Inverse d rg m
  let c := getYuvRange d rg
  let q := fun s => saturate 8 (roundShift (2 ^ (13 + (d - 8) - 1)) (13 + (d - 8)) s)
  (q (linR t c.biasY c.biasUv y v), q (linG t c.biasY c.biasUv y u v), q (linB t c.biasY c.biasUv y u))

/-- Not above, and at most one below. -/
def OneBelow (c r : Nat × Nat × Nat) : Prop :=
  (c.1 ≤ r.1 ∧ r.1 ≤ c.1 + 1) ∧ (c.2.1 ≤ r.2.1 ∧ r.2.1 ≤ c.2.1 + 1) ∧
    (c.2.2 ≤ r.2.2 ∧ r.2.2 ≤ c.2.2 + 1)

/-- The sum of rounded terms, cut down to 8 bits, against the sum rounded to 8 bits. -/
theorem cut_terms {d : Nat} (hd : d = 10 ∨ d = 12) (L A B : Int) :
    let v := ((4 * L + 16384) / 32768 + (4 * A + 16384) / 32768 + (4 * B + 16384) / 32768) / 2 ^ (d - 8)
    let p := roundShift (2 ^ (13 + (d - 8) - 1)) (13 + (d - 8)) (L + A + B)
    v ≤ p ∧ p ≤ v + 1 := by
  unfold roundShift
  rcases hd with rfl | rfl
  · norm_num; omega
  · norm_num; omega

theorem byteSat_below {a b : Int} (h : a ≤ b ∧ b ≤ a + 1) :
    byteSat a ≤ saturate 8 b ∧ saturate 8 b ≤ byteSat a + 1 := by
  unfold byteSat saturate; norm_num; omega

/-- C86: for samples of the depth with luma not below black the components of the vector code are
those of the correctly rounded and saturated decoding or one less. -/
theorem c86_vec_below (d : Nat) (hd : d = 10 ∨ d = 12) (rg : YuvRange) (m : Matrix) (y u v : Nat)
    (h : LegalSamples d rg y u v) :
    OneBelow (deep8RGB d (getYuvRange d rg) (p10Inverse d rg m)
      ((y - (getYuvRange d rg).biasY : Nat) : Int) u v) (rounded8 d rg m y u v) := by
  have hD : Deep d := hd.elim .inl fun h => .inr (.inl h)
  obtain ⟨h0, hy, hu, hv⟩ := h
  obtain ⟨-, hbu⟩ := deep_bias hD rg
  obtain ⟨t1, t2, t3, t4, t5⟩ := deepCoef_p10 hd rg m
  have hp : (2 ^ (d - 1) : Nat) * 2 = 2 ^ d ∧ 2 ^ d ≤ 4096 := by rcases hd with rfl | rfl <;> decide
  have key : ∀ n : Nat, n < 2 ^ d → int16 (4 * ((n : Int) - (getYuvRange d rg).biasUv))
      = 4 * ((n : Int) - (getYuvRange d rg).biasUv) ∧
      (-2048 ≤ (n : Int) - (getYuvRange d rg).biasUv ∧ (n : Int) - (getYuvRange d rg).biasUv ≤ 2048) := by
    intro n hn; rw [hbu]; constructor
    · apply int16_small <;> omega
    · omega
  obtain ⟨ku, bu⟩ := key u hu
  obtain ⟨kv, bv⟩ := key v hv
  have ey : ((y - (getYuvRange d rg).biasY : Nat) : Int) = (y : Int) - (getYuvRange d rg).biasY := by omega
  have bY : 0 ≤ (y : Int) - (getYuvRange d rg).biasY ∧ (y : Int) - (getYuvRange d rg).biasY ≤ 4095 := by omega
  have ky : int16 (4 * ((y : Int) - (getYuvRange d rg).biasY)) = 4 * ((y : Int) - (getYuvRange d rg).biasY) :=
    int16_small (by omega) (by omega)
  unfold rounded8 deep8RGB OneBelow
  generalize hc : getYuvRange d rg = c at *
  generalize ht : p10Inverse d rg m = t at *
  have mr : ∀ a k : Int, mulRound (4 * a) k = (4 * (k * a) + 16384) / 32768 := by
    intro a k; unfold mulRound; rw [show 4 * a * k = 4 * (k * a) by ring]
  have prod : ∀ a k : Int, -2048 ≤ a ∧ a ≤ 2048 → -20000 ≤ k ∧ k ≤ 20000 →
      -40960000 ≤ k * a ∧ k * a ≤ 40960000 := by
    intro a k ha hk
    have := mul_bounds (A := 2048) (T := 20000) ha hk
    rw [Int.mul_comm]; omega
  have bl := mul_bounds (A := 4095) (T := 10000) (a := (y : Int) - c.biasY) (t := t.y) (by omega) t1
  have comp : ∀ A B : Int, -40960000 ≤ A ∧ A ≤ 40960000 → -40960000 ≤ B ∧ B ≤ 40960000 →
      let l := t.y * ((y : Int) - c.biasY)
      let v := (4 * l + 16384) / 32768 + (4 * A + 16384) / 32768 + (4 * B + 16384) / 32768
      let p := saturate 8 (roundShift (2 ^ (13 + (d - 8) - 1)) (13 + (d - 8)) (l + A + B))
      byteSat (int16 v / 2 ^ (d - 8)) ≤ p ∧ p ≤ byteSat (int16 v / 2 ^ (d - 8)) + 1 := by
    intro A B hA hB
    simp only
    rw [Int.mul_comm ((y : Int) - c.biasY)] at bl
    generalize t.y * ((y : Int) - c.biasY) = l at *
    rw [int16_small (by omega) (by omega)]
    exact byteSat_below (cut_terms hd l A B)
  have cR := comp (t.cr * ((v : Int) - c.biasUv)) 0 (prod _ _ bv t2) (by omega)
  have cB := comp (t.cb * ((u : Int) - c.biasUv)) 0 (prod _ _ bu t3) (by omega)
  have cG := comp (-t.g1 * ((v : Int) - c.biasUv)) (-t.g2 * ((u : Int) - c.biasUv))
    (prod _ _ bv (by omega)) (prod _ _ bu (by omega))
  refine ⟨?_, ?_, ?_⟩
  · simp only [linR, ey, ky, kv, mr, Int.mul_comm _ t.y]
    simpa using cR
  · simp only [linG, ey, ky, kv, ku, mr, Int.mul_comm _ t.y]
    simpa [sub_eq_add_neg] using cG
  · simp only [linB, ey, ky, ku, mr, Int.mul_comm _ t.y]
    simpa using cB

/-- What the portable decoder makes of samples whose sums do not round to 256 or more. -/
theorem p10Pixel_rounded {d : Nat} (hd : d = 10 ∨ d = 12) (ch : Channels) (rg : YuvRange) {m : Matrix}
    (hm : Stored m) {y u v : Nat} (h : NoOverflow8 d rg m y u v) :
    p10Pixel d ch rg m y u v = layout ch (rounded8 d rg m y u v).1 (rounded8 d rg m y u v).2.1
      (rounded8 d rg m y u v).2.2 255 := by
  obtain ⟨h1, h2, h3⟩ := h
  unfold p10Pixel rounded8
  rw [p10Inverse_stored hd rg hm]
  simp only [p10Wrap_sat hd h1, p10Wrap_sat hd h2, p10Wrap_sat hd h3]

/-- Colours of two opaque or alpha-less pixels at most one apart. -/
def ColoursClose (ch : Channels) (p q : Buf) : Prop :=
  ∃ r g b a r' g' b' a' : Nat, p = layout ch r g b a ∧ q = layout ch r' g' b' a' ∧
    (r ≤ r' + 1 ∧ r' ≤ r + 1) ∧ (g ≤ g' + 1 ∧ g' ≤ g + 1) ∧ (b ≤ b' + 1 ∧ b' ≤ b + 1)

/-- C86, what holds: with BT.601, BT.709 and BT.2020 two processors of whatever class decode an
image of legal samples in which no component rounds to 256 or more to colours at most one apart.
Missing: alpha, luma below black, samples beyond the depth and bright colours, where the claim is
false. -/
theorem c86_cpu_agreement_partial (cpu cpu' : Cpu) (e : Endianness) (bp : BytesPacking) (d : Nat)
    (hd : d = 10 ∨ d = 12) (ch : Channels) (s : Sampling) (i : Planar) (rgba : Buf) (stride : Nat)
    (rg : YuvRange) (m : Matrix) (hm : Stored m) (hi : GoodPlanar i s 65536)
    (hdst : GoodDst rgba.length stride i.width i.height ch.count) (hl : LegalImage e bp d s i rg)
    (hno : ∀ x y, x < i.width → y < i.height → NoOverflow8 d rg m
      (nativeSample e bp d (Planar.Y i x y)) (nativeSample e bp d (Planar.U i s x y))
      (nativeSample e bp d (Planar.V i s x y))) :
    ∃ out out', p16ToRgb8On cpu e bp d ch s i rgba stride rg m = .ok out ∧
      p16ToRgb8On cpu' e bp d ch s i rgba stride rg m = .ok out' ∧
      (∀ x y, x < i.width → y < i.height →
        ColoursClose ch (pixelAt out stride ch.count x y) (pixelAt out' stride ch.count x y)) ∧
      ∀ k, ¬ InFrame stride i.width i.height ch.count k → out[k]? = rgba[k]? ∧ out'[k]? = rgba[k]? := by
  obtain ⟨out, e1, h1⟩ := c85_deep8_decode cpu e bp d hd ch s i rgba stride rg m hi hdst
  obtain ⟨out', e2, h2⟩ := c85_deep8_decode cpu' e bp d hd ch s i rgba stride rg m hi hdst
  refine ⟨out, out', e1, e2, fun x y hx hy => ?_, fun k hk => ⟨h1.2.2 k hk, h2.2.2 k hk⟩⟩
  rw [frameSpec_pixel h1 (x := x) (y := y) hx hy (deep8Cpu_length ..),
    frameSpec_pixel h2 (x := x) (y := y) hx hy (deep8Cpu_length ..)]
  have hL := hl x y hx hy
  have hN := p10Pixel_rounded hd ch rg hm (hno x y hx hy)
  obtain ⟨v1, v2, v3⟩ := c86_vec_below d hd rg m _ _ _ hL
  unfold deep8CpuPixel deep8Cpu
  rw [hN]
  split <;> split
  · exact ⟨_, _, _, _, _, _, _, _, rfl, rfl, by omega, by omega, by omega⟩
  · exact ⟨_, _, _, _, _, _, _, _, rfl, rfl, by omega, by omega, by omega⟩
  · exact ⟨_, _, _, _, _, _, _, _, rfl, rfl, by omega, by omega, by omega⟩
  · exact ⟨_, _, _, _, _, _, _, _, rfl, rfl, by omega, by omega, by omega⟩

/-- The correctly rounded decoding is within 0.54 code values of the exact ITU-R colour. -/
theorem rounded8_close (d : Nat) (hd : d = 10 ∨ d = 12) (rg : YuvRange) (m : Matrix) (hm : Stored m)
    (y u v : Nat) (h : LegalSamples d rg y u v) :
    let c := rounded8 d rg m y u v
    |(c.1 : Rat) - satQ 8 (exactR d rg m y u v / 2 ^ (d - 8))| ≤ 54 / 100 ∧
    |(c.2.1 : Rat) - satQ 8 (exactG d rg m y u v / 2 ^ (d - 8))| ≤ 54 / 100 ∧
    |(c.2.2 : Rat) - satQ 8 (exactB d rg m y u v / 2 ^ (d - 8))| ≤ 54 / 100 := by
  intro c
  have hc : DecodeCfg 13 d := by
    rcases hd with rfl | rfl
    · exact Or.inr (Or.inl ⟨rfl, Or.inr (Or.inl rfl)⟩)
    · exact Or.inr (Or.inl ⟨rfl, Or.inr (Or.inr (Or.inl rfl))⟩)
  obtain ⟨c1, c2, c3⟩ := sums_close hc (by decide) rg m (y := y) (u := u) (v := v) h.2.1 h.2.2.1 h.2.2.2
  have key : ∀ (s : Int) (E : Rat), |(s : Rat) / 2 ^ 13 - E| ≤ 2 ^ d / 2 ^ 13 →
      |((saturate 8 (roundShift (2 ^ (13 + (d - 8) - 1)) (13 + (d - 8)) s) : Nat) : Rat)
        - satQ 8 (E / 2 ^ (d - 8))| ≤ 54 / 100 := by
    intro s E h
    have h4 : (s : Rat) / 2 ^ (13 + (d - 8)) - E / 2 ^ (d - 8) = ((s : Rat) / 2 ^ 13 - E) / 2 ^ (d - 8) := by
      rw [pow_add]; field_simp
    have h5 : |(s : Rat) / 2 ^ (13 + (d - 8)) - E / 2 ^ (d - 8)| ≤ 4 / 100 := by
      rw [h4, abs_div, abs_of_pos (show (0 : Rat) < 2 ^ (d - 8) by positivity)]
      refine le_trans (div_le_div_of_nonneg_right h (by positivity)) ?_
      rcases hd with rfl | rfl <;> norm_num
    have h7 := saturate_close (dOut := 8) (k := 13 + (d - 8)) (half := 2 ^ (13 + (d - 8) - 1)) (by omega)
      (Or.inr rfl) h5
    linarith
  simp only [c, rounded8, p10Inverse_stored hd rg hm]
  exact ⟨key _ _ c1, key _ _ c2, key _ _ c3⟩

theorem below_close {a b : Nat} {E : Rat} (hab : a ≤ b ∧ b ≤ a + 1) (h : |(b : Rat) - E| ≤ 54 / 100) :
    |(a : Rat) - E| ≤ 154 / 100 := by
  have h1 : (a : Rat) ≤ b := by exact_mod_cast hab.1
  have h2 : (b : Rat) ≤ a + 1 := by exact_mod_cast hab.2
  rw [abs_le] at h ⊢
  constructor <;> linarith [h.1, h.2]

/-- C86: with BT.601, BT.709 and BT.2020 the components of the vector code are, for legal samples,
within 1.54 code values of the exact ITU-R colour, scaled to 8 bits and saturated — also where the
portable decoder overflows. -/
theorem c86_itu (d : Nat) (hd : d = 10 ∨ d = 12) (rg : YuvRange) (m : Matrix) (hm : Stored m)
    (y u v : Nat) (h : LegalSamples d rg y u v) :
    let c := deep8RGB d (getYuvRange d rg) (p10Inverse d rg m)
      ((y - (getYuvRange d rg).biasY : Nat) : Int) u v
    |(c.1 : Rat) - satQ 8 (exactR d rg m y u v / 2 ^ (d - 8))| ≤ 154 / 100 ∧
    |(c.2.1 : Rat) - satQ 8 (exactG d rg m y u v / 2 ^ (d - 8))| ≤ 154 / 100 ∧
    |(c.2.2 : Rat) - satQ 8 (exactB d rg m y u v / 2 ^ (d - 8))| ≤ 154 / 100 := by
  intro c
  obtain ⟨v1, v2, v3⟩ := c86_vec_below d hd rg m y u v h
  obtain ⟨r1, r2, r3⟩ := rounded8_close d hd rg m hm y u v h
  exact ⟨below_close v1 r1, below_close v2 r2, below_close v3 r3⟩

/-- C86 fails for alpha: in every image at least nine pixels wide the decoders to RGBA and BGRA
store, on a processor with AVX2 or SSE4.1, alpha 3 (10 bits) or 15 (12 bits) in the odd columns the
vector code does. -/
theorem c86_alpha_not_opaque (cpu : Cpu) (hcpu : cpu ≠ .plain) (e : Endianness) (bp : BytesPacking)
    (d : Nat) (hd : d = 10 ∨ d = 12) (ch : Channels) (s : Sampling) (i : Planar) (rgba : Buf)
    (stride : Nat) (rg : YuvRange) (m : Matrix) (hi : GoodPlanar i s 65536)
    (hdst : GoodDst rgba.length stride i.width i.height ch.count) :
    ∃ out, p16ToRgb8On cpu e bp d ch s i rgba stride rg m = .ok out ∧
      ∀ x y, x < 8 * ((i.width - 1) / 8) → y < i.height → ∃ r g b,
        pixelAt out stride ch.count x y
          = layout ch r g b (if x % 2 = 0 then 255 else if d = 10 then 3 else 15) := by
  obtain ⟨out, e1, h1⟩ := c85_deep8_decode cpu e bp d hd ch s i rgba stride rg m hi hdst
  refine ⟨out, e1, fun x y hx hy => ?_⟩
  rw [frameSpec_pixel h1 (x := x) (y := y) (by omega) hy (deep8Cpu_length ..), deep8CpuPixel, deep8Cpu,
    if_pos ⟨hcpu, hx⟩]
  have ea : wordAlpha d x = if x % 2 = 0 then 255 else if d = 10 then 3 else 15 := by
    unfold wordAlpha
    rcases hd with rfl | rfl <;> rfl
  rw [← ea]
  exact ⟨_, _, _, rfl⟩

/-- Nine pixels of the same samples. -/
def deepLine (y u v : Nat) : Planar :=
  { y := List.replicate 9 y, yStride := 9, u := List.replicate 9 u, uStride := 9
    v := List.replicate 9 v, vStride := 9, width := 9, height := 1 }

theorem deepLine_good {y u v : Nat} (hy : y < 65536) (hu : u < 65536) (hv : v < 65536) :
    GoodPlanar (deepLine y u v) .yuv444 65536 := by
  have h1 : U32 1 := by unfold U32; decide
  have h9 : U32 9 := by unfold U32; decide
  have h2 : FullRows 9 9 1 := by unfold FullRows; decide
  have h3 : cover 9 (hdiv .yuv444) = 9 ∧ cover 1 (vdiv .yuv444) = 1 := by decide
  have h4 : FullRows 9 9 (cover 1 (vdiv .yuv444)) := by rw [h3.2]; exact h2
  have hr : ∀ {z : Nat}, z < 65536 → ∀ x ∈ List.replicate 9 z, x < 65536 := by
    intro z hz x hx; rw [(List.mem_replicate.1 hx).2]; exact hz
  exact {
    wpos := by show 0 < 9; decide
    hpos := Nat.one_pos
    w32 := h9
    h32 := h1
    y := ⟨h9, Nat.le_refl 9, by simpa [deepLine] using h2, hr hy⟩
    u := ⟨h9, Nat.le_of_eq h3.1, by simpa [deepLine] using h4, hr hu⟩
    v := ⟨h9, Nat.le_of_eq h3.1, by simpa [deepLine] using h4, hr hv⟩ }

/-- The colours of a line of nine equal pixels: eight by the vector code, the ninth without. -/
theorem deepLine_decode (cpu : Cpu) {d : Nat} (hd : d = 10 ∨ d = 12) (rg : YuvRange) (m : Matrix)
    {y u v : Nat} (hy : y < 65536) (hu : u < 65536) (hv : v < 65536) :
    ∃ out, p16ToRgb8On cpu .little .lsb d .rgb .yuv444 (deepLine y u v) (List.replicate 27 0) 27 rg m
        = .ok out ∧ pixelAt out 27 3 0 0 = deep8Cpu cpu d .rgb rg m 9 0 y u v ∧
      pixelAt out 27 3 8 0 = p10Pixel d .rgb rg m y u v := by
  obtain ⟨out, e, h⟩ := c85_deep8_decode cpu .little .lsb d hd .rgb .yuv444 (deepLine y u v)
    (List.replicate 27 0) 27 rg m (deepLine_good hy hu hv)
    ⟨by unfold U32; decide, by show 9 * 3 ≤ 27; decide, by show FullRows 27 27 1; unfold FullRows; decide, by decide⟩
  refine ⟨out, e, ?_, ?_⟩
  · exact frameSpec_pixel h (x := 0) (y := 0) (by show 0 < 9; decide) Nat.one_pos (deep8Cpu_length ..)
  · refine (frameSpec_pixel h (x := 8) (y := 0) (by show 8 < 9; decide) Nat.one_pos (deep8Cpu_length ..)).trans ?_
    unfold deep8CpuPixel deep8Cpu
    rw [if_neg (by rintro ⟨-, h⟩; exact absurd h (by show ¬ 8 < 8 * ((9 - 1) / 8); decide))]
    rfl

/-- C86 fails for bright colours: of nine white pixels, full range at 10 bits, a processor with AVX2
or SSE4.1 decodes the first eight to white and the last to black; without vector code all are
black. -/
theorem c86_violated_white (cpu : Cpu) :
    ∃ out, p16ToRgb8On cpu .little .lsb 10 .rgb .yuv444 (deepLine 1023 512 512)
        (List.replicate 27 0) 27 .full .bt709 = .ok out ∧
      pixelAt out 27 3 0 0 = (if cpu = .plain then [0, 0, 0] else [255, 255, 255]) ∧
      pixelAt out 27 3 8 0 = [0, 0, 0] := by
  obtain ⟨out, e, h1, h2⟩ := deepLine_decode cpu (.inl rfl) .full .bt709 (y := 1023) (u := 512) (v := 512)
    (by decide) (by decide) (by decide)
  refine ⟨out, e, h1.trans ?_, h2.trans (by decide +kernel)⟩
  cases cpu <;> decide +kernel

/-- C86 fails below black: luma 0 with strong Cr at 12 bits in limited range is 19 code values
brighter in the first eight columns than in the ninth. -/
theorem c86_violated_below_black (cpu : Cpu) (hcpu : cpu ≠ .plain) :
    ∃ out, p16ToRgb8On cpu .little .lsb 12 .rgb .yuv444 (deepLine 0 2048 3000)
        (List.replicate 27 0) 27 .limited .bt709 = .ok out ∧
      pixelAt out 27 3 0 0 = [107, 0, 0] ∧ pixelAt out 27 3 8 0 = [88, 0, 0] := by
  obtain ⟨out, e, h1, h2⟩ := deepLine_decode cpu (.inr rfl) .limited .bt709 (y := 0) (u := 2048) (v := 3000)
    (by decide) (by decide) (by decide)
  refine ⟨out, e, h1.trans ?_, h2.trans (by decide +kernel)⟩
  cases cpu with
  | plain => exact absurd rfl hcpu
  | avx2 => decide +kernel
  | sse41 => decide +kernel

/-- The hypotheses of the agreement are met: nine pixels of a legal colour without overflow. -/
example : LegalImage .little .lsb 10 .yuv444 (deepLine 500 400 600) .limited ∧
    (∀ x y, x < 9 → y < 1 → NoOverflow8 10 .limited .bt709
      (nativeSample .little .lsb 10 (Planar.Y (deepLine 500 400 600) x y))
      (nativeSample .little .lsb 10 (Planar.U (deepLine 500 400 600) .yuv444 x y))
      (nativeSample .little .lsb 10 (Planar.V (deepLine 500 400 600) .yuv444 x y))) := by
  have h : ∀ x < 9, ∀ y < 1, LegalSamples 10 .limited
      (nativeSample .little .lsb 10 (Planar.Y (deepLine 500 400 600) x y))
      (nativeSample .little .lsb 10 (Planar.U (deepLine 500 400 600) .yuv444 x y))
      (nativeSample .little .lsb 10 (Planar.V (deepLine 500 400 600) .yuv444 x y)) := by
    unfold LegalSamples; decide
  have h' : ∀ x < 9, ∀ y < 1, NoOverflow8 10 .limited .bt709
      (nativeSample .little .lsb 10 (Planar.Y (deepLine 500 400 600) x y))
      (nativeSample .little .lsb 10 (Planar.U (deepLine 500 400 600) .yuv444 x y))
      (nativeSample .little .lsb 10 (Planar.V (deepLine 500 400 600) .yuv444 x y)) := by
    unfold NoOverflow8; decide +kernel
  exact ⟨fun x y hx hy => h x hx y hy, fun x y hx hy => h' x hx y hy⟩

end Verif
