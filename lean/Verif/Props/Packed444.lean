import Verif.Spec.Packed444
import Verif.Props.Shuffle
/-!
# C41: packed 4:4:4 with alpha; C42: the RemoteFX transform
-/
namespace Verif
open Spec

/-! ## Pixels with alpha -/

theorem premul_le (c a : Nat) (hc : c < 256) (ha : a < 256) : premul c a < 256 := by
  have : c * a ≤ 255 * 255 := Nat.mul_le_mul (by omega) (by omega)
  unfold premul
  omega

/-- `premul` is the nearest integer to the product over 255. -/
theorem premul_near (c a : Nat) :
    2 * (255 * premul c a) ≤ 2 * (c * a) + 255 ∧ 2 * (c * a) ≤ 2 * (255 * premul c a) + 255 := by
  unfold premul
  generalize c * a = v
  omega

theorem divBy255_premul {c a : Nat} (hc : c < 256) (ha : a < 256) :
    divBy255 (c * a) = .ok (premul c a) := by
  obtain ⟨q, e, _, h1, h2⟩ := c07_div255_nearest c a (by omega) (by omega)
  rw [e]
  congr 1
  unfold premul
  omega

theorem premulVal_ok {pm : Bool} {c a : Nat} (hc : c < 256) (ha : a < 256) :
    premulVal pm (c : Int) a = .ok (((if pm then premul c a else c : Nat)) : Int) := by
  unfold premulVal
  cases pm
  · rfl
  · have : c * a ≤ 255 * 255 := Nat.mul_le_mul (by omega) (by omega)
    simp only [if_true, asU16_nat (show c < 65536 by omega), mul16]
    rw [if_pos (by omega)]
    simp only [Outcome.bind_ok, divBy255_premul hc ha]
    rfl

theorem alphaPixel_length (pm : Bool) (p d : Nat) (ch : Channels) (rg : YuvRange) (m : Matrix)
    (a y u v : Nat) : (alphaPixel pm p d ch rg m a y u v).length = ch.count := by
  unfold alphaPixel
  cases pm <;> exact layout_length ..

/-- The pixel written by the alpha decoders. -/
theorem putAlpha_ok {pm : Bool} {p : Nat} (h : DecodeCfg p 8) (ch : Channels) (rg : YuvRange)
    (m : Matrix) {y u v a : Nat} {c : Buf} (hy : y < 256) (hu : u < 256) (hv : v < 256)
    (ha : a < 256) (hc : c.length = ch.count) :
    putAlpha pm p (searchInverse p 8 rg m) (getYuvRange 8 rg) ch y u v a c
      = .ok (alphaPixel pm p 8 ch rg m a y u v) := by
  obtain ⟨r, g, b, e1, h1, h2, h3, e2⟩ := kernel_decodeRGB h rg m (Or.inl rfl) hy hu hv
  unfold putAlpha alphaPixel
  rw [e2]
  simp only [e1, Outcome.bind_ok]
  rw [premulVal_ok h1 ha, premulVal_ok h2 ha, premulVal_ok h3 ha]
  simp only [Outcome.bind_ok]
  have k : ∀ n, n < 256 → (if pm then premul n a else n) < 256 := by
    intro n hn
    cases pm
    · exact hn
    · exact premul_le n a hn ha
  rw [asU8_nat (k r h1), asU8_nat (k g h2), asU8_nat (k b h3), storePix_ok hc]
  cases pm <;> rfl

/-! ## C41 -/

/-- The coefficients survive the narrowing to 16 bits. -/
theorem castI16_search (rg : YuvRange) (m : Matrix) :
    (searchInverse 13 8 rg m).castI16 = searchInverse 13 8 rg m := by
  have key : ∀ rg ∈ allRange, ∀ m ∈ allMatrix,
      (searchInverse 13 8 rg m).castI16 = searchInverse 13 8 rg m := by decide +kernel
  exact key rg (mem_allRange rg) m (mem_allMatrix m)

/-- The pixel a packed sample quadruple stands for. -/
def Spec.packedPixel (pm : Bool) (f : Packed444) (ch : Channels) (rg : YuvRange) (m : Matrix)
    (px : Buf) : Buf :=
  let (y, u, v, a) := samples444 f px
  alphaPixel pm 13 8 ch rg m a y u v

theorem ayuvBody_ok {pm : Bool} {f : Packed444} {ch : Channels} {rg : YuvRange} {m : Matrix} {s : Src}
    {rest : List Src} (hs : s.cn = 4) :
    BodyOk 256 ch.count (s :: rest)
      (ayuvBody pm f (searchInverse 13 8 rg m).castI16 (getYuvRange 8 rg) ch)
      (fun px => packedPixel pm f ch rg m (px.getD 0 [])) where
  len px := alphaPixel_length ..
  ok px c hp hc := by
    obtain ⟨hl, hb⟩ := hp.pixel (j := 0) (s := s) rfl
    rw [hs] at hl
    rw [castI16_search]
    unfold ayuvBody packedPixel
    generalize px.getD 0 [] = p at hl hb ⊢
    obtain ⟨b0, b1, b2, b3, rfl⟩ := length_four hl
    have h0 : b0 < 256 := hb _ (by simp)
    have h1 : b1 < 256 := hb _ (by simp)
    have h2 : b2 < 256 := hb _ (by simp)
    have h3 : b3 < 256 := hb _ (by simp)
    have hcfg : DecodeCfg 13 8 := Or.inr (Or.inl ⟨rfl, Or.inl rfl⟩)
    cases f
    · exact putAlpha_ok hcfg ch rg m h1 h2 h3 h0 hc
    · exact putAlpha_ok hcfg ch rg m h2 h1 h0 h3 hc

/-- C41: every pixel of the target is the decoding of the samples of the same packed pixel, with its
alpha, premultiplied when asked (or what the vector code guarantees); nothing else is written. -/
theorem c41_packed_decode (f : Packed444) (ch : Channels) (i : Packed) (dst : Buf) (stride : Nat)
    (rg : YuvRange) (m : Matrix) (pm : Bool) (hw : 0 < i.width) (hh : 0 < i.height)
    (hw32 : U32 i.width) (hh32 : U32 i.height)
    (hs : GoodDst i.yuy.length i.yuyStride i.width i.height 4) (hb : Bytes i.yuy)
    (hd : GoodDst dst.length stride i.width i.height ch.count)
    (R : List Buf → Buf → Prop) (hnd : MapHandler)
    (hok : hnd.Ok 256 i.width ch.count [⟨i.yuy, i.yuyStride, 4, true⟩] R) :
    ∃ out, ayuvToRgbx x64 f ch hnd i dst stride rg m pm = .ok out ∧
      FrameRel out dst stride i.width i.height ch.count (fun x y p =>
        let s := pixelAt i.yuy i.yuyStride 4 x y
        p = packedPixel pm f ch rg m s ∨ R [s] p) := by
  have hg : ∀ s ∈ [(⟨i.yuy, i.yuyStride, 4, true⟩ : Src)], GoodSrc s i.width i.height 256 := by
    intro s hs'
    rw [List.mem_singleton] at hs'
    subst hs'
    exact goodSrc_packed (by decide) hs hb
  unfold ayuvToRgbx
  rw [hs.accepted hw hh hw32 hh32 (by decide) (by decide),
    hd.accepted hw hh hw32 hh32 (count_pos ch) (count_le ch)]
  simp only [Outcome.bind_ok]
  exact mapFrame_spec (cutDst := true) hw (count_pos ch) hg (ayuvBody_ok rfl) hok hd.cols_le
    hd.full (Or.inl rfl)

/-- C41 without vector code. -/
theorem c41_packed_decode_exact (f : Packed444) (ch : Channels) (i : Packed) (dst : Buf)
    (stride : Nat) (rg : YuvRange) (m : Matrix) (pm : Bool) (hw : 0 < i.width) (hh : 0 < i.height)
    (hw32 : U32 i.width) (hh32 : U32 i.height)
    (hs : GoodDst i.yuy.length i.yuyStride i.width i.height 4) (hb : Bytes i.yuy)
    (hd : GoodDst dst.length stride i.width i.height ch.count) :
    ∃ out, ayuvToRgbx x64 f ch noMap i dst stride rg m pm = .ok out ∧
      FrameSpec out dst stride i.width i.height ch.count (fun x y =>
        packedPixel pm f ch rg m (pixelAt i.yuy i.yuyStride 4 x y)) := by
  obtain ⟨out, e, h⟩ := c41_packed_decode f ch i dst stride rg m pm hw hh hw32 hh32 hs hb hd
    (fun _ _ => False) noMap noMap_ok
  exact ⟨out, e, frameRel_or_eq h fun x y p _ _ hp => hp.resolve_right id⟩

/-- C41: without premultiplication a four-channel pixel is the ordinary decoding with the packed
alpha; a three-channel one is the ordinary decoding. -/
theorem c41_plain (f : Packed444) (ch : Channels) (rg : YuvRange) (m : Matrix) (y u v a : Nat)
    (px : Buf) (hp : samples444 f px = (y, u, v, a)) :
    packedPixel false f ch rg m px = decodedPixel 13 8 ch rg m a y u v := by
  unfold packedPixel
  rw [hp]
  rfl

/-- C41: with premultiplication every colour is the nearest integer to its product with alpha over
255; opaque pixels are unchanged and transparent ones black. -/
theorem c41_premultiplied (ch : Channels) (rg : YuvRange) (m : Matrix) (y u v a : Nat)
    (hy : y < 256) (hu : u < 256) (hv : v < 256) (ha : a < 256) :
    let p := alphaPixel true 13 8 ch rg m a y u v
    let q := decodedPixel 13 8 ch rg m a y u v
    (∀ c ∈ [red ch, green ch, blue ch],
      2 * (255 * c p) ≤ 2 * (c q * a) + 255 ∧ 2 * (c q * a) ≤ 2 * (255 * c p) + 255) ∧
    (a = 255 → p = q) ∧ (a = 0 → p = layout ch 0 0 0 0) := by
  obtain ⟨r, g, b, e1, h1, h2, h3, e2⟩ := kernel_decodeRGB
    (show DecodeCfg 13 8 from Or.inr (Or.inl ⟨rfl, Or.inl rfl⟩)) rg m (Or.inl rfl) hy hu hv
  unfold alphaPixel decodedPixel
  simp only [e1]
  obtain ⟨c1, c2, c3⟩ := layout_colours ch (premul r a) (premul g a) (premul b a) a
  obtain ⟨d1, d2, d3⟩ := layout_colours ch r g b a
  refine ⟨?_, ?_, ?_⟩
  · intro c hc
    simp only [List.mem_cons, List.not_mem_nil, or_false] at hc
    rcases hc with rfl | rfl | rfl <;> simp only [if_true, c1, c2, c3, d1, d2, d3] <;>
      exact premul_near ..
  · rintro rfl
    have : ∀ n, premul n 255 = n := by intro n; unfold premul; omega
    simp only [if_true, this]
  · rintro rfl
    have : ∀ n, premul n 0 = 0 := by intro n; unfold premul; omega
    simp only [if_true, this]

theorem NoErr.premulVal {pm : Bool} {c : Int} {a : Nat} : NoErr (premulVal pm c a) := by
  unfold Verif.premulVal
  refine .ite (.bind ?_ fun _ => .bind ?_ fun _ => .ok) .ok
  · unfold mul16; exact .ite .ok .panic
  · exact .divBy255

theorem NoErr.putAlpha {pm : Bool} {p : Nat} {t : InvCoef} {c : ChromaRange} {ch : Channels}
    {y u v a : Nat} {px : Buf} : NoErr (putAlpha pm p t c ch y u v a px) := by
  unfold Verif.putAlpha
  no_err [NoErr.decodeRow, NoErr.qrshr, NoErr.premulVal, NoErr.storePix]

/-- C41 and C05: the error value is returned exactly for sizes that do not fit. -/
theorem c05_packed444_rejects (f : Packed444) (ch : Channels) (hnd : MapHandler)
    (h1 : ∀ a b, NoErr (hnd a b)) (i : Packed) (dst : Buf) (stride : Nat) (rg : YuvRange) (m : Matrix)
    (pm : Bool) (hi : U32 i.yuyStride ∧ U32 i.width ∧ U32 i.height) (hs : U32 stride) :
    (∃ e, ayuvToRgbx x64 f ch hnd i dst stride rg m pm = .err e) ↔
      ¬ (RgbFits i.yuy.length i.yuyStride i.width i.height 4 ∧
        RgbFits dst.length stride i.width i.height ch.count) := by
  have hcn : 0 < ch.count ∧ ch.count ≤ 4 := by cases ch <;> decide
  obtain ⟨a, hw, hh⟩ := hi
  refine rejects_iff ?_ (checkRgba_no_panic a hw hh (by decide) (by decide))
    (checkRgba_no_panic hs hw hh hcn.1 hcn.2)
    (c02_rgba_check_iff _ _ _ _ _ a hw hh (by decide) (by decide))
    (c02_rgba_check_iff _ _ _ _ _ hs hw hh hcn.1 hcn.2)
  refine .mapFrame h1 fun px c => ?_
  unfold ayuvBody
  no_err [NoErr.putAlpha]

/-! ## C42 -/

theorem rdpFwd_eq : rdpFwd = ⟨9797, 19234, 3735, -5535, -10867, 16403, 16377, -13714, -2663⟩ := by
  decide +kernel
theorem rdpInv_eq : rdpInv = ⟨65536, 91915, 115992, 22526, 46818⟩ := by decide +kernel

theorem rdpVal_ok {kr kg kb off : Int} {r g b : Nat}
    (h1 : -2147483648 ≤ (r : Int) * kr) (h2 : (r : Int) * kr ≤ 2147483647)
    (h3 : -2147483648 ≤ (g : Int) * kg) (h4 : (g : Int) * kg ≤ 2147483647)
    (h5 : -2147483648 ≤ (b : Int) * kb) (h6 : (b : Int) * kb ≤ 2147483647)
    (h7 : -2147483648 ≤ r * kr + g * kg) (h8 : r * kr + g * kg ≤ 2147483647)
    (h9 : -2147483648 ≤ r * kr + g * kg + b * kb) (h10 : r * kr + g * kg + b * kb ≤ 2147483647)
    (h0 : 0 ≤ off) (ho : off ≤ 4096) :
    rdpVal kr kg kb off r g b = .ok (pattern16 ((r * kr + g * kg + b * kb) / 1024 - off)) := by
  unfold rdpVal
  rw [mul32_ok h1 h2]; simp only [Outcome.bind_ok]
  rw [mul32_ok h3 h4]; simp only [Outcome.bind_ok]
  rw [add32_ok h7 h8]; simp only [Outcome.bind_ok]
  rw [mul32_ok h5 h6]; simp only [Outcome.bind_ok]
  rw [add32_ok h9 h10]; simp only [Outcome.bind_ok, sar]
  rw [sub32_ok (by omega) (by omega)]
  rfl

theorem rdpVals {r g b : Nat} (hr : r < 65536) (hg : g < 65536) (hb : b < 65536) :
    rdpVal rdpFwd.yr rdpFwd.yg rdpFwd.yb 4096 r g b = .ok (pattern16 (rdpY r g b)) ∧
    rdpVal rdpFwd.cbR rdpFwd.cbG rdpFwd.cbB 0 r g b = .ok (pattern16 (rdpU r g b)) ∧
    rdpVal rdpFwd.crR rdpFwd.crG rdpFwd.crB 0 r g b = .ok (pattern16 (rdpV r g b)) := by
  rw [rdpFwd_eq]
  refine ⟨?_, ?_, ?_⟩
  · simp only []
    rw [rdpVal_ok] <;> first | omega | (congr 2; unfold rdpY; omega)
  · simp only []
    rw [rdpVal_ok] <;> first | omega | (congr 2; unfold rdpU; omega)
  · simp only []
    rw [rdpVal_ok] <;> first | omega | (congr 2; unfold rdpV; omega)

/-- C42: the encoded samples of any colour fit the format with room to spare: about 13 bits. -/
theorem c42_encode_range (r g b : Nat) (hr : r < 256) (hg : g < 256) (hb : b < 256) :
    (-4096 ≤ rdpY r g b ∧ rdpY r g b ≤ 4063) ∧ (-4085 ≤ rdpU r g b ∧ rdpU r g b ≤ 4084) ∧
    (-4079 ≤ rdpV r g b ∧ rdpV r g b ≤ 4078) := by
  unfold rdpY rdpU rdpV
  omega

/-- C42: the samples are the RemoteFX matrix product in 1/32 steps, within two steps: luma has the
weights 0.299, 0.587, 0.114 and offset -128, Cb -0.168935, -0.331665, 0.50059, Cr 0.499813,
-0.418531, -0.081282. -/
theorem c42_encode_close (r g b : Nat) (hr : r < 256) (hg : g < 256) (hb : b < 256) :
    (let e := 1000000 * rdpY r g b - 32 * (299000 * r + 587000 * g + 114000 * b - 128000000);
      -2000000 < e ∧ e < 1000000) ∧
    (let e := 1000000 * rdpU r g b - 32 * (-168935 * r - 331665 * g + 500590 * b);
      -2000000 < e ∧ e < 1000000) ∧
    (let e := 1000000 * rdpV r g b - 32 * (499813 * r - 418531 * g - 81282 * b);
      -2000000 < e ∧ e < 1000000) := by
  unfold rdpY rdpU rdpV
  omega

theorem signed_pattern {x : Int} (h1 : -32768 ≤ x) (h2 : x < 32768) : signed16 (pattern16 x) = x := by
  unfold signed16 pattern16
  split <;> omega

theorem pattern_lt (x : Int) : pattern16 x < 65536 := by unfold pattern16; omega

theorem asI16_signed {n : Nat} (h : n < 65536) : asI16 (n : Int) = signed16 n := by
  unfold asI16 signed16
  split <;> omega

theorem rdpShift_nat (x : Int) : rdpShift x = (clampByte (x / 2 ^ 21) : Int) := by
  unfold rdpShift clampByte sar
  omega

/-- C42, decode arithmetic: samples within ±8192 (twice the range of the format) are decoded without
overflow to the stated colour. -/
theorem rdpDecode_ok {y u v : Int} (hy : -8192 ≤ y ∧ y ≤ 8192) (hu : -8192 ≤ u ∧ u ≤ 8192)
    (hv : -8192 ≤ v ∧ v ≤ 8192) :
    rdpDecode y u v = .ok (((rdpColour y u v).1 : Int), ((rdpColour y u v).2.1 : Int),
      ((rdpColour y u v).2.2 : Int)) := by
  unfold rdpDecode rdpColour
  rw [rdpInv_eq]
  rw [show chk16 (y + 4096) = .ok (y + 4096) from if_pos (by omega)]
  simp only [Outcome.bind_ok]
  rw [mul32_ok (by omega) (by omega)]; simp only [Outcome.bind_ok]
  rw [mul32_ok (by omega) (by omega)]; simp only [Outcome.bind_ok]
  rw [add32_ok (by omega) (by omega)]; simp only [Outcome.bind_ok]
  rw [mul32_ok (by omega) (by omega)]; simp only [Outcome.bind_ok]
  rw [sub32_ok (by omega) (by omega)]; simp only [Outcome.bind_ok]
  rw [mul32_ok (by omega) (by omega)]; simp only [Outcome.bind_ok]
  rw [sub32_ok (by omega) (by omega)]; simp only [Outcome.bind_ok]
  rw [mul32_ok (by omega) (by omega)]; simp only [Outcome.bind_ok]
  rw [add32_ok (by omega) (by omega)]
  simp only [Outcome.bind_ok, rdpShift_nat, Int.mul_comm (y + 4096)]
  rfl

/-- C42, round trip of one colour: every component comes back unchanged or one less. -/
theorem c42_colour_round_trip (r g b : Nat) (hr : r < 256) (hg : g < 256) (hb : b < 256) :
    let o := rdpColour (rdpY r g b) (rdpU r g b) (rdpV r g b)
    (o.1 ≤ r ∧ r ≤ o.1 + 1) ∧ (o.2.1 ≤ g ∧ g ≤ o.2.1 + 1) ∧ (o.2.2 ≤ b ∧ b ≤ o.2.2 + 1) := by
  simp only [rdpColour, clampByte]
  unfold rdpY rdpU rdpV
  refine ⟨?_, ?_, ?_⟩ <;> omega

/-! ### Frames -/

theorem rdp_count (ch : RdpChannels) : 0 < ch.count ∧ ch.count ≤ 4 := by cases ch <;> decide

theorem rdpColours_idx {ch : RdpChannels} {p : Buf} (h : p.length = ch.count) :
    idx p ch.rOff = .ok (rdpColours ch p).1 ∧ idx p ch.gOff = .ok (rdpColours ch p).2.1 ∧
    idx p ch.bOff = .ok (rdpColours ch p).2.2 := by
  cases ch <;> simp only [RdpChannels.count] at h <;>
    (first
      | obtain ⟨_, _, _, rfl⟩ := List.length_eq_three.1 h
      | obtain ⟨_, _, _, _, rfl⟩ := length_four h) <;> exact ⟨rfl, rfl, rfl⟩

theorem rdpColours_lt {B : Nat} (hB : 0 < B) (ch : RdpChannels) {p : Buf} (h : ∀ a ∈ p, a < B) :
    (rdpColours ch p).1 < B ∧ (rdpColours ch p).2.1 < B ∧ (rdpColours ch p).2.2 < B := by
  cases ch <;> exact ⟨getD_lt hB h, getD_lt hB h, getD_lt hB h⟩

theorem rdpColours_layout (ch : RdpChannels) (r g b : Nat) :
    rdpColours ch (rdpLayout ch r g b) = (r, g, b) := by cases ch <;> rfl

theorem rdpLayout_length (ch : RdpChannels) (r g b : Nat) : (rdpLayout ch r g b).length = ch.count := by
  cases ch <;> rfl

theorem storeRdp_ok {ch : RdpChannels} {c : Buf} {r g b : Nat} (h : c.length = ch.count) :
    storeRdp ch c r g b 255 = .ok (rdpLayout ch r g b) := by
  cases ch <;> simp only [RdpChannels.count] at h <;>
    (first
      | obtain ⟨_, _, _, rfl⟩ := List.length_eq_three.1 h
      | obtain ⟨_, _, _, _, rfl⟩ := length_four h) <;> rfl

theorem toRdpBody_ok {ch : RdpChannels} {kr kg kb off : Int} {V : Nat → Nat → Nat → Int} {s : Src}
    {rest : List Src} (hs : s.cn = ch.count)
    (hv : ∀ r g b, r < 65536 → g < 65536 → b < 65536 →
      rdpVal kr kg kb off r g b = .ok (pattern16 (V r g b))) :
    BodyOk 65536 1 (s :: rest) (toRdpBody ch kr kg kb off)
      (fun px => let (r, g, b) := rdpColours ch (px.getD 0 []); [pattern16 (V r g b)]) where
  len px := rfl
  ok px c hp hc := by
    obtain ⟨hl, hb⟩ := hp.pixel (j := 0) (s := s) rfl
    rw [hs] at hl
    unfold toRdpBody
    obtain ⟨e1, e2, e3⟩ := rdpColours_idx hl
    obtain ⟨b1, b2, b3⟩ := rdpColours_lt (by decide) ch hb
    simp only [e1, e2, e3, Outcome.bind_ok, hv _ _ _ b1 b2 b3]
    match c, hc with
    | [_], _ => rfl

/-- What the encoder leaves in the planes: `Q k` is what the vector code guarantees for the samples of
plane `k`. -/
structure RdpSpec (ch : RdpChannels) (rgba : Buf) (stride : Nat) (Q : Nat → Buf → Buf → Prop)
    (i out : Planar) : Prop where
  geometry : out.width = i.width ∧ out.height = i.height ∧ out.yStride = i.yStride ∧
    out.uStride = i.uStride ∧ out.vStride = i.vStride
  y : FrameRel out.y i.y i.yStride i.width i.height 1 fun x y p =>
    let px := pixelAt rgba stride ch.count x y
    let (r, g, b) := rdpColours ch px
    p = [pattern16 (rdpY r g b)] ∨ Q 0 px p
  u : FrameRel out.u i.u i.uStride i.width i.height 1 fun x y p =>
    let px := pixelAt rgba stride ch.count x y
    let (r, g, b) := rdpColours ch px
    p = [pattern16 (rdpU r g b)] ∨ Q 1 px p
  v : FrameRel out.v i.v i.vStride i.width i.height 1 fun x y p =>
    let px := pixelAt rgba stride ch.count x y
    let (r, g, b) := rdpColours ch px
    p = [pattern16 (rdpV r g b)] ∨ Q 2 px p

/-- C42, encode: every plane receives the RemoteFX sample of every pixel and nothing else is
written. -/
theorem c42_encode (ch : RdpChannels) (i : Planar) (rgba : Buf) (stride : Nat)
    (hi : GoodPlanar i .yuv444 65536) (hd : GoodDst rgba.length stride i.width i.height ch.count)
    (hb : Bytes rgba) (Q : Nat → Buf → Buf → Prop) (hy hu hv : MapHandler)
    (oky : hy.Ok 65536 i.width 1 [⟨rgba, stride, ch.count, false⟩, ⟨i.u, i.uStride, 1, true⟩,
      ⟨i.v, i.vStride, 1, true⟩] (fun px p => Q 0 (px.getD 0 []) p))
    (oku : hu.Ok 65536 i.width 1 [⟨rgba, stride, ch.count, false⟩, ⟨i.y, i.yStride, 1, true⟩,
      ⟨i.v, i.vStride, 1, true⟩] (fun px p => Q 1 (px.getD 0 []) p))
    (okv : hv.Ok 65536 i.width 1 [⟨rgba, stride, ch.count, false⟩, ⟨i.y, i.yStride, 1, true⟩,
      ⟨i.u, i.uStride, 1, true⟩] (fun px p => Q 2 (px.getD 0 []) p)) :
    ∃ out, rgbxToRdp x64 ch hy hu hv i rgba stride = .ok out ∧ RdpSpec ch rgba stride Q i out := by
  obtain ⟨hcn, hcn4⟩ := rdp_count ch
  obtain ⟨pu, pv⟩ := planes444 hi
  have g0 : GoodSrc ⟨rgba, stride, ch.count, false⟩ i.width i.height 65536 :=
    goodSrc_packed hcn hd fun a ha => Nat.lt_of_lt_of_le (hb a ha) (by decide)
  have g1 : GoodSrc ⟨i.y, i.yStride, 1, true⟩ i.width i.height 65536 := goodSrc_plane hi.y
  have g2 : GoodSrc ⟨i.u, i.uStride, 1, true⟩ i.width i.height 65536 := goodSrc_plane pu
  have g3 : GoodSrc ⟨i.v, i.vStride, 1, true⟩ i.width i.height 65536 := goodSrc_plane pv
  have key : ∀ (k : Nat) (kr kg kb off : Int) (V : Nat → Nat → Nat → Int) (hnd : MapHandler)
      (dst : Buf) (st : Nat) (a b : Src),
      (∀ r g b, r < 65536 → g < 65536 → b < 65536 →
        rdpVal kr kg kb off r g b = .ok (pattern16 (V r g b))) →
      hnd.Ok 65536 i.width 1 [⟨rgba, stride, ch.count, false⟩, a, b]
        (fun px p => Q k (px.getD 0 []) p) →
      GoodPlane dst st i.width i.height 65536 → GoodSrc a i.width i.height 65536 →
      GoodSrc b i.width i.height 65536 →
      ∃ out, mapFrame true i.width 1 hnd (toRdpBody ch kr kg kb off)
          [⟨rgba, stride, ch.count, false⟩, a, b] dst st = .ok out ∧
        FrameRel out dst st i.width i.height 1 fun x y p =>
          let px := pixelAt rgba stride ch.count x y
          let (r, g, b) := rdpColours ch px
          p = [pattern16 (V r g b)] ∨ Q k px p := by
    intro k kr kg kb off V hnd dst st a b hval hok hdst ha hb
    have hs : ∀ s ∈ [(⟨rgba, stride, ch.count, false⟩ : Src), a, b],
        GoodSrc s i.width i.height 65536 := by
      intro s hs
      simp only [List.mem_cons, List.not_mem_nil, or_false] at hs
      rcases hs with rfl | rfl | rfl <;> assumption
    exact mapFrame_spec (cutDst := true) hi.wpos Nat.one_pos hs
      (toRdpBody_ok (ch := ch) (V := V) rfl hval) hok
      (by rw [Nat.mul_one]; exact hdst.cols_le) hdst.full (Or.inl rfl)
  obtain ⟨y, e1, h1⟩ := key 0 rdpFwd.yr rdpFwd.yg rdpFwd.yb 4096 rdpY hy i.y i.yStride _ _
    (fun r g b hr hg hb => (rdpVals hr hg hb).1) oky hi.y g2 g3
  obtain ⟨u, e2, h2⟩ := key 1 rdpFwd.cbR rdpFwd.cbG rdpFwd.cbB 0 rdpU hu i.u i.uStride _ _
    (fun r g b hr hg hb => (rdpVals hr hg hb).2.1) oku pu g1 g3
  obtain ⟨v, e3, h3⟩ := key 2 rdpFwd.crR rdpFwd.crG rdpFwd.crB 0 rdpV hv i.v i.vStride _ _
    (fun r g b hr hg hb => (rdpVals hr hg hb).2.2) okv pv g1 g2
  refine ⟨{ i with y := y, u := u, v := v }, ?_, ⟨rfl, rfl, rfl, rfl, rfl⟩, h1, h2, h3⟩
  unfold rgbxToRdp
  rw [hd.accepted hi.wpos hi.hpos hi.w32 hi.h32 hcn hcn4, hi.accepted]
  simp only [Outcome.bind_ok, e1, e2, e3]
  rfl

/-- A sample the decoder handles without overflow: within twice the range of the format. -/
def Spec.RdpSample (n : Nat) : Prop := -8192 ≤ signed16 n ∧ signed16 n ≤ 8192

theorem fromRdpBody_ok {ch : RdpChannels} {s t u : Src} {rest : List Src} (hs : 0 < s.cn)
    (ht : 0 < t.cn) (hu : 0 < u.cn) {px : List Buf} {c : Buf}
    (hp : PixelShape 65536 (s :: t :: u :: rest) px) (hc : c.length = ch.count)
    (h0 : RdpSample (comp px 0 0)) (h1 : RdpSample (comp px 1 0)) (h2 : RdpSample (comp px 2 0)) :
    fromRdpBody ch px c = .ok (
      let (r, g, b) := rdpColour (signed16 (comp px 0 0)) (signed16 (comp px 1 0))
        (signed16 (comp px 2 0))
      rdpLayout ch r g b) := by
  obtain ⟨e1, a0⟩ := hp.comp (j := 0) (k := 0) rfl hs
  obtain ⟨e2, a1⟩ := hp.comp (j := 1) (k := 0) rfl ht
  obtain ⟨e3, a2⟩ := hp.comp (j := 2) (k := 0) rfl hu
  unfold fromRdpBody
  rw [e1, e2, e3]
  simp only [Outcome.bind_ok]
  rw [asI16_signed a0, asI16_signed a1, asI16_signed a2, rdpDecode_ok h0 h1 h2]
  simp only [Outcome.bind_ok]
  rw [asU8_nat, asU8_nat, asU8_nat, storeRdp_ok hc]
  all_goals (simp only [rdpColour, clampByte]; omega)

/-- C42, decode: when the samples of the image are within ±8192 every pixel receives the colour of
its samples, and nothing else is written. -/
theorem c42_decode (ch : RdpChannels) (i : Planar) (rgba : Buf) (stride : Nat)
    (hi : GoodPlanar i .yuv444 65536) (hd : GoodDst rgba.length stride i.width i.height ch.count)
    (hr : ∀ x y, x < i.width → y < i.height → RdpSample (at' i.y i.yStride x y) ∧
      RdpSample (at' i.u i.uStride x y) ∧ RdpSample (at' i.v i.vStride x y)) :
    ∃ out, rdpToRgbx x64 ch i rgba stride = .ok out ∧
      FrameSpec out rgba stride i.width i.height ch.count (fun x y =>
        let (r, g, b) := rdpColour (signed16 (at' i.y i.yStride x y))
          (signed16 (at' i.u i.uStride x y)) (signed16 (at' i.v i.vStride x y))
        rdpLayout ch r g b) := by
  obtain ⟨hcn, hcn4⟩ := rdp_count ch
  obtain ⟨hu, hv⟩ := planes444 hi
  have hs : ∀ s ∈ [(⟨i.y, i.yStride, 1, true⟩ : Src), ⟨i.u, i.uStride, 1, false⟩,
      ⟨i.v, i.vStride, 1, false⟩], GoodSrc s i.width i.height 65536 := by
    intro s hs
    simp only [List.mem_cons, List.not_mem_nil, or_false] at hs
    rcases hs with rfl | rfl | rfl
    · exact goodSrc_plane hi.y
    · exact goodSrc_plane hu
    · exact goodSrc_plane hv
  have hp : ∀ x y, x < i.width → y < i.height → pixelsAt [(⟨i.y, i.yStride, 1, true⟩ : Src),
      ⟨i.u, i.uStride, 1, false⟩, ⟨i.v, i.vStride, 1, false⟩] x y
      = [[at' i.y i.yStride x y], [at' i.u i.uStride x y], [at' i.v i.vStride x y]] := by
    intro x y hx hy
    simp only [pixelsAt, List.map_cons, List.map_nil, pixelAt_one hx hy hi.y, pixelAt_one hx hy hu,
      pixelAt_one hx hy hv]
  unfold rdpToRgbx
  rw [hd.accepted hi.wpos hi.hpos hi.w32 hi.h32 hcn hcn4, hi.accepted]
  simp only [Outcome.bind_ok]
  obtain ⟨out, e, h⟩ := mapFrame_at (cutDst := false) (F := fun px =>
      let (r, g, b) := rdpColour (signed16 (comp px 0 0)) (signed16 (comp px 1 0))
        (signed16 (comp px 2 0))
      rdpLayout ch r g b) hi.wpos hcn hs
    ⟨fun _ => rdpLayout_length .., fun x y c hx hy hc => by
      have sh := pixelsAt_shape hx hy hs
      rw [hp x y hx hy] at sh ⊢
      obtain ⟨a, b, c'⟩ := hr x y hx hy
      exact fromRdpBody_ok Nat.one_pos Nat.one_pos Nat.one_pos sh hc a b c'⟩
    (noMap_ok (R := fun _ _ => False)) hd.cols_le hd.full
    (Or.inr ⟨_, List.mem_cons_self, rfl⟩)
  refine ⟨out, e, frameRel_or_eq h fun x y p hx hy hp' => ?_⟩
  rw [hp x y hx hy] at hp'
  exact hp'.resolve_right id

/-- C42, round trip of an image: encoding and decoding into any layout returns every colour
component unchanged or one less; alpha becomes opaque. -/
theorem c42_round_trip (ch ch' : RdpChannels) (i : Planar) (rgba dst : Buf) (stride stride' : Nat)
    (hi : GoodPlanar i .yuv444 65536) (hs : GoodDst rgba.length stride i.width i.height ch.count)
    (hb : Bytes rgba) (hd : GoodDst dst.length stride' i.width i.height ch'.count) :
    ∃ mid out, rgbxToRdp x64 ch noMap noMap noMap i rgba stride = .ok mid ∧
      rdpToRgbx x64 ch' mid dst stride' = .ok out ∧
      ∀ x y, x < i.width → y < i.height →
        ∃ r g b, pixelAt out stride' ch'.count x y = rdpLayout ch' r g b ∧
          let (r0, g0, b0) := rdpColours ch (pixelAt rgba stride ch.count x y)
          (r ≤ r0 ∧ r0 ≤ r + 1) ∧ (g ≤ g0 ∧ g0 ≤ g + 1) ∧ (b ≤ b0 ∧ b0 ≤ b + 1) := by
  obtain ⟨mid, e1, h1⟩ := c42_encode ch i rgba stride hi hs hb (fun _ _ _ => False) noMap noMap noMap
    noMap_ok noMap_ok noMap_ok
  obtain ⟨g1, g2, g3, g4, g5⟩ := h1.geometry
  obtain ⟨pu, pv⟩ := planes444 hi
  have hy : FrameSpec mid.y i.y i.yStride i.width i.height 1 fun x y =>
      let (r, g, b) := rdpColours ch (pixelAt rgba stride ch.count x y); [pattern16 (rdpY r g b)] :=
    frameRel_or_eq h1.y fun x y p _ _ hp => hp.resolve_right id
  have hu : FrameSpec mid.u i.u i.uStride i.width i.height 1 fun x y =>
      let (r, g, b) := rdpColours ch (pixelAt rgba stride ch.count x y); [pattern16 (rdpU r g b)] :=
    frameRel_or_eq h1.u fun x y p _ _ hp => hp.resolve_right id
  have hv : FrameSpec mid.v i.v i.vStride i.width i.height 1 fun x y =>
      let (r, g, b) := rdpColours ch (pixelAt rgba stride ch.count x y); [pattern16 (rdpV r g b)] :=
    frameRel_or_eq h1.v fun x y p _ _ hp => hp.resolve_right id
  have by' := frameSpec_bound hy hi.y.bound fun x y => pattern_lt _
  have bu' := frameSpec_bound hu pu.bound fun x y => pattern_lt _
  have bv' := frameSpec_bound hv pv.bound fun x y => pattern_lt _
  have good : GoodPlanar mid .yuv444 65536 := by
    refine ⟨g1 ▸ hi.wpos, g2 ▸ hi.hpos, g1 ▸ hi.w32, g2 ▸ hi.h32, ?_, ?_, ?_⟩
    · rw [g1, g2, g3]
      exact ⟨hi.y.stride32, hi.y.cols_le, by rw [hy.1]; exact hi.y.full, by'⟩
    · rw [g1, g2, g4]
      exact ⟨hi.u.stride32, hi.u.cols_le, by rw [hu.1]; exact hi.u.full, bu'⟩
    · rw [g1, g2, g5]
      exact ⟨hi.v.stride32, hi.v.cols_le, by rw [hv.1]; exact hi.v.full, bv'⟩
  have lt : ∀ x y, (rdpColours ch (pixelAt rgba stride ch.count x y)).1 < 256 ∧
      (rdpColours ch (pixelAt rgba stride ch.count x y)).2.1 < 256 ∧
      (rdpColours ch (pixelAt rgba stride ch.count x y)).2.2 < 256 := fun x y =>
    rdpColours_lt (by decide) ch (mem_pixelAt hb)
  have vals : ∀ x y, x < i.width → y < i.height →
      let c := rdpColours ch (pixelAt rgba stride ch.count x y)
      signed16 (at' mid.y mid.yStride x y) = rdpY c.1 c.2.1 c.2.2 ∧
      signed16 (at' mid.u mid.uStride x y) = rdpU c.1 c.2.1 c.2.2 ∧
      signed16 (at' mid.v mid.vStride x y) = rdpV c.1 c.2.1 c.2.2 := by
    intro x y hx hy'
    simp only [g3, g4, g5]
    rw [frameSpec_at hy hx hy', frameSpec_at hu hx hy', frameSpec_at hv hx hy']
    obtain ⟨l1, l2, l3⟩ := lt x y
    obtain ⟨r1, r2, r3⟩ := c42_encode_range _ _ _ l1 l2 l3
    exact ⟨signed_pattern (Int.le_trans (by decide) r1.1) (Int.lt_of_le_of_lt r1.2 (by decide)),
      signed_pattern (Int.le_trans (by decide) r2.1) (Int.lt_of_le_of_lt r2.2 (by decide)),
      signed_pattern (Int.le_trans (by decide) r3.1) (Int.lt_of_le_of_lt r3.2 (by decide))⟩
  obtain ⟨out, e2, h2⟩ := c42_decode ch' mid dst stride' good (by rw [g1, g2]; exact hd) (by
    intro x y hx hy'
    rw [g1] at hx
    rw [g2] at hy'
    obtain ⟨v1, v2, v3⟩ := vals x y hx hy'
    obtain ⟨l1, l2, l3⟩ := lt x y
    obtain ⟨r1, r2, r3⟩ := c42_encode_range _ _ _ l1 l2 l3
    unfold RdpSample
    rw [v1, v2, v3]
    refine ⟨⟨?_, ?_⟩, ⟨?_, ?_⟩, ⟨?_, ?_⟩⟩ <;> omega)
  rw [g1, g2] at h2
  refine ⟨mid, out, e1, e2, fun x y hx hy' => ?_⟩
  obtain ⟨v1, v2, v3⟩ := vals x y hx hy'
  have px := frameSpec_pixel h2 hx hy' (rdpLayout_length ..)
  rw [v1, v2, v3] at px
  obtain ⟨l1, l2, l3⟩ := lt x y
  exact ⟨_, _, _, px, c42_colour_round_trip _ _ _ l1 l2 l3⟩

/-- C42: the bound of one is reached: black survives, but a component may lose one step. -/
theorem c42_loss_happens : rdpColour (rdpY 255 255 255) (rdpU 255 255 255) (rdpV 255 255 255)
    ≠ (255, 255, 255) := by decide

/-- C42: samples far outside the format's range make the decoder overflow: above 28671 luma leaves 16
bits when 4096 is added, and extreme chroma leaves 32 bits when multiplied. -/
theorem c42_extreme_samples_panic :
    (∀ y u v : Int, 28671 < y → rdpDecode y u v = .panic) ∧ rdpDecode 0 0 (-32768) = .panic := by
  refine ⟨fun y u v h => ?_, by decide +kernel⟩
  unfold rdpDecode
  rw [show chk16 (y + 4096) = .panic from if_neg (by omega)]
  rfl

theorem NoErr.rdpVal {a b c d : Int} {r g b' : Nat} : NoErr (rdpVal a b c d r g b') := by
  unfold Verif.rdpVal
  no_err

/-- C42 and C05: the encoder returns the error value exactly for sizes that do not fit. -/
theorem c05_rdp_encode_rejects (ch : RdpChannels) (hy hu hv : MapHandler)
    (h1 : ∀ a b, NoErr (hy a b)) (h2 : ∀ a b, NoErr (hu a b)) (h3 : ∀ a b, NoErr (hv a b))
    (i : Planar) (rgba : Buf) (stride : Nat)
    (hi : U32 i.yStride ∧ U32 i.uStride ∧ U32 i.vStride ∧ U32 i.width ∧ U32 i.height) (hs : U32 stride) :
    (∃ e, rgbxToRdp x64 ch hy hu hv i rgba stride = .err e) ↔
      ¬ (PlanarFits i .yuv444 ∧ RgbFits rgba.length stride i.width i.height ch.count) := by
  obtain ⟨hcn, hcn4⟩ := rdp_count ch
  obtain ⟨a, b, c, hw, hh⟩ := hi
  refine rejects_iff ?_ (c01_planar_check_no_panic i .yuv444 ⟨a, b, c, hw, hh⟩)
    (checkRgba_no_panic hs hw hh hcn hcn4) (c01_planar_check_iff i .yuv444 ⟨a, b, c, hw, hh⟩)
    (c02_rgba_check_iff _ _ _ _ _ hs hw hh hcn hcn4)
  have hm : ∀ hnd kr kg kb off a b c, (∀ a b, NoErr (hnd a b)) →
      NoErr (mapFrame true i.width 1 hnd (toRdpBody ch kr kg kb off) a b c) :=
    fun hnd kr kg kb off a b c hh => .mapFrame hh fun px c => by
      unfold toRdpBody
      no_err [NoErr.rdpVal]
  exact .bind (hm _ _ _ _ _ _ _ _ h1) fun _ => .bind (hm _ _ _ _ _ _ _ _ h2) fun _ =>
    .bind (hm _ _ _ _ _ _ _ _ h3) fun _ => .ok

/-- C42 and C05, decoder. -/
theorem c05_rdp_decode_rejects (ch : RdpChannels) (i : Planar) (rgba : Buf) (stride : Nat)
    (hi : U32 i.yStride ∧ U32 i.uStride ∧ U32 i.vStride ∧ U32 i.width ∧ U32 i.height) (hs : U32 stride) :
    (∃ e, rdpToRgbx x64 ch i rgba stride = .err e) ↔
      ¬ (PlanarFits i .yuv444 ∧ RgbFits rgba.length stride i.width i.height ch.count) := by
  obtain ⟨hcn, hcn4⟩ := rdp_count ch
  obtain ⟨a, b, c, hw, hh⟩ := hi
  refine rejects_iff ?_ (c01_planar_check_no_panic i .yuv444 ⟨a, b, c, hw, hh⟩)
    (checkRgba_no_panic hs hw hh hcn hcn4) (c01_planar_check_iff i .yuv444 ⟨a, b, c, hw, hh⟩)
    (c02_rgba_check_iff _ _ _ _ _ hs hw hh hcn hcn4)
  refine .mapFrame (fun _ _ => .ok) fun px c => ?_
  unfold fromRdpBody rdpDecode storeRdp
  no_err

/-! ### Concrete cases -/

/-- A 2×1 AYUV image with padded rows. -/
def demoAyuv : Packed := ⟨[128, 180, 90, 200, 255, 16, 128, 128, 7], 9, 2, 1⟩

example : GoodDst demoAyuv.yuy.length demoAyuv.yuyStride demoAyuv.width demoAyuv.height 4 ∧
    Bytes demoAyuv.yuy := by
  refine ⟨⟨by unfold U32; decide, by decide, by unfold FullRows; decide, by decide⟩, by
    unfold Bytes; decide⟩
example : ayuvToRgbx x64 .ayuv .rgba noMap demoAyuv (List.replicate 8 1) 8 .limited .bt709 true
    = .ok [128, 81, 56, 128, 0, 0, 0, 255] := by decide +kernel
example : rgbxToRdp x64 .argb noMap noMap noMap ⟨[0, 0], 2, [0, 0], 2, [0, 0], 2, 2, 1⟩
    [9, 255, 0, 0, 9, 10, 20, 30] 8 = .ok ⟨[63879, 62020], 2, [64157, 214], 2, [4078, 65350], 2, 2, 1⟩ := by
  decide +kernel
example : rdpToRgbx x64 .bgr ⟨[63879, 62020], 2, [64157, 214], 2, [4078, 65350], 2, 2, 1⟩
    [0, 0, 0, 0, 0, 0] 6 = .ok [0, 0, 254, 29, 19, 9] := by decide +kernel

end Verif
