import Verif.Props.F16Arith
import Verif.Props.Yuy2
import Verif.Props.Turn
import Verif.Props.DeepErrors
/-!
# C47: decoding to half floats, and converting half-float images
-/
namespace Verif
open Spec

/-! ## YUV images -/

/-- Component by component, `p` holds the half floats of the levels `l`. -/
abbrev Spec.HalfPixel (d : Nat) (l p : Buf) : Prop := List.Forall₂ (UnitHalf d) l p

theorem halfPixel_of_map {d : Nat} (hd : HalfDepth d ∨ d = 16) :
    ∀ {l : Buf}, (∀ v ∈ l, v < 65520) → HalfPixel d l (l.map fun v : Nat => f16Scaled d (v : Int))
  | [], _ => .nil
  | v :: l, h => .cons (c47_unit_arith d v hd (h v List.mem_cons_self))
      (halfPixel_of_map hd fun w hw => h w (List.mem_cons_of_mem _ hw))

theorem halfPixel_iff {d : Nat} (hd : HalfDepth d ∨ d = 16) {l p : Buf} (h : ∀ v ∈ l, v < 65520) :
    HalfPixel d l p ↔ p = l.map fun v : Nat => f16Scaled d (v : Int) := by
  constructor
  · intro hp
    induction hp with
    | nil => rfl
    | cons hab _ ih =>
      rw [List.map_cons, ← ih fun v hv => h v (List.mem_cons_of_mem _ hv),
        (unitHalf_iff hd (h _ List.mem_cons_self)).1 hab]
  · rintro rfl
    exact halfPixel_of_map hd h

theorem layout_map (f : Nat → Nat) (ch : Channels) (r g b a : Nat) :
    (layout ch r g b a).map f = layout ch (f r) (f g) (f b) (f a) := by cases ch <;> rfl

theorem layout_all_lt {N : Nat} {ch : Channels} {r g b a : Nat} (hr : r < N) (hg : g < N) (hb : b < N)
    (ha : a < N) : ∀ v ∈ layout ch r g b a, v < N := by
  intro v hv
  cases ch <;> simp only [layout, List.mem_cons, List.not_mem_nil, or_false] at hv <;>
    rcases hv with rfl | rfl | rfl | rfl <;> assumption

theorem deepPixel_bound {d : Nat} (hd : HalfDepth d) {half : Int} {p k : Nat} {ch : Channels}
    {rg : YuvRange} {m : Matrix} {y u v : Nat} :
    ∀ x ∈ deepPixel half p k d d ch rg m y u v, x < 65520 := by
  have h : ∀ x, x ≤ 2 ^ d - 1 → x < 65520 := fun x hx =>
    hd.lt (Nat.lt_of_le_of_lt hx (Nat.sub_lt (Nat.two_pow_pos d) Nat.one_pos))
  exact layout_all_lt (h _ (saturate_le ..)) (h _ (saturate_le ..)) (h _ (saturate_le ..))
    (h _ (Nat.le_refl _))

theorem Spec.HalfDepth.depth {d : Nat} (h : HalfDepth d) : Depth d := by
  rcases h with rfl | rfl | rfl <;> unfold Depth <;> decide

theorem qr_saturate (d : Nat) (s : Int) :
    qr 13 d s = ((saturate d (roundShift (2 ^ 12 - 1) 13 s) : Nat) : Int) := by
  unfold qr saturate roundShift
  omega

theorem putF16_ok {d : Nat} (hd : HalfDepth d) (e : Endianness) (bp : BytesPacking) (ch : Channels)
    (rg : YuvRange) (m : Matrix) (a : Nat) :
    PutOk 65536 ch.count (putDeep (qrshr 13 d) (f16Scaled d) (fun v => toNe e bp v (16 - d))
        (searchInverse 13 d rg m) (getYuvRange d rg) ch (f16Scaled d (a : Int)))
      (fun y u v => (deepAlphaPixel (2 ^ 12 - 1) 13 13 d d ch rg m a (toNe e bp y (16 - d))
        (toNe e bp u (16 - d)) (toNe e bp v (16 - d))).map fun v : Nat => f16Scaled d (v : Int)) := by
  have h := putDeep_ok (cast := f16Scaled d) (ne := fun v => toNe e bp v (16 - d)) (B := 65536)
    (c := getYuvRange d rg)
    (QOk.mono (qrshr_QOk 13 d) (by decide)) (fits_u16 hd.depth rg m)
    (fun y u v hy hu hv =>
      near_u16 hd.depth rg (toNe_lt e bp hy) (toNe_lt e bp hu) (toNe_lt e bp hv))
    ch (f16Scaled d (a : Int))
  simp only [qr_saturate] at h
  unfold deepAlphaPixel
  simp only [layout_map]
  exact h

/-- C47: decoding a good 10-, 12- or 14-bit planar image to half floats succeeds, writes exactly the
`width × height` pixels, and every component is the half float of the level that decoding to
integers of the same depth (C28) yields (or what the vector code guarantees); alpha is 1.0. -/
theorem c47_planar_decode (e : Endianness) (bp : BytesPacking) (d : Nat) (hd : HalfDepth d)
    (ch : Channels) (s : Sampling) (i : Planar) (rgba : Buf) (stride : Nat) (rg : YuvRange)
    (m : Matrix) (hi : GoodPlanar i s 65536)
    (hdst : GoodDst rgba.length stride i.width i.height ch.count)
    (R : Nat → Nat → Nat → Buf → Prop) (h : RowHandler)
    (hh : h.Ok 65536 ch.count i.width (hdiv s) R) :
    ∃ out, p16ToRgbF16 x64 e bp d ch s h i rgba stride rg m = .ok out ∧
      FrameRel out rgba stride i.width i.height ch.count (fun x y p =>
        HalfPixel d (deepPlanarPixel e bp d ch s i rg m x y) p ∨
        R (Planar.Y i x y) (Planar.U i s x y) (Planar.V i s x y) p) := by
  have hput := putF16_ok hd e bp ch rg m (2 ^ d - 1)
  rw [scaled_max hd] at hput
  obtain ⟨out, e1, hr⟩ := planarDeep_spec (guard := true) hi hdst hput hh
  refine ⟨out, e1, hr.1, fun x y hx hy => ?_, hr.2.2⟩
  obtain ⟨b1, b2, b3⟩ := hi.sample_lt hx hy
  have := hr.2.1 x y hx hy
  simp only [toNe_eq e bp b1, toNe_eq e bp b2, toNe_eq e bp b3] at this
  rw [halfPixel_iff (.inl hd) (deepPixel_bound hd)]
  exact this

/-- C47 without vector code: the half-float image is, component by component, the image of the same
depth that the integer decoder writes. -/
theorem c47_planar_decode_exact (e : Endianness) (bp : BytesPacking) (d : Nat) (hd : HalfDepth d)
    (ch : Channels) (s : Sampling) (i : Planar) (rgba : Buf) (stride : Nat) (rg : YuvRange)
    (m : Matrix) (hi : GoodPlanar i s 65536)
    (hdst : GoodDst rgba.length stride i.width i.height ch.count) :
    ∃ out ints, p16ToRgbF16 x64 e bp d ch s noSimd i rgba stride rg m = .ok out ∧
      p16ToRgb16 x64 e bp d ch s noSimd i rgba stride rg m = .ok ints ∧
      FrameRel out rgba stride i.width i.height ch.count (fun x y p =>
        HalfPixel d (pixelAt ints stride ch.count x y) p) := by
  obtain ⟨out, e1, hr⟩ := c47_planar_decode e bp d hd ch s i rgba stride rg m hi hdst
    (fun _ _ _ _ => False) noSimd noSimd_ok
  obtain ⟨ints, e2, hs⟩ := c28_planar_decode_exact e bp d hd.depth ch s i rgba stride rg m hi hdst
  refine ⟨out, ints, e1, e2, hr.1, fun x y hx hy => ?_, hr.2.2⟩
  simp only []
  rw [frameSpec_pixel hs hx hy (layout_length ..)]
  exact (hr.2.1 x y hx hy).resolve_right id

/-- C47: every written half float lies in `[0, 1]`. -/
theorem c47_planar_range (e : Endianness) (bp : BytesPacking) (d : Nat) (hd : HalfDepth d)
    (ch : Channels) (s : Sampling) (i : Planar) (rgba : Buf) (stride : Nat) (rg : YuvRange)
    (m : Matrix) (hi : GoodPlanar i s 65536)
    (hdst : GoodDst rgba.length stride i.width i.height ch.count) :
    ∃ out, p16ToRgbF16 x64 e bp d ch s noSimd i rgba stride rg m = .ok out ∧
      FrameRel out rgba stride i.width i.height ch.count (fun _ _ p =>
        ∀ b ∈ p, 0 ≤ halfValue b ∧ halfValue b ≤ 1) := by
  obtain ⟨out, e1, hr⟩ := c47_planar_decode e bp d hd ch s i rgba stride rg m hi hdst
    (fun _ _ _ _ => False) noSimd noSimd_ok
  refine ⟨out, e1, hr.1, fun x y hx hy b hb => ?_, hr.2.2⟩
  have := (hr.2.1 x y hx hy).resolve_right id
  rw [halfPixel_iff (.inl hd) (deepPixel_bound hd)] at this
  rw [this, List.mem_map] at hb
  obtain ⟨v, hv, rfl⟩ := hb
  have hvd : v < 2 ^ d := by
    have hp : ∀ x, x ≤ 2 ^ d - 1 → x < 2 ^ d := fun x hx =>
      Nat.lt_of_le_of_lt hx (Nat.sub_lt (Nat.two_pow_pos d) Nat.one_pos)
    exact layout_all_lt (hp _ (saturate_le ..)) (hp _ (saturate_le ..)) (hp _ (saturate_le ..))
      (hp _ (Nat.le_refl _)) v hv
  exact (c47_unit_range d v _ hd hvd (c47_unit_arith d v (.inl hd) (hd.lt hvd))).2

/-- C47, images with an alpha plane: the fourth component is the half float of the alpha sample. -/
theorem c47_alpha_decode (d : Nat) (hd : HalfDepth d)
    (ch : Channels) (hch : ch = .rgba ∨ ch = .bgra) (s : Sampling) (i : PlanarAlpha) (rgba : Buf)
    (stride : Nat) (rg : YuvRange) (m : Matrix) (hi : GoodPlanarAlpha i s 65536)
    (ha : ∀ x y, x < i.width → y < i.height → alphaAt i x y < 2 ^ d)
    (hdst : GoodDst rgba.length stride i.width i.height ch.count)
    (R : Nat → Nat → Nat → Nat → Buf → Prop) (h : AlphaHandler)
    (hh : h.Ok 65536 ch.count i.width (hdiv s) R) :
    ∃ out, p16AlphaToRgbF16 x64 .little .lsb d ch s h i rgba stride rg m = .ok out ∧
      FrameRel out rgba stride i.width i.height ch.count (fun x y p =>
        let j := opaqueImage i
        HalfPixel d (deepAlphaPixel (2 ^ 12 - 1) 13 13 d d ch rg m (alphaAt i x y) (Planar.Y j x y)
          (Planar.U j s x y) (Planar.V j s x y)) p ∨
        R (Planar.Y j x y) (Planar.U j s x y) (Planar.V j s x y) (alphaAt i x y) p) := by
  have hal : ¬ ch.hasAlpha = false := by rcases hch with rfl | rfl <;> decide
  unfold p16AlphaToRgbF16
  rw [if_neg hal, hdst.accepted hi.wpos hi.hpos hi.w32 hi.h32 (count_pos ch) (count_le ch),
    hi.accepted]
  simp only [Outcome.bind_ok]
  have hput : AlphaPutOk 65536 ch.count
      (fun y u v a => putDeep (qrshr 13 d) (f16Scaled d) (fun v => toNe .little .lsb v (16 - d))
        (searchInverse 13 d rg m) (getYuvRange d rg) ch (f16Scaled d (a : Int)) y u v)
      (fun y u v a => (deepAlphaPixel (2 ^ 12 - 1) 13 13 d d ch rg m a
        (toNe .little .lsb y (16 - d)) (toNe .little .lsb u (16 - d))
        (toNe .little .lsb v (16 - d))).map fun v : Nat => f16Scaled d (v : Int)) :=
    ⟨fun y u v a c hy hu hv _ hc => (putF16_ok hd .little .lsb ch rg m a).ok y u v c hy hu hv hc,
      fun _ _ _ _ => by rw [List.length_map]; exact layout_length ..⟩
  obtain ⟨out, e1, hr⟩ := alphaFrame_spec (guard := true) hi hdst hput hh
  refine ⟨out, e1, hr.1, fun x y hx hy => ?_, hr.2.2⟩
  obtain ⟨b1, b2, b3⟩ := hi.opaque.sample_lt hx hy
  have := hr.2.1 x y hx hy
  simp only [toNe_eq .little .lsb b1, toNe_eq .little .lsb b2, toNe_eq .little .lsb b3] at this
  rw [halfPixel_iff (.inl hd)]
  · exact this
  · have hp : ∀ x, x ≤ 2 ^ d - 1 → x < 65520 := fun x hx =>
      hd.lt (Nat.lt_of_le_of_lt hx (Nat.sub_lt (Nat.two_pow_pos d) Nat.one_pos))
    exact layout_all_lt (hp _ (saturate_le ..)) (hp _ (saturate_le ..)) (hp _ (saturate_le ..))
      (hd.lt (ha x y hx hy))

/-! ## GBR images -/

/-- The level a GBR sample stands for in the half-float decoders: itself in full range, expanded
from the luma range with the 13-bit coefficient, rounded and saturated in limited range. -/
def Spec.gbrHalfLevel (d : Nat) (rg : YuvRange) (s : Nat) : Nat :=
  match rg with
  | .full => s
  | .limited => saturate d (roundShift (2 ^ 12 - 1) 13 (((s : Int) - 16 * 2 ^ (d - 8)) * gbrF16Coef d))

theorem gbrF16Coefs : gbrF16Coef 10 = 9566 ∧ gbrF16Coef 12 = 9573 ∧ gbrF16Coef 14 = 9575 ∧
    gbrF16Coef 16 = 9575 := by decide +kernel

theorem gbrF16Coef_cases {d : Nat} (hd : Deep d) :
    (d = 10 ∧ gbrF16Coef d = 9566) ∨ (d = 12 ∧ gbrF16Coef d = 9573) ∨
    (d = 14 ∧ gbrF16Coef d = 9575) ∨ (d = 16 ∧ gbrF16Coef d = 9575) := by
  obtain ⟨h1, h2, h3, h4⟩ := gbrF16Coefs
  rcases hd with rfl | rfl | rfl | rfl
  · exact .inl ⟨rfl, h1⟩
  · exact .inr (.inl ⟨rfl, h2⟩)
  · exact .inr (.inr (.inl ⟨rfl, h3⟩))
  · exact .inr (.inr (.inr ⟨rfl, h4⟩))

theorem Spec.Deep.depth {d : Nat} (h : Deep d) : Depth d := by
  unfold Depth; unfold Deep at h; omega

theorem gbrF16Full_eq {d s : Nat} (hd : Deep d) (hs : s < 2 ^ d) :
    gbrF16Full d s = f16Scaled d (s : Int) := by
  unfold gbrF16Full
  split
  · rfl
  · rename_i h16
    have : 2 ^ d ≤ 2 ^ 14 := Nat.pow_le_pow_right (by decide) (by unfold Deep at hd; omega)
    have e : asI16 (s : Int) = s := by
      have h' : s < 16384 := Nat.lt_of_lt_of_le hs this
      unfold asI16; omega
    rw [e]

theorem gbrF16Val_ok {d : Nat} (hd : Deep d) (rg : YuvRange) {s : Nat} (hs : s < 2 ^ d) :
    gbrF16Val d rg s = .ok (f16Scaled d (gbrHalfLevel d rg s : Nat)) := by
  cases rg with
  | full => simp only [gbrF16Val, gbrHalfLevel, gbrF16Full_eq hd hs]
  | limited =>
    have hb := grayBias hd.depth
    have h1 := narrowDiff_ok' hd.depth hs (show (getYuvRange d .limited).biasY ≤ 2 ^ (d - 4) by
      rw [hb]; rcases hd with h | h | h | h <;> subst h <;> decide)
    have hbnd : -1000000000 ≤ ((s : Int) - (getYuvRange d .limited).biasY) * gbrF16Coef d ∧
        ((s : Int) - (getYuvRange d .limited).biasY) * gbrF16Coef d ≤ 1000000000 := by
      rw [hb]
      rcases gbrF16Coef_cases hd with ⟨rfl, e⟩ | ⟨rfl, e⟩ | ⟨rfl, e⟩ | ⟨rfl, e⟩ <;> rw [e] <;>
        norm_num at hs ⊢ <;> omega
    simp only [gbrF16Val, h1, Outcome.bind_ok]
    rw [mul32_ok (by omega) (by omega)]
    simp only [Outcome.bind_ok]
    rw [qrshr_ok (by norm_num; omega) (by norm_num; omega)]
    simp only [Outcome.bind_ok, Outcome.pure_eq, qr_saturate, gbrHalfLevel, hb]
    push_cast
    rfl

theorem gbrHalfLevel_lt {d : Nat} (rg : YuvRange) {s : Nat} (hs : s < 2 ^ d) :
    gbrHalfLevel d rg s < 2 ^ d := by
  cases rg with
  | full => exact hs
  | limited => exact Nat.lt_of_le_of_lt (saturate_le ..) (Nat.sub_lt (Nat.two_pow_pos d) Nat.one_pos)

/-- C47: the level is within `1/2 + 2^d / 2^13` of the exact expansion from the luma range. -/
theorem c47_gbr_level_close (d : Nat) (hd : Deep d) (rg : YuvRange) (s : Nat) (hs : s < 2 ^ d) :
    |(gbrHalfLevel d rg s : Rat) - satQ d (maxV d * normY d rg s)| ≤ 1 / 2 + 2 ^ d / 2 ^ 13 := by
  cases rg with
  | full => exact c33_level_close d hd.depth .full s hs
  | limited =>
    have key : |((((s : Int) - 16 * 2 ^ (d - 8)) * gbrF16Coef d : Int) : Rat) / 2 ^ 13
        - maxV d * normY d .limited s| ≤ 2 ^ d / 2 ^ 13 := ?_
    · have := saturate_close (dOut := d) (k := 13) (half := 2 ^ 12 - 1) (by decide) (.inl (by norm_num)) key
      exact this
    have hs0 : (0 : Rat) ≤ s := by positivity
    unfold normY offY gainY maxV
    push_cast
    rw [abs_le]
    rcases gbrF16Coef_cases hd with ⟨rfl, e⟩ | ⟨rfl, e⟩ | ⟨rfl, e⟩ | ⟨rfl, e⟩ <;> rw [e]
    · have : (s : Rat) ≤ 1024 := by exact_mod_cast hs.le
      constructor <;> norm_num <;> linarith
    · have : (s : Rat) ≤ 4096 := by exact_mod_cast hs.le
      constructor <;> norm_num <;> linarith
    · have : (s : Rat) ≤ 16384 := by exact_mod_cast hs.le
      constructor <;> norm_num <;> linarith
    · have : (s : Rat) ≤ 65536 := by exact_mod_cast hs.le
      constructor <;> norm_num <;> linarith

/-- The levels of the pixel at `(x, y)`: red from V, green from Y, blue from U. -/
abbrev Spec.gbrHalfPixel (d : Nat) (ch : Channels) (rg : YuvRange) (i : Planar) (a x y : Nat) : Buf :=
  layout ch (gbrHalfLevel d rg (at' i.v i.vStride x y)) (gbrHalfLevel d rg (at' i.y i.yStride x y))
    (gbrHalfLevel d rg (at' i.u i.uStride x y)) a

theorem gbrF16_spec (d : Nat) (hD : Deep d) (ch : Channels) (i : Planar) (rgba : Buf)
    (stride : Nat) (rg : YuvRange) (hi : GoodPlanar i .yuv444 (2 ^ d))
    (hd : GoodDst rgba.length stride i.width i.height ch.count) :
    ∃ out, gbrToRgbF16 x64 d ch i rgba stride rg = .ok out ∧
      FrameSpec out rgba stride i.width i.height ch.count (fun x y =>
        let F := fun v : Nat => f16Scaled d (gbrHalfLevel d rg v : Nat)
        layout ch (F (at' i.v i.vStride x y)) (F (at' i.y i.yStride x y)) (F (at' i.u i.uStride x y))
          half1) := by
  have hcn := count_pos ch
  obtain ⟨hu, hv⟩ := planes444 hi
  have hs : ∀ s ∈ gbrSrc i, GoodSrc s i.width i.height (2 ^ d) := by
    intro s hs
    simp only [List.mem_cons, List.not_mem_nil, or_false] at hs
    rcases hs with rfl | rfl | rfl
    · exact goodSrc_plane hi.y
    · exact goodSrc_plane hu
    · exact goodSrc_plane hv
  unfold gbrToRgbF16
  rw [hd.accepted hi.wpos hi.hpos hi.w32 hi.h32 hcn (count_le ch), hi.accepted]
  simp only [Outcome.bind_ok]
  obtain ⟨out, e, h⟩ := mapFrame_spec (cutDst := false) hi.wpos hcn hs
    (gbrBody_ok (a := 15360) (ch := ch) Nat.one_pos Nat.one_pos Nat.one_pos
      (fun y hy => gbrF16Val_ok hD rg hy)) (noMap_ok (R := fun _ _ => False))
    hd.cols_le hd.full (Or.inr ⟨_, List.mem_cons_self, rfl⟩)
  refine ⟨out, e, frameRel_or_eq h fun x y p hx hy hp => ?_⟩
  rw [hp.resolve_right id]
  simp only [pixelsAt, List.map_cons, List.map_nil, pixelAt_one hx hy hi.y, pixelAt_one hx hy hu,
    pixelAt_one hx hy hv]
  rfl

/-- C47, GBR: every component is the half float of the level of its sample; alpha is 1.0. -/
theorem c47_gbr_decode (d : Nat) (hD : HalfDepth d) (ch : Channels) (i : Planar) (rgba : Buf)
    (stride : Nat) (rg : YuvRange) (hi : GoodPlanar i .yuv444 (2 ^ d))
    (hd : GoodDst rgba.length stride i.width i.height ch.count) :
    ∃ out, gbrToRgbF16 x64 d ch i rgba stride rg = .ok out ∧
      FrameRel out rgba stride i.width i.height ch.count (fun x y p =>
        HalfPixel d (gbrHalfPixel d ch rg i (2 ^ d - 1) x y) p) := by
  have hDeep : Deep d := by unfold HalfDepth at hD; unfold Deep; omega
  obtain ⟨out, e, h⟩ := gbrF16_spec d hDeep ch i rgba stride rg hi hd
  refine ⟨out, e, h.1, fun x y hx hy => ?_, h.2.2⟩
  obtain ⟨hu, hv⟩ := planes444 hi
  have hl : ∀ x, x < 2 ^ d → x < 65520 := fun _ => hD.lt
  rw [frameSpec_pixel h hx hy (layout_length ..), halfPixel_iff (.inl hD) (layout_all_lt
    (hl _ (gbrHalfLevel_lt rg (hv.at_lt hx hy))) (hl _ (gbrHalfLevel_lt rg (hi.y.at_lt hx hy)))
    (hl _ (gbrHalfLevel_lt rg (hu.at_lt hx hy)))
    (hl _ (Nat.sub_lt (Nat.two_pow_pos d) Nat.one_pos))), layout_map, scaled_max hD]

/-- C47, 16-bit GBR, the part that holds: while all levels are below 65520.  Missing: levels from
65520 on, which include white, see `c47_gbr16_white_infinite`. -/
theorem c47_gbr16_decode_partial (ch : Channels) (i : Planar) (rgba : Buf)
    (stride : Nat) (rg : YuvRange) (hi : GoodPlanar i .yuv444 (2 ^ 16))
    (hd : GoodDst rgba.length stride i.width i.height ch.count)
    (hl : ∀ x y, x < i.width → y < i.height → ∀ v ∈ gbrHalfPixel 16 .rgb rg i 0 x y, v < 65520) :
    ∃ out, gbrToRgbF16 x64 16 ch i rgba stride rg = .ok out ∧
      FrameRel out rgba stride i.width i.height ch.count (fun x y p =>
        ∃ r g b, p = layout ch r g b half1 ∧
          HalfPixel 16 (gbrHalfPixel 16 .rgb rg i 0 x y) [r, g, b]) := by
  obtain ⟨out, e, h⟩ := gbrF16_spec 16 (by unfold Deep; decide) ch i rgba stride rg hi hd
  refine ⟨out, e, h.1, fun x y hx hy => ?_, h.2.2⟩
  rw [frameSpec_pixel h hx hy (layout_length ..)]
  exact ⟨_, _, _, rfl, (halfPixel_iff (.inr rfl) (hl x y hx hy)).2 rfl⟩

/-- The finding: full-range 16-bit GBR white is decoded to infinity. -/
theorem c47_gbr16_white_infinite :
    gbrToRgbF16 x64 16 .rgba ⟨[65535], 1, [65535], 1, [65535], 1, 1, 1⟩ [0, 0, 0, 0] 4 .full
      = .ok [31744, 31744, 31744, half1] := by decide +kernel

theorem gbrF16AlphaBody_ok {d B : Nat} {v : Nat → Outcome Nat} {V : Nat → Nat} {ch : Channels}
    {s t u a : Src} {rest : List Src} (hs : 0 < s.cn) (ht : 0 < t.cn) (hu : 0 < u.cn) (ha : 0 < a.cn)
    (hv : ∀ y, y < B → v y = .ok (V y)) :
    BodyOk B ch.count (s :: t :: u :: a :: rest) (gbrF16AlphaBody d v ch)
      (fun px => layout ch (V (comp px 2 0)) (V (comp px 0 0)) (V (comp px 1 0))
        (gbrF16Full d (comp px 3 0))) where
  len px := layout_length ..
  ok px c hp hc := by
    obtain ⟨h1, h2⟩ := hp.comp (j := 0) (k := 0) rfl hs
    obtain ⟨h3, h4⟩ := hp.comp (j := 1) (k := 0) rfl ht
    obtain ⟨h5, h6⟩ := hp.comp (j := 2) (k := 0) rfl hu
    obtain ⟨h7, h8⟩ := hp.comp (j := 3) (k := 0) rfl ha
    unfold gbrF16AlphaBody
    rw [h1, h3, h5, h7]
    simp only [Outcome.bind_ok]
    rw [hv _ h2, hv _ h4, hv _ h6]
    exact storePix_ok hc

/-- C47, GBR with an alpha plane: alpha becomes the half float of the alpha sample. -/
theorem c47_gbr_alpha_decode (d : Nat) (hD : HalfDepth d) (ch : Channels) (ha : ch.hasAlpha = true)
    (i : PlanarAlpha) (rgba : Buf) (stride : Nat) (rg : YuvRange)
    (hi : GoodPlanarAlpha i .yuv444 (2 ^ d))
    (hd : GoodDst rgba.length stride i.width i.height ch.count) :
    ∃ out, gbrAlphaToRgbF16 x64 d ch i rgba stride rg = .ok out ∧
      FrameRel out rgba stride i.width i.height ch.count (fun x y p =>
        HalfPixel d (gbrHalfPixel d ch rg (opaqueImage i) (alphaAt i x y) x y) p) := by
  have hDeep : Deep d := by unfold HalfDepth at hD; unfold Deep; omega
  have hcn := count_pos ch
  obtain ⟨hu, hv⟩ := planes444 hi.opaque
  simp only [opaqueImage] at hu hv
  have hs : ∀ s ∈ [(⟨i.y, i.yStride, 1, true⟩ : Src), ⟨i.u, i.uStride, 1, false⟩,
      ⟨i.v, i.vStride, 1, false⟩, ⟨i.a, i.aStride, 1, false⟩],
      GoodSrc s i.width i.height (2 ^ d) := by
    intro s hs
    simp only [List.mem_cons, List.not_mem_nil, or_false] at hs
    rcases hs with rfl | rfl | rfl | rfl
    · exact goodSrc_plane hi.y
    · exact goodSrc_plane hu
    · exact goodSrc_plane hv
    · exact goodSrc_plane hi.a
  unfold gbrAlphaToRgbF16
  rw [if_neg (by simp [ha]), hd.accepted hi.wpos hi.hpos hi.w32 hi.h32 hcn (count_le ch), hi.accepted]
  simp only [Outcome.bind_ok]
  obtain ⟨out, e, h⟩ := mapFrame_spec (cutDst := false) hi.wpos hcn hs
    (gbrF16AlphaBody_ok (d := d) (ch := ch) Nat.one_pos Nat.one_pos Nat.one_pos Nat.one_pos
      (fun y hy => gbrF16Val_ok hDeep rg hy)) (noMap_ok (R := fun _ _ => False))
    hd.cols_le hd.full (Or.inr ⟨_, List.mem_cons_self, rfl⟩)
  refine ⟨out, e, h.1, fun x y hx hy => ?_, h.2.2⟩
  rw [(h.2.1 x y hx hy).resolve_right id]
  simp only [pixelsAt, List.map_cons, List.map_nil, pixelAt_one hx hy hi.y, pixelAt_one hx hy hu,
    pixelAt_one hx hy hv, pixelAt_one hx hy hi.a]
  have hl : ∀ x, x < 2 ^ d → x < 65520 := fun _ => hD.lt
  have hal := alphaSample_lt hi hx hy
  show HalfPixel d (layout ch (gbrHalfLevel d rg (at' i.v i.vStride x y))
    (gbrHalfLevel d rg (at' i.y i.yStride x y)) (gbrHalfLevel d rg (at' i.u i.uStride x y))
    (alphaAt i x y)) _
  rw [halfPixel_iff (.inl hD) (layout_all_lt (hl _ (gbrHalfLevel_lt rg (hv.at_lt hx hy)))
    (hl _ (gbrHalfLevel_lt rg (hi.y.at_lt hx hy))) (hl _ (gbrHalfLevel_lt rg (hu.at_lt hx hy)))
    (hl _ hal)), layout_map, ← gbrF16Full_eq hDeep hal]
  rfl

/-! ## Converting images to and from half floats -/

theorem elemBody_ok {B : Nat} {f : Nat → Nat} {s : Src} {rest : List Src} (hs : 0 < s.cn) :
    BodyOk B 1 (s :: rest) (elemBody f) (fun px => [f (comp px 0 0)]) where
  len px := rfl
  ok px c hp hc := by
    obtain ⟨h1, h2⟩ := hp.comp (j := 0) (k := 0) rfl hs
    unfold elemBody
    rw [h1]
    simp only [Outcome.bind_ok]
    match c, hc with
    | [_], _ => rfl

/-- What both converters do with accepted images: every element of every pixel is converted (or what
the vector code guarantees), nothing else is written. -/
theorem c47_convert (f : Nat → Nat) (cn : Nat) (hcn : 0 < cn ∧ cn ≤ 4) (src dst : Buf)
    (srcStride dstStride w h B : Nat) (hw : 0 < w) (hh : 0 < h) (w32 : U32 w) (h32 : U32 h)
    (hsrc : GoodDst src.length srcStride w h cn) (hb : ∀ a ∈ src, a < B)
    (hdst : GoodDst dst.length dstStride w h cn)
    (R : List Buf → Buf → Prop) (hd : MapHandler)
    (hhd : hd.Ok B (w * cn) 1 [⟨src, srcStride, 1, true⟩] R) :
    ∃ out, convertSurface x64 f cn hd src srcStride dst dstStride w h = .ok out ∧
      FrameRel out dst dstStride (w * cn) h 1 (fun x y p =>
        p = [f (at' src srcStride x y)] ∨ R [[at' src srcStride x y]] p) := by
  have g : GoodPlane src srcStride (w * cn) h B := ⟨hsrc.stride32, hsrc.cols_le, hsrc.full, hb⟩
  have hw' : 0 < w * cn := Nat.mul_pos hw hcn.1
  have u : ∀ {n}, U32 n → n % 2 ^ 32 = n := fun h => Nat.mod_eq_of_lt h
  unfold convertSurface
  rw [u hsrc.stride32, u hdst.stride32, u w32, u h32, hsrc.accepted hw hh w32 h32 hcn.1 hcn.2,
    hdst.accepted hw hh w32 h32 hcn.1 hcn.2]
  simp only [Outcome.bind_ok]
  obtain ⟨out, e, hr⟩ := mapFrame_spec (cutDst := true) (w := w * cn) (h := h) (B := B) (cn := 1)
    (srcs := [⟨src, srcStride, 1, true⟩]) hw' Nat.one_pos
    (fun s hs => by rw [List.mem_singleton.1 hs]; exact goodSrc_plane g)
    (elemBody_ok (f := f) Nat.one_pos) hhd (by simpa using hdst.cols_le) hdst.full (Or.inl rfl)
  refine ⟨out, e, hr.1, fun x y hx hy => ?_, hr.2.2⟩
  have := hr.2.1 x y hx hy
  simp only [pixelsAt, List.map_cons, List.map_nil, pixelAt_one hx hy g] at this
  exact this

/-- Elements seen as pixels. -/
theorem frame_regroup {out dst src : Buf} {st sst w h cn : Nat} {f : Nat → Nat} (hcn : 0 < cn)
    (hs : ∀ x y, x < w * cn → y < h → y * sst + x < src.length)
    (hr : FrameSpec out dst st (w * cn) h 1 (fun x y => [f (at' src sst x y)])) :
    FrameSpec out dst st w h cn (fun x y => (pixelAt src sst cn x y).map f) := by
  refine ⟨hr.1, fun x y c hx hy hc => ?_, fun i hi => hr.2.2 i fun hin => hi ?_⟩
  · have hlt : x * cn + c < w * cn := by
      have : (x + 1) * cn ≤ w * cn := Nat.mul_le_mul_right _ hx
      rw [Nat.add_mul, Nat.one_mul] at this
      omega
    have := hr.2.1 (x * cn + c) y 0 hlt hy Nat.one_pos
    rw [Nat.mul_one, Nat.add_zero] at this
    rw [this]
    have hl := hs _ _ hlt hy
    have hg : src[y * sst + x * cn + c]? = some (src[y * sst + (x * cn + c)]) := by
      rw [Nat.add_assoc, List.getElem?_eq_getElem hl]
    simp only [pixelAt, List.getElem?_map, List.getElem?_take, if_pos hc, List.getElem?_drop, hg, at',
      List.getD_eq_getElem?_getD, List.getElem?_eq_getElem hl]
    rfl
  · obtain ⟨x, y, c, hx, hy, hc, rfl⟩ := hin
    obtain rfl : c = 0 := by omega
    refine ⟨x / cn, y, x % cn, (Nat.div_lt_iff_lt_mul hcn).2 hx, hy, Nat.mod_lt _ hcn, ?_⟩
    rw [Nat.mul_one, Nat.add_zero, Nat.mul_comm (x / cn), Nat.div_add_mod]

theorem convert_exact (f : Nat → Nat) (cn : Nat) (hcn : 0 < cn ∧ cn ≤ 4) (src dst : Buf)
    (srcStride dstStride w h : Nat) (hw : 0 < w) (hh : 0 < h) (w32 : U32 w) (h32 : U32 h)
    (hsrc : GoodDst src.length srcStride w h cn) (hdst : GoodDst dst.length dstStride w h cn) :
    ∃ out, convertSurface x64 f cn noMap src srcStride dst dstStride w h = .ok out ∧
      FrameSpec out dst dstStride w h cn (fun x y => (pixelAt src srcStride cn x y).map f) := by
  have hb : ∀ a ∈ src, a < src.sum + 1 := fun a ha =>
    Nat.lt_succ_of_le (List.le_sum_of_mem ha)
  obtain ⟨out, e, hr⟩ := c47_convert f cn hcn src dst srcStride dstStride w h _ hw hh w32 h32 hsrc hb
    hdst (fun _ _ => False) noMap noMap_ok
  refine ⟨out, e, frame_regroup hcn.1 (fun x y hx hy => ?_)
    (frameRel_or_eq hr fun x y p _ _ hp => hp.resolve_right id)⟩
  have h1 := fullRows_row hsrc.full hy
  have h2 := hsrc.cols_le
  omega

/-- C47: `convert_*_to_f16` writes the half float of every component, nothing else. -/
theorem c47_to_f16 (d cn : Nat) (hcn : 0 < cn ∧ cn ≤ 4) (src dst : Buf)
    (srcStride dstStride w h : Nat) (hw : 0 < w) (hh : 0 < h) (w32 : U32 w) (h32 : U32 h)
    (hsrc : GoodDst src.length srcStride w h cn) (hdst : GoodDst dst.length dstStride w h cn) :
    ∃ out, toF16 x64 d cn noMap src srcStride dst dstStride w h = .ok out ∧
      FrameSpec out dst dstStride w h cn (fun x y =>
        (pixelAt src srcStride cn x y).map (toF16Elem d)) :=
  convert_exact _ cn hcn src dst srcStride dstStride w h hw hh w32 h32 hsrc hdst

/-- C47: `convert_*_f16_to_*` writes the integer of every component, nothing else. -/
theorem c47_from_f16 (T d cn : Nat) (hcn : 0 < cn ∧ cn ≤ 4) (src dst : Buf)
    (srcStride dstStride w h : Nat) (hw : 0 < w) (hh : 0 < h) (w32 : U32 w) (h32 : U32 h)
    (hsrc : GoodDst src.length srcStride w h cn) (hdst : GoodDst dst.length dstStride w h cn) :
    ∃ out, fromF16 x64 T d cn noMap src srcStride dst dstStride w h = .ok out ∧
      FrameSpec out dst dstStride w h cn (fun x y =>
        (pixelAt src srcStride cn x y).map (fromF16Elem T d)) :=
  convert_exact _ cn hcn src dst srcStride dstStride w h hw hh w32 h32 hsrc hdst

theorem map_length_pixel {src : Buf} {st w h cn x y : Nat} (f : Nat → Nat)
    (hg : GoodDst src.length st w h cn) (hx : x < w) (hy : y < h) :
    ((pixelAt src st cn x y).map f).length = cn := by
  rw [List.length_map]
  exact dst_pixel_length hg hx hy

/-- C47: converting an image of at most 10 bits to half floats and back, whatever the strides,
returns every pixel. -/
theorem c47_image_round_trip (T d cn : Nat) (hcn : 0 < cn ∧ cn ≤ 4) (src mid back : Buf)
    (st1 st2 st3 w h : Nat) (hw : 0 < w) (hh : 0 < h) (w32 : U32 w) (h32 : U32 h) (hd1 : 1 ≤ d)
    (hd : d ≤ 10) (hT : 2 ^ d ≤ T + 1) (hb : ∀ a ∈ src, a < 2 ^ d)
    (h1 : GoodDst src.length st1 w h cn) (h2 : GoodDst mid.length st2 w h cn)
    (h3 : GoodDst back.length st3 w h cn) :
    ∃ m out, toF16 x64 d cn noMap src st1 mid st2 w h = .ok m ∧
      fromF16 x64 T d cn noMap m st2 back st3 w h = .ok out ∧
      FrameSpec out back st3 w h cn (fun x y => pixelAt src st1 cn x y) := by
  obtain ⟨m, e1, s1⟩ := c47_to_f16 d cn hcn src mid st1 st2 w h hw hh w32 h32 h1 h2
  have h2' : GoodDst m.length st2 w h cn := s1.1 ▸ h2
  obtain ⟨out, e2, s2⟩ := c47_from_f16 T d cn hcn m back st2 st3 w h hw hh w32 h32 h2' h3
  refine ⟨m, out, e1, e2, frameSpec_congr s2 fun x y hx hy => ?_⟩
  rw [frameSpec_pixel s1 hx hy (map_length_pixel _ h1 hx hy), List.map_map]
  conv_rhs => rw [← List.map_id (pixelAt src st1 cn x y)]
  refine List.map_congr_left fun a ha => ?_
  exact c47_round_trip T d a hd1 hd (hb a (List.mem_of_mem_drop (List.mem_of_mem_take ha))) hT

/-- Where the checks fail to protect: strides are checked modulo `2^32`.  With a stride of
`2^32 + 1` a 1×2 image is accepted although the buffer holds no second row, and nothing is
converted at all. -/
theorem c47_stride_truncated :
    toF16 x64 8 1 noMap [255, 255] (2 ^ 32 + 1) [7, 7] 1 1 2 = .ok [7, 7] := by decide +kernel

/-! ## C05 -/

theorem c05_f16_decode_rejects (e : Endianness) (bp : BytesPacking) (d : Nat) (ch : Channels)
    (s : Sampling) (hd : RowHandler) (hh : ∀ y u v r, NoErr (hd y u v r)) (i : Planar)
    (rgba : Buf) (stride : Nat) (rg : YuvRange) (m : Matrix) (hi : i.U32s) (hs : U32 stride) :
    (∃ x, p16ToRgbF16 x64 e bp d ch s hd i rgba stride rg m = .err x) ↔
      ¬ (PlanarFits i s ∧ RgbFits rgba.length stride i.width i.height ch.count) :=
  planar_rejects (.deepFrame (fun _ _ _ _ => .putDeep fun _ => .qrshr) hh) (count_ok ch) hi hs

theorem c05_f16_alpha_decode_rejects (e : Endianness) (bp : BytesPacking) (d : Nat) (ch : Channels)
    (hch : ch = .rgba ∨ ch = .bgra) (s : Sampling)
    (hd : AlphaHandler) (hh : ∀ y u v a r, NoErr (hd y u v a r)) (i : PlanarAlpha) (rgba : Buf)
    (stride : Nat) (rg : YuvRange) (m : Matrix) (hi : PlanarAlphaU32 i) (hs : U32 stride) :
    (∃ er, p16AlphaToRgbF16 x64 e bp d ch s hd i rgba stride rg m = .err er) ↔
      ¬ (PlanarAlphaFits i s ∧ RgbFits rgba.length stride i.width i.height ch.count) := by
  have hcn : 0 < ch.count ∧ ch.count ≤ 4 := by cases ch <;> decide
  have ha : ¬ ch.hasAlpha = false := by rcases hch with rfl | rfl <;> decide
  obtain ⟨_, _, _, _, h5, h6⟩ := id hi
  unfold p16AlphaToRgbF16
  rw [if_neg ha]
  exact rejects_iff (.alphaFrame (fun _ _ _ _ _ => .putDeep fun _ => .qrshr) hh)
    (planarAlpha_no_panic hi) (checkRgba_no_panic hs h5 h6 hcn.1 hcn.2)
    (c01_planar_alpha_check_iff i s hi) (c02_rgba_check_iff _ _ _ _ _ hs h5 h6 hcn.1 hcn.2)

theorem NoErr.gbrF16Val (d : Nat) (rg : YuvRange) (s : Nat) : NoErr (gbrF16Val d rg s) := by
  unfold Verif.gbrF16Val
  cases rg
  · no_err [NoErr.qrshr, NoErr.narrowDiff]
  · exact .ok

theorem c05_f16_gbr_decode_rejects (d : Nat) (ch : Channels) (i : Planar) (rgba : Buf) (stride : Nat)
    (rg : YuvRange)
    (hi : U32 i.yStride ∧ U32 i.uStride ∧ U32 i.vStride ∧ U32 i.width ∧ U32 i.height)
    (hs : U32 stride) :
    (∃ e, gbrToRgbF16 x64 d ch i rgba stride rg = .err e) ↔
      ¬ (PlanarFits i .yuv444 ∧ RgbFits rgba.length stride i.width i.height ch.count) := by
  have hcn : 0 < ch.count ∧ ch.count ≤ 4 := by cases ch <;> decide
  obtain ⟨a, b, c, hw, hh⟩ := hi
  refine rejects_iff ?_ (c01_planar_check_no_panic i .yuv444 ⟨a, b, c, hw, hh⟩)
    (checkRgba_no_panic hs hw hh hcn.1 hcn.2) (c01_planar_check_iff i .yuv444 ⟨a, b, c, hw, hh⟩)
    (c02_rgba_check_iff _ _ _ _ _ hs hw hh hcn.1 hcn.2)
  refine .mapFrame (fun _ _ => .ok) fun px c => ?_
  unfold gbrBody
  no_err [NoErr.gbrF16Val, NoErr.storePix]

/-- C05, conversion of half-float images: sizes and strides below `2^32`. -/
theorem c05_f16_convert_rejects (f : Nat → Nat) (cn : Nat) (hcn : 0 < cn ∧ cn ≤ 4) (hd : MapHandler)
    (hh : ∀ a b, NoErr (hd a b)) (src dst : Buf) (srcStride dstStride w h : Nat)
    (h1 : U32 srcStride) (h2 : U32 dstStride) (h3 : U32 w) (h4 : U32 h) :
    (∃ e, convertSurface x64 f cn hd src srcStride dst dstStride w h = .err e) ↔
      ¬ (RgbFits src.length srcStride w h cn ∧ RgbFits dst.length dstStride w h cn) := by
  have u : ∀ {n}, U32 n → n % 2 ^ 32 = n := fun h => Nat.mod_eq_of_lt h
  unfold convertSurface
  rw [u h1, u h2, u h3, u h4]
  refine rejects_iff (.mapFrame hh fun px c => ?_) (checkRgba_no_panic h1 h3 h4 hcn.1 hcn.2)
    (checkRgba_no_panic h2 h3 h4 hcn.1 hcn.2) (c02_rgba_check_iff _ _ _ _ _ h1 h3 h4 hcn.1 hcn.2)
    (c02_rgba_check_iff _ _ _ _ _ h2 h3 h4 hcn.1 hcn.2)
  unfold elemBody
  no_err

/-! ## Concrete cases -/

example : p16ToRgbF16 x64 .big .lsb 10 .rgb .yuv420 noSimd demo10be (List.replicate 33 7) 11
    .limited .bt709 = .ok
    [0, 0, 0, 13393, 13393, 13393, 15360, 15142, 14461, 7, 7,
     14359, 14359, 14359, 14799, 14799, 14799, 14499, 0, 0, 7, 7,
     12417, 15360, 15360, 0, 12858, 13882, 15360, 15360, 15360, 7, 7] := by decide +kernel
example : toF16 x64 8 3 noMap [0, 128, 255, 9, 1, 2, 3, 9] 4 [5, 5, 5, 5, 5, 5, 5] 3 1 2
    = .ok [0, 14340, 15360, 7172, 8196, 8710, 5] := by decide +kernel

end Verif
