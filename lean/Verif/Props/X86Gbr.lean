import Verif.Lemmas.X86Gbr
import Verif.Spec.VecGbr
import Verif.Props.Identity
import Verif.Props.X86Gray
/-!
# C75: the GBR decoders on x86 processors
-/
namespace Verif
open Spec X86

/-- Does the processor have vector extensions? -/
def hasVec (cpu : Cpu) : Bool := match cpu with | .plain => false | _ => true

/-- On a processor without vector extensions the decoder is the scalar one. -/
theorem c75_plain_is_scalar (ch : Channels) (i : Planar) (rgba : Buf) (stride : Nat) (rg : YuvRange) :
    gbrToRgbxOn .plain x64 ch i rgba stride rg = gbrToRgbx x64 8 ch noMap noMap i rgba stride rg := rfl

theorem gbr_byteFn (n : Nat) (hn : n % 16 = 0) :
    ByteFn n (gbrLimited (getYuvRange 8 .limited).biasY (gbrInvCoef 8)) (cpuGbrLevel true .limited) :=
  byteFn_limited hn (by decide) (by unfold GrayCoef; decide +kernel)

/-- C75: what decoding a GBR image writes on each class of processor: red from V, green from Y, blue
from U, opaque alpha; nothing else is written. -/
theorem c75_x86_gbr (cpu : Cpu) (ch : Channels) (i : Planar) (rgba : Buf) (stride : Nat) (rg : YuvRange)
    (hi : GoodPlanar i .yuv444 256) (hd : GoodDst rgba.length stride i.width i.height ch.count) :
    ∃ out, gbrToRgbxOn cpu x64 ch i rgba stride rg = .ok out ∧
      FrameSpec out rgba stride i.width i.height ch.count (fun x y =>
        layout ch (cpuGbrLevel (hasVec cpu) rg (at' i.v i.vStride x y))
          (cpuGbrLevel (hasVec cpu) rg (at' i.y i.yStride x y))
          (cpuGbrLevel (hasVec cpu) rg (at' i.u i.uStride x y)) 255) := by
  have hcn := count_pos ch
  obtain ⟨hu, hv⟩ := planes444 hi
  have hs : ∀ s ∈ gbrSrc i, GoodSrc s i.width i.height 256 := by
    intro s hs
    simp only [List.mem_cons, List.not_mem_nil, or_false] at hs
    rcases hs with rfl | rfl | rfl
    · exact goodSrc_plane hi.y
    · exact goodSrc_plane hu
    · exact goodSrc_plane hv
  have hD : Depth 8 := Or.inl rfl
  unfold gbrToRgbxOn gbrToRgbx
  rw [hd.accepted hi.wpos hi.hpos hi.w32 hi.h32 hcn (count_le ch), hi.accepted]
  simp only [Outcome.bind_ok]
  have hh : (match rg with
      | .limited => gbrHandler cpu ch (gbrLimited (getYuvRange 8 .limited).biasY (gbrInvCoef 8)) i.width
      | .full => gbrHandler cpu ch id i.width : MapHandler).Fills 256 i.width ch.count (gbrSrc i)
      (fun px => layout ch (gbrLevel 8 rg (comp px 2 0)) (gbrLevel 8 rg (comp px 0 0))
        (gbrLevel 8 rg (comp px 1 0)) 255)
      (fun _ px p => p = if cpu = .plain then
          layout ch (gbrLevel 8 rg (comp px 2 0)) (gbrLevel 8 rg (comp px 0 0))
            (gbrLevel 8 rg (comp px 1 0)) 255
        else layout ch (cpuGbrLevel true rg (comp px 2 0)) (cpuGbrLevel true rg (comp px 0 0))
          (cpuGbrLevel true rg (comp px 1 0)) 255) := by
    cases rg with
    | limited =>
      exact gbrHandler_fills cpu ch (gbr_byteFn 16 rfl) (gbr_byteFn 32 rfl) hi.wpos rfl rfl rfl
    | full => exact gbrHandler_fills cpu ch (byteFn_id 16) (byteFn_id 32) hi.wpos rfl rfl rfl
  obtain ⟨out, e, h⟩ := mapFrame_cols (cutDst := false) hi.wpos hcn hs
    (gbrBody_ok (a := 2 ^ 8 - 1) (ch := ch) Nat.one_pos Nat.one_pos Nat.one_pos
      (fun y hy => gbrDecodeVal_ok hD rg hy)) hh
    hd.cols_le hd.full (Or.inr ⟨_, List.mem_cons_self, rfl⟩)
  refine ⟨out, e, frameRel_eq ⟨h.1, fun x y hx hy => ?_, h.2.2⟩⟩
  have := h.2.1 x y hx hy
  simp only [pixelsAt, List.map_cons, List.map_nil, pixelAt_one hx hy hi.y, pixelAt_one hx hy hu,
    pixelAt_one hx hy hv] at this
  rw [this]
  cases cpu <;> cases rg <;> rfl

/-- C75: processors with AVX2 and with SSE4.1 only write the same bytes, in both ranges. -/
theorem c75_avx2_is_sse (ch : Channels) (i : Planar) (rgba : Buf) (stride : Nat) (rg : YuvRange)
    (hi : GoodPlanar i .yuv444 256) (hd : GoodDst rgba.length stride i.width i.height ch.count) :
    gbrToRgbxOn .avx2 x64 ch i rgba stride rg = gbrToRgbxOn .sse41 x64 ch i rgba stride rg := by
  obtain ⟨out, e, h⟩ := c75_x86_gbr .avx2 ch i rgba stride rg hi hd
  obtain ⟨out', e', h'⟩ := c75_x86_gbr .sse41 ch i rgba stride rg hi hd
  rw [e, e', frameSpec_unique h' h]

/-- C75: in full range every processor writes the same bytes. -/
theorem c75_full_agreement (cpu cpu' : Cpu) (ch : Channels) (i : Planar) (rgba : Buf) (stride : Nat)
    (hi : GoodPlanar i .yuv444 256) (hd : GoodDst rgba.length stride i.width i.height ch.count) :
    gbrToRgbxOn cpu x64 ch i rgba stride .full = gbrToRgbxOn cpu' x64 ch i rgba stride .full := by
  obtain ⟨out, e, h⟩ := c75_x86_gbr cpu ch i rgba stride .full hi hd
  obtain ⟨out', e', h'⟩ := c75_x86_gbr cpu' ch i rgba stride .full hi hd
  rw [e, e', frameSpec_unique h' h]

/-- The component is the grey level of the vector grey decoders. -/
theorem vecGbr_gray (m : Matrix) (s : Nat) : vecGbrLevel s = vecGrayLevel m s := by
  unfold vecGbrLevel vecGrayLevel vecGray
  rw [gbr_gray_coef 8 (mem_allDepth (Or.inl rfl)) m (mem_allMatrix m)]
  rfl

theorem vecGbr_scalar {s : Nat} (hs : s < 256) :
    gbrLevel 8 .limited s ≤ vecGbrLevel s ∧ vecGbrLevel s ≤ gbrLevel 8 .limited s + 1 := by
  rw [vecGbr_gray .bt709, gbrLevel_eq (Or.inl rfl) .limited .bt709]
  exact vecGray_scalar .bt709 hs

theorem cpuGbr_scalar (v : Bool) (rg : YuvRange) {s : Nat} (hs : s < 256) :
    gbrLevel 8 rg s ≤ cpuGbrLevel v rg s ∧ cpuGbrLevel v rg s ≤ gbrLevel 8 rg s + 1 := by
  cases rg with
  | full => exact ⟨le_refl _, Nat.le_succ _⟩
  | limited =>
    cases v with
    | false => exact ⟨le_refl _, Nat.le_succ _⟩
    | true => exact vecGbr_scalar hs

/-- Two opaque pixels whose components differ by at most `e`. -/
def PixClose (ch : Channels) (e : Nat) (p q : Buf) : Prop :=
  ∃ r g b r' g' b', p = layout ch r g b 255 ∧ q = layout ch r' g' b' 255 ∧
    (r ≤ r' + e ∧ r' ≤ r + e) ∧ (g ≤ g' + e ∧ g' ≤ g + e) ∧ (b ≤ b' + e ∧ b' ≤ b + e)

/-- C75: any two processors decode a GBR image to components that differ by at most one. -/
theorem c75_cpu_agreement (cpu cpu' : Cpu) (ch : Channels) (i : Planar) (rgba : Buf) (stride : Nat)
    (rg : YuvRange) (hi : GoodPlanar i .yuv444 256)
    (hd : GoodDst rgba.length stride i.width i.height ch.count) :
    ∃ out out', gbrToRgbxOn cpu x64 ch i rgba stride rg = .ok out ∧
      gbrToRgbxOn cpu' x64 ch i rgba stride rg = .ok out' ∧
      ∀ x y, x < i.width → y < i.height →
        PixClose ch 1 (pixelAt out stride ch.count x y) (pixelAt out' stride ch.count x y) := by
  obtain ⟨out, e, h⟩ := c75_x86_gbr cpu ch i rgba stride rg hi hd
  obtain ⟨out', e', h'⟩ := c75_x86_gbr cpu' ch i rgba stride rg hi hd
  obtain ⟨hu, hv⟩ := planes444 hi
  refine ⟨out, out', e, e', fun x y hx hy => ?_⟩
  rw [frameSpec_pixel h hx hy (layout_length ..), frameSpec_pixel h' hx hy (layout_length ..)]
  have q : ∀ s, s < 256 → cpuGbrLevel (hasVec cpu) rg s ≤ cpuGbrLevel (hasVec cpu') rg s + 1 ∧
      cpuGbrLevel (hasVec cpu') rg s ≤ cpuGbrLevel (hasVec cpu) rg s + 1 := by
    intro s hs
    have a := cpuGbr_scalar (hasVec cpu) rg hs
    have b := cpuGbr_scalar (hasVec cpu') rg hs
    omega
  exact ⟨_, _, _, _, _, _, rfl, rfl, q _ (at_lt (by decide) hv.bound), q _ (at_lt (by decide) hi.y.bound),
    q _ (at_lt (by decide) hu.bound)⟩

/-- C75: with vector extensions every component is within 4/3 of the ITU expansion of its sample. -/
theorem c75_accuracy (cpu : Cpu) (ch : Channels) (i : Planar) (rgba : Buf) (stride : Nat)
    (hi : GoodPlanar i .yuv444 256) (hd : GoodDst rgba.length stride i.width i.height ch.count)
    (hc : hasVec cpu = true) :
    ∃ out, gbrToRgbxOn cpu x64 ch i rgba stride .limited = .ok out ∧
      ∀ x y, x < i.width → y < i.height → ∃ r g b : Nat,
        pixelAt out stride ch.count x y = layout ch r g b 255 ∧
        |(r : Rat) - satQ 8 (maxV 8 * normY 8 .limited (at' i.v i.vStride x y))| ≤ 4 / 3 ∧
        |(g : Rat) - satQ 8 (maxV 8 * normY 8 .limited (at' i.y i.yStride x y))| ≤ 4 / 3 ∧
        |(b : Rat) - satQ 8 (maxV 8 * normY 8 .limited (at' i.u i.uStride x y))| ≤ 4 / 3 := by
  obtain ⟨out, e, h⟩ := c75_x86_gbr cpu ch i rgba stride .limited hi hd
  obtain ⟨hu, hv⟩ := planes444 hi
  rw [hc] at h
  have q : ∀ s, s < 256 →
      |(cpuGbrLevel true .limited s : Rat) - satQ 8 (maxV 8 * normY 8 .limited s)| ≤ 4 / 3 := by
    intro s hs
    show |(vecGbrLevel s : Rat) - _| ≤ _
    rw [vecGbr_gray .bt709]
    exact vecGray_exact .bt709 hs
  exact ⟨out, e, fun x y hx hy => ⟨_, _, _, frameSpec_pixel h hx hy (layout_length ..),
    q _ (at_lt (by decide) hv.bound), q _ (at_lt (by decide) hi.y.bound),
    q _ (at_lt (by decide) hu.bound)⟩⟩

/-- A component encoded in limited range comes back within one. -/
theorem cpuGbr_round_trip (v : Bool) (rg : YuvRange) {s : Nat} (hs : s < 256) :
    cpuGbrLevel v rg (gbrCode 8 rg s) ≤ s + 1 ∧ s ≤ cpuGbrLevel v rg (gbrCode 8 rg s) + 1 := by
  cases rg with
  | full => exact ⟨Nat.le_succ _, Nat.le_succ _⟩
  | limited =>
    cases v with
    | false => exact c33_component_round_trip 8 (Or.inl rfl) s hs
    | true =>
      have h : ∀ s, s < 256 → vecGbrLevel (gbrCode 8 .limited s) ≤ s + 1 ∧
          s ≤ vecGbrLevel (gbrCode 8 .limited s) + 1 := by decide +kernel
      exact h s hs

/-- C75: RGB to GBR and back on any processor: in full range the colours come back unchanged, in
limited range within one. -/
theorem c75_round_trip (cpu : Cpu) (ch ch' : Channels) (i : Planar) (rgba dst : Buf)
    (stride stride' : Nat) (rg : YuvRange) (hi : GoodPlanar i .yuv444 256)
    (hs : GoodDst rgba.length stride i.width i.height ch.count) (hb : ∀ a ∈ rgba, a < 256)
    (hd : GoodDst dst.length stride' i.width i.height ch'.count) :
    ∃ mid out, rgbxToGbr x64 8 ch i rgba stride rg = .ok mid ∧
      gbrToRgbxOn cpu x64 ch' mid dst stride' rg = .ok out ∧
      ∀ x y, x < i.width → y < i.height → ∃ r g b,
        pixelAt out stride' ch'.count x y = layout ch' r g b 255 ∧
        let px := pixelAt rgba stride ch.count x y
        let e := if rg = .full then 0 else 1
        (r ≤ red ch px + e ∧ red ch px ≤ r + e) ∧ (g ≤ green ch px + e ∧ green ch px ≤ g + e) ∧
        (b ≤ blue ch px + e ∧ blue ch px ≤ b + e) := by
  have hD : Depth 8 := Or.inl rfl
  obtain ⟨mid, e1, h1⟩ := c33_gbr_encode 8 hD ch i rgba stride rg hi hs hb
  obtain ⟨g1, g2, g3, g4, g5⟩ := h1.geometry
  have hg := h1.good hD hi hb
  obtain ⟨out, e2, h2⟩ := c75_x86_gbr cpu ch' mid dst stride' rg hg (by rw [g1, g2]; exact hd)
  rw [g1, g2] at h2
  refine ⟨mid, out, e1, e2, fun x y hx hy => ⟨_, _, _, frameSpec_pixel h2 hx hy (layout_length ..), ?_⟩⟩
  rw [g3, g4, g5, frameSpec_at h1.y hx hy, frameSpec_at h1.u hx hy, frameSpec_at h1.v hx hy]
  obtain ⟨a, b, c⟩ := comps_lt (B := 256) (by decide) ch (mem_pixelAt (stride := stride)
    (cn := ch.count) (x := x) (y := y) hb)
  cases rg with
  | full => exact ⟨⟨le_refl _, le_refl _⟩, ⟨le_refl _, le_refl _⟩, ⟨le_refl _, le_refl _⟩⟩
  | limited =>
    exact ⟨cpuGbr_round_trip _ .limited a, cpuGbr_round_trip _ .limited b,
      cpuGbr_round_trip _ .limited c⟩

def demoGbr8 : Planar :=
  { y := [16, 130, 235, 0, 20], yStride := 5, u := [17, 131, 234, 255, 40], uStride := 5,
    v := [15, 128, 236, 100, 60], vStride := 5, width := 5, height := 1 }

theorem demoGbr8_good : GoodPlanar demoGbr8 .yuv444 256 where
  wpos := by decide
  hpos := by decide
  w32 := by unfold U32; decide
  h32 := by unfold U32; decide
  y := ⟨by unfold U32; decide, by decide, by unfold FullRows; decide, by decide⟩
  u := ⟨by unfold U32; decide, by decide, by unfold FullRows; decide, by decide⟩
  v := ⟨by unfold U32; decide, by decide, by unfold FullRows; decide, by decide⟩

/-- The processors do differ by one: the samples 128 and 234 of `demoGbr8` decode to 131 and 255 with
and to 130 and 254 without vector extensions. -/
example : GoodPlanar demoGbr8 .yuv444 256 ∧ GoodDst (List.replicate 16 7).length 16 5 1 3 ∧
    gbrToRgbxOn .avx2 x64 .rgb demoGbr8 (List.replicate 16 7) 16 .limited
      = .ok [0, 0, 1, 131, 133, 134, 255, 255, 255, 98, 0, 255, 51, 5, 28, 7] ∧
    gbrToRgbxOn .plain x64 .rgb demoGbr8 (List.replicate 16 7) 16 .limited
      = .ok [0, 0, 1, 130, 133, 134, 255, 255, 254, 98, 0, 255, 51, 5, 28, 7] := by
  refine ⟨demoGbr8_good,
    ⟨by unfold U32; decide, by decide, by unfold FullRows; decide, by decide⟩, ?_⟩
  decide +kernel

/-- The hypotheses of the round trip are met. -/
example : GoodDst [10, 20, 30, 40, 50, 60, 70, 80, 90, 100, 110, 120, 130, 140, 150].length 15 5 1 3 :=
  ⟨by unfold U32; decide, by decide, by unfold FullRows; decide, by decide⟩

end Verif
