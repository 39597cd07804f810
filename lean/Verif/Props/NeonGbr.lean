import Verif.Lemmas.NeonGbr
import Verif.Props.X86Gbr
/-!
# C119: the GBR decoders on 64-bit ARM processors
-/
namespace Verif
open Spec X86 Neon

/-- Rounding with RDM or without, the component is that of the portable code: the product is never half
way between two integers. -/
theorem neonGbr_level (rdm : Bool) {s : Nat} (hs : s < 256) :
    gbrVal rdm (gbrInvCoef 8) (s - (getYuvRange 8 .limited).biasY) = gbrLevel 8 .limited s := by
  have h : ∀ s, s < 256 →
      gbrVal rdm (gbrInvCoef 8) (s - (getYuvRange 8 .limited).biasY) = gbrLevel 8 .limited s := by
    cases rdm <;> decide +kernel
  exact h s hs

theorem neonGbr_byteFn (rdm : Bool) :
    ByteFn 16 (Neon.gbrLimited rdm (getYuvRange 8 .limited).biasY (gbrInvCoef 8)) (gbrLevel 8 .limited) := by
  intro v hv i hi
  rw [byteFn_gbr rdm (by decide) (by decide +kernel) v hv i hi]
  exact neonGbr_level rdm (hv i)

/-- C119: what decoding a GBR image writes on AArch64: red from V, green from Y, blue from U, each the
sample itself in full range and the sample expanded from 16..235, rounded and saturated in limited range;
opaque alpha; nothing else is written. -/
theorem c119_neon_gbr (rdm : Bool) (ch : Channels) (i : Planar) (rgba : Buf) (stride : Nat) (rg : YuvRange)
    (hi : GoodPlanar i .yuv444 256) (hd : GoodDst rgba.length stride i.width i.height ch.count) :
    ∃ out, gbrToRgbxNeon rdm ch i rgba stride rg = .ok out ∧
      FrameSpec out rgba stride i.width i.height ch.count (fun x y =>
        layout ch (gbrLevel 8 rg (at' i.v i.vStride x y)) (gbrLevel 8 rg (at' i.y i.yStride x y))
          (gbrLevel 8 rg (at' i.u i.uStride x y)) 255) := by
  have hcn := X86.count_pos ch
  obtain ⟨hu, hv⟩ := planes444 hi
  have hs : ∀ s ∈ gbrSrc i, GoodSrc s i.width i.height 256 := by
    intro s hs
    simp only [List.mem_cons, List.not_mem_nil, or_false] at hs
    rcases hs with rfl | rfl | rfl
    · exact goodSrc_plane hi.y
    · exact goodSrc_plane hu
    · exact goodSrc_plane hv
  have hD : Depth 8 := Or.inl rfl
  unfold gbrToRgbxNeon gbrToRgbx
  rw [hd.accepted hi.wpos hi.hpos hi.w32 hi.h32 hcn (count_le ch), hi.accepted]
  simp only [Outcome.bind_ok]
  have hh : (match rg with
      | .limited => fun rows row =>
        gbrRow ch (Neon.gbrLimited rdm (getYuvRange 8 .limited).biasY (gbrInvCoef 8)) i.width
          (rows.getD 0 []) (rows.getD 1 []) (rows.getD 2 []) row 0
      | .full => fun rows row =>
        gbrRow ch id i.width (rows.getD 0 []) (rows.getD 1 []) (rows.getD 2 []) row 0 : MapHandler).Fills
        256 i.width ch.count (gbrSrc i)
      (fun px => layout ch (gbrLevel 8 rg (comp px 2 0)) (gbrLevel 8 rg (comp px 0 0))
        (gbrLevel 8 rg (comp px 1 0)) 255)
      (fun _ px p => p = layout ch (gbrLevel 8 rg (comp px 2 0)) (gbrLevel 8 rg (comp px 0 0))
        (gbrLevel 8 rg (comp px 1 0)) 255) := by
    cases rg with
    | limited => exact Neon.gbrHandler_fills ch (neonGbr_byteFn rdm) hi.wpos rfl rfl rfl
    | full => exact Neon.gbrHandler_fills ch (byteFn_id 16) hi.wpos rfl rfl rfl
  obtain ⟨out, e, h⟩ := mapFrame_cols (cutDst := false) hi.wpos hcn hs
    (gbrBody_ok (a := 2 ^ 8 - 1) (ch := ch) Nat.one_pos Nat.one_pos Nat.one_pos
      (fun y hy => gbrDecodeVal_ok hD rg hy)) hh
    hd.cols_le hd.full (Or.inr ⟨_, List.mem_cons_self, rfl⟩)
  refine ⟨out, e, frameRel_eq ⟨h.1, fun x y hx hy => ?_, h.2.2⟩⟩
  have := h.2.1 x y hx hy
  simp only [pixelsAt, List.map_cons, List.map_nil, pixelAt_one hx hy hi.y, pixelAt_one hx hy hu,
    pixelAt_one hx hy hv] at this
  rw [this]
  rfl

/-- C119: on every AArch64 processor the frame is, byte for byte, that of the portable code, in both
ranges. -/
theorem c119_portable_agreement (rdm : Bool) (ch : Channels) (i : Planar) (rgba : Buf) (stride : Nat)
    (rg : YuvRange) (hi : GoodPlanar i .yuv444 256)
    (hd : GoodDst rgba.length stride i.width i.height ch.count) :
    gbrToRgbxNeon rdm ch i rgba stride rg = gbrToRgbx x64 8 ch noMap noMap i rgba stride rg := by
  obtain ⟨out, e, h⟩ := c119_neon_gbr rdm ch i rgba stride rg hi hd
  obtain ⟨out', e', h'⟩ := c75_x86_gbr .plain ch i rgba stride rg hi hd
  rw [c75_plain_is_scalar] at e'
  rw [e, e']
  refine congrArg _ (frameSpec_unique h ?_)
  cases rg <;> exact h'

/-- C119: an AArch64 processor and an x86 processor decode a GBR image to components that differ by at most
one; in full range to the same bytes. -/
theorem c119_x86_agreement (rdm : Bool) (cpu : Cpu) (ch : Channels) (i : Planar) (rgba : Buf) (stride : Nat)
    (rg : YuvRange) (hi : GoodPlanar i .yuv444 256)
    (hd : GoodDst rgba.length stride i.width i.height ch.count) :
    (∃ out out', gbrToRgbxNeon rdm ch i rgba stride rg = .ok out ∧
      gbrToRgbxOn cpu x64 ch i rgba stride rg = .ok out' ∧
      ∀ x y, x < i.width → y < i.height →
        PixClose ch 1 (pixelAt out stride ch.count x y) (pixelAt out' stride ch.count x y)) ∧
    (rg = .full → gbrToRgbxNeon rdm ch i rgba stride rg = gbrToRgbxOn cpu x64 ch i rgba stride rg) := by
  rw [c119_portable_agreement rdm ch i rgba stride rg hi hd, ← c75_plain_is_scalar]
  refine ⟨c75_cpu_agreement .plain cpu ch i rgba stride rg hi hd, ?_⟩
  rintro rfl
  exact c75_full_agreement .plain cpu ch i rgba stride hi hd

/-- C119: RGB to GBR and back on AArch64: in full range the colours come back unchanged, in limited range
within one. -/
theorem c119_round_trip (rdm : Bool) (ch ch' : Channels) (i : Planar) (rgba dst : Buf)
    (stride stride' : Nat) (rg : YuvRange) (hi : GoodPlanar i .yuv444 256)
    (hs : GoodDst rgba.length stride i.width i.height ch.count) (hb : ∀ a ∈ rgba, a < 256)
    (hd : GoodDst dst.length stride' i.width i.height ch'.count) :
    ∃ mid out, rgbxToGbr x64 8 ch i rgba stride rg = .ok mid ∧
      gbrToRgbxNeon rdm ch' mid dst stride' rg = .ok out ∧
      ∀ x y, x < i.width → y < i.height → ∃ r g b,
        pixelAt out stride' ch'.count x y = layout ch' r g b 255 ∧
        let px := pixelAt rgba stride ch.count x y
        let e := if rg = .full then 0 else 1
        (r ≤ red ch px + e ∧ red ch px ≤ r + e) ∧ (g ≤ green ch px + e ∧ green ch px ≤ g + e) ∧
        (b ≤ blue ch px + e ∧ blue ch px ≤ b + e) := by
  obtain ⟨mid, out, e1, e2, h⟩ := c75_round_trip .plain ch ch' i rgba dst stride stride' rg hi hs hb hd
  refine ⟨mid, out, e1, ?_, h⟩
  have hD : Depth 8 := Or.inl rfl
  obtain ⟨mid', e1', h1⟩ := c33_gbr_encode 8 hD ch i rgba stride rg hi hs hb
  obtain rfl : mid = mid' := Outcome.ok.inj (e1.symm.trans e1')
  obtain ⟨g1, g2, -⟩ := h1.geometry
  rw [c119_portable_agreement rdm ch' mid dst stride' rg (h1.good hD hi hb) (by rw [g1, g2]; exact hd),
    ← c75_plain_is_scalar]
  exact e2

/-- `demoGbr8` with and without RDM: 128 and 234 become 130 and 254, as in portable code. -/
example : GoodPlanar demoGbr8 .yuv444 256 ∧ GoodDst (List.replicate 16 7).length 16 5 1 3 ∧
    ∀ rdm, gbrToRgbxNeon rdm .rgb demoGbr8 (List.replicate 16 7) 16 .limited
      = .ok [0, 0, 1, 130, 133, 134, 255, 255, 254, 98, 0, 255, 51, 5, 28, 7] := by
  refine ⟨demoGbr8_good,
    ⟨by unfold U32; decide, by decide, by unfold FullRows; decide, by decide⟩, ?_⟩
  intro rdm
  cases rdm <;> decide +kernel

end Verif
