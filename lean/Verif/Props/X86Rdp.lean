import Verif.Lemmas.X86Rdp
import Verif.Props.Packed444
/-!
# The RemoteFX encoder on x86 processors

C82.  The AVX2 kernel of the RemoteFX encoder works in 16- and 32-bit elements; the processor without
AVX2 runs the scalar loop.
-/
namespace Verif
open Spec X86

/-- The planes of the encoder: luma, Cb and Cr of every pixel in the format of
`Spec.rdpY`, `Spec.rdpU`, `Spec.rdpV`, nothing else written. -/
structure Spec.RdpPlanes (ch : RdpChannels) (rgba : Buf) (stride : Nat) (i out : Planar) : Prop where
  geometry : out.width = i.width ∧ out.height = i.height ∧ out.yStride = i.yStride ∧
    out.uStride = i.uStride ∧ out.vStride = i.vStride
  y : FrameSpec out.y i.y i.yStride i.width i.height 1 fun x y =>
    let (r, g, b) := rdpColours ch (pixelAt rgba stride ch.count x y)
    [pattern16 (rdpY r g b)]
  u : FrameSpec out.u i.u i.uStride i.width i.height 1 fun x y =>
    let (r, g, b) := rdpColours ch (pixelAt rgba stride ch.count x y)
    [pattern16 (rdpU r g b)]
  v : FrameSpec out.v i.v i.vStride i.width i.height 1 fun x y =>
    let (r, g, b) := rdpColours ch (pixelAt rgba stride ch.count x y)
    [pattern16 (rdpV r g b)]

/-- C82: on every x86 processor the encoder ends normally, every plane receives exactly the
RemoteFX sample of every pixel, and nothing else is written. -/
theorem c82_x86_encode (cpu : Cpu) (ch : RdpChannels) (i : Planar) (rgba : Buf) (stride : Nat)
    (hi : GoodPlanar i .yuv444 65536) (hd : GoodDst rgba.length stride i.width i.height ch.count)
    (hb : Bytes rgba) :
    ∃ out, rgbxToRdpOn cpu ch i rgba stride = .ok out ∧ RdpPlanes ch rgba stride i out := by
  obtain ⟨hcn, hcn4⟩ := rdp_count ch
  obtain ⟨pu, pv⟩ := planes444 hi
  have g0 : GoodSrc ⟨rgba, stride, ch.count, false⟩ i.width i.height 65536 :=
    goodSrc_packed hcn hd fun a ha => Nat.lt_of_lt_of_le (hb a ha) (by decide)
  have g0' : GoodSrc ⟨rgba, stride, ch.count, false⟩ i.width i.height 256 := goodSrc_packed hcn hd hb
  have g1 : GoodSrc ⟨i.y, i.yStride, 1, true⟩ i.width i.height 65536 := goodSrc_plane hi.y
  have g2 : GoodSrc ⟨i.u, i.uStride, 1, true⟩ i.width i.height 65536 := goodSrc_plane pu
  have g3 : GoodSrc ⟨i.v, i.vStride, 1, true⟩ i.width i.height 65536 := goodSrc_plane pv
  have key : ∀ (kr kg kb off : Int) (V : Nat → Nat → Nat → Int)
      (dst : Buf) (st : Nat) (a b : Src), RdpCoef kr kg kb off →
      (∀ r g b, r < 65536 → g < 65536 → b < 65536 →
        rdpVal kr kg kb off r g b = .ok (pattern16 (V r g b))) →
      (∀ r g b : Nat, (r * kr + g * kg + b * kb) / 1024 - off = V r g b) →
      GoodPlane dst st i.width i.height 65536 → GoodSrc a i.width i.height 65536 →
      GoodSrc b i.width i.height 65536 →
      ∃ out, mapFrame true i.width 1 (rdpHandler cpu ch kr kg kb off i.width)
          (toRdpBody ch kr kg kb off)
          [⟨rgba, stride, ch.count, false⟩, a, b] dst st = .ok out ∧
        FrameSpec out dst st i.width i.height 1 fun x y =>
          let (r, g, b) := rdpColours ch (pixelAt rgba stride ch.count x y)
          [pattern16 (V r g b)] := by
    intro kr kg kb off V dst st a b hk hval hV hdst ha hb
    have hs : ∀ s ∈ [(⟨rgba, stride, ch.count, false⟩ : Src), a, b],
        GoodSrc s i.width i.height 65536 := by
      intro s hs
      simp only [List.mem_cons, List.not_mem_nil, or_false] at hs
      rcases hs with rfl | rfl | rfl <;> assumption
    have hbody := (toRdpBody_ok (ch := ch) (s := ⟨rgba, stride, ch.count, false⟩) (rest := [a, b])
      (V := V) rfl hval).on hs
    have hF : (fun px : List Buf => let (r, g, b) := rdpColours ch (px.getD 0 []);
        [pattern16 (V r g b)]) = fun px => rdpPix ch kr kg kb off (px.getD 0 []) := by
      funext px
      simp only [rdpPix, hV]
    rw [hF] at hbody
    obtain ⟨out, e, h⟩ := (mapFrame_rows (cutDst := true) hi.wpos Nat.one_pos hs hbody
      (fun r row hr hrow => rdpHandler_row cpu ch hk hi.wpos (s := ⟨rgba, stride, ch.count, false⟩) rfl
        (by
          intro x hx
          exact bnd_chunk g0'.plane.bound x hx)
        (by
          show i.width * ch.count ≤ (chunk stride rgba r).length
          rw [chunk_length (fullRows_row g0'.plane.full hr)]
          exact g0'.plane.cols_le)
        (by rw [hrow]; simp)) (dst := dst) (stride := st)
      (by rw [Nat.mul_one]; exact hdst.cols_le) hdst.full (Or.inl rfl)).spec Nat.one_pos
      (Nat.lt_of_lt_of_le hi.wpos hdst.cols_le) (by rw [Nat.mul_one]; exact hdst.cols_le) hdst.full.1
    refine ⟨out, e, ?_⟩
    have := frameRel_eq h
    rw [show (fun x y => let (r, g, b) := rdpColours ch (pixelAt rgba stride ch.count x y);
        [pattern16 (V r g b)]) = fun x y => rdpPix ch kr kg kb off
          ((pixelsAt [⟨rgba, stride, ch.count, false⟩, a, b] x y).getD 0 []) by
      funext x y
      simp only [rdpPix, hV, pixelsAt, List.map_cons, List.getD_cons_zero]]
    exact this
  obtain ⟨y, e1, h1⟩ := key rdpFwd.yr rdpFwd.yg rdpFwd.yb 4096 rdpY i.y i.yStride _ _
    (by rw [rdpFwd_eq]; constructor <;> decide) (fun r g b hr hg hb => (rdpVals hr hg hb).1)
    (fun r g b => by rw [rdpFwd_eq]; simp only [rdpY]; omega) hi.y g2 g3
  obtain ⟨u, e2, h2⟩ := key rdpFwd.cbR rdpFwd.cbG rdpFwd.cbB 0 rdpU i.u i.uStride _ _
    (by rw [rdpFwd_eq]; constructor <;> decide) (fun r g b hr hg hb => (rdpVals hr hg hb).2.1)
    (fun r g b => by rw [rdpFwd_eq]; simp only [rdpU]; omega) pu g1 g3
  obtain ⟨v, e3, h3⟩ := key rdpFwd.crR rdpFwd.crG rdpFwd.crB 0 rdpV i.v i.vStride _ _
    (by rw [rdpFwd_eq]; constructor <;> decide) (fun r g b hr hg hb => (rdpVals hr hg hb).2.2)
    (fun r g b => by rw [rdpFwd_eq]; simp only [rdpV]; omega) pv g1 g2
  refine ⟨{ i with y := y, u := u, v := v }, ?_, ⟨rfl, rfl, rfl, rfl, rfl⟩, h1, h2, h3⟩
  unfold rgbxToRdpOn rgbxToRdp
  rw [hd.accepted hi.wpos hi.hpos hi.w32 hi.h32 hcn hcn4, hi.accepted]
  simp only [Outcome.bind_ok, e1, e2, e3]
  rfl

/-- The planes of the specification are unique. -/
theorem Spec.RdpPlanes.unique {ch : RdpChannels} {rgba : Buf} {stride : Nat} {i a b : Planar}
    (ha : RdpPlanes ch rgba stride i a) (hb : RdpPlanes ch rgba stride i b) : a = b := by
  have e1 := frameSpec_unique ha.y hb.y
  have e2 := frameSpec_unique ha.u hb.u
  have e3 := frameSpec_unique ha.v hb.v
  obtain ⟨a1, a2, a3, a4, a5⟩ := ha.geometry
  obtain ⟨b1, b2, b3, b4, b5⟩ := hb.geometry
  cases a; cases b
  simp_all

/-- C82: which processor runs the encoder cannot be told from the planes. -/
theorem c82_agreement (c₁ c₂ : Cpu) (ch : RdpChannels) (i : Planar) (rgba : Buf) (stride : Nat)
    (hi : GoodPlanar i .yuv444 65536) (hd : GoodDst rgba.length stride i.width i.height ch.count)
    (hb : Bytes rgba) :
    rgbxToRdpOn c₁ ch i rgba stride = rgbxToRdpOn c₂ ch i rgba stride := by
  obtain ⟨a, e1, h1⟩ := c82_x86_encode c₁ ch i rgba stride hi hd hb
  obtain ⟨b, e2, h2⟩ := c82_x86_encode c₂ ch i rgba stride hi hd hb
  rw [e1, e2, h1.unique h2]

/-- C82: the samples of pixel (x, y) after encoding on a processor, read back as signed numbers. -/
theorem c82_sample (cpu : Cpu) (ch : RdpChannels) (i : Planar) (rgba : Buf) (stride : Nat)
    (hi : GoodPlanar i .yuv444 65536) (hd : GoodDst rgba.length stride i.width i.height ch.count)
    (hb : Bytes rgba) {x y : Nat} (hx : x < i.width) (hy : y < i.height) {out : Planar}
    (e : rgbxToRdpOn cpu ch i rgba stride = .ok out) :
    let (r, g, b) := rdpColours ch (pixelAt rgba stride ch.count x y)
    signed16 (at' out.y out.yStride x y) = rdpY r g b ∧
    signed16 (at' out.u out.uStride x y) = rdpU r g b ∧
    signed16 (at' out.v out.vStride x y) = rdpV r g b := by
  obtain ⟨a, e1, h1⟩ := c82_x86_encode cpu ch i rgba stride hi hd hb
  rw [e1] at e
  cases e
  obtain ⟨-, -, g3, g4, g5⟩ := h1.geometry
  obtain ⟨l1, l2, l3⟩ := rdpColours_lt' ch (px := pixelAt rgba stride ch.count x y) fun p hp =>
    hb p (List.mem_of_mem_drop (List.mem_of_mem_take hp))
  obtain ⟨⟨a1, a2⟩, ⟨a3, a4⟩, a5, a6⟩ := c42_encode_range _ _ _ l1 l2 l3
  have one : ∀ {buf : Buf} {st n : Nat}, pixelAt buf st 1 x y = [n] → at' buf st x y = n := by
    intro buf st n h
    have := congrArg (fun l => List.getD l 0 0) h
    simpa [pixelAt, at', List.getD_eq_getElem?_getD, List.getElem?_take, List.getElem?_drop] using this
  have p1 := one (frameSpec_pixel (x := x) (y := y) h1.y hx hy rfl)
  have p2 := one (frameSpec_pixel (x := x) (y := y) h1.u hx hy rfl)
  have p3 := one (frameSpec_pixel (x := x) (y := y) h1.v hx hy rfl)
  simp only
  rw [g3, g4, g5, p1, p2, p3]
  exact ⟨signed_pattern (le_trans (by decide) a1) (lt_of_le_of_lt a2 (by decide)),
    signed_pattern (le_trans (by decide) a3) (lt_of_le_of_lt a4 (by decide)),
    signed_pattern (le_trans (by decide) a5) (lt_of_le_of_lt a6 (by decide))⟩

/-- C82: whichever processor encodes, decoding the planes gives every colour component
back or one less. -/
theorem c82_round_trip (cpu : Cpu) (ch ch' : RdpChannels) (i : Planar) (rgba dst : Buf)
    (stride stride' : Nat)
    (hi : GoodPlanar i .yuv444 65536) (hs : GoodDst rgba.length stride i.width i.height ch.count)
    (hb : Bytes rgba) (hd : GoodDst dst.length stride' i.width i.height ch'.count) :
    ∃ mid out, rgbxToRdpOn cpu ch i rgba stride = .ok mid ∧
      rdpToRgbx x64 ch' mid dst stride' = .ok out ∧
      ∀ x y, x < i.width → y < i.height →
        ∃ r g b, pixelAt out stride' ch'.count x y = rdpLayout ch' r g b ∧
          let (r0, g0, b0) := rdpColours ch (pixelAt rgba stride ch.count x y)
          (r ≤ r0 ∧ r0 ≤ r + 1) ∧ (g ≤ g0 ∧ g0 ≤ g + 1) ∧ (b ≤ b0 ∧ b0 ≤ b + 1) := by
  rw [c82_agreement cpu .plain ch i rgba stride hi hs hb]
  exact c42_round_trip ch ch' i rgba dst stride stride' hi hs hb hd

/-! ### A concrete case: a row of 35 pixels, one block of the loop and a tail of three -/

set_option maxRecDepth 8000 in
example : GoodPlanar ⟨List.replicate 35 0, 35, List.replicate 35 0, 35, List.replicate 36 0, 36, 35, 1⟩
      .yuv444 65536 ∧
    GoodDst (List.replicate 140 77).length 140 35 1 RdpChannels.argb.count ∧
    Bytes (List.replicate 140 77) := by
  refine ⟨⟨by decide, by decide, by unfold U32; decide, by unfold U32; decide,
    ⟨by unfold U32; decide, by decide, by unfold FullRows; decide, by decide⟩,
    ⟨by unfold U32; decide, by decide, by unfold FullRows; decide, by decide⟩,
    ⟨by unfold U32; decide, by decide, by unfold FullRows; decide, by decide⟩⟩,
    ⟨by unfold U32; decide, by decide, by unfold FullRows; decide, by decide⟩, by
    unfold Bytes; decide⟩

end Verif
