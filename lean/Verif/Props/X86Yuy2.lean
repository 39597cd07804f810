import Verif.Lemmas.X86Yuy2
import Verif.Props.Yuy2
import Verif.Props.Identity
/-!
# C76, C77: packing planar frames into packed 4:2:2 on x86

`cpu` ranges over the three kinds of x86 processor: with AVX2, with SSE4.1 only, with neither.
-/
namespace Verif
open Spec X86

variable {B B' : Nat}

/-! ## C76: from 4:2:2 and 4:2:0 -/

/-- C76: on every processor, packing a planar 4:2:2 frame writes, for every pair, its two luma
samples and its chroma, and nothing else. -/
theorem c76_pack422 (cpu : Cpu) (t : Yuy2) (i : Planar) (d : Packed) (hi : GoodPlanar i .yuv422 B)
    (hd' : GoodPacked d B') (hw : i.width = d.width) (hh : i.height = d.height) :
    ∃ out, yuvToYuy2On cpu .yuv422 t i d = .ok out ∧
      FrameSpec out d.yuy d.yuyStride (cover d.width 2) d.height 4 (planarQuad t i .yuv422) := by
  have e : cover i.width 2 = ceil2 i.width := by have := hi.wpos; unfold cover ceil2; omega
  exact c35_pack422 t i d hi hd' hw hh _ (by rw [e]; exact packer_ok422 cpu (by simp) t _)

/-- C76 for planar 4:2:0. -/
theorem c76_pack420 (cpu : Cpu) (t : Yuy2) (i : Planar) (d : Packed) (hi : GoodPlanar i .yuv420 B)
    (hd' : GoodPacked d B') (hw : i.width = d.width) (hh : i.height = d.height) :
    ∃ out, yuvToYuy2On cpu .yuv420 t i d = .ok out ∧
      FrameSpec out d.yuy d.yuyStride (cover d.width 2) d.height 4 (planarQuad t i .yuv420) := by
  have e : cover i.width 2 = ceil2 i.width := by have := hi.wpos; unfold cover ceil2; omega
  exact c35_pack420 t i d hi hd' hw hh _ (by rw [e]; exact packer_ok422 cpu (by simp) t _)

/-- C76: all processors write the same frame. -/
theorem c76_agree (cpu cpu' : Cpu) (s : Sampling) (hs : s = .yuv422 ∨ s = .yuv420) (t : Yuy2)
    (i : Planar) (d : Packed) (hi : GoodPlanar i s B) (hd' : GoodPacked d B')
    (hw : i.width = d.width) (hh : i.height = d.height) :
    yuvToYuy2On cpu s t i d = yuvToYuy2On cpu' s t i d := by
  rcases hs with rfl | rfl
  · obtain ⟨o, e, f⟩ := c76_pack422 cpu t i d hi hd' hw hh
    obtain ⟨o', e', f'⟩ := c76_pack422 cpu' t i d hi hd' hw hh
    rw [e, e', frameSpec_unique f f']
  · obtain ⟨o, e, f⟩ := c76_pack420 cpu t i d hi hd' hw hh
    obtain ⟨o', e', f'⟩ := c76_pack420 cpu' t i d hi hd' hw hh
    rw [e, e', frameSpec_unique f f']

/-! ## C77: from 4:4:4 -/

/-- What packing a planar 4:4:4 frame does on every processor, exactly. -/
theorem c77_pack444_exact (cpu : Cpu) (t : Yuy2) (i : Planar) (d : Packed)
    (hi : GoodPlanar i .yuv444 256) (hd' : GoodPacked d B') (hw : i.width = d.width)
    (hh : i.height = d.height) :
    ∃ out, yuvToYuy2On cpu .yuv444 t i d = .ok out ∧
      FrameSpec out d.yuy d.yuyStride (cover d.width 2) d.height 4 (fun j y =>
        x86Quad444 cpu t i (pixelAt d.yuy d.yuyStride 4 j y) j y) := by
  have e : cover d.width 2 = ceil2 d.width := by have := hd'.wpos; unfold cover ceil2; omega
  rw [e]
  refine pack_spec hd' ?_
  unfold yuvToYuy2On
  rw [yuvToYuy2_run hi.accepted hd'.accepted hw hh, ← hw, ← hh]
  exact x86PackRows444_rel hi.rows hd' hw hh

theorem packed_pixel {cpu : Cpu} {t : Yuy2} {i : Planar} {d : Packed} {out : Buf}
    (hd' : GoodPacked d B') (hw : i.width = d.width) (hh : i.height = d.height)
    (f : FrameSpec out d.yuy d.yuyStride (cover d.width 2) d.height 4 (fun j y =>
        x86Quad444 cpu t i (pixelAt d.yuy d.yuyStride 4 j y) j y)) {j y : Nat}
    (hj : j < cover d.width 2) (hy : y < i.height) :
    pixelAt out d.yuyStride 4 j y = x86Quad444 cpu t i (pixelAt d.yuy d.yuyStride 4 j y) j y := by
  rw [hh] at hy
  refine frameSpec_pixel (f := fun j y => x86Quad444 cpu t i (pixelAt d.yuy d.yuyStride 4 j y) j y) f hj
    hy ?_
  have h1 := fullRows_row hd'.full (r := y) (by omega)
  have h2 := hd'.stride
  have h3 : (pixelAt d.yuy d.yuyStride 4 j y).length = 4 := by
    simp only [pixelAt, List.length_take, List.length_drop]; omega
  unfold x86Quad444
  split
  · exact quad_length ..
  split
  · exact quad_length ..
  · exact h3

/-- C77: without vector code, or in frames of at most 16 columns, every pair gets its two luma
samples and the means of its chroma samples.  Partial: wider frames, see below. -/
theorem c77_pack444_partial (cpu : Cpu) (t : Yuy2) (i : Planar) (d : Packed)
    (hi : GoodPlanar i .yuv444 256) (hd' : GoodPacked d B') (hw : i.width = d.width)
    (hh : i.height = d.height) (hsmall : cpu = .plain ∨ i.width ≤ 16) :
    ∃ out, yuvToYuy2On cpu .yuv444 t i d = .ok out ∧
      FrameSpec out d.yuy d.yuyStride (cover d.width 2) d.height 4 (planarQuad444 t i) := by
  obtain ⟨out, e, f⟩ := c77_pack444_exact cpu t i d hi hd' hw hh
  refine ⟨out, e, frameSpec_congr f fun j y hj _ => ?_⟩
  have h0 : yuyVecEnd cpu i.width = 0 := by
    rcases hsmall with rfl | h
    · rfl
    · cases cpu <;> simp only [yuyVecEnd] <;> omega
  unfold x86Quad444
  rw [h0, if_neg (by omega), if_pos (.inl rfl)]

/-- C77 for wide frames with SSE4.1: the pairs in the blocks of 32 columns are right. -/
theorem c77_pack444_sse_blocks_partial (t : Yuy2) (i : Planar) (d : Packed)
    (hi : GoodPlanar i .yuv444 256) (hd' : GoodPacked d B') (hw : i.width = d.width)
    (hh : i.height = d.height) :
    ∃ out, yuvToYuy2On .sse41 .yuv444 t i d = .ok out ∧
      ∀ j y, 2 * j < (i.width - 1) / 32 * 32 → y < i.height →
        pixelAt out d.yuyStride 4 j y = planarQuad444 t i j y := by
  obtain ⟨out, e, f⟩ := c77_pack444_exact .sse41 t i d hi hd' hw hh
  refine ⟨out, e, fun j y hj hy => ?_⟩
  rw [packed_pixel hd' hw hh f (by unfold cover; omega) hy]
  unfold x86Quad444 planarQuad444 vecChroma444 mean2
  simp only [yuyVecEnd]
  rw [if_pos (by omega), if_neg (by simp), if_pos (.inl hj), if_neg (by simp), if_pos (.inl hj),
    if_pos (by omega), if_pos (by omega), if_pos (by omega)]

/-- C77 fails with vector code in every frame of more than 16 columns whose width is not one more
than a multiple of 16: the pairs after the vector code keep whatever the destination held (the half
pair at the end of an odd row excepted). -/
theorem c77_pack444_unwritten (cpu : Cpu) (hcpu : cpu ≠ .plain) (t : Yuy2) (i : Planar) (d : Packed)
    (hi : GoodPlanar i .yuv444 256) (hd' : GoodPacked d B') (hw : i.width = d.width)
    (hh : i.height = d.height) (h16 : 16 < i.width) :
    ∃ out, yuvToYuy2On cpu .yuv444 t i d = .ok out ∧
      ∀ j y, (i.width - 1) / 16 * 16 ≤ 2 * j → 2 * j + 1 < i.width → y < i.height →
        pixelAt out d.yuyStride 4 j y = pixelAt d.yuy d.yuyStride 4 j y := by
  obtain ⟨out, e, f⟩ := c77_pack444_exact cpu t i d hi hd' hw hh
  refine ⟨out, e, fun j y hj hj' hy => ?_⟩
  rw [packed_pixel hd' hw hh f (by unfold cover; omega) hy]
  have hE : yuyVecEnd cpu i.width = (i.width - 1) / 16 * 16 := by
    cases cpu <;> simp_all [yuyVecEnd]
  unfold x86Quad444
  rw [hE, if_neg (by omega), if_neg (by omega)]

/-- C77 fails with AVX2 in every frame of more than 64 columns: every second pair of the blocks of
64 columns gets zero for both chroma samples, whatever they are. -/
theorem c77_avx2_zero_chroma (t : Yuy2) (i : Planar) (d : Packed)
    (hi : GoodPlanar i .yuv444 256) (hd' : GoodPacked d B') (hw : i.width = d.width)
    (hh : i.height = d.height) :
    ∃ out, yuvToYuy2On .avx2 .yuv444 t i d = .ok out ∧
      ∀ j y, j % 2 = 1 → 2 * j < (i.width - 1) / 64 * 64 → y < i.height →
        pixelAt out d.yuyStride 4 j y
          = quad t (Planar.Y i (2 * j) y) (Planar.Y i (2 * j + 1) y) 0 0 := by
  obtain ⟨out, e, f⟩ := c77_pack444_exact .avx2 t i d hi hd' hw hh
  refine ⟨out, e, fun j y hodd hj hy => ?_⟩
  rw [packed_pixel hd' hw hh f (by unfold cover; omega) hy]
  unfold x86Quad444 vecChroma444 avx2BlockChroma
  simp only [yuyVecEnd]
  rw [if_pos (by omega), if_pos ⟨trivial, hj⟩, if_pos (by omega), if_pos ⟨trivial, hj⟩, if_pos (by omega)]

/-- C77 fails with vector code when the width leaves a block of 16 columns: its last four pairs get
zero for both chroma samples. -/
theorem c77_half_zero_chroma (cpu : Cpu) (hcpu : cpu ≠ .plain) (t : Yuy2) (i : Planar) (d : Packed)
    (hi : GoodPlanar i .yuv444 256) (hd' : GoodPacked d B') (hw : i.width = d.width)
    (hh : i.height = d.height) :
    ∃ out, yuvToYuy2On cpu .yuv444 t i d = .ok out ∧
      ∀ j y, 4 ≤ j % 8 → (i.width - 1) / 32 * 32 ≤ 2 * j → 2 * j < (i.width - 1) / 16 * 16 →
        y < i.height → pixelAt out d.yuyStride 4 j y
          = quad t (Planar.Y i (2 * j) y) (Planar.Y i (2 * j + 1) y) 0 0 := by
  obtain ⟨out, e, f⟩ := c77_pack444_exact cpu t i d hi hd' hw hh
  refine ⟨out, e, fun j y h4 hj hj' hy => ?_⟩
  rw [packed_pixel hd' hw hh f (by unfold cover; omega) hy]
  have hE : yuyVecEnd cpu i.width = (i.width - 1) / 16 * 16 := by
    cases cpu <;> simp_all [yuyVecEnd]
  unfold x86Quad444 vecChroma444
  rw [hE, if_pos hj', if_neg (by omega), if_neg (by omega), if_neg (by omega), if_neg (by omega)]

/-! ## The hypotheses are met -/

/-- A 66×1 4:4:4 frame, all white. -/
def wide444 : Planar :=
  { y := List.replicate 66 235, yStride := 66, u := List.replicate 66 128, uStride := 66
    v := List.replicate 66 128, vStride := 66, width := 66, height := 1 }
/-- A packed frame of the same size. -/
def wideYuy : Packed := { yuy := zeros 132, yuyStride := 132, width := 66, height := 1 }
/-- A 66×1 4:2:2 frame. -/
def wide422 : Planar :=
  { y := (List.range 66).map (· + 16), yStride := 66, u := (List.range 33).map (· + 100), uStride := 33
    v := (List.range 33).map (· + 50), vStride := 33, width := 66, height := 1 }
/-- A 18×2 4:2:0 frame. -/
def wide420 : Planar :=
  { y := (List.range 36).map (· + 16), yStride := 18, u := (List.range 9).map (· + 100), uStride := 9
    v := (List.range 9).map (· + 50), vStride := 9, width := 18, height := 2 }
/-- A packed frame of the same size. -/
def wideYuy2 : Packed := { yuy := zeros 72, yuyStride := 36, width := 18, height := 2 }

set_option maxRecDepth 4000 in
theorem wide444_good : GoodPlanar wide444 .yuv444 256 := by
  refine ⟨by decide, by decide, by unfold U32; decide, by unfold U32; decide, ?_, ?_, ?_⟩ <;>
  exact ⟨by unfold U32; decide, by decide, by unfold FullRows; decide, by decide⟩
theorem wide422_good : GoodPlanar wide422 .yuv422 256 := by
  refine ⟨by decide, by decide, by unfold U32; decide, by unfold U32; decide, ?_, ?_, ?_⟩ <;>
  exact ⟨by unfold U32; decide, by decide, by unfold FullRows; decide, by decide⟩
theorem wide420_good : GoodPlanar wide420 .yuv420 256 := by
  refine ⟨by decide, by decide, by unfold U32; decide, by unfold U32; decide, ?_, ?_, ?_⟩ <;>
  exact ⟨by unfold U32; decide, by decide, by unfold FullRows; decide, by decide⟩
set_option maxRecDepth 4000 in
theorem wideYuy_good : GoodPacked wideYuy 256 := by
  refine ⟨by decide, by decide, by unfold U32; decide, by unfold U32; decide, by unfold U32; decide,
    by decide, by decide, by decide, by decide⟩
theorem wideYuy2_good : GoodPacked wideYuy2 256 := by
  refine ⟨by decide, by decide, by unfold U32; decide, by unfold U32; decide, by unfold U32; decide,
    by decide, by decide, by decide, by decide⟩

example (cpu cpu' : Cpu) :
    yuvToYuy2On cpu .yuv422 .vyuy wide422 wideYuy = yuvToYuy2On cpu' .yuv422 .vyuy wide422 wideYuy ∧
    yuvToYuy2On cpu .yuv420 .yuyv wide420 wideYuy2 = yuvToYuy2On cpu' .yuv420 .yuyv wide420 wideYuy2 :=
  ⟨c76_agree cpu cpu' _ (.inl rfl) _ _ _ wide422_good wideYuy_good rfl rfl,
   c76_agree cpu cpu' _ (.inr rfl) _ _ _ wide420_good wideYuy2_good rfl rfl⟩

/-- Pair 1 of a white 66×1 frame should be neutral; with AVX2 its chroma is zero, and pair 32 is
never written at all. -/
theorem c77_white_not_white :
    planarQuad444 .yuyv wide444 1 0 = [235, 128, 235, 128] ∧
    ∃ out, yuvToYuy2On .avx2 .yuv444 .yuyv wide444 wideYuy = .ok out ∧
      pixelAt out 132 4 1 0 = [235, 0, 235, 0] ∧ pixelAt out 132 4 32 0 = [0, 0, 0, 0] := by
  refine ⟨by decide +kernel, ?_⟩
  obtain ⟨out, e, h⟩ := c77_avx2_zero_chroma .yuyv wide444 wideYuy wide444_good wideYuy_good rfl rfl
  obtain ⟨out', e', h'⟩ := c77_pack444_unwritten .avx2 (by simp) .yuyv wide444 wideYuy wide444_good
    wideYuy_good rfl rfl (by decide)
  rw [e] at e'
  cases e'
  refine ⟨out, e, ?_, ?_⟩
  · have := h 1 0 (by decide) (by decide) (by decide)
    rw [show wideYuy.yuyStride = 132 from rfl] at this
    rw [this]; decide +kernel
  · have := h' 32 0 (by decide) (by decide) (by decide)
    rw [show wideYuy.yuyStride = 132 from rfl] at this
    rw [this]; decide +kernel


end Verif
