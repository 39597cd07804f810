import Verif.Lemmas.NeonGrayDeep
import Verif.Props.Gray
/-!
# C132, C133: grey images of 10 to 16 bits on 64-bit ARM
-/
namespace Verif
open Spec X86

/-! ## C132 -/

/-- C132: on 64-bit ARM the grey decoders of 10, 12, 14 and 16 bits succeed on every good image and
destination and write exactly the pixels of the image: each grey, the level of its sample, and opaque. -/
theorem c132_neon_gray_deep_decode (d : Nat) (hd : Deep d) (ch : Channels) (i : Gray) (rgba : Buf)
    (stride : Nat) (rg : YuvRange) (m : Matrix) (hi : GoodGray i (2 ^ d))
    (hdst : GoodDst rgba.length stride i.width i.height ch.count) :
    ∃ out, Neon.yDeepToRgbx d ch i rgba stride rg m = .ok out ∧
      FrameSpec out rgba stride i.width i.height ch.count (fun x y =>
        let l := grayLevel d rg m (at' i.y i.yStride x y)
        layout ch l l l (2 ^ d - 1)) := by
  cases rg with
  | limited =>
    have hB : 2 ^ d ≤ 65536 := by rcases hd with rfl | rfl | rfl | rfl <;> decide
    obtain ⟨out, e, h⟩ := c50_gray_deep_decode d hd ch i rgba stride .limited m hi hdst _ _
      (Neon.greyDeepHandler_ok hd ch m hB rfl)
    refine ⟨out, e, frameRel_eq ⟨h.1, fun x y hx hy => ?_, h.2.2⟩⟩
    exact (h.2.1 x y hx hy).elim id fun h => h.2
  | full =>
    obtain ⟨out, e, h⟩ := c50_gray_deep_decode d hd ch i rgba stride .full m hi hdst (fun _ _ => False) noMap
      noMap_ok
    refine ⟨out, e, frameRel_eq ⟨h.1, fun x y hx hy => ?_, h.2.2⟩⟩
    exact (h.2.1 x y hx hy).elim id fun h => nomatch h.1

/-- C132: the NEON code and the portable code write the same bytes. -/
theorem c132_same_as_portable (d : Nat) (hd : Deep d) (ch : Channels) (i : Gray) (rgba : Buf)
    (stride : Nat) (rg : YuvRange) (m : Matrix) (hi : GoodGray i (2 ^ d))
    (hdst : GoodDst rgba.length stride i.width i.height ch.count) :
    ∃ out, Neon.yDeepToRgbx d ch i rgba stride rg m = .ok out ∧
      yDeepToRgbx d ch noMap i rgba stride rg m = .ok out := by
  obtain ⟨out, e, h⟩ := c132_neon_gray_deep_decode d hd ch i rgba stride rg m hi hdst
  obtain ⟨out', e', h'⟩ := c50_gray_deep_decode d hd ch i rgba stride rg m hi hdst (fun _ _ => False) noMap
    noMap_ok
  refine ⟨out, e, e'.trans (congrArg _ ?_)⟩
  refine frameSpec_unique (frameRel_eq ⟨h'.1, fun x y hx hy => ?_, h'.2.2⟩) h
  exact (h'.2.1 x y hx hy).elim id fun h => h.2.elim

/-- An 11×1 grey image of 10 bits: one vector step and a tail of three. -/
def demoGrey11 : Gray :=
  { y := [64, 512, 940, 0, 1023, 63, 65, 200, 300, 400, 877, 9], yStride := 12, width := 11, height := 1 }

example : GoodGray demoGrey11 (2 ^ 10) where
  wpos := by decide
  hpos := by decide
  w32 := by unfold U32; decide
  h32 := by unfold U32; decide
  y := ⟨by unfold U32; decide, by decide, by unfold FullRows; decide, by decide⟩
example : GoodDst (List.replicate 34 7).length 34 11 1 3 :=
  ⟨by unfold U32; decide, by decide, by unfold FullRows; decide, by decide⟩
example : Neon.yDeepToRgbx 10 .rgb demoGrey11 (List.replicate 34 7) 34 .limited .bt709 = .ok
    [0, 0, 0, 523, 523, 523, 1023, 1023, 1023, 0, 0, 0, 1023, 1023, 1023, 0, 0, 0, 1, 1, 1, 159, 159, 159,
     276, 276, 276, 392, 392, 392, 949, 949, 949, 7] := by decide +kernel

/-! ## C133 -/

/-- C133, proved part: whatever the luma words, the NEON code of a row stays inside its slices when the row
of the destination holds the pixels.  Missing: shorter rows, where it is false (`c133_violated`). -/
theorem c133_row_inside_partial (d : Nat) (hd : Deep d) (ch : Channels) (m : Matrix) (w : Nat) (y row : Buf)
    (hy : ∀ x ∈ y, x < 65536) (ly : w ≤ y.length) (hw : w * ch.count ≤ row.length) :
    ∃ out, Neon.greyDeepHandler d ch (getYuvRange d .limited) (searchInverse 13 d .limited m) w [y] row
        = .ok (out, w) ∧ out.length = row.length := by
  refine ⟨_, by simp only [Neon.greyDeepHandler, List.getD_cons_zero, Neon.greyDeepRow_ok hd ch m hy ly hw,
    Outcome.bind_ok]; rfl, painted_length (fun _ => layout_length' ..) hw⟩

example : (∀ x ∈ demoGrey11.y, x < 65536) ∧ 11 ≤ demoGrey11.y.length ∧
    11 * Channels.rgb.count ≤ (List.replicate 34 7).length := by decide

/-- C133 is false on 64-bit ARM: nothing is validated, so a destination whose rows are shorter than eight
pixels is accepted for every limited-range image wider than eight pixels, and the first store of the NEON code
leaves the row. -/
theorem c133_violated (d : Nat) (ch : Channels) (i : Gray) (rgba : Buf) (stride : Nat) (m : Matrix)
    (hw : 8 < i.width) (hy : i.width ≤ i.yStride) (hl : i.yStride ≤ i.y.length)
    (hs : 0 < stride) (h8 : stride < 8 * ch.count) (hr : stride ≤ rgba.length) :
    Neon.yDeepToRgbx d ch i rgba stride .limited m = .panic := by
  unfold Neon.yDeepToRgbx yDeepToRgbx
  dsimp only
  unfold mapFrame
  have hy0 : 0 < i.yStride := by omega
  rw [if_neg (by simp; omega), eachChunk, if_neg (by omega)]
  obtain ⟨n, hn⟩ : ∃ n, zipCount (rgba.length / stride)
      ([(⟨i.y, i.yStride, 1, true⟩ : Src)].map (fun s => (s.stride, s.buf.length))) - 0 = n + 1 := by
    have a : 0 < rgba.length / stride := Nat.div_pos hr hs
    have b : 0 < i.y.length / i.yStride := Nat.div_pos hl hy0
    simp only [List.map_cons, List.map_nil, zipCount]
    exact ⟨min (i.y.length / i.yStride) (rgba.length / stride) - 1, by omega⟩
  rw [hn, forChunks]
  have hc : (chunk i.yStride i.y 0).length = i.yStride := chunk_length (by omega)
  simp only [srcRows, Src.row, if_true]
  rw [slice_ok (Nat.zero_le _) (by rw [hc]; omega)]
  simp only [Outcome.bind_ok, Outcome.pure_eq, Bool.false_eq_true, if_false, mapRow, Neon.greyDeepHandler]
  rw [Neon.greyDeepRow_overrun (h8 := hw)]
  · rfl
  · simp; omega

/-- C133, a concrete case: nine pixels into one row of twelve elements, all the memory there is.  The portable
code writes the four pixels that fit and reports success; the NEON code stores twenty-four elements. -/
theorem c133_violated_witness :
    Neon.yDeepToRgbx 10 .rgb demoGrey11 (List.replicate 12 7) 12 .limited .bt709 = .panic ∧
    yDeepToRgbx 10 .rgb noMap demoGrey11 (List.replicate 12 7) 12 .limited .bt709
      = .ok [0, 0, 0, 523, 523, 523, 1023, 1023, 1023, 0, 0, 0] := by decide +kernel

end Verif
