import Verif.Lemmas.X86Yuy2Rows
import Verif.Props.X86Yuy2
/-! # C78: the x86 unpackers of packed 4:2:2 frames -/
namespace Verif
open Spec X86

variable {B B' : Nat}

theorem cover_ceil2 {w : Nat} (h : 0 < w) : cover w 2 = ceil2 w := by unfold cover ceil2; omega

/-- C78: what unpacking to planar 4:2:2 writes on every processor, byte for byte.  A column that the
vector code leaves behind keeps what the plane held (`at'` of the destination). -/
theorem c78_unpack422_exact (cpu : Cpu) (t : Yuy2) (i : Planar) (d : Packed)
    (hi : GoodPlanar i .yuv422 B) (hd' : GoodPacked d B') (hw : i.width = d.width)
    (hh : i.height = d.height) (hv : i.width % 2 = 1 → i.vStride = cover i.width 2) :
    ∃ y u v, yuy2ToYuvOn cpu .yuv422 t i d = .ok (y, u, v) ∧
      FrameSpec y i.y i.yStride i.width i.height 1 (fun x r =>
        [if UnpackDone cpu i.width x then Packed.Y t d x r else at' i.y i.yStride x r]) ∧
      FrameSpec u i.u i.uStride (cover i.width 2) i.height 1 (fun c r =>
        [if UnpackDone cpu i.width (c * 2) then Packed.U t d (c * 2) r else at' i.u i.uStride c r]) ∧
      FrameSpec v i.v i.vStride (cover i.width 2) i.height 1 (fun c r =>
        [if UnpackDone cpu i.width (c * 2) then Packed.V t d (c * 2) r else at' i.v i.vStride c r]) := by
  have e := cover_ceil2 hi.wpos
  rw [e] at hv ⊢
  unfold yuy2ToYuvOn
  rw [yuy2ToYuv_run hi.accepted hd'.accepted hw hh]
  exact unpackRows_x86 hi.rows hd' hw hh (Or.inl ⟨rfl, rfl, rfl⟩) hv

/-- C78: the same for planar 4:4:4. -/
theorem c78_unpack444_exact (cpu : Cpu) (t : Yuy2) (i : Planar) (d : Packed)
    (hi : GoodPlanar i .yuv444 B) (hd' : GoodPacked d B') (hw : i.width = d.width)
    (hh : i.height = d.height) (hv : i.width % 2 = 1 → i.vStride = i.width) :
    ∃ y u v, yuy2ToYuvOn cpu .yuv444 t i d = .ok (y, u, v) ∧
      FrameSpec y i.y i.yStride i.width i.height 1 (fun x r =>
        [if UnpackDone cpu i.width x then Packed.Y t d x r else at' i.y i.yStride x r]) ∧
      FrameSpec u i.u i.uStride i.width i.height 1 (fun x r =>
        [if UnpackDone cpu i.width x then Packed.U t d x r else at' i.u i.uStride x r]) ∧
      FrameSpec v i.v i.vStride i.width i.height 1 (fun x r =>
        [if UnpackDone cpu i.width x then Packed.V t d x r else at' i.v i.vStride x r]) := by
  unfold yuy2ToYuvOn
  rw [yuy2ToYuv_run hi.accepted hd'.accepted hw hh]
  have := unpackRows_x86 (cpu := cpu) (t := t) hi.rows hd' hw hh (Or.inr ⟨rfl, rfl, rfl⟩) hv
  simp only [hdiv, Nat.mul_one] at this
  exact this

/-- C78: the same for planar 4:2:0.  Chroma the vector code takes care of is that of the second row
of the pair. -/
theorem c78_unpack420_exact (cpu : Cpu) (t : Yuy2) (i : Planar) (d : Packed)
    (hi : GoodPlanar i .yuv420 B) (hd' : GoodPacked d B') (hw : i.width = d.width)
    (hh : i.height = d.height) (hv : i.width % 2 = 1 → i.vStride = cover i.width 2) :
    ∃ y u v, yuy2ToYuvOn cpu .yuv420 t i d = .ok (y, u, v) ∧
      FrameSpec y i.y i.yStride i.width (2 * (i.height / 2)) 1 (fun x r =>
        [if UnpackDone cpu i.width x then Packed.Y t d x (quadRow i.width x r)
          else at' i.y i.yStride x r]) ∧
      FrameSpec u i.u i.uStride (cover i.width 2) (i.height / 2) 1 (fun c r =>
        [if UnpackDone cpu i.width (2 * c) then
          Packed.U t d (2 * c) (x86ChromaRow cpu i.width (2 * c) r) else at' i.u i.uStride c r]) ∧
      FrameSpec v i.v i.vStride (cover i.width 2) (i.height / 2) 1 (fun c r =>
        [if UnpackDone cpu i.width (2 * c) then
          Packed.V t d (2 * c) (x86ChromaRow cpu i.width (2 * c) r) else at' i.v i.vStride c r]) := by
  have e := cover_ceil2 hi.wpos
  rw [e] at hv ⊢
  unfold yuy2ToYuvOn
  rw [yuy2ToYuv_run hi.accepted hd'.accepted hw hh]
  exact unpack420_x86 hi.rows hd' hw hh hv

/-! ## Where the unpackers are right -/

/-- The widths all of whose columns are written: any without vector code, and otherwise those up to
16 and those that are one more than a multiple of 16. -/
theorem unpackDone_all {cpu : Cpu} {w : Nat} (h : cpu = .plain ∨ w ≤ 16 ∨ w % 16 = 1) {x : Nat}
    (hx : x < w) : UnpackDone cpu w x := by
  unfold UnpackDone
  cases cpu
  · simp only [yuyVecEnd]; simp only [reduceCtorEq, false_or] at h; omega
  · simp only [yuyVecEnd]; simp only [reduceCtorEq, false_or] at h; omega
  · exact .inl rfl

/-- C78, partial: on every processor the 4:2:2 unpacker writes exactly the image, for widths up to 16
and for those that are one more than a multiple of 16. -/
theorem c78_unpack422_partial (cpu : Cpu) (t : Yuy2) (i : Planar) (d : Packed)
    (hi : GoodPlanar i .yuv422 B) (hd' : GoodPacked d B') (hw : i.width = d.width)
    (hh : i.height = d.height) (hv : i.width % 2 = 1 → i.vStride = cover i.width 2)
    (hok : cpu = .plain ∨ i.width ≤ 16 ∨ i.width % 16 = 1) :
    ∃ y u v, yuy2ToYuvOn cpu .yuv422 t i d = .ok (y, u, v) ∧
      FrameSpec y i.y i.yStride i.width i.height 1 (fun x r => [Packed.Y t d x r]) ∧
      FrameSpec u i.u i.uStride (cover i.width 2) i.height 1 (fun c r => [Packed.U t d (c * 2) r]) ∧
      FrameSpec v i.v i.vStride (cover i.width 2) i.height 1 (fun c r => [Packed.V t d (c * 2) r]) := by
  have hp := hi.wpos
  obtain ⟨y, u, v, e, s1, s2, s3⟩ := c78_unpack422_exact cpu t i d hi hd' hw hh hv
  refine ⟨y, u, v, e, frameSpec_congr s1 ?_, frameSpec_congr s2 ?_, frameSpec_congr s3 ?_⟩
  · intro x r hx _; simp only [if_pos (unpackDone_all hok hx)]
  · intro x r hx _
    simp only [if_pos (unpackDone_all hok (x := x * 2) (by unfold cover at hx; omega))]
  · intro x r hx _
    simp only [if_pos (unpackDone_all hok (x := x * 2) (by unfold cover at hx; omega))]

/-- C78, partial: the same for planar 4:4:4. -/
theorem c78_unpack444_partial (cpu : Cpu) (t : Yuy2) (i : Planar) (d : Packed)
    (hi : GoodPlanar i .yuv444 B) (hd' : GoodPacked d B') (hw : i.width = d.width)
    (hh : i.height = d.height) (hv : i.width % 2 = 1 → i.vStride = i.width)
    (hok : cpu = .plain ∨ i.width ≤ 16 ∨ i.width % 16 = 1) :
    ∃ y u v, yuy2ToYuvOn cpu .yuv444 t i d = .ok (y, u, v) ∧
      FrameSpec y i.y i.yStride i.width i.height 1 (fun x r => [Packed.Y t d x r]) ∧
      FrameSpec u i.u i.uStride i.width i.height 1 (fun x r => [Packed.U t d x r]) ∧
      FrameSpec v i.v i.vStride i.width i.height 1 (fun x r => [Packed.V t d x r]) := by
  obtain ⟨y, u, v, e, s1, s2, s3⟩ := c78_unpack444_exact cpu t i d hi hd' hw hh hv
  refine ⟨y, u, v, e, frameSpec_congr s1 ?_, frameSpec_congr s2 ?_, frameSpec_congr s3 ?_⟩ <;>
  · intro x r hx _; simp only [if_pos (unpackDone_all hok hx)]

/-- C78, partial: a planar 4:2:2 image packed on one processor and unpacked on another comes back, for
the widths of `c78_unpack422_partial`. -/
theorem c78_roundtrip422_partial (cpu cpu' : Cpu) (t : Yuy2) (i j : Planar) (d : Packed)
    (hi : GoodPlanar i .yuv422 256) (hj : GoodPlanar j .yuv422 B) (hd' : GoodPacked d B')
    (hw : i.width = d.width) (hh : i.height = d.height) (hw' : j.width = d.width)
    (hh' : j.height = d.height) (hv : j.width % 2 = 1 → j.vStride = cover j.width 2)
    (hok : cpu' = .plain ∨ j.width ≤ 16 ∨ j.width % 16 = 1) :
    ∃ q y u v, yuvToYuy2On cpu .yuv422 t i d = .ok q ∧
      yuy2ToYuvOn cpu' .yuv422 t j { d with yuy := q } = .ok (y, u, v) ∧
      FrameSpec y j.y j.yStride j.width j.height 1 (fun x r => [at' i.y i.yStride x r]) ∧
      FrameSpec u j.u j.uStride (cover j.width 2) j.height 1 (fun c r => [at' i.u i.uStride c r]) ∧
      FrameSpec v j.v j.vStride (cover j.width 2) j.height 1 (fun c r => [at' i.v i.vStride c r]) := by
  obtain ⟨q, e1, hq⟩ := c76_pack422 cpu t i d hi hd' hw hh
  obtain ⟨C, hC⟩ := GoodPacked.store hd' hq.1
  have hjw := hj.wpos
  obtain ⟨y, u, v, e2, s1, s2, s3⟩ := c78_unpack422_partial cpu' t j { d with yuy := q } hj hC hw' hh' hv
    hok
  refine ⟨q, y, u, v, e1, e2, frameSpec_congr s1 ?_, frameSpec_congr s2 ?_, frameSpec_congr s3 ?_⟩
  · intro x r hx hr
    exact congrArg (fun a => [a]) (packed_of_quads hw rfl hq (by omega) (by omega)).1
  · intro x r hx hr
    have := (packed_of_quads hw rfl hq (x := x * 2) (y := r) (by unfold cover at hx; omega) (by omega)).2.1
    unfold Planar.U at this
    simp only [hdiv, vdiv, Nat.mul_div_cancel _ (show 0 < 2 by decide), Nat.div_one] at this
    exact congrArg (fun a => [a]) this
  · intro x r hx hr
    have := (packed_of_quads hw rfl hq (x := x * 2) (y := r) (by unfold cover at hx; omega) (by omega)).2.2
    unfold Planar.V at this
    simp only [hdiv, vdiv, Nat.mul_div_cancel _ (show 0 < 2 by decide), Nat.div_one] at this
    exact congrArg (fun a => [a]) this

/-! ## Where they are not -/

/-- The sample a frame with one component holds. -/
theorem frameSpec_at1 {out dst : Buf} {st w h x y : Nat} {g : Nat → Nat → Nat}
    (hs : FrameSpec out dst st w h 1 (fun x y => [g x y])) (hx : x < w) (hy : y < h) :
    at' out st x y = g x y := by
  have := hs.2.1 x y 0 hx hy (by omega)
  unfold at'
  rw [List.getD_eq_getElem?_getD]
  rw [show y * st + x = y * st + (x * 1 + 0) by omega, this]
  rfl

/-- C78: on a processor with vector code, whatever the packed frame holds, the columns of a row from
the last multiple of 16 on are never written, when the width is even and greater than 16; luma and
chroma, 4:2:2 and 4:4:4 and 4:2:0. -/
theorem c78_unwritten (cpu : Cpu) (hc : cpu ≠ .plain) (t : Yuy2) (s : Sampling) (i : Planar) (d : Packed)
    (hi : GoodPlanar i s B) (hd' : GoodPacked d B') (hw : i.width = d.width)
    (hh : i.height = d.height) (h16 : 16 < i.width) (hev : i.width % 2 = 0) :
    ∃ y u v, yuy2ToYuvOn cpu s t i d = .ok (y, u, v) ∧
      ∀ x r, (i.width - 1) / 16 * 16 ≤ x → x < i.width → r < i.height →
        at' y i.yStride x r = at' i.y i.yStride x r ∧
        (s ≠ .yuv420 → at' u i.uStride (x / hdiv s) r = at' i.u i.uStride (x / hdiv s) r ∧
          at' v i.vStride (x / hdiv s) r = at' i.v i.vStride (x / hdiv s) r) := by
  have hE : yuyVecEnd cpu i.width = (i.width - 1) / 16 * 16 := by
    cases cpu <;> first | rfl | exact absurd rfl hc
  have hn : ∀ x, (i.width - 1) / 16 * 16 ≤ x → ¬ UnpackDone cpu i.width x := by
    intro x hx; unfold UnpackDone; rw [hE]; omega
  cases s
  · obtain ⟨y, u, v, e, s1, _, _⟩ := c78_unpack420_exact cpu t i d hi hd' hw hh (fun a => by omega)
    refine ⟨y, u, v, e, fun x r h1 h2 h3 => ⟨?_, fun a => absurd rfl a⟩⟩
    by_cases hr : r < 2 * (i.height / 2)
    · rw [frameSpec_at1 s1 h2 hr, if_neg (hn x h1)]
    · unfold at'
      rw [List.getD_eq_getElem?_getD, s1.2.2 (r * i.yStride + x), ← List.getD_eq_getElem?_getD]
      rintro ⟨x', y', c, hx', hy', hc', e⟩
      have a1 := hi.rows.yw
      have a2 := succ_mul_le_of_lt i.yStride (show y' < r by omega)
      omega
  · obtain ⟨y, u, v, e, s1, s2, s3⟩ := c78_unpack422_exact cpu t i d hi hd' hw hh (fun a => by omega)
    refine ⟨y, u, v, e, fun x r h1 h2 h3 => ⟨?_, fun _ => ⟨?_, ?_⟩⟩⟩
    · rw [frameSpec_at1 s1 h2 h3, if_neg (hn x h1)]
    · simp only [hdiv]
      rw [frameSpec_at1 s2 (by unfold cover; omega) h3, if_neg (hn _ (by omega))]
    · simp only [hdiv]
      rw [frameSpec_at1 s3 (by unfold cover; omega) h3, if_neg (hn _ (by omega))]
  · obtain ⟨y, u, v, e, s1, s2, s3⟩ := c78_unpack444_exact cpu t i d hi hd' hw hh (fun a => by omega)
    refine ⟨y, u, v, e, fun x r h1 h2 h3 => ⟨?_, fun _ => ⟨?_, ?_⟩⟩⟩
    · rw [frameSpec_at1 s1 h2 h3, if_neg (hn x h1)]
    · simp only [hdiv, Nat.div_one]
      rw [frameSpec_at1 s2 h2 h3, if_neg (hn _ (by omega))]
    · simp only [hdiv, Nat.div_one]
      rw [frameSpec_at1 s3 h2 h3, if_neg (hn _ (by omega))]

/-- C78: with vector code the chroma of a 4:2:0 image is that of the odd rows, without it that of the
even ones. -/
theorem c78_420_chroma_row (cpu : Cpu) (t : Yuy2) (i : Planar) (d : Packed)
    (hi : GoodPlanar i .yuv420 B) (hd' : GoodPacked d B') (hw : i.width = d.width)
    (hh : i.height = d.height) (hev : i.width % 2 = 0) :
    ∃ y u v, yuy2ToYuvOn cpu .yuv420 t i d = .ok (y, u, v) ∧
      ∀ c r, 2 * c < i.width → r < i.height / 2 →
        (cpu ≠ .plain → 2 * c < (i.width - 1) / 16 * 16 →
          at' u i.uStride c r = Packed.U t d (2 * c) (2 * r + 1) ∧
          at' v i.vStride c r = Packed.V t d (2 * c) (2 * r + 1)) ∧
        (cpu = .plain → at' u i.uStride c r = Packed.U t d (2 * c) (2 * r) ∧
          at' v i.vStride c r = Packed.V t d (2 * c) (2 * r)) := by
  obtain ⟨y, u, v, e, _, s2, s3⟩ := c78_unpack420_exact cpu t i d hi hd' hw hh (fun a => by omega)
  refine ⟨y, u, v, e, fun c r h1 h2 => ⟨fun hc h3 => ?_, fun hc => ?_⟩⟩
  · have hE : yuyVecEnd cpu i.width = (i.width - 1) / 16 * 16 := by
      cases cpu <;> first | rfl | exact absurd rfl hc
    have hdn : UnpackDone cpu i.width (2 * c) := .inr (.inl (by omega))
    have hx : x86ChromaRow cpu i.width (2 * c) r = 2 * r + 1 := by
      unfold x86ChromaRow; rw [if_pos (by omega)]
    rw [frameSpec_at1 s2 (by unfold cover; omega) h2, frameSpec_at1 s3 (by unfold cover; omega) h2,
      if_pos hdn, if_pos hdn, hx]
    exact ⟨rfl, rfl⟩
  · subst hc
    have hdn : UnpackDone .plain i.width (2 * c) := .inl rfl
    have hx : x86ChromaRow .plain i.width (2 * c) r = 2 * r := by
      unfold x86ChromaRow quadRow; rw [if_neg (by simp [yuyVecEnd]), if_neg (by omega)]
    rw [frameSpec_at1 s2 (by unfold cover; omega) h2, frameSpec_at1 s3 (by unfold cover; omega) h2,
      if_pos hdn, if_pos hdn, hx]
    exact ⟨rfl, rfl⟩

/-! ## Witnesses -/

/-- A packed 18×2 frame; the two rows differ. -/
def deepYuy : Packed :=
  { yuy := (List.range 72).map (· + 40), yuyStride := 36, width := 18, height := 2 }
/-- An empty 18×2 4:2:0 frame. -/
def blank420 : Planar :=
  { y := zeros 36, yStride := 18, u := zeros 9, uStride := 9, v := zeros 9, vStride := 9
    width := 18, height := 2 }
/-- An empty 17×2 4:2:2 frame, and a packed frame of its size. -/
def blank422 : Planar :=
  { y := zeros 34, yStride := 17, u := zeros 18, uStride := 9, v := zeros 18, vStride := 9
    width := 17, height := 2 }
def deepYuy17 : Packed :=
  { yuy := (List.range 72).map (· + 40), yuyStride := 36, width := 17, height := 2 }

theorem deepYuy_good : GoodPacked deepYuy 256 := by
  refine ⟨by decide, by decide, by unfold U32; decide, by unfold U32; decide, by unfold U32; decide,
    by decide, by decide, by decide, by decide⟩
theorem deepYuy17_good : GoodPacked deepYuy17 256 := by
  refine ⟨by decide, by decide, by unfold U32; decide, by unfold U32; decide, by unfold U32; decide,
    by decide, by decide, by decide, by decide⟩
theorem blank420_good : GoodPlanar blank420 .yuv420 256 := by
  refine ⟨by decide, by decide, by unfold U32; decide, by unfold U32; decide, ?_, ?_, ?_⟩ <;>
  exact ⟨by unfold U32; decide, by decide, by unfold FullRows; decide, by decide⟩
theorem blank422_good : GoodPlanar blank422 .yuv422 256 := by
  refine ⟨by decide, by decide, by unfold U32; decide, by unfold U32; decide, ?_, ?_, ?_⟩ <;>
  exact ⟨by unfold U32; decide, by decide, by unfold FullRows; decide, by decide⟩

/-- A 17 columns wide frame is unpacked completely by the AVX2 build. -/
example : ∃ y u v, yuy2ToYuvOn .avx2 .yuv422 .vyuy blank422 deepYuy17 = .ok (y, u, v) ∧
    at' y 17 16 1 = Packed.Y .vyuy deepYuy17 16 1 := by
  obtain ⟨y, u, v, e, s1, _, _⟩ := c78_unpack422_partial .avx2 .vyuy blank422 deepYuy17 blank422_good
    deepYuy17_good rfl rfl (fun _ => rfl) (.inr (.inr rfl))
  exact ⟨y, u, v, e, frameSpec_at1 s1 (by decide) (by decide)⟩

/-- The last two columns of an 18 columns wide frame stay empty with SSE4.1, and the chroma differs
from that of a processor without vector code. -/
theorem c78_witness :
    (∃ y u v, yuy2ToYuvOn .sse41 .yuv420 .yuyv blank420 deepYuy = .ok (y, u, v) ∧
      at' y 18 17 0 = 0 ∧ at' u 9 0 0 = 77) ∧
    (∃ y u v, yuy2ToYuvOn .plain .yuv420 .yuyv blank420 deepYuy = .ok (y, u, v) ∧ at' u 9 0 0 = 41) ∧
    Packed.Y .yuyv deepYuy 17 0 = 74 := by
  refine ⟨?_, ?_, by decide⟩
  · obtain ⟨y, u, v, e, h⟩ := c78_unwritten .sse41 (by simp) .yuyv .yuv420 blank420 deepYuy blank420_good
      deepYuy_good rfl rfl (by decide) rfl
    obtain ⟨y', u', v', e', h'⟩ := c78_420_chroma_row .sse41 .yuyv blank420 deepYuy blank420_good
      deepYuy_good rfl rfl rfl
    rw [e] at e'
    cases e'
    refine ⟨y, u, v, e, ?_, ?_⟩
    · exact (h 17 0 (by decide) (by decide) (by decide)).1.trans (by decide)
    · exact ((h' 0 0 (by decide) (by decide)).1 (by simp) (by decide)).1.trans (by decide)
  · obtain ⟨y', u', v', e', h'⟩ := c78_420_chroma_row .plain .yuyv blank420 deepYuy blank420_good
      deepYuy_good rfl rfl rfl
    exact ⟨y', u', v', e', ((h' 0 0 (by decide) (by decide)).2 rfl).1.trans (by decide)⟩

end Verif
