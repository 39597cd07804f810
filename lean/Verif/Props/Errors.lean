import Verif.Lemmas.NoErr
import Verif.Props.Validation
/-!
# C05: which calls return an error

A converter returns `Err` exactly when its arguments do not describe an image that lies inside
its buffers.  The errors come from the validators, which see dimensions, strides and buffer
lengths only and run before the first store; after them a converter either finishes or panics.
-/
namespace Verif
open Spec

/-- An RGB buffer that the validator accepts: not empty, addressable, every component of every
pixel inside the buffer. -/
def RgbFits (len stride w h cn : Nat) : Prop :=
  0 < w ∧ 0 < h ∧ w * h * cn < 2 ^ 64 ∧ PackedCovers len stride cn w h

/-- A planar image that the validator accepts: every sample of every pixel inside its plane. -/
def PlanarFits (i : Planar) (s : Sampling) : Prop :=
  0 < i.width ∧ 0 < i.height ∧
  PlaneCovers i.y.length i.yStride 1 1 i.width i.height ∧
  PlaneCovers i.u.length i.uStride (hdiv s) (vdiv s) i.width i.height ∧
  PlaneCovers i.v.length i.vStride (hdiv s) (vdiv s) i.width i.height

/-- A semi-planar image that the validator accepts. -/
def BiPlanarFits (i : BiPlanar) (s : Sampling) : Prop :=
  0 < i.width ∧ 0 < i.height ∧
  PlaneCovers i.y.length i.yStride 1 1 i.width i.height ∧
  i.uvStride = 2 * ((i.width - 1) / hdiv s + 1) ∧
  i.uv.length = i.uvStride * ((i.height - 1) / vdiv s + 1)

theorem biplanar_check_no_panic (i : BiPlanar) (s : Sampling)
    (h : U32 i.yStride ∧ U32 i.uvStride ∧ U32 i.width ∧ U32 i.height)
    (hw : U32 (s.chromaWidth i.width * 2)) : i.check x64 s ≠ .panic := by
  obtain ⟨h1, h2, h4, h5⟩ := h
  have a := checkY8_no_panic (len := i.y.length) h1 h4 h5
  have b : checkInterleaved x64 i.uv.length i.uvStride i.width i.height s ≠ .panic := by
    unfold checkInterleaved
    split
    · simp
    · simp only [Target.u32, show s.chromaWidth i.width * 2 < 2 ^ 32 from hw, if_true,
        Outcome.bind_ok, checkOverflow2]
      repeat' first | split | (simp)
  unfold BiPlanar.check
  intro hp
  cases e : checkY8 x64 i.y.length i.yStride i.width i.height with
  | panic => exact a e
  | err x => rw [e] at hp; cases hp
  | ok x => rw [e] at hp; exact b hp

/-- Two validators followed by loops that return no error. -/
theorem rejects_iff {α : Type} {a b : Outcome Unit} {rest : Outcome α} {A B : Prop}
    (hr : NoErr rest) (pa : a ≠ .panic) (pb : b ≠ .panic) (ha : a = .ok () ↔ A)
    (hb : b = .ok () ↔ B) : (∃ e, (do a; b; rest : Outcome α) = .err e) ↔ ¬ (A ∧ B) := by
  cases a with
  | panic => exact absurd rfl pa
  | err e =>
    refine ⟨fun _ h => ?_, fun _ => ⟨e, rfl⟩⟩
    exact absurd (ha.2 h.1) (by simp)
  | ok =>
    cases b with
    | panic => exact absurd rfl pb
    | err e =>
      refine ⟨fun _ h => ?_, fun _ => ⟨e, rfl⟩⟩
      exact absurd (hb.2 h.2) (by simp)
    | ok =>
      refine ⟨fun ⟨e, h⟩ => absurd h (hr.out e), fun h => absurd ⟨ha.1 rfl, hb.1 rfl⟩ h⟩

section
variable {tg : Target} {ch : Channels} {s : Sampling} {p : Nat} {stride : Nat} {rg : YuvRange}
  {m : Matrix} {o : NVOrder} {md : Mode}

/-- C05, planar decode: an error is returned exactly when the image or the destination does not
fit. -/
theorem c05_planar_decode_rejects (hd : RowHandler) (hd2 : RowHandler420)
    (hh : ∀ y u v r, NoErr (hd y u v r)) (hh2 : ∀ y0 y1 u v r0 r1, NoErr (hd2 y0 y1 u v r0 r1))
    (i : Planar) (rgba : Buf) (hi : i.U32s) (hs : U32 stride) :
    (∃ e, yuvToRgbx x64 ch s hd hd2 i rgba stride rg m = .err e) ↔
      ¬ (RgbFits rgba.length stride i.width i.height ch.count ∧ PlanarFits i s) := by
  have hcn : 0 < ch.count ∧ ch.count ≤ 4 := by cases ch <;> decide
  obtain ⟨h1, h2, h3, h4, h5⟩ := id hi
  refine rejects_iff ?_ (checkRgba_no_panic hs h4 h5 hcn.1 hcn.2)
    (c01_planar_check_no_panic i s hi) (c02_rgba_check_iff _ _ _ _ _ hs h4 h5 hcn.1 hcn.2)
    (c01_planar_check_iff i s hi)
  have hq : ∀ v, NoErr (qrshr 13 8 v) := fun _ => .qrshr
  have hp : ∀ t c y u v px, NoErr (putRow 13 t c ch y u v px) := fun t c y u v px => by
    unfold putRow; no_err [NoErr.decodeRow hq, NoErr.storePix]
  have hp2 : ∀ t c y u v px, NoErr (putTwoRow 13 t c ch y u v px) := fun t c y u v px => by
    unfold putTwoRow; no_err [NoErr.decodeTwoRow hq, NoErr.storePix]
  cases s
  · exact .decode420 (hp _ _) (hp2 _ _) hh hh2
  · exact .decode422 (hp _ _) hh
  · exact .decode444 (hp _ _) hh

/-- C05, semi-planar decode. -/
theorem c05_nv_decode_rejects (hd : RowHandlerNV) (hd2 : RowHandlerNV420)
    (hh : ∀ y u r, NoErr (hd y u r)) (hh2 : ∀ y0 y1 u r0 r1, NoErr (hd2 y0 y1 u r0 r1))
    (i : BiPlanar) (rgba : Buf)
    (hi : U32 i.yStride ∧ U32 i.uvStride ∧ U32 i.width ∧ U32 i.height)
    (hw : U32 (s.chromaWidth i.width * 2)) (hs : U32 stride) :
    (∃ e, nvToRgbx x64 md o ch s hd hd2 i rgba stride rg m = .err e) ↔
      ¬ (BiPlanarFits i s ∧ RgbFits rgba.length stride i.width i.height ch.count) := by
  have hcn : 0 < ch.count ∧ ch.count ≤ 4 := by cases ch <;> decide
  obtain ⟨h1, h2, h4, h5⟩ := id hi
  refine rejects_iff ?_ (biplanar_check_no_panic i s hi hw)
    (checkRgba_no_panic hs h4 h5 hcn.1 hcn.2) (c03_biplanar_check_iff i s hi hw)
    (c02_rgba_check_iff _ _ _ _ _ hs h4 h5 hcn.1 hcn.2)
  have hq : ∀ p v, NoErr (qrshr p 8 v) := fun _ _ => .qrshr
  have hp : ∀ p t c y u v px, NoErr (putRow p t c ch y u v px) := fun p t c y u v px => by
    unfold putRow; no_err [NoErr.decodeRow (hq p), NoErr.storePix]
  have hp2 : ∀ p t c y u v px, NoErr (putTwoRow p t c ch y u v px) := fun p t c y u v px => by
    unfold putTwoRow; no_err [NoErr.decodeTwoRow (hq p), NoErr.storePix]
  cases s
  · exact .nvDecode420 (hp _ _ _) (hp2 _ _ _) hh hh2
  · exact .nvDecode422 (hp _ _ _) hh
  · exact .nvDecode444 (hp _ _ _) hh

/-- C05, planar encode: an error is returned exactly when the source or the image does not fit. -/
theorem c05_planar_encode_rejects (hd : RowEncoder) (hd2 : RowEncoder420)
    (hh : ∀ y u v r, NoErr (hd y u v r)) (hh2 : ∀ y0 y1 u v r0 r1, NoErr (hd2 y0 y1 u v r0 r1))
    (i : Planar) (rgba : Buf) (hi : i.U32s) (hs : U32 stride) :
    (∃ e, rgbxToYuv x64 md ch s hd hd2 i rgba stride rg m = .err e) ↔
      ¬ (RgbFits rgba.length stride i.width i.height ch.count ∧ PlanarFits i s) := by
  have hcn : 0 < ch.count ∧ ch.count ≤ 4 := by cases ch <;> decide
  obtain ⟨h1, h2, h3, h4, h5⟩ := id hi
  refine rejects_iff ?_ (checkRgba_no_panic hs h4 h5 hcn.1 hcn.2)
    (c01_planar_check_no_panic i s hi) (c02_rgba_check_iff _ _ _ _ _ hs h4 h5 hcn.1 hcn.2)
    (c01_planar_check_iff i s hi)
  cases s
  · exact .bind (.encode420 linBlocks_noErr hh hh2) fun _ => .pure
  · exact .bind (.encode422 linBlocks_noErr hh) fun _ => .pure
  · exact .bind (.encode444 linBlocks_noErr hh) fun _ => .pure

/-- C05, semi-planar encode. -/
theorem c05_nv_encode_rejects (hd : RowEncoderNV) (hd2 : RowEncoderNV420)
    (hh : ∀ y u r, NoErr (hd y u r)) (hh2 : ∀ y0 y1 u r0 r1, NoErr (hd2 y0 y1 u r0 r1))
    (i : BiPlanar) (rgba : Buf)
    (hi : U32 i.yStride ∧ U32 i.uvStride ∧ U32 i.width ∧ U32 i.height)
    (hw : U32 (s.chromaWidth i.width * 2)) (hs : U32 stride) :
    (∃ e, rgbxToNv x64 md o ch s hd hd2 i rgba stride rg m = .err e) ↔
      ¬ (RgbFits rgba.length stride i.width i.height ch.count ∧ BiPlanarFits i s) := by
  have hcn : 0 < ch.count ∧ ch.count ≤ 4 := by cases ch <;> decide
  obtain ⟨h1, h2, h4, h5⟩ := id hi
  refine rejects_iff ?_ (checkRgba_no_panic hs h4 h5 hcn.1 hcn.2)
    (biplanar_check_no_panic i s hi hw) (c02_rgba_check_iff _ _ _ _ _ hs h4 h5 hcn.1 hcn.2)
    (c03_biplanar_check_iff i s hi hw)
  cases s
  · exact .bind (.nvEncode420 linBlocks_noErr hh hh2) fun _ => .pure
  · exact .bind (.nvEncode422 linBlocks_noErr hh) fun _ => .pure
  · exact .bind (.nvEncode444 linBlocks_noErr hh) fun _ => .pure

/-! The premises on the vector code hold when there is none. -/

example : ∀ y u v r, NoErr (noSimd y u v r) := fun _ _ _ _ => .ok
example : ∀ y0 y1 u v r0 r1, NoErr (noSimd420 y0 y1 u v r0 r1) := fun _ _ _ _ _ _ => .ok
example : ∀ y u v r, NoErr (noEnc y u v r) := fun _ _ _ _ => .ok

/-- A destination that is one byte too short is refused. -/
example : ∃ e, yuvToRgbx x64 .rgb .yuv420 noSimd noSimd420
    ⟨zeros 4, 2, zeros 1, 1, zeros 1, 1, 2, 2⟩ (zeros 11) 6 .limited .bt601 = .err e :=
  ⟨.destinationSizeMismatch ⟨12, 11⟩, by decide⟩

/-- Same dimensions, strides and buffer lengths. -/
def Planar.SameShape (i j : Planar) : Prop :=
  i.width = j.width ∧ i.height = j.height ∧ i.yStride = j.yStride ∧ i.uStride = j.uStride ∧
  i.vStride = j.vStride ∧ i.y.length = j.y.length ∧ i.u.length = j.u.length ∧
  i.v.length = j.v.length

theorem Planar.SameShape.fits {i j : Planar} (h : i.SameShape j) :
    PlanarFits i s ↔ PlanarFits j s := by
  obtain ⟨a, b, c, d, e, f, g, k⟩ := h
  unfold PlanarFits
  rw [a, b, c, d, e, f, g, k]

/-- C05: whether planar decode returns an error does not depend on any sample, nor on what the
destination held before. -/
theorem c05_decode_status_geometry (hd : RowHandler) (hd2 : RowHandler420)
    (hh : ∀ y u v r, NoErr (hd y u v r)) (hh2 : ∀ y0 y1 u v r0 r1, NoErr (hd2 y0 y1 u v r0 r1))
    (i j : Planar) (rgba rgba' : Buf) (hi : i.U32s) (hs : U32 stride) (hij : i.SameShape j)
    (hr : rgba.length = rgba'.length) :
    (∃ e, yuvToRgbx x64 ch s hd hd2 i rgba stride rg m = .err e) ↔
    (∃ e, yuvToRgbx x64 ch s hd hd2 j rgba' stride rg m = .err e) := by
  have hj : j.U32s := by
    obtain ⟨a, b, c, d, e, f, g, k⟩ := hij
    unfold Planar.U32s at *
    rw [← a, ← b, ← c, ← d, ← e]; exact hi
  rw [c05_planar_decode_rejects hd hd2 hh hh2 i rgba hi hs,
    c05_planar_decode_rejects hd hd2 hh hh2 j rgba' hj hs, hij.fits, hr, hij.1, hij.2.1]

/-- The same for planar encode: the status does not depend on the pixels. -/
theorem c05_encode_status_geometry (hd : RowEncoder) (hd2 : RowEncoder420)
    (hh : ∀ y u v r, NoErr (hd y u v r)) (hh2 : ∀ y0 y1 u v r0 r1, NoErr (hd2 y0 y1 u v r0 r1))
    (i j : Planar) (rgba rgba' : Buf) (hi : i.U32s) (hs : U32 stride) (hij : i.SameShape j)
    (hr : rgba.length = rgba'.length) :
    (∃ e, rgbxToYuv x64 md ch s hd hd2 i rgba stride rg m = .err e) ↔
    (∃ e, rgbxToYuv x64 md ch s hd hd2 j rgba' stride rg m = .err e) := by
  have hj : j.U32s := by
    obtain ⟨a, b, c, d, e, f, g, k⟩ := hij
    unfold Planar.U32s at *
    rw [← a, ← b, ← c, ← d, ← e]; exact hi
  rw [c05_planar_encode_rejects hd hd2 hh hh2 i rgba hi hs,
    c05_planar_encode_rejects hd hd2 hh hh2 j rgba' hj hs, hij.fits, hr, hij.1, hij.2.1]

end
end Verif
