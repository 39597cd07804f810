import Verif.Props.Yuy2
import Verif.Props.DeepErrors
/-!
# C05: what the packed 4:2:2 converters reject
-/
namespace Verif
open Spec

/-- The buffer of a packed 4:2:2 frame has the one length its size allows. -/
def Spec.PackedFits (i : Packed) : Prop :=
  0 < i.width ∧ 0 < i.height ∧ i.yuy.length = 4 * cover i.width 2 * i.height

theorem packed_fits_iff (i : Packed) (h : U32 i.yuyStride ∧ U32 i.width ∧ U32 i.height)
    (hsz : 2 * (i.width + 1) * i.height < 2 ^ 64) : i.check x64 = .ok () ↔ PackedFits i := by
  rw [packed422_check_iff i h hsz]
  unfold PackedFits
  refine and_congr_right fun hw => ?_
  rw [show cover i.width 2 = ceil2 i.width by unfold cover ceil2; omega]

theorem packed_check_no_panic (i : Packed) (h : U32 i.yuyStride ∧ U32 i.width ∧ U32 i.height)
    (hsz : 2 * (i.width + 1) * i.height < 2 ^ 64) : i.check x64 ≠ .panic := by
  obtain ⟨h1, h2, h3⟩ := h
  unfold U32 at *
  unfold Packed.check checkPacked422
  have e1 := mul_lt_64 h1 h3
  have e2 := mul_lt_64 h2 h3
  have hmono : 2 * i.width * i.height ≤ 2 * (i.width + 1) * i.height :=
    Nat.mul_le_mul_right _ (by omega)
  by_cases h0 : i.width = 0 ∨ i.height = 0
  · rw [if_pos h0]; simp
  · rw [if_neg h0]
    simp only [overflow2_ok e1, overflow2_ok e2, Outcome.bind_ok]
    by_cases hp : i.width % 2 = 0
    · simp only [hp, if_true, usize_ok (show 2 * i.width < 2 ^ 64 by omega), Outcome.bind_ok,
        usize_ok (show 2 * i.width * i.height < 2 ^ 64 by omega),
        usize_ok e1]
      split <;> simp
    · simp only [hp, if_false, usize_ok (show i.width + 1 < 2 ^ 64 by omega), Outcome.bind_ok,
        usize_ok (show 2 * (i.width + 1) < 2 ^ 64 by omega),
        usize_ok (show 2 * (i.width + 1) * i.height < 2 ^ 64 by omega), usize_ok e1]
      split <;> simp

/-- Two validators and a comparison of sizes, followed by loops that return no error. -/
theorem rejects_sizes {α : Type} {a b : Outcome Unit} {rest : Outcome α} {A B C : Prop}
    [Decidable C] (hr : NoErr rest) (pa : a ≠ .panic) (pb : b ≠ .panic) (ha : a = .ok () ↔ A)
    (hb : b = .ok () ↔ B) :
    (∃ e, (do a; b; if C then .err .imagesSizesNotMatch else rest : Outcome α) = .err e) ↔
      ¬ (A ∧ B ∧ ¬ C) := by
  by_cases hC : C
  · simp only [if_pos hC]
    refine ⟨fun _ h => h.2.2 hC, fun _ => ?_⟩
    cases a with
    | panic => exact absurd rfl pa
    | err e => exact ⟨e, rfl⟩
    | ok =>
      cases b with
      | panic => exact absurd rfl pb
      | err e => exact ⟨e, rfl⟩
      | ok => exact ⟨_, rfl⟩
  · simp only [if_neg hC]
    rw [rejects_iff hr pa pb ha hb]
    exact not_congr ⟨fun h => ⟨h.1, h.2, hC⟩, fun h => ⟨h.1, h.2.1⟩⟩

theorem NoErr.yuyRgbFrame {cn stride : Nat} {t : Yuy2} {put : Nat → Nat → Nat → Buf → Outcome Buf}
    (hput : ∀ y u v c, NoErr (put y u v c)) {hd : YuyRgbHandler} (hh : ∀ y r, NoErr (hd y r))
    {i : Packed} {rgb : Buf} : NoErr (Verif.yuyRgbFrame cn t put hd i rgb stride) := by
  unfold Verif.yuyRgbFrame yuyRgbRow yuyPixel; no_err [hput, hh]

theorem NoErr.packRest {w s : Nat} {t : Yuy2} {cf : ChromaFetch} {yuy y u v : Buf}
    (h1 : ∀ c j, NoErr (cf.at' c j)) :
    NoErr (Verif.packRest w t cf s yuy y u v) := by
  unfold Verif.packRest putQuad; no_err [h1]

section
variable {t : Yuy2} {ch : Channels} {i : Planar} {d : Packed} {stride : Nat}

/-- C05, 8-bit packed decode: an error is returned exactly when the frame or the destination does
not fit. -/
theorem c05_yuy2_decode_rejects (hd : YuyRgbHandler) (hh : ∀ y r, NoErr (hd y r)) (rgb : Buf)
    (rg : YuvRange) (m : Matrix) (hi : U32 d.yuyStride ∧ U32 d.width ∧ U32 d.height)
    (hsz : 2 * (d.width + 1) * d.height < 2 ^ 64) (hs : U32 stride) :
    (∃ x, yuy2ToRgb x64 t ch hd d rgb stride rg m = .err x) ↔
      ¬ (PackedFits d ∧ RgbFits rgb.length stride d.width d.height ch.count) :=
  rejects_iff (.yuyRgbFrame (fun _ _ _ _ => .putDeep fun _ => .qrshr) hh)
    (packed_check_no_panic d hi hsz)
    (checkRgba_no_panic hs hi.2.1 hi.2.2 (count_ok ch).1 (count_ok ch).2)
    (packed_fits_iff d hi hsz) (c02_rgba_check_iff _ _ _ _ _ hs hi.2.1 hi.2.2 (count_ok ch).1 (count_ok ch).2)

/-- C05, 10- to 16-bit packed decode. -/
theorem c05_yuy2_decode16_rejects (b : Nat) (rgb : Buf)
    (rg : YuvRange) (m : Matrix) (hi : U32 d.yuyStride ∧ U32 d.width ∧ U32 d.height)
    (hsz : 2 * (d.width + 1) * d.height < 2 ^ 64) (hs : U32 stride) :
    (∃ x, yuy2ToRgb16 x64 t ch b d rgb stride rg m = .err x) ↔
      ¬ (PackedFits d ∧ RgbFits rgb.length stride d.width d.height ch.count) :=
  rejects_iff (.yuyRgbFrame (fun _ _ _ _ => .putDeep fun _ => .qrshrN)
      (fun _ _ => by unfold noYuyRgb; no_err))
    (packed_check_no_panic d hi hsz)
    (checkRgba_no_panic hs hi.2.1 hi.2.2 (count_ok ch).1 (count_ok ch).2)
    (packed_fits_iff d hi hsz) (c02_rgba_check_iff _ _ _ _ _ hs hi.2.1 hi.2.2 (count_ok ch).1 (count_ok ch).2)

/-- C05, planar to packed: an error is returned exactly when an image does not fit its buffers or
the sizes differ. -/
theorem c05_pack_rejects (s : Sampling) (hd : YuyPacker) (hh : ∀ q y u v, NoErr (hd q y u v))
    (hi : i.U32s) (hd' : U32 d.yuyStride ∧ U32 d.width ∧ U32 d.height)
    (hsz : 2 * (d.width + 1) * d.height < 2 ^ 64) :
    (∃ x, yuvToYuy2 x64 s t hd i d = .err x) ↔
      ¬ (PlanarFits i s ∧ PackedFits d ∧ ¬ (i.width ≠ d.width ∨ i.height ≠ d.height)) := by
  have h4 : ∀ c j, NoErr (fetch444.at' c j) := fun _ _ => by unfold fetch444; no_err
  have h2 : ∀ c j, NoErr (fetch422.at' c j) := fun _ _ => by unfold fetch422; no_err
  refine rejects_sizes ?_ (c01_planar_check_no_panic i s hi) (packed_check_no_panic d hd' hsz)
    (c01_planar_check_iff i s hi) (packed_fits_iff d hd' hsz)
  cases s
  · show NoErr (pack420 ..)
    unfold pack420 packSlice packRow; no_err [hh, NoErr.packRest h2]
  · show NoErr (packRows ..)
    unfold packRows packSlice packRow; no_err [hh, NoErr.packRest h2]
  · show NoErr (packRows ..)
    unfold packRows packSlice packRow; no_err [hh, NoErr.packRest h4]

/-- C05, packed to planar. -/
theorem c05_unpack_rejects (s : Sampling) (hd : YuyUnpacker) (hh : ∀ y u v q, NoErr (hd y u v q))
    (hi : i.U32s) (hd' : U32 d.yuyStride ∧ U32 d.width ∧ U32 d.height)
    (hsz : 2 * (d.width + 1) * d.height < 2 ^ 64) :
    (∃ x, yuy2ToYuv x64 s t hd i d = .err x) ↔
      ¬ (PlanarFits i s ∧ PackedFits d ∧ ¬ (i.width ≠ d.width ∨ i.height ≠ d.height)) := by
  refine rejects_sizes ?_ (c01_planar_check_no_panic i s hi) (packed_check_no_panic d hd' hsz)
    (c01_planar_check_iff i s hi) (packed_fits_iff d hd' hsz)
  cases s
  · show NoErr (unpack420 ..)
    unfold unpack420 unpackRow420 unpackY unpackC; no_err [hh, NoErr.rows3]
  · show NoErr (unpackRows ..)
    unfold unpackRows unpackRow unpackY unpackC; no_err [hh, NoErr.rows3]
  · show NoErr (unpackRows ..)
    unfold unpackRows unpackRow unpackY unpackC; no_err [hh, NoErr.rows3]

/-- A frame of another size is refused. -/
example : yuvToYuy2 x64 .yuv422 .yuyv noPack demo422 ⟨zeros 8, 4, 2, 2⟩ = .err .imagesSizesNotMatch ∧
    yuy2ToYuv x64 .yuv422 .yuyv noUnpack demo422 ⟨zeros 8, 4, 2, 2⟩ = .err .imagesSizesNotMatch ∧
    PackedFits ⟨zeros 8, 4, 2, 2⟩ := by
  refine ⟨by decide +kernel, by decide +kernel, by unfold PackedFits; decide⟩

end

end Verif
