import Verif.Lemmas.Yuy2Unpack
import Verif.Props.Alpha
/-!
# C35, C36, C37: packed 4:2:2
-/
namespace Verif
open Spec

/-! ## C36: decoding to RGB -/

theorem putYuy8_ok (ch : Channels) (rg : YuvRange) (m : Matrix) :
    PutOk 256 ch.count (putDeep (qrshr 6 8) asU8 id (computedInverse 6 8 rg m) (getYuvRange 8 rg) ch 255)
      (fixedPixel (2 ^ 5 - 1) 6 8 (computedInverse 6 8 rg m) ch rg) := by
  have hf : ∀ m ∈ allMatrix, ∀ r ∈ allRange, Fits (computedInverse 6 8 r m) (2 ^ 8) (2 ^ 7) (2 ^ 6) := by
    decide +kernel
  have h := putDeep_ok (cast := asU8) (ne := id) (B := 256) (c := getYuvRange 8 rg)
    (qrshr_QOk 6 8) (forall_mr hf m rg)
    (fun y u v hy hu hv => near_of_lt (d := 8) (by decide) rg hy hu hv) ch 255
  simp only [qr, asU8_sat] at h
  exact h

theorem putYuy16_ok {d : Nat} (hd : Depth d) (ch : Channels) (rg : YuvRange) (m : Matrix) :
    PutOk 65536 ch.count (putDeep (fun v => qrshrN 13 v (2 ^ d - 1)) asU16 id
        (computedInverse 13 d rg m) (getYuvRange d rg) ch (2 ^ d - 1))
      (deepPixel (2 ^ 12) 13 13 d d ch rg m) := by
  have e : searchInverse 13 d rg m = computedInverse 13 d rg m := by
    rw [c06_searchInverse 13 d (by unfold Prec; omega) hd rg m]; rfl
  rw [← e]
  have h := putDeep_ok (cast := asU16) (ne := id) (B := 65536) (c := getYuvRange d rg)
    (QOk.mono (qrshrN_QOk 13 (2 ^ d - 1)) (by decide)) (fits_u16 hd rg m)
    (fun y u v hy hu hv => near_u16 hd rg hy hu hv) ch (2 ^ d - 1)
  have hd16 : d ≤ 16 := by rcases hd with rfl | rfl | rfl | rfl | rfl <;> decide
  simp only [qrN, asU16_sat hd16] at h
  exact h

/-- The pixel the specification asks for: the luma of pixel `(x, y)` with the chroma of its pair. -/
abbrev Spec.yuyPixelAt (t : Yuy2) (ch : Channels) (i : Packed) (rg : YuvRange) (m : Matrix)
    (x y : Nat) : Buf :=
  fixedPixel (2 ^ 5 - 1) 6 8 (computedInverse 6 8 rg m) ch rg (Packed.Y t i x y) (Packed.U t i x y)
    (Packed.V t i x y)

/-- C36: decoding a packed 4:2:2 frame to 8-bit RGB succeeds, writes exactly the `width × height`
pixels, each the decoding of its luma with the chroma of its pair (or what the vector code
guarantees for them).  Partial: the frame must have the stride its width implies; validation does
not insist on it, see `c36_stride_ignored`. -/
theorem c36_yuy2_decode_partial (t : Yuy2) (ch : Channels) (i : Packed) (rgb : Buf) (stride : Nat)
    (rg : YuvRange) (m : Matrix) (hi : GoodPacked i 256)
    (hdst : GoodDst rgb.length stride i.width i.height ch.count)
    (R : Nat → Nat → Nat → Buf → Prop) (h : YuyRgbHandler)
    (hh : h.Ok 256 ch.count i.width t R) :
    ∃ out, yuy2ToRgb x64 t ch h i rgb stride rg m = .ok out ∧
      FrameRel out rgb stride i.width i.height ch.count (fun x y p =>
        p = yuyPixelAt t ch i rg m x y ∨
        R (Packed.Y t i x y) (Packed.U t i x y) (Packed.V t i x y) p) := by
  have hcn := count_pos ch
  have hst : 0 < stride := Nat.lt_of_lt_of_le (Nat.mul_pos hi.wpos hcn) hdst.cols_le
  unfold yuy2ToRgb
  rw [hi.accepted, hdst.accepted hi.wpos hi.hpos hi.w32 hi.h32 hcn (count_le ch)]
  simp only [Outcome.bind_ok]
  exact (yuyRgbFrame_rel hi hcn (putYuy8_ok ch rg m) hh hdst.cols_le hdst.full).spec hcn hst
    hdst.cols_le hdst.full.1

/-- C36 without vector code: the destination is determined. -/
theorem c36_yuy2_decode_exact_partial (t : Yuy2) (ch : Channels) (i : Packed) (rgb : Buf)
    (stride : Nat) (rg : YuvRange) (m : Matrix) (hi : GoodPacked i 256)
    (hdst : GoodDst rgb.length stride i.width i.height ch.count) :
    ∃ out, yuy2ToRgb x64 t ch noYuyRgb i rgb stride rg m = .ok out ∧
      FrameSpec out rgb stride i.width i.height ch.count (yuyPixelAt t ch i rg m) := by
  obtain ⟨out, e1, hr⟩ := c36_yuy2_decode_partial t ch i rgb stride rg m hi hdst
    (fun _ _ _ _ => False) noYuyRgb noYuyRgb_ok
  exact ⟨out, e1, frameRel_or_eq hr fun x y p _ _ h => h.elim id False.elim⟩

/-- C36 at 10 to 16 bits (there is no vector code). -/
theorem c36_yuy2_decode16_partial (t : Yuy2) (ch : Channels) (d : Nat) (hd : Depth d) (i : Packed)
    (rgb : Buf) (stride : Nat) (rg : YuvRange) (m : Matrix) (hi : GoodPacked i 65536)
    (hdst : GoodDst rgb.length stride i.width i.height ch.count) :
    ∃ out, yuy2ToRgb16 x64 t ch d i rgb stride rg m = .ok out ∧
      FrameSpec out rgb stride i.width i.height ch.count (fun x y =>
        deepPixel (2 ^ 12) 13 13 d d ch rg m (Packed.Y t i x y) (Packed.U t i x y)
          (Packed.V t i x y)) := by
  have hcn := count_pos ch
  have hst : 0 < stride := Nat.lt_of_lt_of_le (Nat.mul_pos hi.wpos hcn) hdst.cols_le
  unfold yuy2ToRgb16
  rw [hi.accepted, hdst.accepted hi.wpos hi.hpos hi.w32 hi.h32 hcn (count_le ch)]
  simp only [Outcome.bind_ok]
  obtain ⟨out, e1, hr⟩ := (yuyRgbFrame_rel hi hcn (putYuy16_ok hd ch rg m)
    (noYuyRgb_ok (R := fun _ _ _ _ => False)) hdst.cols_le hdst.full).spec hcn hst
    hdst.cols_le hdst.full.1
  exact ⟨out, e1, frameRel_or_eq hr fun x y p _ _ h => h.elim id False.elim⟩

theorem fixedPixel_close {p d : Nat} (hp : 0 < p) (hd : Depth d) (half : Int)
    (hh : half = 2 ^ (p - 1) - 1 ∨ half = 2 ^ (p - 1)) {t : InvCoef} (ch : Channels) (rg : YuvRange)
    (m : Matrix) (hN : NearestCoef p t.y (invY d rg) ∧ NearestCoef p t.cr (invCr d rg m) ∧
      NearestCoef p t.cb (invCb d rg m) ∧ NearestCoef p t.g1 (invG1 d rg m) ∧
      NearestCoef p t.g2 (invG2 d rg m)) (y u v : Nat) (hy : y < 2 ^ d) (hu : u < 2 ^ d)
    (hv : v < 2 ^ d) :
    ∃ r g b : Nat, fixedPixel half p d t ch rg y u v = layout ch r g b (2 ^ d - 1) ∧
      |(r : Rat) - satQ d (exactR d rg m y u v)| ≤ 1 / 2 + 2 ^ d / 2 ^ p ∧
      |(g : Rat) - satQ d (exactG d rg m y u v)| ≤ 1 / 2 + 2 ^ d / 2 ^ p ∧
      |(b : Rat) - satQ d (exactB d rg m y u v)| ≤ 1 / 2 + 2 ^ d / 2 ^ p := by
  obtain ⟨c1, c2, c3⟩ := sums_close_of hd rg m hN hy hu hv
  exact ⟨_, _, _, rfl, saturate_close hp hh c1, saturate_close hp hh c2, saturate_close hp hh c3⟩

/-- C36: the 8-bit pixels are within 4.5 of the ITU-R equations (six fractional bits). -/
theorem c36_close (ch : Channels) (rg : YuvRange) (m : Matrix) (y u v : Nat) (hy : y < 2 ^ 8)
    (hu : u < 2 ^ 8) (hv : v < 2 ^ 8) :
    ∃ r g b : Nat, fixedPixel (2 ^ 5 - 1) 6 8 (computedInverse 6 8 rg m) ch rg y u v
        = layout ch r g b (2 ^ 8 - 1) ∧
      |(r : Rat) - satQ 8 (exactR 8 rg m y u v)| ≤ 1 / 2 + 2 ^ 8 / 2 ^ 6 ∧
      |(g : Rat) - satQ 8 (exactG 8 rg m y u v)| ≤ 1 / 2 + 2 ^ 8 / 2 ^ 6 ∧
      |(b : Rat) - satQ 8 (exactB 8 rg m y u v)| ≤ 1 / 2 + 2 ^ 8 / 2 ^ 6 :=
  fixedPixel_close (by decide) (by unfold Depth; omega) _ (Or.inl rfl) ch rg m
    (c06_inverse_tables 6 8 (by unfold Prec; omega) (by unfold Depth; omega) rg m).2 y u v hy hu hv

/-- C36 does not hold for every accepted frame: the stride is not validated.  A 2×2 frame whose
stride claims padding that is not there passes the check, and its second row is never decoded. -/
theorem c36_stride_ignored :
    (⟨[235, 128, 235, 128, 235, 128, 235, 128], 8, 2, 2⟩ : Packed).check x64 = .ok () ∧
    yuy2ToRgb x64 .yuyv .rgb noYuyRgb ⟨[235, 128, 235, 128, 235, 128, 235, 128], 8, 2, 2⟩
      (zeros 12) 6 .limited .bt601 = .ok [255, 255, 255, 255, 255, 255, 0, 0, 0, 0, 0, 0] := by
  decide +kernel

/-- A stride below the row length is accepted too, and the conversion panics. -/
theorem c36_short_stride_panics :
    (⟨zeros 8, 2, 2, 2⟩ : Packed).check x64 = .ok () ∧
    yuy2ToRgb x64 .yuyv .rgb noYuyRgb ⟨zeros 8, 2, 2, 2⟩ (zeros 12) 6 .limited .bt601 = .panic := by
  decide +kernel

/-- A 3×2 YUYV frame; its second column of the last pair belongs to no pixel. -/
def demoYuyv : Packed :=
  { yuy := [16, 90, 235, 240, 81, 128, 0, 7, 145, 54, 41, 34, 210, 16, 9, 146], yuyStride := 8
    width := 3, height := 2 }

theorem demoYuyv_good : GoodPacked demoYuyv 256 := by
  refine ⟨by decide, by decide, by unfold U32; decide, by unfold U32; decide, by unfold U32; decide,
    by decide, by decide, by decide, by decide⟩

example : GoodPacked demoYuyv 256 ∧
    GoodDst (zeros 24).length 12 demoYuyv.width demoYuyv.height Channels.rgba.count :=
  ⟨demoYuyv_good, ⟨by unfold U32; decide, by decide, by unfold FullRows; decide, by decide⟩⟩

/-! ## C35: packing planar images -/

section
variable {t : Yuy2} {i j : Planar} {d : Packed} {B B' B'' : Nat}

theorem yuvToYuy2_run {tg : Target} {s : Sampling} {hd : YuyPacker} (h1 : i.check tg s = .ok ())
    (h2 : d.check tg = .ok ()) (hw : i.width = d.width) (hh : i.height = d.height) :
    yuvToYuy2 tg s t hd i d = (match s with
      | .yuv444 => packRows i.width t fetch444 id hd i d.yuy d.yuyStride
      | .yuv422 => packRows (ceil2 i.width) t fetch422 (· / 2) hd i d.yuy d.yuyStride
      | .yuv420 => pack420 t hd i d.yuy d.yuyStride) := by
  unfold yuvToYuy2
  rw [h1, h2]
  simp only [Outcome.bind_ok]
  rw [if_neg (by omega)]
  cases s <;> rfl

theorem pack_spec {o : Outcome Buf} {R : Nat → Nat → Buf} (hd' : GoodPacked d B')
    (h : FrameOk d.yuyStride d.height 4 (ceil2 d.width) (fun j y p => p = R j y) d.yuy o) :
    ∃ out, o = .ok out ∧ FrameSpec out d.yuy d.yuyStride (ceil2 d.width) d.height 4 R := by
  obtain ⟨out, e, hr⟩ := h.spec (by decide) hd'.spos (by rw [hd'.stride']) hd'.full.1
  exact ⟨out, e, frameRel_eq hr⟩

/-- C35: packing a planar 4:2:2 image succeeds and stores, for every pair of every row, the quad of
its two lumas and its chroma in the order of the format (the second luma of a half pair is 0), for
every vector code that packs what it reports. -/
theorem c35_pack422 (t : Yuy2) (i : Planar) (d : Packed) (hi : GoodPlanar i .yuv422 B)
    (hd' : GoodPacked d B') (hw : i.width = d.width) (hh : i.height = d.height) (hd : YuyPacker)
    (hok : hd.Ok i.width (cover i.width 2) t chroma422) :
    ∃ out, yuvToYuy2 x64 .yuv422 t hd i d = .ok out ∧
      FrameSpec out d.yuy d.yuyStride (cover d.width 2) d.height 4 (planarQuad t i .yuv422) := by
  have e : ∀ w, 0 < w → cover w 2 = ceil2 w := fun w h => by unfold cover ceil2; omega
  rw [e _ hi.wpos] at hok
  rw [e _ hd'.wpos]
  refine pack_spec hd' ?_
  rw [yuvToYuy2_run hi.accepted hd'.accepted hw hh, ← hw, ← hh]
  exact packRows422_rel hi.rows hd' hw hh hok

/-- C35: the same for planar 4:2:0; both rows of a pair get its chroma. -/
theorem c35_pack420 (t : Yuy2) (i : Planar) (d : Packed) (hi : GoodPlanar i .yuv420 B)
    (hd' : GoodPacked d B') (hw : i.width = d.width) (hh : i.height = d.height) (hd : YuyPacker)
    (hok : hd.Ok i.width (cover i.width 2) t chroma422) :
    ∃ out, yuvToYuy2 x64 .yuv420 t hd i d = .ok out ∧
      FrameSpec out d.yuy d.yuyStride (cover d.width 2) d.height 4 (planarQuad t i .yuv420) := by
  have e : ∀ w, 0 < w → cover w 2 = ceil2 w := fun w h => by unfold cover ceil2; omega
  rw [e _ hi.wpos] at hok
  rw [e _ hd'.wpos]
  refine pack_spec hd' ?_
  rw [yuvToYuy2_run hi.accepted hd'.accepted hw hh, ← hw, ← hh]
  exact pack420_rel hi.rows hd' hw hh hok

/-- C35 for planar 4:4:4 without vector code (always so at 16 bits): the chroma of a pair is the
average of its two samples, halves up.  Partial: with vector code it fails, see
`c35_pack444_vector_skips`. -/
theorem c35_pack444_partial (t : Yuy2) (i : Planar) (d : Packed) (hi : GoodPlanar i .yuv444 B)
    (hd' : GoodPacked d B') (hw : i.width = d.width) (hh : i.height = d.height) :
    ∃ out, yuvToYuy2 x64 .yuv444 t noPack i d = .ok out ∧
      FrameSpec out d.yuy d.yuyStride (cover d.width 2) d.height 4 (planarQuad444 t i) := by
  have e : ∀ w, 0 < w → cover w 2 = ceil2 w := fun w h => by unfold cover ceil2; omega
  rw [e _ hd'.wpos]
  refine pack_spec hd' ?_
  rw [yuvToYuy2_run hi.accepted hd'.accepted hw hh, ← hw, ← hh]
  exact packRows444_rel hi.rows hd' hw hh

/-! ## C35: unpacking -/

theorem yuy2ToYuv_run {tg : Target} {s : Sampling} {hd : YuyUnpacker} (h1 : i.check tg s = .ok ())
    (h2 : d.check tg = .ok ()) (hw : i.width = d.width) (hh : i.height = d.height) :
    yuy2ToYuv tg s t hd i d = (match s with
      | .yuv444 => unpackRows 2 i.width t hd i d
      | .yuv422 => unpackRows 1 (ceil2 i.width) t hd i d
      | .yuv420 => unpack420 t hd i d) := by
  unfold yuy2ToYuv
  rw [h1, h2]
  simp only [Outcome.bind_ok]
  rw [if_neg (by omega)]
  cases s <;> rfl

/-- C35: unpacking to planar 4:2:2 succeeds and writes exactly the image: at every pixel its luma,
at every chroma position the chroma of its pair.  Partial: the Cr plane of an image of odd width
must not be padded (`c35_unpack_padded_cr`), and the vector code must take whole rows or nothing
(`c35_unpack_vector_skips`). -/
theorem c35_unpack422_partial (t : Yuy2) (i : Planar) (d : Packed) (hi : GoodPlanar i .yuv422 B)
    (hd' : GoodPacked d B') (hw : i.width = d.width) (hh : i.height = d.height) (hd : YuyUnpacker)
    (hok : hd.Ok i.width 1 t) (hwh : hd.Whole i.width)
    (hv : i.width % 2 = 1 → i.vStride = cover i.width 2) :
    ∃ y u v, yuy2ToYuv x64 .yuv422 t hd i d = .ok (y, u, v) ∧
      FrameSpec y i.y i.yStride i.width i.height 1 (fun x r => [Packed.Y t d x r]) ∧
      FrameSpec u i.u i.uStride (cover i.width 2) i.height 1 (fun c r => [Packed.U t d (c * 2) r]) ∧
      FrameSpec v i.v i.vStride (cover i.width 2) i.height 1 (fun c r => [Packed.V t d (c * 2) r]) := by
  have e : cover i.width 2 = ceil2 i.width := by have := hi.wpos; unfold cover ceil2; omega
  rw [e] at hv ⊢
  rw [yuy2ToYuv_run hi.accepted hd'.accepted hw hh]
  exact unpackRows_ok hi.rows hd' hw hh (Or.inl ⟨rfl, rfl, rfl⟩) hok hwh hv

/-- C35: unpacking to planar 4:4:4; both pixels of a pair get its chroma. -/
theorem c35_unpack444_partial (t : Yuy2) (i : Planar) (d : Packed) (hi : GoodPlanar i .yuv444 B)
    (hd' : GoodPacked d B') (hw : i.width = d.width) (hh : i.height = d.height) (hd : YuyUnpacker)
    (hok : hd.Ok i.width 2 t) (hwh : hd.Whole i.width)
    (hv : i.width % 2 = 1 → i.vStride = i.width) :
    ∃ y u v, yuy2ToYuv x64 .yuv444 t hd i d = .ok (y, u, v) ∧
      FrameSpec y i.y i.yStride i.width i.height 1 (fun x r => [Packed.Y t d x r]) ∧
      FrameSpec u i.u i.uStride i.width i.height 1 (fun x r => [Packed.U t d x r]) ∧
      FrameSpec v i.v i.vStride i.width i.height 1 (fun x r => [Packed.V t d x r]) := by
  rw [yuy2ToYuv_run hi.accepted hd'.accepted hw hh]
  have := unpackRows_ok hi.rows hd' hw hh (Or.inr ⟨rfl, rfl, rfl⟩) hok hwh hv
  simp only [hdiv, Nat.mul_one] at this
  exact this

/-! ## C35: round trips -/

theorem list_bounded (l : Buf) : ∃ B, ∀ a ∈ l, a < B := by
  induction l with
  | nil => exact ⟨0, by simp⟩
  | cons a l ih =>
    obtain ⟨B, h⟩ := ih
    refine ⟨max B (a + 1), ?_⟩
    intro b hb
    rcases List.mem_cons.1 hb with rfl | hb
    · omega
    · have := h b hb; omega

/-- The samples a packed frame holds when its quads are known. -/
theorem packed_of_quads {q : Buf} {st h w : Nat} {orig : Buf} {s : Sampling} (hw : i.width = w)
    (hs : hdiv s = 2)
    (hq : FrameSpec q orig st (cover w 2) h 4 (planarQuad t i s)) {x y : Nat} (hx : x < w)
    (hy : y < h) :
    at' q st (lumaAt t x) y = Planar.Y i x y ∧ at' q st (cbAt t x) y = Planar.U i s x y ∧
      at' q st (crAt t x) y = Planar.V i s x y := by
  have hj : x / 2 < cover w 2 := by unfold cover; omega
  have key : ∀ c v, c < 4 → (planarQuad t i s (x / 2) y)[c]? = some v →
      at' q st (4 * (x / 2) + c) y = v := by
    intro c v hc hv
    have := hq.2.1 (x / 2) y c hj hy hc
    unfold at'
    rw [List.getD_eq_getElem?_getD, Nat.mul_comm 4, this, hv]; rfl
  have hU : Planar.U i s (2 * (x / 2)) y = Planar.U i s x y := by
    unfold Planar.U; rw [hs, show 2 * (x / 2) / 2 = x / 2 by omega]
  have hV : Planar.V i s (2 * (x / 2)) y = Planar.V i s x y := by
    unfold Planar.V; rw [hs, show 2 * (x / 2) / 2 = x / 2 by omega]
  have hlast : ∀ c, c < 4 → x % 2 = 0 → (planarQuad t i s (x / 2) y)[c]? = some (Planar.Y i (2 * (x / 2)) y) →
      at' q st (4 * (x / 2) + c) y = Planar.Y i x y := by
    intro c hc h0 h
    rw [key c _ hc h, show 2 * (x / 2) = x by omega]
  have hodd : ∀ c, c < 4 → x % 2 = 1 → (planarQuad t i s (x / 2) y)[c]?
      = some (if 2 * (x / 2) + 1 < i.width then Planar.Y i (2 * (x / 2) + 1) y else 0) →
      at' q st (4 * (x / 2) + c) y = Planar.Y i x y := by
    intro c hc h0 h
    rw [key c _ hc h, if_pos (by omega), show 2 * (x / 2) + 1 = x by omega]
  refine ⟨?_, ?_, ?_⟩
  · rcases Nat.mod_two_eq_zero_or_one x with h0 | h0
    · cases t
      · rw [show lumaAt .yuyv x = 4 * (x / 2) + 0 by simp only [lumaAt]; omega]
        exact hlast 0 (by decide) h0 rfl
      · rw [show lumaAt .uyvy x = 4 * (x / 2) + 1 by simp only [lumaAt]; omega]
        exact hlast 1 (by decide) h0 rfl
      · rw [show lumaAt .yvyu x = 4 * (x / 2) + 0 by simp only [lumaAt]; omega]
        exact hlast 0 (by decide) h0 rfl
      · rw [show lumaAt .vyuy x = 4 * (x / 2) + 1 by simp only [lumaAt]; omega]
        exact hlast 1 (by decide) h0 rfl
    · cases t
      · rw [show lumaAt .yuyv x = 4 * (x / 2) + 2 by simp only [lumaAt]; omega]
        exact hodd 2 (by decide) h0 rfl
      · rw [show lumaAt .uyvy x = 4 * (x / 2) + 3 by simp only [lumaAt]; omega]
        exact hodd 3 (by decide) h0 rfl
      · rw [show lumaAt .yvyu x = 4 * (x / 2) + 2 by simp only [lumaAt]; omega]
        exact hodd 2 (by decide) h0 rfl
      · rw [show lumaAt .vyuy x = 4 * (x / 2) + 3 by simp only [lumaAt]; omega]
        exact hodd 3 (by decide) h0 rfl
  · rw [← hU]
    cases t
    · exact key 1 _ (by decide) rfl
    · exact key 0 _ (by decide) rfl
    · exact key 3 _ (by decide) rfl
    · exact key 2 _ (by decide) rfl
  · rw [← hV]
    cases t
    · exact key 3 _ (by decide) rfl
    · exact key 2 _ (by decide) rfl
    · exact key 1 _ (by decide) rfl
    · exact key 0 _ (by decide) rfl

theorem GoodPacked.store {q : Buf} (hd' : GoodPacked d B') (hq : q.length = d.yuy.length) :
    ∃ C, GoodPacked { d with yuy := q } C := by
  obtain ⟨C, hC⟩ := list_bounded q
  exact ⟨C, hd'.wpos, hd'.hpos, hd'.w32, hd'.h32, hd'.stride32, hd'.stride, by rw [← hd'.len]; exact hq,
    by have := hd'.addressable; simp only; omega, hC⟩

theorem frameSpec_congr {out dst : Buf} {st w h cn : Nat} {p p' : Nat → Nat → Buf}
    (hs : FrameSpec out dst st w h cn p) (he : ∀ x y, x < w → y < h → p x y = p' x y) :
    FrameSpec out dst st w h cn p' :=
  ⟨hs.1, fun x y c hx hy hc => by rw [← he x y hx hy]; exact hs.2.1 x y c hx hy hc, hs.2.2⟩

/-- C35: packing a planar 4:2:2 image and unpacking it again into a planar image of the same size
returns the same samples and changes nothing else.  Partial: same conditions on the unpacker as
`c35_unpack422_partial`. -/
theorem c35_roundtrip422_partial (t : Yuy2) (i j : Planar) (d : Packed) (hi : GoodPlanar i .yuv422 B)
    (hj : GoodPlanar j .yuv422 B'') (hd' : GoodPacked d B') (hw : i.width = d.width)
    (hh : i.height = d.height) (hw' : j.width = d.width) (hh' : j.height = d.height)
    (pk : YuyPacker) (hpk : pk.Ok i.width (cover i.width 2) t chroma422) (up : YuyUnpacker)
    (hup : up.Ok j.width 1 t) (hwhole : up.Whole j.width)
    (hv : j.width % 2 = 1 → j.vStride = cover j.width 2) :
    ∃ q y u v, yuvToYuy2 x64 .yuv422 t pk i d = .ok q ∧
      yuy2ToYuv x64 .yuv422 t up j { d with yuy := q } = .ok (y, u, v) ∧
      FrameSpec y j.y j.yStride j.width j.height 1 (fun x r => [at' i.y i.yStride x r]) ∧
      FrameSpec u j.u j.uStride (cover j.width 2) j.height 1 (fun c r => [at' i.u i.uStride c r]) ∧
      FrameSpec v j.v j.vStride (cover j.width 2) j.height 1 (fun c r => [at' i.v i.vStride c r]) := by
  obtain ⟨q, e1, hq⟩ := c35_pack422 t i d hi hd' hw hh pk hpk
  obtain ⟨C, hC⟩ := GoodPacked.store hd' hq.1
  have hjw := hj.wpos
  have hjh := hj.hpos
  obtain ⟨y, u, v, e2, s1, s2, s3⟩ := c35_unpack422_partial t j { d with yuy := q } hj hC hw' hh' up
    hup hwhole hv
  refine ⟨q, y, u, v, e1, e2, frameSpec_congr s1 ?_, frameSpec_congr s2 ?_, frameSpec_congr s3 ?_⟩
  · intro x r hx hr
    exact congrArg (fun a => [a]) (packed_of_quads hw rfl hq (by omega) (by omega)).1
  · intro x r hx hr
    have := (packed_of_quads hw rfl hq (x := x * 2) (y := r) (by unfold cover at hx; omega) (by omega)).2.1
    unfold Planar.U at this
    simp only [hdiv, vdiv, Nat.mul_div_cancel _ (show 0 < 2 by decide), Nat.div_one] at this
    exact congrArg (fun a => [a]) this
  · intro x r hx hr
    have := (packed_of_quads hw rfl hq (x := x * 2) (y := r) (by unfold cover at hx; omega) (by omega)).2.2
    unfold Planar.V at this
    simp only [hdiv, vdiv, Nat.mul_div_cancel _ (show 0 < 2 by decide), Nat.div_one] at this
    exact congrArg (fun a => [a]) this

/-! ## C37: unpacking to planar 4:2:0 -/

/-- C37, what the code does for every size: only whole pairs of rows are processed, and the last
column of an odd width is taken from the second row of its pair.  With vector code that takes whole
rows, chroma may also be that of the second row of the pair. -/
theorem c37_unpack420_partial (t : Yuy2) (i : Planar) (d : Packed) (hi : GoodPlanar i .yuv420 B)
    (hd' : GoodPacked d B') (hw : i.width = d.width) (hh : i.height = d.height) (hd : YuyUnpacker)
    (hok : hd.Ok i.width 1 t) (hwh : hd.Whole i.width)
    (hv : i.width % 2 = 1 → i.vStride = cover i.width 2) :
    ∃ y u v, yuy2ToYuv x64 .yuv420 t hd i d = .ok (y, u, v) ∧
      FrameSpec y i.y i.yStride i.width (2 * (i.height / 2)) 1
        (fun x r => [Packed.Y t d x (quadRow i.width x r)]) ∧
      FrameRel u i.u i.uStride (cover i.width 2) (i.height / 2) 1 (fun c r p =>
        p = [Packed.U t d (2 * c) (quadRow i.width (2 * c) (2 * r))] ∨
        hd ≠ noUnpack ∧ p = [Packed.U t d (2 * c) (2 * r + 1)]) ∧
      FrameRel v i.v i.vStride (cover i.width 2) (i.height / 2) 1 (fun c r p =>
        p = [Packed.V t d (2 * c) (quadRow i.width (2 * c) (2 * r))] ∨
        hd ≠ noUnpack ∧ p = [Packed.V t d (2 * c) (2 * r + 1)]) := by
  have e : cover i.width 2 = ceil2 i.width := by have := hi.wpos; unfold cover ceil2; omega
  rw [e] at hv ⊢
  rw [yuy2ToYuv_run hi.accepted hd'.accepted hw hh]
  exact unpack420_ok hi.rows hd' hw hh hok hwh hv

/-- C37 for even sizes: every luma sample of every row and every chroma sample is written; luma is
that of its pixel, chroma that of the even row (or of the odd row, with vector code). -/
theorem c37_even_partial (t : Yuy2) (i : Planar) (d : Packed) (hi : GoodPlanar i .yuv420 B)
    (hd' : GoodPacked d B') (hw : i.width = d.width) (hh : i.height = d.height) (hd : YuyUnpacker)
    (hok : hd.Ok i.width 1 t) (hwh : hd.Whole i.width) (hew : i.width % 2 = 0)
    (heh : i.height % 2 = 0) :
    ∃ y u v, yuy2ToYuv x64 .yuv420 t hd i d = .ok (y, u, v) ∧
      FrameSpec y i.y i.yStride i.width i.height 1 (fun x r => [Packed.Y t d x r]) ∧
      FrameRel u i.u i.uStride (cover i.width 2) (cover i.height 2) 1 (fun c r p =>
        p = [Packed.U t d (2 * c) (2 * r)] ∨ hd ≠ noUnpack ∧ p = [Packed.U t d (2 * c) (2 * r + 1)]) ∧
      FrameRel v i.v i.vStride (cover i.width 2) (cover i.height 2) 1 (fun c r p =>
        p = [Packed.V t d (2 * c) (2 * r)] ∨
        hd ≠ noUnpack ∧ p = [Packed.V t d (2 * c) (2 * r + 1)]) := by
  have hq : ∀ x y, quadRow i.width x y = y := fun x y => by unfold quadRow; rw [if_neg (by omega)]
  have := c37_unpack420_partial t i d hi hd' hw hh hd hok hwh (fun a => by omega)
  have hp := hi.hpos
  simp only [hq] at this
  rw [show 2 * (i.height / 2) = i.height by omega,
    show i.height / 2 = cover i.height 2 by unfold cover; omega] at this
  exact this

/-- C37 for even sizes without vector code: the planes are determined. -/
theorem c37_even_exact_partial (t : Yuy2) (i : Planar) (d : Packed) (hi : GoodPlanar i .yuv420 B)
    (hd' : GoodPacked d B') (hw : i.width = d.width) (hh : i.height = d.height)
    (hew : i.width % 2 = 0) (heh : i.height % 2 = 0) :
    ∃ y u v, yuy2ToYuv x64 .yuv420 t noUnpack i d = .ok (y, u, v) ∧
      FrameSpec y i.y i.yStride i.width i.height 1 (fun x r => [Packed.Y t d x r]) ∧
      FrameSpec u i.u i.uStride (cover i.width 2) (cover i.height 2) 1
        (fun c r => [Packed.U t d (2 * c) (2 * r)]) ∧
      FrameSpec v i.v i.vStride (cover i.width 2) (cover i.height 2) 1
        (fun c r => [Packed.V t d (2 * c) (2 * r)]) := by
  obtain ⟨y, u, v, e, s1, s2, s3⟩ := c37_even_partial t i d hi hd' hw hh noUnpack noUnpack_ok
    noUnpack_whole hew heh
  exact ⟨y, u, v, e, s1, frameRel_or_eq s2 fun _ _ _ _ _ h => h.elim id (fun h => absurd rfl h.1),
    frameRel_or_eq s3 fun _ _ _ _ _ h => h.elim id (fun h => absurd rfl h.1)⟩

/-- C35 for planar 4:2:0 of even size: packing and unpacking returns the same samples, also with
vector code. -/
theorem c35_roundtrip420_partial (t : Yuy2) (i j : Planar) (d : Packed) (hi : GoodPlanar i .yuv420 B)
    (hj : GoodPlanar j .yuv420 B'') (hd' : GoodPacked d B') (hw : i.width = d.width)
    (hh : i.height = d.height) (hw' : j.width = d.width) (hh' : j.height = d.height)
    (pk : YuyPacker) (hpk : pk.Ok i.width (cover i.width 2) t chroma422) (up : YuyUnpacker)
    (hup : up.Ok j.width 1 t) (hwhole : up.Whole j.width) (hew : j.width % 2 = 0)
    (heh : j.height % 2 = 0) :
    ∃ q y u v, yuvToYuy2 x64 .yuv420 t pk i d = .ok q ∧
      yuy2ToYuv x64 .yuv420 t up j { d with yuy := q } = .ok (y, u, v) ∧
      FrameSpec y j.y j.yStride j.width j.height 1 (fun x r => [at' i.y i.yStride x r]) ∧
      FrameSpec u j.u j.uStride (cover j.width 2) (cover j.height 2) 1
        (fun c r => [at' i.u i.uStride c r]) ∧
      FrameSpec v j.v j.vStride (cover j.width 2) (cover j.height 2) 1
        (fun c r => [at' i.v i.vStride c r]) := by
  obtain ⟨q, e1, hq⟩ := c35_pack420 t i d hi hd' hw hh pk hpk
  obtain ⟨C, hC⟩ := GoodPacked.store hd' hq.1
  have hjw := hj.wpos
  have hjh := hj.hpos
  obtain ⟨y, u, v, e2, s1, s2, s3⟩ := c37_even_partial t j { d with yuy := q } hj hC hw' hh' up
    hup hwhole hew heh
  refine ⟨q, y, u, v, e1, e2, frameSpec_congr s1 ?_, frameRel_or_eq s2 ?_, frameRel_or_eq s3 ?_⟩
  · intro x r hx hr
    exact congrArg (fun a => [a]) (packed_of_quads hw rfl hq (by omega) (by omega)).1
  · intro x r p hx hr h
    unfold cover at hx hr
    have a0 := (packed_of_quads hw rfl hq (x := 2 * x) (y := 2 * r) (by omega) (by omega)).2.1
    have a1 := (packed_of_quads hw rfl hq (x := 2 * x) (y := 2 * r + 1) (by omega) (by omega)).2.1
    unfold Planar.U at a0 a1
    simp only [hdiv, vdiv, show 2 * x / 2 = x by omega, show 2 * r / 2 = r by omega,
      show (2 * r + 1) / 2 = r by omega] at a0 a1
    rcases h with h | ⟨_, h⟩
    · exact h.trans (congrArg (fun a => [a]) a0)
    · exact h.trans (congrArg (fun a => [a]) a1)
  · intro x r p hx hr h
    unfold cover at hx hr
    have a0 := (packed_of_quads hw rfl hq (x := 2 * x) (y := 2 * r) (by omega) (by omega)).2.2
    have a1 := (packed_of_quads hw rfl hq (x := 2 * x) (y := 2 * r + 1) (by omega) (by omega)).2.2
    unfold Planar.V at a0 a1
    simp only [hdiv, vdiv, show 2 * x / 2 = x by omega, show 2 * r / 2 = r by omega,
      show (2 * r + 1) / 2 = r by omega] at a0 a1
    rcases h with h | ⟨_, h⟩
    · exact h.trans (congrArg (fun a => [a]) a0)
    · exact h.trans (congrArg (fun a => [a]) a1)

end

/-! ## Where the code departs from C35 and C37 -/

theorem fillTo_frameSpec {f : Nat → Nat} {n k : Nat} {l : Buf} {P : Nat → Buf} (hn : 0 < n)
    (hl : k * n ≤ l.length)
    (hP : ∀ j c, j < k → c < n → (P j)[c]? = some (f (j * n + c))) :
    FrameSpec (fillTo f (k * n) l) l 0 k 1 n (fun j _ => P j) := by
  refine ⟨fillTo_length hl, ?_, ?_⟩
  · intro x y c hx hy hc
    have := succ_mul_le_of_lt n hx
    rw [Nat.mul_zero, Nat.zero_add, fillTo_getElem?, if_pos (by omega), hP x c hx hc]
  · intro i hi
    rw [fillTo_getElem?]
    by_cases h : i < k * n
    · exfalso
      apply hi
      exact ⟨i / n, 0, i % n, div_lt_of_lt_mul' h, by omega, Nat.mod_lt _ hn,
        by rw [Nat.zero_mul, Nat.zero_add]; exact div_mod_split i n⟩
    · rw [if_neg h]

/-- Vector code that unpacks the first pair of a row and leaves the rest to the scalar loop. -/
def firstPair (t : Yuy2) : YuyUnpacker := fun y u v yuy =>
  .ok (fillTo (unY t yuy) (1 * 2) y, fillTo (unU t 1 yuy) (1 * 1) u, fillTo (unV t 1 yuy) (1 * 1) v, 2)

theorem firstPair_ok (t : Yuy2) {w : Nat} (hw : 2 ≤ w) : (firstPair t).Ok w 1 t := by
  intro y u v yuy h1 h2 h3 h4
  refine ⟨_, _, _, 2, rfl, by omega, fillTo_frameSpec (by decide) (by omega) ?_,
    fillTo_frameSpec (by decide) (by omega) ?_, fillTo_frameSpec (by decide) (by omega) ?_⟩
  · intro j c hj hc
    obtain rfl : j = 0 := by omega
    have : c = 0 ∨ c = 1 := by omega
    rcases this with rfl | rfl <;> rfl
  · intro j c hj hc
    obtain rfl : j = 0 := by omega
    obtain rfl : c = 0 := by omega
    rfl
  · intro j c hj hc
    obtain rfl : j = 0 := by omega
    obtain rfl : c = 0 := by omega
    rfl

/-- Vector code that packs the first pair of a 4:4:4 row and leaves the rest. -/
def packFirst (t : Yuy2) : YuyPacker := fun yuy y u v =>
  .ok (quad t (y.getD 0 0) (y.getD 1 0) (chroma444 u 0) (chroma444 v 0) ++ yuy.drop 4, 2)

theorem packFirst_ok (t : Yuy2) {w : Nat} (hw : 2 ≤ w) : (packFirst t).Ok w w t chroma444 := by
  intro yuy y u v h1 h2 h3 h4
  refine ⟨_, 2, rfl, by omega, Or.inl (by omega), ?_, ?_, ?_⟩
  · rw [List.length_append, quad_length, List.length_drop]; omega
  · intro x r hx hr
    obtain rfl : x = 0 := by omega
    obtain rfl : r = 0 := by omega
    unfold pixelAt
    rw [Nat.zero_mul, Nat.add_zero, List.drop_zero, List.take_append_of_le_length (by rw [quad_length]),
      List.take_of_length_le (by rw [quad_length])]
  · intro k hk
    have : 4 ≤ k := by
      apply Nat.le_of_not_lt
      intro h
      exact hk ⟨0, 0, k, by decide, by decide, h, by omega⟩
    rw [List.getElem?_append_right (by rw [quad_length]; exact this), quad_length, List.getElem?_drop]
    congr 1; omega

/-- C35 fails with vector code that stops inside a row: the scalar loop of the 8-bit unpacker skips
as many pairs as pixels were done, so pair 1 of three is never written. -/
theorem c35_unpack_vector_skips :
    (firstPair .yuyv).Ok 6 1 .yuyv ∧
    yuy2ToYuv x64 .yuv422 .yuyv (firstPair .yuyv) ⟨zeros 6, 6, zeros 3, 3, zeros 3, 3, 6, 1⟩
      ⟨[1, 20, 2, 30, 3, 21, 4, 31, 5, 22, 6, 32], 12, 6, 1⟩
      = .ok ([1, 2, 0, 0, 5, 6], [20, 0, 22], [30, 0, 32]) :=
  ⟨firstPair_ok .yuyv (by decide), by decide +kernel⟩

/-- The same in the 8-bit packer from planar 4:4:4. -/
theorem c35_pack444_vector_skips :
    (packFirst .yuyv).Ok 6 6 .yuyv chroma444 ∧
    yuvToYuy2 x64 .yuv444 .yuyv (packFirst .yuyv)
      ⟨[1, 2, 3, 4, 5, 6], 6, [20, 20, 21, 21, 22, 22], 6, [30, 30, 31, 31, 32, 32], 6, 6, 1⟩
      ⟨zeros 12, 12, 6, 1⟩ = .ok [1, 20, 2, 30, 0, 0, 0, 0, 5, 22, 6, 32] :=
  ⟨packFirst_ok .yuyv (by decide), by decide +kernel⟩

/-- C35 fails for a padded Cr plane and an odd width: the last Cr sample of the row goes into the
padding instead of its place. -/
theorem c35_unpack_padded_cr :
    GoodPlanar ⟨zeros 3, 3, zeros 2, 2, zeros 3, 3, 3, 1⟩ .yuv422 256 ∧
    yuy2ToYuv x64 .yuv422 .yuyv noUnpack ⟨zeros 3, 3, zeros 2, 2, zeros 3, 3, 3, 1⟩
      ⟨[10, 20, 11, 30, 12, 21, 0, 31], 8, 3, 1⟩ = .ok ([10, 11, 12], [20, 21], [30, 0, 31]) := by
  refine ⟨⟨by decide, by decide, by unfold U32; decide, by unfold U32; decide, ?_, ?_, ?_⟩,
    by decide +kernel⟩ <;>
  exact ⟨by unfold U32; decide, by decide, by unfold FullRows; decide, by decide⟩

/-- C37 fails for odd heights: the last row of luma and of chroma is not written. -/
theorem c37_odd_height_unwritten :
    yuy2ToYuv x64 .yuv420 .yuyv noUnpack ⟨zeros 6, 2, zeros 2, 1, zeros 2, 1, 2, 3⟩
      ⟨[10, 20, 11, 30, 12, 21, 13, 31, 14, 22, 15, 32], 4, 2, 3⟩
      = .ok ([10, 11, 12, 13, 0, 0], [20, 0], [30, 0]) := by decide +kernel

/-- C37 fails for odd widths: the last luma sample of the first row is that of the second row. -/
theorem c37_odd_width_wrong_luma :
    yuy2ToYuv x64 .yuv420 .yuyv noUnpack ⟨zeros 6, 3, zeros 2, 2, zeros 2, 2, 3, 2⟩
      ⟨[10, 20, 11, 30, 12, 21, 0, 31, 13, 22, 14, 32, 15, 23, 0, 33], 8, 3, 2⟩
      = .ok ([10, 11, 15, 13, 14, 15], [20, 23], [30, 33]) := by decide +kernel

/-- With vector code the chroma of a pair of rows is that of the second one. -/
theorem c37_vector_chroma_row :
    yuy2ToYuv x64 .yuv420 .yuyv (firstPair .yuyv) ⟨zeros 4, 2, zeros 1, 1, zeros 1, 1, 2, 2⟩
      ⟨[1, 20, 2, 30, 3, 21, 4, 31], 4, 2, 2⟩ = .ok ([1, 2, 3, 4], [21], [31]) := by decide +kernel

/-! ## The hypotheses are met -/

/-- A 3×2 4:2:2 image with a padded luma plane. -/
def demo422 : Planar :=
  { y := [16, 81, 145, 0, 41, 210, 106, 0], yStride := 4, u := [90, 54, 240, 16], uStride := 2
    v := [240, 34, 110, 146], vStride := 2, width := 3, height := 2 }

theorem demo422_good : GoodPlanar demo422 .yuv422 256 := by
  refine ⟨by decide, by decide, by unfold U32; decide, by unfold U32; decide, ?_, ?_, ?_⟩ <;>
  exact ⟨by unfold U32; decide, by decide, by unfold FullRows; decide, by decide⟩

example : GoodPlanar demo422 .yuv422 256 ∧ GoodPacked demoYuyv 256 ∧
    demo422.width = demoYuyv.width ∧ demo422.height = demoYuyv.height ∧
    noPack.Ok demo422.width (cover demo422.width 2) .uyvy chroma422 ∧
    noUnpack.Ok demo422.width 1 .uyvy ∧ noUnpack.Whole demo422.width ∧
    demo422.vStride = cover demo422.width 2 :=
  ⟨demo422_good, demoYuyv_good, rfl, rfl, noPack_ok, noUnpack_ok, noUnpack_whole, rfl⟩

example : ∃ q, yuvToYuy2 x64 .yuv422 .uyvy noPack demo422 demoYuyv = .ok q ∧
    q = [90, 16, 240, 81, 54, 145, 34, 0, 240, 41, 110, 210, 16, 106, 146, 0] ∧
    yuy2ToYuv x64 .yuv422 .uyvy noUnpack { demo422 with y := zeros 8, u := zeros 4, v := zeros 4 }
      { demoYuyv with yuy := q } = .ok (demo422.y, demo422.u, demo422.v) :=
  ⟨_, by decide +kernel, rfl, by decide +kernel⟩

example : GoodPlanar demo420 .yuv420 256 ∧ demo420.width % 2 = 1 := ⟨demo420_good, rfl⟩

/-- Vector code that takes the whole row: every pair of a two-column row. -/
example : (firstPair .vyuy).Ok 2 1 .vyuy ∧ (firstPair .vyuy).Whole 2 :=
  ⟨firstPair_ok _ (by decide), fun _ _ _ _ _ _ _ _ h => by cases h; right; rfl⟩

end Verif
