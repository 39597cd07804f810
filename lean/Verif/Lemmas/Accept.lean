import Verif.Lemmas.Good
import Verif.Lemmas.NvDecode
import Verif.Lemmas.Gray
/-! # Good images are accepted on every target that can address them -/
namespace Verif
open Spec

variable {T : Target}

theorem Target.usize_lt {x : Nat} (h : x < 2 ^ T.bits) : T.usize x = .ok x := if_pos h
theorem Target.u32_lt {x : Nat} (h : x < 2 ^ 32) : T.u32 x = .ok x := if_pos h
theorem checkOverflow2_lt {a b : Nat} (h : a * b < 2 ^ T.bits) : checkOverflow2 T a b = .ok () :=
  if_pos h

theorem mul_le_full {len stride n k : Nat} (h : FullRows len stride n) (hk : k ≤ stride) :
    k * n ≤ len := Nat.le_trans (Nat.mul_le_mul_right _ hk) h.1

theorem mul_pred_le {stride n : Nat} : stride * (n - 1) ≤ stride * n :=
  Nat.mul_le_mul_left _ (Nat.sub_le ..)

theorem checkY8_on {len stride w h : Nat} (hl : len < 2 ^ T.bits) (hw : 0 < w) (hh : 0 < h)
    (hs : w ≤ stride) (hf : FullRows len stride h) : checkY8 T len stride w h = .ok () := by
  have a := mul_le_full hf hs
  have b := hf.1
  have c := fullRows_need hf hh hs
  have d := mul_pred_le (stride := stride) (n := h)
  have e : w * h ≤ stride * h := Nat.mul_le_mul_right _ hs
  unfold checkY8
  rw [if_neg (by omega), checkOverflow2_lt (by omega), Outcome.bind_ok, checkOverflow2_lt (by omega),
    Outcome.bind_ok, if_neg (by omega), Target.usize_lt (by omega), Outcome.bind_ok,
    Target.usize_lt (by omega), Outcome.bind_ok, if_neg (by omega)]

theorem checkChroma_on {len stride w h : Nat} {s : Sampling} (hl : len < 2 ^ T.bits) (hw : 0 < w)
    (hh : 0 < h) (hs : s.chromaWidth w ≤ stride) (hf : FullRows len stride (s.chromaHeight h)) :
    checkChroma T len stride w h s = .ok () := by
  have a := mul_le_full hf hs
  have b := hf.1
  have c := fullRows_need hf (chromaHeight_pos hh) hs
  have d := mul_pred_le (stride := stride) (n := s.chromaHeight h)
  have e : s.chromaWidth w * s.chromaHeight h ≤ stride * s.chromaHeight h := Nat.mul_le_mul_right _ hs
  unfold checkChroma
  simp only
  rw [if_neg (by omega), checkOverflow2_lt (by omega), Outcome.bind_ok, checkOverflow2_lt (by omega),
    Outcome.bind_ok, if_neg (by omega), Target.usize_lt (by omega), Outcome.bind_ok,
    Target.usize_lt (by omega), Outcome.bind_ok, if_neg (by omega)]

theorem checkInterleaved_on {len stride w h : Nat} {s : Sampling} (hl : len < 2 ^ T.bits) (hw : 0 < w)
    (hh : 0 < h) (h32 : stride < 2 ^ 32) (hs : stride = s.chromaWidth w * 2)
    (hf : len = stride * s.chromaHeight h) : checkInterleaved T len stride w h s = .ok () := by
  subst hf
  unfold checkInterleaved
  rw [if_neg (by omega), ← hs, Target.u32_lt h32, Outcome.bind_ok]
  simp only
  rw [checkOverflow2_lt hl, Outcome.bind_ok, Outcome.bind_ok, if_neg (by omega), if_neg (by omega)]

theorem checkRgba_on {len stride w h cn : Nat} (hl : len < 2 ^ T.bits) (hw : 0 < w) (hh : 0 < h)
    (hcn : 0 < cn) (hs : w * cn ≤ stride) (hf : FullRows len stride h) :
    checkRgba T len stride w h cn = .ok () := by
  have a := mul_le_full hf hs
  have b := hf.1
  have c := fullRows_need hf hh hs
  have d := mul_pred_le (stride := stride) (n := h)
  have e : w * h * cn = w * cn * h := Nat.mul_right_comm ..
  have g : w * h ≤ w * h * cn := Nat.le_mul_of_pos_right _ hcn
  unfold checkRgba
  rw [if_neg (by omega)]
  unfold checkOverflow3
  rw [if_pos (by omega), if_pos (by omega), Outcome.bind_ok, Target.usize_lt (by omega), Outcome.bind_ok,
    Target.usize_lt (by omega), Outcome.bind_ok, Target.usize_lt (by omega), Outcome.bind_ok,
    if_neg (by omega), if_neg (by omega)]

theorem Spec.GoodPlanar.accepted_on {i : Planar} {s : Sampling} {B : Nat} (h : GoodPlanar i s B)
    (hy : i.y.length < 2 ^ T.bits) (hu : i.u.length < 2 ^ T.bits) (hv : i.v.length < 2 ^ T.bits) :
    i.check T s = .ok () := by
  have hr := h.rows
  unfold Planar.check
  rw [checkY8_on hy h.wpos h.hpos hr.yw hr.yr, Outcome.bind_ok,
    checkChroma_on hu h.wpos h.hpos hr.uw hr.ur, Outcome.bind_ok,
    checkChroma_on hv h.wpos h.hpos hr.vw hr.vr]

theorem Spec.GoodBiPlanar.accepted_on {i : BiPlanar} {s : Sampling} {B : Nat} (h : GoodBiPlanar i s B)
    (hy : i.y.length < 2 ^ T.bits) (hu : i.uv.length < 2 ^ T.bits) : i.check T s = .ok () := by
  have hs := h.uvStride
  have hl := h.uvLen
  rw [cover_hdiv (s := s) h.wpos] at hs
  rw [cover_vdiv (s := s) h.hpos] at hl
  unfold BiPlanar.check
  rw [checkY8_on hy h.wpos h.hpos h.y.cols_le h.y.full, Outcome.bind_ok,
    checkInterleaved_on hu h.wpos h.hpos h.uvStride32 (by omega) hl]

theorem Spec.GoodGray.accepted_on {i : Gray} {B : Nat} (h : GoodGray i B)
    (hy : i.y.length < 2 ^ T.bits) : i.check T = .ok () :=
  checkY8_on hy h.wpos h.hpos h.y.cols_le h.y.full

theorem Spec.GoodDst.accepted_on {len stride w h cn : Nat} (hd : GoodDst len stride w h cn)
    (hw : 0 < w) (hh : 0 < h) (hcn : 0 < cn) (hl : len < 2 ^ T.bits) :
    checkRgba T len stride w h cn = .ok () :=
  checkRgba_on hl hw hh hcn hd.cols_le hd.full

end Verif
