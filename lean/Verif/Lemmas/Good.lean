import Verif.Lemmas.Decode
import Verif.Spec.Images
/-! # Good images are accepted and have the rows the loops need -/
namespace Verif
open Spec

theorem cover_hdiv {s : Sampling} {w : Nat} (h : 0 < w) : cover w (hdiv s) = s.chromaWidth w := by
  unfold cover; rw [last_div_hdiv h]; have := chromaWidth_pos (s := s) h; omega
theorem cover_vdiv {s : Sampling} {w : Nat} (h : 0 < w) : cover w (vdiv s) = s.chromaHeight w := by
  unfold cover; rw [last_div_vdiv h]; have := chromaHeight_pos (s := s) h; omega

theorem Spec.GoodPlanar.rows {i : Planar} {s : Sampling} {B : Nat} (h : GoodPlanar i s B) :
    PlanarRows i s B := by
  have e1 := cover_hdiv (s := s) h.wpos
  have e2 := cover_vdiv (s := s) h.hpos
  have hu := h.u; have hv := h.v
  rw [e1, e2] at hu hv
  exact ⟨h.wpos, h.hpos, h.y.cols_le, hu.cols_le, hv.cols_le, h.y.full, hu.full, hv.full,
    h.y.bound, hu.bound, hv.bound⟩

theorem fullRows_need {len stride n k : Nat} (h : FullRows len stride n) (hn : 0 < n)
    (hk : k ≤ stride) : stride * (n - 1) + k ≤ len := by
  obtain ⟨m, rfl⟩ : ∃ m, n = m + 1 := ⟨n - 1, by omega⟩
  have := h.1
  rw [Nat.mul_succ] at this
  simp only [Nat.add_sub_cancel]; omega

theorem Spec.GoodPlanar.accepted {i : Planar} {s : Sampling} {B : Nat} (h : GoodPlanar i s B) :
    i.check x64 s = .ok () := by
  have hr := h.rows
  have a := (checkY8_ok_iff (len := i.y.length) h.y.stride32 h.w32 h.h32).2
    ⟨h.wpos, h.hpos, hr.yw, fullRows_need hr.yr h.hpos hr.yw⟩
  have b := (checkChroma_ok_iff (len := i.u.length) (s := s) h.u.stride32 h.w32 h.h32).2
    ⟨h.wpos, h.hpos, hr.uw, fullRows_need hr.ur (chromaHeight_pos h.hpos) hr.uw⟩
  have c := (checkChroma_ok_iff (len := i.v.length) (s := s) h.v.stride32 h.w32 h.h32).2
    ⟨h.wpos, h.hpos, hr.vw, fullRows_need hr.vr (chromaHeight_pos h.hpos) hr.vw⟩
  unfold Planar.check
  rw [a, b, c]; rfl

theorem Spec.GoodDst.accepted {len stride w h cn : Nat} (hd : GoodDst len stride w h cn)
    (hw : 0 < w) (hh : 0 < h) (hw32 : U32 w) (hh32 : U32 h) (hcn : 0 < cn) (hcn4 : cn ≤ 4) :
    checkRgba x64 len stride w h cn = .ok () := by
  refine (checkRgba_ok_iff hd.stride32 hw32 hh32 hcn hcn4).2
    ⟨hw, hh, ?_, hd.cols_le, fullRows_need hd.full hh hd.cols_le⟩
  have h1 : w * h * cn = w * cn * h := by
    rw [Nat.mul_assoc, Nat.mul_comm h cn, ← Nat.mul_assoc]
  have h2 : w * cn * h ≤ stride * h := Nat.mul_le_mul_right _ hd.cols_le
  have := hd.full.1
  have := hd.addressable
  omega

theorem fullRows_index {len stride n k x y : Nat} (h : FullRows len stride n) (hx : x < k)
    (hk : k ≤ stride) (hy : y < n) : y * stride + x < len := by
  have := fullRows_row h hy; omega

theorem Spec.GoodPlane.at_lt {buf : Buf} {stride cols rows B x y : Nat}
    (h : GoodPlane buf stride cols rows B) (hx : x < cols) (hy : y < rows) :
    at' buf stride x y < B :=
  h.bound _ (at'_mem (fullRows_index h.full hx h.cols_le hy))

theorem Spec.GoodPlanar.sample_lt {i : Planar} {s : Sampling} {B : Nat} (h : GoodPlanar i s B)
    {x y : Nat} (hx : x < i.width) (hy : y < i.height) :
    Planar.Y i x y < B ∧ Planar.U i s x y < B ∧ Planar.V i s x y < B := by
  have cx : x / hdiv s < cover i.width (hdiv s) := by
    rw [cover_hdiv h.wpos]; exact div_hdiv_lt hx
  have cy : y / vdiv s < cover i.height (vdiv s) := by
    rw [cover_vdiv h.hpos]; exact div_vdiv_lt hy
  exact ⟨h.y.at_lt hx hy, h.u.at_lt cx cy, h.v.at_lt cx cy⟩

theorem count_pos (ch : Channels) : 0 < ch.count := by cases ch <;> decide
theorem count_le (ch : Channels) : ch.count ≤ 4 := by cases ch <;> decide

end Verif
