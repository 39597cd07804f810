import Verif.Lemmas.Schedule
import Verif.Props.PlanarDecode
/-!
# C24: the order of the row tasks does not matter
-/
namespace Verif
open Spec

theorem not_inFrame_of_ge {stride w h cn i : Nat} (hw : w * cn ≤ stride) (hi : h * stride ≤ i) :
    ¬ InFrame stride w h cn i := by
  rintro ⟨x, y, c, hx, hy, hc, rfl⟩
  have a := succ_mul_le_of_lt stride hy
  have b := succ_mul_le_of_lt cn hx
  omega

/-- C24 for any converter that meets a frame specification: hand the destination out to tasks as
disjoint slices of `g` rows, let every task produce its part of the sequential result by any
sequence of writes into its own slice, and run the writes of all tasks in any interleaving (any
number of threads, any scheduling): the destination ends up as in the sequential run. -/
theorem c24_any_schedule {out dst : Buf} {stride w h cn g : Nat} {R : Nat → Nat → Buf → Prop}
    (hg : 0 < g) (hst : 0 < stride) (hw : w * cn ≤ stride)
    (hout : FrameRel out dst stride w h cn R) (W : Nat → List Write)
    (hloc : ∀ r, r < cover h g → ∀ e ∈ W r, e.1 < g * stride)
    (hW : ∀ r, r < cover h g →
      applyWrites (chunk (g * stride) dst r) (W r) = chunk (g * stride) out r)
    (sched : List (Nat × Write)) (hs : Interleaving (cover h g) W sched) :
    applyWrites dst (globalWrites (g * stride) sched) = out := by
  refine interleaving_result (Nat.mul_pos hg hst) hloc hW ?_ hs
  intro i hi
  apply hout.2.2
  apply not_inFrame_of_ge hw
  have : h ≤ cover h g * g := by
    unfold cover
    have := Nat.div_add_mod (h - 1) g
    have := Nat.mod_lt (h - 1) hg
    rw [Nat.add_mul, Nat.mul_comm ((h - 1) / g) g]; omega
  have := Nat.mul_le_mul_right stride this
  rw [Nat.mul_assoc] at this
  omega

/-- C24 for the 8-bit planar decoder: rows (4:4:4, 4:2:2) or row pairs (4:2:0) in any
interleaving, with any vector code. -/
theorem c24_planar_decode_schedule (ch : Channels) (s : Sampling) (i : Planar) (rgba : Buf)
    (stride : Nat) (rg : YuvRange) (m : Matrix) (hi : GoodPlanar i s 256)
    (hdst : GoodDst rgba.length stride i.width i.height ch.count)
    (R : Nat → Nat → Nat → Buf → Prop) (hd : RowHandler) (hd2 : RowHandler420)
    (h1 : hd.Ok 256 ch.count i.width (hdiv s) R) (h2 : hd2.Ok 256 ch.count i.width R) :
    ∃ out, yuvToRgbx x64 ch s hd hd2 i rgba stride rg m = .ok out ∧
      ∀ W : Nat → List Write,
        (∀ r, r < cover i.height (vdiv s) → (∀ e ∈ W r, e.1 < vdiv s * stride) ∧
          applyWrites (chunk (vdiv s * stride) rgba r) (W r) = chunk (vdiv s * stride) out r) →
        ∀ sched, Interleaving (cover i.height (vdiv s)) W sched →
          applyWrites rgba (globalWrites (vdiv s * stride) sched) = out := by
  obtain ⟨out, e, hr⟩ := c15_planar_decode ch s i rgba stride rg m hi hdst R hd hd2 h1 h2
  have hst : 0 < stride :=
    Nat.lt_of_lt_of_le (Nat.mul_pos hi.wpos (count_pos ch)) hdst.cols_le
  refine ⟨out, e, fun W hW sched hs => ?_⟩
  exact c24_any_schedule (by cases s <;> decide) hst hdst.cols_le hr W
    (fun r hr => (hW r hr).1) (fun r hr => (hW r hr).2) sched hs

/-- Two tasks of two writes each (one overwriting itself), interleaved, on a buffer of two rows of
three elements. -/
example : Interleaving 2 (fun r => if r = 0 then [(0, 1), (0, 5)] else [(1, 8), (0, 9)])
    [(1, (1, 8)), (0, (0, 1)), (1, (0, 9)), (0, (0, 5))] ∧
    applyWrites [0, 0, 0, 0, 0, 0]
      (globalWrites 3 [(1, (1, 8)), (0, (0, 1)), (1, (0, 9)), (0, (0, 5))]) = [5, 0, 0, 9, 8, 0] := by
  unfold Interleaving; decide

end Verif
