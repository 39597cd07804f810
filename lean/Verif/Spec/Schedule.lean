import Verif.Spec.Frame
/-!
# Parallel row tasks

With the `rayon` feature the rows (or row pairs) of the destination are handed
to worker threads as disjoint mutable slices.  A task is the sequence of element
writes it performs inside its own slice; a schedule is any interleaving of the
tasks' write sequences.
-/
namespace Verif.Spec

/-- A write of a value at an index. -/
abbrev Write := Nat × Nat

/-- Perform writes one after the other. -/
def applyWrites (l : Buf) (ws : List Write) : Buf := ws.foldl (fun b w => b.set w.1 w.2) l

/-- `sched` interleaves the write sequences of tasks `0, …, k-1`, keeping each task's order. -/
def Interleaving (k : Nat) (W : Nat → List Write) (sched : List (Nat × Write)) : Prop :=
  (∀ e ∈ sched, e.1 < k) ∧ ∀ r, r < k → (sched.filter (fun e => e.1 = r)).map (·.2) = W r

/-- The writes of a schedule as seen in the whole buffer, task `r` owning the `r`-th slice of
length `n`. -/
def globalWrites (n : Nat) (sched : List (Nat × Write)) : List Write :=
  sched.map (fun e => (e.1 * n + e.2.1, e.2.2))

end Verif.Spec
