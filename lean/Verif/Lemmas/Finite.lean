import Verif.Spec.Itu
/-! # Finite enumerations: lifting a check of the whole table to a quantifier -/
namespace Verif

/-- All named matrices. -/
def allMatrix : List Matrix := [.bt601, .bt709, .bt2020, .smpte240, .bt470_6, .fcc]
/-- Both ranges. -/
def allRange : List YuvRange := [.limited, .full]

theorem mem_allMatrix (m : Matrix) : m ∈ allMatrix := by cases m <;> decide
theorem mem_allRange (r : YuvRange) : r ∈ allRange := by cases r <;> decide

/-- All depths and precisions. -/
def allDepth : List Nat := [8, 10, 12, 14, 16]
def allPrec : List Nat := [6, 7, 13, 14, 15]
theorem mem_allDepth {d : Nat} (h : Spec.Depth d) : d ∈ allDepth := by
  rcases h with h | h | h | h | h <;> subst h <;> decide
theorem mem_allPrec {p : Nat} (h : Spec.Prec p) : p ∈ allPrec := by
  rcases h with h | h | h | h | h <;> subst h <;> decide

/-- A statement about a matrix and a range holds if it holds on the whole table. -/
theorem forall_mr {P : Matrix → YuvRange → Prop}
    (h : ∀ m ∈ allMatrix, ∀ r ∈ allRange, P m r) (m : Matrix) (r : YuvRange) : P m r :=
  h m (mem_allMatrix m) r (mem_allRange r)

end Verif
