import Verif.Spec.VecGray
import Verif.Spec.Identity
/-!
# Specification of the x86 GBR decoders
-/
namespace Verif.Spec

/-- The component the kernels compute from a plane sample in limited range: the sample above 16, as a
10-bit value, times the coefficient, rounded and saturated. -/
def vecGbrLevel (s : Nat) : Nat := byteSat (mulRound (expand10 (s - 16)) (gbrInvCoef 8))

/-- The component a plane sample stands for on each class of processor (`vec`: with vector
extensions). -/
def cpuGbrLevel (vec : Bool) (rg : YuvRange) (s : Nat) : Nat :=
  match rg, vec with
  | .full, _ => s
  | .limited, true => vecGbrLevel s
  | .limited, false => gbrLevel 8 .limited s

end Verif.Spec
