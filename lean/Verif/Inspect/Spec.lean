import Verif.ActionPoint.Spec
import Verif.Fetch.Spec
import Verif.Watch.Spec
/-!
# Looking at an instruction

What is shown is the program's instruction, breakpoint or not, and nothing else changes.
-/
namespace Verif.Inspect.Spec

open ActionPoint.Spec (IsSet Length Within program)

/-- No breakpoint that is set lies in the instruction at `a`, and `a` lies in the instruction of none. -/
def Clear (p : BitVec 64 → BitVec 8) (ops : List ActionPoint.Op) (a : BitVec 64) : Prop :=
  ∀ n, Length (program p ops) a n → ∀ b m, IsSet ops b → Length (program p ops) b m → ∀ c, Within a n c → ¬ Within b m c

end Verif.Inspect.Spec
