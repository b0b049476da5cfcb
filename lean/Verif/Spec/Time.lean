import Verif.Model.Tasks
/-!
# How long a call takes

The number of primitive steps (a setter, a getter, an append, a conversion; Model/Tasks.lean) that a task makes if nothing disturbs it.
-/

namespace F15.Spec
open Tasks

/-- The number of steps of a task, begun in state `s`. -/
def steps {S α : Type} : Task S α → S → Nat
  | .done _, _ => 0
  | .act next write, s => steps (next s) (write s) + 1

end F15.Spec
