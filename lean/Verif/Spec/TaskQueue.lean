import Verif.Model.TaskQueue

/-!
# Specifications for the queue of tasks
-/

namespace Spta

/-- The task raises an exception. -/
def QueueTask.fails {V : Type} (f : Nat → Nat → Except PyErr V) (t : QueueTask) : Bool :=
  match f t.i t.j with
  | .error _ => true
  | .ok _ => false

end Spta
