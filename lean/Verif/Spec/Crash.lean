import Verif.Spec.Causal
import Verif.Model.Crash
/-!
# Specification: what an exception leaves behind
-/

namespace F15.Spec
variable {F : Type} [PyFloat F]

/-- What may still change in an element that has `age` newer ones: everything but name and indices in the newest; not its types and position when there is one newer;
only bearing and distance when there are two; nothing when there are three. -/
def Settled : Nat → Record F → Record F → Prop
  | 0, r, r' => r'.name = r.name ∧ r'.start = r.start ∧ r'.stop = r.stop
  | 1, r, r' => SameElement r r'
  | 2, r, r' => SameButCourse r r'
  | _ + 3, r, r' => r' = r

/-- The sequence `e'` goes on where `e` ends: the errors of `e` come first, and so do the elements, each changed at most as its age allows. (The flight
rules of the first element, the ADEP, are set at the end.) -/
structure GoesOnFrom (e e' : Ers F) : Prop where
  errors : ∃ new, e'.errors = e.errors ++ new
  longer : e.elements.length ≤ e'.elements.length
  elements : ∀ i r r', e.elements[i]? = some r → e'.elements[i]? = some r' →
    Settled (e.elements.length - 1 - i) r r' ∨ (i = 0 ∧ Settled (e.elements.length - 1 - i) { r with rules := r'.rules } r')

end F15.Spec
