import Verif.Spec.Position
import Verif.Spec.Prefix
/-!
# Vocabulary for "positions can be filled in later"
-/

namespace F15.Spec
variable {F : Type} [PyFloat F]

/-- Every element has the bearing and distance to the next located element (`courseOf`). -/
def CoursesRight (l : List (Record F)) : Prop :=
  ∀ before r following, l = before ++ r :: following → (r.bearing, r.distance) = courseOf r following

/-- The element number `i` has a position. -/
def LocatedAt (l : List (Record F)) (i : Nat) : Prop := ∃ r, l[i]? = some r ∧ r.latLongValid = true

/-- The elements number `i` and `j` have positions, and `j` is the next one after `i` or the one after that if the next has none. -/
def NextLocated (l : List (Record F)) (i j : Nat) : Prop :=
  LocatedAt l i ∧ LocatedAt l j ∧ (j = i + 1 ∨ (j = i + 2 ∧ ¬ LocatedAt l (i + 1)))

/-- The same elements, some of them with new positions; no position is taken away. -/
def PositionsAdded (l l' : List (Record F)) : Prop :=
  l.length = l'.length ∧ ∀ (i : Nat) (r r' : Record F), l[i]? = some r → l'[i]? = some r' →
    r' = { r with latitude := r'.latitude, longitude := r'.longitude, latLongValid := r'.latLongValid } ∧
    (r.latLongValid = true → r'.latLongValid = true)

end F15.Spec
