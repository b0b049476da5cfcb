import Verif.Spec.Causal
/-!
# Vocabulary for "every beginning of an accepted field 15 is accepted"
-/

namespace F15.Spec
variable {F : Type} [PyFloat F]

/-- The tokens are cut into `u` and `v` beside no slash, and `u` does not end in IFR and a point (that may need a change of
speed and level behind it). -/
def CleanCut (u v : List Token) : Prop :=
  (∀ t, u.getLast? = some t → t.text ≠ py! "/") ∧ (∀ t, v.head? = some t → t.text ≠ py! "/") ∧
  ∀ w x p, u = w ++ [x, p] → x.text = py! "IFR" → (assignSyntax p).base ≠ .POINT

/-- `u` is more than the initial SPEED/LEVEL: it has two words, or it is a SPEED/VFR. -/
def EnoughWords (u : List Token) : Prop := 2 ≤ u.length ∨ ∃ t, u = [t] ∧ (assignSyntax t).base = .SPEED_VFR

/-- Element by element the same but for the course to the next. -/
def AllSameButCourse (rs rs' : List (Record F)) : Prop :=
  rs.length = rs'.length ∧ ∀ (i : Nat) (r r' : Record F), rs[i]? = some r → rs'[i]? = some r' → SameButCourse r r'

end F15.Spec
