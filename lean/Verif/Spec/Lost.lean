import Verif.Spec.Gap
import Verif.Spec.Local
import Verif.Spec.Recover
import Verif.Spec.Faults
/-!
# Vocabulary for "whatever part of the route is garbled, the rest is read"
-/

namespace F15.Spec
variable {F : Type} [PyFloat F]

/-- The word `w` can start no item; or, behind the words `u`, no acceptable field 15 goes on with `w` (and it is no point and no SID). -/
def CannotCome (u : List Token) (w : Token) : Prop :=
  Stray w ∨ (¬ Extendable ((u ++ [w]).map assignSyntax) ∧ (assignSyntax w).base ≠ .POINT ∧ (assignSyntax w).base ≠ .SID)

/-- Two elements agree in everything but speed and level. -/
def SameButSpeedLevel (r r' : Record F) : Prop :=
  r' = { r with speed := r'.speed, speedSi := r'.speedSi, altitude := r'.altitude, altitudeSi := r'.altitudeSi }

/-- Element by element the same but for speed and level. -/
def AllSameButSpeedLevel (l l' : List (Record F)) : Prop :=
  l.length = l'.length ∧ ∀ (i : Nat) (r r' : Record F), l[i]? = some r → l'[i]? = some r' → SameButSpeedLevel r r'

/-- The elements `l` are the elements `l'` without those of the words `x`, which are the elements from number `n` up to number `m`. -/
structure Lost (n m : Nat) (x : List Token) (l l' : List (Record F)) : Prop where
  order : n ≤ m ∧ m < l'.length
  /-- up to there the elements are the same; only the courses may differ -/
  before : AllSameButCourse (l.take n) (l'.take n)
  /-- the elements that are missing are elements of the words -/
  missing : ∀ r ∈ (l'.take m).drop n, ∃ t ∈ x, r.start = t.start ∧ r.stop = t.stop
  /-- the elements behind are the same; only speeds and levels may differ -/
  behind : AllSameButSpeedLevel (l.drop n) (l'.drop m)
  /-- if speed and level at the end of the words are those before them, the elements behind are equal -/
  resumed : (∀ p q, l'[n - 1]? = some p → l'[m - 1]? = some q → SameSpeedLevel p q) → l.drop n = l'.drop m

end F15.Spec
