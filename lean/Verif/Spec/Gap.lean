import Verif.Spec.Prefix
import Verif.Spec.Recover
/-!
# Vocabulary for "a garbled part of the route costs its elements and one error"
-/

namespace F15.Spec
variable {F : Type} [PyFloat F]

/-- The elements `l` are the elements `l'` without those of the words `x`, which begin with element number `n`. -/
structure Without (n : Nat) (x : List Token) (l l' : List (Record F)) : Prop where
  /-- up to there the elements are the same; only the courses may differ -/
  before : AllSameButCourse (l.take n) (l'.take n)
  /-- the elements that are missing are those of the words -/
  missing : ((l'.drop n).take x.length).map (fun r => (r.name, r.start, r.stop)) = x.map fun t => (t.text, t.start, t.stop)
  /-- they are flown under IFR -/
  rules : ∀ r ∈ (l'.drop n).take x.length, r.rules = py! "IFR"
  /-- all elements behind are equal, with their speeds, levels, rules and courses -/
  behind : l.drop n = l'.drop (n + x.length)

/-- Points and connectors (DCT and ATS routes), without remarks. -/
def PointsAndConnectors (x : List Token) : Prop :=
  ∀ t ∈ x, (assignSyntax t).base = .POINT ∨ (assignSyntax t).base = .DCT ∨ (assignSyntax t).base = .ROUTE

/-- The words do not begin with a remark about the point before: neither a slash nor a STAY. -/
def NoRemark (v : List Token) : Prop :=
  ∀ t, v.head? = some t → (assignSyntax t).base ≠ .SLASH ∧ (assignSyntax t).base ≠ .STAY

end F15.Spec
