import Verif.Spec.Insert
/-!
# Vocabulary for "a DCT between two points may be put in or left out"
-/

namespace F15.Spec
variable {F : Type} [PyFloat F]

/-- The elements `l'` are the elements `l` with an element for the word `d` (a DCT or an ATS route, of type `b`) behind element number `n`. -/
structure WithConnector (b : BaseType) (n : Nat) (d : Token) (l l' : List (Record F)) : Prop where
  /-- up to there the elements are the same; only the courses may differ -/
  before : AllSameButCourse (l.take (n + 1)) (l'.take (n + 1))
  /-- the element of the word: flown under IFR at the speed and level of the element before it, at no position -/
  here : ∃ p a, l'[n]? = some p ∧ l'[n + 1]? = some a ∧ a.name = d.text ∧ a.start = d.start ∧ a.stop = d.stop ∧ a.base = b ∧
    a.rules = py! "IFR" ∧ a.speed = p.speed ∧ a.altitude = p.altitude ∧ a.latLongValid = false
  /-- all elements behind are equal, with their courses -/
  behind : l.drop (n + 1) = l'.drop (n + 2)
  /-- between two positions the word makes no difference to the courses either -/
  courses : ∀ p q, l[n]? = some p → l[n + 1]? = some q → p.latLongValid = true → q.latLongValid = true → l.take (n + 1) = l'.take (n + 1)

/-- The elements `l'` are the elements `l` with an element for the DCT `d` behind element number `n`. -/
abbrev WithDirect (n : Nat) (d : Token) (l l' : List (Record F)) : Prop := WithConnector .DCT n d l l'

/-- What can follow a DCT: nothing, a point, a cruise climb, or the truncation `T`. -/
def MayFollowDirect (v : List Token) : Prop := ∀ t, v.head? = some t → t.base = .POINT ∨ t.base = .C ∨ t.base = .TRUNCATE

end F15.Spec
