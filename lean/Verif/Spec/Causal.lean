import Verif.Spec.Sequence
/-!
# Vocabulary for "what has been extracted does not depend on what follows"
-/

namespace F15.Spec
variable {F : Type} [PyFloat F]

/-- The tokens that still matter when `rest` follows after `pre`: the last three of `pre`, and those of `rest`. -/
def Recent (pre rest : List Token) (t : Token) : Prop := t ∈ pre.drop (pre.length - 3) ∨ t ∈ rest

/-- The token has been refused with error 48 (a point with coordinates or bearing/distance after a route). -/
def Refused (e : Ers F) (t : Token) : Prop := ∃ r ∈ e.errors, ErrorIs t 48 r

/-- Two elements agree in everything but bearing and distance to the next. -/
def SameButCourse (r r' : Record F) : Prop := r' = { r with bearing := r'.bearing, distance := r'.distance }

/-- The last one or two elements extracted from the common beginning: the last agrees in name, indices, types and
position, the one before in everything but bearing and distance. -/
inductive Settling : List (Record F) → List (Record F) → Prop
  | one {r r'} : SameElement r r' → Settling [r] [r']
  | two {s s' r r'} : SameButCourse s s' → SameElement r r' → Settling [s, r] [s', r']

/-- The elements and errors of two parses, `e1` of the tokens `pre ++ x` and `e2` of the tokens `pre ++ y`.

* Elements: both begin with the same `past`, then one or two `Settling` elements, then elements of recent tokens
  (or of tokens refused with error 48), then the ADES.
* Errors: both begin with the same errors; the remaining ones are about recent tokens (or tokens refused with error 48),
  or are error 28. -/
structure CommonPast (pre x y : List Token) (e1 e2 : Ers F) : Prop where
  elements : ∃ past near1 near2 late1 late2 ades1 ades2,
    e1.elements = past ++ near1 ++ late1 ++ [ades1] ∧ e2.elements = past ++ near2 ++ late2 ++ [ades2] ∧
    Settling near1 near2 ∧
    (∀ r ∈ late1, ∃ t, (Recent pre x t ∨ Refused e1 t) ∧ ElementOf t r) ∧
    (∀ r ∈ late2, ∃ t, (Recent pre y t ∨ Refused e2 t) ∧ ElementOf t r) ∧
    Placeholder (py! "ADES") ades1 ∧ Placeholder (py! "ADES") ades2
  errors : ∃ past late1 late2, e1.errors = past ++ late1 ∧ e2.errors = past ++ late2 ∧
    (∀ r ∈ late1, ∃ t n, ErrorIs t n r ∧ (Recent pre x t ∨ Refused e1 t ∨ n = 28)) ∧
    (∀ r ∈ late2, ∃ t n, ErrorIs t n r ∧ (Recent pre y t ∨ Refused e2 t ∨ n = 28))

/-- The error may be out of order: it is error 28, or about a token that was refused with error 48. -/
def OutOfTurn (e : Ers F) (r : Record F) : Prop :=
  (∃ t, ErrorIs t 28 r) ∨ ∃ t, Refused e t ∧ r.name = t.text ∧ r.start = t.start ∧ r.stop = t.stop

/-- No error is about an earlier part of the text than an error before it, unless it is out of turn. -/
def ErrorsInOrder (e : Ers F) : Prop :=
  e.errors.Pairwise fun r r' => r.start ≤ r'.start ∨ OutOfTurn e r'

/-- No element (the ADES apart) begins before an element listed before it, unless it is a point that was refused with error 48. -/
def ElementsInOrder (e : Ers F) : Prop :=
  e.elements.dropLast.Pairwise fun r r' => r.start ≤ r'.start ∨ ∃ t, Refused e t ∧ t.start = r'.start

end F15.Spec
