import Verif.Spec.Causal
import Verif.Model.Parser
/-!
# Vocabulary for parsing into a sequence that is not fresh
-/

namespace F15.Spec
variable {F : Type} [PyFloat F]

/-- The same element but for the flight rules. -/
def SameButRules (r r' : Record F) : Prop := r' = { r with rules := r'.rules }

/-- The part of the claim that holds: what was there stays. `before` are the elements and errors in the sequence passed in, `after`
those found in it when the parser returns. -/
structure Preserved (before after : Ers F) : Prop where
  /-- no error is lost or changed -/
  errors : ∃ new, after.errors = before.errors ++ new
  /-- no element is lost; all but the first and the last two are the same in every attribute -/
  elements : ∀ first middle prev last, before.elements = first :: (middle ++ [prev, last]) →
    ∃ first' prev' last' new, after.elements = first' :: (middle ++ prev' :: last' :: new) ∧ new ≠ [] ∧
      SameButRules first first' ∧ SameButCourse prev prev' ∧ SameElement last last'

/-- Two parses, into the sequences `before` and `before'`, add the same: the elements from the last old one on are the same in every
attribute, so are the new errors; or the same exception is raised. -/
inductive SameAddition (before before' : Ers F) : Except PyErr (Bool × Ers F) → Except PyErr (Bool × Ers F) → Prop
  | returned {b b' : Bool} {after after' : Ers F}
      (elements : after.elements.drop (before.elements.length - 1) = after'.elements.drop (before'.elements.length - 1))
      (errors : after.errors.drop before.errors.length = after'.errors.drop before'.errors.length) :
      SameAddition before before' (.ok (b, after)) (.ok (b', after'))
  | raised (x : PyErr) : SameAddition before before' (.error x) (.error x)

/-- The beginnings of a field 15 that are treated alike in a used and in a fresh sequence: a SPEED/VFR, or a SPEED/LEVEL followed by
nothing, a point or a DCT. -/
def Opening (t : Token) (rest : List Token) : Prop :=
  t.base = .SPEED_VFR ∨ (t.base = .SPEED_ALTITUDE ∧ ∀ p, rest.head? = some p → p.base = .POINT ∨ p.base = .DCT)

/-- A parse into `before` adds what a parse into a fresh sequence gives behind its ADEP: the same elements, in every attribute, and the same
errors; or the same exception is raised. -/
inductive AddsAsFresh (before : Ers F) : Except PyErr (Bool × Ers F) → Except PyErr (Bool × Ers F) → Prop
  | returned {b b' : Bool} {after fresh : Ers F} (elements : after.elements.drop before.elements.length = fresh.elements.drop 1)
      (errors : after.errors.drop before.errors.length = fresh.errors) : AddsAsFresh before (.ok (b, after)) (.ok (b', fresh))
  | raised (x : PyErr) : AddsAsFresh before (.error x) (.error x)

end F15.Spec
