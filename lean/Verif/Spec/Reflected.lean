import Verif.Spec.Sequence
/-!
# What becomes of a token
-/

namespace F15.Spec
variable {F : Type} [PyFloat F]

/-- The text of the token is a blank-separated word of the break text of the element. -/
def WordOf (t : Token) (r : Record F) : Prop :=
  ∃ u v, r.breakText = u ++ t.text ++ v ∧ (u = [] ∨ u.getLast? = some ' ') ∧ (v = [] ∨ v.head? = some ' ')

/-- Tokens that only separate, announce or modify, and never stand for an element or for free text by themselves. -/
def auxiliary (t : Token) : Bool :=
  [BaseType.SLASH, .STAY, .STAY_TIME, .TRUNCATE, .C, .SPEED_ALTITUDE, .SPEED_ALTITUDE_ALTITUDE, .SPEED_ALTITUDE_PLUS,
    .BREAK_END].contains t.base

/-- The token is an element of the sequence, or a word in the break text of one, or the subject of an error. -/
def Visible (t : Token) (elements errors : List (Record F)) : Prop :=
  (∃ r ∈ elements, ElementOf t r) ∨ (∃ r ∈ elements, WordOf t r) ∨ ∃ n, ∃ x ∈ errors, ErrorIs t n x

end F15.Spec
