import Verif.Spec.Causal
/-!
# As far as the first error, the result is right

Vocabulary for comparing a rejected field 15 with an accepted one that begins with the same words.
-/

namespace F15.Spec
variable {F : Type} [PyFloat F]

/-- The elements of a rejected field 15 of the words `pre ++ post`, compared with the elements `right` of an accepted one of the words
`pre ++ rest`. Both lists have four parts. First the same elements. Then one or two that agree but for what later words may still say about
them. Then those taken from one of the last three words of `pre` or from the words behind it (in the rejected field 15 also from points refused with
error 48). Then the ADES. -/
def RightSoFar (e : Ers F) (pre post rest : List Token) (right : List (Record F)) : Prop :=
  ∃ past near near' late late' ades ades', e.elements = past ++ near ++ late ++ [ades] ∧ right = past ++ near' ++ late' ++ [ades'] ∧
    Settling near near' ∧ (∀ r ∈ late, ∃ t, (Recent pre post t ∨ Refused e t) ∧ ElementOf t r) ∧
    (∀ r ∈ late', ∃ t, Recent pre rest t ∧ ElementOf t r) ∧ Placeholder (py! "ADES") ades ∧ Placeholder (py! "ADES") ades'

end F15.Spec
