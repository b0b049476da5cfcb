import Verif.Model.Regex
/-! # Meaning of a regular expression: the language it denotes. -/

namespace F15.Spec

/-- `Lang r s`: the whole string `s` belongs to the language of `r`. -/
def Lang : Re → Str → Prop
  | .eps, s => s = []
  | .cls k, s => ∃ c, s = [c] ∧ ∃ lo hi, (lo, hi) ∈ k ∧ lo ≤ c ∧ c ≤ hi
  | .seq a b, s => ∃ u v, s = u ++ v ∧ Lang a u ∧ Lang b v
  | .alt a b, s => Lang a s ∨ Lang b s
  | .rep a lo hi, s => ∃ l : List Str, lo ≤ l.length ∧ l.length ≤ hi ∧ (∀ x ∈ l, Lang a x) ∧ s = l.flatten

end F15.Spec
