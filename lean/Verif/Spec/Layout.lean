import Verif.Model.Token
import Verif.Model.Ers
/-!
# Vocabulary for "the layout of field 15 does not matter"
-/

namespace F15.Spec
variable {F : Type} [PyFloat F]

/-- The records `r` (of one parse) and `r'` (of the other parse) are the same, field by field, but for the place in
the source; and either both have the place of an aerodrome placeholder (0, 0), or their places are those of the same
token, the `k`-th, of the one token list `T` and of the other token list `T'`. -/
def SameButPlace (T T' : List Token) (r r' : Record F) : Prop :=
  r' = { r with start := r'.start, stop := r'.stop } ∧
  ((r.start, r.stop) = (0, 0) ∧ (r'.start, r'.stop) = (0, 0) ∨
   ∃ (k : Nat) (t t' : Token), T[k]? = some t ∧ T'[k]? = some t' ∧ (r.start, r.stop) = (t.start, t.stop) ∧ (r'.start, r'.stop) = (t'.start, t'.stop))

/-- The same, for lists of records. -/
def AllSameButPlace (T T' : List Token) (rs rs' : List (Record F)) : Prop :=
  rs.length = rs'.length ∧
  ∀ (i : Nat) (r r' : Record F), rs[i]? = some r → rs'[i]? = some r' → SameButPlace T T' r r'

/-- Blank space: blanks, tabs and line ends (line feed, carriage return), in any number, possibly none. -/
def Blanks (g : Str) : Prop := ∀ c ∈ g, c = ' ' ∨ c = '\t' ∨ c = '\n' ∨ c = '\r'

/-- `Respaced s s'`: the texts `s` and `s'` differ in blank space only. Blank space may be replaced by other blank
space anywhere, and may be put in or left out beside an oblique stroke and at the end. -/
inductive Respaced : Str → Str → Prop
  | done {g g'} : Blanks g → Blanks g' → Respaced g g'
  | same {c s s'} : Respaced s s' → Respaced (c :: s) (c :: s')
  | gap {g g' s s'} : Blanks g → Blanks g' → g ≠ [] → g' ≠ [] → Respaced s s' → Respaced (g ++ s) (g' ++ s')
  | stroke {g g' h h' s s'} : Blanks g → Blanks g' → Blanks h → Blanks h' → Respaced s s' →
      Respaced (g ++ '/' :: (h ++ s)) (g' ++ '/' :: (h' ++ s'))

end F15.Spec
