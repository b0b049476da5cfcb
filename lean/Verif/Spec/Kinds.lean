import Verif.Spec.Sequence
/-!
# Results of the same shape

Two field 15s whose words are of the same kinds, word by word, are read in the same way.
-/

namespace F15.Spec
variable {F : Type} [PyFloat F]

/-- Words of the same kind. -/
def Alike (t u : Token) : Prop := t.base = u.base ∧ t.sub = u.sub

/-- The tokens at the same place of the two texts. -/
def Facing (T U : List Token) (t u : Token) : Prop := ∃ i : Nat, T[i]? = some t ∧ U[i]? = some u

/-- Elements of the same types, under the same flight rules, with a position or without, found at the same place of the two texts (the
ADEP and the ADES at no place). -/
def SameShape (T U : List Token) (r s : Record F) : Prop :=
  r.base = s.base ∧ r.sub = s.sub ∧ r.rules = s.rules ∧ r.latLongValid = s.latLongValid ∧
  ((∃ t u, Facing T U t u ∧ r.start = t.start ∧ r.stop = t.stop ∧ s.start = u.start ∧ s.stop = u.stop) ∨
   (r.start = 0 ∧ r.stop = 0 ∧ s.start = 0 ∧ s.stop = 0 ∧ r.name = s.name))

/-- An error about the numbers in a word: level, degrees, minutes, bearing. -/
def NumberError (T : List Token) (x : Record F) : Prop :=
  ∃ t ∈ T, ∃ n ∈ [40, 42, 43, 44, 45, 46], ErrorIs t n x

/-- The same messages about the same words, errors about numbers aside. -/
inductive SameErrors (T U : List Token) : List (Record F) → List (Record F) → Prop
  | nil : SameErrors T U [] []
  | same {x y t u n xs ys} : Facing T U t u → ErrorIs t n x → ErrorIs u n y → SameErrors T U xs ys → SameErrors T U (x :: xs) (y :: ys)
  | left {x xs ys} : NumberError T x → SameErrors T U xs ys → SameErrors T U (x :: xs) ys
  | right {y xs ys} : NumberError U y → SameErrors T U xs ys → SameErrors T U xs (y :: ys)

end F15.Spec
