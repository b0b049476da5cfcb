import Verif.Spec.Sequence
import Verif.Spec.Shapes
/-!
# Malformed cruise climb words and their twins

`NddddAddddSdddd` and `NddddAddddMdddd` are accepted as the levels of a cruise climb although they are malformed (the first altitude has
three digits only).
-/

namespace F15.Spec
variable {F : Type} [PyFloat F]

/-- A token which can make `parse_f15` raise `ValueError`: `NddddAdddd` followed by `Sdddd` or `Mdddd`. -/
def CrashText (s : Str) : Prop :=
  ∃ a b c d, Digits 4 a ∧ Digits 4 b ∧ (c = 'S' ∨ c = 'M') ∧ Digits 4 d ∧ s = 'N' :: a ++ 'A' :: b ++ c :: d

/-- A well-formed word of the same kind, with a level (F351) which is no multiple of five. -/
def twinText : Str := py! "N0450F351F350"

/-- The field with a well-formed word in the place of each malformed one. -/
inductive Mended : List Token → List Token → Prop
  | nil : Mended [] []
  | keep {t T U} : ¬ CrashText t.text → Mended T U → Mended (t :: T) (t :: U)
  | mend {t T U} : CrashText t.text → Mended T U → Mended (t :: T) ({ t with text := twinText } :: U)

/-- The error about the level of the well-formed word put in the place of `t`. -/
def ToldLevel (t : Token) (x : Record F) : Prop :=
  ErrorIs ⟨twinText, t.start, t.stop, .SPEED_ALTITUDE_ALTITUDE, .SPEED_ALTITUDE_NFF⟩ 40 x

end F15.Spec
