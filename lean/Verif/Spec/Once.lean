import Verif.Spec.Sequence
/-!
# Vocabulary for "no complaint is made twice"
-/

namespace F15.Spec
variable {F : Type} [PyFloat F]

/-- Two errors say the same about the same place of the text. -/
def SameComplaint (r r' : Record F) : Prop := r.start = r'.start ∧ r.errorText = r'.errorText

/-- The error is "The flight level '!' must end in a zero or 5" about a SPEED/LEVEL/LEVEL word, which has two flight levels. -/
def AboutTwoLevels (r : Record F) : Prop := r.base = .SPEED_ALTITUDE_ALTITUDE ∧ ∃ t, ErrorIs t 40 r

end F15.Spec
