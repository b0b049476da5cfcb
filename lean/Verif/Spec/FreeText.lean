import Verif.Model.Parser
/-!
# Vocabulary for "free text is only collected"
-/

namespace F15.Spec
variable {F : Type} [PyFloat F]

/-- A word that starts free text: VFR, OAT, IFPSTOP or SPEED/VFR. -/
def Opener (t : Token) : Prop := (assignSyntax t).base = .BREAK_START ∨ (assignSyntax t).base = .SPEED_VFR

/-- A word that can end no free text: it is not IFR, GAT or IFPSTART. -/
def Inert (t : Token) : Prop := (assignSyntax t).base ≠ .BREAK_END

/-- A word that is not too long to be read. -/
def Readable (t : Token) : Prop := (assignSyntax t).base ≠ .TOO_LONG

/-- An element without its break text. -/
def withoutText (r : Record F) : Record F := { r with breakText := [] }

end F15.Spec
