import Verif.Model.Ers
import Verif.Model.Classify
/-!
# Vocabulary for the properties of the extracted route sequence
-/

namespace F15.Spec
variable {F : Type} [PyFloat F]

/-- The tokens with the types assigned from their texts (what the caller finds in the token list after the
call of `parse_f15`). -/
def typedTokens (ts : Tokens) : List Token := ts.toks.map assignSyntax

/-- A placeholder for an aerodrome of the given name. -/
def Placeholder (name : Str) (r : Record F) : Prop :=
  r.name = name ∧ r.start = 0 ∧ r.stop = 0 ∧ r.base = .POINT ∧ r.sub = .PRP_AERO

/-- `r` is the error record of message number `n` for the token `t`: text, indices and types of the token, the
message of the catalogue with every `!` replaced by the text, and nothing else. -/
def ErrorIs (t : Token) (n : Nat) (r : Record F) : Prop :=
  ∃ msg, (n, msg) ∈ errorMessages ∧
    r = { (Record.new t.text t.start t.stop t.base t.sub : Record F) with
            errorText := msg.flatMap fun c => if c = '!' then t.text else [c] }

/-- `r` is the element of the token `t`: its indices, its text (or `VFR` for a SPEED/VFR token), its types unless it
was recognised as a SID or a STAR. -/
def ElementOf (t : Token) (r : Record F) : Prop :=
  r.start = t.start ∧ r.stop = t.stop ∧
  (r.name = t.text ∨ t.base = .SPEED_VFR ∧ r.name = py! "VFR") ∧
  ((r.base = t.base ∧ r.sub = t.sub) ∨
   (t.base = .SID ∨ t.base = .SID_STAR) ∧ r.base = .SID ∧ r.sub = (if t.text = py! "SID" then .SID_LITERAL else .SID) ∨
   (t.base = .STAR ∨ t.base = .SID_STAR) ∧ r.base = .STAR ∧ r.sub = (if t.text = py! "STAR" then .STAR_LITERAL else .STAR))

/-- `rs` are the elements of the tokens `ts`, one each, in this order. -/
inductive ElementsOf : List Token → List (Record F) → Prop
  | nil : ElementsOf [] []
  | cons {t ts r rs} : ElementOf t r → ElementsOf ts rs → ElementsOf (t :: ts) (r :: rs)

/-- The tokens `ts` occur in `T`, at different places. -/
def OccurIn (ts T : List Token) : Prop := ∃ others, (ts ++ others).Perm T

/-- The name, indices, types and position of two elements agree. -/
def SameElement (r r' : Record F) : Prop :=
  r'.name = r.name ∧ r'.start = r.start ∧ r'.stop = r.stop ∧ r'.base = r.base ∧ r'.sub = r.sub ∧
  r'.latLongValid = r.latLongValid ∧ r'.latitude = r.latitude ∧ r'.longitude = r.longitude

/-- The summary of the flight rules of the elements, the first being that of the ADEP. -/
def derivedOf (rules : List Str) : Str :=
  if rules.head? = some (py! "VFR") then
    if py! "IFR" ∈ rules then py! "Z" else py! "V"
  else
    if py! "VFR" ∈ rules then py! "Y" else py! "I"

end F15.Spec
