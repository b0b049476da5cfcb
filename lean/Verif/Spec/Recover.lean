import Verif.Model.Parser
import Verif.Spec.Sequence
/-!
# Vocabulary for "a stray word costs one error and nothing else"
-/

namespace F15.Spec

/-- The words `u` are the beginning of a field 15 up to a place between two items: either only the initial SPEED/LEVEL,
or a field 15 that is accepted as it stands, that has not ended in free text (the flight rules are IFR at its end), and
whose last word is not the cruise climb indicator `C`. -/
def Between (F : Type) [PyFloat F] (frames : Nat) (u : List Token) : Prop :=
  (∃ t, u = [t] ∧ (assignSyntax t).base = .SPEED_ALTITUDE) ∨
  ((∃ e : Ers F, parseF15 frames Ers.new ⟨u, 0⟩ = .ok (true, e) ∧
      e.elements.getLast?.map (·.rules) = some (py! "IFR")) ∧
    u.getLast?.map (·.text) ≠ some (py! "C"))

/-- A word that cannot begin an item of the route: not a point, a route, DCT, SID, STAR, STAY, C, T, `/`, VFR, OAT or
IFPSTOP. -/
def Stray (t : Token) : Prop :=
  (assignSyntax t).base ∈ [BaseType.UNKNOWN, .TOO_LONG, .STAY_TIME, .SPEED_ALTITUDE, .SPEED_VFR, .SPEED_ALTITUDE_ALTITUDE,
    .SPEED_ALTITUDE_PLUS, .BREAK_END]

/-- A word that is not even of a known form (or is a lone time of day). -/
def Foreign (t : Token) : Prop := (assignSyntax t).base ∈ [BaseType.UNKNOWN, .TOO_LONG, .STAY_TIME]

/-- The last word is a STAR (or is spelled like one) or the truncation indicator `T`, after which nothing may follow. -/
def Closed (u : List Token) : Prop :=
  ∃ t, u.getLast? = some t ∧ (assignSyntax t).base ∈ [BaseType.TRUNCATE, .STAR, .SID_STAR]

/-- A field 15 cut into pieces `ps` and a last piece `ts`. -/
def inPieces (ps : List (List Token × Token)) (ts : List Token) : List Token := ps.flatMap (·.1) ++ ts

/-- The same with a word inserted after each piece of `ps`. -/
def interspersed (ps : List (List Token × Token)) (ts : List Token) : List Token :=
  ps.flatMap (fun p => p.1 ++ [p.2]) ++ ts

/-- The kinds of words. -/
def kinds (u : List Token) : List (BaseType × SubType) := u.map fun t => ((assignSyntax t).base, (assignSyntax t).sub)

/-- The kinds of the words of pieces and of the words inserted behind them. -/
def pieceKinds (ps : List (List Token × Token)) : List (List (BaseType × SubType) × (BaseType × SubType)) :=
  ps.map fun p => (kinds p.1, ((assignSyntax p.2).base, (assignSyntax p.2).sub))

/-- The errors about the words `u`. -/
def About {F : Type} [PyFloat F] (u : List Token) (r : Record F) : Prop := ∃ t ∈ u, ∃ n, ErrorIs (assignSyntax t) n r

/-- A record without its place in the text. -/
def noPlace {F : Type} [PyFloat F] (r : Record F) : Record F := { r with start := 0, stop := 0 }

end F15.Spec
