import Verif.Spec.Story
/-!
# Points and connectors

Which elements of an accepted route may stand next to each other.
-/

namespace F15.Spec

/-- The kind of an element: its type, where a SID or STAR is what it was read as and whatever fills the slot of a cruise climb
counts as a point. -/
def kind (m : Token × Role) : BaseType :=
  match m.2 with
  | .sid => .SID
  | .star => .STAR
  | .slot => .POINT
  | _ => m.1.base

/-- The kinds of element that may come directly after one of this kind. -/
def mayFollow : BaseType → List BaseType
  | .SID => [.POINT, .ROUTE, .STAR]
  | .POINT => [.POINT, .ROUTE, .DCT, .C, .STAR, .BREAK_START, .SPEED_VFR]
  | .DCT => [.POINT, .C]
  | .ROUTE => [.POINT, .C]
  | .C => [.POINT, .ROUTE, .DCT, .C, .STAR, .BREAK_START]
  | .BREAK_START => [.POINT]
  | .SPEED_VFR => [.POINT]
  | _ => []

/-- The kinds of element that may come directly after the ADEP. -/
def mayStart : List BaseType := [.POINT, .DCT, .SID, .STAR, .SPEED_VFR]

/-- `m'` may be the next element after `m`, with `mid` between them: the kinds fit; an ATS route does not lead to coordinates or to a
bearing and distance, unless these are the point of a cruise climb; and it does not lead away from them, unless there was a stay. -/
structure Joins (m : Token × Role) (mid : List (Token × Role)) (m' : Token × Role) : Prop where
  kinds : kind m' ∈ mayFollow (kind m)
  to : kind m = .ROUTE → kind m' = .POINT → isFixed m'.1 = true → m'.2 = .slot
  away : kind m' = .ROUTE → kind m = .POINT → isFixed m.1 = true → ∃ x ∈ mid, x.1.base = .STAY_TIME

end F15.Spec
