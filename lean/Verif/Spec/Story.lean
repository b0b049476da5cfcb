import Verif.Spec.Grammar
import Verif.Model.Ers
/-!
# Reading an accepted field 15

Each token of an accepted field 15 has one role: it is an element of the route, a word of free text, or a note (a
separator, a change of speed and level, a stay, `T`) about the element before it. The roles are found by reading the
tokens from left to right. The speed and level given first are a note about the departure aerodrome.
-/

namespace F15.Spec

/-- What a token is. -/
inductive Role
  /-- an element of its own -/
  | head
  /-- an element, read as SID -/
  | sid
  /-- an element, read as STAR -/
  | star
  /-- the point of a cruise climb -/
  | slot
  /-- a word of free text -/
  | word
  /-- says something about the element before it -/
  | note
deriving DecidableEq

/-- Is the token an element? -/
def Role.isElement : Role → Bool
  | .word | .note => false
  | _ => true

/-- The state of the reader. -/
inductive Mode
  /-- directly after the initial SPEED/LEVEL? -/
  | route (first : Bool)
  /-- in free text under these rules -/
  | text (rules : Str)
  /-- after the `C` of a cruise climb -/
  | climb
  /-- after the `C/` of a cruise climb -/
  | slot

/-- The role of a token in the route. -/
def roleOf (first : Bool) (t : Token) : Role :=
  match t.base with
  | .POINT | .ROUTE | .DCT | .C | .BREAK_START | .SPEED_VFR => .head
  | .SID => .sid
  | .STAR => .star
  | .SID_STAR => if first then .sid else .star
  | _ => .note

/-- SPEED/VFR and VFR, OAT, IFPSTOP start free text. -/
def modeAfter (t : Token) : Mode :=
  match t.base with
  | .SPEED_VFR => .text (py! "VFR")
  | .BREAK_START => .text (rulesOfBreak t.sub)
  | _ => .route false

/-- `C` followed by `/` -/
def isCruise (t : Token) (following : List Token) : Bool :=
  decide (t.base = .C) && (following.head?.map (·.base) == some .SLASH)

instance (t : Token) (r : Str) : Decidable (closes t r) := by unfold closes; infer_instance

instance (t : Token) (ts : List Token) : Decidable (readOn t ts) :=
  match ts with
  | [] => isTrue trivial
  | [p] => decidable_of_iff (p.base ≠ .POINT) (by simp [readOn])
  | p :: s :: ts => decidable_of_iff (p.base ≠ .POINT ∨ (t.sub = .IFR ∧ s.base ≠ .SLASH)) (by simp [readOn])

/-- The roles of the tokens. -/
def mark : Mode → List Token → List (Token × Role)
  | _, [] => []
  | .text r, t :: ts => (t, .word) :: mark (if closes t r ∧ ¬ readOn t ts then .route false else .text r) ts
  | .climb, t :: ts => (t, .note) :: mark .slot ts
  | .slot, t :: ts => (t, .slot) :: mark (.route false) ts
  | .route first, t :: ts =>
    if isCruise t ts then (t, .note) :: mark .climb ts
    else (t, roleOf first t) :: mark (modeAfter t) ts

/-- The roles of the tokens of an accepted field 15. -/
def roles : List Token → List (Token × Role)
  | [] => []
  | t :: ts => if t.base = .SPEED_VFR then (t, .head) :: mark (.text (py! "VFR")) ts
    else (t, .note) :: mark (.route true) ts

/-- The number of elements. -/
def elementCount (l : List (Token × Role)) : Nat := (l.filter (·.2.isElement)).length

/-- What is said about an element: everything up to the next element. -/
def about (l : List (Token × Role)) : List (Token × Role) := l.takeWhile (!·.2.isElement)

/-- The token gives a speed and a level. -/
def isChange (m : Token × Role) : Bool :=
  match m.2 with
  | .note => [BaseType.SPEED_ALTITUDE, .SPEED_ALTITUDE_ALTITUDE, .SPEED_ALTITUDE_PLUS].contains m.1.base
  | .head => decide (m.1.base = .SPEED_VFR)
  | _ => false

/-- The speed and level given by a token; SPEED/VFR stands for the level F050. -/
def Gives (t : Token) (speed level : Str) : Prop :=
  Speed speed ∧
  match t.base with
  | .SPEED_ALTITUDE => Level level ∧ t.text = speed ++ level
  | .SPEED_ALTITUDE_ALTITUDE => Level level ∧ ∃ to, Level to ∧ t.text = speed ++ level ++ to
  | .SPEED_ALTITUDE_PLUS => Level level ∧ t.text = speed ++ level ++ py! "PLUS"
  | .SPEED_VFR => level = py! "F050" ∧ t.text = speed ++ py! "VFR"
  | _ => False

/-- `m` is the last token of `l` that gives a speed and a level. -/
def LastChange (l : List (Token × Role)) (m : Token × Role) : Prop :=
  ∃ a b, l = a ++ m :: b ∧ isChange m = true ∧ ∀ x ∈ b, isChange x = false

/-- What has been said up to the end of an element: a SPEED/VFR that follows directly counts. -/
def upTo (before after : List (Token × Role)) : List (Token × Role) :=
  before ++ about after ++
    match after.dropWhile (!·.2.isElement) with
    | m :: _ => if m.1.base = .SPEED_VFR ∧ m.2 = .head then [m] else []
    | [] => []

/-- The words of free text joined by single spaces. -/
def joined (l : List (Token × Role)) : Str := ((l.map (·.1.text)).intersperse [' ']).flatten

/-- The flight rules begun by an element: a break has its own, everything else is IFR. -/
def elementRules (m : Token × Role) : Str :=
  if m.2 = .head ∧ m.1.base = .BREAK_START then rulesOfBreak m.1.sub
  else if m.2 = .head ∧ m.1.base = .SPEED_VFR then py! "VFR" else py! "IFR"

/-- Does the element start free text? -/
def startsText (m : Token × Role) : Bool := decide (m.2 = .head) && (decide (m.1.base = .BREAK_START) || decide (m.1.base = .SPEED_VFR))

/-- `r` is the element of a token with a role: its indices, its text (`VFR` for SPEED/VFR), its types (as read for SID and STAR). -/
def RoleElement {F : Type} (m : Token × Role) (r : Record F) : Prop :=
  r.start = m.1.start ∧ r.stop = m.1.stop ∧
  r.name = (if m.2 = .head ∧ m.1.base = .SPEED_VFR then py! "VFR" else m.1.text) ∧
  r.base = (if m.2 = .sid then .SID else if m.2 = .star then .STAR else m.1.base) ∧
  r.sub = (if m.2 = .sid then (if m.1.text = py! "SID" then .SID_LITERAL else .SID)
    else if m.2 = .star then (if m.1.text = py! "STAR" then .STAR_LITERAL else .STAR) else m.1.sub)

end F15.Spec
