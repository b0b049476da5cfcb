import Verif.Model.Ers
/-!
# Writing a field 15 from the elements

The program has no writer. This one serves to say that the elements of an accepted field 15 contain everything: what is written here from
the elements alone is read as the same elements. It looks only at what a user can see in an element.
-/

namespace F15.Spec
variable {F : Type} [PyFloat F]

/-- A number below 100, in two digits. -/
def twoDigits (n : Nat) : Str := [Char.ofNat (48 + n / 10), Char.ofNat (48 + n % 10)]

/-- Minutes as `HHMM`. -/
def hoursMinutes (n : Int) : Str := twoDigits (n.toNat / 60) ++ twoDigits (n.toNat % 60)

/-- Cut a text at its blanks. -/
def cutBlanks : Str → List Str
  | [] => [[]]
  | c :: s => if c = ' ' then [] :: cutBlanks s else
    match cutBlanks s with
    | w :: ws => (c :: w) :: ws
    | [] => [[c]]

/-- The words of a text. -/
def textWords (s : Str) : List Str := (cutBlanks s).filter (· ≠ [])

/-- A SPEED/LEVEL/LEVEL or SPEED/LEVEL/PLUS that says where a cruise climb leads. The speed and first level in it are of no account: others follow.
A level without a unit (see C37) is the second level behind a Mach number. -/
def climbWord (to : Str) : Str :=
  if to = py! "PLUS" then py! "N0000F000PLUS"
  else if to.head?.any Char.isDigit then py! "M000F000" ++ (if to.length = 3 then 'F' else 'M') :: to
  else py! "N0000F000" ++ to

/-- An element that starts free text with a speed. -/
def isVfr (r : Option (Record F)) : Bool := r.any fun r => decide (r.base = .SPEED_VFR ∧ r.cruiseTo = [])

/-- An ATS route. -/
def isAts (r : Option (Record F)) : Bool := r.any fun r => decide (r.base = .ROUTE ∧ r.cruiseTo = [])

/-- A point given by coordinates or by bearing and distance. -/
def isPlaced (r : Record F) : Bool := [SubType.PRP_BD, .LL_DEG, .LL_MIN, .LLBD_DEG, .LLBD_MIN].contains r.sub

/-- The element itself. The point of a cruise climb is known by the level the climb leads to. -/
def ownWords (r : Record F) : List Str :=
  if r.cruiseTo ≠ [] then [py! "C", py! "/", r.name, py! "/", climbWord r.cruiseTo]
  else if r.base = .SPEED_VFR then (r.speed ++ py! "VFR") :: textWords r.breakText
  else if r.base = .BREAK_START then r.name :: textWords r.breakText
  else [r.name]

/-- The speed and level at a point, before the element `next`. A SPEED/VFR that follows gives them too; before it they are
written only behind a point with a position, because the program would otherwise not look at the position (see C28). -/
def levelWords (r : Record F) (next : Option (Record F)) : List Str :=
  if isVfr next then (if r.latLongValid then [py! "/", r.speed ++ r.altitude] else []) ++ [py! "/"] else [py! "/", r.speed ++ r.altitude]

/-- A stay. One of no minutes is needed between coordinates and an ATS route. -/
def stayWords (r : Record F) (next : Option (Record F)) : List Str :=
  if r.stayTime ≠ 0 ∨ (isPlaced r ∧ isAts next) then [py! "STAY1", py! "/", hoursMinutes r.stayTime] else []

/-- What is said about an element. -/
def aboutWords (r : Record F) (next : Option (Record F)) : List Str :=
  if r.cruiseTo ≠ [] ∨ r.base = .POINT then levelWords r next ++ stayWords r next
  else if r.base = .C then stayWords r next
  else []

/-- The elements of the route. -/
def routeWords : List (Record F) → List Str
  | [] => []
  | r :: rs => ownWords r ++ aboutWords r rs.head? ++ routeWords rs

/-- The field 15 written from all the elements: the departure aerodrome, the route, the destination aerodrome. -/
def written : List (Record F) → List Str
  | [] => []
  | dep :: rest =>
    let route := rest.dropLast
    (if isVfr route.head? then [] else [dep.speed ++ dep.altitude]) ++ (if route = [] then [py! "T"] else routeWords route)

end F15.Spec
