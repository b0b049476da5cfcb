import Verif.Spec.Story
import Verif.Spec.Position
import Verif.Spec.Local
import Verif.Spec.Values
import Verif.Model.Utils
/-!
# The meaning of an accepted field 15

The rules for every attribute of every element, in one place. `Spec.Meaning` relates the typed tokens of a field 15 to
the list of its elements; nothing in it refers to the parser.
-/

namespace F15.Spec
variable {F : Type} [PyFloat F]

/-- A level in metres, rounded: hundreds of feet (F, A) or tens of metres (S, M). A text without one of these units is
read as one character and a number of metres. -/
def levelMetres (F : Type) [PyFloat F] : Str → Int
  | [] => 0
  | u :: d =>
    PyFloat.toInt (PyFloat.add (F := F)
      (if u = 'F' ∨ u = 'A' then PyFloat.mul (PyFloat.ofInt (numVal d * 100 : Nat)) (PyFloat.dec 3048 4)
       else if u = 'S' ∨ u = 'M' then PyFloat.ofInt (numVal d * 10 : Nat)
       else PyFloat.ofInt (numVal d)) (PyFloat.dec 5 1))

/-- A speed in metres per second, rounded: km/h (K), knots (N) or hundredths of Mach (M) at an altitude in metres. -/
def speedMetres (F : Type) [PyFloat F] (altitude : Int) : Str → Int
  | [] => 0
  | u :: d =>
    PyFloat.toInt (PyFloat.add (F := F)
      (if u = 'K' then PyFloat.mul (PyFloat.ofInt (numVal d)) (PyFloat.dec 2777778 7)
       else if u = 'N' then PyFloat.mul (PyFloat.ofInt (numVal d)) (PyFloat.dec 514444 6)
       else Utils.machToMsSpeed (numVal d) altitude) (PyFloat.dec 5 1))

/-- The minutes of the last stay in `l`, 0 if there is none. -/
def StayOf (l : List (Token × Role)) (n : Int) : Prop :=
  (n = 0 ∧ ∀ x ∈ l, ¬ (x.2 = .note ∧ x.1.base = .STAY_TIME)) ∨
  ∃ a t b, l = a ++ (t, .note) :: b ∧ t.base = .STAY_TIME ∧ StayMinutes t.text n ∧
    ∀ x ∈ b, ¬ (x.2 = .note ∧ x.1.base = .STAY_TIME)

/-- What is written behind the point of a cruise climb: `/` and SPEED LEVEL PLUS or SPEED LEVEL LEVEL. The second level loses its
unit unless the speed has five characters and the first level four (a fault of the program, see `c37_false`). -/
def ClimbTo (after : List (Token × Role)) (text : Str) (si : Int) (F : Type) [PyFloat F] : Prop :=
  ∃ s l rest, after = (s, .note) :: (l, .note) :: rest ∧ s.text = py! "/" ∧
    ((∃ a b, Speed a ∧ Level b ∧ l.text = a ++ b ++ py! "PLUS" ∧ text = py! "PLUS" ∧ si = 0) ∨
     (∃ a b c, Speed a ∧ Level b ∧ Level c ∧ l.text = a ++ b ++ c ∧
       text = (if a.length = 5 ∧ b.length = 4 then c else c.drop 1) ∧ si = levelMetres F text))

/-- The one kind of point whose position is not looked at: between a word `IFR` that ends free text and `/` SPEED/VFR
(a fault of the program, see `c28_false`). -/
def Overlooked (before after : List (Token × Role)) : Prop :=
  (∃ b w, before = b ++ [(w, .word)] ∧ w.sub = .IFR) ∧
  ∃ s l rest, after = s :: l :: rest ∧ s.1.base = .SLASH ∧ l.1.base = .SPEED_VFR

/-- What is common to the departure aerodrome and the elements of the route: `said` is everything said up to the end of the
element, `own` what is said about it alone. -/
structure Filled (said own : List (Token × Role)) (r : Record F) : Prop where
  /-- speed and level were given last by a token said before -/
  change : ∃ c, LastChange said c ∧ Gives c.1 r.speed r.altitude
  /-- in SI units -/
  si : r.altitudeSi = levelMetres F r.altitude ∧ r.speedSi = speedMetres F r.altitudeSi r.speed
  stay : StayOf own r.stayTime
  noError : r.errorText = []

/-- The element of the token `m`. -/
structure RouteElement (before : List (Token × Role)) (m : Token × Role) (after : List (Token × Role)) (r : Record F) : Prop where
  name : RoleElement m r
  filled : Filled (upTo (before ++ [m]) after) (about after) r
  rules : r.rules = elementRules m
  text : r.breakText = if startsText m then joined (about after) else []
  climb : m.2 = .slot → ClimbTo after r.cruiseTo r.cruiseToSi F
  noClimb : m.2 ≠ .slot → r.cruiseTo = [] ∧ r.cruiseToSi = 0
  place : isLatLong m.1.sub → ¬ Overlooked before after → r.latLongValid = true ∧ DecodedPosition r
  noPlace : ¬ isLatLong m.1.sub ∨ Overlooked before after → r.latLongValid = false ∧ r.latitude = fzero ∧ r.longitude = fzero

/-- The element of the departure aerodrome. -/
structure DepartureOf (ts : List Token) (r : Record F) : Prop where
  name : r.name = py! "ADEP" ∧ r.start = 0 ∧ r.stop = 0 ∧ r.base = .POINT ∧ r.sub = .PRP_AERO
  filled : Filled (upTo [] (roles ts)) (about (roles ts)) r
  rules : r.rules = if ts.head?.map (·.base) = some .SPEED_VFR then py! "VFR" else py! "IFR"
  text : r.breakText = []
  noClimb : r.cruiseTo = [] ∧ r.cruiseToSi = 0
  noPlace : r.latLongValid = false ∧ r.latitude = fzero ∧ r.longitude = fzero

/-- The element of the destination aerodrome: nothing but the rules of the element before it. -/
def destination (rules : Str) : Record F :=
  { name := py! "ADES", start := 0, stop := 0, base := .POINT, sub := .PRP_AERO, altitude := [], altitudeSi := 0, speed := [],
    speedSi := 0, breakText := [], rules := rules, errorText := [], stayTime := 0, cruiseTo := [], cruiseToSi := 0,
    latitude := fzero, longitude := fzero, bearing := fzero, distance := fzero, latLongValid := false }

/-- The elements `l` are what the tokens `ts` say. -/
structure Meaning (ts : List Token) (l : List (Record F)) : Prop where
  count : l.length = elementCount (roles ts) + 2
  departure : ∃ r, l[0]? = some r ∧ DepartureOf ts r
  route : ∀ before m after, roles ts = before ++ m :: after → m.2.isElement = true →
    ∃ r, l[elementCount before + 1]? = some r ∧ RouteElement before m after r
  arrival : ∃ p, l[elementCount (roles ts)]? = some p ∧ l[elementCount (roles ts) + 1]? = some (destination p.rules)
  course : ∀ before r following, l = before ++ r :: following → (r.bearing, r.distance) = courseOf r following

end F15.Spec
