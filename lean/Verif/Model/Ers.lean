import Verif.Model.Types
import Verif.Model.Messages
/-!
# `ExtractedRouteRecord` and `ExtractedRouteSequence`
-/

namespace F15

/-- `ExtractedRouteRecord` (ExtractedRouteRecord.py:18-79). `altitude_si`, `speed_si` and
`altitude_cruise_to_si` have the class default `0.0` and are otherwise assigned `int(...)` values
(F15Parse.py:226-228, 452), so they are integers here. -/
structure Record (F : Type) where
  name : Str
  start : Nat
  stop : Nat
  base : BaseType
  sub : SubType
  altitude : Str
  altitudeSi : Int
  speed : Str
  speedSi : Int
  breakText : Str
  rules : Str
  errorText : Str
  stayTime : Int
  cruiseTo : Str
  cruiseToSi : Int
  latitude : F
  longitude : F
  bearing : F
  distance : F
  latLongValid : Bool
deriving DecidableEq, Repr

variable {F : Type} [PyFloat F]

/-- The float literal `0.0`. -/
def fzero : F := PyFloat.dec 0 1

/-- `ExtractedRouteRecord.__init__` (ExtractedRouteRecord.py:81-97), other fields from the class
defaults (lines 18-79). -/
def Record.new (name : Str) (start stop : Nat) (base : BaseType) (sub : SubType) : Record F :=
  { name, start, stop, base, sub, altitude := [], altitudeSi := 0, speed := [], speedSi := 0,
    breakText := [], rules := [], errorText := [], stayTime := 0, cruiseTo := [], cruiseToSi := 0,
    latitude := fzero, longitude := fzero, bearing := fzero, distance := fzero, latLongValid := false }

/-- `append_break_text` (ExtractedRouteRecord.py:100-113) -/
def Record.appendBreakText (r : Record F) (t : Str) : Record F :=
  if r.breakText = [] then { r with breakText := t }
  else { r with breakText := r.breakText ++ ' ' :: t }

/-- `append_error_text` (ExtractedRouteRecord.py:115-124) -/
def Record.appendErrorText (r : Record F) (t : Str) : Record F :=
  if r.errorText = [] then { r with errorText := t }
  else { r with errorText := r.errorText ++ ' ' :: t }

/-- `set_stay_time` (ExtractedRouteRecord.py:459-466): `int(s[0:2]) * 60 + int(s[2:])` -/
def Record.setStayTime (r : Record F) (s : Str) : Except PyErr (Record F) := do
  let h ← pyInt (slice s 0 2)
  let m ← pyInt (sliceFrom s 2)
  pure { r with stayTime := h * 60 + m }

/-- `ExtractedRouteSequence` (ExtractedRouteSequence.py:5-17). Representation choice: both lists are
stored *newest first*; `elements`/`errors` below give the order of the Python lists. -/
structure Ers (F : Type) where
  recs : List (Record F)
  errs : List (Record F)
  derived : Str
deriving DecidableEq, Repr

namespace Ers

/-- `get_all_elements` (ExtractedRouteSequence.py:122-127) -/
def elements (e : Ers F) : List (Record F) := e.recs.reverse

/-- `get_all_errors` (ExtractedRouteSequence.py:129-134) -/
def errors (e : Ers F) : List (Record F) := e.errs.reverse

/-- `get_number_of_elements` (ExtractedRouteSequence.py:173-178) -/
def numberOfElements (e : Ers F) : Nat := e.recs.length

/-- `get_number_of_errors` (ExtractedRouteSequence.py:180-186) -/
def numberOfErrors (e : Ers F) : Nat := e.errs.length

/-- `append_element` (ExtractedRouteSequence.py:69-76); the record returned is the last element. -/
def appendElement (e : Ers F) (r : Record F) : Ers F := { e with recs := r :: e.recs }

/-- `create_append_element` (ExtractedRouteSequence.py:105-120) -/
def createAppendElement (e : Ers F) (name : Str) (start stop : Nat) (base : BaseType) (sub : SubType) :
    Ers F := e.appendElement (Record.new name start stop base sub)

/-- `add_dummy_adep_ades` (ExtractedRouteSequence.py:30-37) -/
def addDummyAdepAdes (e : Ers F) (aero : Str) : Ers F :=
  e.createAppendElement aero 0 0 .POINT .PRP_AERO

/-- `add_dummy_ades` (ExtractedRouteSequence.py:39-45) -/
def addDummyAdes (e : Ers F) : Ers F := e.addDummyAdepAdes (py! "ADES")

/-- `ExtractedRouteSequence.__init__` (ExtractedRouteSequence.py:19-28) -/
def new : Ers F := ({ recs := [], errs := [], derived := [] } : Ers F).addDummyAdepAdes (py! "ADEP")

/-- `add_error` (ExtractedRouteSequence.py:48-67) -/
def addError (e : Ers F) (text : Str) (start stop : Nat) (base : BaseType) (sub : SubType)
    (message : Str) : Ers F :=
  let r : Record F := Record.new text start stop base sub
  { e with errs := r.appendErrorText (replaceBang message text) :: e.errs }

/-- `get_element_at` (ExtractedRouteSequence.py:144-152). The guard is `index > n`, so `index == n` falls
through to `self.extracted_route_records[index]`, which raises `IndexError`. -/
def getElementAt (e : Ers F) (index : Int) : Except PyErr (Option (Record F)) :=
  if index < 0 ∨ index > e.numberOfElements then .ok none
  else (pyGet e.elements index).map some

/-- `get_first_element` (ExtractedRouteSequence.py:155-160) -/
def getFirstElement (e : Ers F) : Except PyErr (Option (Record F)) := e.getElementAt 0

/-- `get_last_element` (ExtractedRouteSequence.py:162-171) -/
def getLastElement (e : Ers F) : Except PyErr (Option (Record F)) :=
  if e.numberOfElements > 0 then e.getElementAt (e.numberOfElements - 1) else .ok none

/-- `get_previous_to_last_element` (ExtractedRouteSequence.py:188-194) -/
def getPreviousToLastElement (e : Ers F) : Except PyErr (Option (Record F)) :=
  e.getElementAt ((e.numberOfElements : Int) - 2)

/-- `set_derived_flight_rules` (ExtractedRouteSequence.py:196-203) -/
def setDerived (e : Ers F) (s : Str) : Ers F := { e with derived := s }

end Ers
end F15
