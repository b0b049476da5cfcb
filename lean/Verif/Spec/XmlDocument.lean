import Verif.Spec.Xml
import Verif.Model.Xml
/-!
# The document of an extracted route sequence
-/

namespace F15.Spec
variable {F : Type} [PyFloat F]

/-- A text that can be written into an XML document as it is: no `<`, `>`, `&`, `"`, no line ends and tabs, and no character that is
not allowed in XML. -/
def Plain (s : Str) : Prop := ∀ c ∈ s, xmlChar c = true ∧ c ≠ '<' ∧ c ≠ '>' ∧ c ≠ '&' ∧ c ≠ '"' ∧ c ≠ '\t' ∧ c ≠ '\n'

/-- The attributes of a record. -/
def recordAttrs (str : EnumStr) (error : Bool) (r : Record F) : List (Str × Str) :=
  [(py! "start_index", strNat r.start), (py! "end_index", strNat r.stop), (py! "base_type", str.base r.base), (py! "sub_type", str.sub r.sub),
   (py! "speed", r.speed), (py! "speed_si", PyFloat.fmt2 (PyFloat.ofInt r.speedSi : F)),
   (py! "altitude", r.altitude), (py! "altitude_si", PyFloat.fmt2 (PyFloat.ofInt r.altitudeSi : F)),
   (py! "bearing", PyFloat.fmt2 r.bearing), (py! "distance", PyFloat.fmt2 r.distance), (py! "flight_rules", r.rules),
   (py! "stay_time", strInt r.stayTime), (py! "altitude_cruise_to", r.cruiseTo),
   (py! "altitude_cruise_to_si", PyFloat.fmt2 (PyFloat.ofInt r.cruiseToSi : F)), (py! "latitude", PyFloat.fmt2 r.latitude),
   (py! "longitude", PyFloat.fmt2 r.longitude), if error then (py! "error_text", r.errorText) else (py! "break_text", r.breakText)]

/-- The element of a record: its attributes, and its name as character data. -/
def recordNode (str : EnumStr) (error : Bool) (r : Record F) : Node :=
  .elem (if error then py! "error_record" else py! "ers_record") (recordAttrs str error r) (textNode r.name)

/-- The tree `n` is that of the extracted route sequence: the derived flight rules, a record for every element, and, if there are errors,
a record for every error, in their order. Character data between these elements is ignored. -/
def IsDocument (str : EnumStr) (e : Ers F) (n : Node) : Prop :=
  ∃ kids, n = .elem (py! "ers") [] kids ∧
    ((e.errors = [] ∧ elems kids = .elem (py! "derived_flight_rules") [] (textNode e.derived) :: e.elements.map (recordNode str false)) ∨
     (e.errors ≠ [] ∧ ∃ errs, elems errs = e.errors.map (recordNode str true) ∧
      elems kids = .elem (py! "derived_flight_rules") [] (textNode e.derived) :: e.elements.map (recordNode str false) ++
        [.elem (py! "ers_errors") [] errs]))

/-- All texts of a record are plain. -/
def PlainRecord (r : Record F) : Prop :=
  Plain r.name ∧ Plain r.speed ∧ Plain r.altitude ∧ Plain r.rules ∧ Plain r.cruiseTo ∧ Plain r.breakText ∧ Plain r.errorText

/-- Numbers and the names of types are written with plain texts. -/
def PlainFormats (F : Type) [PyFloat F] (str : EnumStr) : Prop :=
  (∀ x : F, Plain (PyFloat.fmt2 x)) ∧ (∀ b, Plain (str.base b)) ∧ (∀ s, Plain (str.sub s))

/-- Two records that agree in everything that is printed. The numbers are compared as they are printed, with two decimals. -/
structure SamePrinted (r q : Record F) : Prop where
  name : r.name = q.name
  start : r.start = q.start
  stop : r.stop = q.stop
  base : r.base = q.base
  sub : r.sub = q.sub
  speed : r.speed = q.speed
  altitude : r.altitude = q.altitude
  cruiseTo : r.cruiseTo = q.cruiseTo
  rules : r.rules = q.rules
  stayTime : r.stayTime = q.stayTime
  speedSi : PyFloat.fmt2 (PyFloat.ofInt r.speedSi : F) = PyFloat.fmt2 (PyFloat.ofInt q.speedSi : F)
  altitudeSi : PyFloat.fmt2 (PyFloat.ofInt r.altitudeSi : F) = PyFloat.fmt2 (PyFloat.ofInt q.altitudeSi : F)
  cruiseToSi : PyFloat.fmt2 (PyFloat.ofInt r.cruiseToSi : F) = PyFloat.fmt2 (PyFloat.ofInt q.cruiseToSi : F)
  latitude : PyFloat.fmt2 r.latitude = PyFloat.fmt2 q.latitude
  longitude : PyFloat.fmt2 r.longitude = PyFloat.fmt2 q.longitude
  bearing : PyFloat.fmt2 r.bearing = PyFloat.fmt2 q.bearing
  distance : PyFloat.fmt2 r.distance = PyFloat.fmt2 q.distance

/-- The texts of different types differ. -/
def DistinctNames (str : EnumStr) : Prop :=
  (∀ a b, str.base a = str.base b → a = b) ∧ (∀ a b, str.sub a = str.sub b → a = b)

end F15.Spec
