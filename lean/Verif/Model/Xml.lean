import Verif.Model.Ers
/-!
# XML output
-/

namespace F15

/-- `str` of the members of `TokenBaseType` and `TokenSubType`. These are `IntEnum`s, whose `str` is `TokenBaseType.F15_POINT` up to
Python 3.10 and the number from Python 3.11 on; the model does not choose. -/
structure EnumStr where
  base : BaseType → Str
  sub : SubType → Str

/-- Python `str(n)` for an integer. -/
def strInt (n : Int) : Str := if n < 0 then '-' :: strNat (-n).toNat else strNat n.toNat

variable {F : Type} [PyFloat F]

/-- `ExtractedRouteRecord.as_xml` (ExtractedRouteRecord.py:534-570). The format `{0:>.2f}` of a float is that of `{0:.2f}`: there is
no width to align in. The integer SI values are formatted as floats, as Python does for the format type `f`. -/
def Record.asXml (str : EnumStr) (r : Record F) (error : Bool) : Str :=
  let errorOrBreak := if error then r.errorText else r.breakText
  let recType := if error then py! "error_record" else py! "ers_record"
  let attrName := if error then py! "error_text" else py! "break_text"
  py! "   <" ++ recType ++
    py! " start_index=\"" ++ strNat r.start ++ py! "\"" ++
    py! " end_index=\"" ++ strNat r.stop ++ py! "\"" ++
    py! " base_type=\"" ++ str.base r.base ++ py! "\"" ++
    py! " sub_type=\"" ++ str.sub r.sub ++ py! "\"" ++
    py! " speed=\"" ++ r.speed ++ py! "\"" ++
    py! " speed_si=\"" ++ PyFloat.fmt2 (PyFloat.ofInt r.speedSi : F) ++ py! "\"" ++
    py! " altitude=\"" ++ r.altitude ++ py! "\"" ++
    py! " altitude_si=\"" ++ PyFloat.fmt2 (PyFloat.ofInt r.altitudeSi : F) ++ py! "\"" ++
    py! " bearing=\"" ++ PyFloat.fmt2 r.bearing ++ py! "\"" ++
    py! " distance=\"" ++ PyFloat.fmt2 r.distance ++ py! "\"" ++
    py! " flight_rules=\"" ++ r.rules ++ py! "\"" ++
    py! " stay_time=\"" ++ strInt r.stayTime ++ py! "\"" ++
    py! " altitude_cruise_to=\"" ++ r.cruiseTo ++ py! "\"" ++
    py! " altitude_cruise_to_si=\"" ++ PyFloat.fmt2 (PyFloat.ofInt r.cruiseToSi : F) ++ py! "\"" ++
    py! " latitude=\"" ++ PyFloat.fmt2 r.latitude ++ py! "\"" ++
    py! " longitude=\"" ++ PyFloat.fmt2 r.longitude ++ py! "\"" ++
    py! " " ++ attrName ++ py! "=\"" ++ errorOrBreak ++ py! "\"" ++
    py! ">" ++ r.name ++ py! "</" ++ recType ++ py! ">"

/-- `ExtractedRouteSequence.as_xml` (ExtractedRouteSequence.py:78-103). -/
def Ers.asXml (str : EnumStr) (e : Ers F) : Str :=
  let xml := py! "   <ers>\n"
  let xml := xml ++ py! "      <derived_flight_rules>" ++ e.derived ++ py! "</derived_flight_rules>\n"
  let xml := e.elements.foldl (fun xml item => xml ++ py! "   " ++ item.asXml str false ++ py! "\n") xml
  let xml :=
    if e.numberOfErrors > 0 then
      let xml := xml ++ py! "   <ers_errors>\n"
      let xml := e.errors.foldl (fun xml item => xml ++ py! "      " ++ item.asXml str true ++ py! "\n") xml
      xml ++ py! "   </ers_errors>\n"
    else xml
  xml ++ py! "   </ers>"

end F15
