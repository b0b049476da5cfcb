import Verif.Model.Xml
import Verif.Model.Token
import Verif.Model.Table
/-!
# Text output

`print` is modelled by the text it writes, including the line end.
-/

namespace F15

/-- Python `"{0:<w}".format(s)` for a string: padded with blanks on the right. -/
def alignLeft (w : Nat) (s : Str) : Str := s ++ List.replicate (w - s.length) ' '

/-- Python `"{0:>w}".format(x)`, `s` being the text of `x`: padded with blanks on the left. -/
def alignRight (w : Nat) (s : Str) : Str := List.replicate (w - s.length) ' ' ++ s

/-- `print(s)` -/
def printLine (s : Str) : Str := s ++ ['\n']

/-- The integer value of a `TokenBaseType` (F15TokenSyntaxDescriptions.py:5-29). With a format specification an `IntEnum` is
formatted as an integer in all Python versions. -/
def baseNumber (b : BaseType) : Nat := b.ctorIdx

/-- The integer value of a `TokenSubType` (F15TokenSyntaxDescriptions.py:32-143). -/
def subNumber (s : SubType) : Nat := s.ctorIdx

variable {F : Type} [PyFloat F]

/-- An SI value as text. The class default `0.0` prints as `0.0`, an assigned `int` as an integer (ExtractedRouteRecord.py:18-79, F15Parse.py:226-228,
452); it is assigned exactly when the text it belongs to is. -/
def siText (text : Str) (si : Int) : Str := if text = [] then py! "0.0" else strInt si

/-- `ExtractedRouteRecord.to_string` (ExtractedRouteRecord.py:502-532). -/
def Record.toText (r : Record F) (error : Bool) : Str :=
  let errorOrBreak := if error then r.errorText else r.breakText
  alignLeft 17 r.name ++
    alignRight 6 (strNat r.start) ++
    alignRight 6 (strNat r.stop) ++
    alignRight 5 (strNat (baseNumber r.base)) ++
    alignRight 5 (strNat (subNumber r.sub)) ++
    alignRight 6 r.speed ++
    alignRight 6 (siText r.speed r.speedSi) ++
    alignRight 6 r.altitude ++
    alignRight 6 (siText r.altitude r.altitudeSi) ++
    alignRight 7 (PyFloat.fmt2 r.bearing) ++
    alignRight 11 (PyFloat.fmt2 r.distance) ++
    alignRight 6 r.rules ++
    alignRight 5 (strInt r.stayTime) ++
    alignRight 7 r.cruiseTo ++
    alignRight 7 (siText (if r.cruiseTo = py! "PLUS" then [] else r.cruiseTo) r.cruiseToSi) ++
    alignRight 7 (PyFloat.fmt2 r.latitude) ++
    alignRight 8 (PyFloat.fmt2 r.longitude) ++
    ' ' :: alignLeft 91 errorOrBreak

/-- `ExtractedRouteRecord.unit_test_only` (ExtractedRouteRecord.py:488-500). -/
def Record.unitTestOnly (r : Record F) : Str :=
  let str := r.name ++ py! " " ++ r.rules ++ py! " " ++ r.speed ++ py! " " ++ r.altitude ++ py! " " ++ r.breakText ++ py! " " ++ r.errorText
  (str.reverse.dropWhile (· = ' ')).reverse

/-- `ExtractedRouteRecord.print_record` (ExtractedRouteRecord.py:478-486). -/
def Record.printRecord (r : Record F) (error : Bool) : Str := printLine (r.toText error)

/-- `ExtractedRouteSequence.__print_header_lines` (ExtractedRouteSequence.py:223-261). -/
def printHeaderLines (error : Bool) : Str :=
  let errorOrBreak := if error then py! "Error Text" else py! "Break Text"
  printLine (alignRight 23 (py! "Start") ++ alignRight 5 (py! "End") ++ alignRight 6 (py! "Base") ++ alignRight 5 (py! "Sub-") ++
    alignRight 11 (py! "SI") ++ alignRight 12 (py! "SI") ++ alignRight 30 (py! "Stay") ++ alignRight 7 (py! "Cruise") ++
    alignRight 7 (py! "Cruise")) ++
  printLine (alignLeft 9 (py! "Name") ++ alignRight 14 (py! "Index") ++ alignRight 6 (py! "Index") ++ alignRight 5 (py! "Type") ++
    alignRight 5 (py! "Type") ++ alignRight 6 (py! "Speed") ++ alignRight 6 (py! "Speed") ++ alignRight 6 (py! "Alt.") ++
    alignRight 6 (py! "Alt.") ++ alignRight 8 (py! "Bearing") ++ alignRight 10 (py! "Distance") ++ alignRight 6 (py! "Rules") ++
    alignRight 6 (py! "Time ") ++ alignRight 6 (py! "To") ++ alignRight 7 (py! "To SI") ++ alignRight 7 (py! "Lat.") ++
    alignRight 9 (py! "Long ") ++ alignLeft 15 errorOrBreak)

/-- `ExtractedRouteSequence.print_ers` (ExtractedRouteSequence.py:205-220). -/
def Ers.printErs (e : Ers F) : Str :=
  printLine (py! "Total Number of Extracted Route Records: " ++ strNat e.numberOfElements) ++
  printHeaderLines false ++
  e.elements.flatMap (·.printRecord false) ++
  printLine (py! "\nTotal Number of Errors: " ++ strNat e.numberOfErrors) ++
  (if e.numberOfErrors > 0 then printHeaderLines true ++ e.errors.flatMap (·.printRecord true) else [])

/-- `Token.print_token` (Token.py:135-144). -/
def Token.printToken (t : Token) : Str :=
  printLine (alignRight 9 t.text ++ alignRight 6 (strNat t.start) ++ alignRight 5 (strNat t.stop) ++
    alignRight 5 (strNat (baseNumber t.base)) ++ alignRight 5 (strNat (subNumber t.sub)))

/-- `Tokens.print_tokens` (Tokens.py:152-168). -/
def Tokens.printTokens (ts : Tokens) : Str :=
  printLine (py! "Total Number of Tokens: " ++ strNat ts.toks.length) ++
  printLine (alignRight 15 (py! "Start") ++ alignRight 5 (py! "End") ++ alignRight 6 (py! "Base") ++ alignRight 5 (py! "Sub-")) ++
  printLine (alignRight 9 (py! "Name") ++ alignRight 6 (py! "Index") ++ alignRight 6 (py! "Index") ++ alignRight 5 (py! "Type") ++
    alignRight 5 (py! "Type")) ++
  ts.toks.flatMap (·.printToken)

/-- `F15TokenSyntaxDefinition.print_description` (F15TokenSyntaxDescriptions.py:407-417). `str` of an enumeration member depends on the Python
version, see `EnumStr`. -/
def printDescription (str : EnumStr) (item : Row) : Str :=
  printLine (alignRight 40 item.pattern ++ ' ' ::
    (alignRight 40 (str.base item.base) ++ alignRight 4 (strNat (baseNumber item.base))) ++ ' ' ::
    (alignRight 40 (str.sub item.sub) ++ alignRight 4 (strNat (subNumber item.sub))))

/-- `F15TokenSyntaxDefinition.print_descriptions` (F15TokenSyntaxDescriptions.py:399-405). -/
def printDescriptions (str : EnumStr) : Str := table.flatMap (printDescription str)

end F15
