import Verif.Model.Ers
/-!
# Reading a printed table
-/

namespace F15.Spec

/-- The lines of a text. -/
def lines : Str → List Str
  | [] => [[]]
  | c :: s => if c = '\n' then [] :: lines s else
    match lines s with
    | [] => [[c]]
    | l :: ls => (c :: l) :: ls

/-- Without blanks at both ends. -/
def trim (s : Str) : Str := ((s.dropWhile (· = ' ')).reverse.dropWhile (· = ' ')).reverse

/-- Cut a line into columns of the given widths; what remains is the last column. -/
def columns : List Nat → Str → List Str
  | [], s => [s]
  | w :: ws, s => s.take w :: columns ws (s.drop w)

/-- The text has no blank at its ends and fits into the width. -/
def FitsIn (w : Nat) (s : Str) : Prop := s.length ≤ w ∧ trim s = s

/-- The widths of the columns before the text column of the printed route sequence. -/
def recordWidths : List Nat := [17, 6, 6, 5, 5, 6, 6, 6, 6, 7, 11, 6, 5, 7, 7, 7, 8]

/-- The widths of the columns of the printed token list but the last. -/
def tokenWidths : List Nat := [9, 6, 5, 5]

/-- The number written by a text of digits. -/
def natVal (s : Str) : Option Nat :=
  if s ≠ [] ∧ ∀ c ∈ s, '0' ≤ c ∧ c ≤ '9' then some (s.foldl (fun a c => 10 * a + (c.toNat - 48)) 0) else none

/-- The integer written by a text: digits, possibly after a minus sign. -/
def intVal (s : Str) : Option Int :=
  if s.head? = some '-' then (natVal s.tail).map (fun n : Nat => -(n : Int)) else (natVal s).map (fun n : Nat => (n : Int))

variable {F : Type} [PyFloat F]

/-- `cells` (texts in the columns of a line, without the blanks around them) are those of the record `r`. The columns of the SI values show `0.0`
where there is no speed, no level, no level climbed to. -/
def ShowsRecord (r : Record F) (error : Bool) (cells : List Str) : Prop :=
  ∃ start stop base sub speedSi altSi stay toSi,
    cells = [r.name, start, stop, base, sub, r.speed, speedSi, r.altitude, altSi, PyFloat.fmt2 r.bearing, PyFloat.fmt2 r.distance, r.rules,
      stay, r.cruiseTo, toSi, PyFloat.fmt2 r.latitude, PyFloat.fmt2 r.longitude, if error then r.errorText else r.breakText] ∧
    intVal start = some r.start ∧ intVal stop = some r.stop ∧ intVal base = some r.base.ctorIdx ∧ intVal sub = some r.sub.ctorIdx ∧
    (if r.speed = [] then speedSi = py! "0.0" else intVal speedSi = some r.speedSi) ∧
    (if r.altitude = [] then altSi = py! "0.0" else intVal altSi = some r.altitudeSi) ∧
    intVal stay = some r.stayTime ∧
    (if r.cruiseTo = [] ∨ r.cruiseTo = py! "PLUS" then toSi = py! "0.0" else intVal toSi = some r.cruiseToSi)

/-- The fields of the record fit into their columns. -/
structure RecordFits (r : Record F) (error : Bool) : Prop where
  name : FitsIn 17 r.name
  start : r.start < 10 ^ 6
  stop : r.stop < 10 ^ 6
  speed : FitsIn 6 r.speed
  speedSi : -10 ^ 5 < r.speedSi ∧ r.speedSi < 10 ^ 6
  altitude : FitsIn 6 r.altitude
  altitudeSi : -10 ^ 5 < r.altitudeSi ∧ r.altitudeSi < 10 ^ 6
  bearing : FitsIn 7 (PyFloat.fmt2 r.bearing)
  distance : FitsIn 11 (PyFloat.fmt2 r.distance)
  rules : FitsIn 6 r.rules
  stay : -10 ^ 4 < r.stayTime ∧ r.stayTime < 10 ^ 5
  cruiseTo : FitsIn 7 r.cruiseTo
  cruiseToSi : -10 ^ 6 < r.cruiseToSi ∧ r.cruiseToSi < 10 ^ 7
  latitude : FitsIn 7 (PyFloat.fmt2 r.latitude)
  longitude : FitsIn 8 (PyFloat.fmt2 r.longitude)
  text : trim (if error then r.errorText else r.breakText) = if error then r.errorText else r.breakText

end F15.Spec
