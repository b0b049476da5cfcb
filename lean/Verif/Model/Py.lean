/-!
# Python primitives used by the code under study

Everything in this file models the *language* (Python 3.10), not the repository: strings, slices,
`int()`, `str.replace`, exceptions and an abstract `float`.
-/

namespace F15

/-- Python `str`: a sequence of code points. (Lone surrogates, which Python allows, are not `Char`s;
the code never inspects them.) -/
abbrev Str := List Char

open Lean in
/-- `py! "VFR"` is the list of characters `['V', 'F', 'R']`; a notation for Python string literals. -/
macro "py! " s:str : term => do
  let cs : Array Term := (s.getString.toList.toArray.map fun c => (Lean.quote (k := `term) c))
  `(([$cs,*] : List Char))

/-- Python exceptions that the modelled code can raise. -/
inductive PyErr
  /-- `int("S1130")` -/
  | valueError
  /-- missing dictionary key, e.g. in `ErrorMessages.error_messages` or `ParseF15.RULES` -/
  | keyError
  /-- list index out of range -/
  | indexError
  /-- attribute access on `None` -/
  | attributeError
  /-- interpreter stack exhausted -/
  | recursionError
deriving DecidableEq, Repr

/-- Python's clamping of a slice bound `i` for a sequence of length `n`. -/
def pyIdx (n : Nat) (i : Int) : Nat :=
  if i < 0 then (i + n).toNat else min i.toNat n

/-- Python slice `s[i:j]`. -/
def slice {α : Type} (s : List α) (i j : Int) : List α :=
  (s.take (pyIdx s.length j)).drop (pyIdx s.length i)

/-- Python slice `s[i:]`. -/
def sliceFrom {α : Type} (s : List α) (i : Int) : List α :=
  s.drop (pyIdx s.length i)

/-- Python slice `s[:j]`. -/
def sliceTo {α : Type} (s : List α) (j : Int) : List α :=
  s.take (pyIdx s.length j)

/-- ASCII digit test. -/
def isDig (c : Char) : Bool := '0' ≤ c && c ≤ '9'

/-- The numeric value of an ASCII digit. -/
def digVal (c : Char) : Nat := c.toNat - 48

/-- Digit loop of Python's `int(str)`: decimal digits with single underscores between digits.
`prev` tells whether the previous character was a digit. -/
def digitsAux (acc : Nat) (prev : Bool) : Str → Option Nat
  | [] => if prev then some acc else none
  | c :: r =>
    if isDig c then digitsAux (acc * 10 + digVal c) true r
    else if c = '_' && prev then digitsAux acc false r
    else none

/-- White space stripped by `int()` (ASCII subset of Python's `str.isspace`). -/
def isSpace (c : Char) : Bool :=
  c = ' ' || c = '\t' || c = '\n' || c = '\r' || c = '\x0b' || c = '\x0c'

/-- `s.strip()` -/
def strip (s : Str) : Str := ((s.dropWhile isSpace).reverse.dropWhile isSpace).reverse

/-- Python's `int(s)` for a string argument: optional surrounding white space, optional sign, decimal
digits with single underscores. Simplification: non-ASCII decimal digits, which Python also accepts,
raise `ValueError` here; the parser only ever passes slices of tokens that matched an ASCII pattern. -/
def pyInt (s : Str) : Except PyErr Int :=
  match strip s with
  | '-' :: r => match digitsAux 0 false r with
    | some n => .ok (-(n : Int))
    | none => .error .valueError
  | '+' :: r => match digitsAux 0 false r with
    | some n => .ok n
    | none => .error .valueError
  | r => match digitsAux 0 false r with
    | some n => .ok n
    | none => .error .valueError

/-- `s.replace("!", t)` for the one-character pattern `!`: every `!` of `s` is replaced by `t`, the
replacement text is not scanned again. -/
def replaceBang (s t : Str) : Str := s.flatMap fun c => if c = '!' then t else [c]

/-- Python `l[i]` for a list: a negative index counts from the end, an index out of range raises `IndexError`. -/
def pyGet {α : Type} (l : List α) (i : Int) : Except PyErr α :=
  let j := if i < 0 then i + l.length else i
  if j < 0 then .error .indexError
  else match l[j.toNat]? with
    | some x => .ok x
    | none => .error .indexError

/-- Decimal digits of a natural number, least significant first (helper of `strNat`). -/
def digitsRev : Nat → Nat → Str
  | 0, _ => []
  | fuel + 1, n =>
    if n < 10 then [Char.ofNat (48 + n)]
    else Char.ofNat (48 + n % 10) :: digitsRev fuel (n / 10)

/-- Python `str(n)` for a non-negative integer. -/
def strNat (n : Nat) : Str := (digitsRev (n + 1) n).reverse

/-- Python floats and the operations on them used by the code. *No law is assumed*: an instance may be
IEEE double arithmetic together with geographiclib's WGS84 geodesics, or exact rationals. All
operations are total: the model does not represent a `ValueError`/`OverflowError` of `int(nan)` /
`int(inf)` nor an exception inside geographiclib. -/
class PyFloat (F : Type) where
  /-- the decimal literal `m * 10^(-e)`, e.g. `0.3048 = dec 3048 4` -/
  dec : Int → Nat → F
  /-- int → float conversion (implicit in mixed arithmetic, explicit in `float("12")`) -/
  ofInt : Int → F
  add : F → F → F
  sub : F → F → F
  mul : F → F → F
  div : F → F → F
  abs : F → F
  /-- `math.sqrt` -/
  sqrt : F → F
  /-- `int(x)`: truncation towards zero -/
  toInt : F → Int
  /-- `"{0:.2f}".format(x)` -/
  fmt2 : F → Str
  /-- `Geodesic.WGS84.Direct(lat, lon, azi, dist)` → `(lat2, lon2)` -/
  direct : F → F → F → F → F × F
  /-- `Geodesic.WGS84.Inverse(lat1, lon1, lat2, lon2)` → `(azi1, s12)` -/
  inverse : F → F → F → F → F × F

/-- `float(s)` for a string of decimal digits. Simplification: other float syntax (`1e5`, `nan`, …) is
not accepted; the parser only passes digit slices of lat/long tokens. -/
def pyFloat {F : Type} [PyFloat F] (s : Str) : Except PyErr F :=
  match pyInt s with
  | .ok n => .ok (PyFloat.ofInt n)
  | .error e => .error e

end F15
