import Verif.Model.Py
/-!
# What the error messages say

The wording of the messages, with the word complained of in its place. (The truth of what they say is spelt out in Spec/Due.lean.)
-/

namespace F15.Spec

/-- The word `w` between two texts. -/
def around (before w after : Str) : Str := before ++ (w ++ after)

/-- What message `n` says about the word `w`. -/
def says (n : Nat) (w : Str) : Str :=
  match n with
  | 0 => py! "ERROR UNDEFINED"
  | 1 => around (py! "The first Field 15 element must be a SPEED/LEVEL and not '") w (py! "'")
  | 2 => around (py! "A SPEED/LEVEL element cannot be followed by '") w (py! "', (i.e. point or SID?)")
  | 3 => around (py! "The element '") w (py! "' is an unrecognised Field 15 element")
  | 4 => around (py! "Element '") w (py! "' is too long for a Field 15 Element")
  | 5 => around (py! "Expecting '/' before '") w (py! "'")
  | 6 => around (py! "No VFR section preceding this '") w (py! "' rule change indicator")
  | 7 => around (py! "No OAT section preceding this '") w (py! "' rule change indicator")
  | 8 => around (py! "No IFPSTART preceding this '") w (py! "' indicator")
  | 9 => around (py! "Expecting 'C/POINT/' before '") w (py! "'")
  | 10 => around (py! "Expecting the keyword 'STAY' before '") w (py! "'")
  | 11 => around (py! "'/' not expected preceding '") w (py! "'")
  | 12 => around (py! "Expecting a PRP after an ATS route instead of '") w (py! "'")
  | 13 => around (py! "Rule change '") w (py! "' cannot occur following an ATS route element")
  | 14 => around (py! "Cannot go direct ('") w (py! "') from an ATS route element, must be preceded by a point")
  | 15 => around (py! "'") w (py! "' must be preceded by a point")
  | 16 => around (py! "'") w (py! "' cannot follow a '/'")
  | 17 => around (py! "Expecting SPEED/LEVEL, SPEED/VFR or cruise climb point name after '/' instead of '") w (py! "'")
  | 18 => around (py! "Expecting cruise climb point name before '") w (py! "'")
  | 19 => around (py! "Expecting end of field 15 after truncation indicator 'T' instead od '") w (py! "'")
  | 20 => around (py! "Field 15 is incomplete, expecting additional data after the final '") w (py! "'")
  | 21 => around (py! "A 'DCT' must be followed by a point instead of '") w (py! "'")
  | 22 => around (py! "Expecting '/SPEED/LEVEL' following '") w (py! "' to complete rule change to IFR")
  | 23 => around (py! "The first SPEED/LEVEL cannot be followed by the element '") w (py! "'")
  | 24 => around (py! "Expecting SID or DPF after first SPEED/LEVEL element instead of '") w (py! "'")
  | 25 => around (py! "Field 15 cannot end with the '") w (py! "' element")
  | 26 => around (py! "Expecting '/' after cruise / climb 'C/POINT' instead of '") w (py! "'")
  | 27 => around (py! "Expecting point / speed / altitude / altitude after start of Cruise/Climb indicator 'C/") w (py! "'")
  | 28 => around (py! "Expecting speed / altitude / altitude after start of Cruise/Climb indicator 'C/") w (py! "/'")
  | 29 => around (py! "Expecting Cruise/Climb 'SPEED/ALTITUDE/ALTITUDE' or 'SPEED/ALTITUDE/PLUS' instead of '") w (py! "'")
  | 30 => around (py! "SID '") w (py! "' must follow the first SPEED/ALTITUDE and cannot appear anywhere else in field 15")
  | 31 => around (py! "The SID must be followed by a point or STAR, cannot be followed with '") w (py! "'")
  | 32 => around (py! "The SID cannot be followed by another SID '") w (py! "'")
  | 33 => around (py! "A SID or STAR ('") w (py! "') must be the first or last tokens in a field 15")
  | 34 => around (py! "A STAR must be the last element in field 15 and cannot be followed with '") w (py! "'")
  | 35 => around (py! "Expecting STAY time as '/HHMM' after '") w (py! "'")
  | 36 => around (py! "Expecting forward slash '/' after STAY instead of '") w (py! "'")
  | 37 => around (py! "Time value as HHMM token missing after '") w (py! "'")
  | 38 => py! "Expecting HHMM token following STAYx/ element"
  | 39 => around (py! "'") w (py! "' Cannot follow a STAY/HHMM' element")
  | 40 => around (py! "The flight level '") w (py! "' must end in a zero or 5")
  | 41 => py! "Field 15 is empty"
  | 42 => around (py! "Latitude degree value must be 0 to 90 instead of '") w (py! "'")
  | 43 => around (py! "Latitude degree/minute value must be 0 to 9000 with minutes < 60 instead of '") w (py! "'")
  | 44 => around (py! "Longitude degree value must be 0 to 180 instead of '") w (py! "'")
  | 45 => around (py! "Longitude degree/minute value must be 0 to 18000 with minutes < 60 instead of '") w (py! "'")
  | 46 => around (py! "Bearing degree value must be 0 to 360 instead of '") w (py! "'")
  | 47 => around (py! "ATS route '") w (py! "' cannot follow a Lat/Long point")
  | 48 => around (py! "Lat/Long '") w (py! "' cannot follow an ATS route")
  | 49 => py! "Field 15 contains no route description"
  | 50 => around (py! "Expecting SPEED/LEVEL or SPEED/VFR after '/' instead of '") w (py! "'")
  | 52 => around (py! "Expecting point / speed / altitude / altitude after start of Cruise/Climb indicator 'C") w (py! "'")
  | 53 => around (py! "Add crossing point between previous ATS route and '") w (py! "'")
  | 54 => around (py! "Add APF between previous ATS route and STAR '") w (py! "'")
  | 55 => around (py! "The SPEED/LEVEL '") w (py! "' cannot follow an ATS route")
  | 56 => py! ""
  | _ => []

/-- The messages that are ever used of a word. (41 is used of an empty field 15.) -/
def reportable : List Nat := [1, 3, 4, 5, 6, 7, 8, 9, 10, 11, 12, 13, 14, 15, 16, 19, 20, 21, 22, 23, 24, 25, 26, 27, 28, 29, 30, 31, 32, 34, 35, 36,
  37, 38, 39, 40, 42, 43, 44, 45, 46, 47, 48, 49, 50, 52, 53, 54, 55]

end F15.Spec
