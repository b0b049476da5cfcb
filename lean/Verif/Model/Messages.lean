import Verif.Model.Py
/-! Generated by tools/gen_table.py from the text of F15_Parser/ErrorMessageDefinitions.py. -/

namespace F15

/-- `ErrorMessages.error_messages` (ErrorMessageDefinitions.py:4-61). Note there is no key 51. -/
def errorMessages : List (Nat × Str) := [
  (0, py! "ERROR UNDEFINED"),
  (1, py! "The first Field 15 element must be a SPEED/LEVEL and not '!'"),
  (2, py! "A SPEED/LEVEL element cannot be followed by '!', (i.e. point or SID?)"),
  (3, py! "The element '!' is an unrecognised Field 15 element"),
  (4, py! "Element '!' is too long for a Field 15 Element"),
  (5, py! "Expecting '/' before '!'"),
  (6, py! "No VFR section preceding this '!' rule change indicator"),
  (7, py! "No OAT section preceding this '!' rule change indicator"),
  (8, py! "No IFPSTART preceding this '!' indicator"),
  (9, py! "Expecting 'C/POINT/' before '!'"),
  (10, py! "Expecting the keyword 'STAY' before '!'"),
  (11, py! "'/' not expected preceding '!'"),
  (12, py! "Expecting a PRP after an ATS route instead of '!'"),
  (13, py! "Rule change '!' cannot occur following an ATS route element"),
  (14, py! "Cannot go direct ('!') from an ATS route element, must be preceded by a point"),
  (15, py! "'!' must be preceded by a point"),
  (16, py! "'!' cannot follow a '/'"),
  (17, py! "Expecting SPEED/LEVEL, SPEED/VFR or cruise climb point name after '/' instead of '!'"),
  (18, py! "Expecting cruise climb point name before '!'"),
  (19, py! "Expecting end of field 15 after truncation indicator 'T' instead od '!'"),
  (20, py! "Field 15 is incomplete, expecting additional data after the final '!'"),
  (21, py! "A 'DCT' must be followed by a point instead of '!'"),
  (22, py! "Expecting '/SPEED/LEVEL' following '!' to complete rule change to IFR"),
  (23, py! "The first SPEED/LEVEL cannot be followed by the element '!'"),
  (24, py! "Expecting SID or DPF after first SPEED/LEVEL element instead of '!'"),
  (25, py! "Field 15 cannot end with the '!' element"),
  (26, py! "Expecting '/' after cruise / climb 'C/POINT' instead of '!'"),
  (27, py! "Expecting point / speed / altitude / altitude after start of Cruise/Climb indicator 'C/!'"),
  (28, py! "Expecting speed / altitude / altitude after start of Cruise/Climb indicator 'C/!/'"),
  (29, py! "Expecting Cruise/Climb 'SPEED/ALTITUDE/ALTITUDE' or 'SPEED/ALTITUDE/PLUS' instead of '!'"),
  (30, py! "SID '!' must follow the first SPEED/ALTITUDE and cannot appear anywhere else in field 15"),
  (31, py! "The SID must be followed by a point or STAR, cannot be followed with '!'"),
  (32, py! "The SID cannot be followed by another SID '!'"),
  (33, py! "A SID or STAR ('!') must be the first or last tokens in a field 15"),
  (34, py! "A STAR must be the last element in field 15 and cannot be followed with '!'"),
  (35, py! "Expecting STAY time as '/HHMM' after '!'"),
  (36, py! "Expecting forward slash '/' after STAY instead of '!'"),
  (37, py! "Time value as HHMM token missing after '!'"),
  (38, py! "Expecting HHMM token following STAYx/ element"),
  (39, py! "'!' Cannot follow a STAY/HHMM' element"),
  (40, py! "The flight level '!' must end in a zero or 5"),
  (41, py! "Field 15 is empty"),
  (42, py! "Latitude degree value must be 0 to 90 instead of '!'"),
  (43, py! "Latitude degree/minute value must be 0 to 9000 with minutes < 60 instead of '!'"),
  (44, py! "Longitude degree value must be 0 to 180 instead of '!'"),
  (45, py! "Longitude degree/minute value must be 0 to 18000 with minutes < 60 instead of '!'"),
  (46, py! "Bearing degree value must be 0 to 360 instead of '!'"),
  (47, py! "ATS route '!' cannot follow a Lat/Long point"),
  (48, py! "Lat/Long '!' cannot follow an ATS route"),
  (49, py! "Field 15 contains no route description"),
  (50, py! "Expecting SPEED/LEVEL or SPEED/VFR after '/' instead of '!'"),
  (52, py! "Expecting point / speed / altitude / altitude after start of Cruise/Climb indicator 'C!'"),
  (53, py! "Add crossing point between previous ATS route and '!'"),
  (54, py! "Add APF between previous ATS route and STAR '!'"),
  (55, py! "The SPEED/LEVEL '!' cannot follow an ATS route"),
  (56, py! "")
]

/-- `ErrorMessages.error_messages[n]`; `none` stands for `KeyError`. -/
def errorMessage (n : Nat) : Option Str := errorMessages.lookup n

end F15
