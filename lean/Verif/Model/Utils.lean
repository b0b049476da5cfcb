import Verif.Model.Py
/-!
# `Utilities/Constants.py` and `Utilities/Utils.py`

Floats are an abstract type `F` (class `PyFloat`); the operations are applied in the order of the
Python source.
-/

namespace F15

variable {F : Type} [PyFloat F]

namespace Constants

/-- `CONSTANT_TEMP_ALTITUDE = 11000` (Constants.py:4) -/
def constantTempAltitude : Int := 11000
/-- `KELVIN_ZERO = -273.15` (Constants.py:8) -/
def kelvinZero : F := PyFloat.dec (-27315) 2
/-- `ISA_TEMP = 15.0` (Constants.py:11) -/
def isaTemp : F := PyFloat.dec 150 1
/-- `TEMP_LAPSE_RATE_METER = -0.00645` (Constants.py:15) -/
def tempLapseRateMeter : F := PyFloat.dec (-645) 5
/-- `FEET_TO_METERS = 0.3048` (Constants.py:23) -/
def feetToMeters : F := PyFloat.dec 3048 4
/-- `KNOTS_TO_METERS_SECOND = 0.514444` (Constants.py:26) -/
def knotsToMetersSecond : F := PyFloat.dec 514444 6
/-- `KMH_TO_METERS_SECOND = 0.2777778` (Constants.py:29) -/
def kmhToMetersSecond : F := PyFloat.dec 2777778 7
/-- `MACH_TO_METERS_SECOND = 343.0` (Constants.py:32) -/
def machToMetersSecond : F := PyFloat.dec 3430 1
/-- `NM_TO_METERS = 1852` (Constants.py:35) -/
def nmToMeters : Int := 1852

end Constants

namespace Utils

/-- `is_degree_semantics` (Utils.py:14-22) -/
def isDegreeSemantics (degrees : Str) (maxDegrees : Int) : Except PyErr Bool := do
  let d ← pyInt degrees
  pure (decide (d ≤ maxDegrees))

/-- `is_degree_minute_semantics` (Utils.py:25-46) -/
def isDegreeMinuteSemantics (dm : Str) (maxDegrees split : Int) : Except PyErr Bool := do
  let d ← pyInt (slice dm 0 split)
  if d > maxDegrees then pure false
  else
    let m ← pyInt (sliceFrom dm split)
    if m > 59 then pure false
    else
      let t ← pyInt dm
      if t > maxDegrees * 100 then pure false else pure true

/-- `speed_of_sound_at_altitude` (Utils.py:49-66). The argument is the integer stored in
`altitude_si` of a record. -/
def speedOfSoundAtAltitude (altitude : Int) : F :=
  let altitudeTemp : F :=
    if altitude > Constants.constantTempAltitude then
      PyFloat.add Constants.isaTemp
        (PyFloat.mul (PyFloat.ofInt Constants.constantTempAltitude) Constants.tempLapseRateMeter)
    else
      PyFloat.add Constants.isaTemp (PyFloat.mul (PyFloat.ofInt altitude) Constants.tempLapseRateMeter)
  let speedOfSound : F :=
    PyFloat.div (PyFloat.sub altitudeTemp Constants.kelvinZero) (PyFloat.abs Constants.kelvinZero)
  PyFloat.mul (PyFloat.dec 33115 2) (PyFloat.sqrt speedOfSound)

/-- `mach_to_ms_speed` (Utils.py:69-87) -/
def machToMsSpeed (machNumber altitudeSi : Int) : F :=
  if altitudeSi = 0 then
    PyFloat.mul (PyFloat.div (PyFloat.ofInt machNumber) (PyFloat.ofInt 100)) Constants.machToMetersSecond
  else
    PyFloat.mul (PyFloat.div (PyFloat.ofInt machNumber) (PyFloat.ofInt 100))
      (speedOfSoundAtAltitude altitudeSi)

/-- `get_bearing_distance_projected_point` (Utils.py:89-107) -/
def getBearingDistanceProjectedPoint (lat lon bearing distance : F) : F × F :=
  PyFloat.direct lat lon bearing distance

/-- `get_bearing_distance_between_points` (Utils.py:109-123) -/
def getBearingDistanceBetweenPoints (lat1 lon1 lat2 lon2 : F) : F × F :=
  PyFloat.inverse lat1 lon1 lat2 lon2

end Utils
end F15
