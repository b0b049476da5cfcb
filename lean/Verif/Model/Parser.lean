import Verif.Model.Classify
import Verif.Model.Ers
import Verif.Model.Utils
/-!
# `ParseF15` (F15Parse.py)

One definition per method, in source order of dependency. The state holds the extracted route
sequence and the token stream; exceptions are values. The recursive methods are written in
open-recursion style: they receive `call : Call → M σ F Unit` for the calls to other recursive
methods; `exec` ties the knot. Its argument is the number of interpreter stack frames still available
for methods of `ParseF15`; when none is left, Python raises `RecursionError`. (Frames of leaf helpers
such as `add_record` are not counted.)

The code is generic in the token stream `σ`; the program uses `Tokens` (list + integer cursor). A
second instance, the plain list of remaining tokens, is used in the proofs; `Lemmas/Sim.lean` proves
that both give the same results.
-/

namespace F15

/-- The two operations of `Tokens` used by the recursive methods. -/
class TokStream (σ : Type) where
  /-- `get_next_token()` -/
  next : σ → Except PyErr (Option Token) × σ
  /-- `peek_next_token(k)` -/
  peek : σ → Nat → Except PyErr (Option Token)

/-- The stream used by the program (Tokens.py:97-105, 117-124). -/
instance : TokStream Tokens where
  next := Tokens.getNextToken
  peek t k := t.peekNextToken k

/-- Parser state: the `ers` and `tokens` objects that every method receives. -/
structure St (σ F : Type) where
  ers : Ers F
  toks : σ

/-- Methods of `ParseF15`: state transformers that may raise. -/
abbrev M (σ F : Type) := StateT (St σ F) (Except PyErr)

/-- The mutually recursive methods with their arguments (`ers` and `tokens` are the state). -/
inductive Call
  | addErrorAndReSync (token : Token) (n : Nat)
  | assignSpeedAltitude (token : Token)
  | assignSpeedAltitudeAltitude (token : Token)
  | assignSpeedAltitudePlus (token : Token)
  | assignSpeedVfr (token : Token)
  | breakEnd (token : Token)
  | breakEndError (token : Token)
  | breakStart (token : Token)
  | breakTextSave (token : Token)
  | cruiseClimbC (token : Token)
  | cruiseClimbPoint (token : Token)
  | dct (token : Token)
  | forwardSlash (token : Token)
  | postAdep (token : Token)
  | postPoint (token : Token)
  | postSid
  | point (token : Token)
  | reSync
  | route (token : Token)
  | sid (token : Token)
  | sidStar (token : Token)
  | star (token : Token)
  | stay (token : Token)
  | stayTime (token : Token)
  | truncate
  | vToI
  | vToIToV
deriving DecidableEq, Repr

section
variable {σ F : Type} [TokStream σ] [PyFloat F]

/-! ### Primitive effects -/

/-- `tokens.get_next_token()` -/
def nextToken : M σ F (Option Token) := fun s =>
  let r := TokStream.next s.toks
  match r.1 with
  | .ok a => .ok (a, { s with toks := r.2 })
  | .error e => .error e

/-- `tokens.peek_next_token(k)` -/
def peekToken (k : Nat) : M σ F (Option Token) := fun s =>
  match TokStream.peek s.toks k with
  | .ok a => .ok (a, s)
  | .error e => .error e

/-- `ers.get_last_element()`; `none` stands for `None`. -/
def lastElement : M σ F (Option (Record F)) := fun s =>
  match s.ers.getLastElement with
  | .ok a => .ok (a, s)
  | .error e => .error e

/-- `ers.get_number_of_elements()` -/
def numElements : M σ F Nat := fun s => .ok (s.ers.recs.length, s)

/-- Update the last element of the ERS in place (the Python code mutates the object returned by
`get_last_element()` or `add_record()`); `AttributeError` if there is none. -/
def modLast (f : Record F → Record F) : M σ F Unit := fun s =>
  match s.ers.recs with
  | r :: rs => .ok ((), { s with ers := { s.ers with recs := f r :: rs } })
  | [] => .error .attributeError

/-- Update the last but one element in place. -/
def modPrev (f : Record F → Record F) : M σ F Unit := fun s =>
  match s.ers.recs with
  | r :: q :: rs => .ok ((), { s with ers := { s.ers with recs := r :: f q :: rs } })
  | _ => .error .attributeError

/-- Read the last element; `AttributeError` if there is none. -/
def getLast : M σ F (Record F) := fun s =>
  match s.ers.recs with
  | r :: _ => .ok (r, s)
  | [] => .error .attributeError

/-- Run a pure computation that may raise. -/
def liftE {α : Type} (x : Except PyErr α) : M σ F α := fun s =>
  match x with
  | .ok a => .ok (a, s)
  | .error e => .error e

/-- `if c: m` -/
def whenM (c : Bool) (m : M σ F Unit) : M σ F Unit := if c then m else pure ()

/-- `ParseF15.DEFAULT_ALTITUDE` (F15Parse.py:41) -/
def defaultAltitude : Str := py! "F050"

/-- `ParseF15.RULES` (F15Parse.py:45); a missing key raises `KeyError`. -/
def rulesOf (k : Str) : Except PyErr Str :=
  if k = py! "I" then .ok (py! "IFR")
  else if k = py! "V" then .ok (py! "VFR")
  else if k = py! "O" then .ok (py! "OAT")
  else if k = py! "S" then .ok (py! "IFPS")
  else .error .keyError

/-- `RULES["I"]` -/
abbrev ruleI : Str := py! "IFR"
/-- `RULES["V"]` -/
abbrev ruleV : Str := py! "VFR"
/-- `RULES["O"]` -/
abbrev ruleO : Str := py! "OAT"
/-- `RULES["S"]` -/
abbrev ruleS : Str := py! "IFPS"

/-- `set_flight_rules` (ExtractedRouteRecord.py) on a record. -/
def Record.setRules (r : Record F) (x : Str) : Record F := { r with rules := x }

/-- `add_error_no_re_sync` (F15Parse.py:148-164) -/
def addErrorNoReSync (token : Token) (n : Nat) : M σ F Unit := fun s =>
  match errorMessage n with
  | some m => .ok ((), { s with
      ers := s.ers.addError token.text token.start token.stop token.base token.sub m })
  | none => .error .keyError

/-- The record update of `carry_speed_altitude_rules_forward` (F15Parse.py:871-887). -/
def carry (previous current : Record F) : Record F :=
  { current with altitude := previous.altitude, altitudeSi := previous.altitudeSi,
                 speed := previous.speed, speedSi := previous.speedSi, rules := previous.rules }

/-- `add_record` (F15Parse.py:166-182) including `carry_speed_altitude_rules_forward` (871-887):
`AttributeError` when the ERS was empty (the previous record is `None`). -/
def addRecord (token : Token) : M σ F Unit := fun s =>
  match s.ers.recs with
  | prev :: rs =>
    let r : Record F := Record.new token.text token.start token.stop token.base token.sub
    .ok ((), { s with ers := { s.ers with recs := carry prev r :: prev :: rs } })
  | [] => .error .attributeError

/-! ### Level and speed -/

/-- The conversion at the end of `assign_altitude` (F15Parse.py:209-228): metres, rounded. -/
def altitudeToSi (type : Str) (altitude : Int) : Int :=
  let half : F := PyFloat.dec 5 1
  if type = py! "A" ∨ type = py! "F" then
    PyFloat.toInt (PyFloat.add (PyFloat.mul (PyFloat.ofInt (altitude * 100)) Constants.feetToMeters) half)
  else if type = py! "S" ∨ type = py! "M" then
    PyFloat.toInt (PyFloat.add (PyFloat.ofInt (altitude * 10)) half)
  else
    PyFloat.toInt (PyFloat.add (PyFloat.ofInt altitude) half)

/-- `assign_altitude` (F15Parse.py:184-228); `ex_route_rec` is always the last element. -/
def assignAltitude (token : Token) (altitudeString : Str) (cruise : Bool) : M σ F Unit := do
  modLast fun r => if cruise then { r with cruiseTo := altitudeString }
                   else { r with altitude := altitudeString }
  let altitude ← liftE (pyInt (sliceFrom altitudeString 1))
  let altitudeType := slice altitudeString 0 1
  whenM (altitudeType = py! "F" ∧ altitude % 5 ≠ 0) (addErrorNoReSync token 40)
  modLast fun r => if cruise then { r with cruiseToSi := altitudeToSi (F := F) altitudeType altitude }
                   else { r with altitudeSi := altitudeToSi (F := F) altitudeType altitude }

/-- The conversion at the end of `assign_speed` (F15Parse.py:440-452): metres per second, rounded. -/
def speedToSi (type : Str) (speed altitudeSi : Int) : Int :=
  let half : F := PyFloat.dec 5 1
  if type = py! "K" then
    PyFloat.toInt (PyFloat.add (PyFloat.mul (PyFloat.ofInt speed) Constants.kmhToMetersSecond) half)
  else if type = py! "N" then
    PyFloat.toInt (PyFloat.add (PyFloat.mul (PyFloat.ofInt speed) Constants.knotsToMetersSecond) half)
  else if type = py! "M" then
    PyFloat.toInt (PyFloat.add (Utils.machToMsSpeed speed altitudeSi) half)
  else
    PyFloat.toInt (PyFloat.add (PyFloat.ofInt speed) half)

/-- `assign_speed` (F15Parse.py:417-452); `ex_route_rec` is always the last element. -/
def assignSpeed (speedString : Str) : M σ F Unit := do
  modLast fun r => { r with speed := speedString }
  let rec_ ← getLast
  let speed ← liftE (pyInt (sliceFrom speedString 1))
  modLast fun r =>
    { r with speedSi := speedToSi (F := F) (slice speedString 0 1) speed rec_.altitudeSi }

/-! ### Positions -/

/-- `set_azimuth_and_distance` (F15Parse.py:1401-1414): the new value of `point_1`. -/
def setAzimuthAndDistance (point1 point2 : Record F) : Record F :=
  let ad := Utils.getBearingDistanceBetweenPoints point1.latitude point1.longitude
    point2.latitude point2.longitude
  { point1 with bearing := ad.1, distance := ad.2 }

/-- `assign_azimuth_distance_between_points` (F15Parse.py:230-261) on the newest-first list of
elements. -/
def azimuthList : List (Record F) → List (Record F)
  | last :: prev :: rs =>
    if last.latLongValid then
      if prev.latLongValid then last :: setAzimuthAndDistance prev last :: rs
      else match rs with
        | third :: rs' =>
          if third.latLongValid then last :: prev :: setAzimuthAndDistance third last :: rs'
          else last :: prev :: third :: rs'
        | [] => last :: prev :: []
    else last :: prev :: rs
  | l => l

/-- `assign_azimuth_distance_between_points` (F15Parse.py:230-261) -/
def assignAzimuth : M σ F Unit := fun s =>
  .ok ((), { s with ers := { s.ers with recs := azimuthList s.ers.recs } })

/-- The value computed by `assign_latitude` (F15Parse.py:264-283). -/
def latitudeOf (s : Str) : Except PyErr F := do
  let nOrS := sliceFrom s (-1)
  let v : F ← if s.length < 4 then pyFloat (slice s 0 2)
    else do
      let d : F ← pyFloat (slice s 0 2)
      let m : F ← pyFloat (slice s 2 4)
      pure (PyFloat.add d (PyFloat.div m (PyFloat.dec 600 1)))
  pure (if nOrS = py! "S" then PyFloat.mul v (PyFloat.dec (-10) 1) else v)

/-- The value computed by `assign_longitude` (F15Parse.py:395-414). -/
def longitudeOf (s : Str) : Except PyErr F := do
  let eOrW := sliceFrom s (-1)
  let v : F ← if s.length < 5 then pyFloat (slice s 0 3)
    else do
      let d : F ← pyFloat (slice s 0 3)
      let m : F ← pyFloat (slice s 3 5)
      pure (PyFloat.add d (PyFloat.div m (PyFloat.dec 600 1)))
  pure (if eOrW = py! "W" then PyFloat.mul v (PyFloat.dec (-10) 1) else v)

/-- `assign_latitude` (F15Parse.py:264-283) -/
def assignLatitude (latitude : Str) : M σ F Unit := do
  let v ← liftE (latitudeOf latitude)
  modLast fun r => { r with latitude := v }

/-- `assign_longitude` (F15Parse.py:395-414) -/
def assignLongitude (longitude : Str) : M σ F Unit := do
  let v ← liftE (longitudeOf longitude)
  modLast fun r => { r with longitude := v }

/-- `assign_ll_deg` (F15Parse.py:337-363) -/
def assignLlDeg (token : Token) (s : Str) : M σ F Unit := do
  assignLatitude (slice s 0 3)
  assignLongitude (slice s 3 7)
  let okLat ← liftE (Utils.isDegreeSemantics (slice s 0 2) 90)
  whenM (!okLat) (addErrorNoReSync token 42)
  let okLon ← liftE (Utils.isDegreeSemantics (slice s 3 6) 180)
  whenM (!okLon) (addErrorNoReSync token 44)
  modLast fun r => { r with latLongValid := true }
  assignAzimuth

/-- `assign_ll_deg_min` (F15Parse.py:365-392) -/
def assignLlDegMin (token : Token) (s : Str) : M σ F Unit := do
  assignLatitude (slice s 0 5)
  assignLongitude (slice s 5 11)
  let okLat ← liftE (Utils.isDegreeMinuteSemantics (slice s 0 4) 90 2)
  whenM (!okLat) (addErrorNoReSync token 43)
  let okLon ← liftE (Utils.isDegreeMinuteSemantics (slice s 5 10) 180 3)
  whenM (!okLon) (addErrorNoReSync token 45)
  modLast fun r => { r with latLongValid := true }
  assignAzimuth

/-- `resolve_real_bd_point` (F15Parse.py:1243-1259) -/
def resolveRealBdPoint (bearing distance : F) : M σ F Unit := do
  modLast fun r =>
    let p := Utils.getBearingDistanceProjectedPoint r.latitude r.longitude bearing
      (PyFloat.mul distance (PyFloat.ofInt Constants.nmToMeters))
    { r with latitude := p.1, longitude := p.2 }
  assignAzimuth

/-- The common tail of the two `LLBD` branches of `assign_lat_long_bearing_distance`
(F15Parse.py:321-327 and 331-336). -/
def assignBearingDistance (token : Token) (s : Str) : M σ F Unit := do
  let ok ← liftE (Utils.isDegreeSemantics (slice s (-6) (-3)) 360)
  whenM (!ok) (addErrorNoReSync token 46)
  let b : F ← liftE (pyFloat (slice s (-6) (-3)))
  let d : F ← liftE (pyFloat (sliceFrom s (-3)))
  resolveRealBdPoint b d

/-- `assign_lat_long_bearing_distance` (F15Parse.py:285-335) -/
def assignLatLongBearingDistance (token : Token) : M σ F Unit :=
  match token.sub with
  | .PRP_BD => do
    let ok ← liftE (Utils.isDegreeSemantics (slice token.text (-6) (-3)) 360)
    whenM (!ok) (addErrorNoReSync token 46)
  | .LL_DEG => assignLlDeg token token.text
  | .LL_MIN => assignLlDegMin token token.text
  | .LLBD_DEG => do
    assignLlDeg token token.text
    assignBearingDistance token token.text
  | .LLBD_MIN => do
    assignLlDegMin token token.text
    assignBearingDistance token token.text
  | _ => pure ()

/-- The test `sub_type != F15_SB_PRP and sub_type != F15_SB_PRP_AERO` followed by
`assign_lat_long_bearing_distance` (F15Parse.py:1232-1235 and 1641-1644). -/
def checkPosition (token : Token) : M σ F Unit :=
  whenM (token.sub ≠ .PRP ∧ token.sub ≠ .PRP_AERO) (assignLatLongBearingDistance token)

/-! ### The recursive methods

`call` stands for the recursive calls. -/

variable (call : Call → M σ F Unit)

/-- `add_error_and_re_sync` (F15Parse.py:130-145) -/
def addErrorAndReSync (token : Token) (n : Nat) : M σ F Unit := do
  addErrorNoReSync token n
  call .reSync

/-- The first two statements of each speed/level method: apply the level, then the speed. -/
def levelSpeed (token : Token) (level speed : Str) : M σ F Unit := do
  assignAltitude token level false
  assignSpeed speed

/-- `assign_speed_altitude` (F15Parse.py:454-508) -/
def assignSpeedAltitude (token : Token) : M σ F Unit := do
  match ← lastElement with
  | none => pure ()
  | some _ =>
    let s := token.text
    let tail : M σ F Unit := do
      modLast fun r => r.setRules ruleI
      match ← nextToken with
      | none => pure ()
      | some nt =>
        if (← numElements) = 1 then call (.postAdep nt) else call (.postPoint nt)
    match token.sub with
    | .SPEED_ALTITUDE_MF | .SPEED_ALTITUDE_MS | .SPEED_ALTITUDE_MA | .SPEED_ALTITUDE_MM => do
      levelSpeed token (sliceFrom s 4) (slice s 0 4)
      tail
    | .SPEED_ALTITUDE_KS | .SPEED_ALTITUDE_KA | .SPEED_ALTITUDE_KM | .SPEED_ALTITUDE_NS
    | .SPEED_ALTITUDE_NA | .SPEED_ALTITUDE_NM | .SPEED_ALTITUDE_KF | .SPEED_ALTITUDE_NF => do
      levelSpeed token (sliceFrom s 5) (slice s 0 5)
      tail
    | _ => levelSpeed token (py! "X000") (py! "X0000")

/-- Apply level, cruise-climb target level and speed (three statements repeated in
`assign_speed_altitude_altitude`, F15Parse.py:539-541). -/
def levelLevelSpeed (token : Token) (level level2 speed : Str) : M σ F Unit := do
  assignAltitude token level false
  assignAltitude token level2 true
  assignSpeed speed

/-- Common end of `assign_speed_altitude_altitude` (F15Parse.py:573-579) and
`assign_speed_altitude_plus` (626-632). -/
def rulesThenPostPoint : M σ F Unit := do
  modLast fun r => r.setRules ruleI
  match ← nextToken with
  | none => pure ()
  | some nt => call (.postPoint nt)

/-- `assign_speed_altitude_altitude` (F15Parse.py:510-579) -/
def assignSpeedAltitudeAltitude (token : Token) : M σ F Unit := do
  match ← lastElement with
  | none => pure ()
  | some _ =>
    let s := token.text
    match token.sub with
    | .SPEED_ALTITUDE_KFF | .SPEED_ALTITUDE_KFS | .SPEED_ALTITUDE_KFA | .SPEED_ALTITUDE_KFM
    | .SPEED_ALTITUDE_KAF | .SPEED_ALTITUDE_KAS | .SPEED_ALTITUDE_KAA | .SPEED_ALTITUDE_KAM
    | .SPEED_ALTITUDE_NFF | .SPEED_ALTITUDE_NFS | .SPEED_ALTITUDE_NFA | .SPEED_ALTITUDE_NFM
    | .SPEED_ALTITUDE_NAF | .SPEED_ALTITUDE_NAS | .SPEED_ALTITUDE_NAA | .SPEED_ALTITUDE_NAM => do
      levelLevelSpeed token (slice s 5 9) (sliceFrom s 9) (slice s 0 5)
      rulesThenPostPoint call
    | .SPEED_ALTITUDE_KSF | .SPEED_ALTITUDE_KSS | .SPEED_ALTITUDE_KSA | .SPEED_ALTITUDE_KSM
    | .SPEED_ALTITUDE_KMF | .SPEED_ALTITUDE_KMS | .SPEED_ALTITUDE_KMA | .SPEED_ALTITUDE_KMM
    | .SPEED_ALTITUDE_NSF | .SPEED_ALTITUDE_NSS | .SPEED_ALTITUDE_NSA | .SPEED_ALTITUDE_NSM
    | .SPEED_ALTITUDE_NMF | .SPEED_ALTITUDE_NMS | .SPEED_ALTITUDE_NMA | .SPEED_ALTITUDE_NMM => do
      levelLevelSpeed token (slice s 5 10) (sliceFrom s 11) (slice s 0 5)
      rulesThenPostPoint call
    | .SPEED_ALTITUDE_MFF | .SPEED_ALTITUDE_MFS | .SPEED_ALTITUDE_MFA | .SPEED_ALTITUDE_MFM
    | .SPEED_ALTITUDE_MAF | .SPEED_ALTITUDE_MAS | .SPEED_ALTITUDE_MAA | .SPEED_ALTITUDE_MAM => do
      levelLevelSpeed token (slice s 4 8) (sliceFrom s 9) (slice s 0 4)
      rulesThenPostPoint call
    | .SPEED_ALTITUDE_MSF | .SPEED_ALTITUDE_MSS | .SPEED_ALTITUDE_MSA | .SPEED_ALTITUDE_MSM
    | .SPEED_ALTITUDE_MMF | .SPEED_ALTITUDE_MMS | .SPEED_ALTITUDE_MMA | .SPEED_ALTITUDE_MMM => do
      levelLevelSpeed token (slice s 4 9) (sliceFrom s 10) (slice s 0 4)
      rulesThenPostPoint call
    | _ => levelSpeed token (py! "X000") (py! "X000")

/-- Apply level, the text `PLUS` as cruise-climb target, and speed (three statements repeated in
`assign_speed_altitude_plus`, F15Parse.py:604-606). -/
def levelPlusSpeed (token : Token) (level plus speed : Str) : M σ F Unit := do
  assignAltitude token level false
  modLast fun r => { r with cruiseTo := plus }
  assignSpeed speed

/-- `assign_speed_altitude_plus` (F15Parse.py:581-632) -/
def assignSpeedAltitudePlus (token : Token) : M σ F Unit := do
  match ← lastElement with
  | none => pure ()
  | some _ =>
    let s := token.text
    match token.sub with
    | .SPEED_ALTITUDE_KF_P | .SPEED_ALTITUDE_KA_P | .SPEED_ALTITUDE_NF_P | .SPEED_ALTITUDE_NA_P => do
      levelPlusSpeed token (slice s 5 9) (sliceFrom s 9) (slice s 0 5)
      rulesThenPostPoint call
    | .SPEED_ALTITUDE_KS_P | .SPEED_ALTITUDE_KM_P | .SPEED_ALTITUDE_NS_P | .SPEED_ALTITUDE_NM_P => do
      levelPlusSpeed token (slice s 5 10) (sliceFrom s 10) (slice s 0 5)
      rulesThenPostPoint call
    | .SPEED_ALTITUDE_MF_P | .SPEED_ALTITUDE_MA_P => do
      levelPlusSpeed token (slice s 4 8) (sliceFrom s 8) (slice s 0 4)
      rulesThenPostPoint call
    | .SPEED_ALTITUDE_MS_P | .SPEED_ALTITUDE_MM_P => do
      levelPlusSpeed token (slice s 4 9) (sliceFrom s 9) (slice s 0 4)
      rulesThenPostPoint call
    | _ => levelSpeed token (py! "X000") (py! "X000")

/-- The `match sub_type` of `assign_speed_vfr` (F15Parse.py:661-673). `TokenBaseType.F15_SPEED_VFR` in
the first pattern is the integer 3 and therefore also equals `TokenSubType.F15_SB_VFR`. -/
def vfrSpeedRules (token : Token) : M σ F Unit :=
  let s := token.text
  match token.sub with
  | .VFR | .SPEED_ALTITUDE_MV => do
    assignSpeed (slice s 0 4)
    let x ← liftE (rulesOf (slice s 4 5))
    modLast fun r => r.setRules x
  | .SPEED_ALTITUDE_NV | .SPEED_ALTITUDE_KV => do
    assignSpeed (slice s 0 5)
    let x ← liftE (rulesOf (slice s 5 6))
    modLast fun r => r.setRules x
  | _ => do
    assignAltitude token (py! "X000") false
    modLast fun r => r.setRules ruleI

/-- `assign_speed_vfr` (F15Parse.py:634-684) -/
def assignSpeedVfr (token : Token) : M σ F Unit := do
  match ← lastElement with
  | none => pure ()
  | some _ =>
    addRecord { token with text := py! "VFR" }
    assignAltitude token defaultAltitude false
    vfrSpeedRules token
    let v ← getLast
    modPrev fun p => { p with speed := v.speed, speedSi := v.speedSi,
                              altitude := v.altitude, altitudeSi := v.altitudeSi }
    match ← nextToken with
    | none => pure ()
    | some nt => call (.breakTextSave nt)

/-- The last statements of `break_end` (F15Parse.py:752-757). -/
def breakEndTail : M σ F Unit := do
  match ← nextToken with
  | none => pure ()
  | some nt => call (.point nt)

/-- `break_end` (F15Parse.py:686-757) -/
def breakEnd (token : Token) : M σ F Unit := do
  match ← peekToken 1 with
  | none => pure ()
  | some rcp =>
    if rcp.base ≠ .POINT then pure ()
    else if token.sub = .IFR then do
      match ← peekToken 2 with
      | none => call (.addErrorAndReSync rcp 22)
      | some sl =>
        if sl.base ≠ .SLASH then pure ()
        else do
          match ← peekToken 3 with
          | none => call (.addErrorAndReSync rcp 22)
          | some sp =>
            if sp.base ≠ .SPEED_ALTITUDE ∧ sp.base ≠ .SPEED_VFR then
              call (.addErrorAndReSync rcp 22)
            else if sp.base = .SPEED_ALTITUDE then do
              call .vToI
              breakEndTail call
            else if sp.base = .SPEED_VFR then do
              call .vToIToV
              breakEndTail call
            else breakEndTail call
    else breakEndTail call

/-- `break_end_error` (F15Parse.py:759-780) -/
def breakEndError (token : Token) : M σ F Unit :=
  if token.sub = .IFR then call (.addErrorAndReSync token 6)
  else if token.sub = .GAT then call (.addErrorAndReSync token 7)
  else if token.sub = .IFPSTART then call (.addErrorAndReSync token 8)
  else pure ()

/-- `break_start` (F15Parse.py:782-819) -/
def breakStart (token : Token) : M σ F Unit := do
  addRecord token
  modLast fun r =>
    match token.sub with
    | .OAT => r.setRules ruleO
    | .VFR => r.setRules ruleV
    | .IFPSTOP => r.setRules ruleS
    | _ => r
  match ← nextToken with
  | none => pure ()
  | some nt =>
    if nt.base = .TOO_LONG then call (.addErrorAndReSync nt 4)
    else call (.breakTextSave nt)

/-- Does `sub` end a break whose current flight rules are `rules`? (the three tests of
`break_text_save`, F15Parse.py:854-862) -/
def endsBreak (sub : SubType) (rules : Str) : Bool :=
  (sub = .IFR ∧ rules = ruleV) ∨ (sub = .GAT ∧ rules = ruleO) ∨ (sub = .IFPSTART ∧ rules = ruleS)

/-- `break_text_save` (F15Parse.py:821-868) -/
def breakTextSave (token : Token) : M σ F Unit := do
  whenM (token.base = .TOO_LONG) (call (.addErrorAndReSync token 4))
  modLast fun r => r.appendBreakText token.text
  let last ← getLast
  whenM (endsBreak token.sub last.rules) (call (.breakEnd token))
  match ← nextToken with
  | none => pure ()
  | some nt => call (.breakTextSave nt)

/-- `cruise_climb_c` (F15Parse.py:889-965) -/
def cruiseClimbC (token : Token) : M σ F Unit := do
  match ← nextToken with
  | none => addRecord token
  | some nt =>
    match nt.base with
    | .UNKNOWN => call (.addErrorAndReSync nt 3)
    | .SLASH => do
      match ← nextToken with
      | none => do
        addRecord token
        call (.addErrorAndReSync nt 52)
      | some nt2 => call (.cruiseClimbPoint nt2)
    | .BREAK_START => do addRecord token; call (.breakStart nt)
    | .SPEED_VFR | .SPEED_ALTITUDE => call (.addErrorAndReSync nt 5)
    | .BREAK_END => call (.breakEndError nt)
    | .DCT => do addRecord token; call (.dct nt)
    | .STAY => do addRecord token; call (.stay nt)
    | .TRUNCATE => do addRecord token; call .truncate
    | .C => do addRecord token; call (.cruiseClimbC nt)
    | .POINT => do addRecord token; call (.point nt)
    | .ROUTE => do addRecord token; call (.route nt)
    | .SID_STAR => do addRecord token; call (.sidStar nt)
    | .SPEED_ALTITUDE_ALTITUDE | .SPEED_ALTITUDE_PLUS => call (.addErrorAndReSync nt 9)
    | .TOO_LONG => call (.addErrorAndReSync nt 4)
    | .STAY_TIME => call (.addErrorAndReSync nt 10)
    | .SID => do addRecord token; call (.sid nt)
    | .STAR => do addRecord token; call (.star nt)

/-- `cruise_climb_point` (F15Parse.py:967-1011) -/
def cruiseClimbPoint (token : Token) : M σ F Unit := do
  addRecord token
  assignLatLongBearingDistance token
  match ← nextToken with
  | none => call (.addErrorAndReSync token 27)
  | some nt => do
    whenM (nt.base ≠ .SLASH) (call (.addErrorAndReSync nt 26))
    match ← nextToken with
    | none => call (.addErrorAndReSync token 28)
    | some nt2 => do
      if nt2.base = .SPEED_ALTITUDE_ALTITUDE then call (.assignSpeedAltitudeAltitude nt2)
      else if nt2.base = .SPEED_ALTITUDE_PLUS then call (.assignSpeedAltitudePlus nt2)
      else call (.addErrorAndReSync nt2 29)
      match ← nextToken with
      | none => pure ()
      | some nt3 => call (.point nt3)

/-- `dct` (F15Parse.py:1013-1037) -/
def dct (token : Token) : M σ F Unit := do
  addRecord token
  match ← nextToken with
  | none => pure ()
  | some nt =>
    match nt.base with
    | .TRUNCATE => call .truncate
    | .POINT => call (.point nt)
    | .C => call (.cruiseClimbC nt)
    | _ => call (.addErrorAndReSync nt 21)

/-- `forward_slash` (F15Parse.py:1039-1077) -/
def forwardSlash (token : Token) : M σ F Unit := do
  match ← nextToken with
  | none => call (.addErrorAndReSync token 20)
  | some nt =>
    match nt.base with
    | .UNKNOWN => call (.addErrorAndReSync nt 3)
    | .SLASH => call (.addErrorAndReSync nt 16)
    | .SPEED_VFR => call (.assignSpeedVfr nt)
    | .SPEED_ALTITUDE => call (.assignSpeedAltitude nt)
    | .TOO_LONG => call (.addErrorAndReSync nt 4)
    | _ => call (.addErrorAndReSync nt 50)

/-- `post_adep` (F15Parse.py:1079-1121) -/
def postAdep (token : Token) : M σ F Unit :=
  match token.base with
  | .UNKNOWN => call (.addErrorAndReSync token 3)
  | .SLASH | .BREAK_START | .SPEED_VFR | .SPEED_ALTITUDE | .BREAK_END | .STAY | .C =>
    call (.addErrorAndReSync token 23)
  | .DCT => call (.dct token)
  | .TRUNCATE => call .truncate
  | .POINT => call (.point token)
  | .ROUTE => call (.addErrorAndReSync token 24)
  | .SID_STAR => call (.sidStar token)
  | .SPEED_ALTITUDE_ALTITUDE | .SPEED_ALTITUDE_PLUS => call (.addErrorAndReSync token 9)
  | .TOO_LONG => call (.addErrorAndReSync token 4)
  | .STAY_TIME => call (.addErrorAndReSync token 10)
  | .SID => call (.sid token)
  | .STAR => call (.star token)

/-- The five subtypes with coordinates or bearing/distance (F15Parse.py:1158-1160, 1380-1382). -/
def isLlOrBd (s : SubType) : Bool :=
  s = .PRP_BD || s = .LL_DEG || s = .LL_MIN || s = .LLBD_DEG || s = .LLBD_MIN

/-- `post_point` (F15Parse.py:1123-1177) -/
def postPoint (token : Token) : M σ F Unit :=
  match token.base with
  | .UNKNOWN => call (.addErrorAndReSync token 3)
  | .SLASH => call (.forwardSlash token)
  | .BREAK_START => call (.breakStart token)
  | .SPEED_VFR | .SPEED_ALTITUDE => call (.addErrorAndReSync token 5)
  | .BREAK_END => call (.breakEndError token)
  | .DCT => call (.dct token)
  | .STAY => call (.stay token)
  | .TRUNCATE => call .truncate
  | .C => call (.cruiseClimbC token)
  | .POINT => call (.point token)
  | .ROUTE => do
    let last ← getLast
    if isLlOrBd last.sub then call (.addErrorAndReSync token 47) else call (.route token)
  | .SID_STAR => call (.sidStar token)
  | .SPEED_ALTITUDE_ALTITUDE | .SPEED_ALTITUDE_PLUS => call (.addErrorAndReSync token 9)
  | .TOO_LONG => call (.addErrorAndReSync token 4)
  | .STAY_TIME => call (.addErrorAndReSync token 10)
  | .SID => call (.sid token)
  | .STAR => call (.star token)

/-- `post_sid` (F15Parse.py:1179-1215) -/
def postSid : M σ F Unit := do
  match ← nextToken with
  | none => pure ()
  | some nt =>
    match nt.base with
    | .TRUNCATE => call .truncate
    | .POINT => call (.point nt)
    | .ROUTE => call (.route nt)
    | .SID_STAR => call (.sidStar nt)
    | .TOO_LONG => call (.addErrorAndReSync nt 4)
    | .SID => call (.addErrorAndReSync nt 32)
    | .STAR => call (.star nt)
    | _ => call (.addErrorAndReSync nt 31)

/-- `point` (F15Parse.py:1217-1241) -/
def point (token : Token) : M σ F Unit := do
  addRecord token
  modLast fun r => r.setRules ruleI
  checkPosition token
  match ← nextToken with
  | none => pure ()
  | some nt => call (.postPoint nt)

/-- `re_sync_parser_after_error` (F15Parse.py:1261-1337) -/
def reSync : M σ F Unit := do
  match ← nextToken with
  | none => pure ()
  | some token =>
    match token.base with
    | .UNKNOWN => call (.addErrorAndReSync token 3)
    | .SLASH => do
      match ← nextToken with
      | none => call (.addErrorAndReSync token 25)
      | some nt =>
        match nt.base with
        | .SPEED_VFR => call (.assignSpeedVfr nt)
        | .POINT => call (.point nt)
        | .SPEED_ALTITUDE => call (.assignSpeedAltitude nt)
        | .SPEED_ALTITUDE_ALTITUDE => call (.assignSpeedAltitudeAltitude nt)
        | .SPEED_ALTITUDE_PLUS => call (.assignSpeedAltitudePlus nt)
        | _ => call (.addErrorAndReSync nt 11)
    | .BREAK_START => call (.breakStart token)
    | .SPEED_VFR => call (.assignSpeedVfr token)
    | .BREAK_END => call (.breakEnd token)
    | .DCT => call (.dct token)
    | .STAY => call (.stay token)
    | .TRUNCATE => call .truncate
    | .C => call (.cruiseClimbC token)
    | .POINT => call (.point token)
    | .ROUTE => call (.route token)
    | .SID_STAR => call (.sidStar token)
    | .SPEED_ALTITUDE => call (.assignSpeedAltitude token)
    | .SPEED_ALTITUDE_ALTITUDE => call (.assignSpeedAltitudeAltitude token)
    | .SPEED_ALTITUDE_PLUS => call (.assignSpeedAltitudePlus token)
    | .TOO_LONG => call (.addErrorAndReSync token 4)
    | .STAY_TIME => call (.addErrorAndReSync token 10)
    | .SID => call (.sid token)
    | .STAR => call (.star token)

/-- `route` (F15Parse.py:1339-1398) -/
def route (token : Token) : M σ F Unit := do
  addRecord token
  modLast fun r => r.setRules ruleI
  match ← nextToken with
  | none => pure ()
  | some nt =>
    match nt.base with
    | .UNKNOWN => call (.addErrorAndReSync nt 3)
    | .SLASH => call (.addErrorAndReSync nt 12)
    | .BREAK_START => call (.addErrorAndReSync nt 13)
    | .SPEED_VFR => call (.addErrorAndReSync nt 13)
    | .SPEED_ALTITUDE => call (.addErrorAndReSync nt 55)
    | .BREAK_END => call (.breakEndError nt)
    | .DCT => call (.addErrorAndReSync nt 14)
    | .STAY => call (.addErrorAndReSync nt 15)
    | .TRUNCATE => call .truncate
    | .C => call (.cruiseClimbC nt)
    | .POINT => do
      whenM (isLlOrBd nt.sub) (call (.addErrorAndReSync nt 48))
      call (.point nt)
    | .ROUTE => call (.addErrorAndReSync nt 53)
    | .SID_STAR | .STAR => call (.addErrorAndReSync nt 54)
    | .SPEED_ALTITUDE_ALTITUDE | .SPEED_ALTITUDE_PLUS => call (.addErrorAndReSync nt 9)
    | .TOO_LONG => call (.addErrorAndReSync nt 4)
    | .STAY_TIME => call (.addErrorAndReSync nt 10)
    | .SID => call (.addErrorAndReSync nt 30)

/-- The two statements that classify the last element as a SID (F15Parse.py:1433-1438, 1463-1468). -/
def markSid (text : Str) : M σ F Unit :=
  modLast fun r => { r with base := .SID, sub := if text = py! "SID" then .SID_LITERAL else .SID }

/-- The two statements that classify the last element as a STAR (F15Parse.py:1474-1479, 1502-1507). -/
def markStar (text : Str) : M σ F Unit :=
  modLast fun r => { r with base := .STAR, sub := if text = py! "STAR" then .STAR_LITERAL else .STAR }

/-- `sid` (F15Parse.py:1416-1441). `get_element_at(1)` of a two-element ERS is its last element, whose
name is the text of `token`. -/
def sid (token : Token) : M σ F Unit := do
  addRecord token
  if (← numElements) = 2 then do
    markSid token.text
    call .postSid
  else call (.addErrorAndReSync token 30)

/-- `sid_star` (F15Parse.py:1443-1481) -/
def sidStar (token : Token) : M σ F Unit := do
  addRecord token
  if (← numElements) = 2 then do
    markSid token.text
    call .postSid
  else do
    match ← peekToken 1 with
    | none => markStar token.text
    | some pk => call (.addErrorAndReSync pk 34)

/-- `star` (F15Parse.py:1483-1509) -/
def star (token : Token) : M σ F Unit := do
  addRecord token
  match ← peekToken 1 with
  | none => markStar token.text
  | some pk => call (.addErrorAndReSync pk 34)

/-- `stay` (F15Parse.py:1511-1549) -/
def stay (token : Token) : M σ F Unit := do
  match ← nextToken with
  | none => call (.addErrorAndReSync token 35)
  | some nt =>
    if nt.base ≠ .SLASH then call (.addErrorAndReSync nt 36)
    else do
      match ← nextToken with
      | none => call (.addErrorAndReSync nt 37)
      | some nt2 =>
        if nt2.base ≠ .STAY_TIME then call (.addErrorAndReSync nt2 38)
        else call (.stayTime nt2)

/-- `ers.get_last_element().set_stay_time(text)` (F15Parse.py:1564) -/
def saveStayTime (text : Str) : M σ F Unit := do
  let r ← getLast
  let r' ← liftE (r.setStayTime text)
  modLast fun _ => r'

/-- `stay_time` (F15Parse.py:1551-1603) -/
def stayTime (token : Token) : M σ F Unit := do
  saveStayTime token.text
  match ← nextToken with
  | none => pure ()
  | some nt =>
    match nt.base with
    | .UNKNOWN => call (.addErrorAndReSync nt 3)
    | .BREAK_START => call (.breakStart nt)
    | .BREAK_END => call (.breakEndError nt)
    | .DCT => call (.dct nt)
    | .TRUNCATE => call .truncate
    | .C => call (.cruiseClimbC nt)
    | .POINT => call (.point nt)
    | .ROUTE => call (.route nt)
    | .SID_STAR => call (.sidStar nt)
    | .TOO_LONG => call (.addErrorAndReSync nt 4)
    | .SID => call (.sid nt)
    | .STAR => call (.star nt)
    | _ => call (.addErrorAndReSync nt 39)

/-- `truncate` (F15Parse.py:1605-1620) -/
def truncate : M σ F Unit := do
  match ← nextToken with
  | none => pure ()
  | some nt => call (.addErrorAndReSync nt 19)

/-- `v_to_i_rule_change` (F15Parse.py:1622-1655). The tokens exist because `break_end` has peeked at
them; using `None` as a token would raise `AttributeError`. -/
def vToI : M σ F Unit := do
  match ← nextToken with
  | none => throw .attributeError
  | some token => do
    addRecord token
    checkPosition token
    modLast fun r => r.setRules ruleI
    let _ ← nextToken
    match ← nextToken with
    | none => throw .attributeError
    | some sp => call (.assignSpeedAltitude sp)

/-- `v_to_i_to_v_rule_change` (F15Parse.py:1657-1687) -/
def vToIToV : M σ F Unit := do
  match ← nextToken with
  | none => throw .attributeError
  | some token => do
    addRecord token
    modLast fun r => r.setRules ruleI
    let _ ← nextToken
    match ← nextToken with
    | none => throw .attributeError
    | some sp => call (.assignSpeedVfr sp)

/-- Method dispatch. -/
def step : Call → M σ F Unit
  | .addErrorAndReSync t n => addErrorAndReSync call t n
  | .assignSpeedAltitude t => assignSpeedAltitude call t
  | .assignSpeedAltitudeAltitude t => assignSpeedAltitudeAltitude call t
  | .assignSpeedAltitudePlus t => assignSpeedAltitudePlus call t
  | .assignSpeedVfr t => assignSpeedVfr call t
  | .breakEnd t => breakEnd call t
  | .breakEndError t => breakEndError call t
  | .breakStart t => breakStart call t
  | .breakTextSave t => breakTextSave call t
  | .cruiseClimbC t => cruiseClimbC call t
  | .cruiseClimbPoint t => cruiseClimbPoint call t
  | .dct t => dct call t
  | .forwardSlash t => forwardSlash call t
  | .postAdep t => postAdep call t
  | .postPoint t => postPoint call t
  | .postSid => postSid call
  | .point t => point call t
  | .reSync => reSync call
  | .route t => route call t
  | .sid t => sid call t
  | .sidStar t => sidStar call t
  | .star t => star call t
  | .stay t => stay call t
  | .stayTime t => stayTime call t
  | .truncate => truncate call
  | .vToI => vToI call
  | .vToIToV => vToIToV call

end

/-- Run a method with `n` stack frames available. -/
def exec {σ F : Type} [TokStream σ] [PyFloat F] : Nat → Call → M σ F Unit
  | 0, _ => fun _ => .error .recursionError
  | n + 1, c => step (exec n) c

section
variable {F : Type} [PyFloat F]

/-- The last statements of `parse_f15` before the return value (F15Parse.py:105-125): derived flight
rules. -/
def deriveRules (first : Str) (rules : List Str) : Str :=
  if first = py! "VFR" then (if rules.contains (py! "IFR") then py! "Z" else py! "V")
  else (if rules.contains (py! "VFR") then py! "Y" else py! "I")

/-- Set the flight rules of the first element (`ers.get_first_element().set_flight_rules`). -/
def setFirstRules (e : Ers F) (x : Str) : Except PyErr (Ers F) :=
  match e.elements with
  | r :: rs => .ok { e with recs := (r.setRules x :: rs).reverse }
  | [] => .error .attributeError

/-- `parse_f15` after the dispatch on the first token (F15Parse.py:99-128): append the ADES, copy the
rules of the element before it, derive the flight rules, return. -/
def finish (e : Ers F) : Except PyErr (Bool × Ers F) := do
  let e := e.addDummyAdes
  match ← e.getPreviousToLastElement with
  | none => pure (decide (e.numberOfErrors = 0), e)
  | some previous =>
    let e := { e with recs := match e.recs with
      | ades :: rs => ades.setRules previous.rules :: rs
      | [] => [] }
    match ← e.getFirstElement with
    | none => throw .attributeError
    | some first =>
      let e := e.setDerived (deriveRules first.rules (e.elements.map (·.rules)))
      pure (decide (e.numberOfErrors = 0), e)

/-- The dispatch of `parse_f15` on the first token (F15Parse.py:87-100); `frames` stack frames are
available. -/
def dispatch (frames : Nat) (e : Ers F) (ts : Tokens) (token : Token) : Except PyErr (Ers F) :=
  match token.base with
  | .SPEED_VFR => do
    let r ← exec frames (.assignSpeedVfr token) ⟨e, ts⟩
    setFirstRules r.2.ers (py! "VFR")
  | .SPEED_ALTITUDE => do
    let r ← exec frames (.assignSpeedAltitude token) ⟨e, ts⟩
    if ts.getNumberOfTokens = 1 then do
      let r' ← exec frames (.addErrorAndReSync token 49) r.2
      pure r'.2.ers
    else pure r.2.ers
  | _ => do
    let r ← exec frames (.addErrorAndReSync token 1) ⟨e, ts⟩
    pure r.2.ers

/-- `parse_f15` (F15Parse.py:52-128) with `frames` interpreter stack frames available for the methods
it calls. Returns the Boolean result and the mutated `ers`. -/
def parseF15 (frames : Nat) (e : Ers F) (tokens : Tokens) : Except PyErr (Bool × Ers F) :=
  let tokens := assignSyntaxDescriptions tokens
  match tokens.getFirstToken with
  | (.error x, _) => .error x
  | (.ok none, _) =>
    match errorMessage 41 with
    | none => .error .keyError
    | some m =>
      let e := e.addError (py! "NULL") 0 0 .UNKNOWN .UNKNOWN m
      .ok (false, e.addDummyAdes)
  | (.ok (some token), tokens) => do
    let e ← dispatch frames e tokens token
    finish e

end
end F15
