import Verif.Model.Full
/-!
# `ParseF15` when exceptions are raised (generated by tools/gen_crash.py from Model/Parser.lean)

In Model/Parser.lean an exception forgets the state of the `ers` and `tokens` objects. Here every method gives the state in any case, so that what a
caller finds in the two objects after an exception is part of the model. The bodies of the methods are those of Model/Parser.lean, text by
text; `Crash.same_exec` (Lemmas/Crash.lean) proves that both agree.

Besides the exceptions that the code raises itself and the exhausted stack, an exception can strike from outside at any point of the run (a
`KeyboardInterrupt`, a `MemoryError`, a `RecursionError` in a helper): see `Strike`. Simplification: a primitive that raises by itself leaves the state
as it was before it (`add_record` on an empty sequence, which does not occur, would already have appended).
-/

namespace F15.Crash

/-- An exception that strikes from outside: after how many primitive steps, which exception (those of Model/Py.lean stand for all), and
which of the writes of the step it interrupts have been done. -/
structure Strike where
  after : Nat
  what : PyErr
  written : Nat → Bool

/-- The two objects and the exception to come, if any. -/
structure Run (σ F : Type) where
  st : St σ F
  strike : Option Strike

/-- Methods of `ParseF15`: the result or the exception, and the state in both cases. -/
abbrev M (σ F : Type) := ExceptT PyErr (StateM (Run σ F))

section
variable {σ F : Type} [TokStream σ] [PyFloat F]

/-- An element of which only the attributes chosen by `w` have got their new values (ExtractedRouteRecord.py setters). -/
def mix (w : Nat → Bool) (r r' : Record F) : Record F where
  name := if w 0 then r'.name else r.name
  start := if w 1 then r'.start else r.start
  stop := if w 2 then r'.stop else r.stop
  base := if w 3 then r'.base else r.base
  sub := if w 4 then r'.sub else r.sub
  altitude := if w 5 then r'.altitude else r.altitude
  altitudeSi := if w 6 then r'.altitudeSi else r.altitudeSi
  speed := if w 7 then r'.speed else r.speed
  speedSi := if w 8 then r'.speedSi else r.speedSi
  breakText := if w 9 then r'.breakText else r.breakText
  rules := if w 10 then r'.rules else r.rules
  errorText := if w 11 then r'.errorText else r.errorText
  stayTime := if w 12 then r'.stayTime else r.stayTime
  cruiseTo := if w 13 then r'.cruiseTo else r.cruiseTo
  cruiseToSi := if w 14 then r'.cruiseToSi else r.cruiseToSi
  latitude := if w 15 then r'.latitude else r.latitude
  longitude := if w 16 then r'.longitude else r.longitude
  bearing := if w 17 then r'.bearing else r.bearing
  distance := if w 18 then r'.distance else r.distance
  latLongValid := if w 19 then r'.latLongValid else r.latLongValid

/-- The elements, newest first, after a part of the writes: a new element is appended before its attributes are set (F15Parse.py:176-181). -/
def mixAll (w : Nat → Bool) (l l' : List (Record F)) : List (Record F) :=
  if l'.length = l.length then List.zipWith (mix w) l l'
  else if w 20 then
    match l' with
    | r' :: _ => mix w (Record.new r'.name r'.start r'.stop r'.base r'.sub) r' :: l
    | [] => l
  else l

/-- The objects after a part of the writes of a step from `s` to `s'`: attributes one by one, list appends and the cursor as a whole. -/
def blend (w : Nat → Bool) (s s' : St σ F) : St σ F where
  ers := {
    recs := mixAll w s.ers.recs s'.ers.recs
    errs := if w 21 then s'.ers.errs else s.ers.errs
    derived := if w 22 then s'.ers.derived else s.ers.derived }
  toks := if w 23 then s'.toks else s.toks

/-- A primitive step; the exception from outside may strike during it. -/
def prim {α : Type} (m : F15.M σ F α) : M σ F α := fun s =>
  match s.strike with
  | some ⟨0, x, w⟩ =>
    (.error x, ⟨match m s.st with
      | .ok (_, s') => blend w s.st s'
      | .error _ => s.st, none⟩)
  | k =>
    let k' := k.map fun z => { z with after := z.after - 1 }
    match m s.st with
    | .ok (a, s') => (.ok a, ⟨s', k'⟩)
    | .error x => (.error x, ⟨s.st, k'⟩)

/-- `tokens.get_next_token()` (Tokens.py:97-105) -/
def nextToken : M σ F (Option Token) := prim F15.nextToken
/-- `tokens.peek_next_token(k)` (Tokens.py:117-124) -/
def peekToken (k : Nat) : M σ F (Option Token) := prim (F15.peekToken k)
/-- `ers.get_last_element()` (ExtractedRouteSequence.py:162-171) -/
def lastElement : M σ F (Option (Record F)) := prim F15.lastElement
/-- `ers.get_number_of_elements()` (ExtractedRouteSequence.py:173-178) -/
def numElements : M σ F Nat := prim F15.numElements
/-- Update the last element in place (ExtractedRouteRecord.py setters). -/
def modLast (f : Record F → Record F) : M σ F Unit := prim (F15.modLast f)
/-- Update the last but one element in place. -/
def modPrev (f : Record F → Record F) : M σ F Unit := prim (F15.modPrev f)
/-- Read the last element (ExtractedRouteSequence.py:162-171). -/
def getLast : M σ F (Record F) := prim F15.getLast
/-- Run a pure computation that may raise. -/
def liftE {α : Type} (x : Except PyErr α) : M σ F α := prim (F15.liftE x)
/-- `if c: m` -/
def whenM (c : Bool) (m : M σ F Unit) : M σ F Unit := if c then m else pure ()
/-- `add_error_no_re_sync` (F15Parse.py:148-164) -/
def addErrorNoReSync (token : Token) (n : Nat) : M σ F Unit := prim (F15.addErrorNoReSync token n)
/-- `add_record` (F15Parse.py:166-182) -/
def addRecord (token : Token) : M σ F Unit := prim (F15.addRecord token)
/-- `assign_azimuth_distance_between_points` (F15Parse.py:230-261) -/
def assignAzimuth : M σ F Unit := prim F15.assignAzimuth
/-- `ers.get_last_element().set_stay_time(text)` (F15Parse.py:1564) -/
def saveStayTime (text : Str) : M σ F Unit := prim (F15.saveStayTime text)

/-! ### Level and speed -/

/-- `assign_altitude` (F15Parse.py:184-228); `ex_route_rec` is always the last element. -/
def assignAltitude (token : Token) (altitudeString : Str) (cruise : Bool) : M σ F Unit := do
  modLast fun r => if cruise then { r with cruiseTo := altitudeString }
                   else { r with altitude := altitudeString }
  let altitude ← liftE (pyInt (sliceFrom altitudeString 1))
  let altitudeType := slice altitudeString 0 1
  whenM (altitudeType = py! "F" ∧ altitude % 5 ≠ 0) (addErrorNoReSync token 40)
  modLast fun r => if cruise then { r with cruiseToSi := altitudeToSi (F := F) altitudeType altitude }
                   else { r with altitudeSi := altitudeToSi (F := F) altitudeType altitude }

/-- `assign_speed` (F15Parse.py:417-452); `ex_route_rec` is always the last element. -/
def assignSpeed (speedString : Str) : M σ F Unit := do
  modLast fun r => { r with speed := speedString }
  let rec_ ← getLast
  let speed ← liftE (pyInt (sliceFrom speedString 1))
  modLast fun r =>
    { r with speedSi := speedToSi (F := F) (slice speedString 0 1) speed rec_.altitudeSi }

/-! ### Positions -/

/-- `assign_latitude` (F15Parse.py:264-283) -/
def assignLatitude (latitude : Str) : M σ F Unit := do
  let v ← liftE (latitudeOf latitude)
  modLast fun r => { r with latitude := v }

/-- `assign_longitude` (F15Parse.py:395-414) -/
def assignLongitude (longitude : Str) : M σ F Unit := do
  let v ← liftE (longitudeOf longitude)
  modLast fun r => { r with longitude := v }

/-- `assign_ll_deg` (F15Parse.py:337-363) -/
def assignLlDeg (token : Token) (s : Str) : M σ F Unit := do
  assignLatitude (slice s 0 3)
  assignLongitude (slice s 3 7)
  let okLat ← liftE (Utils.isDegreeSemantics (slice s 0 2) 90)
  whenM (!okLat) (addErrorNoReSync token 42)
  let okLon ← liftE (Utils.isDegreeSemantics (slice s 3 6) 180)
  whenM (!okLon) (addErrorNoReSync token 44)
  modLast fun r => { r with latLongValid := true }
  assignAzimuth

/-- `assign_ll_deg_min` (F15Parse.py:365-392) -/
def assignLlDegMin (token : Token) (s : Str) : M σ F Unit := do
  assignLatitude (slice s 0 5)
  assignLongitude (slice s 5 11)
  let okLat ← liftE (Utils.isDegreeMinuteSemantics (slice s 0 4) 90 2)
  whenM (!okLat) (addErrorNoReSync token 43)
  let okLon ← liftE (Utils.isDegreeMinuteSemantics (slice s 5 10) 180 3)
  whenM (!okLon) (addErrorNoReSync token 45)
  modLast fun r => { r with latLongValid := true }
  assignAzimuth

/-- `resolve_real_bd_point` (F15Parse.py:1243-1259) -/
def resolveRealBdPoint (bearing distance : F) : M σ F Unit := do
  modLast fun r =>
    let p := Utils.getBearingDistanceProjectedPoint r.latitude r.longitude bearing
      (PyFloat.mul distance (PyFloat.ofInt Constants.nmToMeters))
    { r with latitude := p.1, longitude := p.2 }
  assignAzimuth

/-- The common tail of the two `LLBD` branches of `assign_lat_long_bearing_distance`
(F15Parse.py:321-327 and 331-336). -/
def assignBearingDistance (token : Token) (s : Str) : M σ F Unit := do
  let ok ← liftE (Utils.isDegreeSemantics (slice s (-6) (-3)) 360)
  whenM (!ok) (addErrorNoReSync token 46)
  let b : F ← liftE (pyFloat (slice s (-6) (-3)))
  let d : F ← liftE (pyFloat (sliceFrom s (-3)))
  resolveRealBdPoint b d

/-- `assign_lat_long_bearing_distance` (F15Parse.py:285-335) -/
def assignLatLongBearingDistance (token : Token) : M σ F Unit :=
  match token.sub with
  | .PRP_BD => do
    let ok ← liftE (Utils.isDegreeSemantics (slice token.text (-6) (-3)) 360)
    whenM (!ok) (addErrorNoReSync token 46)
  | .LL_DEG => assignLlDeg token token.text
  | .LL_MIN => assignLlDegMin token token.text
  | .LLBD_DEG => do
    assignLlDeg token token.text
    assignBearingDistance token token.text
  | .LLBD_MIN => do
    assignLlDegMin token token.text
    assignBearingDistance token token.text
  | _ => pure ()

/-- The test `sub_type != F15_SB_PRP and sub_type != F15_SB_PRP_AERO` followed by
`assign_lat_long_bearing_distance` (F15Parse.py:1232-1235 and 1641-1644). -/
def checkPosition (token : Token) : M σ F Unit :=
  whenM (token.sub ≠ .PRP ∧ token.sub ≠ .PRP_AERO) (assignLatLongBearingDistance token)

/-! ### The recursive methods

`call` stands for the recursive calls. -/

variable (call : Call → M σ F Unit)

/-- `add_error_and_re_sync` (F15Parse.py:130-145) -/
def addErrorAndReSync (token : Token) (n : Nat) : M σ F Unit := do
  addErrorNoReSync token n
  call .reSync

/-- The first two statements of each speed/level method: apply the level, then the speed. -/
def levelSpeed (token : Token) (level speed : Str) : M σ F Unit := do
  assignAltitude token level false
  assignSpeed speed

/-- `assign_speed_altitude` (F15Parse.py:454-508) -/
def assignSpeedAltitude (token : Token) : M σ F Unit := do
  match ← lastElement with
  | none => pure ()
  | some _ =>
    let s := token.text
    let tail : M σ F Unit := do
      modLast fun r => r.setRules ruleI
      match ← nextToken with
      | none => pure ()
      | some nt =>
        if (← numElements) = 1 then call (.postAdep nt) else call (.postPoint nt)
    match token.sub with
    | .SPEED_ALTITUDE_MF | .SPEED_ALTITUDE_MS | .SPEED_ALTITUDE_MA | .SPEED_ALTITUDE_MM => do
      levelSpeed token (sliceFrom s 4) (slice s 0 4)
      tail
    | .SPEED_ALTITUDE_KS | .SPEED_ALTITUDE_KA | .SPEED_ALTITUDE_KM | .SPEED_ALTITUDE_NS
    | .SPEED_ALTITUDE_NA | .SPEED_ALTITUDE_NM | .SPEED_ALTITUDE_KF | .SPEED_ALTITUDE_NF => do
      levelSpeed token (sliceFrom s 5) (slice s 0 5)
      tail
    | _ => levelSpeed token (py! "X000") (py! "X0000")

/-- Apply level, cruise-climb target level and speed (three statements repeated in
`assign_speed_altitude_altitude`, F15Parse.py:539-541). -/
def levelLevelSpeed (token : Token) (level level2 speed : Str) : M σ F Unit := do
  assignAltitude token level false
  assignAltitude token level2 true
  assignSpeed speed

/-- Common end of `assign_speed_altitude_altitude` (F15Parse.py:573-579) and
`assign_speed_altitude_plus` (626-632). -/
def rulesThenPostPoint : M σ F Unit := do
  modLast fun r => r.setRules ruleI
  match ← nextToken with
  | none => pure ()
  | some nt => call (.postPoint nt)

/-- `assign_speed_altitude_altitude` (F15Parse.py:510-579) -/
def assignSpeedAltitudeAltitude (token : Token) : M σ F Unit := do
  match ← lastElement with
  | none => pure ()
  | some _ =>
    let s := token.text
    match token.sub with
    | .SPEED_ALTITUDE_KFF | .SPEED_ALTITUDE_KFS | .SPEED_ALTITUDE_KFA | .SPEED_ALTITUDE_KFM
    | .SPEED_ALTITUDE_KAF | .SPEED_ALTITUDE_KAS | .SPEED_ALTITUDE_KAA | .SPEED_ALTITUDE_KAM
    | .SPEED_ALTITUDE_NFF | .SPEED_ALTITUDE_NFS | .SPEED_ALTITUDE_NFA | .SPEED_ALTITUDE_NFM
    | .SPEED_ALTITUDE_NAF | .SPEED_ALTITUDE_NAS | .SPEED_ALTITUDE_NAA | .SPEED_ALTITUDE_NAM => do
      levelLevelSpeed token (slice s 5 9) (sliceFrom s 9) (slice s 0 5)
      rulesThenPostPoint call
    | .SPEED_ALTITUDE_KSF | .SPEED_ALTITUDE_KSS | .SPEED_ALTITUDE_KSA | .SPEED_ALTITUDE_KSM
    | .SPEED_ALTITUDE_KMF | .SPEED_ALTITUDE_KMS | .SPEED_ALTITUDE_KMA | .SPEED_ALTITUDE_KMM
    | .SPEED_ALTITUDE_NSF | .SPEED_ALTITUDE_NSS | .SPEED_ALTITUDE_NSA | .SPEED_ALTITUDE_NSM
    | .SPEED_ALTITUDE_NMF | .SPEED_ALTITUDE_NMS | .SPEED_ALTITUDE_NMA | .SPEED_ALTITUDE_NMM => do
      levelLevelSpeed token (slice s 5 10) (sliceFrom s 11) (slice s 0 5)
      rulesThenPostPoint call
    | .SPEED_ALTITUDE_MFF | .SPEED_ALTITUDE_MFS | .SPEED_ALTITUDE_MFA | .SPEED_ALTITUDE_MFM
    | .SPEED_ALTITUDE_MAF | .SPEED_ALTITUDE_MAS | .SPEED_ALTITUDE_MAA | .SPEED_ALTITUDE_MAM => do
      levelLevelSpeed token (slice s 4 8) (sliceFrom s 9) (slice s 0 4)
      rulesThenPostPoint call
    | .SPEED_ALTITUDE_MSF | .SPEED_ALTITUDE_MSS | .SPEED_ALTITUDE_MSA | .SPEED_ALTITUDE_MSM
    | .SPEED_ALTITUDE_MMF | .SPEED_ALTITUDE_MMS | .SPEED_ALTITUDE_MMA | .SPEED_ALTITUDE_MMM => do
      levelLevelSpeed token (slice s 4 9) (sliceFrom s 10) (slice s 0 4)
      rulesThenPostPoint call
    | _ => levelSpeed token (py! "X000") (py! "X000")

/-- Apply level, the text `PLUS` as cruise-climb target, and speed (three statements repeated in
`assign_speed_altitude_plus`, F15Parse.py:604-606). -/
def levelPlusSpeed (token : Token) (level plus speed : Str) : M σ F Unit := do
  assignAltitude token level false
  modLast fun r => { r with cruiseTo := plus }
  assignSpeed speed

/-- `assign_speed_altitude_plus` (F15Parse.py:581-632) -/
def assignSpeedAltitudePlus (token : Token) : M σ F Unit := do
  match ← lastElement with
  | none => pure ()
  | some _ =>
    let s := token.text
    match token.sub with
    | .SPEED_ALTITUDE_KF_P | .SPEED_ALTITUDE_KA_P | .SPEED_ALTITUDE_NF_P | .SPEED_ALTITUDE_NA_P => do
      levelPlusSpeed token (slice s 5 9) (sliceFrom s 9) (slice s 0 5)
      rulesThenPostPoint call
    | .SPEED_ALTITUDE_KS_P | .SPEED_ALTITUDE_KM_P | .SPEED_ALTITUDE_NS_P | .SPEED_ALTITUDE_NM_P => do
      levelPlusSpeed token (slice s 5 10) (sliceFrom s 10) (slice s 0 5)
      rulesThenPostPoint call
    | .SPEED_ALTITUDE_MF_P | .SPEED_ALTITUDE_MA_P => do
      levelPlusSpeed token (slice s 4 8) (sliceFrom s 8) (slice s 0 4)
      rulesThenPostPoint call
    | .SPEED_ALTITUDE_MS_P | .SPEED_ALTITUDE_MM_P => do
      levelPlusSpeed token (slice s 4 9) (sliceFrom s 9) (slice s 0 4)
      rulesThenPostPoint call
    | _ => levelSpeed token (py! "X000") (py! "X000")

/-- The `match sub_type` of `assign_speed_vfr` (F15Parse.py:661-673). `TokenBaseType.F15_SPEED_VFR` in
the first pattern is the integer 3 and therefore also equals `TokenSubType.F15_SB_VFR`. -/
def vfrSpeedRules (token : Token) : M σ F Unit :=
  let s := token.text
  match token.sub with
  | .VFR | .SPEED_ALTITUDE_MV => do
    assignSpeed (slice s 0 4)
    let x ← liftE (rulesOf (slice s 4 5))
    modLast fun r => r.setRules x
  | .SPEED_ALTITUDE_NV | .SPEED_ALTITUDE_KV => do
    assignSpeed (slice s 0 5)
    let x ← liftE (rulesOf (slice s 5 6))
    modLast fun r => r.setRules x
  | _ => do
    assignAltitude token (py! "X000") false
    modLast fun r => r.setRules ruleI

/-- `assign_speed_vfr` (F15Parse.py:634-684) -/
def assignSpeedVfr (token : Token) : M σ F Unit := do
  match ← lastElement with
  | none => pure ()
  | some _ =>
    addRecord { token with text := py! "VFR" }
    assignAltitude token defaultAltitude false
    vfrSpeedRules token
    let v ← getLast
    modPrev fun p => { p with speed := v.speed, speedSi := v.speedSi,
                              altitude := v.altitude, altitudeSi := v.altitudeSi }
    match ← nextToken with
    | none => pure ()
    | some nt => call (.breakTextSave nt)

/-- The last statements of `break_end` (F15Parse.py:752-757). -/
def breakEndTail : M σ F Unit := do
  match ← nextToken with
  | none => pure ()
  | some nt => call (.point nt)

/-- `break_end` (F15Parse.py:686-757) -/
def breakEnd (token : Token) : M σ F Unit := do
  match ← peekToken 1 with
  | none => pure ()
  | some rcp =>
    if rcp.base ≠ .POINT then pure ()
    else if token.sub = .IFR then do
      match ← peekToken 2 with
      | none => call (.addErrorAndReSync rcp 22)
      | some sl =>
        if sl.base ≠ .SLASH then pure ()
        else do
          match ← peekToken 3 with
          | none => call (.addErrorAndReSync rcp 22)
          | some sp =>
            if sp.base ≠ .SPEED_ALTITUDE ∧ sp.base ≠ .SPEED_VFR then
              call (.addErrorAndReSync rcp 22)
            else if sp.base = .SPEED_ALTITUDE then do
              call .vToI
              breakEndTail call
            else if sp.base = .SPEED_VFR then do
              call .vToIToV
              breakEndTail call
            else breakEndTail call
    else breakEndTail call

/-- `break_end_error` (F15Parse.py:759-780) -/
def breakEndError (token : Token) : M σ F Unit :=
  if token.sub = .IFR then call (.addErrorAndReSync token 6)
  else if token.sub = .GAT then call (.addErrorAndReSync token 7)
  else if token.sub = .IFPSTART then call (.addErrorAndReSync token 8)
  else pure ()

/-- `break_start` (F15Parse.py:782-819) -/
def breakStart (token : Token) : M σ F Unit := do
  addRecord token
  modLast fun r =>
    match token.sub with
    | .OAT => r.setRules ruleO
    | .VFR => r.setRules ruleV
    | .IFPSTOP => r.setRules ruleS
    | _ => r
  match ← nextToken with
  | none => pure ()
  | some nt =>
    if nt.base = .TOO_LONG then call (.addErrorAndReSync nt 4)
    else call (.breakTextSave nt)

/-- `break_text_save` (F15Parse.py:821-868) -/
def breakTextSave (token : Token) : M σ F Unit := do
  whenM (token.base = .TOO_LONG) (call (.addErrorAndReSync token 4))
  modLast fun r => r.appendBreakText token.text
  let last ← getLast
  whenM (endsBreak token.sub last.rules) (call (.breakEnd token))
  match ← nextToken with
  | none => pure ()
  | some nt => call (.breakTextSave nt)

/-- `cruise_climb_c` (F15Parse.py:889-965) -/
def cruiseClimbC (token : Token) : M σ F Unit := do
  match ← nextToken with
  | none => addRecord token
  | some nt =>
    match nt.base with
    | .UNKNOWN => call (.addErrorAndReSync nt 3)
    | .SLASH => do
      match ← nextToken with
      | none => do
        addRecord token
        call (.addErrorAndReSync nt 52)
      | some nt2 => call (.cruiseClimbPoint nt2)
    | .BREAK_START => do addRecord token; call (.breakStart nt)
    | .SPEED_VFR | .SPEED_ALTITUDE => call (.addErrorAndReSync nt 5)
    | .BREAK_END => call (.breakEndError nt)
    | .DCT => do addRecord token; call (.dct nt)
    | .STAY => do addRecord token; call (.stay nt)
    | .TRUNCATE => do addRecord token; call .truncate
    | .C => do addRecord token; call (.cruiseClimbC nt)
    | .POINT => do addRecord token; call (.point nt)
    | .ROUTE => do addRecord token; call (.route nt)
    | .SID_STAR => do addRecord token; call (.sidStar nt)
    | .SPEED_ALTITUDE_ALTITUDE | .SPEED_ALTITUDE_PLUS => call (.addErrorAndReSync nt 9)
    | .TOO_LONG => call (.addErrorAndReSync nt 4)
    | .STAY_TIME => call (.addErrorAndReSync nt 10)
    | .SID => do addRecord token; call (.sid nt)
    | .STAR => do addRecord token; call (.star nt)

/-- `cruise_climb_point` (F15Parse.py:967-1011) -/
def cruiseClimbPoint (token : Token) : M σ F Unit := do
  addRecord token
  assignLatLongBearingDistance token
  match ← nextToken with
  | none => call (.addErrorAndReSync token 27)
  | some nt => do
    whenM (nt.base ≠ .SLASH) (call (.addErrorAndReSync nt 26))
    match ← nextToken with
    | none => call (.addErrorAndReSync token 28)
    | some nt2 => do
      if nt2.base = .SPEED_ALTITUDE_ALTITUDE then call (.assignSpeedAltitudeAltitude nt2)
      else if nt2.base = .SPEED_ALTITUDE_PLUS then call (.assignSpeedAltitudePlus nt2)
      else call (.addErrorAndReSync nt2 29)
      match ← nextToken with
      | none => pure ()
      | some nt3 => call (.point nt3)

/-- `dct` (F15Parse.py:1013-1037) -/
def dct (token : Token) : M σ F Unit := do
  addRecord token
  match ← nextToken with
  | none => pure ()
  | some nt =>
    match nt.base with
    | .TRUNCATE => call .truncate
    | .POINT => call (.point nt)
    | .C => call (.cruiseClimbC nt)
    | _ => call (.addErrorAndReSync nt 21)

/-- `forward_slash` (F15Parse.py:1039-1077) -/
def forwardSlash (token : Token) : M σ F Unit := do
  match ← nextToken with
  | none => call (.addErrorAndReSync token 20)
  | some nt =>
    match nt.base with
    | .UNKNOWN => call (.addErrorAndReSync nt 3)
    | .SLASH => call (.addErrorAndReSync nt 16)
    | .SPEED_VFR => call (.assignSpeedVfr nt)
    | .SPEED_ALTITUDE => call (.assignSpeedAltitude nt)
    | .TOO_LONG => call (.addErrorAndReSync nt 4)
    | _ => call (.addErrorAndReSync nt 50)

/-- `post_adep` (F15Parse.py:1079-1121) -/
def postAdep (token : Token) : M σ F Unit :=
  match token.base with
  | .UNKNOWN => call (.addErrorAndReSync token 3)
  | .SLASH | .BREAK_START | .SPEED_VFR | .SPEED_ALTITUDE | .BREAK_END | .STAY | .C =>
    call (.addErrorAndReSync token 23)
  | .DCT => call (.dct token)
  | .TRUNCATE => call .truncate
  | .POINT => call (.point token)
  | .ROUTE => call (.addErrorAndReSync token 24)
  | .SID_STAR => call (.sidStar token)
  | .SPEED_ALTITUDE_ALTITUDE | .SPEED_ALTITUDE_PLUS => call (.addErrorAndReSync token 9)
  | .TOO_LONG => call (.addErrorAndReSync token 4)
  | .STAY_TIME => call (.addErrorAndReSync token 10)
  | .SID => call (.sid token)
  | .STAR => call (.star token)

/-- `post_point` (F15Parse.py:1123-1177) -/
def postPoint (token : Token) : M σ F Unit :=
  match token.base with
  | .UNKNOWN => call (.addErrorAndReSync token 3)
  | .SLASH => call (.forwardSlash token)
  | .BREAK_START => call (.breakStart token)
  | .SPEED_VFR | .SPEED_ALTITUDE => call (.addErrorAndReSync token 5)
  | .BREAK_END => call (.breakEndError token)
  | .DCT => call (.dct token)
  | .STAY => call (.stay token)
  | .TRUNCATE => call .truncate
  | .C => call (.cruiseClimbC token)
  | .POINT => call (.point token)
  | .ROUTE => do
    let last ← getLast
    if isLlOrBd last.sub then call (.addErrorAndReSync token 47) else call (.route token)
  | .SID_STAR => call (.sidStar token)
  | .SPEED_ALTITUDE_ALTITUDE | .SPEED_ALTITUDE_PLUS => call (.addErrorAndReSync token 9)
  | .TOO_LONG => call (.addErrorAndReSync token 4)
  | .STAY_TIME => call (.addErrorAndReSync token 10)
  | .SID => call (.sid token)
  | .STAR => call (.star token)

/-- `post_sid` (F15Parse.py:1179-1215) -/
def postSid : M σ F Unit := do
  match ← nextToken with
  | none => pure ()
  | some nt =>
    match nt.base with
    | .TRUNCATE => call .truncate
    | .POINT => call (.point nt)
    | .ROUTE => call (.route nt)
    | .SID_STAR => call (.sidStar nt)
    | .TOO_LONG => call (.addErrorAndReSync nt 4)
    | .SID => call (.addErrorAndReSync nt 32)
    | .STAR => call (.star nt)
    | _ => call (.addErrorAndReSync nt 31)

/-- `point` (F15Parse.py:1217-1241) -/
def point (token : Token) : M σ F Unit := do
  addRecord token
  modLast fun r => r.setRules ruleI
  checkPosition token
  match ← nextToken with
  | none => pure ()
  | some nt => call (.postPoint nt)

/-- `re_sync_parser_after_error` (F15Parse.py:1261-1337) -/
def reSync : M σ F Unit := do
  match ← nextToken with
  | none => pure ()
  | some token =>
    match token.base with
    | .UNKNOWN => call (.addErrorAndReSync token 3)
    | .SLASH => do
      match ← nextToken with
      | none => call (.addErrorAndReSync token 25)
      | some nt =>
        match nt.base with
        | .SPEED_VFR => call (.assignSpeedVfr nt)
        | .POINT => call (.point nt)
        | .SPEED_ALTITUDE => call (.assignSpeedAltitude nt)
        | .SPEED_ALTITUDE_ALTITUDE => call (.assignSpeedAltitudeAltitude nt)
        | .SPEED_ALTITUDE_PLUS => call (.assignSpeedAltitudePlus nt)
        | _ => call (.addErrorAndReSync nt 11)
    | .BREAK_START => call (.breakStart token)
    | .SPEED_VFR => call (.assignSpeedVfr token)
    | .BREAK_END => call (.breakEnd token)
    | .DCT => call (.dct token)
    | .STAY => call (.stay token)
    | .TRUNCATE => call .truncate
    | .C => call (.cruiseClimbC token)
    | .POINT => call (.point token)
    | .ROUTE => call (.route token)
    | .SID_STAR => call (.sidStar token)
    | .SPEED_ALTITUDE => call (.assignSpeedAltitude token)
    | .SPEED_ALTITUDE_ALTITUDE => call (.assignSpeedAltitudeAltitude token)
    | .SPEED_ALTITUDE_PLUS => call (.assignSpeedAltitudePlus token)
    | .TOO_LONG => call (.addErrorAndReSync token 4)
    | .STAY_TIME => call (.addErrorAndReSync token 10)
    | .SID => call (.sid token)
    | .STAR => call (.star token)

/-- `route` (F15Parse.py:1339-1398) -/
def route (token : Token) : M σ F Unit := do
  addRecord token
  modLast fun r => r.setRules ruleI
  match ← nextToken with
  | none => pure ()
  | some nt =>
    match nt.base with
    | .UNKNOWN => call (.addErrorAndReSync nt 3)
    | .SLASH => call (.addErrorAndReSync nt 12)
    | .BREAK_START => call (.addErrorAndReSync nt 13)
    | .SPEED_VFR => call (.addErrorAndReSync nt 13)
    | .SPEED_ALTITUDE => call (.addErrorAndReSync nt 55)
    | .BREAK_END => call (.breakEndError nt)
    | .DCT => call (.addErrorAndReSync nt 14)
    | .STAY => call (.addErrorAndReSync nt 15)
    | .TRUNCATE => call .truncate
    | .C => call (.cruiseClimbC nt)
    | .POINT => do
      whenM (isLlOrBd nt.sub) (call (.addErrorAndReSync nt 48))
      call (.point nt)
    | .ROUTE => call (.addErrorAndReSync nt 53)
    | .SID_STAR | .STAR => call (.addErrorAndReSync nt 54)
    | .SPEED_ALTITUDE_ALTITUDE | .SPEED_ALTITUDE_PLUS => call (.addErrorAndReSync nt 9)
    | .TOO_LONG => call (.addErrorAndReSync nt 4)
    | .STAY_TIME => call (.addErrorAndReSync nt 10)
    | .SID => call (.addErrorAndReSync nt 30)

/-- The two statements that classify the last element as a SID (F15Parse.py:1433-1438, 1463-1468). -/
def markSid (text : Str) : M σ F Unit :=
  modLast fun r => { r with base := .SID, sub := if text = py! "SID" then .SID_LITERAL else .SID }

/-- The two statements that classify the last element as a STAR (F15Parse.py:1474-1479, 1502-1507). -/
def markStar (text : Str) : M σ F Unit :=
  modLast fun r => { r with base := .STAR, sub := if text = py! "STAR" then .STAR_LITERAL else .STAR }

/-- `sid` (F15Parse.py:1416-1441). `get_element_at(1)` of a two-element ERS is its last element, whose
name is the text of `token`. -/
def sid (token : Token) : M σ F Unit := do
  addRecord token
  if (← numElements) = 2 then do
    markSid token.text
    call .postSid
  else call (.addErrorAndReSync token 30)

/-- `sid_star` (F15Parse.py:1443-1481) -/
def sidStar (token : Token) : M σ F Unit := do
  addRecord token
  if (← numElements) = 2 then do
    markSid token.text
    call .postSid
  else do
    match ← peekToken 1 with
    | none => markStar token.text
    | some pk => call (.addErrorAndReSync pk 34)

/-- `star` (F15Parse.py:1483-1509) -/
def star (token : Token) : M σ F Unit := do
  addRecord token
  match ← peekToken 1 with
  | none => markStar token.text
  | some pk => call (.addErrorAndReSync pk 34)

/-- `stay` (F15Parse.py:1511-1549) -/
def stay (token : Token) : M σ F Unit := do
  match ← nextToken with
  | none => call (.addErrorAndReSync token 35)
  | some nt =>
    if nt.base ≠ .SLASH then call (.addErrorAndReSync nt 36)
    else do
      match ← nextToken with
      | none => call (.addErrorAndReSync nt 37)
      | some nt2 =>
        if nt2.base ≠ .STAY_TIME then call (.addErrorAndReSync nt2 38)
        else call (.stayTime nt2)

/-- `stay_time` (F15Parse.py:1551-1603) -/
def stayTime (token : Token) : M σ F Unit := do
  saveStayTime token.text
  match ← nextToken with
  | none => pure ()
  | some nt =>
    match nt.base with
    | .UNKNOWN => call (.addErrorAndReSync nt 3)
    | .BREAK_START => call (.breakStart nt)
    | .BREAK_END => call (.breakEndError nt)
    | .DCT => call (.dct nt)
    | .TRUNCATE => call .truncate
    | .C => call (.cruiseClimbC nt)
    | .POINT => call (.point nt)
    | .ROUTE => call (.route nt)
    | .SID_STAR => call (.sidStar nt)
    | .TOO_LONG => call (.addErrorAndReSync nt 4)
    | .SID => call (.sid nt)
    | .STAR => call (.star nt)
    | _ => call (.addErrorAndReSync nt 39)

/-- `truncate` (F15Parse.py:1605-1620) -/
def truncate : M σ F Unit := do
  match ← nextToken with
  | none => pure ()
  | some nt => call (.addErrorAndReSync nt 19)

/-- `v_to_i_rule_change` (F15Parse.py:1622-1655). The tokens exist because `break_end` has peeked at
them; using `None` as a token would raise `AttributeError`. -/
def vToI : M σ F Unit := do
  match ← nextToken with
  | none => throw .attributeError
  | some token => do
    addRecord token
    checkPosition token
    modLast fun r => r.setRules ruleI
    let _ ← nextToken
    match ← nextToken with
    | none => throw .attributeError
    | some sp => call (.assignSpeedAltitude sp)

/-- `v_to_i_to_v_rule_change` (F15Parse.py:1657-1687) -/
def vToIToV : M σ F Unit := do
  match ← nextToken with
  | none => throw .attributeError
  | some token => do
    addRecord token
    modLast fun r => r.setRules ruleI
    let _ ← nextToken
    match ← nextToken with
    | none => throw .attributeError
    | some sp => call (.assignSpeedVfr sp)

/-- Method dispatch. -/
def step : Call → M σ F Unit
  | .addErrorAndReSync t n => addErrorAndReSync call t n
  | .assignSpeedAltitude t => assignSpeedAltitude call t
  | .assignSpeedAltitudeAltitude t => assignSpeedAltitudeAltitude call t
  | .assignSpeedAltitudePlus t => assignSpeedAltitudePlus call t
  | .assignSpeedVfr t => assignSpeedVfr call t
  | .breakEnd t => breakEnd call t
  | .breakEndError t => breakEndError call t
  | .breakStart t => breakStart call t
  | .breakTextSave t => breakTextSave call t
  | .cruiseClimbC t => cruiseClimbC call t
  | .cruiseClimbPoint t => cruiseClimbPoint call t
  | .dct t => dct call t
  | .forwardSlash t => forwardSlash call t
  | .postAdep t => postAdep call t
  | .postPoint t => postPoint call t
  | .postSid => postSid call
  | .point t => point call t
  | .reSync => reSync call
  | .route t => route call t
  | .sid t => sid call t
  | .sidStar t => sidStar call t
  | .star t => star call t
  | .stay t => stay call t
  | .stayTime t => stayTime call t
  | .truncate => truncate call
  | .vToI => vToI call
  | .vToIToV => vToIToV call

end

/-- Run a method with `n` stack frames available; without a frame `RecursionError` is raised at once. -/
def exec {σ F : Type} [TokStream σ] [PyFloat F] : Nat → Call → M σ F Unit
  | 0, _ => fun s => (.error .recursionError, s)
  | n + 1, c => step (exec n) c

section
variable {F : Type} [PyFloat F]

/-- `token.set_token_base_type(b)` for the token at place `i` (F15Parse.py:1702, 1705). -/
def setBase (i : Nat) (b : BaseType) : M Tokens F Unit :=
  prim fun s => .ok ((), { s with toks := { s.toks with toks := s.toks.toks.modify i fun t => { t with base := b } } })

/-- `token.set_token_sub_type(b)` for the token at place `i` (F15Parse.py:1703, 1706). -/
def setSub (i : Nat) (b : SubType) : M Tokens F Unit :=
  prim fun s => .ok ((), { s with toks := { s.toks with toks := s.toks.toks.modify i fun t => { t with sub := b } } })

/-- `assign_syntax_descriptions` (F15Parse.py:1689-1706), from place `i` on; `l` are the tokens from there. -/
def assignTypes (i : Nat) : List Token → M Tokens F Unit
  | [] => pure ()
  | t :: l => do
    setBase i (getTokenType t.text).1
    setSub i (getTokenType t.text).2
    whenM (t.text.length > maxTokenLength) (do setBase i .TOO_LONG; setSub i .UNKNOWN)
    assignTypes (i + 1) l

/-- `tokens.get_first_token()` (Tokens.py:79-86) -/
def firstToken : M Tokens F (Option Token) := prim fun s =>
  match s.toks.getFirstToken with
  | (.ok t, ts) => .ok (t, { s with toks := ts })
  | (.error x, _) => .error x

/-- `ers.add_error("NULL", 0, 0, ...)` (F15Parse.py:84-86) -/
def addNullError : M Tokens F Unit := prim fun s =>
  match errorMessage 41 with
  | none => .error .keyError
  | some m => .ok ((), { s with ers := s.ers.addError (py! "NULL") 0 0 .UNKNOWN .UNKNOWN m })

/-- `ers.add_dummy_ades()` (ExtractedRouteSequence.py:39-45) -/
def addAdes : M Tokens F Unit := prim fun s => .ok ((), { s with ers := s.ers.addDummyAdes })

/-- `ers.get_first_element().set_flight_rules(...)` (F15Parse.py:91) -/
def setFirst (x : Str) : M Tokens F Unit := prim fun s =>
  match setFirstRules s.ers x with
  | .ok e => .ok ((), { s with ers := e })
  | .error y => .error y

/-- `ers.get_previous_to_last_element()` (ExtractedRouteSequence.py:180-190) -/
def previousToLast : M Tokens F (Option (Record F)) := prim fun s =>
  match s.ers.getPreviousToLastElement with
  | .ok r => .ok (r, s)
  | .error y => .error y

/-- `ers.get_first_element()` (ExtractedRouteSequence.py:152-160) -/
def firstElement : M Tokens F (Option (Record F)) := prim fun s =>
  match s.ers.getFirstElement with
  | .ok r => .ok (r, s)
  | .error y => .error y

/-- `ades.set_flight_rules(...)` (F15Parse.py:107) -/
def setLastRules (x : Str) : M Tokens F Unit := prim fun s =>
  .ok ((), { s with ers := { s.ers with recs := match s.ers.recs with
    | ades :: rs => ades.setRules x :: rs
    | [] => [] } })

/-- The flight rules of all elements (F15Parse.py:112, 118). -/
def allRules : M Tokens F (List Str) := prim fun s => .ok (s.ers.elements.map (·.rules), s)

/-- `ers.set_derived_flight_rules(x)` (ExtractedRouteSequence.py:135-142) -/
def setDerived (x : Str) : M Tokens F Unit := prim fun s => .ok ((), { s with ers := s.ers.setDerived x })

/-- `ers.get_number_of_errors() == 0` (F15Parse.py:106, 124) -/
def noErrors : M Tokens F Bool := prim fun s => .ok (decide (s.ers.numberOfErrors = 0), s)

/-- The dispatch of `parse_f15` on the first token (F15Parse.py:88-99); `number` is `tokens.get_number_of_tokens()`. -/
def dispatch (frames : Nat) (number : Nat) (token : Token) : M Tokens F Unit :=
  match token.base with
  | .SPEED_VFR => do
    exec frames (.assignSpeedVfr token)
    setFirst (py! "VFR")
  | .SPEED_ALTITUDE => do
    exec frames (.assignSpeedAltitude token)
    if number = 1 then exec frames (.addErrorAndReSync token 49) else pure ()
  | _ => exec frames (.addErrorAndReSync token 1)

/-- The end of `parse_f15` (F15Parse.py:101-124). -/
def finish : M Tokens F Bool := do
  addAdes
  match ← previousToLast with
  | none => noErrors
  | some previous => do
    setLastRules previous.rules
    match ← firstElement with
    | none => throw .attributeError
    | some first => do
      let rules ← allRules
      if first.rules = py! "VFR" then do
        setDerived (py! "V")
        whenM (rules.contains (py! "IFR")) (setDerived (py! "Z"))
        noErrors
      else do
        setDerived (py! "I")
        whenM (rules.contains (py! "VFR")) (setDerived (py! "Y"))
        noErrors

/-- `parse_f15` (F15Parse.py:52-128) on tokens `l`. -/
def parse (frames : Nat) (l : List Token) : M Tokens F Bool := do
  assignTypes 0 l
  match ← firstToken with
  | none => do
    addNullError
    addAdes
    pure false
  | some token => do
    dispatch frames l.length token
    finish

/-- `parse_f15` (F15Parse.py:52-128) with `frames` stack frames and an exception from outside or none: the Boolean result or the exception, and
the two objects after the call in both cases. -/
def parseF15 (frames : Nat) (strike : Option Strike) (e : Ers F) (tokens : Tokens) : Except PyErr Bool × Ers F × Tokens :=
  let r := parse frames tokens.toks ⟨⟨e, tokens⟩, strike⟩
  (r.1, r.2.st.ers, r.2.st.toks)

end
end F15.Crash
