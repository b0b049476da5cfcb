import Verif.Model.Ers
import Verif.Model.Token
/-!
# The getters and setters of `ExtractedRouteRecord` and `Token`, as Python runs them

Generated by tools/gen_accessors.py from the source. An object is its `__dict__`; reading an attribute that the object does not have
gives the value the class has for it. `x = v` in a method writes to the object only.
-/

set_option linter.unusedVariables false
namespace F15
variable {F : Type} [PyFloat F]

/-- The attributes of `ExtractedRouteRecord` (ExtractedRouteRecord.py:18-79). -/
inductive RecAttr
  | string | start_index | end_index | base_type | sub_type | altitude | altitude_si | speed | speed_si | break_text | flight_rules | error_text | stay_time | altitude_cruise_to | altitude_cruise_to_si | latitude | longitude | bearing | distance | lat_long_valid
deriving DecidableEq, Repr

/-- The types of their values, as documented there (SI values: see `Record`). -/
@[reducible] def RecAttr.ty (F : Type) : RecAttr → Type
  | .string => Str
  | .start_index => Nat
  | .end_index => Nat
  | .base_type => BaseType
  | .sub_type => SubType
  | .altitude => Str
  | .altitude_si => Int
  | .speed => Str
  | .speed_si => Int
  | .break_text => Str
  | .flight_rules => Str
  | .error_text => Str
  | .stay_time => Int
  | .altitude_cruise_to => Str
  | .altitude_cruise_to_si => Int
  | .latitude => F
  | .longitude => F
  | .bearing => F
  | .distance => F
  | .lat_long_valid => Bool

/-- The values of the class attributes (ExtractedRouteRecord.py:18-79). (Simplified: the default `0` of the two types is written UNKNOWN; the constructor
replaces it.) -/
def RecAttr.default : (a : RecAttr) → a.ty F
  | .string => []
  | .start_index => 0
  | .end_index => 0
  | .base_type => .UNKNOWN
  | .sub_type => .UNKNOWN
  | .altitude => []
  | .altitude_si => 0
  | .speed => []
  | .speed_si => 0
  | .break_text => []
  | .flight_rules => []
  | .error_text => []
  | .stay_time => 0
  | .altitude_cruise_to => []
  | .altitude_cruise_to_si => 0
  | .latitude => fzero
  | .longitude => fzero
  | .bearing => fzero
  | .distance => fzero
  | .lat_long_valid => false

/-- The `__dict__` of an object of class `ExtractedRouteRecord` (ExtractedRouteRecord.py:18-79). -/
def RecObj (F : Type) := (a : RecAttr) → Option (a.ty F)

/-- `self.a`: the attribute of the object, else that of the class (ExtractedRouteRecord.py:18-79). -/
def RecObj.read (o : RecObj F) (a : RecAttr) : a.ty F := (o a).getD a.default

/-- `self.a = v` in the methods of ExtractedRouteRecord.py. -/
def RecObj.write (o : RecObj F) (a : RecAttr) (v : a.ty F) : RecObj F :=
  fun b => if h : b = a then some (h ▸ v) else o b

/-- `ExtractedRouteRecord.__init__` (ExtractedRouteRecord.py:81-97), on a new object. -/
def RecObj.init (string : Str) (start_index end_index : Nat) (base_type : BaseType) (sub_type : SubType) : RecObj F :=
  let o : RecObj F := fun _ => none
  let o := o.write .string string
  let o := o.write .start_index start_index
  let o := o.write .end_index end_index
  let o := o.write .base_type base_type
  o.write .sub_type sub_type

/-- `ExtractedRouteRecord.append_break_text` (ExtractedRouteRecord.py:100-113) -/
def RecObj.append_break_text (o : RecObj F) (v : Str) : RecObj F :=
  if o.read .break_text = [] then o.write .break_text v
  else o.write .break_text (o.read .break_text ++ py! " " ++ v)

/-- `ExtractedRouteRecord.append_error_text` (ExtractedRouteRecord.py:115-124) -/
def RecObj.append_error_text (o : RecObj F) (v : Str) : RecObj F :=
  if o.read .error_text = [] then o.write .error_text v
  else o.write .error_text (o.read .error_text ++ py! " " ++ v)

/-- `ExtractedRouteRecord.set_stay_time` (ExtractedRouteRecord.py:459-466): the right-hand side is evaluated first, so when `int` raises,
the object is as before. -/
def RecObj.set_stay_time (o : RecObj F) (s : Str) : Except PyErr (RecObj F) := do
  let h ← pyInt (slice s 0 2)
  let m ← pyInt (sliceFrom s 2)
  pure (o.write .stay_time (h * 60 + m))

/-- `ExtractedRouteRecord.get_altitude` (ExtractedRouteRecord.py:126-132) -/
def RecObj.get_altitude (o : RecObj F) : Str := o.read .altitude

/-- `ExtractedRouteRecord.get_altitude_cruise_to` (ExtractedRouteRecord.py:134-140) -/
def RecObj.get_altitude_cruise_to (o : RecObj F) : Str := o.read .altitude_cruise_to

/-- `ExtractedRouteRecord.get_altitude_cruise_to_si` (ExtractedRouteRecord.py:142-148) -/
def RecObj.get_altitude_cruise_to_si (o : RecObj F) : Int := o.read .altitude_cruise_to_si

/-- `ExtractedRouteRecord.get_altitude_si` (ExtractedRouteRecord.py:150-156) -/
def RecObj.get_altitude_si (o : RecObj F) : Int := o.read .altitude_si

/-- `ExtractedRouteRecord.get_base_type` (ExtractedRouteRecord.py:158-164) -/
def RecObj.get_base_type (o : RecObj F) : BaseType := o.read .base_type

/-- `ExtractedRouteRecord.get_bearing` (ExtractedRouteRecord.py:166-172) -/
def RecObj.get_bearing (o : RecObj F) : F := o.read .bearing

/-- `ExtractedRouteRecord.get_break_text` (ExtractedRouteRecord.py:174-182) -/
def RecObj.get_break_text (o : RecObj F) : Str := o.read .break_text

/-- `ExtractedRouteRecord.get_distance` (ExtractedRouteRecord.py:184-190) -/
def RecObj.get_distance (o : RecObj F) : F := o.read .distance

/-- `ExtractedRouteRecord.get_end_index` (ExtractedRouteRecord.py:192-198) -/
def RecObj.get_end_index (o : RecObj F) : Nat := o.read .end_index

/-- `ExtractedRouteRecord.get_error_text` (ExtractedRouteRecord.py:200-205) -/
def RecObj.get_error_text (o : RecObj F) : Str := o.read .error_text

/-- `ExtractedRouteRecord.get_flight_rules` (ExtractedRouteRecord.py:207-212) -/
def RecObj.get_flight_rules (o : RecObj F) : Str := o.read .flight_rules

/-- `ExtractedRouteRecord.get_latitude` (ExtractedRouteRecord.py:214-220) -/
def RecObj.get_latitude (o : RecObj F) : F := o.read .latitude

/-- `ExtractedRouteRecord.get_longitude` (ExtractedRouteRecord.py:222-228) -/
def RecObj.get_longitude (o : RecObj F) : F := o.read .longitude

/-- `ExtractedRouteRecord.get_name` (ExtractedRouteRecord.py:230-236) -/
def RecObj.get_name (o : RecObj F) : Str := o.read .string

/-- `ExtractedRouteRecord.get_speed` (ExtractedRouteRecord.py:238-244) -/
def RecObj.get_speed (o : RecObj F) : Str := o.read .speed

/-- `ExtractedRouteRecord.get_speed_si` (ExtractedRouteRecord.py:246-252) -/
def RecObj.get_speed_si (o : RecObj F) : Int := o.read .speed_si

/-- `ExtractedRouteRecord.get_start_index` (ExtractedRouteRecord.py:254-260) -/
def RecObj.get_start_index (o : RecObj F) : Nat := o.read .start_index

/-- `ExtractedRouteRecord.get_stay_time` (ExtractedRouteRecord.py:262-268) -/
def RecObj.get_stay_time (o : RecObj F) : Int := o.read .stay_time

/-- `ExtractedRouteRecord.get_sub_type` (ExtractedRouteRecord.py:270-276) -/
def RecObj.get_sub_type (o : RecObj F) : SubType := o.read .sub_type

/-- `ExtractedRouteRecord.is_lat_long_valid` (ExtractedRouteRecord.py:278-284) -/
def RecObj.is_lat_long_valid (o : RecObj F) : Bool := o.read .lat_long_valid

/-- `ExtractedRouteRecord.set_altitude` (ExtractedRouteRecord.py:287-294) -/
def RecObj.set_altitude (o : RecObj F) (v : Str) : RecObj F := o.write .altitude v

/-- `ExtractedRouteRecord.set_altitude_cruise_to` (ExtractedRouteRecord.py:297-304) -/
def RecObj.set_altitude_cruise_to (o : RecObj F) (v : Str) : RecObj F := o.write .altitude_cruise_to v

/-- `ExtractedRouteRecord.set_altitude_cruise_to_si` (ExtractedRouteRecord.py:307-315) -/
def RecObj.set_altitude_cruise_to_si (o : RecObj F) (v : Int) : RecObj F := o.write .altitude_cruise_to_si v

/-- `ExtractedRouteRecord.set_altitude_si` (ExtractedRouteRecord.py:317-324) -/
def RecObj.set_altitude_si (o : RecObj F) (v : Int) : RecObj F := o.write .altitude_si v

/-- `ExtractedRouteRecord.set_base_type` (ExtractedRouteRecord.py:326-334) -/
def RecObj.set_base_type (o : RecObj F) (v : BaseType) : RecObj F := o.write .base_type v

/-- `ExtractedRouteRecord.set_bearing` (ExtractedRouteRecord.py:336-343) -/
def RecObj.set_bearing (o : RecObj F) (v : F) : RecObj F := o.write .bearing v

/-- `ExtractedRouteRecord.set_break_text` (ExtractedRouteRecord.py:345-354) -/
def RecObj.set_break_text (o : RecObj F) (v : Str) : RecObj F := o.write .break_text v

/-- `ExtractedRouteRecord.set_distance` (ExtractedRouteRecord.py:356-363) -/
def RecObj.set_distance (o : RecObj F) (v : F) : RecObj F := o.write .distance v

/-- `ExtractedRouteRecord.set_end_index` (ExtractedRouteRecord.py:365-372) -/
def RecObj.set_end_index (o : RecObj F) (v : Nat) : RecObj F := o.write .end_index v

/-- `ExtractedRouteRecord.set_error_text` (ExtractedRouteRecord.py:375-381) -/
def RecObj.set_error_text (o : RecObj F) (v : Str) : RecObj F := o.write .error_text v

/-- `ExtractedRouteRecord.set_flight_rules` (ExtractedRouteRecord.py:384-390) -/
def RecObj.set_flight_rules (o : RecObj F) (v : Str) : RecObj F := o.write .flight_rules v

/-- `ExtractedRouteRecord.set_latitude` (ExtractedRouteRecord.py:392-399) -/
def RecObj.set_latitude (o : RecObj F) (v : F) : RecObj F := o.write .latitude v

/-- `ExtractedRouteRecord.set_lat_long_valid` (ExtractedRouteRecord.py:401-408) -/
def RecObj.set_lat_long_valid (o : RecObj F) (v : Bool) : RecObj F := o.write .lat_long_valid v

/-- `ExtractedRouteRecord.set_longitude` (ExtractedRouteRecord.py:411-418) -/
def RecObj.set_longitude (o : RecObj F) (v : F) : RecObj F := o.write .longitude v

/-- `ExtractedRouteRecord.set_name` (ExtractedRouteRecord.py:420-427) -/
def RecObj.set_name (o : RecObj F) (v : Str) : RecObj F := o.write .string v

/-- `ExtractedRouteRecord.set_speed` (ExtractedRouteRecord.py:430-437) -/
def RecObj.set_speed (o : RecObj F) (v : Str) : RecObj F := o.write .speed v

/-- `ExtractedRouteRecord.set_speed_si` (ExtractedRouteRecord.py:439-446) -/
def RecObj.set_speed_si (o : RecObj F) (v : Int) : RecObj F := o.write .speed_si v

/-- `ExtractedRouteRecord.set_start_index` (ExtractedRouteRecord.py:448-455) -/
def RecObj.set_start_index (o : RecObj F) (v : Nat) : RecObj F := o.write .start_index v

/-- `ExtractedRouteRecord.set_sub_type` (ExtractedRouteRecord.py:468-476) -/
def RecObj.set_sub_type (o : RecObj F) (v : SubType) : RecObj F := o.write .sub_type v

/-- A call of one of the methods that change a record (ExtractedRouteRecord.py:100-124, 286-476). -/
inductive RecCall (F : Type)
  | set_altitude (v : Str)
  | set_altitude_cruise_to (v : Str)
  | set_altitude_cruise_to_si (v : Int)
  | set_altitude_si (v : Int)
  | set_base_type (v : BaseType)
  | set_bearing (v : F)
  | set_break_text (v : Str)
  | set_distance (v : F)
  | set_end_index (v : Nat)
  | set_error_text (v : Str)
  | set_flight_rules (v : Str)
  | set_latitude (v : F)
  | set_lat_long_valid (v : Bool)
  | set_longitude (v : F)
  | set_name (v : Str)
  | set_speed (v : Str)
  | set_speed_si (v : Int)
  | set_start_index (v : Nat)
  | set_sub_type (v : SubType)
  | append_break_text (v : Str)
  | append_error_text (v : Str)
  | set_stay_time (s : Str)

/-- What the call does to the object (ExtractedRouteRecord.py:100-124, 286-476). -/
def RecCall.run : RecCall F → RecObj F → Except PyErr (RecObj F)
  | .set_altitude v, o => .ok (o.set_altitude v)
  | .set_altitude_cruise_to v, o => .ok (o.set_altitude_cruise_to v)
  | .set_altitude_cruise_to_si v, o => .ok (o.set_altitude_cruise_to_si v)
  | .set_altitude_si v, o => .ok (o.set_altitude_si v)
  | .set_base_type v, o => .ok (o.set_base_type v)
  | .set_bearing v, o => .ok (o.set_bearing v)
  | .set_break_text v, o => .ok (o.set_break_text v)
  | .set_distance v, o => .ok (o.set_distance v)
  | .set_end_index v, o => .ok (o.set_end_index v)
  | .set_error_text v, o => .ok (o.set_error_text v)
  | .set_flight_rules v, o => .ok (o.set_flight_rules v)
  | .set_latitude v, o => .ok (o.set_latitude v)
  | .set_lat_long_valid v, o => .ok (o.set_lat_long_valid v)
  | .set_longitude v, o => .ok (o.set_longitude v)
  | .set_name v, o => .ok (o.set_name v)
  | .set_speed v, o => .ok (o.set_speed v)
  | .set_speed_si v, o => .ok (o.set_speed_si v)
  | .set_start_index v, o => .ok (o.set_start_index v)
  | .set_sub_type v, o => .ok (o.set_sub_type v)
  | .append_break_text v, o => .ok (o.append_break_text v)
  | .append_error_text v, o => .ok (o.append_error_text v)
  | .set_stay_time s, o => o.set_stay_time s

/-- The attributes of `Token` (Token.py:4-35). -/
inductive TokAttr
  | token_string | token_start_index | token_end_index | token_base_type | token_sub_type
deriving DecidableEq, Repr

/-- The types of their values, as documented there (SI values: see `Record`). -/
@[reducible] def TokAttr.ty (F : Type) : TokAttr → Type
  | .token_string => Str
  | .token_start_index => Nat
  | .token_end_index => Nat
  | .token_base_type => BaseType
  | .token_sub_type => SubType

/-- The values of the class attributes (Token.py:4-35). (Simplified: the default `0` of the two types is written UNKNOWN; the constructor
replaces it.) -/
def TokAttr.default : (a : TokAttr) → a.ty F
  | .token_string => []
  | .token_start_index => 0
  | .token_end_index => 0
  | .token_base_type => .UNKNOWN
  | .token_sub_type => .UNKNOWN

/-- The `__dict__` of an object of class `Token` (Token.py:4-35). -/
def TokObj (F : Type) := (a : TokAttr) → Option (a.ty F)

/-- `self.a`: the attribute of the object, else that of the class (Token.py:4-35). -/
def TokObj.read (o : TokObj F) (a : TokAttr) : a.ty F := (o a).getD a.default

/-- `self.a = v` in the methods of Token.py. -/
def TokObj.write (o : TokObj F) (a : TokAttr) (v : a.ty F) : TokObj F :=
  fun b => if h : b = a then some (h ▸ v) else o b

/-- `Token.__init__` (Token.py:36-49), on a new object. -/
def TokObj.init (token_string : Str) (token_start_index token_end_index : Nat) : TokObj F :=
  let o : TokObj F := fun _ => none
  let o := o.write .token_string token_string
  let o := o.write .token_start_index token_start_index
  let o := o.write .token_end_index token_end_index
  let o := o.write .token_base_type .UNKNOWN
  o.write .token_sub_type .UNKNOWN

/-- `Token.set_token_string` (Token.py:51-57) -/
def TokObj.set_token_string (o : TokObj F) (v : Str) : TokObj F := o.write .token_string v

/-- `Token.get_token_string` (Token.py:59-64) -/
def TokObj.get_token_string (o : TokObj F) : Str := o.read .token_string

/-- `Token.set_token_start_index` (Token.py:67-73) -/
def TokObj.set_token_start_index (o : TokObj F) (v : Nat) : TokObj F := o.write .token_start_index v

/-- `Token.get_token_start_index` (Token.py:76-83) -/
def TokObj.get_token_start_index (o : TokObj F) : Nat := o.read .token_start_index

/-- `Token.set_token_end_index` (Token.py:86-92) -/
def TokObj.set_token_end_index (o : TokObj F) (v : Nat) : TokObj F := o.write .token_end_index v

/-- `Token.get_token_end_index` (Token.py:95-101) -/
def TokObj.get_token_end_index (o : TokObj F) : Nat := o.read .token_end_index

/-- `Token.set_token_base_type` (Token.py:103-109) -/
def TokObj.set_token_base_type (o : TokObj F) (v : BaseType) : TokObj F := o.write .token_base_type v

/-- `Token.get_token_base_type` (Token.py:111-117) -/
def TokObj.get_token_base_type (o : TokObj F) : BaseType := o.read .token_base_type

/-- `Token.set_token_sub_type` (Token.py:119-125) -/
def TokObj.set_token_sub_type (o : TokObj F) (v : SubType) : TokObj F := o.write .token_sub_type v

/-- `Token.get_token_sub_type` (Token.py:127-133) -/
def TokObj.get_token_sub_type (o : TokObj F) : SubType := o.read .token_sub_type

/-- A call of one of the setters of `Token` (Token.py:51-133). -/
inductive TokCall
  | set_token_string (v : Str)
  | set_token_start_index (v : Nat)
  | set_token_end_index (v : Nat)
  | set_token_base_type (v : BaseType)
  | set_token_sub_type (v : SubType)

/-- What the call does to the object (Token.py:51-133). -/
def TokCall.run : TokCall → TokObj F → TokObj F
  | .set_token_string v, o => o.set_token_string v
  | .set_token_start_index v, o => o.set_token_start_index v
  | .set_token_end_index v, o => o.set_token_end_index v
  | .set_token_base_type v, o => o.set_token_base_type v
  | .set_token_sub_type v, o => o.set_token_sub_type v

end F15
