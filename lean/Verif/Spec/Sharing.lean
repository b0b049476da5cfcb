import Verif.Model.References
/-!
# Vocabulary for "records and sequences behave as values"
-/

namespace F15.Spec
variable {F : Type} [PyFloat F]

/-- Stay time: two characters of hours, the others minutes, both read by `int`. -/
def stayMinutes (s : Str) : Except PyErr Int := do
  let h ← pyInt (s.take 2)
  let m ← pyInt (s.drop 2)
  pure (h * 60 + m)

/-- The text with another one appended. -/
def appended (old new : Str) : Str := if old = [] then new else old ++ ' ' :: new

/-- What each method does to a record. -/
def onRecord (r : Record F) : RecCall F → Except PyErr (Record F)
  | .set_altitude v => .ok { r with altitude := v }
  | .set_altitude_cruise_to v => .ok { r with cruiseTo := v }
  | .set_altitude_cruise_to_si v => .ok { r with cruiseToSi := v }
  | .set_altitude_si v => .ok { r with altitudeSi := v }
  | .set_base_type v => .ok { r with base := v }
  | .set_bearing v => .ok { r with bearing := v }
  | .set_break_text v => .ok { r with breakText := v }
  | .set_distance v => .ok { r with distance := v }
  | .set_end_index v => .ok { r with stop := v }
  | .set_error_text v => .ok { r with errorText := v }
  | .set_flight_rules v => .ok { r with rules := v }
  | .set_latitude v => .ok { r with latitude := v }
  | .set_lat_long_valid v => .ok { r with latLongValid := v }
  | .set_longitude v => .ok { r with longitude := v }
  | .set_name v => .ok { r with name := v }
  | .set_speed v => .ok { r with speed := v }
  | .set_speed_si v => .ok { r with speedSi := v }
  | .set_start_index v => .ok { r with start := v }
  | .set_sub_type v => .ok { r with sub := v }
  | .append_break_text v => .ok { r with breakText := appended r.breakText v }
  | .append_error_text v => .ok { r with errorText := appended r.errorText v }
  | .set_stay_time s => (stayMinutes s).map fun n => { r with stayTime := n }

/-- A record object as seen through its getters. -/
def seen (o : RecObj F) : Record F where
  name := o.get_name
  start := o.get_start_index
  stop := o.get_end_index
  base := o.get_base_type
  sub := o.get_sub_type
  altitude := o.get_altitude
  altitudeSi := o.get_altitude_si
  speed := o.get_speed
  speedSi := o.get_speed_si
  breakText := o.get_break_text
  rules := o.get_flight_rules
  errorText := o.get_error_text
  stayTime := o.get_stay_time
  cruiseTo := o.get_altitude_cruise_to
  cruiseToSi := o.get_altitude_cruise_to_si
  latitude := o.get_latitude
  longitude := o.get_longitude
  bearing := o.get_bearing
  distance := o.get_distance
  latLongValid := o.is_lat_long_valid

/-- A token object as seen through its getters. -/
def seenToken (o : TokObj F) : Token where
  text := o.get_token_string
  start := o.get_token_start_index
  stop := o.get_token_end_index
  base := o.get_token_base_type
  sub := o.get_token_sub_type

/-- What each setter does to a token. -/
def onToken (t : Token) : TokCall → Token
  | .set_token_string v => { t with text := v }
  | .set_token_start_index v => { t with start := v }
  | .set_token_end_index v => { t with stop := v }
  | .set_token_base_type v => { t with base := v }
  | .set_token_sub_type v => { t with sub := v }

/-- Where in the two lists a record is to be found: in the elements or in the errors, at which index. -/
def place (e : Ers F) : Which → Except PyErr (Bool × Nat)
  | .elementAt i =>
    if i < 0 ∨ e.elements.length < i then .error .attributeError
    else if i = e.elements.length then .error .indexError
    else .ok (true, i.toNat)
  | .last => if e.elements.length = 0 then .error .attributeError else .ok (true, e.elements.length - 1)
  | .previous => if e.elements.length < 2 then .error .attributeError else .ok (true, e.elements.length - 2)
  | .inElements i =>
    if i < -e.elements.length ∨ e.elements.length ≤ i then .error .indexError
    else .ok (true, (if i < 0 then e.elements.length + i else i).toNat)
  | .inErrors i =>
    if i < -e.errors.length ∨ e.errors.length ≤ i then .error .indexError
    else .ok (false, (if i < 0 then e.errors.length + i else i).toNat)

/-- The sequence whose elements and errors are these. -/
def ersOf (elements errors : List (Record F)) (derived : Str) : Ers F := ⟨elements.reverse, errors.reverse, derived⟩

/-- One record changed, nothing else. -/
def changed (e : Ers F) (p : Bool × Nat) (c : RecCall F) : Except PyErr (Ers F) :=
  match (if p.1 then e.elements else e.errors)[p.2]? with
  | none => .ok e
  | some r => (onRecord r c).map fun r' =>
    if p.1 then ersOf (e.elements.set p.2 r') e.errors e.derived else ersOf e.elements (e.errors.set p.2 r') e.derived

/-- What each call does to the sequences, as values: it concerns one sequence only, and of it one record only. -/
def onValues (es : List (Ers F)) : SeqCall F → Except PyErr (List (Ers F))
  | .newSequence => .ok (es ++ [Ers.new])
  | .create s text start stop base sub | .appendNew s text start stop base sub =>
    .ok (es.modify s fun e => ersOf (e.elements ++ [Record.new text start stop base sub]) e.errors e.derived)
  | .addDummy s aero => .ok (es.modify s fun e => ersOf (e.elements ++ [Record.new aero 0 0 .POINT .PRP_AERO]) e.errors e.derived)
  | .addDummyAdes s =>
    .ok (es.modify s fun e => ersOf (e.elements ++ [Record.new (py! "ADES") 0 0 .POINT .PRP_AERO]) e.errors e.derived)
  | .addError s text start stop base sub message =>
    .ok (es.modify s fun e => ersOf e.elements (e.errors ++
      [{ (Record.new text start stop base sub : Record F) with errorText := replaceBang message text }]) e.derived)
  | .setDerived s v => .ok (es.modify s fun e => ersOf e.elements e.errors v)
  | .onRecord s w c =>
    match es[s]? with
    | none => .ok es
    | some e => do
      let p ← place e w
      let e' ← changed e p c
      pure (es.set s e')

/-- The sequences in memory as seen through the getters. -/
def seenAll (m : Mem F) : List (Ers F) :=
  m.seqs.map fun q => ersOf (q.elements.filterMap fun r => m.recs[r]?.map seen) (q.errors.filterMap fun r => m.recs[r]?.map seen)
    (Mem.getDerived q)

/-- A history of calls in memory: after a call that raises, the caller goes on with memory as the call left it. The outcome of each call
is kept: `none`, or what it raised. -/
def memoryAfter : List (SeqCall F) → Mem F × List (Option PyErr)
  | [] => (⟨[], []⟩, [])
  | c :: before =>
    let (m, outs) := memoryAfter before
    match c.run m with
    | .ok m' => (m', none :: outs)
    | .error x => (m, some x :: outs)

/-- The same history on values. (Both lists: the latest call first.) -/
def valuesAfter : List (SeqCall F) → List (Ers F) × List (Option PyErr)
  | [] => ([], [])
  | c :: before =>
    let (es, outs) := valuesAfter before
    match onValues es c with
    | .ok es' => (es', none :: outs)
    | .error x => (es, some x :: outs)

/-- The calls on one record, the latest first; a call that raises changes nothing. -/
def recordAfter (o : RecObj F) : List (RecCall F) → RecObj F
  | [] => o
  | c :: before => match c.run (recordAfter o before) with | .ok o' => o' | .error _ => recordAfter o before

/-- The same on a value. -/
def valueAfter (r : Record F) : List (RecCall F) → Record F
  | [] => r
  | c :: before => match onRecord (valueAfter r before) c with | .ok r' => r' | .error _ => valueAfter r before

end F15.Spec
