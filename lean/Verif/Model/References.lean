import Verif.Model.Accessors
/-!
# `ExtractedRouteSequence` with references

In `Model/Ers.lean` the records of a sequence are values. In Python the lists hold references to record objects, and the getters hand
out references. Here are the methods of `ExtractedRouteSequence` on a memory of objects. (Allocation never fails and nothing is freed.)
-/

namespace F15
variable {F : Type} [PyFloat F]

/-- An `ExtractedRouteSequence` object (ExtractedRouteSequence.py:5-17): two lists of references to records, and the attribute
`derived_flight_rules` if the object has it (else the class attribute, line 16, is read). -/
structure SeqObj where
  elements : List Nat
  errors : List Nat
  derived : Option Str

/-- The objects in memory; a reference is an index into the list. -/
structure Mem (F : Type) where
  recs : List (RecObj F)
  seqs : List SeqObj

namespace Mem

/-- `ExtractedRouteRecord(...)`: a new object and its reference (ExtractedRouteRecord.py:81-97). -/
def newRecord (m : Mem F) (text : Str) (start stop : Nat) (base : BaseType) (sub : SubType) : Nat × Mem F :=
  (m.recs.length, { m with recs := m.recs ++ [RecObj.init text start stop base sub] })

/-- A method of the record that `r` refers to is called (ExtractedRouteRecord.py:100-476). -/
def call (m : Mem F) (r : Nat) (c : RecCall F) : Except PyErr (Mem F) :=
  match m.recs[r]? with
  | none => .ok m
  | some o => (c.run o).map fun o' => { m with recs := m.recs.set r o' }

/-- `append_element` (ExtractedRouteSequence.py:69-76): the reference is appended. -/
def appendElement (m : Mem F) (s r : Nat) : Mem F :=
  { m with seqs := m.seqs.modify s fun q => { q with elements := q.elements ++ [r] } }

/-- `create_append_element` (ExtractedRouteSequence.py:105-120) -/
def createAppendElement (m : Mem F) (s : Nat) (text : Str) (start stop : Nat) (base : BaseType) (sub : SubType) : Mem F :=
  let (r, m) := m.newRecord text start stop base sub
  m.appendElement s r

/-- `add_dummy_adep_ades` (ExtractedRouteSequence.py:30-37) -/
def addDummyAdepAdes (m : Mem F) (s : Nat) (aero : Str) : Mem F := m.createAppendElement s aero 0 0 .POINT .PRP_AERO

/-- `ExtractedRouteSequence()` (ExtractedRouteSequence.py:19-28): the two lists are new. -/
def newSequence (m : Mem F) : Mem F :=
  let s := m.seqs.length
  let m : Mem F := { m with seqs := m.seqs ++ [⟨[], [], none⟩] }
  m.addDummyAdepAdes s (py! "ADEP")

/-- `add_error` (ExtractedRouteSequence.py:48-67) -/
def addError (m : Mem F) (s : Nat) (text : Str) (start stop : Nat) (base : BaseType) (sub : SubType) (message : Str) : Mem F :=
  let (r, m) := m.newRecord text start stop base sub
  let m := { m with recs := m.recs.modify r fun o => o.append_error_text (replaceBang message text) }
  { m with seqs := m.seqs.modify s fun q => { q with errors := q.errors ++ [r] } }

/-- `get_element_at` (ExtractedRouteSequence.py:144-152): a reference, or None. -/
def getElementAt (q : SeqObj) (index : Int) : Except PyErr (Option Nat) :=
  if index < 0 ∨ index > q.elements.length then .ok none
  else (pyGet q.elements index).map some

/-- `get_last_element` (ExtractedRouteSequence.py:162-171) -/
def getLastElement (q : SeqObj) : Except PyErr (Option Nat) :=
  if q.elements.length > 0 then getElementAt q (q.elements.length - 1) else .ok none

/-- `get_previous_to_last_element` (ExtractedRouteSequence.py:188-194) -/
def getPreviousToLastElement (q : SeqObj) : Except PyErr (Option Nat) := getElementAt q ((q.elements.length : Int) - 2)

/-- `set_derived_flight_rules` (ExtractedRouteSequence.py:196-203) -/
def setDerived (m : Mem F) (s : Nat) (v : Str) : Mem F :=
  { m with seqs := m.seqs.modify s fun q => { q with derived := some v } }

/-- `get_derived_flight_rules` (ExtractedRouteSequence.py:136-142) -/
def getDerived (q : SeqObj) : Str := q.derived.getD []

end Mem

/-- Which record of a sequence: `get_element_at(i)`, `get_last_element()`, `get_previous_to_last_element()`, `get_all_elements()[i]`,
`get_all_errors()[i]` (ExtractedRouteSequence.py:122-134, 144-194). -/
inductive Which | elementAt (i : Int) | last | previous | inElements (i : Int) | inErrors (i : Int)

/-- The reference these expressions give; a method call on None raises AttributeError (ExtractedRouteSequence.py:122-134, 144-194). -/
def Which.find (q : SeqObj) : Which → Except PyErr Nat
  | .elementAt i => do match ← Mem.getElementAt q i with | none => .error .attributeError | some r => .ok r
  | .last => do match ← Mem.getLastElement q with | none => .error .attributeError | some r => .ok r
  | .previous => do match ← Mem.getPreviousToLastElement q with | none => .error .attributeError | some r => .ok r
  | .inElements i => pyGet q.elements i
  | .inErrors i => pyGet q.errors i

/-- What a caller can do with sequences (`s` says to which; they are numbered in the order of their creation): the methods of
ExtractedRouteSequence.py, and the methods of a record found in one. -/
inductive SeqCall (F : Type)
  | newSequence
  | create (s : Nat) (text : Str) (start stop : Nat) (base : BaseType) (sub : SubType)
  | appendNew (s : Nat) (text : Str) (start stop : Nat) (base : BaseType) (sub : SubType)
  | addDummy (s : Nat) (aero : Str)
  | addDummyAdes (s : Nat)
  | addError (s : Nat) (text : Str) (start stop : Nat) (base : BaseType) (sub : SubType) (message : Str)
  | setDerived (s : Nat) (v : Str)
  | onRecord (s : Nat) (w : Which) (c : RecCall F)

/-- The call in memory (ExtractedRouteSequence.py:19-203). -/
def SeqCall.run (m : Mem F) : SeqCall F → Except PyErr (Mem F)
  | .newSequence => .ok m.newSequence
  | .create s text start stop base sub => .ok (m.createAppendElement s text start stop base sub)
  | .appendNew s text start stop base sub =>
    let (r, m) := m.newRecord text start stop base sub
    .ok (m.appendElement s r)
  | .addDummy s aero => .ok (m.addDummyAdepAdes s aero)
  | .addDummyAdes s => .ok (m.addDummyAdepAdes s (py! "ADES"))
  | .addError s text start stop base sub message => .ok (m.addError s text start stop base sub message)
  | .setDerived s v => .ok (m.setDerived s v)
  | .onRecord s w c =>
    match m.seqs[s]? with
    | none => .ok m
    | some q => do m.call (← w.find q) c

end F15
