#!/usr/bin/env python3
"""Generate lean/Verif/Model/Crash.lean and Tasks.lean from lean/Verif/Model/Parser.lean: the same method bodies in a monad that keeps the state when an
exception is raised, and in one whose programs can be interrupted by other threads between any two steps."""
import os, re
root = os.path.join(os.path.dirname(os.path.abspath(__file__)), "..", "lean", "Verif", "Model")
src = open(os.path.join(root, "Parser.lean")).read()
HEAD = '''import Verif.Model.Full
/-!
# `ParseF15` when exceptions are raised (generated by tools/gen_crash.py from Model/Parser.lean)

In Model/Parser.lean an exception forgets the state of the `ers` and `tokens` objects. Here every method gives the state in any case, so that what a
caller finds in the two objects after an exception is part of the model. The bodies of the methods are those of Model/Parser.lean, text by
text; `Crash.same_exec` (Lemmas/Crash.lean) proves that both agree.

Besides the exceptions that the code raises itself and the exhausted stack, an exception can strike from outside at any point of the run (a
`KeyboardInterrupt`, a `MemoryError`, a `RecursionError` in a helper): see `Strike`. Simplification: a primitive that raises by itself leaves the state
as it was before it (`add_record` on an empty sequence, which does not occur, would already have appended).
-/

namespace F15.Crash

/-- An exception that strikes from outside: after how many primitive steps, which exception (those of Model/Py.lean stand for all), and
which of the writes of the step it interrupts have been done. -/
structure Strike where
  after : Nat
  what : PyErr
  written : Nat → Bool

/-- The two objects and the exception to come, if any. -/
structure Run (σ F : Type) where
  st : St σ F
  strike : Option Strike

/-- Methods of `ParseF15`: the result or the exception, and the state in both cases. -/
abbrev M (σ F : Type) := ExceptT PyErr (StateM (Run σ F))

section
variable {σ F : Type} [TokStream σ] [PyFloat F]

/-- An element of which only the attributes chosen by `w` have got their new values (ExtractedRouteRecord.py setters). -/
def mix (w : Nat → Bool) (r r' : Record F) : Record F where
  name := if w 0 then r'.name else r.name
  start := if w 1 then r'.start else r.start
  stop := if w 2 then r'.stop else r.stop
  base := if w 3 then r'.base else r.base
  sub := if w 4 then r'.sub else r.sub
  altitude := if w 5 then r'.altitude else r.altitude
  altitudeSi := if w 6 then r'.altitudeSi else r.altitudeSi
  speed := if w 7 then r'.speed else r.speed
  speedSi := if w 8 then r'.speedSi else r.speedSi
  breakText := if w 9 then r'.breakText else r.breakText
  rules := if w 10 then r'.rules else r.rules
  errorText := if w 11 then r'.errorText else r.errorText
  stayTime := if w 12 then r'.stayTime else r.stayTime
  cruiseTo := if w 13 then r'.cruiseTo else r.cruiseTo
  cruiseToSi := if w 14 then r'.cruiseToSi else r.cruiseToSi
  latitude := if w 15 then r'.latitude else r.latitude
  longitude := if w 16 then r'.longitude else r.longitude
  bearing := if w 17 then r'.bearing else r.bearing
  distance := if w 18 then r'.distance else r.distance
  latLongValid := if w 19 then r'.latLongValid else r.latLongValid

/-- The elements, newest first, after a part of the writes: a new element is appended before its attributes are set (F15Parse.py:176-181). -/
def mixAll (w : Nat → Bool) (l l' : List (Record F)) : List (Record F) :=
  if l'.length = l.length then List.zipWith (mix w) l l'
  else if w 20 then
    match l' with
    | r' :: _ => mix w (Record.new r'.name r'.start r'.stop r'.base r'.sub) r' :: l
    | [] => l
  else l

/-- The objects after a part of the writes of a step from `s` to `s'`: attributes one by one, list appends and the cursor as a whole. -/
def blend (w : Nat → Bool) (s s' : St σ F) : St σ F where
  ers := {
    recs := mixAll w s.ers.recs s'.ers.recs
    errs := if w 21 then s'.ers.errs else s.ers.errs
    derived := if w 22 then s'.ers.derived else s.ers.derived }
  toks := if w 23 then s'.toks else s.toks

/-- A primitive step; the exception from outside may strike during it. -/
def prim {α : Type} (m : F15.M σ F α) : M σ F α := fun s =>
  match s.strike with
  | some ⟨0, x, w⟩ =>
    (.error x, ⟨match m s.st with
      | .ok (_, s') => blend w s.st s'
      | .error _ => s.st, none⟩)
  | k =>
    let k' := k.map fun z => { z with after := z.after - 1 }
    match m s.st with
    | .ok (a, s') => (.ok a, ⟨s', k'⟩)
    | .error x => (.error x, ⟨s.st, k'⟩)

/-- `tokens.get_next_token()` (Tokens.py:97-105) -/
def nextToken : M σ F (Option Token) := prim F15.nextToken
/-- `tokens.peek_next_token(k)` (Tokens.py:117-124) -/
def peekToken (k : Nat) : M σ F (Option Token) := prim (F15.peekToken k)
/-- `ers.get_last_element()` (ExtractedRouteSequence.py:162-171) -/
def lastElement : M σ F (Option (Record F)) := prim F15.lastElement
/-- `ers.get_number_of_elements()` (ExtractedRouteSequence.py:173-178) -/
def numElements : M σ F Nat := prim F15.numElements
/-- Update the last element in place (ExtractedRouteRecord.py setters). -/
def modLast (f : Record F → Record F) : M σ F Unit := prim (F15.modLast f)
/-- Update the last but one element in place. -/
def modPrev (f : Record F → Record F) : M σ F Unit := prim (F15.modPrev f)
/-- Read the last element (ExtractedRouteSequence.py:162-171). -/
def getLast : M σ F (Record F) := prim F15.getLast
/-- Run a pure computation that may raise. -/
def liftE {α : Type} (x : Except PyErr α) : M σ F α := prim (F15.liftE x)
/-- `if c: m` -/
def whenM (c : Bool) (m : M σ F Unit) : M σ F Unit := if c then m else pure ()
/-- `add_error_no_re_sync` (F15Parse.py:148-164) -/
def addErrorNoReSync (token : Token) (n : Nat) : M σ F Unit := prim (F15.addErrorNoReSync token n)
/-- `add_record` (F15Parse.py:166-182) -/
def addRecord (token : Token) : M σ F Unit := prim (F15.addRecord token)
/-- `assign_azimuth_distance_between_points` (F15Parse.py:230-261) -/
def assignAzimuth : M σ F Unit := prim F15.assignAzimuth
/-- `ers.get_last_element().set_stay_time(text)` (F15Parse.py:1564) -/
def saveStayTime (text : Str) : M σ F Unit := prim (F15.saveStayTime text)

'''
TAIL = '''
end

/-- Run a method with `n` stack frames available; without a frame `RecursionError` is raised at once. -/
def exec {σ F : Type} [TokStream σ] [PyFloat F] : Nat → Call → M σ F Unit
  | 0, _ => fun s => (.error .recursionError, s)
  | n + 1, c => step (exec n) c

section
variable {F : Type} [PyFloat F]

/-- `token.set_token_base_type(b)` for the token at place `i` (F15Parse.py:1702, 1705). -/
def setBase (i : Nat) (b : BaseType) : M Tokens F Unit :=
  prim fun s => .ok ((), { s with toks := { s.toks with toks := s.toks.toks.modify i fun t => { t with base := b } } })

/-- `token.set_token_sub_type(b)` for the token at place `i` (F15Parse.py:1703, 1706). -/
def setSub (i : Nat) (b : SubType) : M Tokens F Unit :=
  prim fun s => .ok ((), { s with toks := { s.toks with toks := s.toks.toks.modify i fun t => { t with sub := b } } })

/-- `assign_syntax_descriptions` (F15Parse.py:1689-1706), from place `i` on; `l` are the tokens from there. -/
def assignTypes (i : Nat) : List Token → M Tokens F Unit
  | [] => pure ()
  | t :: l => do
    setBase i (getTokenType t.text).1
    setSub i (getTokenType t.text).2
    whenM (t.text.length > maxTokenLength) (do setBase i .TOO_LONG; setSub i .UNKNOWN)
    assignTypes (i + 1) l

/-- `tokens.get_first_token()` (Tokens.py:79-86) -/
def firstToken : M Tokens F (Option Token) := prim fun s =>
  match s.toks.getFirstToken with
  | (.ok t, ts) => .ok (t, { s with toks := ts })
  | (.error x, _) => .error x

/-- `ers.add_error("NULL", 0, 0, ...)` (F15Parse.py:84-86) -/
def addNullError : M Tokens F Unit := prim fun s =>
  match errorMessage 41 with
  | none => .error .keyError
  | some m => .ok ((), { s with ers := s.ers.addError (py! "NULL") 0 0 .UNKNOWN .UNKNOWN m })

/-- `ers.add_dummy_ades()` (ExtractedRouteSequence.py:39-45) -/
def addAdes : M Tokens F Unit := prim fun s => .ok ((), { s with ers := s.ers.addDummyAdes })

/-- `ers.get_first_element().set_flight_rules(...)` (F15Parse.py:91) -/
def setFirst (x : Str) : M Tokens F Unit := prim fun s =>
  match setFirstRules s.ers x with
  | .ok e => .ok ((), { s with ers := e })
  | .error y => .error y

/-- `ers.get_previous_to_last_element()` (ExtractedRouteSequence.py:180-190) -/
def previousToLast : M Tokens F (Option (Record F)) := prim fun s =>
  match s.ers.getPreviousToLastElement with
  | .ok r => .ok (r, s)
  | .error y => .error y

/-- `ers.get_first_element()` (ExtractedRouteSequence.py:152-160) -/
def firstElement : M Tokens F (Option (Record F)) := prim fun s =>
  match s.ers.getFirstElement with
  | .ok r => .ok (r, s)
  | .error y => .error y

/-- `ades.set_flight_rules(...)` (F15Parse.py:107) -/
def setLastRules (x : Str) : M Tokens F Unit := prim fun s =>
  .ok ((), { s with ers := { s.ers with recs := match s.ers.recs with
    | ades :: rs => ades.setRules x :: rs
    | [] => [] } })

/-- The flight rules of all elements (F15Parse.py:112, 118). -/
def allRules : M Tokens F (List Str) := prim fun s => .ok (s.ers.elements.map (·.rules), s)

/-- `ers.set_derived_flight_rules(x)` (ExtractedRouteSequence.py:135-142) -/
def setDerived (x : Str) : M Tokens F Unit := prim fun s => .ok ((), { s with ers := s.ers.setDerived x })

/-- `ers.get_number_of_errors() == 0` (F15Parse.py:106, 124) -/
def noErrors : M Tokens F Bool := prim fun s => .ok (decide (s.ers.numberOfErrors = 0), s)

/-- The dispatch of `parse_f15` on the first token (F15Parse.py:88-99); `number` is `tokens.get_number_of_tokens()`. -/
def dispatch (frames : Nat) (number : Nat) (token : Token) : M Tokens F Unit :=
  match token.base with
  | .SPEED_VFR => do
    exec frames (.assignSpeedVfr token)
    setFirst (py! "VFR")
  | .SPEED_ALTITUDE => do
    exec frames (.assignSpeedAltitude token)
    if number = 1 then exec frames (.addErrorAndReSync token 49) else pure ()
  | _ => exec frames (.addErrorAndReSync token 1)

/-- The end of `parse_f15` (F15Parse.py:101-124). -/
def finish : M Tokens F Bool := do
  addAdes
  match ← previousToLast with
  | none => noErrors
  | some previous => do
    setLastRules previous.rules
    match ← firstElement with
    | none => throw .attributeError
    | some first => do
      let rules ← allRules
      if first.rules = py! "VFR" then do
        setDerived (py! "V")
        whenM (rules.contains (py! "IFR")) (setDerived (py! "Z"))
        noErrors
      else do
        setDerived (py! "I")
        whenM (rules.contains (py! "VFR")) (setDerived (py! "Y"))
        noErrors

/-- `parse_f15` (F15Parse.py:52-128) on tokens `l`. -/
def parse (frames : Nat) (l : List Token) : M Tokens F Bool := do
  assignTypes 0 l
  match ← firstToken with
  | none => do
    addNullError
    addAdes
    pure false
  | some token => do
    dispatch frames l.length token
    finish

/-- `parse_f15` (F15Parse.py:52-128) with `frames` stack frames and an exception from outside or none: the Boolean result or the exception, and
the two objects after the call in both cases. -/
def parseF15 (frames : Nat) (strike : Option Strike) (e : Ers F) (tokens : Tokens) : Except PyErr Bool × Ers F × Tokens :=
  let r := parse frames tokens.toks ⟨⟨e, tokens⟩, strike⟩
  (r.1, r.2.st.ers, r.2.st.toks)

end
end F15.Crash
'''
body = src[src.index("/-! ### Level and speed -/"):src.index("\nend\n\n/-- Run a method with")]
# blocks separated by blank lines before a doc comment or section header
blocks = re.split(r"\n\n(?=/--|/-!|variable)", body)
out = []
for b in blocks:
    if b.startswith("/-!") or b.startswith("variable"):
        out.append(b.strip()); continue
    m = re.search(r"^def \S+.*?:=|^def step[^\n]*\n", b, re.S | re.M)
    if m and "M σ F" in m.group(0) and not m.group(0).startswith(("def assignAzimuth ", "def saveStayTime ")):
        out.append(b.strip())
open(os.path.join(root, "Crash.lean"), "w").write(HEAD + "\n\n".join(out) + "\n" + TAIL)
print(len(out), "blocks")

THEAD = '''import Verif.Model.Crash
/-!
# `ParseF15` step by step (generated by tools/gen_crash.py from Model/Parser.lean)

The bodies of the methods are those of Model/Parser.lean once more, text by text, now as tasks: trees of steps, each of which reads and writes the two
objects `ers` and `tokens` as they are at that time. Between two steps other threads can run (Model/Objects.lean). `Tasks.play_parse`
(Lemmas/Tasks.lean) proves that a task that is not disturbed is the parser of Model/Crash.lean and Model/Parser.lean.
-/

namespace F15.Tasks

/-- What is left of a call: its result (or exception), or a step: the state it leaves, and the task that is left, both depending on the state it finds. -/
inductive Task (S α : Type)
  | done (r : Except PyErr α)
  | act (next : S → Task S α) (write : S → S)

/-- One task after the other; an exception ends both. -/
def Task.bind {S α β : Type} : Task S α → (α → Task S β) → Task S β
  | .done (.ok a), k => k a
  | .done (.error x), _ => .done (.error x)
  | .act n w, k => .act (fun s => (n s).bind k) w

/-- `try`/`except` (not used by the parser). -/
def Task.catch {S α : Type} : Task S α → (PyErr → Task S α) → Task S α
  | .done (.ok a), _ => .done (.ok a)
  | .done (.error x), k => k x
  | .act n w, k => .act (fun s => (n s).catch k) w

/-- Methods of `ParseF15` as tasks. -/
abbrev M (σ F : Type) (α : Type) := Task (St σ F) α

instance {σ F : Type} : Monad (M σ F) where
  pure a := .done (.ok a)
  bind := Task.bind

instance {σ F : Type} : MonadExceptOf PyErr (M σ F) where
  throw x := .done (.error x)
  tryCatch := Task.catch

section
variable {σ F : Type} [TokStream σ] [PyFloat F]

/-- A primitive step. If it raises, the state stays as it was before it (as in Model/Crash.lean). -/
def prim {α : Type} (m : F15.M σ F α) : M σ F α :=
  .act (fun s => match m s with
      | .ok (a, _) => .done (.ok a)
      | .error x => .done (.error x))
    (fun s => match m s with
      | .ok (_, s') => s'
      | .error _ => s)

''' + HEAD[HEAD.index("/-- `tokens.get_next_token()`"):]
TTAIL = TAIL.replace("| 0, _ => fun s => (.error .recursionError, s)", "| 0, _ => .done (.error .recursionError)").replace("F15.Crash", "F15.Tasks")
i = TTAIL.index("/-- `parse_f15` (F15Parse.py:52-128) with")
TTAIL = TTAIL[:i] + "end\nend F15.Tasks\n"
open(os.path.join(root, "Tasks.lean"), "w").write(THEAD + "\n\n".join(out) + "\n" + TTAIL)
