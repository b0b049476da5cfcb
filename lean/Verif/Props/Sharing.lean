import Verif.Lemmas.Sharing
import Verif.Spec.Example
/-!
# C66: records, tokens and sequences can be thought of as values
-/

namespace F15
open Spec
set_option linter.unusedSectionVars false
variable {F : Type} [PyFloat F]

theorem apart_after (cs : List (SeqCall F)) : (memoryAfter cs).1.Apart ∧
    (seenAll (memoryAfter cs).1, (memoryAfter cs).2) = valuesAfter cs := by
  induction cs with
  | nil =>
    refine ⟨⟨?_, ?_⟩, rfl⟩
    · intro s q b k r h; simp [memoryAfter] at h
    · intro s s' q q' b b' k k' r h; simp [memoryAfter] at h
  | cons c before ih =>
    obtain ⟨ih, h⟩ := ih
    unfold memoryAfter valuesAfter
    rw [← h]
    dsimp only
    rcases run_values ih c with ⟨m', h1, h2, h3⟩ | ⟨x, h1, h2⟩
    · rw [h1, h3]
      exact ⟨h2, rfl⟩
    · rw [h1, h2]
      exact ⟨ih, rfl⟩

/-- **C66** For every history of calls on any number of sequences and on the records found in them, what the getters show is what it
would be if sequences and records were values: a call on a record changes, in one sequence, that one record, in the one attribute the
method is named after; nothing is shared between sequences, elements and errors. The calls that raise are the same, and they change
nothing. -/
theorem c66 (calls : List (SeqCall F)) :
    seenAll (memoryAfter calls).1 = (valuesAfter calls).1 ∧ (memoryAfter calls).2 = (valuesAfter calls).2 := by
  have := (apart_after calls).2
  rw [← this]
  exact ⟨rfl, rfl⟩

/-- **C66** These values are those of the model the other theorems are about (Model/Ers.lean). -/
theorem c66_model (es : List (Ers F)) (s : Nat) (text : Str) (start stop : Nat) (base : BaseType) (sub : SubType) (v : Str) :
    onValues es (.create s text start stop base sub) = .ok (es.modify s (·.createAppendElement text start stop base sub)) ∧
    onValues es (.addDummy s v) = .ok (es.modify s (·.addDummyAdepAdes v)) ∧
    onValues es (.addDummyAdes s) = .ok (es.modify s (·.addDummyAdes)) ∧
    onValues es (.addError s text start stop base sub v) = .ok (es.modify s (·.addError text start stop base sub v)) ∧
    onValues es (.setDerived s v) = .ok (es.modify s (·.setDerived v)) ∧
    ∀ (r : Record F) (t : Str), onRecord r (.append_break_text t) = .ok (r.appendBreakText t) ∧
      onRecord r (.append_error_text t) = .ok (r.appendErrorText t) ∧ onRecord r (.set_stay_time t) = r.setStayTime t := by
  have key : ∀ f g : Ers F → Ers F, (∀ e, f e = g e) → (Except.ok (es.modify s f) : Except PyErr _) = .ok (es.modify s g) := by
    intro f g h; rw [funext h]
  refine ⟨key _ _ fun e => ?_, key _ _ fun e => ?_, key _ _ fun e => ?_, key _ _ fun e => ?_, key _ _ fun e => ?_, fun r t => ⟨?_, ?_, ?_⟩⟩
  all_goals first
    | (unfold ersOf Ers.createAppendElement Ers.appendElement Ers.elements Ers.errors; simp; done)
    | (unfold ersOf Ers.addDummyAdepAdes Ers.createAppendElement Ers.appendElement Ers.elements Ers.errors; simp; done)
    | (unfold ersOf Ers.addDummyAdes Ers.addDummyAdepAdes Ers.createAppendElement Ers.appendElement Ers.elements Ers.errors; simp; done)
    | (unfold ersOf Ers.addError Ers.elements Ers.errors; simp; rfl)
    | (unfold ersOf Ers.setDerived Ers.elements Ers.errors; simp; done)
    | skip
  · show Except.ok { r with breakText := appended r.breakText t } = Except.ok (r.appendBreakText t)
    unfold Record.appendBreakText appended; split <;> rfl
  · show Except.ok { r with errorText := appended r.errorText t } = Except.ok (r.appendErrorText t)
    unfold Record.appendErrorText appended; split <;> rfl
  · have h1 : slice t 0 2 = t.take 2 := by simpa using slice_nat t 0 2
    have h2 : sliceFrom t 2 = t.drop 2 := sliceFrom_nat t 2
    show (stayMinutes t).map _ = _
    unfold Record.setStayTime stayMinutes
    rw [h1, h2]
    cases pyInt (t.take 2) with
    | error x => rfl
    | ok h =>
      cases hm : pyInt (t.drop 2) with
      | error x => simp only [bind, Except.bind, hm, Except.map]
      | ok m => simp only [bind, Except.bind, hm, Except.map, pure, Except.pure]

/-- **C66** A record made by the constructor shows the constructor's arguments and the documented defaults; after any history of calls
of its methods each getter shows what the last call of the setter of that attribute has set (with what has been appended since). -/
theorem c66_record (text : Str) (start stop : Nat) (base : BaseType) (sub : SubType) (calls : List (RecCall F)) :
    seen (recordAfter (RecObj.init text start stop base sub) calls) = valueAfter (Record.new text start stop base sub) calls := by
  induction calls with
  | nil => rfl
  | cons c before ih =>
    unfold recordAfter valueAfter
    rw [← ih, ← seen_run]
    cases c.run (recordAfter (RecObj.init text start stop base sub) before) <;> rfl

/-- **C66** The same for tokens. -/
theorem c66_token (text : Str) (start stop : Nat) (calls : List TokCall) :
    seenToken (calls.foldl (fun o c => c.run o) (TokObj.init text start stop : TokObj F)) = calls.foldl onToken (Token.new text start stop) := by
  have : ∀ o : TokObj F, seenToken (calls.foldl (fun o c => c.run o) o) = calls.foldl onToken (seenToken o) := by
    induction calls with
    | nil => intro o; rfl
    | cons c calls ih => intro o; rw [List.foldl_cons, List.foldl_cons, ih, seenToken_run]
  rw [this, seenToken_init]

/-- Two sequences are made and used: the name set in the first does not show in the second, the stay time "0130" is 90 minutes, a bad
one raises ValueError and a third element that is not there raises IndexError. -/
example :
    (valuesAfter (F := Rat) [.onRecord 1 (.elementAt 2) (.set_name (py! "X")), .onRecord 1 .last (.set_stay_time (py! "01X0")),
      .onRecord 0 (.inElements (-1)) (.append_break_text (py! "B")), .onRecord 0 .last (.append_break_text (py! "A")),
      .onRecord 1 .last (.set_stay_time (py! "0130")), .onRecord 0 .previous (.set_name (py! "EDDF")),
      .create 1 (py! "LNZ") 0 3 .POINT .PRP, .create 0 (py! "LNZ") 0 3 .POINT .PRP, .newSequence, .newSequence]) =
    ([ersOf [{ (Record.new (py! "ADEP") 0 0 .POINT .PRP_AERO : Record Rat) with name := py! "EDDF" },
        { (Record.new (py! "LNZ") 0 3 .POINT .PRP : Record Rat) with breakText := py! "A B" }] [] [],
      ersOf [Record.new (py! "ADEP") 0 0 .POINT .PRP_AERO,
        { (Record.new (py! "LNZ") 0 3 .POINT .PRP : Record Rat) with stayTime := 90 }] [] []],
     [some .indexError, some .valueError, none, none, none, none, none, none, none, none]) := by
  decide +kernel

/-- What `c66` leaves out: the same record appended twice (`SeqCall.appendNew` appends new ones only) is shared, so a change shows in
both places. -/
example :
    let m := ((⟨[], []⟩ : Mem Rat).newSequence.appendElement 0 0)
    ((m.call 0 (.set_name (py! "EDDF"))).map (fun m => (seenAll m).map fun e => e.elements.map (·.name))).toOption =
      some [[py! "EDDF", py! "EDDF"]] := by
  decide +kernel

end F15
