import Verif.Lemmas.Crash3
import Verif.Props.Reads
import Verif.Props.Depth
/-!
# C58: crash points

An exception may end `parse_f15` at any point. What has been recorded until then stays, is the beginning of what the undisturbed call would have
recorded, and the words of the tokens are untouched.
-/

namespace F15.Crash
open Spec

set_option linter.unusedSectionVars false
variable {F : Type} [PyFloat F]

/-- The outcome of a method without the state of exceptions. -/
def Agrees {α : Type} (x : Except PyErr (α × St Tokens F)) (r : Except PyErr α × Run Tokens F) : Prop :=
  match x with
  | .ok (a, s) => r = (.ok a, ⟨s, none⟩)
  | .error y => ∃ s, r = (.error y, ⟨s, none⟩)

theorem agrees_of_same {α : Type} {m : F15.M Tokens F α} {m' : M Tokens F α} (h : Same m m') (s : St Tokens F) : Agrees (m s) (m' ⟨s, none⟩) := by
  obtain ⟨h1, h2⟩ := h s
  rw [← h1]
  cases hm : m' ⟨s, none⟩ with
  | mk a s1 =>
    rw [hm] at h2
    obtain ⟨s1, k⟩ := s1
    cases h2
    cases a with
    | ok a => exact rfl
    | error x => exact ⟨s1, rfl⟩

theorem agrees_bind {α β : Type} {x : Except PyErr (α × St Tokens F)} {m : M Tokens F α} {s : St Tokens F} (h : Agrees x (m ⟨s, none⟩))
    {f : α → M Tokens F β} {g : α × St Tokens F → Except PyErr (β × St Tokens F)} (hf : ∀ a s1, x = .ok (a, s1) → Agrees (g (a, s1)) (f a ⟨s1, none⟩)) :
    Agrees (x >>= g) ((m >>= f) ⟨s, none⟩) := by
  rw [bind_eq]
  cases x with
  | error y =>
    obtain ⟨s1, h⟩ := h
    rw [h]
    exact ⟨s1, rfl⟩
  | ok p =>
    obtain ⟨a, s1⟩ := p
    change m ⟨s, none⟩ = _ at h
    rw [h]
    exact hf a s1 rfl

theorem prim_ok {α : Type} {m : F15.M Tokens F α} {s s' : St Tokens F} {a : α} (h : m s = .ok (a, s')) : prim m ⟨s, none⟩ = (.ok a, ⟨s', none⟩) := by
  unfold prim
  dsimp only
  rw [h]; rfl

theorem bind_ok {α β : Type} {m : M Tokens F α} {f : α → M Tokens F β} {s s' : Run Tokens F} {a : α} (h : m s = (.ok a, s')) :
    (m >>= f) s = f a s' := by
  rw [bind_eq, h]; rfl

theorem modify_at (f : Token → Token) (pre : List Token) (t : Token) (l : List Token) : (pre ++ t :: l).modify pre.length f = pre ++ f t :: l := by
  induction pre with
  | nil => rfl
  | cons p pre ih => simpa using ih

theorem setBase_ok (e : Ers F) (cur : Int) (pre : List Token) (t : Token) (l : List Token) (b : BaseType) :
    setBase pre.length b ⟨⟨e, ⟨pre ++ t :: l, cur⟩⟩, none⟩ = (.ok (), ⟨⟨e, ⟨pre ++ { t with base := b } :: l, cur⟩⟩, none⟩) := by
  unfold setBase
  refine prim_ok ?_
  dsimp only
  rw [modify_at]

theorem setSub_ok (e : Ers F) (cur : Int) (pre : List Token) (t : Token) (l : List Token) (b : SubType) :
    setSub pre.length b ⟨⟨e, ⟨pre ++ t :: l, cur⟩⟩, none⟩ = (.ok (), ⟨⟨e, ⟨pre ++ { t with sub := b } :: l, cur⟩⟩, none⟩) := by
  unfold setSub
  refine prim_ok ?_
  dsimp only
  rw [modify_at]

theorem assignTypes_ok (e : Ers F) (cur : Int) (pre l : List Token) :
    assignTypes pre.length l ⟨⟨e, ⟨pre ++ l, cur⟩⟩, none⟩ = (.ok (), ⟨⟨e, ⟨pre ++ l.map assignSyntax, cur⟩⟩, none⟩) := by
  induction l generalizing pre with
  | nil => rfl
  | cons t l ih =>
    unfold assignTypes
    rw [bind_ok (setBase_ok e cur pre t l _), bind_ok (setSub_ok e cur pre _ l _)]
    have next : ∀ t', assignTypes (pre.length + 1) l ⟨⟨e, ⟨pre ++ t' :: l, cur⟩⟩, none⟩ =
        (.ok (), ⟨⟨e, ⟨pre ++ t' :: l.map assignSyntax, cur⟩⟩, none⟩) := by
      intro t'
      have := ih (pre ++ [t'])
      simpa using this
    by_cases hl : t.text.length > maxTokenLength
    · have e1 : decide (t.text.length > maxTokenLength) = true := by simpa using hl
      rw [e1]
      have step : (whenM true (do setBase pre.length .TOO_LONG; setSub pre.length .UNKNOWN) : M Tokens F Unit)
          ⟨⟨e, ⟨pre ++ { t with base := (getTokenType t.text).1, sub := (getTokenType t.text).2 } :: l, cur⟩⟩, none⟩ =
          (.ok (), ⟨⟨e, ⟨pre ++ { t with base := .TOO_LONG, sub := .UNKNOWN } :: l, cur⟩⟩, none⟩) := by
        show ((setBase pre.length .TOO_LONG >>= fun _ => setSub pre.length .UNKNOWN) : M Tokens F Unit) _ = _
        rw [bind_ok (setBase_ok e cur pre _ l _), setSub_ok e cur pre _ l _]
      rw [bind_ok step, next]
      have : assignSyntax t = { t with base := .TOO_LONG, sub := .UNKNOWN } := by
        unfold assignSyntax; dsimp only; rw [if_pos hl]
      rw [List.map_cons, this]
    · have e1 : decide (t.text.length > maxTokenLength) = false := by simpa using hl
      rw [e1]
      rw [bind_ok (m := whenM false _) (a := ()) (s' := ⟨⟨e, ⟨pre ++ { t with base := (getTokenType t.text).1, sub := (getTokenType t.text).2 } :: l, cur⟩⟩, none⟩) rfl, next]
      have : assignSyntax t = { t with base := (getTokenType t.text).1, sub := (getTokenType t.text).2 } := by
        unfold assignSyntax; dsimp only; rw [if_neg hl]
      rw [List.map_cons, this]

theorem setFirst_agrees (s : St Tokens F) (x : Str) :
    Agrees ((setFirstRules s.ers x).map fun e => ((), { s with ers := e })) (setFirst x ⟨s, none⟩) := by
  unfold setFirst prim
  dsimp only
  cases setFirstRules s.ers x with
  | ok e => exact rfl
  | error y => exact ⟨_, rfl⟩

theorem dispatch_agrees (n : Nat) (e : Ers F) (ts : Tokens) (number : Nat) (hn : ts.toks.length = number) (t : Token) :
    Agrees ((dispatchFull n e ts t).map fun p => ((), ⟨p.1, p.2⟩)) (dispatch n number t ⟨⟨e, ts⟩, none⟩) := by
  unfold dispatchFull dispatch
  have ex : ∀ c (s : St Tokens F), Agrees (F15.exec n c s) (exec n c ⟨s, none⟩) := fun c s => agrees_of_same (same_exec n c) s
  cases t.base
  case SPEED_VFR =>
    dsimp only
    have := agrees_bind (ex (.assignSpeedVfr t) ⟨e, ts⟩) (f := fun _ => setFirst (py! "VFR"))
      (g := fun r => (setFirstRules r.2.ers (py! "VFR")).map fun e => ((), { r.2 with ers := e })) fun a s1 _ => setFirst_agrees s1 _
    refine Eq.mp (congrArg (Agrees · _) ?_) this
    cases F15.exec n (.assignSpeedVfr t) (⟨e, ts⟩ : St Tokens F) with
    | error x => rfl
    | ok r =>
      show Except.map _ (setFirstRules r.2.ers _) = Except.map _ (setFirstRules r.2.ers _ >>= _)
      cases setFirstRules r.2.ers (py! "VFR") <;> rfl
  case SPEED_ALTITUDE =>
    dsimp only
    by_cases h1 : number = 1
    · have h2 : ts.getNumberOfTokens = 1 := by unfold Tokens.getNumberOfTokens; omega
      simp only [h2, if_true]
      have := agrees_bind (ex (.assignSpeedAltitude t) ⟨e, ts⟩) (f := fun _ => if number = 1 then exec n (.addErrorAndReSync t 49) else pure ())
        (g := fun r => F15.exec n (.addErrorAndReSync t 49) r.2) fun a s1 _ => by
          rw [if_pos h1]; exact ex _ s1
      refine Eq.mp (congrArg (Agrees · _) ?_) this
      cases F15.exec n (.assignSpeedAltitude t) (⟨e, ts⟩ : St Tokens F) with
      | error x => rfl
      | ok r =>
        show F15.exec n (.addErrorAndReSync t 49) r.2 = Except.map _ (F15.exec n (.addErrorAndReSync t 49) r.2 >>= _)
        cases F15.exec n (.addErrorAndReSync t 49) r.2 <;> rfl
    · have h2 : ¬ ts.getNumberOfTokens = 1 := by unfold Tokens.getNumberOfTokens; omega
      simp only [h2, if_false]
      have := agrees_bind (ex (.assignSpeedAltitude t) ⟨e, ts⟩) (f := fun _ => if number = 1 then exec n (.addErrorAndReSync t 49) else pure ())
        (g := fun r => .ok ((), r.2)) fun a s1 _ => by
          rw [if_neg h1]; exact rfl
      refine Eq.mp (congrArg (Agrees · _) ?_) this
      cases F15.exec n (.assignSpeedAltitude t) (⟨e, ts⟩ : St Tokens F) <;> rfl
  all_goals
    dsimp only
    have := ex (.addErrorAndReSync t 1) ⟨e, ts⟩
    refine Eq.mp (congrArg (Agrees · _) ?_) this
    cases F15.exec n (.addErrorAndReSync t 1) (⟨e, ts⟩ : St Tokens F) <;> rfl

theorem derive_agrees (e : Ers F) (ts : Tokens) (first : Record F) :
    ((do
      let rules ← allRules
      if first.rules = py! "VFR" then do
        setDerived (py! "V")
        whenM (rules.contains (py! "IFR")) (setDerived (py! "Z"))
        noErrors
      else do
        setDerived (py! "I")
        whenM (rules.contains (py! "VFR")) (setDerived (py! "Y"))
        noErrors) : M Tokens F Bool) ⟨⟨e, ts⟩, none⟩ =
      (.ok (decide ((e.setDerived (deriveRules first.rules (e.elements.map (·.rules)))).numberOfErrors = 0)),
        ⟨⟨e.setDerived (deriveRules first.rules (e.elements.map (·.rules))), ts⟩, none⟩) := by
  rw [bind_ok (m := allRules) (a := e.elements.map (·.rules)) (s' := ⟨⟨e, ts⟩, none⟩) rfl]
  unfold deriveRules
  split
  · rw [bind_ok (m := setDerived (py! "V")) (a := ()) (s' := ⟨⟨e.setDerived (py! "V"), ts⟩, none⟩) rfl]
    cases hc : (e.elements.map (·.rules)).contains (py! "IFR")
    · rfl
    · rfl
  · rw [bind_ok (m := setDerived (py! "I")) (a := ()) (s' := ⟨⟨e.setDerived (py! "I"), ts⟩, none⟩) rfl]
    cases hc : (e.elements.map (·.rules)).contains (py! "VFR")
    · rfl
    · rfl

theorem finish_agrees (e : Ers F) (ts : Tokens) :
    Agrees ((F15.finish e).map fun p => (p.1, ⟨p.2, ts⟩)) (finish ⟨⟨e, ts⟩, none⟩) := by
  unfold finish
  rw [bind_ok (m := addAdes) (a := ()) (s' := ⟨⟨e.addDummyAdes, ts⟩, none⟩) rfl]
  unfold F15.finish
  dsimp only
  generalize e.addDummyAdes = e1
  rw [bind_eq]
  have hp : previousToLast ⟨⟨e1, ts⟩, none⟩ = (e1.getPreviousToLastElement, (⟨⟨e1, ts⟩, none⟩ : Run Tokens F)) := by
    unfold previousToLast prim
    dsimp only
    cases e1.getPreviousToLastElement <;> rfl
  rw [hp]
  cases e1.getPreviousToLastElement with
  | error x => exact ⟨_, rfl⟩
  | ok o =>
    cases o with
    | none => exact rfl
    | some p =>
      show Agrees _ ((setLastRules p.rules >>= _) ⟨⟨e1, ts⟩, none⟩)
      rw [bind_ok (m := setLastRules p.rules) (a := ()) (s' := ⟨⟨{ e1 with recs := match e1.recs with
        | ades :: rs => ades.setRules p.rules :: rs
        | [] => [] }, ts⟩, none⟩) rfl]
      show Agrees (Except.map _ ((Ers.getFirstElement { e1 with recs := match e1.recs with
        | ades :: rs => ades.setRules p.rules :: rs
        | [] => [] }) >>= _)) _
      generalize ({ e1 with recs := match e1.recs with
        | ades :: rs => ades.setRules p.rules :: rs
        | [] => [] } : Ers F) = e2
      rw [bind_eq]
      have hf : firstElement ⟨⟨e2, ts⟩, none⟩ = (e2.getFirstElement, (⟨⟨e2, ts⟩, none⟩ : Run Tokens F)) := by
        unfold firstElement prim
        dsimp only
        cases e2.getFirstElement <;> rfl
      rw [hf]
      cases e2.getFirstElement with
      | error x => exact ⟨_, rfl⟩
      | ok o =>
        cases o with
        | none => exact ⟨_, rfl⟩
        | some f => exact derive_agrees e2 ts f

theorem parse_agrees (n : Nat) (e : Ers F) (tokens : Tokens) :
    Agrees ((parseF15Full n e tokens).map fun p => (p.1.1, ⟨p.1.2, p.2⟩)) (parse n tokens.toks ⟨⟨e, tokens⟩, none⟩) := by
  unfold parse
  rw [bind_ok (show assignTypes 0 tokens.toks ⟨⟨e, tokens⟩, none⟩ = _ from assignTypes_ok e tokens.cur [] tokens.toks)]
  rw [List.nil_append]
  have ht : (⟨tokens.toks.map assignSyntax, tokens.cur⟩ : Tokens) = assignSyntaxDescriptions tokens := rfl
  rw [ht]
  unfold parseF15Full
  dsimp only
  have hlen : (assignSyntaxDescriptions tokens).getFirstToken.2.toks.length = tokens.toks.length := by
    show (tokens.toks.map assignSyntax).length = _
    simp
  have hf : firstToken ⟨⟨e, assignSyntaxDescriptions tokens⟩, none⟩ =
      (match (assignSyntaxDescriptions tokens).getFirstToken with
        | (.ok o, tk) => (.ok o, (⟨⟨e, tk⟩, none⟩ : Run Tokens F))
        | (.error x, _) => (.error x, ⟨⟨e, assignSyntaxDescriptions tokens⟩, none⟩)) := by
    unfold firstToken prim
    dsimp only
    generalize (assignSyntaxDescriptions tokens).getFirstToken = q
    obtain ⟨q, tk⟩ := q
    cases q <;> rfl
  rw [bind_eq, hf]
  revert hlen
  generalize (assignSyntaxDescriptions tokens).getFirstToken = q
  obtain ⟨q, tk⟩ := q
  intro hlen
  cases q with
  | error x => exact ⟨_, rfl⟩
  | ok o =>
    cases o with
    | none =>
      have hm : ∃ m, errorMessage 41 = some m := by
        cases h : errorMessage 41 with
        | none => exact absurd h (by decide +kernel)
        | some m => exact ⟨m, rfl⟩
      obtain ⟨m, hm⟩ := hm
      rw [hm]
      show (addNullError >>= fun _ => addAdes >>= fun _ => pure false : M Tokens F Bool) ⟨⟨e, tk⟩, none⟩ = _
      have h1 : addNullError ⟨⟨e, tk⟩, none⟩ = (.ok (), (⟨⟨e.addError (py! "NULL") 0 0 .UNKNOWN .UNKNOWN m, tk⟩, none⟩ : Run Tokens F)) := by
        unfold addNullError
        refine prim_ok ?_
        rw [hm]
      rw [bind_ok h1]
      rfl
    | some t =>
      show Agrees (Except.map _ (dispatchFull n e tk t >>= fun p => F15.finish p.1 >>= fun r => pure (r, p.2)))
        ((dispatch n tokens.toks.length t >>= fun _ => finish : M Tokens F Bool) ⟨⟨e, tk⟩, none⟩)
      have := agrees_bind (dispatch_agrees n e tk tokens.toks.length hlen t) (f := fun _ => finish)
        (g := fun r => (F15.finish r.2.ers).map fun p => (p.1, ⟨p.2, r.2.toks⟩)) fun a s1 _ => finish_agrees s1.ers s1.toks
      refine Eq.mp (congrArg (Agrees · _) ?_) this
      cases dispatchFull n e tk t with
      | error x => rfl
      | ok p =>
        show Except.map _ (F15.finish p.1) = Except.map _ (F15.finish p.1 >>= _)
        cases F15.finish p.1 <;> rfl

end F15.Crash

namespace F15
open Spec

set_option linter.unusedSectionVars false
variable {F : Type} [PyFloat F]

/-! ### The claims -/

/-- **C58** Without an exception from outside this is the parser of the other theorems: the same result, or the same exception. -/
theorem c58_same (n : Nat) (e : Ers F) (tokens : Tokens) :
    match parseF15Full n e tokens with
    | .ok ((b, e'), tokens') => Crash.parseF15 n none e tokens = (.ok b, e', tokens')
    | .error x => ∃ e' tokens', Crash.parseF15 n none e tokens = (.error x, e', tokens') := by
  have h := Crash.parse_agrees n e tokens
  cases hp : parseF15Full n e tokens with
  | error x =>
    rw [hp] at h
    obtain ⟨s, h⟩ := h
    exact ⟨s.ers, s.toks, by unfold Crash.parseF15; rw [h]⟩
  | ok r =>
    rw [hp] at h
    obtain ⟨⟨b, e'⟩, tokens'⟩ := r
    change _ = (_, _) at h
    dsimp only
    unfold Crash.parseF15
    rw [h]

/-- **C58** However `parse_f15` ends, by itself, for want of stack or struck from outside at any point: the words of the tokens are as before, and what was
in the sequence before the call is still there. -/
theorem c58 (n : Nat) (strike : Option Crash.Strike) (e : Ers F) (tokens : Tokens) {r : Except PyErr Bool} {e1 : Ers F} {tokens1 : Tokens}
    (h : Crash.parseF15 n strike e tokens = (r, e1, tokens1)) :
    words tokens1.toks = words tokens.toks ∧ GoesOnFrom e e1 := by
  have g := (Crash.limG_parse n 0 tokens.toks ⟨e, tokens⟩ strike).1
  unfold Crash.parseF15 at h
  cases h
  exact ⟨g.words, g.from⟩

/-- **C58** When an exception ends `parse_f15`, what it leaves in the sequence is the beginning of what the undisturbed call records with the same or more stack. -/
theorem c58_prefix (n m : Nat) (hnm : n ≤ m) (strike : Option Crash.Strike) (e : Ers F) (tokens : Tokens) {x : PyErr} {r : Except PyErr Bool} {e1 e2 : Ers F}
    {tokens1 tokens2 : Tokens} (h1 : Crash.parseF15 n strike e tokens = (.error x, e1, tokens1)) (h2 : Crash.parseF15 m none e tokens = (r, e2, tokens2)) :
    words tokens2.toks = words tokens1.toks ∧ GoesOnFrom e1 e2 := by
  obtain ⟨k, rfl⟩ := Nat.exists_eq_add_of_le hnm
  obtain ⟨_, _, _, g⟩ := Crash.limG_parse (F := F) n k tokens.toks ⟨e, tokens⟩ strike
  have r1 : Crash.Goes ((Crash.parse n tokens.toks (⟨⟨e, tokens⟩, strike⟩ : Crash.Run Tokens F)).2.st) (Crash.parse (n + k) tokens.toks (⟨⟨e, tokens⟩, none⟩ : Crash.Run Tokens F)).2.st := by
    rcases g with ⟨_, g⟩ | ⟨_, g⟩
    · rw [g]; exact Crash.Goes.refl _
    · exact g
  unfold Crash.parseF15 at h1 h2
  obtain ⟨_, h1⟩ := Prod.mk.inj h1
  cases h1; cases h2
  exact ⟨r1.words, r1.from⟩

/-- **C58** If `parse_f15` returns although an exception was to strike, nothing differs from the undisturbed call, whatever more stack that has. -/
theorem c58_returned (n m : Nat) (hnm : n ≤ m) (strike : Option Crash.Strike) (e : Ers F) (tokens : Tokens) {b : Bool} {e1 : Ers F} {tokens1 : Tokens}
    (h1 : Crash.parseF15 n strike e tokens = (.ok b, e1, tokens1)) : Crash.parseF15 m none e tokens = (.ok b, e1, tokens1) := by
  obtain ⟨k, rfl⟩ := Nat.exists_eq_add_of_le hnm
  obtain ⟨_, _, _, g⟩ := Crash.limG_parse (F := F) n k tokens.toks ⟨e, tokens⟩ strike
  unfold Crash.parseF15 at h1 ⊢
  rcases g with ⟨g1, g2⟩ | ⟨⟨x, g⟩, _⟩
  · rw [← h1]
    dsimp only
    rw [g1, g2]
  · have := (Prod.mk.inj h1).1
    rw [g] at this
    cases this

/-- The names and speeds of the elements after the call, and whether it returned. -/
def left (n : Nat) (strike : Option Crash.Strike) (s : Str) : Bool × List (Str × Str) :=
  let r := Crash.parseF15 (F := Rat) n strike Ers.new ⟨tokenizeList f15Whitespace s, 0⟩
  (r.1.isOk, r.2.1.elements.map fun q => (q.name, q.speed))

/-- The hypotheses of `c58_prefix` are met: with three frames the stack is exhausted after the point with speed and level has been read and before these
are assigned; struck after 50 steps the third element is there and the rest is missing; undisturbed, all elements are there. -/
example :
    left 3 none (py! "N0450F350 52N050W/N0400A100 XXX DCT DDD") = (false, [(py! "ADEP", py! "N0450"), (py! "52N050W", py! "N0450")]) ∧
    left 100 (some ⟨50, .valueError, fun n => n % 2 = 0⟩) (py! "N0450F350 52N050W/N0400A100 XXX DCT DDD") =
      (false, [(py! "ADEP", py! "N0450"), (py! "52N050W", py! "N0400"), (py! "XXX", py! "N0400")]) ∧
    left 100 none (py! "N0450F350 52N050W/N0400A100 XXX DCT DDD") =
      (true, [(py! "ADEP", py! "N0450"), (py! "52N050W", py! "N0400"), (py! "XXX", py! "N0400"), (py! "DCT", py! "N0400"),
        (py! "DDD", py! "N0400"), (py! "ADES", [])]) := by
  decide +kernel

/-- A call on a sequence that already has elements and errors, struck in the middle of `add_record` (attribute by attribute): `c58` applies. -/
example :
    (Crash.parseF15 (F := Rat) 100 (some ⟨11, .recursionError, fun n => n % 2 = 0⟩)
      (Crash.parseF15 (F := Rat) 100 none Ers.new ⟨tokenizeList f15Whitespace (py! "N0450F350 AAA //"), 0⟩).2.1
      ⟨tokenizeList f15Whitespace (py! "N0440F330 BBB DCT CCC"), 0⟩).1.isOk = false := by
  decide +kernel

end F15
