import Verif.Lemmas.Access
import Verif.Model.Parser
/-!
# The token stream as a plain list

The parser uses `Tokens` (list and integer cursor). For the proofs we use the list of tokens after the
cursor. This file proves that both give the same results.
-/

namespace F15

/-- The list of remaining tokens as a stream. -/
instance : TokStream (List Token) where
  next ts := (.ok ts.head?, ts.tail)
  peek ts k := .ok ts[k - 1]?

set_option linter.unusedSectionVars false
variable {F : Type} [PyFloat F]

/-- Related states: same ERS; the list is what lies behind the cursor. -/
structure SimR (T : List Token) (s : St Tokens F) (s' : St (List Token) F) : Prop where
  ers : s.ers = s'.ers
  cur : 0 ≤ s.toks.cur
  rest : s'.toks = s.toks.toks.drop (s.toks.cur.toNat + 1)
  all : s.toks.toks = T

/-- Related results. -/
def RelR (T : List Token) {α : Type} : Except PyErr (α × St Tokens F) → Except PyErr (α × St (List Token) F) → Prop
  | .ok (a, s), .ok (a', s') => a = a' ∧ SimR T s s'
  | .error e, .error e' => e = e'
  | _, _ => False

/-- Related computations. -/
def Rel (T : List Token) {α : Type} (m : M Tokens F α) (m' : M (List Token) F α) : Prop :=
  ∀ s s', SimR T s s' → RelR T (m s) (m' s')

variable {T : List Token}

theorem rel_pure {α : Type} (a : α) : Rel (F := F) T (pure a) (pure a) := fun _ _ h => ⟨rfl, h⟩

theorem rel_throw {α : Type} (e : PyErr) : Rel (F := F) (α := α) T (throw e) (throw e) := fun _ _ _ => rfl

theorem rel_bind {α β : Type} {m : M Tokens F α} {m' : M (List Token) F α} {f : α → M Tokens F β}
    {f' : α → M (List Token) F β} (h : Rel T m m') (hf : ∀ a, Rel T (f a) (f' a)) : Rel T (m >>= f) (m' >>= f') := by
  intro s s' hs
  have h1 := h s s' hs
  show RelR T ((m s) >>= fun p => f p.1 p.2) ((m' s') >>= fun p => f' p.1 p.2)
  cases hm : m s with
  | error e =>
    cases hm' : m' s' with
    | error e' => rw [hm, hm'] at h1; exact h1
    | ok p => rw [hm, hm'] at h1; exact h1.elim
  | ok p =>
    cases hm' : m' s' with
    | error e' => rw [hm, hm'] at h1; exact h1.elim
    | ok p' =>
      rw [hm, hm'] at h1
      obtain ⟨a, t⟩ := p
      obtain ⟨a', t'⟩ := p'
      obtain ⟨rfl, ht⟩ := h1
      exact hf a t t' ht

theorem rel_next : Rel (F := F) T nextToken nextToken := by
  intro s s' h
  obtain ⟨e, ⟨toks, cur⟩⟩ := s
  obtain ⟨e', ts⟩ := s'
  obtain ⟨rfl, hc, hr, ha⟩ := h
  simp only at hc hr
  subst hr
  simp only [nextToken, TokStream.next, Tokens.getNextToken, getTokenAt_ok, RelR]
  have e1 : (cur + 1).toNat = cur.toNat + 1 := by omega
  refine ⟨?_, rfl, by simp only; omega, ?_, ha⟩
  · by_cases hb : cur + 1 ≥ (toks.length : Int)
    · rw [if_pos (.inr hb), List.drop_eq_nil_of_le (by omega)]; rfl
    · rw [if_neg (by omega), e1, List.head?_drop]
  · simp only [e1, List.tail_drop]

theorem rel_peek (k : Nat) (hk : 1 ≤ k) : Rel (F := F) T (peekToken k) (peekToken k) := by
  intro s s' h
  have h0 := h
  obtain ⟨e, ⟨toks, cur⟩⟩ := s
  obtain ⟨e', ts⟩ := s'
  obtain ⟨rfl, hc, hr, ha⟩ := h
  simp only at hc hr
  subst hr
  simp only [peekToken, TokStream.peek, Tokens.peekNextToken, getTokenAt_ok, RelR]
  refine ⟨?_, h0⟩
  rw [List.getElem?_drop]
  have e1 : (cur + (k : Int)).toNat = cur.toNat + 1 + (k - 1) := by omega
  by_cases hb : cur + (k : Int) ≥ (toks.length : Int)
  · rw [if_pos (.inr hb), List.getElem?_eq_none (by omega)]
  · rw [if_neg (by omega), e1]

/-- Computations that only touch the ERS. -/
theorem rel_ers {α : Type} {m : M Tokens F α} {m' : M (List Token) F α} (g : Ers F → Except PyErr (α × Ers F))
    (h : ∀ s, m s = (g s.ers).map fun p => (p.1, { s with ers := p.2 }))
    (h' : ∀ s, m' s = (g s.ers).map fun p => (p.1, { s with ers := p.2 })) : Rel T m m' := by
  intro s s' hs
  rw [h, h', hs.ers]
  cases g s'.ers with
  | error e => rfl
  | ok p => exact ⟨rfl, rfl, hs.cur, hs.rest, hs.all⟩

theorem rel_lastElement : Rel (F := F) T lastElement lastElement :=
  rel_ers (fun e => .ok (e.recs.head?, e)) (fun s => by unfold lastElement; rw [getLastElement_ok]; rfl)
    (fun s => by unfold lastElement; rw [getLastElement_ok]; rfl)

theorem rel_numElements : Rel (F := F) T numElements numElements :=
  rel_ers (fun e => .ok (e.recs.length, e)) (fun _ => rfl) (fun _ => rfl)

theorem rel_modLast (f : Record F → Record F) : Rel T (modLast f) (modLast f) := by
  apply rel_ers (fun e => match e.recs with
    | r :: rs => .ok ((), { e with recs := f r :: rs })
    | [] => .error .attributeError)
  all_goals intro s; unfold modLast; split <;> simp_all [Except.map]

theorem rel_modPrev (f : Record F → Record F) : Rel T (modPrev f) (modPrev f) := by
  apply rel_ers (fun e => match e.recs with
    | r :: q :: rs => .ok ((), { e with recs := r :: f q :: rs })
    | _ => .error .attributeError)
  all_goals intro s; unfold modPrev; split <;> simp_all [Except.map]

theorem rel_getLast : Rel (F := F) T getLast getLast := by
  apply rel_ers (fun e => match e.recs with
    | r :: _ => .ok (r, e)
    | [] => .error .attributeError)
  all_goals intro s; unfold getLast; split <;> simp_all [Except.map]

theorem rel_liftE {α : Type} (x : Except PyErr α) : Rel (F := F) T (liftE x) (liftE x) := by
  intro s s' hs
  cases x with
  | ok a => exact ⟨rfl, hs⟩
  | error e => rfl

theorem rel_whenM (c : Bool) {m : M Tokens F Unit} {m' : M (List Token) F Unit} (h : Rel T m m') :
    Rel T (whenM c m) (whenM c m') := by
  cases c
  · exact rel_pure ()
  · exact h

theorem rel_addError (t : Token) (n : Nat) : Rel (F := F) T (addErrorNoReSync t n) (addErrorNoReSync t n) := by
  apply rel_ers (fun e => match errorMessage n with
    | some m => .ok ((), e.addError t.text t.start t.stop t.base t.sub m)
    | none => .error .keyError)
  all_goals intro s; unfold addErrorNoReSync; split <;> simp_all [Except.map]

theorem rel_addRecord (t : Token) : Rel (F := F) T (addRecord t) (addRecord t) := by
  apply rel_ers (fun e => match e.recs with
    | prev :: rs => .ok ((), { e with recs := carry prev (Record.new t.text t.start t.stop t.base t.sub) :: prev :: rs })
    | [] => .error .attributeError)
  all_goals intro s; unfold addRecord; split <;> simp_all [Except.map]

theorem rel_assignAzimuth : Rel (F := F) T assignAzimuth assignAzimuth :=
  rel_ers (fun e => .ok ((), { e with recs := azimuthList e.recs })) (fun _ => rfl) (fun _ => rfl)

/-- Solves goals `Rel T m m'` for two copies of the same program text. -/
macro "rel" : tactic => `(tactic| repeat (first
  | with_reducible exact rel_pure _ | with_reducible exact rel_throw _ | with_reducible exact rel_next | with_reducible exact rel_peek _ (by decide)
  | with_reducible exact rel_lastElement | with_reducible exact rel_numElements | with_reducible exact rel_modLast _ | with_reducible exact rel_modPrev _
  | with_reducible exact rel_getLast | with_reducible exact rel_liftE _ | with_reducible exact rel_addError _ _ | with_reducible exact rel_addRecord _
  | with_reducible exact rel_assignAzimuth | with_reducible assumption | (with_reducible refine rel_whenM _ ?_) | (with_reducible refine rel_bind ?_ (fun _ => ?_)) | split))

theorem rel_assignAltitude (t : Token) (a : Str) (c : Bool) :
    Rel (F := F) T (assignAltitude t a c) (assignAltitude t a c) := by unfold assignAltitude; rel
theorem rel_assignSpeed (a : Str) : Rel (F := F) T (assignSpeed a) (assignSpeed a) := by unfold assignSpeed; rel
theorem rel_assignLatitude (a : Str) : Rel (F := F) T (assignLatitude a) (assignLatitude a) := by
  unfold assignLatitude; rel
theorem rel_assignLongitude (a : Str) : Rel (F := F) T (assignLongitude a) (assignLongitude a) := by
  unfold assignLongitude; rel
theorem rel_assignLlDeg (t : Token) (a : Str) : Rel (F := F) T (assignLlDeg t a) (assignLlDeg t a) := by
  have h1 := @rel_assignLatitude F _
  have h2 := @rel_assignLongitude F _
  unfold assignLlDeg
  refine rel_bind (h1 _) fun _ => rel_bind (h2 _) fun _ => ?_
  rel
theorem rel_assignLlDegMin (t : Token) (a : Str) : Rel (F := F) T (assignLlDegMin t a) (assignLlDegMin t a) := by
  have h1 := @rel_assignLatitude F _
  have h2 := @rel_assignLongitude F _
  unfold assignLlDegMin
  refine rel_bind (h1 _) fun _ => rel_bind (h2 _) fun _ => ?_
  rel
theorem rel_resolve (b d : F) : Rel T (resolveRealBdPoint b d) (resolveRealBdPoint b d) := by
  unfold resolveRealBdPoint; rel
theorem rel_assignBearingDistance (t : Token) (a : Str) :
    Rel (F := F) T (assignBearingDistance t a) (assignBearingDistance t a) := by
  unfold assignBearingDistance
  refine rel_bind (rel_liftE _) fun _ => rel_bind (rel_whenM _ (rel_addError _ _)) fun _ =>
    rel_bind (rel_liftE _) fun _ => rel_bind (rel_liftE _) fun _ => rel_resolve _ _
theorem rel_assignLatLong (t : Token) :
    Rel (F := F) T (assignLatLongBearingDistance t) (assignLatLongBearingDistance t) := by
  unfold assignLatLongBearingDistance
  split
  · rel
  · exact rel_assignLlDeg _ _
  · exact rel_assignLlDegMin _ _
  · exact rel_bind (rel_assignLlDeg _ _) fun _ => rel_assignBearingDistance _ _
  · exact rel_bind (rel_assignLlDegMin _ _) fun _ => rel_assignBearingDistance _ _
  · exact rel_pure _
theorem rel_checkPosition (t : Token) : Rel (F := F) T (checkPosition t) (checkPosition t) :=
  rel_whenM _ (rel_assignLatLong t)
theorem rel_levelSpeed (t : Token) (a b : Str) : Rel (F := F) T (levelSpeed t a b) (levelSpeed t a b) :=
  rel_bind (rel_assignAltitude _ _ _) fun _ => rel_assignSpeed _
theorem rel_levelLevelSpeed (t : Token) (a b c : Str) :
    Rel (F := F) T (levelLevelSpeed t a b c) (levelLevelSpeed t a b c) :=
  rel_bind (rel_assignAltitude _ _ _) fun _ => rel_bind (rel_assignAltitude _ _ _) fun _ => rel_assignSpeed _
theorem rel_levelPlusSpeed (t : Token) (a b c : Str) :
    Rel (F := F) T (levelPlusSpeed t a b c) (levelPlusSpeed t a b c) :=
  rel_bind (rel_assignAltitude _ _ _) fun _ => rel_bind (rel_modLast _) fun _ => rel_assignSpeed _
theorem rel_vfrSpeedRules (t : Token) : Rel (F := F) T (vfrSpeedRules t) (vfrSpeedRules t) := by
  unfold vfrSpeedRules
  have h1 := @rel_assignSpeed F _
  have h2 := @rel_assignAltitude F _
  dsimp only
  split
  · exact rel_bind (h1 _) fun _ => by rel
  · exact rel_bind (h1 _) fun _ => by rel
  · exact rel_bind (h1 _) fun _ => by rel
  · exact rel_bind (h1 _) fun _ => by rel
  · exact rel_bind (h2 _ _ _) fun _ => by rel
theorem rel_saveStayTime (a : Str) : Rel (F := F) T (saveStayTime a) (saveStayTime a) := by unfold saveStayTime; rel
theorem rel_markSid (a : Str) : Rel (F := F) T (markSid a) (markSid a) := rel_modLast _
theorem rel_markStar (a : Str) : Rel (F := F) T (markStar a) (markStar a) := rel_modLast _

/-- As `rel`, with the recursive calls and the composite helpers. -/
macro "relc" h:ident : tactic => `(tactic| repeat (first
  | with_reducible exact rel_pure _ | with_reducible exact rel_throw _ | with_reducible exact rel_next | with_reducible exact rel_peek _ (by decide)
  | with_reducible exact rel_lastElement | with_reducible exact rel_numElements | with_reducible exact rel_modLast _ | with_reducible exact rel_modPrev _
  | with_reducible exact rel_getLast | with_reducible exact rel_liftE _ | with_reducible exact rel_addError _ _ | with_reducible exact rel_addRecord _
  | with_reducible exact rel_assignAzimuth | with_reducible exact $h _ | with_reducible exact rel_assignAltitude _ _ _ | with_reducible exact rel_assignSpeed _
  | with_reducible exact rel_assignLatLong _ | with_reducible exact rel_checkPosition _ | with_reducible exact rel_levelSpeed _ _ _
  | with_reducible exact rel_levelLevelSpeed _ _ _ _ | with_reducible exact rel_levelPlusSpeed _ _ _ _ | with_reducible exact rel_vfrSpeedRules _
  | with_reducible exact rel_saveStayTime _ | with_reducible exact rel_markSid _ | with_reducible exact rel_markStar _
  | (with_reducible refine rel_whenM _ ?_) | (with_reducible refine rel_bind ?_ (fun _ => ?_)) | split))

theorem rel_step {call : Call → M Tokens F Unit} {call' : Call → M (List Token) F Unit}
    (h : ∀ c, Rel T (call c) (call' c)) (c : Call) : Rel T (step call c) (step call' c) := by
  cases c with
  | addErrorAndReSync t n => simp only [step]; unfold addErrorAndReSync; relc h
  | assignSpeedAltitude t => simp only [step]; unfold assignSpeedAltitude; relc h
  | assignSpeedAltitudeAltitude t =>
    simp only [step]; unfold assignSpeedAltitudeAltitude rulesThenPostPoint; relc h
  | assignSpeedAltitudePlus t =>
    simp only [step]; unfold assignSpeedAltitudePlus rulesThenPostPoint; relc h
  | assignSpeedVfr t => simp only [step]; unfold assignSpeedVfr; relc h
  | breakEnd t => simp only [step]; unfold breakEnd breakEndTail; relc h
  | breakEndError t => simp only [step]; unfold breakEndError; relc h
  | breakStart t => simp only [step]; unfold breakStart; relc h
  | breakTextSave t => simp only [step]; unfold breakTextSave; relc h
  | cruiseClimbC t => simp only [step]; unfold cruiseClimbC; relc h
  | cruiseClimbPoint t => simp only [step]; unfold cruiseClimbPoint; relc h
  | dct t => simp only [step]; unfold dct; relc h
  | forwardSlash t => simp only [step]; unfold forwardSlash; relc h
  | postAdep t => simp only [step]; unfold postAdep; relc h
  | postPoint t => simp only [step]; unfold postPoint; relc h
  | postSid => simp only [step]; unfold postSid; relc h
  | point t => simp only [step]; unfold point; relc h
  | reSync => simp only [step]; unfold reSync; relc h
  | route t => simp only [step]; unfold route; relc h
  | sid t => simp only [step]; unfold sid; relc h
  | sidStar t => simp only [step]; unfold sidStar; relc h
  | star t => simp only [step]; unfold star; relc h
  | stay t => simp only [step]; unfold stay; relc h
  | stayTime t => simp only [step]; unfold stayTime; relc h
  | truncate => simp only [step]; unfold truncate; relc h
  | vToI => simp only [step]; unfold vToI; relc h
  | vToIToV => simp only [step]; unfold vToIToV; relc h

theorem rel_exec (n : Nat) (c : Call) : Rel (F := F) T (exec n c) (exec n c) := by
  induction n generalizing c with
  | zero => exact fun _ _ _ => rfl
  | succ n ih => exact rel_step ih c

end F15
