import Verif.Lemmas.Parse
/-!
# The parser never looks at the indices of tokens

Renaming the indices of the tokens commutes with parsing.
-/

namespace F15

set_option linter.unusedSectionVars false
variable {F : Type} [PyFloat F]

/-- A token with other indices. -/
def Token.reloc (φ : Nat → Nat → Nat × Nat) (t : Token) : Token :=
  { t with start := (φ t.start t.stop).1, stop := (φ t.start t.stop).2 }

/-- A record with other indices. -/
def Record.reloc (φ : Nat → Nat → Nat × Nat) (r : Record F) : Record F :=
  { r with start := (φ r.start r.stop).1, stop := (φ r.start r.stop).2 }

/-- An ERS with other indices. -/
def Ers.reloc (φ : Nat → Nat → Nat × Nat) (e : Ers F) : Ers F :=
  { e with recs := e.recs.map (Record.reloc φ), errs := e.errs.map (Record.reloc φ) }

variable (φ : Nat → Nat → Nat × Nat)

def St.reloc (s : St (List Token) F) : St (List Token) F := ⟨s.ers.reloc φ, s.toks.map (Token.reloc φ)⟩

/-- `m'` does to the relocated state what `m` does to the state; values are related by `f`. -/
def Moves {α : Type} (f : α → α) (m m' : M (List Token) F α) : Prop :=
  ∀ s : St (List Token) F, m' (s.reloc φ) = (m s).map fun p => (f p.1, p.2.reloc φ)

variable {φ}

theorem reloc_sub (t : Token) : (t.reloc φ).sub = t.sub := rfl
theorem reloc_base (t : Token) : (t.reloc φ).base = t.base := rfl
theorem reloc_text (t : Token) : (t.reloc φ).text = t.text := rfl

/-- The call with relocated tokens. -/
def Call.reloc (φ : Nat → Nat → Nat × Nat) : Call → Call
  | .addErrorAndReSync t n => .addErrorAndReSync (t.reloc φ) n
  | .assignSpeedAltitude t => .assignSpeedAltitude (t.reloc φ)
  | .assignSpeedAltitudeAltitude t => .assignSpeedAltitudeAltitude (t.reloc φ)
  | .assignSpeedAltitudePlus t => .assignSpeedAltitudePlus (t.reloc φ)
  | .assignSpeedVfr t => .assignSpeedVfr (t.reloc φ)
  | .breakEnd t => .breakEnd (t.reloc φ)
  | .breakEndError t => .breakEndError (t.reloc φ)
  | .breakStart t => .breakStart (t.reloc φ)
  | .breakTextSave t => .breakTextSave (t.reloc φ)
  | .cruiseClimbC t => .cruiseClimbC (t.reloc φ)
  | .cruiseClimbPoint t => .cruiseClimbPoint (t.reloc φ)
  | .dct t => .dct (t.reloc φ)
  | .forwardSlash t => .forwardSlash (t.reloc φ)
  | .postAdep t => .postAdep (t.reloc φ)
  | .postPoint t => .postPoint (t.reloc φ)
  | .postSid => .postSid
  | .point t => .point (t.reloc φ)
  | .reSync => .reSync
  | .route t => .route (t.reloc φ)
  | .sid t => .sid (t.reloc φ)
  | .sidStar t => .sidStar (t.reloc φ)
  | .star t => .star (t.reloc φ)
  | .stay t => .stay (t.reloc φ)
  | .stayTime t => .stayTime (t.reloc φ)
  | .truncate => .truncate
  | .vToI => .vToI
  | .vToIToV => .vToIToV

theorem mv_pure : Moves (F := F) φ id (pure ()) (pure ()) := fun _ => rfl

theorem mv_throw {α : Type} (f : α → α) (e : PyErr) : Moves (F := F) φ f (throw e) (throw e) := fun _ => rfl

theorem mv_bind {α β : Type} {f : α → α} {g : β → β} {m m' : M (List Token) F α} {k k' : α → M (List Token) F β}
    (h : Moves φ f m m') (hk : ∀ a, Moves φ g (k a) (k' (f a))) : Moves φ g (m >>= k) (m' >>= k') := by
  intro s
  have h1 := h s
  show ((m' (s.reloc φ)) >>= fun p => k' p.1 p.2) = ((m s) >>= fun p => k p.1 p.2).map _
  rw [h1]
  cases hm : m s with
  | error e => rfl
  | ok p => exact hk p.1 p.2

theorem mv_next : Moves (F := F) φ (Option.map (Token.reloc φ)) nextToken nextToken := by
  intro s
  obtain ⟨e, ts⟩ := s
  cases ts <;> rfl

theorem mv_peek (k : Nat) : Moves (F := F) φ (Option.map (Token.reloc φ)) (peekToken k) (peekToken k) := by
  intro s
  obtain ⟨e, ts⟩ := s
  show Except.ok ((ts.map (Token.reloc φ))[k - 1]?, _) = _
  rw [List.getElem?_map]; rfl

theorem mv_lastElement : Moves (F := F) φ (Option.map (Record.reloc φ)) lastElement lastElement := by
  intro s
  unfold lastElement
  rw [getLastElement_ok, getLastElement_ok]
  show Except.ok ((s.ers.recs.map (Record.reloc φ)).head?, _) = _
  rw [List.head?_map]; rfl

theorem mv_numElements : Moves (F := F) φ id numElements numElements := by
  intro s
  show Except.ok ((s.ers.recs.map (Record.reloc φ)).length, _) = _
  rw [List.length_map]; rfl

theorem mv_modLast {f f' : Record F → Record F} (h : ∀ r, f' (r.reloc φ) = (f r).reloc φ) : Moves φ id (modLast f) (modLast f') := by
  intro s
  obtain ⟨⟨recs, errs, d⟩, ts⟩ := s
  cases recs with
  | nil => rfl
  | cons r rs =>
    show Except.ok ((), ({ ers := { recs := f' (r.reloc φ) :: rs.map (Record.reloc φ), errs := _, derived := _ }, toks := _ } : St _ F)) = _
    rw [h]; rfl

theorem mv_modPrev {f f' : Record F → Record F} (h : ∀ r, f' (r.reloc φ) = (f r).reloc φ) : Moves φ id (modPrev f) (modPrev f') := by
  intro s
  obtain ⟨⟨recs, errs, d⟩, ts⟩ := s
  cases recs with
  | nil => rfl
  | cons q rs =>
    cases rs with
    | nil => rfl
    | cons r rs =>
      show Except.ok ((), ({ ers := { recs := q.reloc φ :: f' (r.reloc φ) :: rs.map (Record.reloc φ), errs := _, derived := _ }, toks := _ } : St _ F)) = _
      rw [h]; rfl

theorem mv_getLast : Moves (F := F) φ (Record.reloc φ) getLast getLast := by
  intro s
  obtain ⟨⟨recs, errs, d⟩, ts⟩ := s
  cases recs <;> rfl

theorem mv_liftE {α : Type} (x : Except PyErr α) : Moves (F := F) φ id (liftE x) (liftE x) := by
  intro s
  cases x <;> rfl

theorem mv_whenM (c : Bool) {m m' : M (List Token) F Unit} (h : Moves φ id m m') : Moves φ id (whenM c m) (whenM c m') := by
  cases c
  · exact mv_pure
  · exact h

theorem mv_whenM' {c c' : Bool} (hc : c' = c) {m m' : M (List Token) F Unit} (h : Moves φ id m m') : Moves φ id (whenM c m) (whenM c' m') := by
  subst hc; exact mv_whenM _ h

theorem mv_ite {c c' : Prop} [Decidable c] [Decidable c'] (hc : c' ↔ c) {a a' b b' : M (List Token) F Unit} (h1 : Moves φ id a a')
    (h2 : Moves φ id b b') : Moves φ id (if c then a else b) (if c' then a' else b') := by
  by_cases h : c
  · rw [if_pos h, if_pos (hc.2 h)]; exact h1
  · rw [if_neg h, if_neg fun x => h (hc.1 x)]; exact h2

theorem reloc_error (r : Record F) (m : Str) : (r.reloc φ).appendErrorText m = (r.appendErrorText m).reloc φ := by
  unfold Record.appendErrorText
  show (if r.errorText = [] then _ else _) = _
  split <;> rfl

theorem reloc_break (r : Record F) (m : Str) : (r.reloc φ).appendBreakText m = (r.appendBreakText m).reloc φ := by
  unfold Record.appendBreakText
  show (if r.breakText = [] then _ else _) = _
  split <;> rfl

theorem mv_addError (t : Token) (n : Nat) : Moves (F := F) φ id (addErrorNoReSync t n) (addErrorNoReSync (t.reloc φ) n) := by
  intro s
  unfold addErrorNoReSync
  cases errorMessage n with
  | none => rfl
  | some m =>
    show Except.ok ((), ({ ers := { recs := _, errs := ((Record.new t.text t.start t.stop t.base t.sub : Record F).reloc φ).appendErrorText _ :: _, derived := _ }, toks := _ } : St _ F)) = _
    rw [reloc_error]; rfl

theorem mv_addRecord (t : Token) : Moves (F := F) φ id (addRecord t) (addRecord (t.reloc φ)) := by
  intro s
  obtain ⟨⟨recs, errs, d⟩, ts⟩ := s
  cases recs <;> rfl

theorem azimuth_reloc (l : List (Record F)) : azimuthList (l.map (Record.reloc φ)) = (azimuthList l).map (Record.reloc φ) := by
  cases l with
  | nil => rfl
  | cons a l =>
    cases l with
    | nil => rfl
    | cons b l =>
      have r1 : ∀ x : Record F, (x.reloc φ).latLongValid = x.latLongValid := fun _ => rfl
      have r2 : ∀ x y : Record F, setAzimuthAndDistance (x.reloc φ) (y.reloc φ) = (setAzimuthAndDistance x y).reloc φ := fun _ _ => rfl
      simp only [List.map_cons, azimuthList, r1, r2]
      split
      · split
        · rfl
        · cases l with
          | nil => rfl
          | cons c l =>
            simp only [List.map_cons, r1, r2]
            split <;> rfl
      · rfl

theorem mv_assignAzimuth : Moves (F := F) φ id assignAzimuth assignAzimuth := by
  intro s
  show Except.ok ((), ({ ers := { recs := azimuthList (s.ers.recs.map (Record.reloc φ)), errs := _, derived := _ }, toks := _ } : St _ F)) = _
  rw [azimuth_reloc]; rfl

theorem mv_assignAltitude (t : Token) (a : Str) (c : Bool) :
    Moves (F := F) φ id (assignAltitude t a c) (assignAltitude (t.reloc φ) a c) := by
  unfold assignAltitude
  refine mv_bind (mv_modLast fun r => ?_) fun _ => mv_bind (mv_liftE _) fun x => mv_bind (mv_whenM _ (mv_addError _ _)) fun _ => mv_modLast fun r => ?_
  · split <;> rfl
  · split <;> rfl
theorem mv_assignSpeed (a : Str) : Moves (F := F) φ id (assignSpeed a) (assignSpeed a) := by
  unfold assignSpeed
  exact mv_bind (mv_modLast fun r => rfl) fun _ => mv_bind mv_getLast fun r => mv_bind (mv_liftE _) fun x => mv_modLast fun r => rfl
theorem mv_assignLatitude (a : Str) : Moves (F := F) φ id (assignLatitude a) (assignLatitude a) :=
  mv_bind (mv_liftE _) fun _ => mv_modLast fun _ => rfl
theorem mv_assignLongitude (a : Str) : Moves (F := F) φ id (assignLongitude a) (assignLongitude a) :=
  mv_bind (mv_liftE _) fun _ => mv_modLast fun _ => rfl
theorem mv_assignLlDeg (t : Token) (a : Str) : Moves (F := F) φ id (assignLlDeg t a) (assignLlDeg (t.reloc φ) a) :=
  mv_bind (mv_assignLatitude _) fun _ => mv_bind (mv_assignLongitude _) fun _ => mv_bind (mv_liftE _) fun _ =>
    mv_bind (mv_whenM _ (mv_addError _ _)) fun _ => mv_bind (mv_liftE _) fun _ => mv_bind (mv_whenM _ (mv_addError _ _)) fun _ =>
    mv_bind (mv_modLast fun _ => rfl) fun _ => mv_assignAzimuth
theorem mv_assignLlDegMin (t : Token) (a : Str) : Moves (F := F) φ id (assignLlDegMin t a) (assignLlDegMin (t.reloc φ) a) :=
  mv_bind (mv_assignLatitude _) fun _ => mv_bind (mv_assignLongitude _) fun _ => mv_bind (mv_liftE _) fun _ =>
    mv_bind (mv_whenM _ (mv_addError _ _)) fun _ => mv_bind (mv_liftE _) fun _ => mv_bind (mv_whenM _ (mv_addError _ _)) fun _ =>
    mv_bind (mv_modLast fun _ => rfl) fun _ => mv_assignAzimuth
theorem mv_resolve (b d : F) : Moves φ id (resolveRealBdPoint b d) (resolveRealBdPoint b d) :=
  mv_bind (mv_modLast fun _ => rfl) fun _ => mv_assignAzimuth
theorem mv_assignBearingDistance (t : Token) (a : Str) :
    Moves (F := F) φ id (assignBearingDistance t a) (assignBearingDistance (t.reloc φ) a) :=
  mv_bind (mv_liftE _) fun _ => mv_bind (mv_whenM _ (mv_addError _ _)) fun _ =>
    mv_bind (mv_liftE _) fun _ => mv_bind (mv_liftE _) fun _ => mv_resolve _ _
theorem mv_assignLatLong (t : Token) :
    Moves (F := F) φ id (assignLatLongBearingDistance t) (assignLatLongBearingDistance (t.reloc φ)) := by
  unfold assignLatLongBearingDistance
  simp only [reloc_sub, reloc_text]
  split
  · exact mv_bind (mv_liftE _) fun _ => mv_whenM _ (mv_addError _ _)
  · exact mv_assignLlDeg _ _
  · exact mv_assignLlDegMin _ _
  · exact mv_bind (mv_assignLlDeg _ _) fun _ => mv_assignBearingDistance _ _
  · exact mv_bind (mv_assignLlDegMin _ _) fun _ => mv_assignBearingDistance _ _
  · exact mv_pure
theorem mv_checkPosition (t : Token) : Moves (F := F) φ id (checkPosition t) (checkPosition (t.reloc φ)) :=
  mv_whenM _ (mv_assignLatLong t)
theorem mv_levelSpeed (t : Token) (a b : Str) : Moves (F := F) φ id (levelSpeed t a b) (levelSpeed (t.reloc φ) a b) :=
  mv_bind (mv_assignAltitude _ _ _) fun _ => mv_assignSpeed _
theorem mv_levelLevelSpeed (t : Token) (a b c : Str) :
    Moves (F := F) φ id (levelLevelSpeed t a b c) (levelLevelSpeed (t.reloc φ) a b c) :=
  mv_bind (mv_assignAltitude _ _ _) fun _ => mv_bind (mv_assignAltitude _ _ _) fun _ => mv_assignSpeed _
theorem mv_levelPlusSpeed (t : Token) (a b c : Str) :
    Moves (F := F) φ id (levelPlusSpeed t a b c) (levelPlusSpeed (t.reloc φ) a b c) :=
  mv_bind (mv_assignAltitude _ _ _) fun _ => mv_bind (mv_modLast fun _ => rfl) fun _ => mv_assignSpeed _
theorem mv_vfrSpeedRules (t : Token) : Moves (F := F) φ id (vfrSpeedRules t) (vfrSpeedRules (t.reloc φ)) := by
  unfold vfrSpeedRules
  have h1 := fun (a : Str) => mv_assignSpeed (F := F) (φ := φ) a
  have hs : (t.reloc φ).sub = t.sub := rfl
  have ht : (t.reloc φ).text = t.text := rfl
  dsimp only
  rw [hs, ht]
  split
  · exact mv_bind (h1 _) fun _ => mv_bind (mv_liftE _) fun _ => mv_modLast fun _ => rfl
  · exact mv_bind (h1 _) fun _ => mv_bind (mv_liftE _) fun _ => mv_modLast fun _ => rfl
  · exact mv_bind (h1 _) fun _ => mv_bind (mv_liftE _) fun _ => mv_modLast fun _ => rfl
  · exact mv_bind (h1 _) fun _ => mv_bind (mv_liftE _) fun _ => mv_modLast fun _ => rfl
  · exact mv_bind (mv_assignAltitude _ _ _) fun _ => mv_modLast fun _ => rfl
theorem mv_markSid (a : Str) : Moves (F := F) φ id (markSid a) (markSid a) := mv_modLast fun _ => rfl
theorem mv_markStar (a : Str) : Moves (F := F) φ id (markStar a) (markStar a) := mv_modLast fun _ => rfl

theorem mv_saveStayTime (a : Str) : Moves (F := F) φ id (saveStayTime a) (saveStayTime a) := by
  unfold saveStayTime
  refine mv_bind mv_getLast fun r => mv_bind (f := Record.reloc φ) ?_ fun r' => mv_modLast fun _ => rfl
  intro s
  show liftE ((r.reloc φ).setStayTime a) _ = _
  unfold Record.setStayTime
  cases pyInt (slice a 0 2) with
  | error => rfl
  | ok x => cases pyInt (sliceFrom a 2) <;> rfl

/-- Solves goals `Moves φ id m m'` for two copies of the same program text. -/
macro "mvc" h:ident : tactic => `(tactic| (
  repeat (first
  | with_reducible exact mv_pure | with_reducible exact mv_throw _ _ | with_reducible exact mv_addError _ _
  | with_reducible exact mv_addRecord _ | with_reducible exact mv_checkPosition _ | with_reducible exact mv_levelSpeed _ _ _
  | with_reducible exact mv_levelLevelSpeed _ _ _ _ | with_reducible exact mv_levelPlusSpeed _ _ _ _
  | with_reducible exact mv_vfrSpeedRules _ | with_reducible exact mv_saveStayTime _ | with_reducible exact mv_markSid _
  | with_reducible exact mv_markStar _ | with_reducible exact mv_assignAltitude _ _ _ | with_reducible exact mv_assignLatLong _
  | exact $h _
  | exact mv_addRecord _
  | with_reducible exact mv_modLast (fun _ => rfl)
  | with_reducible exact mv_modLast (fun _ => reloc_break _ _)
  | exact mv_markSid _
  | exact mv_markStar _
  | exact mv_modPrev (fun _ => rfl)
  | with_reducible refine mv_whenM _ ?_
  | refine mv_whenM' rfl ?_
  | refine mv_ite Iff.rfl ?_ ?_
  | (with_reducible refine mv_bind mv_next (fun x => ?_); cases x)
  | (with_reducible refine mv_bind (mv_peek _) (fun x => ?_); cases x)
  | (with_reducible refine mv_bind mv_lastElement (fun x => ?_); cases x)
  | with_reducible refine mv_bind mv_numElements (fun _ => ?_)
  | with_reducible refine mv_bind mv_getLast (fun _ => ?_)
  | with_reducible refine mv_bind (mv_liftE _) (fun _ => ?_)
  | with_reducible refine mv_bind (f := id) ?_ (fun _ => ?_)
  | simp only [Option.map_none, Option.map_some, reloc_sub, reloc_base, reloc_text, id_eq]
  | split)))

set_option maxHeartbeats 4000000 in
theorem mv_step {call call' : Call → M (List Token) F Unit} (h : ∀ c, Moves φ id (call c) (call' (c.reloc φ))) (c : Call) :
    Moves φ id (step call c) (step call' (c.reloc φ)) := by
  cases c with
  | addErrorAndReSync t n => simp only [step, Call.reloc]; unfold addErrorAndReSync; mvc h
  | assignSpeedAltitude t => simp only [step, Call.reloc]; unfold assignSpeedAltitude; mvc h
  | assignSpeedAltitudeAltitude t => simp only [step, Call.reloc]; unfold assignSpeedAltitudeAltitude rulesThenPostPoint; mvc h
  | assignSpeedAltitudePlus t => simp only [step, Call.reloc]; unfold assignSpeedAltitudePlus rulesThenPostPoint; mvc h
  | assignSpeedVfr t => simp only [step, Call.reloc]; unfold assignSpeedVfr; mvc h
  | breakEnd t => simp only [step, Call.reloc]; unfold breakEnd breakEndTail; mvc h
  | breakEndError t => simp only [step, Call.reloc]; unfold breakEndError; mvc h
  | breakStart t => simp only [step, Call.reloc]; unfold breakStart; exact mv_bind (mv_addRecord _) fun _ => mv_bind (mv_modLast fun r => by
      rw [reloc_sub]; cases t.sub <;> rfl) fun _ => by mvc h
  | breakTextSave t => simp only [step, Call.reloc]; unfold breakTextSave; mvc h
  | cruiseClimbC t => simp only [step, Call.reloc]; unfold cruiseClimbC; mvc h
  | cruiseClimbPoint t => simp only [step, Call.reloc]; unfold cruiseClimbPoint; mvc h
  | dct t => simp only [step, Call.reloc]; unfold dct; mvc h
  | forwardSlash t => simp only [step, Call.reloc]; unfold forwardSlash; mvc h
  | postAdep t => simp only [step, Call.reloc]; unfold postAdep; mvc h
  | postPoint t => simp only [step, Call.reloc]; unfold postPoint; mvc h
  | postSid => simp only [step, Call.reloc]; unfold postSid; mvc h
  | point t => simp only [step, Call.reloc]; unfold point; mvc h
  | reSync => simp only [step, Call.reloc]; unfold reSync; mvc h
  | route t => simp only [step, Call.reloc]; unfold route; mvc h
  | sid t => simp only [step, Call.reloc]; unfold sid; mvc h
  | sidStar t => simp only [step, Call.reloc]; unfold sidStar; mvc h
  | star t => simp only [step, Call.reloc]; unfold star; mvc h
  | stay t => simp only [step, Call.reloc]; unfold stay; mvc h
  | stayTime t => simp only [step, Call.reloc]; unfold stayTime; mvc h
  | truncate => simp only [step, Call.reloc]; unfold truncate; mvc h
  | vToI => simp only [step, Call.reloc]; unfold vToI; mvc h
  | vToIToV => simp only [step, Call.reloc]; unfold vToIToV; mvc h

theorem mv_exec (n : Nat) (c : Call) : Moves (F := F) φ id (exec n c) (exec n (c.reloc φ)) := by
  induction n generalizing c with
  | zero => exact fun _ => rfl
  | succ n ih => exact mv_step ih c

end F15
