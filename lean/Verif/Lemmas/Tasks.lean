import Verif.Model.Tasks
import Verif.Lemmas.Crash
/-!
# Tasks that are not disturbed

`play` runs a task to its end, with an exception from outside as in Model/Crash.lean. `play_parse`: the parser as a task is then the parser of
Model/Crash.lean.
-/

namespace F15.Tasks
open Spec

set_option linter.unusedSectionVars false

section
variable {σ F : Type} [TokStream σ] [PyFloat F]

/-- Run a task; the exception from outside strikes as in Model/Crash.lean. -/
def play {α : Type} : Task (St σ F) α → Crash.Run σ F → Except PyErr α × Crash.Run σ F
  | .done r, s => (r, s)
  | .act n w, s =>
    match s.strike with
    | some ⟨0, x, v⟩ => (.error x, ⟨Crash.blend v s.st (w s.st), none⟩)
    | k => play (n s.st) ⟨w s.st, k.map fun z => { z with after := z.after - 1 }⟩

theorem mix_self (w : Nat → Bool) (r : Record F) : Crash.mix w r r = r := by
  unfold Crash.mix
  simp only [ite_self]

theorem blend_self (w : Nat → Bool) (s : St σ F) : Crash.blend w s s = s := by
  unfold Crash.blend
  simp only [ite_self]
  have : Crash.mixAll w s.ers.recs s.ers.recs = s.ers.recs := by
    unfold Crash.mixAll
    rw [if_pos rfl]
    generalize s.ers.recs = l
    induction l with
    | nil => rfl
    | cons r l ih => rw [List.zipWith_cons_cons, ih, mix_self]
  rw [this]

/-- The task, played, is the program. -/
def Runs {α : Type} (m : Crash.M σ F α) (t : M σ F α) : Prop := ∀ s, play t s = m s

theorem runs_prim {α : Type} (m : F15.M σ F α) : Runs (Crash.prim m) (prim m) := by
  intro s
  obtain ⟨s, k⟩ := s
  unfold prim Crash.prim
  dsimp only [play]
  cases k with
  | none =>
    dsimp only
    cases m s with
    | ok p => rfl
    | error x => rfl
  | some z =>
    obtain ⟨a, x, v⟩ := z
    cases a with
    | zero =>
      cases m s with
      | ok p => rfl
      | error y =>
        show ((.error x, ⟨Crash.blend v s s, none⟩) : Except PyErr α × Crash.Run σ F) = (.error x, ⟨s, none⟩)
        rw [blend_self]
    | succ a =>
      cases m s with
      | ok p => rfl
      | error x => rfl

theorem runs_pure {α : Type} (a : α) : Runs (σ := σ) (F := F) (pure a) (pure a) := fun _ => rfl
theorem runs_throw {α : Type} (x : PyErr) : Runs (σ := σ) (F := F) (α := α) (throw x) (throw x) := fun _ => rfl

theorem play_bind {α β : Type} (t : M σ F α) (k : α → M σ F β) (s : Crash.Run σ F) :
    play (t.bind k) s = match (play t s).1 with
      | .ok a => play (k a) (play t s).2
      | .error x => (.error x, (play t s).2) := by
  induction t generalizing s with
  | done r =>
    cases r with
    | ok a => rfl
    | error x => rfl
  | act n w ih =>
    obtain ⟨s, z⟩ := s
    show play (.act (fun s => (n s).bind k) w) ⟨s, z⟩ = _
    cases z with
    | none => dsimp only [play]; exact ih _ _
    | some z =>
      obtain ⟨a, x, v⟩ := z
      cases a with
      | zero => rfl
      | succ a => dsimp only [play]; exact ih _ _

theorem runs_bind {α β : Type} {m : Crash.M σ F α} {m' : M σ F α} {f : α → Crash.M σ F β} {f' : α → M σ F β} (h : Runs m m')
    (hf : ∀ a, Runs (f a) (f' a)) : Runs (m >>= f) (m' >>= f') := by
  intro s
  rw [Crash.bind_eq]
  refine (play_bind m' f' s).trans ?_
  rw [h s]
  unfold Crash.goOn
  cases (m s).1 with
  | ok a => exact hf a _
  | error x => rfl

theorem runs_whenM (c : Bool) {m : Crash.M σ F Unit} {m' : M σ F Unit} (h : Runs m m') : Runs (Crash.whenM c m) (whenM c m') := by
  cases c
  · exact runs_pure ()
  · exact h

theorem runs_ite {α : Type} (c : Prop) [Decidable c] {m n : Crash.M σ F α} {m' n' : M σ F α} (h : Runs m m') (k : Runs n n') :
    Runs (if c then m else n) (if c then m' else n') := by
  split
  · exact h
  · exact k

theorem runs_nextToken : Runs (σ := σ) (F := F) Crash.nextToken nextToken := runs_prim _
theorem runs_peekToken (k : Nat) : Runs (σ := σ) (F := F) (Crash.peekToken k) (peekToken k) := runs_prim _
theorem runs_lastElement : Runs (σ := σ) (F := F) Crash.lastElement lastElement := runs_prim _
theorem runs_numElements : Runs (σ := σ) (F := F) Crash.numElements numElements := runs_prim _
theorem runs_modLast (f : Record F → Record F) : Runs (σ := σ) (F := F) (Crash.modLast f) (modLast f) := runs_prim _
theorem runs_modPrev (f : Record F → Record F) : Runs (σ := σ) (F := F) (Crash.modPrev f) (modPrev f) := runs_prim _
theorem runs_getLast : Runs (σ := σ) (F := F) Crash.getLast getLast := runs_prim _
theorem runs_addErrorNoReSync (t : Token) (n : Nat) : Runs (σ := σ) (F := F) (Crash.addErrorNoReSync t n) (addErrorNoReSync t n) := runs_prim _
theorem runs_addRecord (t : Token) : Runs (σ := σ) (F := F) (Crash.addRecord t) (addRecord t) := runs_prim _
theorem runs_assignAzimuth : Runs (σ := σ) (F := F) Crash.assignAzimuth assignAzimuth := runs_prim _
theorem runs_liftE {α : Type} (x : Except PyErr α) : Runs (σ := σ) (F := F) (Crash.liftE x) (liftE x) := runs_prim _

/-- Solves goals `Runs m m'` for two copies of the same program text. -/
macro "runs" : tactic => `(tactic| repeat (first
  | with_reducible exact runs_pure _ | with_reducible exact runs_throw _ | with_reducible exact runs_nextToken | with_reducible exact runs_peekToken _ | with_reducible exact runs_lastElement | with_reducible exact runs_numElements | with_reducible exact runs_modLast _
  | with_reducible exact runs_modPrev _ | with_reducible exact runs_getLast | with_reducible exact runs_addErrorNoReSync _ _ | with_reducible exact runs_addRecord _ | with_reducible exact runs_assignAzimuth | with_reducible exact runs_liftE _ | with_reducible assumption
  | (with_reducible refine runs_whenM _ ?_) | (with_reducible refine runs_bind ?_ (fun _ => ?_)) | (with_reducible refine runs_ite _ ?_ ?_) | split))

theorem runs_assignAltitude (t : Token) (a : Str) (c : Bool) : Runs (σ := σ) (F := F) (Crash.assignAltitude t a c) (assignAltitude t a c) := by
  unfold Crash.assignAltitude assignAltitude; runs
theorem runs_assignSpeed (a : Str) : Runs (σ := σ) (F := F) (Crash.assignSpeed a) (assignSpeed a) := by
  unfold Crash.assignSpeed assignSpeed; runs

theorem runs_assignLatitude (a : Str) : Runs (σ := σ) (F := F) (Crash.assignLatitude a) (assignLatitude a) := by
  unfold Crash.assignLatitude assignLatitude; runs
theorem runs_assignLongitude (a : Str) : Runs (σ := σ) (F := F) (Crash.assignLongitude a) (assignLongitude a) := by
  unfold Crash.assignLongitude assignLongitude; runs
theorem runs_assignLlDeg (t : Token) (a : Str) : Runs (σ := σ) (F := F) (Crash.assignLlDeg t a) (assignLlDeg t a) := by
  unfold Crash.assignLlDeg assignLlDeg
  refine runs_bind (runs_assignLatitude _) fun _ => runs_bind (runs_assignLongitude _) fun _ => ?_
  runs
theorem runs_assignLlDegMin (t : Token) (a : Str) : Runs (σ := σ) (F := F) (Crash.assignLlDegMin t a) (assignLlDegMin t a) := by
  unfold Crash.assignLlDegMin assignLlDegMin
  refine runs_bind (runs_assignLatitude _) fun _ => runs_bind (runs_assignLongitude _) fun _ => ?_
  runs
theorem runs_resolve (b d : F) : Runs (σ := σ) (Crash.resolveRealBdPoint b d) (resolveRealBdPoint b d) := by
  unfold Crash.resolveRealBdPoint resolveRealBdPoint; runs
theorem runs_assignBearingDistance (t : Token) (a : Str) :
    Runs (σ := σ) (F := F) (Crash.assignBearingDistance t a) (assignBearingDistance t a) := by
  unfold Crash.assignBearingDistance assignBearingDistance
  refine runs_bind (runs_prim _) fun _ => runs_bind (runs_whenM _ (runs_prim _)) fun _ =>
    runs_bind (runs_prim _) fun _ => runs_bind (runs_prim _) fun _ => runs_resolve _ _
theorem runs_assignLatLong (t : Token) :
    Runs (σ := σ) (F := F) (Crash.assignLatLongBearingDistance t) (assignLatLongBearingDistance t) := by
  unfold Crash.assignLatLongBearingDistance assignLatLongBearingDistance
  generalize t.sub = b
  cases b
  case PRP_BD => runs
  case LL_DEG => exact runs_assignLlDeg _ _
  case LL_MIN => exact runs_assignLlDegMin _ _
  case LLBD_DEG => exact runs_bind (runs_assignLlDeg _ _) fun _ => runs_assignBearingDistance _ _
  case LLBD_MIN => exact runs_bind (runs_assignLlDegMin _ _) fun _ => runs_assignBearingDistance _ _
  all_goals exact runs_pure _
theorem runs_checkPosition (t : Token) : Runs (σ := σ) (F := F) (Crash.checkPosition t) (checkPosition t) :=
  runs_whenM _ (runs_assignLatLong t)
theorem runs_levelSpeed (t : Token) (a b : Str) : Runs (σ := σ) (F := F) (Crash.levelSpeed t a b) (levelSpeed t a b) :=
  runs_bind (runs_assignAltitude _ _ _) fun _ => runs_assignSpeed _
theorem runs_levelLevelSpeed (t : Token) (a b c : Str) :
    Runs (σ := σ) (F := F) (Crash.levelLevelSpeed t a b c) (levelLevelSpeed t a b c) :=
  runs_bind (runs_assignAltitude _ _ _) fun _ => runs_bind (runs_assignAltitude _ _ _) fun _ => runs_assignSpeed _
theorem runs_levelPlusSpeed (t : Token) (a b c : Str) :
    Runs (σ := σ) (F := F) (Crash.levelPlusSpeed t a b c) (levelPlusSpeed t a b c) :=
  runs_bind (runs_assignAltitude _ _ _) fun _ => runs_bind (runs_prim _) fun _ => runs_assignSpeed _
theorem runs_vfrSpeedRules (t : Token) : Runs (σ := σ) (F := F) (Crash.vfrSpeedRules t) (vfrSpeedRules t) := by
  unfold Crash.vfrSpeedRules vfrSpeedRules
  dsimp only
  generalize t.sub = b
  cases b
  case VFR => exact runs_bind (runs_assignSpeed _) fun _ => by runs
  case SPEED_ALTITUDE_MV => exact runs_bind (runs_assignSpeed _) fun _ => by runs
  case SPEED_ALTITUDE_NV => exact runs_bind (runs_assignSpeed _) fun _ => by runs
  case SPEED_ALTITUDE_KV => exact runs_bind (runs_assignSpeed _) fun _ => by runs
  all_goals exact runs_bind (runs_assignAltitude _ _ _) fun _ => by runs
theorem runs_saveStayTime (a : Str) : Runs (σ := σ) (F := F) (Crash.saveStayTime a) (saveStayTime a) := runs_prim _
theorem runs_markSid (a : Str) : Runs (σ := σ) (F := F) (Crash.markSid a) (markSid a) := runs_prim _
theorem runs_markStar (a : Str) : Runs (σ := σ) (F := F) (Crash.markStar a) (markStar a) := runs_prim _

/-- As `same`, with the recursive calls and the composite helpers. -/
macro "runsc" h:ident : tactic => `(tactic| repeat (first
  | with_reducible exact runs_pure _ | with_reducible exact runs_throw _ | with_reducible exact $h _ | with_reducible exact runs_assignAltitude _ _ _
  | with_reducible exact runs_assignSpeed _
  | with_reducible exact runs_assignLatLong _ | with_reducible exact runs_checkPosition _ | with_reducible exact runs_levelSpeed _ _ _
  | with_reducible exact runs_levelLevelSpeed _ _ _ _ | with_reducible exact runs_levelPlusSpeed _ _ _ _ | with_reducible exact runs_vfrSpeedRules _
  | with_reducible exact runs_saveStayTime _ | with_reducible exact runs_markSid _ | with_reducible exact runs_markStar _
  | (with_reducible refine runs_whenM _ ?_) | (with_reducible refine runs_bind ?_ (fun _ => ?_)) | with_reducible exact runs_nextToken | with_reducible exact runs_peekToken _ | with_reducible exact runs_lastElement | with_reducible exact runs_numElements | with_reducible exact runs_modLast _
  | with_reducible exact runs_modPrev _ | with_reducible exact runs_getLast | with_reducible exact runs_addErrorNoReSync _ _ | with_reducible exact runs_addRecord _ | with_reducible exact runs_assignAzimuth | with_reducible exact runs_liftE _ | (with_reducible refine runs_ite _ ?_ ?_)
  | (rename_i o; revert o; intro (o : Option Token); cases o <;> dsimp only)
  | (rename_i o; revert o; intro (o : Option (Record _)); cases o <;> dsimp only)
  | (generalize Token.base _ = b; cases b <;> dsimp only)))

theorem runs_rulesThen {call : Call → Crash.M σ F Unit} {call' : Call → M σ F Unit} (h : ∀ c, Runs (call c) (call' c)) :
    Runs (Crash.rulesThenPostPoint call) (rulesThenPostPoint call') := by
  unfold Crash.rulesThenPostPoint rulesThenPostPoint; runsc h

theorem runs_speedAltitude {call : Call → Crash.M σ F Unit} {call' : Call → M σ F Unit} (h : ∀ c, Runs (call c) (call' c)) (t : Token) :
    Runs (Crash.assignSpeedAltitude call t) (assignSpeedAltitude call' t) := by
  unfold Crash.assignSpeedAltitude assignSpeedAltitude
  refine runs_bind (runs_prim _) fun o => ?_
  cases o with
  | none => exact runs_pure _
  | some r =>
    dsimp only
    generalize t.sub = b
    cases b
    all_goals first
      | with_reducible exact runs_levelSpeed _ _ _
      | (with_reducible refine runs_bind (runs_levelSpeed _ _ _) fun _ => ?_; runsc h)

theorem runs_altitudeAltitude {call : Call → Crash.M σ F Unit} {call' : Call → M σ F Unit} (h : ∀ c, Runs (call c) (call' c)) (t : Token) :
    Runs (Crash.assignSpeedAltitudeAltitude call t) (assignSpeedAltitudeAltitude call' t) := by
  unfold Crash.assignSpeedAltitudeAltitude assignSpeedAltitudeAltitude
  refine runs_bind (runs_prim _) fun o => ?_
  have tail := runs_rulesThen h
  cases o with
  | none => exact runs_pure _
  | some r =>
    dsimp only
    generalize t.sub = b
    cases b
    all_goals first
      | with_reducible exact runs_levelSpeed _ _ _
      | with_reducible exact runs_bind (runs_levelLevelSpeed _ _ _ _) fun _ => tail

theorem runs_altitudePlus {call : Call → Crash.M σ F Unit} {call' : Call → M σ F Unit} (h : ∀ c, Runs (call c) (call' c)) (t : Token) :
    Runs (Crash.assignSpeedAltitudePlus call t) (assignSpeedAltitudePlus call' t) := by
  unfold Crash.assignSpeedAltitudePlus assignSpeedAltitudePlus
  refine runs_bind (runs_prim _) fun o => ?_
  have tail := runs_rulesThen h
  cases o with
  | none => exact runs_pure _
  | some r =>
    dsimp only
    generalize t.sub = b
    cases b
    all_goals first
      | with_reducible exact runs_levelSpeed _ _ _
      | with_reducible exact runs_bind (runs_levelPlusSpeed _ _ _ _) fun _ => tail

theorem runs_step {call : Call → Crash.M σ F Unit} {call' : Call → M σ F Unit}
    (h : ∀ c, Runs (call c) (call' c)) (c : Call) : Runs (Crash.step call c) (step call' c) := by
  cases c with
  | addErrorAndReSync t n => simp only [Crash.step, step]; unfold Crash.addErrorAndReSync addErrorAndReSync; runsc h
  | assignSpeedAltitude t => exact runs_speedAltitude h t
  | assignSpeedAltitudeAltitude t => exact runs_altitudeAltitude h t
  | assignSpeedAltitudePlus t => exact runs_altitudePlus h t
  | assignSpeedVfr t => simp only [Crash.step, step]; unfold Crash.assignSpeedVfr assignSpeedVfr; runsc h
  | breakEnd t => simp only [Crash.step, step]; unfold Crash.breakEnd breakEnd Crash.breakEndTail breakEndTail; runsc h
  | breakEndError t => simp only [Crash.step, step]; unfold Crash.breakEndError breakEndError; runsc h
  | breakStart t =>
    simp only [Crash.step, step]; unfold Crash.breakStart breakStart
    refine runs_bind (runs_addRecord _) fun _ => runs_bind (runs_modLast _) fun _ => ?_
    runsc h
  | breakTextSave t => simp only [Crash.step, step]; unfold Crash.breakTextSave breakTextSave; runsc h
  | cruiseClimbC t => simp only [Crash.step, step]; unfold Crash.cruiseClimbC cruiseClimbC; runsc h
  | cruiseClimbPoint t => simp only [Crash.step, step]; unfold Crash.cruiseClimbPoint cruiseClimbPoint; runsc h
  | dct t => simp only [Crash.step, step]; unfold Crash.dct dct; runsc h
  | forwardSlash t => simp only [Crash.step, step]; unfold Crash.forwardSlash forwardSlash; runsc h
  | postAdep t => simp only [Crash.step, step]; unfold Crash.postAdep postAdep; runsc h
  | postPoint t => simp only [Crash.step, step]; unfold Crash.postPoint postPoint; runsc h
  | postSid => simp only [Crash.step, step]; unfold Crash.postSid postSid; runsc h
  | point t => simp only [Crash.step, step]; unfold Crash.point point; runsc h
  | reSync => simp only [Crash.step, step]; unfold Crash.reSync reSync; runsc h
  | route t => simp only [Crash.step, step]; unfold Crash.route route; runsc h
  | sid t => simp only [Crash.step, step]; unfold Crash.sid sid; runsc h
  | sidStar t => simp only [Crash.step, step]; unfold Crash.sidStar sidStar; runsc h
  | star t => simp only [Crash.step, step]; unfold Crash.star star; runsc h
  | stay t => simp only [Crash.step, step]; unfold Crash.stay stay; runsc h
  | stayTime t => simp only [Crash.step, step]; unfold Crash.stayTime stayTime; runsc h
  | truncate => simp only [Crash.step, step]; unfold Crash.truncate truncate; runsc h
  | vToI => simp only [Crash.step, step]; unfold Crash.vToI vToI; runsc h
  | vToIToV => simp only [Crash.step, step]; unfold Crash.vToIToV vToIToV; runsc h

/-- With the state forgotten, the two parsers agree. -/
theorem runs_exec (n : Nat) (c : Call) : Runs (σ := σ) (F := F) (Crash.exec n c) (exec n c) := by
  induction n generalizing c with
  | zero => exact fun _ => rfl
  | succ n ih => exact runs_step ih c

end

section
variable {F : Type} [PyFloat F]

theorem runs_assignTypes (i : Nat) (l : List Token) : Runs (F := F) (Crash.assignTypes i l) (assignTypes i l) := by
  induction l generalizing i with
  | nil => exact runs_pure _
  | cons t l ih =>
    unfold Crash.assignTypes assignTypes
    exact runs_bind (runs_prim _) fun _ => runs_bind (runs_prim _) fun _ =>
      runs_bind (runs_whenM _ (runs_bind (runs_prim _) fun _ => runs_prim _)) fun _ => ih _

theorem runs_dispatch (n k : Nat) (t : Token) : Runs (F := F) (Crash.dispatch n k t) (dispatch n k t) := by
  unfold Crash.dispatch dispatch
  generalize t.base = b
  cases b
  case SPEED_VFR => exact runs_bind (runs_exec _ _) fun _ => runs_prim _
  case SPEED_ALTITUDE => exact runs_bind (runs_exec _ _) fun _ => runs_ite _ (runs_exec _ _) (runs_pure _)
  all_goals exact runs_exec _ _

theorem runs_finish : Runs (F := F) Crash.finish finish := by
  unfold Crash.finish finish
  refine runs_bind (runs_prim _) fun _ => runs_bind (runs_prim _) fun o => ?_
  cases o with
  | none => exact runs_prim _
  | some p =>
    refine runs_bind (runs_prim _) fun _ => runs_bind (runs_prim _) fun o => ?_
    cases o with
    | none => exact runs_throw _
    | some f =>
      refine runs_bind (runs_prim _) fun l => runs_ite _ ?_ ?_
      all_goals exact runs_bind (runs_prim _) fun _ => runs_bind (runs_whenM _ (runs_prim _)) fun _ => runs_prim _

/-- The task of `parse_f15`, not disturbed, is `parse_f15`. -/
theorem play_parse (n : Nat) (l : List Token) : Runs (F := F) (Crash.parse n l) (parse n l) := by
  unfold Crash.parse parse
  refine runs_bind (runs_assignTypes _ _) fun _ => runs_bind (runs_prim _) fun o => ?_
  cases o with
  | none => exact runs_bind (runs_prim _) fun _ => runs_bind (runs_prim _) fun _ => runs_pure _
  | some t => exact runs_bind (runs_dispatch _ _ _) fun _ => runs_finish

end
end F15.Tasks
