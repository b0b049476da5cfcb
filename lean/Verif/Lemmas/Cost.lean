import Verif.Spec.Time
/-!
# The number of steps of a parse

Each token that is taken pays for `A` steps. A method `c` needs at most `bound c` steps more than the tokens it takes pay for.
-/

namespace F15.Tasks
open Spec

set_option linter.unusedSectionVars false

section
variable {F : Type} [PyFloat F]

/-- The state that a task leaves. -/
def leave {S α : Type} : Task S α → S → S
  | .done _, s => s
  | .act next write, s => leave (next s) (write s)

/-- The number of tokens behind the cursor. -/
def rem (t : Tokens) : Nat := ((t.toks.length : Int) - 1 - t.cur).toNat

/-- What a token pays for. -/
def A : Nat := 21

/-- The task needs at most `b` steps more than the tokens it takes pay for. -/
def Cost {α : Type} (m : M Tokens F α) (b : Nat) : Prop :=
  ∀ s : St Tokens F, steps m s + A * rem (leave m s).toks ≤ A * rem s.toks + b

theorem Cost.mono {α : Type} {m : M Tokens F α} {b c : Nat} (h : Cost m b) (hb : b ≤ c) : Cost m c :=
  fun s => Nat.le_trans (h s) (Nat.add_le_add_left hb _)

theorem cost_done {α : Type} (r : Except PyErr α) (b : Nat) : Cost (F := F) (.done r) b := by
  intro s
  show 0 + A * rem s.toks ≤ _
  omega

theorem cost_pure {α : Type} (a : α) (b : Nat) : Cost (F := F) (pure a) b := cost_done _ b
theorem cost_throw {α : Type} (x : PyErr) (b : Nat) : Cost (F := F) (α := α) (throw x) b := cost_done _ b

theorem cost_bind {α β : Type} {m : M Tokens F α} {f : α → M Tokens F β} {a b : Nat} (hm : Cost m a) (hab : a ≤ b)
    (hf : ∀ x, Cost (f x) (b - a)) : Cost (m >>= f) b := by
  have key : ∀ (t : M Tokens F α) s, steps (t.bind f) s + A * rem (leave (t.bind f) s).toks ≤ steps t s + A * rem (leave t s).toks + (b - a) := by
    intro t
    induction t with
    | done r =>
      intro s
      cases r with
      | ok x => have := hf x s; show steps (f x) s + _ ≤ 0 + A * rem s.toks + _; unfold Task.bind; omega
      | error x => show 0 + A * rem s.toks ≤ 0 + A * rem s.toks + _; omega
    | act n w ih =>
      intro s
      have := ih s (w s)
      show steps ((n s).bind f) (w s) + 1 + A * rem (leave ((n s).bind f) (w s)).toks ≤ steps (n s) (w s) + 1 + A * rem (leave (n s) (w s)).toks + _
      omega
  intro s
  have h1 := key m s
  have h2 := hm s
  show steps (m.bind f) s + A * rem (leave (m.bind f) s).toks ≤ _
  omega

/-- A primitive step that takes no token. -/
theorem cost_prim {α : Type} (m : F15.M Tokens F α) (h : ∀ s a s', m s = .ok (a, s') → rem s'.toks ≤ rem s.toks) {b : Nat} (hb : 1 ≤ b) :
    Cost (prim m) b := by
  intro s
  unfold prim
  dsimp only [steps, leave]
  cases hm : m s with
  | error x => dsimp only [steps, leave]; omega
  | ok p =>
    obtain ⟨a, s'⟩ := p
    have := Nat.mul_le_mul_left A (h s a s' hm)
    dsimp only [steps, leave]
    omega

theorem rem_next (t : Tokens) : rem (t.getNextToken).2 ≤ rem t := by
  unfold Tokens.getNextToken rem
  dsimp only
  omega

theorem rem_some {t : Tokens} {x : Token} (h : t.getNextToken.1 = .ok (some x)) : rem t.getNextToken.2 + 1 ≤ rem t := by
  unfold Tokens.getNextToken Tokens.getTokenAt at h
  dsimp only at h
  split at h
  · cases h
  · unfold Tokens.getNextToken rem
    dsimp only
    omega

theorem cost_next {α : Type} {f : Option Token → M Tokens F α} {b : Nat} (hb : 1 ≤ b) (h0 : Cost (f none) (b - 1))
    (h1 : ∀ t, Cost (f (some t)) (b - 1 + A)) : Cost (nextToken >>= f) b := by
  intro s
  show steps ((prim F15.nextToken).bind f) s + A * rem (leave ((prim F15.nextToken).bind f) s).toks ≤ _
  unfold prim
  dsimp only [Task.bind, steps, leave]
  have hn : F15.nextToken s = match s.toks.getNextToken.1 with
    | .ok a => .ok (a, { s with toks := s.toks.getNextToken.2 })
    | .error e => .error e := rfl
  rw [hn]
  have hr := rem_next s.toks
  cases hx : s.toks.getNextToken.1 with
  | error e => dsimp only [Task.bind, steps, leave]; omega
  | ok o =>
    dsimp only
    cases o with
    | none =>
      have := h0 { s with toks := s.toks.getNextToken.2 }
      have := Nat.mul_le_mul_left A hr
      dsimp only [Task.bind] at *
      omega
    | some x =>
      have := h1 x { s with toks := s.toks.getNextToken.2 }
      have h2 := Nat.mul_le_mul_left A (rem_some hx)
      rw [Nat.mul_add] at h2
      dsimp only [Task.bind] at *
      omega

theorem cost_next' {b : Nat} (hb : 1 ≤ b) : Cost (F := F) nextToken b := by
  have := cost_next (F := F) (f := pure) hb (cost_pure _ _) fun _ => cost_pure _ _
  intro s
  have h1 := this s
  have : ∀ (t : M Tokens F (Option Token)), t.bind (fun a => .done (.ok a)) = t := by
    intro t
    induction t with
    | done r => cases r <;> rfl
    | act n w ih => unfold Task.bind; congr; funext s; exact ih s
  have h2 : (nextToken >>= pure : M Tokens F (Option Token)) = nextToken := this _
  rw [h2] at h1
  exact h1

theorem cost_ite {α : Type} (c : Prop) [Decidable c] {m n : M Tokens F α} {b : Nat} (h : Cost m b) (k : Cost n b) :
    Cost (if c then m else n) b := by
  split
  · exact h
  · exact k

theorem cost_whenM (c : Bool) {m : M Tokens F Unit} {b : Nat} (h : Cost m b) : Cost (whenM c m) b := cost_ite _ h (cost_pure _ _)

/-! ### Primitive steps -/

theorem cost_peekToken (k : Nat) {b : Nat} (hb : 1 ≤ b) : Cost (F := F) (peekToken k) b := by
  refine cost_prim _ ?_ hb
  intro s a s' h
  unfold F15.peekToken at h
  split at h <;> cases h
  exact Nat.le_refl _
theorem cost_lastElement {b : Nat} (hb : 1 ≤ b) : Cost (F := F) lastElement b := by
  refine cost_prim _ ?_ hb
  intro s a s' h
  unfold F15.lastElement at h
  split at h <;> cases h
  exact Nat.le_refl _
theorem cost_numElements {b : Nat} (hb : 1 ≤ b) : Cost (F := F) numElements b := by
  refine cost_prim _ ?_ hb
  intro s a s' h
  cases h
  exact Nat.le_refl _
theorem cost_modLast (f : Record F → Record F) {b : Nat} (hb : 1 ≤ b) : Cost (F := F) (modLast f) b := by
  refine cost_prim _ ?_ hb
  intro s a s' h
  unfold F15.modLast at h
  split at h <;> cases h
  exact Nat.le_refl _
theorem cost_modPrev (f : Record F → Record F) {b : Nat} (hb : 1 ≤ b) : Cost (F := F) (modPrev f) b := by
  refine cost_prim _ ?_ hb
  intro s a s' h
  unfold F15.modPrev at h
  split at h <;> cases h
  exact Nat.le_refl _
theorem cost_getLast {b : Nat} (hb : 1 ≤ b) : Cost (F := F) getLast b := by
  refine cost_prim _ ?_ hb
  intro s a s' h
  unfold F15.getLast at h
  split at h <;> cases h
  exact Nat.le_refl _
theorem cost_liftE {α : Type} (x : Except PyErr α) {b : Nat} (hb : 1 ≤ b) : Cost (F := F) (liftE x) b := by
  refine cost_prim _ ?_ hb
  intro s a s' h
  unfold F15.liftE at h
  split at h <;> cases h
  exact Nat.le_refl _
theorem cost_addErrorNoReSync (t : Token) (n : Nat) {b : Nat} (hb : 1 ≤ b) : Cost (F := F) (addErrorNoReSync t n) b := by
  refine cost_prim _ ?_ hb
  intro s a s' h
  unfold F15.addErrorNoReSync at h
  split at h <;> cases h
  exact Nat.le_refl _
theorem cost_addRecord (t : Token) {b : Nat} (hb : 1 ≤ b) : Cost (F := F) (addRecord t) b := by
  refine cost_prim _ ?_ hb
  intro s a s' h
  unfold F15.addRecord at h
  split at h <;> cases h
  exact Nat.le_refl _
theorem cost_assignAzimuth {b : Nat} (hb : 1 ≤ b) : Cost (F := F) assignAzimuth b := by
  refine cost_prim _ ?_ hb
  intro s a s' h
  cases h
  exact Nat.le_refl _
theorem cost_saveStayTime (x : Str) {b : Nat} (hb : 1 ≤ b) : Cost (F := F) (saveStayTime x) b := by
  refine cost_prim _ ?_ hb
  intro s a s' h
  obtain ⟨⟨recs, errs, d⟩, t⟩ := s
  cases recs with
  | nil => simp [F15.saveStayTime, F15.getLast, bind, StateT.bind, Except.bind] at h
  | cons r l =>
    simp only [F15.saveStayTime, F15.getLast, F15.liftE, F15.modLast, bind, StateT.bind, Except.bind] at h
    cases hq : r.setStayTime x with
    | error y => rw [hq] at h; cases h
    | ok y => rw [hq] at h; cases h; exact Nat.le_refl _

/-- Solves goals `Cost m b`. -/
macro "cost" : tactic => `(tactic| repeat (first
  | with_reducible exact cost_pure _ _ | with_reducible exact cost_throw _ _
  | (with_reducible refine cost_peekToken _ ?_) | (with_reducible refine cost_lastElement ?_) | (with_reducible refine cost_numElements ?_)
  | (with_reducible refine cost_modLast _ ?_) | (with_reducible refine cost_modPrev _ ?_) | (with_reducible refine cost_getLast ?_)
  | (with_reducible refine cost_liftE _ ?_) | (with_reducible refine cost_addErrorNoReSync _ _ ?_) | (with_reducible refine cost_addRecord _ ?_)
  | (with_reducible refine cost_assignAzimuth ?_) | (with_reducible refine cost_saveStayTime _ ?_)
  | (with_reducible refine cost_next ?_ ?_ (fun _ => ?_) <;> try dsimp only)
  | (with_reducible refine cost_bind (a := 1) ?_ ?_ (fun _ => ?_))
  | (with_reducible refine cost_whenM _ ?_) | (with_reducible refine cost_ite _ ?_ ?_) | exact Nat.le_of_ble_eq_true rfl | split))

theorem cost_assignAltitude (t : Token) (a : Str) (c : Bool) : Cost (F := F) (assignAltitude t a c) 4 := by
  unfold assignAltitude; cost
theorem cost_assignSpeed (a : Str) : Cost (F := F) (assignSpeed a) 4 := by unfold assignSpeed; cost
theorem cost_assignLatitude (a : Str) : Cost (F := F) (assignLatitude a) 2 := by unfold assignLatitude; cost
theorem cost_assignLongitude (a : Str) : Cost (F := F) (assignLongitude a) 2 := by unfold assignLongitude; cost
theorem cost_assignLlDeg (t : Token) (a : Str) : Cost (F := F) (assignLlDeg t a) 10 := by
  unfold assignLlDeg
  refine cost_bind (cost_assignLatitude _) (by decide) fun _ => cost_bind (cost_assignLongitude _) (by decide) fun _ => ?_
  cost
theorem cost_assignLlDegMin (t : Token) (a : Str) : Cost (F := F) (assignLlDegMin t a) 10 := by
  unfold assignLlDegMin
  refine cost_bind (cost_assignLatitude _) (by decide) fun _ => cost_bind (cost_assignLongitude _) (by decide) fun _ => ?_
  cost
theorem cost_assignBearingDistance (t : Token) (a : Str) : Cost (F := F) (assignBearingDistance t a) 6 := by
  unfold assignBearingDistance resolveRealBdPoint; cost
theorem cost_assignLatLong (t : Token) : Cost (F := F) (assignLatLongBearingDistance t) 16 := by
  unfold assignLatLongBearingDistance
  generalize t.sub = b
  cases b
  case PRP_BD => dsimp only; cost
  case LL_DEG => exact (cost_assignLlDeg _ _).mono (by decide)
  case LL_MIN => exact (cost_assignLlDegMin _ _).mono (by decide)
  case LLBD_DEG => exact cost_bind (cost_assignLlDeg _ _) (by decide) fun _ => cost_assignBearingDistance _ _
  case LLBD_MIN => exact cost_bind (cost_assignLlDegMin _ _) (by decide) fun _ => cost_assignBearingDistance _ _
  all_goals exact cost_pure _ _
theorem cost_checkPosition (t : Token) : Cost (F := F) (checkPosition t) 16 := cost_whenM _ (cost_assignLatLong t)
theorem cost_levelSpeed (t : Token) (a b : Str) : Cost (F := F) (levelSpeed t a b) 8 :=
  cost_bind (cost_assignAltitude _ _ _) (by decide) fun _ => cost_assignSpeed _
theorem cost_levelLevelSpeed (t : Token) (a b c : Str) : Cost (F := F) (levelLevelSpeed t a b c) 12 :=
  cost_bind (cost_assignAltitude _ _ _) (by decide) fun _ => cost_bind (cost_assignAltitude _ _ _) (by decide) fun _ => cost_assignSpeed _
theorem cost_levelPlusSpeed (t : Token) (a b c : Str) : Cost (F := F) (levelPlusSpeed t a b c) 9 :=
  cost_bind (cost_assignAltitude _ _ _) (by decide) fun _ => cost_bind (cost_modLast _ (Nat.le_refl 1)) (by decide) fun _ => cost_assignSpeed _
theorem cost_vfrSpeedRules (t : Token) : Cost (F := F) (vfrSpeedRules t) 6 := by
  unfold vfrSpeedRules
  dsimp only
  generalize t.sub = b
  cases b
  case VFR => exact cost_bind (cost_assignSpeed _) (by decide) fun _ => by cost
  case SPEED_ALTITUDE_MV => exact cost_bind (cost_assignSpeed _) (by decide) fun _ => by cost
  case SPEED_ALTITUDE_NV => exact cost_bind (cost_assignSpeed _) (by decide) fun _ => by cost
  case SPEED_ALTITUDE_KV => exact cost_bind (cost_assignSpeed _) (by decide) fun _ => by cost
  all_goals exact cost_bind (cost_assignAltitude _ _ _) (by decide) fun _ => by cost

/-! ### The methods -/

/-- The steps of a method that no token pays for. -/
def bound : Call → Nat
  | .addErrorAndReSync _ _ => 2
  | .assignSpeedAltitude _ => 11
  | .assignSpeedAltitudeAltitude _ => 15
  | .assignSpeedAltitudePlus _ => 12
  | .assignSpeedVfr _ => 15
  | .breakEnd _ => 5
  | .breakEndError _ => 2
  | .breakStart _ => 3
  | .breakTextSave _ => 10
  | .cruiseClimbC _ => 2
  | .cruiseClimbPoint _ => 20
  | .dct _ => 2
  | .forwardSlash _ => 3
  | .postAdep _ => 19
  | .postPoint _ => 19
  | .postSid => 1
  | .point _ => 19
  | .reSync => 1
  | .route _ => 3
  | .sid _ => 4
  | .sidStar _ => 5
  | .star _ => 4
  | .stay _ => 3
  | .stayTime _ => 2
  | .truncate => 1
  | .vToI => 1
  | .vToIToV => 1

/-- As `cost`, with the recursive calls and the composite helpers. -/
macro "costc" h:ident : tactic => `(tactic| repeat (first
  | with_reducible exact cost_pure _ _ | with_reducible exact cost_throw _ _
  | (with_reducible refine Cost.mono ($h _) ?_)
  | (with_reducible refine cost_next ?_ ?_ (fun _ => ?_) <;> try dsimp only)
  | (with_reducible refine cost_bind (cost_whenM _ ($h _)) ?_ (fun _ => ?_))
  | (with_reducible refine cost_bind ($h _) ?_ (fun _ => ?_))
  | (with_reducible refine cost_bind (cost_assignLatLong _) ?_ (fun _ => ?_))
  | (with_reducible refine cost_bind (cost_checkPosition _) ?_ (fun _ => ?_))
  | (with_reducible refine cost_bind (cost_levelSpeed _ _ _) ?_ (fun _ => ?_))
  | (with_reducible refine cost_bind (cost_levelLevelSpeed _ _ _ _) ?_ (fun _ => ?_))
  | (with_reducible refine cost_bind (cost_levelPlusSpeed _ _ _ _) ?_ (fun _ => ?_))
  | (with_reducible refine cost_bind (cost_assignAltitude _ _ _) ?_ (fun _ => ?_))
  | (with_reducible refine cost_bind (cost_vfrSpeedRules _) ?_ (fun _ => ?_))
  | (with_reducible refine Cost.mono (cost_levelSpeed _ _ _) ?_)
  | (with_reducible refine cost_bind (a := 1) (cost_next' (Nat.le_refl 1)) ?_ (fun _ => ?_))
  | (with_reducible refine cost_bind (a := 1) ?_ ?_ (fun _ => ?_))
  | (with_reducible refine cost_peekToken _ ?_) | (with_reducible refine cost_lastElement ?_) | (with_reducible refine cost_numElements ?_)
  | (with_reducible refine cost_modLast _ ?_) | (with_reducible refine cost_modPrev _ ?_) | (with_reducible refine cost_getLast ?_)
  | (with_reducible refine cost_addErrorNoReSync _ _ ?_) | (with_reducible refine cost_addRecord _ ?_)
  | (with_reducible refine cost_saveStayTime _ ?_)
  | (with_reducible refine cost_whenM _ ?_) | (with_reducible refine cost_ite _ ?_ ?_)
  | exact Nat.le_of_ble_eq_true rfl
  | (rename_i o; revert o; intro (o : Option Token); cases o <;> dsimp only)
  | (rename_i o; revert o; intro (o : Option (Record _)); cases o <;> dsimp only)
  | (generalize Token.base _ = b; cases b <;> dsimp only)))

theorem cost_speedAltitude {call : Call → M Tokens F Unit} (h : ∀ c, Cost (call c) (bound c)) (t : Token) : Cost (assignSpeedAltitude call t) 11 := by
  unfold assignSpeedAltitude
  refine cost_bind (cost_lastElement (Nat.le_refl 1)) (by decide) fun o => ?_
  cases o with
  | none => exact cost_pure _ _
  | some r =>
    dsimp only
    generalize t.sub = b
    cases b
    all_goals first
      | (with_reducible refine Cost.mono (cost_levelSpeed _ _ _) ?_; decide)
      | (with_reducible refine cost_bind (cost_levelSpeed _ _ _) (by decide) fun _ => ?_; costc h)

theorem cost_rulesThen {call : Call → M Tokens F Unit} (h : ∀ c, Cost (call c) (bound c)) : Cost (rulesThenPostPoint call) 2 := by
  unfold rulesThenPostPoint; costc h

theorem cost_altitudeAltitude {call : Call → M Tokens F Unit} (h : ∀ c, Cost (call c) (bound c)) (t : Token) :
    Cost (assignSpeedAltitudeAltitude call t) 15 := by
  unfold assignSpeedAltitudeAltitude
  refine cost_bind (cost_lastElement (Nat.le_refl 1)) (by decide) fun o => ?_
  cases o with
  | none => exact cost_pure _ _
  | some r =>
    dsimp only
    generalize t.sub = b
    cases b
    all_goals first
      | (with_reducible refine Cost.mono (cost_levelSpeed _ _ _) ?_; decide)
      | with_reducible exact cost_bind (cost_levelLevelSpeed _ _ _ _) (by decide) fun _ => cost_rulesThen h

theorem cost_altitudePlus {call : Call → M Tokens F Unit} (h : ∀ c, Cost (call c) (bound c)) (t : Token) :
    Cost (assignSpeedAltitudePlus call t) 12 := by
  unfold assignSpeedAltitudePlus
  refine cost_bind (cost_lastElement (Nat.le_refl 1)) (by decide) fun o => ?_
  cases o with
  | none => exact cost_pure _ _
  | some r =>
    dsimp only
    generalize t.sub = b
    cases b
    all_goals first
      | (with_reducible refine Cost.mono (cost_levelSpeed _ _ _) ?_; decide)
      | with_reducible exact cost_bind (cost_levelPlusSpeed _ _ _ _) (by decide) fun _ => cost_rulesThen h

set_option maxHeartbeats 2000000 in
theorem cost_step {call : Call → M Tokens F Unit} (h : ∀ c, Cost (call c) (bound c)) (c : Call) : Cost (step call c) (bound c) := by
  cases c with
  | addErrorAndReSync t n => simp only [step, bound]; unfold addErrorAndReSync; costc h
  | assignSpeedAltitude t => exact cost_speedAltitude h t
  | assignSpeedAltitudeAltitude t => exact cost_altitudeAltitude h t
  | assignSpeedAltitudePlus t => exact cost_altitudePlus h t
  | assignSpeedVfr t => simp only [step, bound]; unfold assignSpeedVfr; costc h
  | breakEnd t => simp only [step, bound]; unfold breakEnd breakEndTail; costc h
  | breakEndError t => simp only [step, bound]; unfold breakEndError; costc h
  | breakStart t => simp only [step, bound]; unfold breakStart; costc h
  | breakTextSave t => simp only [step, bound]; unfold breakTextSave; costc h
  | cruiseClimbC t => simp only [step, bound]; unfold cruiseClimbC; costc h
  | cruiseClimbPoint t => simp only [step, bound]; unfold cruiseClimbPoint; costc h
  | dct t => simp only [step, bound]; unfold dct; costc h
  | forwardSlash t => simp only [step, bound]; unfold forwardSlash; costc h
  | postAdep t => simp only [step, bound]; unfold postAdep; costc h
  | postPoint t => simp only [step, bound]; unfold postPoint; costc h
  | postSid => simp only [step, bound]; unfold postSid; costc h
  | point t => simp only [step, bound]; unfold point; costc h
  | reSync => simp only [step, bound]; unfold reSync; costc h
  | route t => simp only [step, bound]; unfold route; costc h
  | sid t => simp only [step, bound]; unfold sid markSid; costc h
  | sidStar t => simp only [step, bound]; unfold sidStar markSid markStar; costc h
  | star t => simp only [step, bound]; unfold star markStar; costc h
  | stay t => simp only [step, bound]; unfold stay; costc h
  | stayTime t => simp only [step, bound]; unfold stayTime; costc h
  | truncate => simp only [step, bound]; unfold truncate; costc h
  | vToI => simp only [step, bound]; unfold vToI; costc h
  | vToIToV => simp only [step, bound]; unfold vToIToV; costc h

theorem cost_exec (n : Nat) (c : Call) : Cost (F := F) (exec n c) (bound c) := by
  induction n generalizing c with
  | zero => exact cost_done _ _
  | succ n ih => exact cost_step ih c

end
end F15.Tasks
