import Verif.Lemmas.Depth
/-!
# More frames do not change a result
-/

namespace F15
open Spec

set_option linter.unusedSectionVars false
variable {σ F : Type} [TokStream σ] [PyFloat F]

/-- `m'` does what `m` does, unless `m` runs out of frames. -/
def Le {α : Type} (m m' : M σ F α) : Prop := ∀ s, m s = .error .recursionError ∨ m s = m' s

theorem Le.refl {α : Type} (m : M σ F α) : Le m m := fun _ => .inr rfl

theorem Le.bind {α β : Type} {m m' : M σ F α} {f f' : α → M σ F β} (h : Le m m') (hf : ∀ a, Le (f a) (f' a)) :
    Le (m >>= f) (m' >>= f') := by
  intro s
  show (m s >>= fun p => f p.1 p.2) = _ ∨ (m s >>= fun p => f p.1 p.2) = (m' s >>= fun p => f' p.1 p.2)
  rcases h s with h | h
  · rw [h]; exact .inl rfl
  · rw [← h]
    cases m s with
    | error e => exact .inr rfl
    | ok p => exact hf p.1 p.2

theorem Le.whenM (c : Bool) {m m' : M σ F Unit} (h : Le m m') : Le (whenM c m) (whenM c m') := by
  cases c
  · exact Le.refl _
  · exact h

/-- Solves `Le m m'` for two copies of the same program text. -/
local macro "le" h:ident : tactic => `(tactic| repeat (first
  | with_reducible exact Le.refl _ | with_reducible exact $h _
  | (with_reducible refine Le.whenM _ ?_) | (with_reducible refine Le.bind ?_ (fun _ => ?_)) | split))

theorem le_step {call call' : Call → M σ F Unit} (h : ∀ c, Le (call c) (call' c)) (c : Call) :
    Le (step call c) (step call' c) := by
  cases c with
  | addErrorAndReSync t n => simp only [step]; unfold addErrorAndReSync; le h
  | assignSpeedAltitude t => simp only [step]; unfold assignSpeedAltitude; le h
  | assignSpeedAltitudeAltitude t =>
    simp only [step]; unfold assignSpeedAltitudeAltitude rulesThenPostPoint; le h
  | assignSpeedAltitudePlus t =>
    simp only [step]; unfold assignSpeedAltitudePlus rulesThenPostPoint; le h
  | assignSpeedVfr t => simp only [step]; unfold assignSpeedVfr; le h
  | breakEnd t => simp only [step]; unfold breakEnd breakEndTail; le h
  | breakEndError t => simp only [step]; unfold breakEndError; le h
  | breakStart t => simp only [step]; unfold breakStart; le h
  | breakTextSave t => simp only [step]; unfold breakTextSave; le h
  | cruiseClimbC t => simp only [step]; unfold cruiseClimbC; le h
  | cruiseClimbPoint t => simp only [step]; unfold cruiseClimbPoint; le h
  | dct t => simp only [step]; unfold dct; le h
  | forwardSlash t => simp only [step]; unfold forwardSlash; le h
  | postAdep t => simp only [step]; unfold postAdep; le h
  | postPoint t => simp only [step]; unfold postPoint; le h
  | postSid => simp only [step]; unfold postSid; le h
  | point t => simp only [step]; unfold point; le h
  | reSync => simp only [step]; unfold reSync; le h
  | route t => simp only [step]; unfold route; le h
  | sid t => simp only [step]; unfold sid; le h
  | sidStar t => simp only [step]; unfold sidStar; le h
  | star t => simp only [step]; unfold star; le h
  | stay t => simp only [step]; unfold stay; le h
  | stayTime t => simp only [step]; unfold stayTime; le h
  | truncate => simp only [step]; unfold truncate; le h
  | vToI => simp only [step]; unfold vToI; le h
  | vToIToV => simp only [step]; unfold vToIToV; le h

theorem le_exec_succ (n : Nat) (c : Call) : Le (σ := σ) (F := F) (exec n c) (exec (n + 1) c) := by
  induction n generalizing c with
  | zero => exact fun _ => .inl rfl
  | succ n ih => exact le_step ih c

/-- More frames do not change a result. -/
theorem le_exec {n m : Nat} (h : n ≤ m) (c : Call) : Le (σ := σ) (F := F) (exec n c) (exec m c) := by
  induction h with
  | refl => exact Le.refl _
  | step _ ih =>
    intro s
    rcases ih s with h | h
    · exact .inl h
    · rcases le_exec_succ _ c s with h' | h'
      · rw [h]; exact .inl h'
      · rw [h]; exact .inr h'

/-- The run of the parser does not depend on the frames unless they run out. -/
theorem le_runL {n m : Nat} (h : n ≤ m) (e : Ers F) (t : Token) (rest : List Token) :
    runL n e t rest = .error .recursionError ∨ runL n e t rest = runL m e t rest := by
  have fin : ∀ (c : Call) (s : St (List Token) F),
      ((match exec n c s with | .ok (_, s) => .ok s.ers | .error x => .error x : Except PyErr (Ers F)) = .error .recursionError) ∨
      (match exec n c s with | .ok (_, s) => .ok s.ers | .error x => .error x : Except PyErr (Ers F)) =
        (match exec m c s with | .ok (_, s) => .ok s.ers | .error x => .error x) := by
    intro c s
    rcases le_exec h c s with h | h
    · rw [h]; exact .inl rfl
    · rw [← h]; exact .inr rfl
  unfold runL
  cases t.base
  case SPEED_VFR =>
    dsimp only
    rcases le_exec h (.assignSpeedVfr t) (⟨e, rest⟩ : St (List Token) F) with h | h
    · rw [h]; exact .inl rfl
    · rw [← h]; exact .inr rfl
  case SPEED_ALTITUDE =>
    dsimp only
    rcases le_exec h (.assignSpeedAltitude t) (⟨e, rest⟩ : St (List Token) F) with h | h
    · rw [h]; exact .inl rfl
    · rw [← h]
      cases exec n (.assignSpeedAltitude t) (⟨e, rest⟩ : St (List Token) F) with
      | error x => exact .inr rfl
      | ok p =>
        dsimp only
        split
        · exact fin _ _
        · exact .inr rfl
  all_goals exact fin _ _

/-- Enough frames for the run. -/
theorem deep_runL {frames : Nat} {e : Ers F} (he : e.recs ≠ []) {t : Token} {rest : List Token}
    (hT : ∀ x ∈ t :: rest, Typed x) (hf : 4 * (rest.length + 1) ≤ frames) : runL frames e t rest ≠ .error .recursionError := by
  have dp := deep_exec (F := F) hT frames
  have hi : Inv (t :: rest) e rest := ⟨he, List.suffix_cons _ _⟩
  have ht : t ∈ t :: rest := by simp
  have fin : ∀ (c : Call) (e : Ers F) (ts : List Token), Inv (t :: rest) e ts → Pre (t :: rest) ts c → rank c + 4 * ts.length < frames →
      (match exec frames c (⟨e, ts⟩ : St (List Token) F) with | .ok (_, s) => .ok s.ers | .error x => .error x : Except PyErr (Ers F)) ≠ .error .recursionError := by
    intro c e ts hi hp hl
    have := dp c e ts hi hp hl
    cases h : exec frames c (⟨e, ts⟩ : St (List Token) F) with
    | error x => rw [h] at this; intro h'; cases h'; exact this rfl
    | ok p => intro h; cases h
  unfold runL
  cases hb : t.base
  case SPEED_VFR =>
    dsimp only
    have := dp (.assignSpeedVfr t) e rest hi ⟨ht, hb⟩ (by simp [rank]; omega)
    cases h : exec frames (.assignSpeedVfr t) (⟨e, rest⟩ : St (List Token) F) with
    | error x => rw [h] at this; intro h'; cases h'; exact this rfl
    | ok p =>
      dsimp only
      unfold setFirstRules
      split
      · intro h; cases h
      · intro h; cases h
  case SPEED_ALTITUDE =>
    dsimp only
    have := dp (.assignSpeedAltitude t) e rest hi ⟨ht, hb⟩ (by simp [rank]; omega)
    have g := trace_exec (F := F) hT frames (.assignSpeedAltitude t) e rest [] hi (.inl rfl) ⟨ht, hb⟩
    cases h : exec frames (.assignSpeedAltitude t) (⟨e, rest⟩ : St (List Token) F) with
    | error x => rw [h] at this; intro h'; cases h'; exact this rfl
    | ok p =>
      obtain ⟨u, s⟩ := p
      rw [h] at g
      dsimp only
      split
      · have h1 := (Star.suf g).length_le
        dsimp only at h1
        exact fin _ _ _ (Star.invs g hi) ⟨ht, by decide⟩ (by simp [rank]; omega)
      · intro h; cases h
  all_goals exact fin _ _ _ hi ⟨ht, by decide⟩ (by simp [rank]; omega)

end F15
