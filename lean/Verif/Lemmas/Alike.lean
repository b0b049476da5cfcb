import Verif.Lemmas.Parse
import Verif.Lemmas.Equations2
import Verif.Spec.Reuse
/-!
# Of the elements of a used sequence the parser only reads the last

Two sequences with at least two elements and the same last element: whatever the parser does to the one it does to the other.
-/

namespace F15
open Spec

set_option linter.unusedSectionVars false
variable {σ F : Type} [TokStream σ] [PyFloat F]

/-- The same newest elements (at least `n`) on top of some older ones (as many as in `e0` and `e0'`), and the same newest errors on top of
those of `e0` and `e0'`. -/
structure AlikeOn (n : Nat) (e0 e0' : Ers F) (e e' : Ers F) : Prop where
  recs : ∃ new old old', e.recs = new ++ old ∧ e'.recs = new ++ old' ∧ n ≤ new.length ∧ old ≠ [] ∧ old' ≠ [] ∧
    old.length = e0.recs.length ∧ old'.length = e0'.recs.length
  errs : ∃ new, e.errs = new ++ e0.errs ∧ e'.errs = new ++ e0'.errs

variable (e0 e0' : Ers F)

/-- The same outcome, on alike sequences. -/
def Outcome {α : Type} (n : Nat) (x x' : Except PyErr (α × St σ F)) : Prop :=
  (∃ y, x = .error y ∧ x' = .error y) ∨
  (∃ a s s', x = .ok (a, s) ∧ x' = .ok (a, s') ∧ s.toks = s'.toks ∧ AlikeOn n e0 e0' s.ers s'.ers)

/-- `m` does the same to alike sequences. -/
def Alike {α : Type} (m : M σ F α) : Prop :=
  ∀ (n : Nat) (s s' : St σ F), 1 ≤ n → s.toks = s'.toks → AlikeOn n e0 e0' s.ers s'.ers → Outcome e0 e0' n (m s) (m s')

variable {e0 e0'}

theorem al_pure : Alike (σ := σ) e0 e0' (pure ()) := fun _ s s' _ ht h => .inr ⟨(), s, s', rfl, rfl, ht, h⟩

theorem al_throw {α : Type} (x : PyErr) : Alike (σ := σ) (α := α) e0 e0' (throw x) := fun _ _ _ _ _ _ => .inl ⟨x, rfl, rfl⟩

theorem al_bind {α β : Type} {m : M σ F α} {k : α → M σ F β} (h : Alike e0 e0' m) (hk : ∀ a, Alike e0 e0' (k a)) :
    Alike e0 e0' (m >>= k) := by
  intro n s s' hn ht ha
  show Outcome e0 e0' n ((m s) >>= fun p => k p.1 p.2) ((m s') >>= fun p => k p.1 p.2)
  rcases h n s s' hn ht ha with ⟨y, h1, h2⟩ | ⟨a, t, t', h1, h2, ht', ha'⟩
  · rw [h1, h2]; exact .inl ⟨y, rfl, rfl⟩
  · rw [h1, h2]; exact hk a n t t' hn ht' ha'

theorem al_next : Alike (σ := σ) e0 e0' nextToken := by
  intro n s s' hn ht ha
  unfold nextToken
  rw [← ht]
  cases h : (TokStream.next s.toks).1 with
  | error x => exact .inl ⟨x, by simp [h], by simp [h]⟩
  | ok a => exact .inr ⟨a, ⟨s.ers, (TokStream.next s.toks).2⟩, ⟨s'.ers, (TokStream.next s.toks).2⟩, by simp [h], by simp [h], rfl, ha⟩

theorem al_peek (k : Nat) : Alike (σ := σ) e0 e0' (peekToken k) := by
  intro n s s' hn ht ha
  unfold peekToken
  rw [← ht]
  cases h : TokStream.peek s.toks k with
  | error x => exact .inl ⟨x, rfl, rfl⟩
  | ok a => exact .inr ⟨a, s, s', rfl, rfl, ht, ha⟩

theorem al_liftE {α : Type} (x : Except PyErr α) : Alike (σ := σ) e0 e0' (liftE x) := by
  intro n s s' hn ht ha
  cases x with
  | error x => exact .inl ⟨x, rfl, rfl⟩
  | ok a => exact .inr ⟨a, s, s', rfl, rfl, ht, ha⟩

theorem AlikeOn.top {n : Nat} {e e' : Ers F} (h : AlikeOn n e0 e0' e e') (hn : 1 ≤ n) :
    ∃ r new old old', e.recs = r :: (new ++ old) ∧ e'.recs = r :: (new ++ old') ∧ n ≤ new.length + 1 ∧ old ≠ [] ∧ old' ≠ [] ∧
      old.length = e0.recs.length ∧ old'.length = e0'.recs.length := by
  obtain ⟨new, old, old', h1, h2, h3, h4⟩ := h.recs
  cases new with
  | nil => simp at h3; omega
  | cons r new => exact ⟨r, new, old, old', h1, h2, by simpa using h3, h4⟩

theorem al_lastElement : Alike (σ := σ) e0 e0' lastElement := by
  intro n s s' hn ht ha
  unfold lastElement
  rw [getLastElement_ok, getLastElement_ok]
  obtain ⟨r, new, old, old', h1, h2, _⟩ := ha.top hn
  rw [h1, h2]
  exact .inr ⟨some r, s, s', rfl, rfl, ht, ha⟩

theorem al_getLast : Alike (σ := σ) e0 e0' getLast := by
  intro n s s' hn ht ha
  unfold getLast
  obtain ⟨r, new, old, old', h1, h2, _⟩ := ha.top hn
  rw [h1, h2]
  exact .inr ⟨r, s, s', rfl, rfl, ht, ha⟩

theorem al_modLast (f : Record F → Record F) : Alike (σ := σ) e0 e0' (modLast f) := by
  intro n s s' hn ht ha
  unfold modLast
  obtain ⟨r, new, old, old', h1, h2, h3⟩ := ha.top hn
  rw [h1, h2]
  exact .inr ⟨(), _, _, rfl, rfl, ht, ⟨⟨f r :: new, old, old', rfl, rfl, by simpa using h3⟩, ha.errs⟩⟩

theorem al_modPrev (f : Record F → Record F) : Alike (σ := σ) e0 e0' (modPrev f) := by
  intro n s s' hn ht ha
  unfold modPrev
  obtain ⟨r, new, old, old', h1, h2, h3, h4, h5, h6, h7⟩ := ha.top hn
  rw [h1, h2]
  cases new with
  | nil =>
    cases old with
    | nil => exact absurd rfl h4
    | cons a old =>
      cases old' with
      | nil => exact absurd rfl h5
      | cons a' old' =>
        exact .inr ⟨(), _, _, rfl, rfl, ht, ⟨⟨[r], f a :: old, f a' :: old', rfl, rfl, by simpa using h3, by simp, by simp, h6, h7⟩, ha.errs⟩⟩
  | cons q new =>
    exact .inr ⟨(), _, _, rfl, rfl, ht, ⟨⟨r :: f q :: new, old, old', rfl, rfl, by simpa using h3, h4, h5, h6, h7⟩, ha.errs⟩⟩

theorem al_whenM (c : Bool) {m : M σ F Unit} (h : Alike e0 e0' m) : Alike e0 e0' (whenM c m) := by
  cases c
  · exact al_pure
  · exact h

theorem al_ite {c : Prop} [Decidable c] {a b : M σ F Unit} (h1 : Alike e0 e0' a) (h2 : Alike e0 e0' b) :
    Alike e0 e0' (if c then a else b) := by
  split
  · exact h1
  · exact h2

theorem al_addError (t : Token) (k : Nat) : Alike (σ := σ) e0 e0' (addErrorNoReSync t k) := by
  intro n s s' hn ht ha
  unfold addErrorNoReSync
  cases errorMessage k with
  | none => exact .inl ⟨_, rfl, rfl⟩
  | some m =>
    obtain ⟨new, h1, h2⟩ := ha.errs
    refine .inr ⟨(), _, _, rfl, rfl, ht, ⟨ha.recs, ?_⟩⟩
    refine ⟨(Record.new t.text t.start t.stop t.base t.sub : Record F).appendErrorText (replaceBang m t.text) :: new, ?_, ?_⟩
    · show _ :: s.ers.errs = _; rw [h1]; rfl
    · show _ :: s'.ers.errs = _; rw [h2]; rfl

theorem al_addRecord (t : Token) : Alike (σ := σ) e0 e0' (addRecord t) := by
  intro n s s' hn ht ha
  unfold addRecord
  obtain ⟨r, new, old, old', h1, h2, h3, h4⟩ := ha.top hn
  rw [h1, h2]
  exact .inr ⟨(), _, _, rfl, rfl, ht, ⟨⟨carry r _ :: r :: new, old, old', rfl, rfl, by simp; omega, h4⟩, ha.errs⟩⟩

theorem azimuth_alike (r : Record F) (new old old' : List (Record F)) (h4 : old ≠ []) (h5 : old' ≠ []) :
    ∃ new1 old1 old1', azimuthList (r :: (new ++ old)) = r :: (new1 ++ old1) ∧ azimuthList (r :: (new ++ old')) = r :: (new1 ++ old1') ∧
      new1.length = new.length ∧ old1.length = old.length ∧ old1'.length = old'.length := by
  have two : ∀ (q : Record F) (old : List (Record F)), ∃ old1, azimuthList (r :: q :: old) =
      (if r.latLongValid ∧ q.latLongValid then r :: setAzimuthAndDistance q r :: old1 else r :: q :: old1) ∧ old1.length = old.length := by
    intro q old
    by_cases hr : r.latLongValid
    · by_cases hq : q.latLongValid
      · exact ⟨old, by simp [azimuthList, hr, hq], rfl⟩
      · cases old with
        | nil => exact ⟨[], by simp [azimuthList, hr, hq], rfl⟩
        | cons a l =>
          by_cases hx : a.latLongValid
          · exact ⟨setAzimuthAndDistance a r :: l, by simp [azimuthList, hr, hq, hx], rfl⟩
          · exact ⟨a :: l, by simp [azimuthList, hr, hq, hx], rfl⟩
    · exact ⟨old, by simp [azimuthList, hr], rfl⟩
  have one : ∀ old : List (Record F), old ≠ [] → ∃ old1, azimuthList (r :: old) = r :: old1 ∧ old1.length = old.length := by
    intro old h
    cases old with
    | nil => exact absurd rfl h
    | cons a l =>
      obtain ⟨o, h1, h2⟩ := two a l
      rw [h1]
      split <;> exact ⟨_, rfl, by simp [h2]⟩
  cases new with
  | nil =>
    obtain ⟨o, h1, h2⟩ := one old h4
    obtain ⟨o', h1', h2'⟩ := one old' h5
    exact ⟨[], o, o', h1, h1', rfl, h2, h2'⟩
  | cons q new =>
    cases new with
    | nil =>
      obtain ⟨o, h1, h2⟩ := two q old
      obtain ⟨o', h1', h2'⟩ := two q old'
      by_cases h : r.latLongValid ∧ q.latLongValid
      · rw [if_pos h] at h1 h1'
        exact ⟨[setAzimuthAndDistance q r], o, o', h1, h1', rfl, h2, h2'⟩
      · rw [if_neg h] at h1 h1'
        exact ⟨[q], o, o', h1, h1', rfl, h2, h2'⟩
    | cons p new =>
      have three : ∃ q' p', ∀ l, azimuthList (r :: q :: p :: l) = r :: q' :: p' :: l := by
        by_cases hr : r.latLongValid
        · by_cases hq : q.latLongValid
          · exact ⟨setAzimuthAndDistance q r, p, fun l => by simp [azimuthList, hr, hq]⟩
          · by_cases hp : p.latLongValid
            · exact ⟨q, setAzimuthAndDistance p r, fun l => by simp [azimuthList, hr, hq, hp]⟩
            · exact ⟨q, p, fun l => by simp [azimuthList, hr, hq, hp]⟩
        · exact ⟨q, p, fun l => by simp [azimuthList, hr]⟩
      obtain ⟨q', p', h⟩ := three
      exact ⟨q' :: p' :: new, old, old', h _, h _, rfl, rfl, rfl⟩

theorem al_assignAzimuth : Alike (σ := σ) e0 e0' assignAzimuth := by
  intro n s s' hn ht ha
  unfold assignAzimuth
  obtain ⟨r, new, old, old', h1, h2, h3, h4, h5, h6, h7⟩ := ha.top hn
  obtain ⟨new1, old1, old1', g1, g2, g3, g4, g5⟩ := azimuth_alike r new old old' h4 h5
  refine .inr ⟨(), _, _, rfl, rfl, ht, ⟨⟨r :: new1, old1, old1', ?_, ?_, by simp; omega, ?_, ?_, by omega, by omega⟩, ha.errs⟩⟩
  · show azimuthList s.ers.recs = _; rw [h1, g1]; rfl
  · show azimuthList s'.ers.recs = _; rw [h2, g2]; rfl
  · intro h; rw [h] at g4; exact h4 (List.length_eq_zero_iff.1 g4.symm)
  · intro h; rw [h] at g5; exact h5 (List.length_eq_zero_iff.1 g5.symm)

/-- There are at least two elements. -/
theorem al_num1 {a b : M σ F Unit} (hb : Alike e0 e0' b) : Alike e0 e0' (numElements >>= fun n => if n = 1 then a else b) := by
  intro n s s' hn ht ha
  obtain ⟨r, new, old, old', h1, h2, h3, h4, h5, h6, h7⟩ := ha.top hn
  have hl : s.ers.recs.length ≠ 1 := by
    rw [h1]; have := List.length_pos_iff.2 h4; simp only [List.length_cons, List.length_append]; omega
  have hl' : s'.ers.recs.length ≠ 1 := by
    rw [h2]; have := List.length_pos_iff.2 h5; simp only [List.length_cons, List.length_append]; omega
  show Outcome e0 e0' n ((if s.ers.recs.length = 1 then a else b) s) ((if s'.ers.recs.length = 1 then a else b) s')
  rw [if_neg hl, if_neg hl']
  exact hb n s s' hn ht ha

/-- After another one there are at least three. -/
theorem al_num2 {t : Token} {a b : M σ F Unit} (hb : Alike e0 e0' b) :
    Alike e0 e0' (addRecord t >>= fun _ => numElements >>= fun n => if n = 2 then a else b) := by
  intro n s s' hn ht ha
  obtain ⟨r, new, old, old', h1, h2, h3, h4, h5, h6, h7⟩ := ha.top hn
  have hl := List.length_pos_iff.2 h4
  have hl' := List.length_pos_iff.2 h5
  rcases al_addRecord t n s s' hn ht ha with ⟨y, g1, g2⟩ | ⟨_, u, u', g1, g2, g3, g4⟩
  · exact .inl ⟨y, by show (addRecord t s >>= _) = _; rw [g1]; rfl, by show (addRecord t s' >>= _) = _; rw [g2]; rfl⟩
  · show Outcome e0 e0' n (addRecord t s >>= fun p => (if p.2.ers.recs.length = 2 then a else b) p.2)
      (addRecord t s' >>= fun p => (if p.2.ers.recs.length = 2 then a else b) p.2)
    have k : u.ers.recs.length = s.ers.recs.length + 1 := by
      unfold addRecord at g1; rw [h1] at g1 ⊢; injection g1 with g1; injection g1 with _ g1; rw [← g1]; simp
    have k' : u'.ers.recs.length = s'.ers.recs.length + 1 := by
      unfold addRecord at g2; rw [h2] at g2 ⊢; injection g2 with g2; injection g2 with _ g2; rw [← g2]; simp
    rw [g1, g2]
    show Outcome e0 e0' n ((if u.ers.recs.length = 2 then a else b) u) ((if u'.ers.recs.length = 2 then a else b) u')
    rw [if_neg (by rw [k, h1]; simp only [List.length_cons, List.length_append]; omega), if_neg (by rw [k', h2]; simp only [List.length_cons, List.length_append]; omega)]
    exact hb n u u' hn g3 g4

theorem al_assignAltitude (t : Token) (a : Str) (c : Bool) : Alike (σ := σ) e0 e0' (assignAltitude t a c) :=
  al_bind (al_modLast _) fun _ => al_bind (al_liftE _) fun _ => al_bind (al_whenM _ (al_addError _ _)) fun _ => al_modLast _
theorem al_assignSpeed (a : Str) : Alike (σ := σ) e0 e0' (assignSpeed a) :=
  al_bind (al_modLast _) fun _ => al_bind al_getLast fun _ => al_bind (al_liftE _) fun _ => al_modLast _
theorem al_assignLatitude (a : Str) : Alike (σ := σ) e0 e0' (assignLatitude a) := al_bind (al_liftE _) fun _ => al_modLast _
theorem al_assignLongitude (a : Str) : Alike (σ := σ) e0 e0' (assignLongitude a) := al_bind (al_liftE _) fun _ => al_modLast _
theorem al_assignLlDeg (t : Token) (a : Str) : Alike (σ := σ) e0 e0' (assignLlDeg t a) :=
  al_bind (al_assignLatitude _) fun _ => al_bind (al_assignLongitude _) fun _ => al_bind (al_liftE _) fun _ =>
    al_bind (al_whenM _ (al_addError _ _)) fun _ => al_bind (al_liftE _) fun _ => al_bind (al_whenM _ (al_addError _ _)) fun _ =>
    al_bind (al_modLast _) fun _ => al_assignAzimuth
theorem al_assignLlDegMin (t : Token) (a : Str) : Alike (σ := σ) e0 e0' (assignLlDegMin t a) :=
  al_bind (al_assignLatitude _) fun _ => al_bind (al_assignLongitude _) fun _ => al_bind (al_liftE _) fun _ =>
    al_bind (al_whenM _ (al_addError _ _)) fun _ => al_bind (al_liftE _) fun _ => al_bind (al_whenM _ (al_addError _ _)) fun _ =>
    al_bind (al_modLast _) fun _ => al_assignAzimuth
theorem al_resolve (b d : F) : Alike (σ := σ) e0 e0' (resolveRealBdPoint b d) := al_bind (al_modLast _) fun _ => al_assignAzimuth
theorem al_assignBearingDistance (t : Token) (a : Str) : Alike (σ := σ) e0 e0' (assignBearingDistance t a) :=
  al_bind (al_liftE _) fun _ => al_bind (al_whenM _ (al_addError _ _)) fun _ =>
    al_bind (al_liftE _) fun _ => al_bind (al_liftE _) fun _ => al_resolve _ _
theorem al_assignLatLong (t : Token) : Alike (σ := σ) e0 e0' (assignLatLongBearingDistance t) := by
  unfold assignLatLongBearingDistance
  split
  · exact al_bind (al_liftE _) fun _ => al_whenM _ (al_addError _ _)
  · exact al_assignLlDeg _ _
  · exact al_assignLlDegMin _ _
  · exact al_bind (al_assignLlDeg _ _) fun _ => al_assignBearingDistance _ _
  · exact al_bind (al_assignLlDegMin _ _) fun _ => al_assignBearingDistance _ _
  · exact al_pure
theorem al_checkPosition (t : Token) : Alike (σ := σ) e0 e0' (checkPosition t) := al_whenM _ (al_assignLatLong t)
theorem al_levelSpeed (t : Token) (a b : Str) : Alike (σ := σ) e0 e0' (levelSpeed t a b) :=
  al_bind (al_assignAltitude _ _ _) fun _ => al_assignSpeed _
theorem al_levelLevelSpeed (t : Token) (a b c : Str) : Alike (σ := σ) e0 e0' (levelLevelSpeed t a b c) :=
  al_bind (al_assignAltitude _ _ _) fun _ => al_bind (al_assignAltitude _ _ _) fun _ => al_assignSpeed _
theorem al_levelPlusSpeed (t : Token) (a b c : Str) : Alike (σ := σ) e0 e0' (levelPlusSpeed t a b c) :=
  al_bind (al_assignAltitude _ _ _) fun _ => al_bind (al_modLast _) fun _ => al_assignSpeed _
theorem al_vfrSpeedRules (t : Token) : Alike (σ := σ) e0 e0' (vfrSpeedRules t) := by
  unfold vfrSpeedRules
  dsimp only
  split
  · exact al_bind (al_assignSpeed _) fun _ => al_bind (al_liftE _) fun _ => al_modLast _
  · exact al_bind (al_assignSpeed _) fun _ => al_bind (al_liftE _) fun _ => al_modLast _
  · exact al_bind (al_assignSpeed _) fun _ => al_bind (al_liftE _) fun _ => al_modLast _
  · exact al_bind (al_assignSpeed _) fun _ => al_bind (al_liftE _) fun _ => al_modLast _
  · exact al_bind (al_assignAltitude _ _ _) fun _ => al_modLast _
theorem al_markSid (a : Str) : Alike (σ := σ) e0 e0' (markSid a) := al_modLast _
theorem al_markStar (a : Str) : Alike (σ := σ) e0 e0' (markStar a) := al_modLast _
theorem al_saveStayTime (a : Str) : Alike (σ := σ) e0 e0' (saveStayTime a) :=
  al_bind al_getLast fun _ => al_bind (al_liftE _) fun _ => al_modLast _

/-- Solves goals `Alike e0 e0' m` for the program text `m`. -/
macro "alc" h:ident : tactic => `(tactic| (
  repeat (first
  | with_reducible exact al_pure | with_reducible exact al_throw _ | with_reducible exact al_addError _ _
  | with_reducible exact al_addRecord _ | with_reducible exact al_checkPosition _ | with_reducible exact al_levelSpeed _ _ _
  | with_reducible exact al_levelLevelSpeed _ _ _ _ | with_reducible exact al_levelPlusSpeed _ _ _ _
  | with_reducible exact al_vfrSpeedRules _ | with_reducible exact al_saveStayTime _ | with_reducible exact al_markSid _
  | with_reducible exact al_markStar _ | with_reducible exact al_assignAltitude _ _ _ | with_reducible exact al_assignLatLong _
  | with_reducible exact $h _
  | with_reducible exact al_modLast _
  | with_reducible exact al_modPrev _
  | with_reducible refine al_whenM _ ?_
  | with_reducible refine al_num2 ?_
  | with_reducible refine al_num1 ?_
  | with_reducible refine al_ite ?_ ?_
  | with_reducible refine al_bind al_next (fun _ => ?_)
  | with_reducible refine al_bind (al_peek _) (fun _ => ?_)
  | with_reducible refine al_bind al_lastElement (fun _ => ?_)
  | with_reducible refine al_bind al_getLast (fun _ => ?_)
  | with_reducible refine al_bind (al_liftE _) (fun _ => ?_)
  | with_reducible refine al_bind ?_ (fun _ => ?_)
  | split)))

set_option maxHeartbeats 4000000 in
theorem al_step {call : Call → M σ F Unit} (h : ∀ c, Alike e0 e0' (call c)) (c : Call) : Alike e0 e0' (step call c) := by
  cases c with
  | addErrorAndReSync t n => simp only [step]; unfold addErrorAndReSync; alc h
  | assignSpeedAltitude t => simp only [step]; unfold assignSpeedAltitude; alc h
  | assignSpeedAltitudeAltitude t => simp only [step]; unfold assignSpeedAltitudeAltitude rulesThenPostPoint; alc h
  | assignSpeedAltitudePlus t => simp only [step]; unfold assignSpeedAltitudePlus rulesThenPostPoint; alc h
  | assignSpeedVfr t => simp only [step]; unfold assignSpeedVfr; alc h
  | breakEnd t => simp only [step]; unfold breakEnd breakEndTail; alc h
  | breakEndError t => simp only [step]; unfold breakEndError; alc h
  | breakStart t => simp only [step]; unfold breakStart; alc h
  | breakTextSave t => simp only [step]; unfold breakTextSave; alc h
  | cruiseClimbC t => simp only [step]; unfold cruiseClimbC; alc h
  | cruiseClimbPoint t => simp only [step]; unfold cruiseClimbPoint; alc h
  | dct t => simp only [step]; unfold dct; alc h
  | forwardSlash t => simp only [step]; unfold forwardSlash; alc h
  | postAdep t => simp only [step]; unfold postAdep; alc h
  | postPoint t => simp only [step]; unfold postPoint; alc h
  | postSid => simp only [step]; unfold postSid; alc h
  | point t => simp only [step]; unfold point; alc h
  | reSync => simp only [step]; unfold reSync; alc h
  | route t => simp only [step]; unfold route; alc h
  | sid t => simp only [step]; unfold sid; alc h
  | sidStar t => simp only [step]; unfold sidStar; alc h
  | star t => simp only [step]; unfold star; alc h
  | stay t => simp only [step]; unfold stay; alc h
  | stayTime t => simp only [step]; unfold stayTime; alc h
  | truncate => simp only [step]; unfold truncate; alc h
  | vToI => simp only [step]; unfold vToI; alc h
  | vToIToV => simp only [step]; unfold vToIToV; alc h

theorem al_exec (n : Nat) (c : Call) : Alike (σ := σ) e0 e0' (exec n c) := by
  induction n generalizing c with
  | zero => exact fun _ _ _ _ _ _ => .inl ⟨_, rfl, rfl⟩
  | succ n ih => exact al_step ih c

theorem oldest_append (f : Record F → Record F) (l : List (Record F)) (o : Record F) :
    mapOldest f (l ++ [o]) = l ++ [f o] := by simp [mapOldest, mapHead]

/-- The first element lies among the old ones. -/
theorem al_oldest {n : Nat} {e e' : Ers F} (h : AlikeOn n e0 e0' e e') (f : Record F → Record F) :
    AlikeOn n e0 e0' { e with recs := mapOldest f e.recs } { e' with recs := mapOldest f e'.recs } := by
  obtain ⟨new, old, old', h1, h2, h3, h4, h5, h6, h7⟩ := h.recs
  refine ⟨?_, h.errs⟩
  obtain ⟨l, x, rfl⟩ : ∃ l x, old = l ++ [x] := ⟨_, _, (List.dropLast_concat_getLast h4).symm⟩
  obtain ⟨l', x', rfl⟩ : ∃ l' x', old' = l' ++ [x'] := ⟨_, _, (List.dropLast_concat_getLast h5).symm⟩
  refine ⟨new, l ++ [f x], l' ++ [f x'], ?_, ?_, h3, by simp, by simp, by simpa using h6, by simpa using h7⟩
  · show mapOldest f e.recs = _
    rw [h1, ← List.append_assoc, oldest_append, List.append_assoc]
  · show mapOldest f e'.recs = _
    rw [h2, ← List.append_assoc, oldest_append, List.append_assoc]

theorem AlikeOn.ne {n : Nat} {e e' : Ers F} (h : AlikeOn n e0 e0' e e') : e.recs ≠ [] ∧ e'.recs ≠ [] := by
  obtain ⟨new, old, old', h1, h2, h3, h4, h5, h6, h7⟩ := h.recs
  exact ⟨by rw [h1]; simp [h4], by rw [h2]; simp [h5]⟩

theorem al_runL {e e' : Ers F} (frames : Nat) (t : Token) (rest : List Token) (h : AlikeOn 1 e0 e0' e e') :
    (∃ y, runL frames e t rest = .error y ∧ runL frames e' t rest = .error y) ∨
    (∃ a a', runL frames e t rest = .ok a ∧ runL frames e' t rest = .ok a' ∧ AlikeOn 1 e0 e0' a a') := by
  have key := fun c => al_exec (σ := List Token) (e0 := e0) (e0' := e0') frames c 1 ⟨e, rest⟩ ⟨e', rest⟩ (Nat.le_refl _) rfl h
  unfold runL
  split
  · rcases key (.assignSpeedVfr t) with ⟨y, h1, h2⟩ | ⟨a, s, s', h1, h2, h3, h4⟩
    · rw [h1, h2]; exact .inl ⟨y, rfl, rfl⟩
    · rw [h1, h2]
      exact .inr ⟨_, _, setFirst_eq _ h4.ne.1, setFirst_eq _ h4.ne.2, al_oldest h4 _⟩
  · rcases key (.assignSpeedAltitude t) with ⟨y, h1, h2⟩ | ⟨a, s, s', h1, h2, h3, h4⟩
    · rw [h1, h2]; exact .inl ⟨y, rfl, rfl⟩
    · rw [h1, h2]
      dsimp only
      by_cases hr : rest = []
      · rw [if_pos hr, if_pos hr]
        rcases al_exec (e0 := e0) (e0' := e0') frames (.addErrorAndReSync t 49) 1 s s' (Nat.le_refl _) h3 h4 with ⟨y, g1, g2⟩ | ⟨_, u, u', g1, g2, g3, g4⟩
        · rw [g1, g2]; exact .inl ⟨y, rfl, rfl⟩
        · rw [g1, g2]; exact .inr ⟨_, _, rfl, rfl, g4⟩
      · rw [if_neg hr, if_neg hr]; exact .inr ⟨_, _, rfl, rfl, h4⟩
  · rcases key (.addErrorAndReSync t 1) with ⟨y, h1, h2⟩ | ⟨a, s, s', h1, h2, h3, h4⟩
    · rw [h1, h2]; exact .inl ⟨y, rfl, rfl⟩
    · rw [h1, h2]; exact .inr ⟨_, _, rfl, rfl, h4⟩

/-- One more element on top. -/
theorem AlikeOn.push {n : Nat} {e e' : Ers F} (h : AlikeOn n e0 e0' e e') (r : Record F) (d d' : Str) :
    AlikeOn n e0 e0' ⟨r :: e.recs, e.errs, d⟩ ⟨r :: e'.recs, e'.errs, d'⟩ := by
  obtain ⟨new, old, old', h1, h2, h3, h4⟩ := h.recs
  refine ⟨⟨r :: new, old, old', by rw [h1]; rfl, by rw [h2]; rfl, ?_, h4⟩, h.errs⟩
  simp only [List.length_cons]; omega

theorem al_parse {e e' : Ers F} (frames : Nat) (tokens : Tokens) (h : AlikeOn 1 e0 e0' e e') :
    (∃ y, parseF15 frames e tokens = .error y ∧ parseF15 frames e' tokens = .error y) ∨
    (∃ b b' a a', parseF15 frames e tokens = .ok (b, a) ∧ parseF15 frames e' tokens = .ok (b', a') ∧ AlikeOn 1 e0 e0' a a') := by
  rw [parse_eq, parse_eq]
  unfold parseL
  cases tokens.toks.map assignSyntax with
  | nil =>
    refine .inr ⟨_, _, _, _, rfl, rfl, ?_⟩
    obtain ⟨new, g1, g2⟩ := h.errs
    refine AlikeOn.push (e := { e with errs := nullErr :: e.errs }) (e' := { e' with errs := nullErr :: e'.errs }) ⟨h.recs, nullErr :: new, ?_, ?_⟩ (adesRec []) _ _
    · show _ :: e.errs = _; rw [g1]; rfl
    · show _ :: e'.errs = _; rw [g2]; rfl
  | cons t rest =>
    dsimp only
    rcases al_runL frames t rest h with ⟨y, h1, h2⟩ | ⟨a, a', h1, h2, h3⟩
    · rw [h1, h2]; exact .inl ⟨y, rfl, rfl⟩
    · rw [h1, h2]
      refine .inr ⟨_, _, _, _, finish_eq _ h3.ne.1, finish_eq _ h3.ne.2, ?_⟩
      unfold finErs
      obtain ⟨r, new, old, old', g1, g2, _⟩ := h3.top (Nat.le_refl _)
      have : (a.recs.head?.map (·.rules)).getD [] = (a'.recs.head?.map (·.rules)).getD [] := by rw [g1, g2]; rfl
      rw [this]
      exact h3.push _ _ _

/-! ### A used sequence and a fresh one -/

/-- Lay the first elements down: they need not be the same. -/
theorem alike_start {e e' : Ers F} (he : e.recs ≠ []) (he' : e'.recs ≠ []) : AlikeOn 0 e e' e e' :=
  ⟨⟨[], e.recs, e'.recs, rfl, rfl, Nat.le_refl _, he, he', rfl, rfl⟩, [], rfl, rfl⟩

/-- A SPEED/VFR makes the first new element the same. -/
theorem vfr_alike (t : Token) {e e' : Ers F} (he : e.recs ≠ []) (he' : e'.recs ≠ []) :
    AlikeOn 1 e e' ((Act.vfr t).run e) ((Act.vfr t).run e') := by
  obtain ⟨recs, errs, d⟩ := e
  obtain ⟨recs', errs', d'⟩ := e'
  cases recs with
  | nil => exact absurd rfl he
  | cons r rs =>
    cases recs' with
    | nil => exact absurd rfl he'
    | cons r' rs' =>
      refine ⟨⟨[toVfr (setSpeed (spOf t.text) (setLevel (py! "F050") (Record.new (py! "VFR") t.start t.stop t.base t.sub)))], _, _, rfl, rfl,
        by simp, by simp, by simp, by simp, by simp⟩, _, rfl, rfl⟩

/-- The elements agree in what is carried forward. -/
def Carried (e e' : Ers F) : Prop :=
  ∃ r rs r' rs', e.recs = r :: rs ∧ e'.recs = r' :: rs' ∧ r.altitude = r'.altitude ∧ r.altitudeSi = r'.altitudeSi ∧ r.speed = r'.speed ∧
    r.speedSi = r'.speedSi ∧ r.rules = r'.rules

theorem level_alike (t : Token) {e e' : Ers F} (he : e.recs ≠ []) (he' : e'.recs ≠ []) :
    AlikeOn 0 e e' ((Act.level t).run e) ((Act.level t).run e') ∧ Carried ((Act.level t).run e) ((Act.level t).run e') := by
  obtain ⟨recs, errs, d⟩ := e
  obtain ⟨recs', errs', d'⟩ := e'
  cases recs with
  | nil => exact absurd rfl he
  | cons r rs =>
    cases recs' with
    | nil => exact absurd rfl he'
    | cons r' rs' =>
      exact ⟨⟨⟨[], _, _, rfl, rfl, by simp, by simp [Act.run, Act.recs, upd, mapHead], by simp [Act.run, Act.recs, upd, mapHead],
        by simp [Act.run, Act.recs, upd, mapHead], by simp [Act.run, Act.recs, upd, mapHead]⟩, _, rfl, rfl⟩,
        _, _, _, _, rfl, rfl, rfl, rfl, rfl, rfl, rfl⟩

/-- What is carried forward makes the next element the same. -/
theorem push_alike (t : Token) {e e' : Ers F} (h : AlikeOn 0 e0 e0' e e') (hc : Carried e e') (h0 : e.recs.length = e0.recs.length)
    (h0' : e'.recs.length = e0'.recs.length) :
    AlikeOn 1 e0 e0' { e with recs := pushRec t e.recs } { e' with recs := pushRec t e'.recs } := by
  obtain ⟨r, rs, r', rs', h1, h2, a1, a2, a3, a4, a5⟩ := hc
  have : carry r (Record.new t.text t.start t.stop t.base t.sub) = carry r' (Record.new t.text t.start t.stop t.base t.sub) := by
    unfold carry; rw [a1, a2, a3, a4, a5]
  refine ⟨⟨[carry r (Record.new t.text t.start t.stop t.base t.sub)], e.recs, e'.recs, ?_, ?_, by simp, h.ne.1, h.ne.2, h0, h0'⟩, h.errs⟩
  · show pushRec t e.recs = _; rw [h1]; rfl
  · show pushRec t e'.recs = _; rw [h2, this]; rfl

theorem al_push (t : Token) {m : Unit → M σ F Unit} (hm : ∀ u, Alike e0 e0' (m u)) {s s' : St σ F} (ht : s.toks = s'.toks)
    (h : AlikeOn 0 e0 e0' s.ers s'.ers) (hc : Carried s.ers s'.ers) (h0 : s.ers.recs.length = e0.recs.length)
    (h0' : s'.ers.recs.length = e0'.recs.length) : Outcome e0 e0' 1 ((addRecord t >>= m) s) ((addRecord t >>= m) s') := by
  have key := push_alike t h hc h0 h0'
  obtain ⟨r, rs, r', rs', h1, h2, _⟩ := hc
  have g : ∀ (u : St σ F) r rs, u.ers.recs = r :: rs → (addRecord t >>= m) u = m () { u with ers := { u.ers with recs := pushRec t u.ers.recs } } := by
    intro u r rs hu
    show (addRecord t u >>= fun p => m p.1 p.2) = _
    unfold addRecord
    rw [hu]; rfl
  rw [g s r rs h1, g s' r' rs' h2]
  exact hm () 1 _ _ (Nat.le_refl _) ht key

/-- The first point or DCT. -/
theorem al_first (n : Nat) (nt : Token) (hb : nt.base = .POINT ∨ nt.base = .DCT) (c c' : Call) (hc0 : c = .postAdep nt ∨ c = .postPoint nt)
    (hc0' : c' = .postAdep nt ∨ c' = .postPoint nt) {s s' : St σ F} (ht : s.toks = s'.toks)
    (h : AlikeOn 0 e0 e0' s.ers s'.ers) (hc : Carried s.ers s'.ers) (h0 : s.ers.recs.length = e0.recs.length)
    (h0' : s'.ers.recs.length = e0'.recs.length) : Outcome e0 e0' 1 (exec n c s) (exec n c' s') := by
  cases n with
  | zero => exact .inl ⟨_, rfl, rfl⟩
  | succ n =>
    have same : ∀ c, c = .postAdep nt ∨ c = .postPoint nt → ∀ u : St σ F,
        exec (n + 1) c u = exec n (if nt.base = .POINT then .point nt else .dct nt) u := by
      intro c hc u
      rcases hc with rfl | rfl
      · show postAdep (exec n) nt u = _
        unfold postAdep
        rcases hb with hb | hb <;> rw [hb] <;> rfl
      · show postPoint (exec n) nt u = _
        unfold postPoint
        rcases hb with hb | hb <;> rw [hb] <;> rfl
    rw [same c hc0, same c' hc0']
    cases n with
    | zero => exact .inl ⟨_, rfl, rfl⟩
    | succ n =>
      have hx := fun c => al_exec (σ := σ) (e0 := e0) (e0' := e0') n c
      by_cases hp : nt.base = .POINT
      · rw [if_pos hp]
        show Outcome e0 e0' 1 (point (exec n) nt s) (point (exec n) nt s')
        unfold point
        exact al_push nt (fun _ => by alc hx) ht h hc h0 h0'
      · rw [if_neg hp]
        show Outcome e0 e0' 1 (dct (exec n) nt s) (dct (exec n) nt s')
        unfold dct
        exact al_push nt (fun _ => by alc hx) ht h hc h0 h0'

def HeadRules (e e' : Ers F) : Prop := e.recs.head?.map (·.rules) = e'.recs.head?.map (·.rules)

theorem AlikeOn.rules {n : Nat} {e e' : Ers F} (h : AlikeOn n e0 e0' e e') (hn : 1 ≤ n) : HeadRules e e' := by
  obtain ⟨r, new, old, old', h1, h2, _⟩ := h.top hn
  unfold HeadRules; rw [h1, h2]; rfl

theorem AlikeOn.zero {n : Nat} {e e' : Ers F} (h : AlikeOn n e0 e0' e e') : AlikeOn 0 e0 e0' e e' := by
  obtain ⟨new, old, old', h1, h2, _, h4⟩ := h.recs
  exact ⟨⟨new, old, old', h1, h2, Nat.zero_le _, h4⟩, h.errs⟩

theorem fresh_runL {e e' : Ers F} (he : e.recs ≠ []) (he' : e'.recs ≠ []) (frames : Nat) (t : Token) (ht : Typed t) (rest : List Token)
    (ho : Opening t rest) :
    (∃ y, runL frames e t rest = .error y ∧ runL frames e' t rest = .error y) ∨
    (∃ a a', runL frames e t rest = .ok a ∧ runL frames e' t rest = .ok a' ∧ AlikeOn 0 e e' a a' ∧ HeadRules a a') := by
  cases frames with
  | zero =>
    rcases ho with hb | ⟨hb, _⟩
    · exact .inl ⟨.recursionError, by unfold runL; rw [hb]; rfl, by unfold runL; rw [hb]; rfl⟩
    · exact .inl ⟨.recursionError, by unfold runL; rw [hb]; rfl, by unfold runL; rw [hb]; rfl⟩
  | succ n =>
    rcases ho with hb | ⟨hb, hp⟩
    · unfold runL
      simp only [hb, exec]
      rw [step_vfr _ t ht hb e rest he, step_vfr _ t ht hb e' rest he']
      have hv := vfr_alike (F := F) t he he'
      cases rest with
      | nil => exact .inr ⟨_, _, setFirst_eq _ hv.ne.1, setFirst_eq _ hv.ne.2, (al_oldest hv _).zero, (al_oldest hv _).rules (Nat.le_refl _)⟩
      | cons nt ts =>
        dsimp only
        rcases al_exec (e0 := e) (e0' := e') n (.breakTextSave nt) 1 ⟨(Act.vfr t).run e, ts⟩ ⟨(Act.vfr t).run e', ts⟩ (Nat.le_refl _) rfl hv with ⟨y, h1, h2⟩ | ⟨a, s, s', h1, h2, h3, h4⟩
        · rw [h1, h2]; exact .inl ⟨y, rfl, rfl⟩
        · rw [h1, h2]
          exact .inr ⟨_, _, setFirst_eq _ h4.ne.1, setFirst_eq _ h4.ne.2, (al_oldest h4 _).zero, (al_oldest h4 _).rules (Nat.le_refl _)⟩
    · obtain ⟨hv, hc⟩ := level_alike (F := F) t he he'
      have hlen : ∀ x : Ers F, ((Act.level t).run x).recs.length = x.recs.length := by
        intro x
        show (mapHead _ x.recs).length = _
        cases x.recs <;> rfl
      cases rest with
      | nil =>
        have run : ∀ x : Ers F, x.recs ≠ [] → runL (n + 1) x t [] =
            match exec n .reSync (⟨upd t [49] id ((Act.level t).run x), []⟩ : St (List Token) F) with
            | .ok (_, s') => .ok s'.ers
            | .error y => .error y := by
          intro x hx
          have hx' : ((Act.level t).run x).recs ≠ [] := Act.recs_ne (.level t) x.recs hx
          unfold runL
          simp only [hb, exec]
          rw [step_level _ t ht hb x [] hx]
          show (match step (exec n) (.addErrorAndReSync t 49) (⟨(Act.level t).run x, []⟩ : St (List Token) F) with
            | .ok (_, s') => (.ok s'.ers : Except PyErr (Ers F))
            | .error y => .error y) = _
          rw [step_err _ t 49 (by decide) _ _ hx']
          rfl
        rw [run e he, run e' he']
        cases n with
        | zero => exact .inl ⟨_, rfl, rfl⟩
        | succ n =>
          simp only [exec]
          rw [step_reSync, step_reSync]
          refine .inr ⟨_, _, rfl, rfl, ⟨hv.recs, ?_⟩, ?_⟩
          · obtain ⟨l, h1, h2⟩ := hv.errs
            refine ⟨errRec t 49 :: l, ?_, ?_⟩
            · show errRec t 49 :: ((Act.level t).run e).errs = _; rw [h1]; rfl
            · show errRec t 49 :: ((Act.level t).run e').errs = _; rw [h2]; rfl
          · obtain ⟨r, rs, r', rs', h1, h2, _, _, _, _, h5⟩ := hc
            show ((Act.level t).run e).recs.head?.map _ = ((Act.level t).run e').recs.head?.map _
            rw [h1, h2]; exact congrArg some h5
      | cons nt ts =>
        have run : ∀ x : Ers F, x.recs ≠ [] → ∃ c, (c = .postAdep nt ∨ c = .postPoint nt) ∧ runL (n + 1) x t (nt :: ts) =
            match exec n c (⟨(Act.level t).run x, ts⟩ : St (List Token) F) with
            | .ok (_, s) => .ok s.ers
            | .error y => .error y := by
          intro x hx
          unfold runL
          simp only [hb, exec]
          rw [step_level _ t ht hb x (nt :: ts) hx]
          dsimp only
          by_cases hn : x.recs.length = 1
          · exact ⟨_, .inl rfl, by rw [if_pos hn]; rfl⟩
          · exact ⟨_, .inr rfl, by rw [if_neg hn]; rfl⟩
        obtain ⟨c, hc1, hr1⟩ := run e he
        obtain ⟨c', hc2, hr2⟩ := run e' he'
        rw [hr1, hr2]
        rcases al_first n nt (hp nt rfl) c c' hc1 hc2 (s := (⟨(Act.level t).run e, ts⟩ : St (List Token) F))
          (s' := ⟨(Act.level t).run e', ts⟩) rfl hv hc (hlen e) (hlen e') with ⟨y, h1, h2⟩ | ⟨a, s, s', h1, h2, h3, h4⟩
        · rw [h1, h2]; exact .inl ⟨y, rfl, rfl⟩
        · rw [h1, h2]; exact .inr ⟨_, _, rfl, rfl, h4.zero, h4.rules (Nat.le_refl _)⟩

theorem fresh_parse {e e' : Ers F} (he : e.recs ≠ []) (he' : e'.recs ≠ []) (frames : Nat) (tokens : Tokens) (t : Token) (rest : List Token)
    (hl : tokens.toks.map assignSyntax = t :: rest) (ho : Opening t rest) :
    (∃ y, parseF15 frames e tokens = .error y ∧ parseF15 frames e' tokens = .error y) ∨
    (∃ b b' a a', parseF15 frames e tokens = .ok (b, a) ∧ parseF15 frames e' tokens = .ok (b', a') ∧ AlikeOn 0 e e' a a') := by
  have ht : Typed t := typed_map (l := tokens.toks) (by rw [hl]; simp)
  rw [parse_eq, parse_eq, hl]
  unfold parseL
  dsimp only
  rcases fresh_runL he he' frames t ht rest ho with ⟨y, h1, h2⟩ | ⟨a, a', h1, h2, h3, h4⟩
  · rw [h1, h2]; exact .inl ⟨y, rfl, rfl⟩
  · rw [h1, h2]
    refine .inr ⟨_, _, _, _, finish_eq _ h3.ne.1, finish_eq _ h3.ne.2, ?_⟩
    unfold finErs
    rw [show (a.recs.head?.map (·.rules)) = _ from h4]
    exact h3.push _ _ _

end F15
