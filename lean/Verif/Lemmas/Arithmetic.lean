import Verif.Lemmas.Parse
import Verif.Lemmas.Evolve
import Verif.Spec.Arithmetic
/-!
# The arithmetic decides nothing: two runs with different arithmetics
-/

namespace F15
open Spec

set_option linter.unusedSectionVars false
variable {σ F G : Type} [TokStream σ] [PyFloat F] [PyFloat G]

/-- The same words in the same places. -/
structure SameSt (s : St σ F) (s' : St σ G) : Prop where
  toks : s.toks = s'.toks
  recs : All2 SameWords s.ers.recs s'.ers.recs
  errs : All2 SameWords s.ers.errs s'.ers.errs
  derived : s.ers.derived = s'.ers.derived

/-- The same exception, or results related by `V` in states with the same words. -/
def Outcomes {α β : Type} (V : α → β → Prop) (x : Except PyErr (α × St σ F)) (x' : Except PyErr (β × St σ G)) : Prop :=
  match x, x' with
  | .error a, .error b => a = b
  | .ok (a, s), .ok (b, s') => V a b ∧ SameSt s s'
  | _, _ => False

/-- The two programs do the same. -/
def Pair2 {α β : Type} (V : α → β → Prop) (m : M σ F α) (m' : M σ G β) : Prop := ∀ s s', SameSt s s' → Outcomes V (m s) (m' s')

abbrev Pairs2 (m : M σ F Unit) (m' : M σ G Unit) : Prop := Pair2 (fun _ _ => True) m m'

theorem tw_pure : Pairs2 (σ := σ) (F := F) (G := G) (pure ()) (pure ()) := fun _ _ h => ⟨trivial, h⟩

theorem tw_throw {α β : Type} {V : α → β → Prop} (x : PyErr) : Pair2 (σ := σ) (F := F) (G := G) V (throw x) (throw x) := fun _ _ _ => rfl

theorem tw_bind {α β γ δ : Type} {V : α → β → Prop} {W : γ → δ → Prop} {m : M σ F α} {m' : M σ G β} {k : α → M σ F γ} {k' : β → M σ G δ}
    (h : Pair2 V m m') (hk : ∀ a b, V a b → Pair2 W (k a) (k' b)) : Pair2 W (m >>= k) (m' >>= k') := by
  intro s s' hs
  have := h s s' hs
  show Outcomes W ((m s) >>= fun p => k p.1 p.2) ((m' s') >>= fun p => k' p.1 p.2)
  cases hm : m s with
  | error x => cases hm' : m' s' with
    | error y => rw [hm, hm'] at this; exact this
    | ok q => rw [hm, hm'] at this; exact this.elim
  | ok p => cases hm' : m' s' with
    | error y => rw [hm, hm'] at this; exact this.elim
    | ok q => rw [hm, hm'] at this; exact hk p.1 q.1 this.1 p.2 q.2 this.2

theorem tw_seq {γ δ : Type} {W : γ → δ → Prop} {m : M σ F Unit} {m' : M σ G Unit} {k : Unit → M σ F γ} {k' : Unit → M σ G δ}
    (h : Pairs2 m m') (hk : Pair2 W (k ()) (k' ())) : Pair2 W (m >>= k) (m' >>= k') := tw_bind h fun _ _ _ => hk

theorem tw_bindE {α γ δ : Type} {W : γ → δ → Prop} {m : M σ F α} {m' : M σ G α} {k : α → M σ F γ} {k' : α → M σ G δ}
    (h : Pair2 Eq m m') (hk : ∀ a, Pair2 W (k a) (k' a)) : Pair2 W (m >>= k) (m' >>= k') := tw_bind h fun a b e => by cases e; exact hk a

theorem tw_next : Pair2 (σ := σ) (F := F) (G := G) Eq nextToken nextToken := by
  intro s s' h
  unfold nextToken
  rw [← h.toks]
  cases hn : (TokStream.next s.toks).1 with
  | error x => simp [hn, Outcomes]
  | ok a => simp [hn, Outcomes]; exact ⟨rfl, h.recs, h.errs, h.derived⟩

theorem tw_peek (k : Nat) : Pair2 (σ := σ) (F := F) (G := G) Eq (peekToken k) (peekToken k) := by
  intro s s' h
  unfold peekToken
  rw [← h.toks]
  cases hn : TokStream.peek s.toks k with
  | error x => rfl
  | ok a => exact ⟨rfl, h⟩

theorem tw_liftE {α : Type} (x : Except PyErr α) : Pair2 (σ := σ) (F := F) (G := G) Eq (liftE x) (liftE x) := by
  intro s s' h
  cases x with
  | error x => rfl
  | ok a => exact ⟨rfl, h⟩

/-- The same exception, or any two numbers. -/
def Both {α β : Type} (V : α → β → Prop) (x : Except PyErr α) (y : Except PyErr β) : Prop :=
  match x, y with
  | .error a, .error b => a = b
  | .ok a, .ok b => V a b
  | _, _ => False

theorem tw_lift {α β : Type} {V : α → β → Prop} {x : Except PyErr α} {y : Except PyErr β} (h : Both V x y) :
    Pair2 (σ := σ) (F := F) (G := G) V (liftE x) (liftE y) := by
  intro s s' hs
  cases x with
  | error a => cases y with
    | error b => exact h
    | ok b => exact h.elim
  | ok a => cases y with
    | error b => exact h.elim
    | ok b => exact ⟨h, hs⟩

theorem tw_num : Pair2 (σ := σ) (F := F) (G := G) Eq numElements numElements := fun _ _ h => ⟨h.recs.length, h⟩

theorem tw_last {γ δ : Type} {W : γ → δ → Prop} {k : Option (Record F) → M σ F γ} {k' : Option (Record G) → M σ G δ} (h0 : Pair2 W (k none) (k' none))
    (h1 : ∀ r s, SameWords r s → Pair2 W (k (some r)) (k' (some s))) : Pair2 W (lastElement >>= k) (lastElement >>= k') := by
  intro s s' h
  show Outcomes W (lastElement s >>= fun p => k p.1 p.2) (lastElement s' >>= fun p => k' p.1 p.2)
  unfold lastElement
  rw [getLastElement_ok, getLastElement_ok]
  have := h.recs
  cases hr : s.ers.recs with
  | nil =>
    rw [hr] at this
    generalize hq : s'.ers.recs = q at this
    cases this
    exact h0 s s' h
  | cons r l =>
    rw [hr] at this
    generalize hq : s'.ers.recs = q at this
    cases this with
    | cons hh _ => exact h1 _ _ hh s s' h

theorem tw_get : Pair2 (σ := σ) (F := F) (G := G) SameWords getLast getLast := by
  intro s s' h
  unfold getLast
  have := h.recs
  cases hr : s.ers.recs with
  | nil =>
    rw [hr] at this
    generalize s'.ers.recs = q at this
    cases this
    rfl
  | cons r l =>
    rw [hr] at this
    generalize s'.ers.recs = q at this
    cases this with
    | cons hh _ => exact ⟨hh, h⟩

theorem tw_modLast {f : Record F → Record F} {g : Record G → Record G} (hf : ∀ r s, SameWords r s → SameWords (f r) (g s)) :
    Pairs2 (σ := σ) (modLast f) (modLast g) := by
  intro s s' h
  unfold modLast
  have := h.recs
  cases hr : s.ers.recs with
  | nil =>
    rw [hr] at this
    generalize s'.ers.recs = q at this
    cases this
    rfl
  | cons r l =>
    rw [hr] at this
    generalize s'.ers.recs = q at this
    cases this with
    | cons hh ht => exact ⟨trivial, h.toks, .cons (hf _ _ hh) ht, h.errs, h.derived⟩

theorem tw_modPrev {f : Record F → Record F} {g : Record G → Record G} (hf : ∀ r s, SameWords r s → SameWords (f r) (g s)) :
    Pairs2 (σ := σ) (modPrev f) (modPrev g) := by
  intro s s' h
  unfold modPrev
  have := h.recs
  generalize s.ers.recs = p at this
  generalize s'.ers.recs = q at this
  cases this with
  | nil => rfl
  | cons hh ht =>
    cases ht with
    | nil => rfl
    | cons hh2 ht => exact ⟨trivial, h.toks, .cons hh (.cons (hf _ _ hh2) ht), h.errs, h.derived⟩

theorem tw_whenM (c : Bool) {m : M σ F Unit} {m' : M σ G Unit} (h : Pairs2 m m') : Pairs2 (whenM c m) (whenM c m') := by
  cases c
  · exact tw_pure
  · exact h

theorem tw_ite {c : Prop} [Decidable c] {a b : M σ F Unit} {a' b' : M σ G Unit} (h1 : Pairs2 a a') (h2 : Pairs2 b b') :
    Pairs2 (if c then a else b) (if c then a' else b') := by
  split
  · exact h1
  · exact h2

theorem new_same (n : Str) (i j : Nat) (b : BaseType) (c : SubType) : SameWords (Record.new n i j b c : Record F) (Record.new n i j b c : Record G) :=
  ⟨rfl, rfl, rfl, rfl, rfl, rfl, rfl, rfl, rfl, rfl, rfl, rfl, rfl⟩

theorem append_same {r : Record F} {s : Record G} (h : SameWords r s) (m : Str) : SameWords (r.appendErrorText m) (s.appendErrorText m) := by
  unfold Record.appendErrorText
  rw [h.errorText]
  split <;> exact ⟨h.name, h.start, h.stop, h.base, h.sub, h.altitude, h.speed, h.cruiseTo, h.rules, h.breakText, h.stayTime, rfl, h.latLongValid⟩

theorem carry_same {p r : Record F} {q s : Record G} (h : SameWords p q) (k : SameWords r s) : SameWords (carry p r) (carry q s) :=
  ⟨k.name, k.start, k.stop, k.base, k.sub, h.altitude, h.speed, k.cruiseTo, h.rules, k.breakText, k.stayTime, k.errorText, k.latLongValid⟩

theorem tw_addError (t : Token) (k : Nat) : Pairs2 (σ := σ) (F := F) (G := G) (addErrorNoReSync t k) (addErrorNoReSync t k) := by
  intro s s' h
  unfold addErrorNoReSync
  cases errorMessage k with
  | none => rfl
  | some m => exact ⟨trivial, h.toks, h.recs, .cons (append_same (new_same ..) _) h.errs, h.derived⟩

theorem tw_addRecord (t : Token) : Pairs2 (σ := σ) (F := F) (G := G) (addRecord t) (addRecord t) := by
  intro s s' h
  unfold addRecord
  have := h.recs
  generalize s.ers.recs = p at this
  generalize s'.ers.recs = q at this
  cases this with
  | nil => rfl
  | cons hh ht => exact ⟨trivial, h.toks, .cons (carry_same hh (new_same ..)) (.cons hh ht), h.errs, h.derived⟩

theorem azimuth_same {p q : Record F} {r s : Record G} (h : SameWords p r) : SameWords (setAzimuthAndDistance p q) (setAzimuthAndDistance r s) :=
  ⟨h.name, h.start, h.stop, h.base, h.sub, h.altitude, h.speed, h.cruiseTo, h.rules, h.breakText, h.stayTime, h.errorText, h.latLongValid⟩

theorem azimuthList_same {l : List (Record F)} {l' : List (Record G)} (h : All2 SameWords l l') : All2 SameWords (azimuthList l) (azimuthList l') := by
  cases h with
  | nil => exact .nil
  | cons h1 h =>
    cases h with
    | nil => exact .cons h1 .nil
    | cons h2 h =>
      unfold azimuthList
      dsimp only
      rw [h1.latLongValid, h2.latLongValid]
      split
      · split
        · exact .cons h1 (.cons (azimuth_same h2) h)
        · cases h with
          | nil => exact .cons h1 (.cons h2 .nil)
          | cons h3 h =>
            dsimp only
            rw [h3.latLongValid]
            split
            · exact .cons h1 (.cons h2 (.cons (azimuth_same h3) h))
            · exact .cons h1 (.cons h2 (.cons h3 h))
      · exact .cons h1 (.cons h2 h)

theorem tw_azimuth : Pairs2 (σ := σ) (F := F) (G := G) assignAzimuth assignAzimuth :=
  fun _ _ h => ⟨trivial, h.toks, azimuthList_same h.recs, h.errs, h.derived⟩

theorem brk_same {r : Record F} {s : Record G} (h : SameWords r s) (m : Str) : SameWords (r.appendBreakText m) (s.appendBreakText m) := by
  unfold Record.appendBreakText
  rw [h.breakText]
  first
    | (split <;> exact ⟨h.name, h.start, h.stop, h.base, h.sub, h.altitude, h.speed, h.cruiseTo, h.rules, rfl, h.stayTime, h.errorText, h.latLongValid⟩)
    | exact ⟨h.name, h.start, h.stop, h.base, h.sub, h.altitude, h.speed, h.cruiseTo, h.rules, rfl, h.stayTime, h.errorText, h.latLongValid⟩

/-- Closes `SameWords (f r) (g s)` when `f` and `g` set fields to the same words or to any numbers. -/
macro "sw" : tactic => `(tactic| (
  intro r s h
  (try split) <;>
  exact ⟨by first | exact h.name | rfl, by first | exact h.start | rfl, by first | exact h.stop | rfl, by first | exact h.base | rfl,
    by first | exact h.sub | rfl, by first | exact h.altitude | rfl | assumption, by first | exact h.speed | rfl | assumption, by first | exact h.cruiseTo | rfl,
    by first | exact h.rules | rfl | assumption, by first | exact h.breakText | rfl, by first | exact h.stayTime | rfl, by first | exact h.errorText | rfl,
    by first | exact h.latLongValid | rfl⟩))

theorem both_bind {α β γ δ : Type} {V : α → β → Prop} {W : γ → δ → Prop} {x : Except PyErr α} {y : Except PyErr β} {k : α → Except PyErr γ}
    {k' : β → Except PyErr δ} (h : Both V x y) (hk : ∀ a b, V a b → Both W (k a) (k' b)) : Both W (x >>= k) (y >>= k') := by
  cases x with
  | error a => cases y with
    | error b => exact h
    | ok b => exact h.elim
  | ok a => cases y with
    | error b => exact h.elim
    | ok b => exact hk a b h

theorem both_float (s : Str) : Both (fun _ _ => True) (pyFloat s : Except PyErr F) (pyFloat s : Except PyErr G) := by
  unfold pyFloat
  cases pyInt s with
  | error e => rfl
  | ok n => trivial

theorem both_latitude (s : Str) : Both (fun _ _ => True) (latitudeOf s : Except PyErr F) (latitudeOf s : Except PyErr G) := by
  unfold latitudeOf
  dsimp only
  split
  · exact both_bind (both_float _) fun _ _ _ => trivial
  · exact both_bind (both_float _) fun _ _ _ => both_bind (both_float _) fun _ _ _ => trivial

theorem both_longitude (s : Str) : Both (fun _ _ => True) (longitudeOf s : Except PyErr F) (longitudeOf s : Except PyErr G) := by
  unfold longitudeOf
  dsimp only
  split
  · exact both_bind (both_float _) fun _ _ _ => trivial
  · exact both_bind (both_float _) fun _ _ _ => both_bind (both_float _) fun _ _ _ => trivial

theorem tw_assignAltitude (t : Token) (a : Str) (c : Bool) : Pairs2 (σ := σ) (F := F) (G := G) (assignAltitude t a c) (assignAltitude t a c) :=
  tw_seq (tw_modLast (by sw)) <| tw_bindE (tw_liftE _) fun _ => tw_seq (tw_whenM _ (tw_addError _ _)) <| tw_modLast (by sw)

theorem tw_assignSpeed (a : Str) : Pairs2 (σ := σ) (F := F) (G := G) (assignSpeed a) (assignSpeed a) :=
  tw_seq (tw_modLast (by sw)) <| tw_bind tw_get fun _ _ _ => tw_bindE (tw_liftE _) fun _ => tw_modLast (by sw)

theorem tw_assignLatitude (a : Str) : Pairs2 (σ := σ) (F := F) (G := G) (assignLatitude a) (assignLatitude a) :=
  tw_bind (tw_lift (both_latitude a)) fun _ _ _ => tw_modLast (by sw)
theorem tw_assignLongitude (a : Str) : Pairs2 (σ := σ) (F := F) (G := G) (assignLongitude a) (assignLongitude a) :=
  tw_bind (tw_lift (both_longitude a)) fun _ _ _ => tw_modLast (by sw)

theorem tw_assignLlDeg (t : Token) (a : Str) : Pairs2 (σ := σ) (F := F) (G := G) (assignLlDeg t a) (assignLlDeg t a) :=
  tw_seq (tw_assignLatitude _) <| tw_seq (tw_assignLongitude _) <| tw_bindE (tw_liftE _) fun _ =>
    tw_seq (tw_whenM _ (tw_addError _ _)) <| tw_bindE (tw_liftE _) fun _ => tw_seq (tw_whenM _ (tw_addError _ _)) <|
    tw_seq (tw_modLast (by sw)) tw_azimuth

theorem tw_assignLlDegMin (t : Token) (a : Str) : Pairs2 (σ := σ) (F := F) (G := G) (assignLlDegMin t a) (assignLlDegMin t a) :=
  tw_seq (tw_assignLatitude _) <| tw_seq (tw_assignLongitude _) <| tw_bindE (tw_liftE _) fun _ =>
    tw_seq (tw_whenM _ (tw_addError _ _)) <| tw_bindE (tw_liftE _) fun _ => tw_seq (tw_whenM _ (tw_addError _ _)) <|
    tw_seq (tw_modLast (by sw)) tw_azimuth

theorem tw_assignBearingDistance (t : Token) (a : Str) : Pairs2 (σ := σ) (F := F) (G := G) (assignBearingDistance t a) (assignBearingDistance t a) :=
  tw_bindE (tw_liftE _) fun _ => tw_seq (tw_whenM _ (tw_addError _ _)) <|
    tw_bind (tw_lift (both_float _)) fun _ _ _ => tw_bind (tw_lift (both_float _)) fun _ _ _ => tw_seq (tw_modLast (by sw)) tw_azimuth

theorem tw_assignLatLong (t : Token) : Pairs2 (σ := σ) (F := F) (G := G) (assignLatLongBearingDistance t) (assignLatLongBearingDistance t) := by
  unfold assignLatLongBearingDistance
  generalize t.sub = x
  cases x <;> dsimp only <;> first
    | with_reducible exact tw_pure
    | with_reducible exact tw_bindE (tw_liftE _) fun _ => tw_whenM _ (tw_addError _ _)
    | with_reducible exact tw_assignLlDeg _ _
    | with_reducible exact tw_assignLlDegMin _ _
    | with_reducible exact tw_seq (tw_assignLlDeg _ _) (tw_assignBearingDistance _ _)
    | with_reducible exact tw_seq (tw_assignLlDegMin _ _) (tw_assignBearingDistance _ _)

theorem tw_checkPosition (t : Token) : Pairs2 (σ := σ) (F := F) (G := G) (checkPosition t) (checkPosition t) := tw_whenM _ (tw_assignLatLong t)
theorem tw_levelSpeed (t : Token) (a b : Str) : Pairs2 (σ := σ) (F := F) (G := G) (levelSpeed t a b) (levelSpeed t a b) :=
  tw_seq (tw_assignAltitude _ _ _) (tw_assignSpeed _)
theorem tw_levelLevelSpeed (t : Token) (a b c : Str) : Pairs2 (σ := σ) (F := F) (G := G) (levelLevelSpeed t a b c) (levelLevelSpeed t a b c) :=
  tw_seq (tw_assignAltitude _ _ _) <| tw_seq (tw_assignAltitude _ _ _) (tw_assignSpeed _)
theorem tw_levelPlusSpeed (t : Token) (a b c : Str) : Pairs2 (σ := σ) (F := F) (G := G) (levelPlusSpeed t a b c) (levelPlusSpeed t a b c) :=
  tw_seq (tw_assignAltitude _ _ _) <| tw_seq (tw_modLast (by sw)) (tw_assignSpeed _)
theorem tw_vfrSpeedRules (t : Token) : Pairs2 (σ := σ) (F := F) (G := G) (vfrSpeedRules t) (vfrSpeedRules t) := by
  unfold vfrSpeedRules
  generalize t.sub = x
  cases x <;> dsimp only <;> first
    | (with_reducible refine tw_seq (tw_assignSpeed _) <| tw_bindE (tw_liftE _) fun _ => tw_modLast ?_); sw
    | (with_reducible refine tw_seq (tw_assignAltitude _ _ _) <| tw_modLast ?_); sw
theorem tw_markSid (a : Str) : Pairs2 (σ := σ) (F := F) (G := G) (markSid a) (markSid a) := tw_modLast (by sw)
theorem tw_markStar (a : Str) : Pairs2 (σ := σ) (F := F) (G := G) (markStar a) (markStar a) := tw_modLast (by sw)

theorem both_stay {r : Record F} {s : Record G} (h : SameWords r s) (a : Str) : Both SameWords (r.setStayTime a) (s.setStayTime a) := by
  unfold Record.setStayTime
  cases pyInt (slice a 0 2) with
  | error x => rfl
  | ok n =>
    cases pyInt (sliceFrom a 2) with
    | error x => rfl
    | ok m => exact ⟨h.name, h.start, h.stop, h.base, h.sub, h.altitude, h.speed, h.cruiseTo, h.rules, h.breakText, rfl, h.errorText, h.latLongValid⟩

theorem tw_saveStayTime (a : Str) : Pairs2 (σ := σ) (F := F) (G := G) (saveStayTime a) (saveStayTime a) :=
  tw_bind tw_get fun _ _ h => tw_bind (tw_lift (both_stay h a)) fun _ _ k => tw_modLast fun _ _ _ => k

/-- Solves goals `Pairs2 m m'` for two copies of the program text. -/
macro "twc" h:ident : tactic => `(tactic| (
  repeat (first
  | with_reducible exact tw_pure | with_reducible exact tw_throw _ | with_reducible exact tw_addError _ _
  | with_reducible exact tw_addRecord _ | with_reducible exact tw_checkPosition _ | with_reducible exact tw_levelSpeed _ _ _
  | with_reducible exact tw_levelLevelSpeed _ _ _ _ | with_reducible exact tw_levelPlusSpeed _ _ _ _
  | with_reducible exact tw_vfrSpeedRules _ | with_reducible exact tw_saveStayTime _ | with_reducible exact tw_markSid _
  | with_reducible exact tw_markStar _ | with_reducible exact tw_assignAltitude _ _ _ | with_reducible exact tw_assignLatLong _
  | with_reducible exact $h _
  | ((with_reducible refine tw_modLast ?_); first | sw | exact fun _ _ h => brk_same h _)
  | with_reducible refine tw_whenM _ ?_
  | with_reducible refine tw_ite ?_ ?_
  | ((with_reducible refine tw_bindE tw_next (fun a => ?_)); rcases a with _ | ⟨x, i, j, b, c⟩ <;> (try dsimp only) <;> (try (cases b <;> dsimp only)))
  | ((with_reducible refine tw_bindE (tw_peek _) (fun a => ?_)); rcases a with _ | ⟨x, i, j, b, c⟩ <;> (try dsimp only) <;> (try (cases b <;> dsimp only)))
  | ((with_reducible refine tw_bind tw_get (fun v w k => ?_)); obtain ⟨k1, k2, k3, k4, k5, k6, k7, k8, k9, k10, k11, k12, k13⟩ := k;
      (try rw [k5]); (try rw [k9]))
  | ((with_reducible refine tw_modPrev ?_); sw)
  | with_reducible refine tw_bindE tw_num (fun _ => ?_)
  | with_reducible refine tw_bindE (tw_liftE _) (fun _ => ?_)
  | with_reducible refine tw_last ?_ (fun _ _ h => ?_) <;> (try dsimp only)
  | with_reducible refine tw_seq ?_ ?_)))

set_option maxHeartbeats 4000000 in
theorem tw_step {call : Call → M σ F Unit} {call' : Call → M σ G Unit} (h : ∀ c, Pairs2 (call c) (call' c)) (c : Call) :
    Pairs2 (step call c) (step call' c) := by
  cases c with
  | addErrorAndReSync t n => simp only [step]; unfold addErrorAndReSync; twc h
  | assignSpeedAltitude t => simp only [step]; unfold assignSpeedAltitude; twc h; cases t.sub <;> dsimp only <;> twc h
  | assignSpeedAltitudeAltitude t => simp only [step]; unfold assignSpeedAltitudeAltitude rulesThenPostPoint; twc h; cases t.sub <;> dsimp only <;> twc h
  | assignSpeedAltitudePlus t => simp only [step]; unfold assignSpeedAltitudePlus rulesThenPostPoint; twc h; cases t.sub <;> dsimp only <;> twc h
  | assignSpeedVfr t => simp only [step]; unfold assignSpeedVfr; twc h
  | breakEnd t => simp only [step]; unfold breakEnd breakEndTail; twc h
  | breakEndError t => simp only [step]; unfold breakEndError; twc h
  | breakStart t => simp only [step]; unfold breakStart; twc h
  | breakTextSave t => simp only [step]; unfold breakTextSave; twc h
  | cruiseClimbC t => simp only [step]; unfold cruiseClimbC; twc h
  | cruiseClimbPoint t => simp only [step]; unfold cruiseClimbPoint; twc h
  | dct t => simp only [step]; unfold dct; twc h
  | forwardSlash t => simp only [step]; unfold forwardSlash; twc h
  | postAdep t => simp only [step]; unfold postAdep; cases t.base <;> dsimp only <;> twc h
  | postPoint t => simp only [step]; unfold postPoint; cases t.base <;> dsimp only <;> twc h
  | postSid => simp only [step]; unfold postSid; twc h
  | point t => simp only [step]; unfold point; twc h
  | reSync => simp only [step]; unfold reSync; twc h
  | route t => simp only [step]; unfold route; twc h
  | sid t => simp only [step]; unfold sid; twc h
  | sidStar t => simp only [step]; unfold sidStar; twc h
  | star t => simp only [step]; unfold star; twc h
  | stay t => simp only [step]; unfold stay; twc h
  | stayTime t => simp only [step]; unfold stayTime; twc h
  | truncate => simp only [step]; unfold truncate; twc h
  | vToI => simp only [step]; unfold vToI; twc h
  | vToIToV => simp only [step]; unfold vToIToV; twc h

theorem tw_exec (n : Nat) (c : Call) : Pairs2 (σ := σ) (F := F) (G := G) (exec n c) (exec n c) := by
  induction n generalizing c with
  | zero => exact fun _ _ _ => rfl
  | succ n ih => exact tw_step ih c

/-- The same words in two sequences. -/
structure SameErs (e : Ers F) (f : Ers G) : Prop where
  recs : All2 SameWords e.recs f.recs
  errs : All2 SameWords e.errs f.errs
  derived : e.derived = f.derived

theorem rules_same {r : Record F} {s : Record G} (h : SameWords r s) (x : Str) : SameWords (r.setRules x) (s.setRules x) :=
  ⟨h.name, h.start, h.stop, h.base, h.sub, h.altitude, h.speed, h.cruiseTo, rfl, h.breakText, h.stayTime, h.errorText, h.latLongValid⟩

theorem All2.flip {α β : Type} {R : α → β → Prop} {l : List α} {l' : List β} (h : All2 R l l') : All2 R l.reverse l'.reverse := by
  have app : ∀ {a : List α} {b : List β} {c d}, All2 R a b → All2 R c d → All2 R (a ++ c) (b ++ d) := by
    intro a b c d h k
    induction h with
    | nil => exact k
    | cons h _ ih => exact .cons h ih
  induction h with
  | nil => exact .nil
  | cons h _ ih => rw [List.reverse_cons, List.reverse_cons]; exact app ih (.cons h .nil)

theorem first_same {e : Ers F} {f : Ers G} (h : SameErs e f) (x : Str) : Both SameErs (setFirstRules e x) (setFirstRules f x) := by
  unfold setFirstRules Ers.elements
  have := h.recs.flip
  generalize e.recs.reverse = p at this
  generalize f.recs.reverse = q at this
  cases this with
  | nil => rfl
  | cons hh ht => exact ⟨(All2.cons (rules_same hh x) ht).flip, h.errs, h.derived⟩

theorem runL_same (n : Nat) {e : Ers F} {f : Ers G} (h : SameErs e f) (t : Token) (rest : List Token) : Both SameErs (runL n e t rest) (runL n f t rest) := by
  have key : ∀ (c : Call) (s : St (List Token) F) (s' : St (List Token) G), SameSt s s' → Outcomes (fun _ _ => True) (exec n c s) (exec n c s') :=
    fun c s s' hs => tw_exec n c s s' hs
  have st : SameSt (⟨e, rest⟩ : St (List Token) F) (⟨f, rest⟩ : St (List Token) G) := ⟨rfl, h.recs, h.errs, h.derived⟩
  have fin : ∀ (c : Call) (s : St (List Token) F) (s' : St (List Token) G), SameSt s s' →
      Both SameErs (match exec n c s with | .ok (_, s) => .ok s.ers | .error x => .error x)
        (match exec n c s' with | .ok (_, s) => .ok s.ers | .error x => .error x) := by
    intro c s s' hs
    have := key c s s' hs
    cases h1 : exec n c s <;> cases h2 : exec n c s' <;> rw [h1, h2] at this
    · exact this
    · exact this.elim
    · exact this.elim
    · exact ⟨this.2.recs, this.2.errs, this.2.derived⟩
  unfold runL
  cases hb : t.base
  case SPEED_VFR =>
    have := key (.assignSpeedVfr t) _ _ st
    dsimp only
    cases h1 : exec n (.assignSpeedVfr t) (⟨e, rest⟩ : St (List Token) F) <;>
      cases h2 : exec n (.assignSpeedVfr t) (⟨f, rest⟩ : St (List Token) G) <;> rw [h1, h2] at this
    · exact this
    · exact this.elim
    · exact this.elim
    · exact first_same ⟨this.2.recs, this.2.errs, this.2.derived⟩ _
  case SPEED_ALTITUDE =>
    have := key (.assignSpeedAltitude t) _ _ st
    dsimp only
    cases h1 : exec n (.assignSpeedAltitude t) (⟨e, rest⟩ : St (List Token) F) <;>
      cases h2 : exec n (.assignSpeedAltitude t) (⟨f, rest⟩ : St (List Token) G) <;> rw [h1, h2] at this
    · exact this
    · exact this.elim
    · exact this.elim
    · dsimp only
      split
      · exact fin _ _ _ this.2
      · exact ⟨this.2.recs, this.2.errs, this.2.derived⟩
  all_goals exact fin _ _ _ st

theorem rules_eq {l : List (Record F)} {l' : List (Record G)} (h : All2 SameWords l l') : l.map (·.rules) = l'.map (·.rules) := by
  induction h with
  | nil => rfl
  | cons h _ ih => rw [List.map_cons, List.map_cons, h.rules, ih]

theorem all2_nil {α β : Type} {R : α → β → Prop} {l : List α} {l' : List β} (h : All2 R l l') : (l = []) ↔ (l' = []) := by
  cases h <;> simp

theorem finish_same {e : Ers F} {f : Ers G} (h : SameErs e f) : Both (fun p q => p.1 = q.1 ∧ SameErs p.2 q.2) (finish e) (finish f) := by
  by_cases he : e.recs = []
  · have hf := (all2_nil h.recs).1 he
    obtain ⟨er, ee, ed⟩ := e
    obtain ⟨fr, fe, fd⟩ := f
    dsimp only at he hf
    subst he hf
    have hl : ee.length = fe.length := h.errs.length
    refine ⟨?_, .cons (new_same ..) .nil, h.errs, h.derived⟩
    show decide (ee.length = 0) = decide (fe.length = 0)
    rw [hl]
  · have hf : f.recs ≠ [] := fun k => he ((all2_nil h.recs).2 k)
    rw [finish_eq e he, finish_eq f hf]
    have hm := rules_eq h.recs
    have hh : ∀ {F : Type} (l : List (Record F)), (l.head?.map (·.rules)).getD [] = ((l.map (·.rules)).head?).getD [] := by
      intro F l; cases l <;> rfl
    have ho : ∀ {F : Type} [PyFloat F] (l : List (Record F)), oldestRules l = (l.map (·.rules)).getLast?.getD [] := by
      intro F _ l; unfold oldestRules; rw [List.getLast?_map]
    refine ⟨by simp [all2_nil h.errs], ?_, h.errs, ?_⟩
    · refine .cons ?_ h.recs
      rw [hh, hh, hm]
      exact rules_same (new_same ..) _
    · show deriveRules (oldestRules e.recs) _ = deriveRules (oldestRules f.recs) _
      rw [ho, ho, hm, List.map_reverse, List.map_reverse, List.map_cons, List.map_cons, hm, hh, hh, hm]
      rfl

theorem parseL_same (n : Nat) {e : Ers F} {f : Ers G} (h : SameErs e f) (ts : List Token) :
    Both (fun p q => p.1 = q.1 ∧ SameErs p.2 q.2) (parseL n e ts) (parseL n f ts) := by
  unfold parseL
  cases ts with
  | nil => exact ⟨rfl, .cons (new_same ..) h.recs, .cons (append_same (new_same ..) _) h.errs, h.derived⟩
  | cons t rest =>
    dsimp only
    have := runL_same n h t rest
    cases h1 : runL n e t rest <;> cases h2 : runL n f t rest <;> rw [h1, h2] at this
    · exact this
    · exact this.elim
    · exact this.elim
    · exact finish_same this

end F15
