import Verif.Lemmas.Noise4
/-!
# Reading on without some elements
-/

namespace F15
open Spec

set_option linter.unusedSectionVars false
variable {F : Type} [PyFloat F]

/-- A record without its course. -/
def courseless (r : Record F) : Record F := { r with bearing := fzero, distance := fzero }

/-- `g` looks at the newest records only; of the others it changes nothing but courses. -/
def Newest (g : List (Record F) → List (Record F)) : Prop :=
  ∀ X, X ≠ [] → ∃ X', X' ≠ [] ∧ ∀ Y, ∃ Y', g (X ++ Y) = X' ++ Y' ∧ Y'.map courseless = Y.map courseless

theorem Newest.comp {g h : List (Record F) → List (Record F)} (hg : Newest g) (hh : Newest h) : Newest fun l => h (g l) := by
  intro X hX
  obtain ⟨X1, h1, k1⟩ := hg X hX
  obtain ⟨X2, h2, k2⟩ := hh X1 h1
  refine ⟨X2, h2, fun Y => ?_⟩
  obtain ⟨Y1, e1, s1⟩ := k1 Y
  obtain ⟨Y2, e2, s2⟩ := k2 Y1
  exact ⟨Y2, by dsimp only; rw [e1, e2], s2.trans s1⟩

theorem newest_id : Newest (F := F) fun l => l := fun X hX => ⟨X, hX, fun Y => ⟨Y, rfl, rfl⟩⟩

theorem newest_mapHead (f : Record F → Record F) : Newest (mapHead f) := by
  intro X hX
  cases X with
  | nil => exact absurd rfl hX
  | cons x X => exact ⟨f x :: X, by simp, fun Y => ⟨Y, rfl, rfl⟩⟩

theorem newest_pushRec (t : Token) : Newest (F := F) (pushRec t) := by
  intro X hX
  cases X with
  | nil => exact absurd rfl hX
  | cons x X => exact ⟨pushRec t (x :: X), by simp [pushRec], fun Y => ⟨Y, rfl, rfl⟩⟩

theorem courseless_set (a b : Record F) : courseless (setAzimuthAndDistance a b) = courseless a := by
  unfold setAzimuthAndDistance courseless
  rfl

theorem newest_azimuth : Newest (F := F) azimuthList := by
  intro X hX
  match X, hX with
  | [a], _ =>
    refine ⟨[a], by simp, fun Y => ?_⟩
    match Y with
    | [] => exact ⟨[], rfl, rfl⟩
    | [b] =>
      by_cases ha : a.latLongValid = true <;> by_cases hb : b.latLongValid = true
      · exact ⟨[setAzimuthAndDistance b a], by simp [azimuthList, ha, hb], by simp [courseless_set]⟩
      · exact ⟨[b], by simp [azimuthList, ha, hb], rfl⟩
      · exact ⟨[b], by simp [azimuthList, ha], rfl⟩
      · exact ⟨[b], by simp [azimuthList, ha], rfl⟩
    | b :: c :: Y =>
      by_cases ha : a.latLongValid = true
      · by_cases hb : b.latLongValid = true
        · exact ⟨setAzimuthAndDistance b a :: c :: Y, by simp [azimuthList, ha, hb], by simp [courseless_set]⟩
        · by_cases hc : c.latLongValid = true
          · exact ⟨b :: setAzimuthAndDistance c a :: Y, by simp [azimuthList, ha, hb, hc], by simp [courseless_set]⟩
          · exact ⟨b :: c :: Y, by simp [azimuthList, ha, hb, hc], rfl⟩
      · exact ⟨b :: c :: Y, by simp [azimuthList, ha], rfl⟩
  | [a, b], _ =>
    by_cases ha : a.latLongValid = true
    · by_cases hb : b.latLongValid = true
      · exact ⟨[a, setAzimuthAndDistance b a], by simp, fun Y => ⟨Y, by simp [azimuthList, ha, hb], rfl⟩⟩
      · refine ⟨[a, b], by simp, fun Y => ?_⟩
        match Y with
        | [] => exact ⟨[], by simp [azimuthList, ha, hb], rfl⟩
        | c :: Y =>
          by_cases hc : c.latLongValid = true
          · exact ⟨setAzimuthAndDistance c a :: Y, by simp [azimuthList, ha, hb, hc], by simp [courseless_set]⟩
          · exact ⟨c :: Y, by simp [azimuthList, ha, hb, hc], rfl⟩
    · exact ⟨[a, b], by simp, fun Y => ⟨Y, by simp [azimuthList, ha], rfl⟩⟩
  | a :: b :: c :: X, _ =>
    refine ⟨azimuthList (a :: b :: c :: X), azimuthList_ne _ (by simp), fun Y => ⟨Y, ?_, rfl⟩⟩
    by_cases ha : a.latLongValid = true <;> by_cases hb : b.latLongValid = true <;> by_cases hc : c.latLongValid = true <;>
      simp [azimuthList, ha, hb, hc]

theorem newest_posRecs (t : Token) : Newest (F := F) (posRecs t) := by
  unfold posRecs
  split
  · exact (newest_mapHead _).comp newest_azimuth
  · exact (newest_mapHead _).comp newest_azimuth
  · exact (((newest_mapHead _).comp newest_azimuth).comp (newest_mapHead _)).comp newest_azimuth
  · exact (((newest_mapHead _).comp newest_azimuth).comp (newest_mapHead _)).comp newest_azimuth
  · exact newest_id

theorem newest_vfr (t : Token) : Newest (F := F) (Act.recs (.vfr t)) := by
  intro X hX
  cases X with
  | nil => exact absurd rfl hX
  | cons x X => exact ⟨Act.recs (.vfr t) (x :: X), Act.recs_ne _ _ hX, fun Y => ⟨Y, rfl, rfl⟩⟩

theorem newest_act (a : Act) : Newest (F := F) a.recs := by
  cases a with
  | err t n => exact newest_id
  | point t => exact ((newest_pushRec t).comp (newest_mapHead _)).comp (newest_posRecs t)
  | vToI t => exact ((newest_pushRec t).comp (newest_posRecs t)).comp (newest_mapHead _)
  | vToIToV t | route t | brk t | sid t | star t => exact (newest_pushRec t).comp (newest_mapHead _)
  | plain t => exact newest_pushRec t
  | ccPoint t => exact (newest_pushRec t).comp (newest_posRecs t)
  | vfr t => exact newest_vfr t
  | level t | levels t | plus t | text t | stay t => exact newest_mapHead _

/-- The effect of actions on the records. -/
def recsAll (as : List Act) (l : List (Record F)) : List (Record F) := as.foldl (fun l a => a.recs l) l

theorem runs_recsAll (as : List Act) (e : Ers F) : (runs as e).recs = recsAll as e.recs := by
  induction as generalizing e with
  | nil => rfl
  | cons a as ih => rw [runs_cons, ih]; rfl

theorem newest_all (as : List Act) : Newest (F := F) (recsAll as) := by
  induction as with
  | nil => exact newest_id
  | cons a as ih => exact (newest_act a).comp ih

/-- Actions that make an element that looks only at the element before. -/
inductive Act.Makes : Act → Prop
  | point (t) : Act.Makes (.point t)
  | route (t) : Act.Makes (.route t)
  | plain (t) : Act.Makes (.plain t)
  | brk (t) : Act.Makes (.brk t)
  | star (t) : Act.Makes (.star t)
  | ccPoint (t) : Act.Makes (.ccPoint t)

theorem makes_push {a : Act} (h : a.Makes) : ∃ g : List (Record F) → List (Record F), Newest g ∧ ∀ l, a.recs l = g (pushRec a.tok l) := by
  cases h with
  | point t => exact ⟨_, (newest_mapHead toIfr).comp (newest_posRecs t), fun l => rfl⟩
  | route t => exact ⟨_, newest_mapHead toIfr, fun l => rfl⟩
  | plain t => exact ⟨_, newest_id, fun l => rfl⟩
  | brk t => exact ⟨_, newest_mapHead _, fun l => rfl⟩
  | star t => exact ⟨_, newest_mapHead _, fun l => rfl⟩
  | ccPoint t => exact ⟨_, newest_posRecs t, fun l => rfl⟩

/-- The two records hand on the same. -/
def CarryEq (r s : Record F) : Prop :=
  r.altitude = s.altitude ∧ r.altitudeSi = s.altitudeSi ∧ r.speed = s.speed ∧ r.speedSi = s.speedSi ∧ r.rules = s.rules

theorem CarryEq.carry {r s : Record F} (h : CarryEq r s) (x : Record F) : carry r x = carry s x := by
  obtain ⟨h1, h2, h3, h4, h5⟩ := h
  unfold F15.carry
  rw [h1, h2, h3, h4, h5]

/-- From records that hand on the same, the same is made. -/
theorem same_made {a : Act} (ha : a.Makes) (as : List Act) {y1 y2 : Record F} (hy : CarryEq y1 y2) (Y1 Y2 : List (Record F)) :
    ∃ X Y1' Y2', X ≠ [] ∧ recsAll (a :: as) (y1 :: Y1) = X ++ Y1' ∧ recsAll (a :: as) (y2 :: Y2) = X ++ Y2' ∧
      Y1'.map courseless = (y1 :: Y1).map courseless ∧ Y2'.map courseless = (y2 :: Y2).map courseless := by
  obtain ⟨g, hg, he⟩ := makes_push (F := F) ha
  obtain ⟨X, hX, hk⟩ := (hg.comp (newest_all as)) [F15.carry y1 (Record.new a.tok.text a.tok.start a.tok.stop a.tok.base a.tok.sub)] (by simp)
  have key : ∀ y Y, recsAll (a :: as) (y :: Y) =
      recsAll as (g ([F15.carry y (Record.new a.tok.text a.tok.start a.tok.stop a.tok.base a.tok.sub)] ++ (y :: Y))) := by
    intro y Y
    show recsAll as (a.recs (y :: Y)) = _
    rw [he]; rfl
  obtain ⟨Y1', e1, s1⟩ := hk (y1 :: Y1)
  obtain ⟨Y2', e2, s2⟩ := hk (y2 :: Y2)
  exact ⟨X, Y1', Y2', hX, (key _ _).trans e1, by rw [key, ← hy.carry]; exact e2, s1, s2⟩

/-- Actions of points and connectors without remarks. -/
inductive Act.Simple : Act → Prop
  | point (t) : Act.Simple (.point t)
  | route (t) : Act.Simple (.route t)
  | plain (t) : Act.Simple (.plain t)

/-- Name and place of an element. -/
def tag (r : Record F) : Str × Nat × Nat := (r.name, r.start, r.stop)
def tokTag (t : Token) : Str × Nat × Nat := (t.text, t.start, t.stop)

theorem courseless_tag {r s : Record F} (h : courseless r = courseless s) : tag r = tag s := by
  have h1 := congrArg Record.name h
  have h2 := congrArg Record.start h
  have h3 := congrArg Record.stop h
  simp only [courseless] at h1 h2 h3
  unfold tag; rw [h1, h2, h3]

theorem courseless_carry {r s : Record F} (h : courseless r = courseless s) : CarryEq r s := by
  have h1 := congrArg Record.altitude h
  have h2 := congrArg Record.altitudeSi h
  have h3 := congrArg Record.speed h
  have h4 := congrArg Record.speedSi h
  have h5 := congrArg Record.rules h
  exact ⟨h1, h2, h3, h4, h5⟩

/-- What `posRecs` does to the newest record. -/
theorem posRecs_head (t : Token) (r : Record F) (l : List (Record F)) :
    ∃ r' l', posRecs t (r :: l) = r' :: l' ∧ l'.map courseless = l.map courseless ∧ tag r' = tag r ∧ CarryEq r' r := by
  have az : ∀ (r : Record F) (l : List (Record F)), ∃ l', azimuthList (r :: l) = r :: l' ∧ l'.map courseless = l.map courseless := by
    intro r l
    match l with
    | [] => exact ⟨[], rfl, rfl⟩
    | [b] =>
      by_cases ha : r.latLongValid = true <;> by_cases hb : b.latLongValid = true
      · exact ⟨[setAzimuthAndDistance b r], by simp [azimuthList, ha, hb], by simp [courseless_set]⟩
      · exact ⟨[b], by simp [azimuthList, ha, hb], rfl⟩
      · exact ⟨[b], by simp [azimuthList, ha], rfl⟩
      · exact ⟨[b], by simp [azimuthList, ha], rfl⟩
    | b :: c :: Y =>
      by_cases ha : r.latLongValid = true
      · by_cases hb : b.latLongValid = true
        · exact ⟨setAzimuthAndDistance b r :: c :: Y, by simp [azimuthList, ha, hb], by simp [courseless_set]⟩
        · by_cases hc : c.latLongValid = true
          · exact ⟨b :: setAzimuthAndDistance c r :: Y, by simp [azimuthList, ha, hb, hc], by simp [courseless_set]⟩
          · exact ⟨b :: c :: Y, by simp [azimuthList, ha, hb, hc], rfl⟩
      · exact ⟨b :: c :: Y, by simp [azimuthList, ha], rfl⟩
  have hs : ∀ a b (r : Record F), tag (setPos a b r) = tag r ∧ CarryEq (setPos a b r) r := fun a b r => ⟨rfl, rfl, rfl, rfl, rfl, rfl⟩
  have hp : ∀ s (r : Record F), tag (project s r) = tag r ∧ CarryEq (project s r) r := by
    intro s r
    unfold project
    exact ⟨rfl, rfl, rfl, rfl, rfl, rfl⟩
  have two : ∀ {a b c : Record F}, (tag a = tag b ∧ CarryEq a b) → (tag b = tag c ∧ CarryEq b c) → tag a = tag c ∧ CarryEq a c := by
    rintro a b c ⟨h1, h2, h3, h4, h5, h6⟩ ⟨k1, k2, k3, k4, k5, k6⟩
    exact ⟨h1.trans k1, h2.trans k2, h3.trans k3, h4.trans k4, h5.trans k5, h6.trans k6⟩
  have one : ∀ a b, ∃ l', azimuthList (mapHead (setPos a b) (r :: l)) = setPos a b r :: l' ∧ l'.map courseless = l.map courseless := fun a b => az _ _
  have both : ∀ a b s, ∃ l', azimuthList (mapHead (project s) (azimuthList (mapHead (setPos a b) (r :: l)))) = project s (setPos a b r) :: l' ∧
      l'.map courseless = l.map courseless := by
    intro a b s
    obtain ⟨l1, e1, s1⟩ := one a b
    rw [e1]
    obtain ⟨l2, e2, s2⟩ := az (project s (setPos a b r)) l1
    exact ⟨l2, e2, s2.trans s1⟩
  unfold posRecs
  split
  · obtain ⟨l', h1, h2⟩ := one (latD t.text) (lonD t.text); exact ⟨_, l', h1, h2, hs _ _ _⟩
  · obtain ⟨l', h1, h2⟩ := one (latM t.text) (lonM t.text); exact ⟨_, l', h1, h2, hs _ _ _⟩
  · obtain ⟨l', h1, h2⟩ := both (latD t.text) (lonD t.text) t.text; exact ⟨_, l', h1, h2, two (hp _ _) (hs _ _ _)⟩
  · obtain ⟨l', h1, h2⟩ := both (latM t.text) (lonM t.text) t.text; exact ⟨_, l', h1, h2, two (hp _ _) (hs _ _ _)⟩
  · exact ⟨r, l, rfl, rfl, rfl, rfl, rfl, rfl, rfl, rfl⟩

theorem simple_one {a : Act} (ha : a.Simple) {h : Record F} (hr : h.rules = py! "IFR") (T : List (Record F)) :
    ∃ r T', a.recs (h :: T) = r :: T' ∧ T'.map courseless = (h :: T).map courseless ∧ tag r = tokTag a.tok ∧ CarryEq r h := by
  cases ha with
  | point t =>
    obtain ⟨r, l', e, s, h1, h2⟩ := posRecs_head t (toIfr (F15.carry h (Record.new t.text t.start t.stop t.base t.sub))) (h :: T)
    exact ⟨r, l', e, s, h1, h2.1, h2.2.1, h2.2.2.1, h2.2.2.2.1, h2.2.2.2.2.trans hr.symm⟩
  | route t => exact ⟨_, _, rfl, rfl, rfl, rfl, rfl, rfl, rfl, hr.symm⟩
  | plain t => exact ⟨_, _, rfl, rfl, rfl, rfl, rfl, rfl, rfl, rfl⟩

/-- Points and connectors without remarks: an element for each, which hand on what they were handed. -/
theorem simple_all (xs : List Act) (hx : ∀ a ∈ xs, a.Simple) {h : Record F} (hr : h.rules = py! "IFR") (T : List (Record F)) :
    ∃ N T', recsAll xs (h :: T) = N ++ T' ∧ T'.map courseless = (h :: T).map courseless ∧ N.reverse.map tag = xs.map (tokTag ·.tok) ∧
      (∀ r ∈ N, r.rules = py! "IFR") ∧ ∃ r R, N ++ T' = r :: R ∧ CarryEq r h := by
  induction xs generalizing h T with
  | nil => exact ⟨[], h :: T, rfl, rfl, rfl, by simp, h, T, rfl, rfl, rfl, rfl, rfl, rfl⟩
  | cons a xs ih =>
    obtain ⟨r, T1, e1, s1, g1, k1⟩ := simple_one (hx a (by simp)) hr T
    have hr1 : r.rules = py! "IFR" := k1.2.2.2.2.trans hr
    obtain ⟨N, T', e2, s2, g2, i2, r', R, e3, k2⟩ := ih (fun b hb => hx b (by simp [hb])) hr1 T1
    cases T' with
    | nil => cases s2
    | cons q T' =>
      simp only [List.map_cons, List.cons.injEq] at s2
      obtain ⟨sq, s2⟩ := s2
      refine ⟨N ++ [q], T', ?_, ?_, ?_, ?_, r', R, ?_, ?_⟩
      · show recsAll xs (a.recs (h :: T)) = _
        rw [e1, e2]; simp
      · rw [s2, s1]
      · simp only [List.reverse_append, List.reverse_cons, List.reverse_nil, List.nil_append, List.singleton_append, List.map_cons]
        rw [g2, courseless_tag sq, g1]
      · intro x hx'
        rcases List.mem_append.1 hx' with hx' | hx'
        · exact i2 x hx'
        · rw [List.mem_singleton] at hx'
          subst hx'
          rw [(courseless_carry sq).2.2.2.2]; exact hr1
      · rw [← e3]; simp
      · obtain ⟨p1, p2, p3, p4, p5⟩ := k1
        obtain ⟨q1, q2, q3, q4, q5⟩ := k2
        exact ⟨q1.trans p1, q2.trans p2, q3.trans p3, q4.trans p4, q5.trans p5⟩

end F15
