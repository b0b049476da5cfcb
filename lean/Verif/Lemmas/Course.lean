import Verif.Lemmas.History
import Verif.Spec.Position
/-!
# Bearing and distance of the elements
-/

namespace F15
open Spec

set_option linter.unusedSectionVars false
variable {F : Type} [PyFloat F]

/-- Same position data and same bearing/distance (all that matters here). -/
def PosEq (r r' : Record F) : Prop :=
  r'.latLongValid = r.latLongValid ∧ r'.latitude = r.latitude ∧ r'.longitude = r.longitude ∧
    r'.bearing = r.bearing ∧ r'.distance = r.distance

/-- Same position. -/
def LocEq (r r' : Record F) : Prop :=
  r'.latLongValid = r.latLongValid ∧ r'.latitude = r.latitude ∧ r'.longitude = r.longitude

theorem LocEq.refl (r : Record F) : LocEq r r := ⟨rfl, rfl, rfl⟩
theorem PosEq.loc {r r' : Record F} (h : PosEq r r') : LocEq r r' := ⟨h.1, h.2.1, h.2.2.1⟩
theorem az_loc (p x : Record F) : LocEq p (setAzimuthAndDistance p x) := ⟨rfl, rfl, rfl⟩

theorem PosEq.refl (r : Record F) : PosEq r r := ⟨rfl, rfl, rfl, rfl, rfl⟩

/-- Bearing and distance as they should be; `newer` are the elements after the list (oldest of them first). -/
def Good : List (Record F) → List (Record F) → Prop
  | _, [] => True
  | newer, r :: older => (r.bearing, r.distance) = courseOf r newer ∧ Good (r :: newer) older

theorem courseOf_congr {r r' : Record F} {n n' : List (Record F)} (h : LocEq r r') (hn : All2 LocEq (n.take 2) (n'.take 2)) :
    courseOf r n = courseOf r' n' := by
  obtain ⟨h1, h2, h3⟩ := h
  unfold courseOf course
  rw [h1, h2, h3]
  cases n with
  | nil =>
    cases n' with
    | nil => rfl
    | cons => simp at hn; cases hn
  | cons q n =>
    cases n' with
    | nil => simp at hn; cases hn
    | cons q' n' =>
      simp only [List.take_succ_cons] at hn
      cases hn with
      | cons hq hn =>
        obtain ⟨g1, g2, g3⟩ := hq
        dsimp only
        rw [g1, g2, g3]
        cases n with
        | nil =>
          cases n' with
          | nil => rfl
          | cons => simp at hn; cases hn
        | cons p n =>
          cases n' with
          | nil => simp at hn; cases hn
          | cons p' n' =>
            simp only [List.take_succ_cons, List.take_zero] at hn
            cases hn with
            | cons hp _ =>
              obtain ⟨k1, k2, k3⟩ := hp
              dsimp only
              rw [k1, k2, k3]

theorem All2.take {α β : Type} {R : α → β → Prop} {l : List α} {l' : List β} (h : All2 R l l') (k : Nat) :
    All2 R (l.take k) (l'.take k) := by
  induction h generalizing k with
  | nil => simp; exact .nil
  | cons hr _ ih =>
    cases k with
    | zero => simp; exact .nil
    | succ k => simp only [List.take_succ_cons]; exact .cons hr (ih k)

/-- `Good` depends on positions only, and only on the two next elements. -/
theorem Good.congr {l l' n n' : List (Record F)} (h : All2 PosEq l l') (hn : All2 LocEq (n.take 2) (n'.take 2)) (g : Good n l) :
    Good n' l' := by
  induction h generalizing n n' with
  | nil => trivial
  | cons hr _ ih =>
    refine ⟨?_, ih (n := _ :: n) ?_ g.2⟩
    · rw [← courseOf_congr hr.loc hn, ← g.1, hr.2.2.2.1, hr.2.2.2.2]
    · simp only [List.take_succ_cons]
      refine .cons hr.loc ?_
      have := All2.take hn 1
      simpa [List.take_take] using this

theorem all2_refl (l : List (Record F)) : All2 PosEq l l := All2.refl PosEq.refl l

/-- `Good` for the older elements does not depend on `newer` once two elements are in between. -/
theorem Good.swap {l n n' : List (Record F)} {a b : Record F} (g : Good (a :: b :: n) l) : Good (a :: b :: n') l :=
  Good.congr (n := a :: b :: n) (all2_refl l) (.cons (LocEq.refl a) (.cons (LocEq.refl b) .nil)) g

/-- An element without position contributes nothing. -/
theorem Good.push {r : Record F} {l : List (Record F)} (hv : r.latLongValid = false) (hb : (r.bearing, r.distance) = (fzero, fzero))
    (g : Good [] l) : Good [] (r :: l) := by
  refine ⟨by unfold courseOf; rw [hv]; exact hb, ?_⟩
  cases l with
  | nil => trivial
  | cons p l =>
    refine ⟨?_, ?_⟩
    · rw [g.1]; unfold courseOf; simp [hv]
    · cases l with
      | nil => trivial
      | cons q l =>
        refine ⟨?_, Good.swap g.2.2⟩
        rw [g.2.1]; unfold courseOf; simp [hv]

/-- What `azimuthList` needs: everything right except possibly the dependence on the newest element. -/
structure Almost (x : Record F) (l : List (Record F)) : Prop where
  hx : (x.bearing, x.distance) = (fzero, fzero)
  val : x.latLongValid = true
  g : Good [] l ∨ ∃ x', Good [x'] l

theorem azimuth_good {x : Record F} {l : List (Record F)} (h : Almost x l) : Good [] (azimuthList (x :: l)) := by
  obtain ⟨hx, hv, g⟩ := h
  have hx0 : (x.bearing, x.distance) = courseOf x [] := by rw [hx]; unfold courseOf; simp
  unfold azimuthList
  cases l with
  | nil => exact ⟨hx0, trivial⟩
  | cons p l =>
    dsimp only
    rw [if_pos hv]
    -- facts on p and q in both cases
    have hp0 : p.latLongValid = false → (p.bearing, p.distance) = (fzero, fzero) := by
      intro hp
      rcases g with g | ⟨x', g⟩
      · rw [g.1]; unfold courseOf; simp [hp]
      · rw [g.1]; unfold courseOf; simp [hp]
    have hq : ∀ q l', l = q :: l' → p.latLongValid = true → (q.bearing, q.distance) = courseOf q [p, x] := by
      intro q l' hl hp
      subst hl
      rcases g with g | ⟨x', g⟩
      · rw [g.2.1]; unfold courseOf; simp [hp]
      · rw [g.2.1]; unfold courseOf; simp [hp]
    have hq0 : ∀ q l', l = q :: l' → q.latLongValid = false → (q.bearing, q.distance) = (fzero, fzero) := by
      intro q l' hl hp
      subst hl
      rcases g with g | ⟨x', g⟩
      · rw [g.2.1]; unfold courseOf; simp [hp]
      · rw [g.2.1]; unfold courseOf; simp [hp]
    have hrest : ∀ q l', l = q :: l' → Good [q, p, x] l' := by
      intro q l' hl
      subst hl
      rcases g with g | ⟨x', g⟩
      · exact Good.swap g.2.2
      · exact Good.swap g.2.2
    split
    · rename_i hp
      refine ⟨hx0, ?_, ?_⟩
      · unfold courseOf
        simp only [setAzimuthAndDistance, hp, hv, if_true]
        rfl
      · cases l with
        | nil => trivial
        | cons q l =>
          refine ⟨?_, ?_⟩
          · rw [hq q l rfl hp]
            unfold courseOf
            simp only [setAzimuthAndDistance, hp, if_true]
            rfl
          · have := hrest q l rfl
            exact Good.congr (n := [q, p, x]) (all2_refl l) (.cons (LocEq.refl q) (.cons (az_loc p x) .nil)) this
    · rename_i hp
      have hp' : p.latLongValid = false := by simpa using hp
      cases l with
      | nil => exact ⟨hx0, by rw [hp0 hp']; unfold courseOf; simp [hp'], trivial⟩
      | cons q l =>
        dsimp only
        have hpp : (p.bearing, p.distance) = courseOf p [x] := by rw [hp0 hp']; unfold courseOf; simp [hp']
        split
        · rename_i hq1
          refine ⟨hx0, hpp, ?_, ?_⟩
          · unfold courseOf
            simp only [setAzimuthAndDistance, hp', hq1, hv, if_true]
            rfl
          · exact Good.congr (n := [q, p, x]) (all2_refl l) (.cons (az_loc q x) (.cons (LocEq.refl p) .nil)) (hrest q l rfl)
        · rename_i hq1
          have hq' : q.latLongValid = false := by simpa using hq1
          refine ⟨hx0, hpp, ?_, hrest q l rfl⟩
          rw [hq0 q l rfl hq']; unfold courseOf; simp [hq']

theorem Good.mapHead {f : Record F → Record F} (hf : ∀ r, PosEq r (f r)) {l : List (Record F)} (g : Good [] l) :
    Good [] (mapHead f l) := by
  cases l with
  | nil => trivial
  | cons r l => exact Good.congr (n := []) (l := r :: l) (l' := f r :: l) (.cons (hf r) (all2_refl l)) .nil g

theorem fresh_pos (p : Record F) (t : Token) : (fresh p t).latLongValid = false ∧ (fresh p t).bearing = fzero ∧
    (fresh p t).distance = fzero := ⟨rfl, rfl, rfl⟩

theorem Good.pos {t : Token} {x : Record F} {l : List (Record F)} (g : Good [] l) (hv : x.latLongValid = false)
    (hb : (x.bearing, x.distance) = (fzero, fzero)) : Good [] (posRecs t (x :: l)) := by
  have one : ∀ lat lon, Good [] (azimuthList (setPos lat lon x :: l)) := fun lat lon => azimuth_good ⟨hb, rfl, .inl g⟩
  have two : ∀ lat lon, Good [] (azimuthList (F15.mapHead (project t.text) (azimuthList (setPos lat lon x :: l)))) := by
    intro lat lon
    have h1 := one lat lon
    obtain ⟨l1, e1, _⟩ := azimuth_keep (setPos lat lon x) l
    rw [e1] at h1 ⊢
    exact azimuth_good ⟨hb, rfl, .inr ⟨_, h1.2⟩⟩
  unfold posRecs
  cases t.sub
  case LL_DEG | LL_MIN => exact one _ _
  case LLBD_DEG | LLBD_MIN => exact two _ _
  all_goals exact g.push hv hb

theorem good_act (a : Act) {l : List (Record F)} (hl : l ≠ []) (g : Good [] l) : Good [] (a.recs l) := by
  cases l with
  | nil => exact absurd rfl hl
  | cons p rs =>
    have gp : ∀ t, Good [] (pushRec t (p :: rs)) := fun t => g.push (r := fresh p t) rfl rfl
    cases a with
    | err t n => exact g
    | point t => exact Good.pos (x := toIfr (fresh p t)) g rfl rfl
    | vToI t => exact Good.mapHead (f := toIfr) (fun _ => ⟨rfl, rfl, rfl, rfl, rfl⟩) (Good.pos (x := fresh p t) g rfl rfl)
    | ccPoint t => exact Good.pos (x := fresh p t) g rfl rfl
    | vToIToV t | route t => exact Good.mapHead (f := toIfr) (fun _ => ⟨rfl, rfl, rfl, rfl, rfl⟩) (gp t)
    | sid t => exact Good.mapHead (f := asSid t.text) (fun _ => ⟨rfl, rfl, rfl, rfl, rfl⟩) (gp t)
    | star t => exact Good.mapHead (f := asStar t.text) (fun _ => ⟨rfl, rfl, rfl, rfl, rfl⟩) (gp t)
    | plain t => exact gp t
    | brk t =>
      refine Good.mapHead (f := brkRules t.sub) (fun r => ?_) (gp t)
      unfold brkRules
      cases t.sub <;> exact ⟨rfl, rfl, rfl, rfl, rfl⟩
    | vfr t =>
      have h := Good.mapHead (f := toVfr ∘ setSpeed (spOf t.text) ∘ setLevel (py! "F050"))
        (fun _ => ⟨rfl, rfl, rfl, rfl, rfl⟩) (gp { t with text := py! "VFR" })
      refine Good.congr (n := []) ?_ .nil h
      exact .cons (PosEq.refl _) (.cons ⟨rfl, rfl, rfl, rfl, rfl⟩ (all2_refl rs))
    | level t =>
      exact Good.mapHead (f := toIfr ∘ setSpeed (spOf t.text) ∘ setLevel (restOf t.text)) (fun _ => ⟨rfl, rfl, rfl, rfl, rfl⟩) g
    | levels t =>
      exact Good.mapHead (f := toIfr ∘ setSpeed (spOf t.text) ∘ setCruise (lv2Of t.text) ∘ setLevel (lv1Of t.text))
        (fun _ => ⟨rfl, rfl, rfl, rfl, rfl⟩) g
    | plus t =>
      exact Good.mapHead (f := toIfr ∘ setSpeed (spOf t.text) ∘ setPlus (py! "PLUS") ∘ setLevel (lv1Of t.text))
        (fun _ => ⟨rfl, rfl, rfl, rfl, rfl⟩) g
    | stay t => exact Good.mapHead (f := setStay t.text) (fun _ => ⟨rfl, rfl, rfl, rfl, rfl⟩) g
    | text t =>
      refine Good.mapHead (f := fun r => r.appendBreakText t.text) (fun r => ?_) g
      unfold Record.appendBreakText
      split <;> exact ⟨rfl, rfl, rfl, rfl, rfl⟩

theorem Star.good {T : List Token} {a b : Cfg F} (s : Star T a b) (hne : a.ers.recs ≠ []) (g : Good [] a.ers.recs) :
    Good [] b.ers.recs := by
  refine (Star.inv (P := fun c => c.ers.recs ≠ [] ∧ Good [] c.ers.recs) ?_ s ⟨hne, g⟩).2
  intro a b ev h
  cases ev with
  | pop | drop => exact h
  | note x e => exact ⟨x.run_ne e h.1, good_act x h.1 h.2⟩
  | rcd x e => exact ⟨x.run_ne e h.1, good_act x h.1 h.2⟩

/-- Reading `Good` at a position. -/
theorem Good.at {n a b : List (Record F)} {r : Record F} (g : Good n (a ++ r :: b)) :
    (r.bearing, r.distance) = courseOf r (a.reverse ++ n) := by
  induction a generalizing n with
  | nil => exact g.1
  | cons x a ih => simpa using ih g.2

end F15
