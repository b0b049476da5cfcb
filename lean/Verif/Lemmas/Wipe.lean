import Verif.Lemmas.Skip
/-!
# Speeds and levels decide nothing else
-/

namespace F15
open Spec

set_option linter.unusedSectionVars false
variable {F : Type} [PyFloat F]

/-- A record without its speed and level. -/
def wipe (r : Record F) : Record F := { r with altitude := [], altitudeSi := 0, speed := [], speedSi := 0 }

theorem wipe_mapHead {f : Record F → Record F} (hf : ∀ r, wipe (f r) = wipe (f (wipe r))) (l : List (Record F)) :
    (mapHead f l).map wipe = (mapHead f (l.map wipe)).map wipe := by
  cases l with
  | nil => rfl
  | cons a l =>
    show wipe (f a) :: l.map wipe = wipe (f (wipe a)) :: (l.map wipe).map wipe
    rw [hf, List.map_map]
    congr 1

theorem wipe_idem (l : List (Record F)) : (l.map wipe).map wipe = l.map wipe := by
  rw [List.map_map]; rfl

theorem wipe_push (t : Token) (l : List (Record F)) : (pushRec t l).map wipe = (pushRec t (l.map wipe)).map wipe := by
  cases l with
  | nil => rfl
  | cons a l =>
    show wipe _ :: wipe a :: l.map wipe = wipe _ :: wipe (wipe a) :: (l.map wipe).map wipe
    rw [wipe_idem]
    rfl

theorem wipe_azimuth (l : List (Record F)) : (azimuthList l).map wipe = (azimuthList (l.map wipe)).map wipe := by
  have v : ∀ r : Record F, (wipe r).latLongValid = r.latLongValid := fun _ => rfl
  have s : ∀ a b : Record F, wipe (setAzimuthAndDistance (wipe a) (wipe b)) = wipe (setAzimuthAndDistance a b) := fun _ _ => rfl
  have i : ∀ a : Record F, wipe (wipe a) = wipe a := fun _ => rfl
  match l with
  | [] => rfl
  | [a] => rfl
  | [a, b] =>
    by_cases ha : a.latLongValid = true <;> by_cases hb : b.latLongValid = true <;> simp [azimuthList, v, s, i, ha, hb]
  | a :: b :: c :: l =>
    by_cases ha : a.latLongValid = true <;> by_cases hb : b.latLongValid = true <;> by_cases hc : c.latLongValid = true <;>
      simp [azimuthList, v, s, i, ha, hb, hc]

/-- `g` does not look at speeds and levels except for speeds and levels. -/
def Unseeing (g : List (Record F) → List (Record F)) : Prop := ∀ l, (g l).map wipe = (g (l.map wipe)).map wipe

theorem Unseeing.congr {g : List (Record F) → List (Record F)} (h : Unseeing g) {l l' : List (Record F)} (hl : l.map wipe = l'.map wipe) :
    (g l).map wipe = (g l').map wipe := by rw [h l, h l', hl]

theorem Unseeing.comp {g h : List (Record F) → List (Record F)} (hg : Unseeing g) (hh : Unseeing h) : Unseeing fun l => h (g l) := by
  intro l
  exact hh.congr (hg l)

theorem unseeing_pos (t : Token) : Unseeing (F := F) (posRecs t) := by
  have hs : ∀ a b, Unseeing (F := F) (mapHead (setPos a b)) := fun a b => wipe_mapHead fun r => rfl
  have hp : ∀ s, Unseeing (F := F) (mapHead (project s)) := fun s => wipe_mapHead fun r => rfl
  have ha : Unseeing (F := F) azimuthList := wipe_azimuth
  unfold posRecs
  split
  · exact (hs _ _).comp ha
  · exact (hs _ _).comp ha
  · exact (((hs _ _).comp ha).comp (hp _)).comp ha
  · exact (((hs _ _).comp ha).comp (hp _)).comp ha
  · exact fun l => (wipe_idem l).symm

theorem unseeing_copyPrev : Unseeing (F := F) copyPrev := by
  intro l
  match l with
  | [] => rfl
  | [a] => rfl
  | a :: b :: l =>
    show wipe a :: wipe _ :: l.map wipe = wipe (wipe a) :: wipe _ :: (l.map wipe).map wipe
    rw [wipe_idem]; rfl

theorem unseeing_act (a : Act) : Unseeing (F := F) a.recs := by
  have pu : ∀ t, Unseeing (F := F) (pushRec t) := wipe_push
  have hi : Unseeing (F := F) (mapHead toIfr) := wipe_mapHead fun r => rfl
  cases a with
  | err t n => exact fun l => (wipe_idem l).symm
  | point t => exact ((pu t).comp hi).comp (unseeing_pos t)
  | vToI t => exact ((pu t).comp (unseeing_pos t)).comp hi
  | vToIToV t => exact (pu t).comp hi
  | route t => exact (pu t).comp hi
  | plain t => exact pu t
  | brk t => exact (pu t).comp (wipe_mapHead fun r => by unfold brkRules; split <;> rfl)
  | sid t => exact (pu t).comp (wipe_mapHead fun r => rfl)
  | star t => exact (pu t).comp (wipe_mapHead fun r => rfl)
  | ccPoint t => exact (pu t).comp (unseeing_pos t)
  | vfr t => exact ((pu _).comp (wipe_mapHead fun r => rfl)).comp unseeing_copyPrev
  | level t => exact wipe_mapHead fun r => rfl
  | levels t => exact wipe_mapHead fun r => rfl
  | plus t => exact wipe_mapHead fun r => rfl
  | text t =>
    refine wipe_mapHead fun r => ?_
    by_cases h : r.breakText = [] <;> simp [Record.appendBreakText, wipe, h]
  | stay t => exact wipe_mapHead fun r => rfl

theorem unseeing_all (as : List Act) : Unseeing (F := F) (recsAll as) := by
  induction as with
  | nil => exact fun l => (wipe_idem l).symm
  | cons a as ih => exact (unseeing_act a).comp ih

theorem makes_unseeing {a : Act} (h : a.Makes) :
    ∃ g : List (Record F) → List (Record F), Newest g ∧ Unseeing g ∧ ∀ l, a.recs l = g (pushRec a.tok l) := by
  have hi : Unseeing (F := F) (mapHead toIfr) := wipe_mapHead fun r => rfl
  cases h with
  | point t => exact ⟨_, (newest_mapHead toIfr).comp (newest_posRecs t), hi.comp (unseeing_pos t), fun l => rfl⟩
  | route t => exact ⟨_, newest_mapHead toIfr, hi, fun l => rfl⟩
  | plain t => exact ⟨_, newest_id, fun l => (wipe_idem l).symm, fun l => rfl⟩
  | brk t => exact ⟨_, newest_mapHead _, wipe_mapHead (f := brkRules t.sub) (fun r => by unfold brkRules; split <;> rfl), fun l => rfl⟩
  | star t => exact ⟨_, newest_mapHead _, wipe_mapHead (f := asStar t.text) (fun r => rfl), fun l => rfl⟩
  | ccPoint t => exact ⟨_, newest_posRecs t, unseeing_pos t, fun l => rfl⟩

/-- From records with the same rules the same is made but for speeds and levels. -/
theorem like_made {a : Act} (ha : a.Makes) (as : List Act) {y1 y2 : Record F} (hy : y1.rules = y2.rules) (Y1 Y2 : List (Record F)) :
    ∃ X1 X2 Y1' Y2', X1 ≠ [] ∧ X1.map wipe = X2.map wipe ∧ recsAll (a :: as) (y1 :: Y1) = X1 ++ Y1' ∧ recsAll (a :: as) (y2 :: Y2) = X2 ++ Y2' ∧
      Y1'.map courseless = (y1 :: Y1).map courseless ∧ Y2'.map courseless = (y2 :: Y2).map courseless ∧ (CarryEq y1 y2 → X1 = X2) := by
  obtain ⟨g, hg, hb, he⟩ := makes_unseeing (F := F) ha
  generalize hN : Record.new (F := F) a.tok.text a.tok.start a.tok.stop a.tok.base a.tok.sub = N
  have key : ∀ y Y, recsAll (a :: as) (y :: Y) = recsAll as (g ([F15.carry y N] ++ (y :: Y))) := by
    intro y Y
    subst hN
    show recsAll as (a.recs (y :: Y)) = _
    rw [he]; rfl
  have made : ∀ y Y, ∃ Y', recsAll (a :: as) (y :: Y) = recsAll as (g [F15.carry y N]) ++ Y' ∧ Y'.map courseless = (y :: Y).map courseless ∧
      recsAll as (g [F15.carry y N]) ≠ [] := by
    intro y Y
    obtain ⟨X, hX, hk⟩ := (hg.comp (newest_all as)) [F15.carry y N] (by simp)
    obtain ⟨Y0, e0, s0⟩ := hk []
    obtain ⟨Y', e, s⟩ := hk (y :: Y)
    obtain rfl : Y0 = [] := by simpa using s0
    have e0 : recsAll as (g [F15.carry y N]) = X := by simpa using e0
    exact ⟨Y', by rw [key, e0]; exact e, s, by rw [e0]; exact hX⟩
  obtain ⟨Y1', e1, s1, n1⟩ := made y1 Y1
  obtain ⟨Y2', e2, s2, -⟩ := made y2 Y2
  refine ⟨_, _, Y1', Y2', n1, ?_, e1, e2, s1, s2, fun h => by rw [h.carry]⟩
  refine (hb.comp (unseeing_all as)).congr ?_
  simp only [List.map_cons, List.map_nil, wipe, F15.carry, hy]

/-! ### The places of the elements -/

/-- Where an element stands. -/
def span (r : Record F) : Nat × Nat := (r.start, r.stop)

theorem span_mapHead {f : Record F → Record F} (hf : ∀ r, span (f r) = span r) (l : List (Record F)) : (mapHead f l).map span = l.map span := by
  cases l with
  | nil => rfl
  | cons a l => show span (f a) :: _ = span a :: _; rw [hf]

theorem courseless_spans {l l' : List (Record F)} (h : l.map courseless = l'.map courseless) : l.map span = l'.map span := by
  have : ∀ l : List (Record F), l.map span = (l.map courseless).map span := fun l => by rw [List.map_map]; rfl
  rw [this, h, ← this]

theorem span_pos (t : Token) (l : List (Record F)) : (posRecs t l).map span = l.map span := by
  cases l with
  | nil => unfold posRecs; split <;> rfl
  | cons a l =>
    obtain ⟨r, l', e, s, g, -⟩ := posRecs_head t a l
    rw [e]
    show span r :: _ = span a :: _
    rw [courseless_spans s]
    have : span r = span a := congrArg Prod.snd g
    rw [this]

theorem span_push (t : Token) (l : List (Record F)) : (pushRec t l).map span = l.map span ∨ (pushRec t l).map span = (t.start, t.stop) :: l.map span := by
  cases l with
  | nil => exact .inl rfl
  | cons a l => exact .inr rfl

theorem span_act (a : Act) (l : List (Record F)) : (a.recs l).map span = l.map span ∨ (a.recs l).map span = (a.tok.start, a.tok.stop) :: l.map span := by
  have hi : ∀ l : List (Record F), (mapHead toIfr l).map span = l.map span := span_mapHead fun r => rfl
  have stay : ∀ (f : Record F → Record F), (∀ r, span (f r) = span r) → (mapHead f l).map span = l.map span := fun f h => span_mapHead h l
  have ap : ∀ (t : Str) (r : Record F), span (r.appendBreakText t) = span r := fun t r => by unfold Record.appendBreakText; split <;> rfl
  cases a with
  | err t n => exact .inl rfl
  | point t => show (posRecs t (mapHead toIfr (pushRec t l))).map span = _ ∨ _ = _; rw [show Act.recs (.point t) l = posRecs t (mapHead toIfr (pushRec t l)) from rfl, span_pos, hi]; exact span_push t l
  | vToI t => rw [show Act.recs (.vToI t) l = mapHead toIfr (posRecs t (pushRec t l)) from rfl, hi, span_pos]; exact span_push t l
  | vToIToV t => rw [show Act.recs (.vToIToV t) l = mapHead toIfr (pushRec t l) from rfl, hi]; exact span_push t l
  | route t => rw [show Act.recs (.route t) l = mapHead toIfr (pushRec t l) from rfl, hi]; exact span_push t l
  | plain t => exact span_push t l
  | brk t =>
    rw [show Act.recs (.brk t) l = mapHead (brkRules t.sub) (pushRec t l) from rfl, span_mapHead fun r => by unfold brkRules; split <;> rfl]
    exact span_push t l
  | sid t => rw [show Act.recs (.sid t) l = mapHead (asSid t.text) (pushRec t l) from rfl, span_mapHead (f := asSid t.text) fun r => rfl]; exact span_push t l
  | star t => rw [show Act.recs (.star t) l = mapHead (asStar t.text) (pushRec t l) from rfl, span_mapHead (f := asStar t.text) fun r => rfl]; exact span_push t l
  | ccPoint t => rw [show Act.recs (.ccPoint t) l = posRecs t (pushRec t l) from rfl, span_pos]; exact span_push t l
  | vfr t =>
    cases l with
    | nil => exact .inl rfl
    | cons a l => exact .inr rfl
  | level t => exact .inl (stay _ fun r => rfl)
  | levels t => exact .inl (stay _ fun r => rfl)
  | plus t => exact .inl (stay _ fun r => rfl)
  | text t => exact .inl (stay _ fun r => ap _ r)
  | stay t => exact .inl (stay _ fun r => rfl)

/-- New elements stand where the words of the actions stand. -/
theorem span_all (as : List Act) (l : List (Record F)) :
    ∃ S, (recsAll as l).map span = S ++ l.map span ∧ ∀ s ∈ S, ∃ a ∈ as, s = (a.tok.start, a.tok.stop) := by
  induction as generalizing l with
  | nil => exact ⟨[], rfl, by simp⟩
  | cons a as ih =>
    obtain ⟨S, h1, h2⟩ := ih (a.recs l)
    have h1 : (recsAll (a :: as) l).map span = S ++ (a.recs l).map span := h1
    rcases span_act a l with h | h
    · exact ⟨S, by rw [h1, h], fun s hs => (h2 s hs).imp fun b hb => ⟨by simp [hb.1], hb.2⟩⟩
    · refine ⟨S ++ [(a.tok.start, a.tok.stop)], by rw [h1, h]; simp, fun s hs => ?_⟩
      rcases List.mem_append.1 hs with hs | hs
      · exact (h2 s hs).imp fun b hb => ⟨by simp [hb.1], hb.2⟩
      · exact ⟨a, by simp, by simpa using hs⟩

/-- The words of the actions are words of the text. -/
theorem run_toks {c : Prop} {q : Phase} {u : List Token} {as : List Act} {z : Option Phase} (h : RunToG c q u as z) : ∀ a ∈ as, a.tok ∈ u := by
  induction h with
  | here | truncate => intro a ha; cases ha
  | star => intro a ha; simp only [List.mem_singleton] at ha; subst ha; simp [Act.tok]
  | cruise hq hb hs hp hs' hl h ih =>
    intro a ha
    rcases List.mem_cons.1 ha with rfl | ha
    · simp [Act.tok]
    · rcases List.mem_cons.1 ha with rfl | ha
      · rcases hl with ⟨hb, -, rfl, -⟩ | ⟨hb, rfl, -⟩ <;> simp [Act.tok]
      · have := ih a ha; simp [this]
  | resume hc hi hb hp hn h ih | stay hq hb hs hm h ih | level hs hb hl h ih | vfr hs hb h ih | word hb hc h ih | resumeIfr hc hi hb hp hn hs hl hk h ih | resumeVfr hc hi hb hp hs hl h ih
  | sid hb h ih | dct hq hb h ih | route hq hb h ih | point hq hb hn h ih | climb hq hb h ih | break_ hq hb h ih =>
    intro a ha
    simp only [List.mem_cons] at ha ⊢
    grind [Act.tok]

end F15
