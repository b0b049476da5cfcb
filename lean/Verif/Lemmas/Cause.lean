import Verif.Props.Positions
import Verif.Lemmas.Numbers
import Verif.Spec.Ranges
/-!
# The cause of every error, the errors of every element, and where speeds and levels come from
-/

namespace F15
open Spec

set_option linter.unusedSectionVars false
variable {F : Type} [PyFloat F] {T : List Token}

/-! ### Speed and level of the elements -/

/-- Speed and level of an element. -/
def quad (r : Record F) : Str × Int × Str × Int := (r.speed, r.speedSi, r.altitude, r.altitudeSi)

/-- Speed and level set together. -/
def quadOf (F : Type) [PyFloat F] (sp lv : Str) : Str × Int × Str × Int :=
  (sp, speedSi F sp (levelSi F lv), lv, levelSi F lv)

theorem azimuth_quad (l : List (Record F)) : (azimuthList l).map quad = l.map quad := by
  unfold azimuthList
  split
  · split
    · split
      · rfl
      · split
        · split <;> rfl
        · rfl
    · rfl
  · rfl

theorem mapHead_quad {f : Record F → Record F} (hf : ∀ r, quad (f r) = quad r) (l : List (Record F)) :
    (mapHead f l).map quad = l.map quad := by
  cases l with
  | nil => rfl
  | cons r l => simp [mapHead, hf]

theorem posRecs_quad (t : Token) (l : List (Record F)) : (posRecs t l).map quad = l.map quad := by
  have h1 : ∀ (a b : F) (r : Record F), quad (setPos a b r) = quad r := fun _ _ _ => rfl
  have h2 : ∀ (s : Str) (r : Record F), quad (project s r) = quad r := fun _ _ => rfl
  unfold posRecs
  split <;> simp only [azimuth_quad, mapHead_quad (h1 _ _), mapHead_quad (h2 _)]

theorem push_quad (t : Token) (p : Record F) (rs : List (Record F)) :
    (pushRec t (p :: rs)).map quad = quad p :: quad p :: rs.map quad := rfl

/-- The speeds and levels after an action that records an element. -/
theorem recs_quad (a : Act) (hr : a.records = true) (p : Record F) (rs : List (Record F)) :
    ∀ q ∈ (a.recs (p :: rs)).map quad, q ∈ (p :: rs).map quad ∨ ∃ t, a = .vfr t ∧ q = quadOf F (spOf t.text) (py! "F050") := by
  have base : ∀ q ∈ quad p :: quad p :: rs.map quad, q ∈ (p :: rs).map quad ∨
      ∃ t, a = .vfr t ∧ q = quadOf F (spOf t.text) (py! "F050") := by
    intro q hq
    left
    simp only [List.mem_cons, List.map_cons] at hq ⊢
    rcases hq with h | h | h
    · exact .inl h
    · exact .inl h
    · exact .inr h
  have i1 : ∀ r : Record F, quad (toIfr r) = quad r := fun _ => rfl
  cases a with
  | point t => simp only [Act.recs, posRecs_quad, mapHead_quad i1, push_quad]; exact base
  | vToI t => simp only [Act.recs, posRecs_quad, mapHead_quad i1, push_quad]; exact base
  | vToIToV t => simp only [Act.recs, mapHead_quad i1, push_quad]; exact base
  | route t => simp only [Act.recs, mapHead_quad i1, push_quad]; exact base
  | plain t => simp only [Act.recs, push_quad]; exact base
  | brk t =>
    have : ∀ r : Record F, quad (brkRules t.sub r) = quad r := by intro r; unfold brkRules; cases t.sub <;> rfl
    simp only [Act.recs, mapHead_quad this, push_quad]; exact base
  | sid t =>
    have : ∀ r : Record F, quad (asSid t.text r) = quad r := fun _ => rfl
    simp only [Act.recs, mapHead_quad this, push_quad]; exact base
  | star t =>
    have : ∀ r : Record F, quad (asStar t.text r) = quad r := fun _ => rfl
    simp only [Act.recs, mapHead_quad this, push_quad]; exact base
  | ccPoint t => simp only [Act.recs, posRecs_quad, push_quad]; exact base
  | vfr t =>
    intro q hq
    have hq : q ∈ quadOf F (spOf t.text) (py! "F050") :: quadOf F (spOf t.text) (py! "F050") :: rs.map quad := hq
    simp only [List.mem_cons] at hq
    rcases hq with h | h | h
    · exact .inr ⟨t, rfl, h⟩
    · exact .inr ⟨t, rfl, h⟩
    · exact .inl (by simp only [List.map_cons]; exact List.mem_cons_of_mem _ h)
  | _ => simp [Act.records] at hr

/-! ### The invariant -/

/-- Speed and level are unset, or they are a written speed and level with their conversions. -/
def QuadOk (F : Type) [PyFloat F] (q : Str × Int × Str × Int) : Prop :=
  q = ([], 0, [], 0) ∨ ∃ sp lv, Speed sp ∧ Level lv ∧ q = quadOf F sp lv

/-- A flight level that is not a multiple of five has been reported. -/
def GranOk (T : List Token) (errs : List (Record F)) (lv : Str) : Prop :=
  granErr lv ≠ [] → ∃ t ∈ T, lv <:+: t.text ∧ errRec t 40 ∈ errs

theorem GranOk.mono {l l' : List (Record F)} {lv : Str} (h : GranOk T l lv) (hs : ∀ x ∈ l, x ∈ l') : GranOk T l' lv := by
  intro hg
  obtain ⟨t, h1, h2, h3⟩ := h hg
  exact ⟨t, h1, h2, hs _ h3⟩

theorem GranOk.new {a : Act} {e : Ers F} {lv : Str} (ht : a.tok ∈ T) (hi : lv <:+: a.tok.text) (hn : ∀ n ∈ granErr lv, n ∈ a.nums) :
    GranOk T (a.run e).errs lv := by
  intro hg
  refine ⟨a.tok, ht, hi, ?_⟩
  rw [run_errs]
  refine List.mem_append_left _ (List.mem_reverse.2 (List.mem_map_of_mem (hn 40 ?_)))
  unfold granErr at hg ⊢
  split
  · simp
  · rename_i h; rw [if_neg h] at hg; exact absurd rfl hg

/-- What is known about an action that adds a message. -/
def Act.Why (a : Act) : Prop :=
  match a with
  | .err _ n => plainErr n
  | .level t => t.base = .SPEED_ALTITUDE
  | .levels t => t.base = .SPEED_ALTITUDE_ALTITUDE ∧ t.sub ∉ ccBad
  | .plus t => t.base = .SPEED_ALTITUDE_PLUS
  | _ => True

theorem Act.Ok.why {a : Act} {e : Ers F} {ts : List Token} (h : a.Ok T e ts) : a.Why := by
  cases a with
  | err | level | levels | plus => exact h
  | _ => trivial

/-- Causes of the errors, errors of the elements, conversions. -/
structure Cause (T : List Token) (e : Ers F) : Prop where
  recs : ∀ r ∈ e.recs, core r = core (adepRec F) ∨
    ∃ a : Act, a.records = true ∧ a.tok ∈ T ∧ a.Kind T ∧ core r = a.coreRec F ∧ ∀ n ∈ a.nums, errRec a.tok n ∈ e.errs
  errs : ∀ x ∈ e.errs, ∃ a : Act, a.tok ∈ T ∧ a.Why ∧ ∃ n ∈ a.nums, x = errRec a.tok n
  quads : ∀ q ∈ e.recs.map quad, QuadOk F q ∧ GranOk T e.errs q.2.2.1

theorem cause_errs {e : Ers F} (h : Cause T e) {a : Act} {ts : List Token} (ht : a.tok ∈ T) (ok : a.Ok T e ts) :
    ∀ x ∈ (a.run e).errs, ∃ a : Act, a.tok ∈ T ∧ a.Why ∧ ∃ n ∈ a.nums, x = errRec a.tok n := by
  intro x hx
  rw [run_errs] at hx
  rcases List.mem_append.1 hx with hx | hx
  · obtain ⟨n, hn, rfl⟩ := List.mem_map.1 (List.mem_reverse.1 hx)
    exact ⟨a, ht, ok.why, n, hn, rfl⟩
  · exact h.errs x hx

theorem level_f050 : Level (py! "F050") := by
  refine .inl ⟨'F', py! "050", by simp, rfl, rfl, ?_⟩
  intro c hc
  simp only [List.mem_cons, List.not_mem_nil, or_false] at hc
  rcases hc with rfl | rfl | rfl <;> exact ⟨by decide, by decide⟩

theorem Cause.ev (hT : ∀ t ∈ T, Typed t) {a b : Cfg F} (ev : Ev T a b) (hne : a.ers.recs ≠ []) (h : Cause T a.ers) :
    Cause T b.ers := by
  cases ev with
  | pop | drop => exact h
  | note x e ts hd hr ht ok =>
    have h : Cause T e := h
    have hne : e.recs ≠ [] := hne
    refine ⟨?_, cause_errs h ht ok, ?_⟩
    · show ∀ r ∈ x.recs e.recs, _
      cases hl : e.recs with
      | nil => exact absurd hl hne
      | cons p rs =>
        rw [note_shape x hr]
        have old : ∀ r ∈ p :: rs, core r = core (adepRec F) ∨ ∃ a : Act, a.records = true ∧ a.tok ∈ T ∧ a.Kind T ∧
            core r = a.coreRec F ∧ ∀ n ∈ a.nums, errRec a.tok n ∈ (x.run e).errs := by
          intro r hr'
          rw [← hl] at hr'
          refine (h.recs r hr').imp id ?_
          rintro ⟨a, h1, h2, h3, h4, h5⟩
          refine ⟨a, h1, h2, h3, h4, fun n hn => ?_⟩
          rw [run_errs]; exact List.mem_append_right _ (h5 n hn)
        intro r hr'
        rcases List.mem_cons.1 hr' with rfl | hr'
        · show core (x.tweak p) = _ ∨ ∃ a : Act, a.records = true ∧ a.tok ∈ T ∧ a.Kind T ∧ core (x.tweak p) = _ ∧ _
          rw [core_tweak (tweak_ok x p)]
          exact old p (by simp)
        · exact old r (by simp [hr'])
    · have more : ∀ y ∈ e.errs, y ∈ (x.run e).errs := fun y hy => by
        rw [run_errs]; exact List.mem_append_right _ hy
      show ∀ q ∈ (x.recs e.recs).map quad, QuadOk F q ∧ GranOk T (x.run e).errs q.2.2.1
      cases hl : e.recs with
      | nil => exact absurd hl hne
      | cons p rs =>
        rw [note_shape x hr]
        have hq := h.quads
        rw [hl] at hq
        intro q hq'
        simp only [List.map_cons] at hq'
        rcases List.mem_cons.1 hq' with rfl | hq'
        · have hp := hq (quad p) (by simp)
          cases x with
          | err | stay => exact ⟨hp.1, hp.2.mono more⟩
          | text t =>
            have : quad ((Act.text t).tweak p) = quad p := by
              show quad (p.appendBreakText t.text) = _
              unfold Record.appendBreakText; split <;> rfl
            rw [this]; exact ⟨hp.1, hp.2.mono more⟩
          | level t =>
            obtain ⟨h1, h2, h3⟩ := level_facts (hT t ht) ok
            exact ⟨.inr ⟨_, _, h1, h2, rfl⟩, GranOk.new ht ⟨_, [], by rw [List.append_nil]; exact h3.symm⟩ fun _ h => h⟩
          | levels t =>
            obtain ⟨h1, h2, _, _, h3⟩ := levels_facts (hT t ht) ok.1 ok.2
            exact ⟨.inr ⟨_, _, h1, h2, rfl⟩, GranOk.new ht ⟨_, _, by rw [List.append_assoc]; exact h3.symm⟩
              fun _ h => List.mem_append_left _ h⟩
          | plus t =>
            obtain ⟨h1, h2, _, h3⟩ := plus_facts (hT t ht) ok
            exact ⟨.inr ⟨_, _, h1, h2, rfl⟩, GranOk.new ht ⟨_, _, by rw [List.append_assoc]; exact h3.symm⟩ fun _ h => h⟩
          | _ => simp [Act.records] at hr
        · have := hq q (by simp only [List.map_cons]; exact List.mem_cons_of_mem _ hq')
          exact ⟨this.1, this.2.mono more⟩
  | rcd x e ts ha hb hr ht ok hk =>
    have h : Cause T e := h
    have hne : e.recs ≠ [] := hne
    refine ⟨?_, cause_errs h ht ok, ?_⟩
    · show ∀ r ∈ x.recs e.recs, _
      cases hl : e.recs with
      | nil => exact absurd hl hne
      | cons p rs =>
        obtain ⟨l', e1, k⟩ := push_shape (F := F) x hr p rs
        rw [e1]
        intro r hr'
        rcases List.mem_cons.1 hr' with rfl | hr'
        · refine .inr ⟨x, hr, ht, ok.kind, core_newRec x p, fun n hn => ?_⟩
          rw [run_errs]
          exact List.mem_append_left _ (List.mem_reverse.2 (List.mem_map_of_mem hn))
        · obtain ⟨r0, hr0, hk'⟩ := k.mem_right hr'
          rw [← hl] at hr0
          rw [core_keep hk']
          refine (h.recs r0 hr0).imp id ?_
          rintro ⟨a, h1, h2, h3, h4, h5⟩
          refine ⟨a, h1, h2, h3, h4, fun n hn => ?_⟩
          rw [run_errs]; exact List.mem_append_right _ (h5 n hn)
    · have more : ∀ y ∈ e.errs, y ∈ (x.run e).errs := fun y hy => by
        rw [run_errs]; exact List.mem_append_right _ hy
      show ∀ q ∈ (x.recs e.recs).map quad, QuadOk F q ∧ GranOk T (x.run e).errs q.2.2.1
      cases hl : e.recs with
      | nil => exact absurd hl hne
      | cons p rs =>
        intro q hq
        rcases recs_quad x hr p rs q hq with hq | ⟨t, rfl, rfl⟩
        · rw [← hl] at hq; exact ⟨(h.quads q hq).1, (h.quads q hq).2.mono more⟩
        · exact ⟨.inr ⟨_, _, (vfr_facts (hT t ht) ok).2.1, level_f050, rfl⟩, fun h => absurd (show granErr (py! "F050") = [] by decide) h⟩

theorem Cause.star (hT : ∀ t ∈ T, Typed t) {a b : Cfg F} (s : Star T a b) (hne : a.ers.recs ≠ []) (h : Cause T a.ers) :
    Cause T b.ers :=
  (Star.inv (P := fun c => c.ers.recs ≠ [] ∧ Cause T c.ers)
    (fun a b ev hi => ⟨by
      cases ev with
      | pop | drop => exact hi.1
      | note x e | rcd x e => exact x.run_ne e hi.1, Cause.ev hT ev hi.1 hi.2⟩) s ⟨hne, h⟩).2

/-- The facts about the elements and errors of a parse. -/
theorem parse_cause {frames : Nat} {tokens : Tokens} {b : Bool} {e' : Ers F}
    (h : parseF15 frames Ers.new tokens = .ok (b, e')) :
    (∀ r ∈ e'.elements, (core r = core (adepRec F) ∨ ∃ x, r = adesRec x) ∨
      ∃ a : Act, a.records = true ∧ a.tok ∈ typedTokens tokens ∧ a.Kind (typedTokens tokens) ∧ core r = a.coreRec F ∧
        ∀ n ∈ a.nums, errRec a.tok n ∈ e'.errors) ∧
    (typedTokens tokens ≠ [] → ∀ x ∈ e'.errors, ∃ a : Act, a.tok ∈ typedTokens tokens ∧ a.Why ∧ ∃ n ∈ a.nums, x = errRec a.tok n) ∧
    (∀ r ∈ e'.elements, QuadOk F (quad r) ∧ GranOk (typedTokens tokens) e'.errors r.altitude) := by
  rcases parse_cases new_ne h with ⟨hnil, _, rfl⟩ | ⟨t, rest, e1, htt, hrun, hne, _, rfl⟩
  · refine ⟨?_, fun h => absurd hnil h, ?_⟩
    · intro r hr
      have hr' : r ∈ [adepRec F, adesRec []] := hr
      have : r = adepRec F ∨ r = adesRec (F := F) [] := by simpa using hr'
      rcases this with rfl | rfl
      · exact .inl (.inl rfl)
      · exact .inl (.inr ⟨_, rfl⟩)
    · intro r hr
      have hr' : r ∈ [adepRec F, adesRec []] := hr
      have : r = adepRec F ∨ r = adesRec (F := F) [] := by simpa using hr'
      rcases this with rfl | rfl <;> exact ⟨.inl rfl, fun h => absurd (show granErr [] = [] by decide) h⟩
  · rw [htt]
    have hT : ∀ t' ∈ t :: rest, Typed t' := by rw [← htt]; exact fun _ h => typed_map h
    obtain ⟨ts1, hs⟩ := hrun.start (by simp)
    have c : Cause (t :: rest) e1 := Cause.star hT hs new_ne (by
      refine ⟨?_, by intro x hx; exact absurd (show x ∈ ([] : List (Record F)) from hx) (by simp), ?_⟩
      · intro r hr
        rw [new_recs] at hr
        rw [List.mem_singleton.1 hr]; exact .inl rfl
      · intro q hq
        rw [new_recs] at hq
        simp only [List.map_cons, List.map_nil, List.mem_singleton] at hq
        rw [hq]; exact ⟨.inl rfl, fun h => absurd (show granErr [] = [] by decide) h⟩)
    have herr : (finErs (post t e1)).errors = e1.errs.reverse := by
      unfold Ers.errors
      rw [show (finErs (post t e1)).errs = e1.errs by unfold finErs post; split <;> rfl]
    have hmem : ∀ r ∈ (post t e1).recs, ∃ r0 ∈ e1.recs, core r = core r0 ∧ quad r = quad r0 := by
      obtain ⟨l, o, h3⟩ := split_last _ hne
      rw [post_recs t e1 l o h3, h3]
      intro r hr
      rcases List.mem_append.1 hr with hr | hr
      · exact ⟨r, by simp [hr], rfl, rfl⟩
      · refine ⟨o, by simp, ?_⟩
        rw [List.mem_singleton.1 hr]; split <;> exact ⟨rfl, rfl⟩
    rw [herr]
    refine ⟨?_, fun _ x hx => c.errs x (List.mem_reverse.1 hx), ?_⟩
    · intro r hr
      rw [fin_elements] at hr
      rcases List.mem_append.1 hr with hr | hr
      · obtain ⟨r0, hr0, h1, _⟩ := hmem r (List.mem_reverse.1 hr)
        rcases c.recs r0 hr0 with h2 | ⟨a, h2, h3, h4, h5, h6⟩
        · exact .inl (.inl (h1.trans h2))
        · exact .inr ⟨a, h2, h3, h4, h1.trans h5, fun n hn => List.mem_reverse.2 (h6 n hn)⟩
      · exact .inl (.inr ⟨_, List.mem_singleton.1 hr⟩)
    · intro r hr
      rw [fin_elements] at hr
      rcases List.mem_append.1 hr with hr | hr
      · obtain ⟨r0, hr0, _, h1⟩ := hmem r (List.mem_reverse.1 hr)
        have h2 := c.quads _ (List.mem_map_of_mem hr0)
        rw [← h1] at h2
        exact ⟨h2.1, h2.2.mono fun x hx => List.mem_reverse.2 hx⟩
      · rw [List.mem_singleton.1 hr]; exact ⟨.inl rfl, fun h => absurd (show granErr [] = [] by decide) h⟩

end F15
