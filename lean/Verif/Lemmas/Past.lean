import Verif.Lemmas.History
/-!
# What later actions leave alone

An action changes at most the newest two elements: of the newest it keeps name, indices, types and position, of the
one before it everything but bearing and distance.
-/

namespace F15
open Spec

set_option linter.unusedSectionVars false
variable {F : Type} [PyFloat F]

/-- Only bearing and distance differ. -/
def Turned (r r' : Record F) : Prop := r' = { r with bearing := r'.bearing, distance := r'.distance }

theorem Turned.refl (r : Record F) : Turned r r := rfl
theorem Turned.trans {a b c : Record F} (h : Turned a b) (h' : Turned b c) : Turned a c := by
  unfold Turned at *; rw [h', h]
theorem Turned.core {a b : Record F} (h : Turned a b) : core b = core a := by unfold Turned at h; rw [h]; rfl

/-- At most the first differs, in bearing and distance only. -/
inductive Second : List (Record F) → List (Record F) → Prop
  | nil : Second [] []
  | cons {r r' l} : Turned r r' → Second (r :: l) (r' :: l)

/-- At most the first two differ. -/
inductive Near2 : List (Record F) → List (Record F) → Prop
  | mk {r r' l l'} : core r' = core r → Second l l' → Near2 (r :: l) (r' :: l')

theorem Second.refl : ∀ l : List (Record F), Second l l
  | [] => .nil
  | r :: _ => .cons (Turned.refl r)

theorem Second.trans {a b c : List (Record F)} (h : Second a b) (h' : Second b c) : Second a c := by
  cases h with
  | nil => exact h'
  | cons t => cases h' with | cons t' => exact .cons (t.trans t')

theorem azimuth_near (x : Record F) (p : Record F) (l : List (Record F)) :
    ∃ l', azimuthList (x :: p :: l) = x :: l' ∧ Near2 (p :: l) l' := by
  unfold azimuthList
  dsimp only
  split
  · split
    · exact ⟨_, rfl, .mk rfl (.refl _)⟩
    · cases l with
      | nil => exact ⟨_, rfl, .mk rfl (.refl _)⟩
      | cons t rs =>
        dsimp only
        split
        · exact ⟨_, rfl, .mk rfl (.cons rfl)⟩
        · exact ⟨_, rfl, .mk rfl (.refl _)⟩
  · exact ⟨_, rfl, .mk rfl (.refl _)⟩

theorem posRecs_near (t : Token) (x p : Record F) (l : List (Record F)) :
    ∃ l', posRecs t (x :: p :: l) = posHead t x :: l' ∧ Near2 (p :: l) l' := by
  have two : ∀ y : Record F, ∃ l', azimuthList (mapHead (project t.text) (azimuthList (y :: p :: l))) = project t.text y :: l' ∧
      Near2 (p :: l) l' := by
    intro y
    obtain ⟨l1, h1, k1⟩ := azimuth_near y p l
    rw [h1]
    cases k1 with
    | mk c1 s1 =>
      obtain ⟨l2, h2, k2⟩ := azimuth_near (project t.text y) _ _
      refine ⟨l2, h2, ?_⟩
      cases k2 with
      | mk c2 s2 => exact .mk (c2.trans c1) (s1.trans s2)
  unfold posRecs posHead
  cases t.sub
  case LL_DEG | LL_MIN => exact azimuth_near _ _ _
  case LLBD_DEG | LLBD_MIN => exact two _
  all_goals exact ⟨p :: l, rfl, .mk rfl (.refl _)⟩

theorem push_near (a : Act) (hr : a.records = true) (p : Record F) (rs : List (Record F)) :
    ∃ l', a.recs (p :: rs) = a.newRec p :: l' ∧ Near2 (p :: rs) l' := by
  have hrf : Near2 (p :: rs) (p :: rs) := .mk rfl (.refl _)
  have pk := fun t => posRecs_near (F := F) t
  cases a with
  | point t => exact pk t _ _ _
  | vToI t =>
    obtain ⟨l', h, k⟩ := pk t (fresh p t) p rs
    refine ⟨l', ?_, k⟩
    show mapHead toIfr (posRecs t (fresh p t :: p :: rs)) = _
    rw [h]; rfl
  | ccPoint t => exact pk t _ _ _
  | vfr t => exact ⟨_, rfl, .mk rfl (.refl _)⟩
  | vToIToV t | route t | plain t | brk t | sid t | star t => exact ⟨_, rfl, hrf⟩
  | _ => simp [Act.records] at hr

/-- Tokens that may be read late, in a state: those satisfying `S` and those refused with error 48. -/
def Late (S : Token → Prop) (e : Ers F) (t : Token) : Prop := S t ∨ errRec t 48 ∈ e.errs

/-- `e'` extends `e` by errors and elements of late tokens. -/
structure Ext2 (S : Token → Prop) (e e' : Ers F) : Prop where
  errs : ∃ new, e'.errs = new ++ e.errs ∧
    ∀ r ∈ new, ∃ t n, r = errRec t n ∧ (errorMessage n).isSome ∧ (Late S e' t ∨ n = 28)
  recs : ∃ new l', e'.recs = new ++ l' ∧ Near2 e.recs l' ∧
    ∀ r ∈ new, ∃ a : Act, a.records = true ∧ (∃ T, a.Kind T) ∧ core r = a.coreRec F ∧ Late S e' a.tok

theorem Late.run {S : Token → Prop} {e : Ers F} {t : Token} (a : Act) (h : Late S e t) : Late S (a.run e) t :=
  h.imp id fun h => by rw [run_errs]; exact List.mem_append_right _ h

theorem Ext2.refl {S : Token → Prop} {e : Ers F} (he : e.recs ≠ []) : Ext2 S e e := by
  refine ⟨⟨[], rfl, by simp⟩, [], e.recs, rfl, ?_, by simp⟩
  cases h : e.recs with
  | nil => exact absurd h he
  | cons r l => exact .mk rfl (.refl _)

theorem Ext2.errs_run {S : Token → Prop} {e0 e : Ers F} (h : Ext2 S e0 e) (a : Act)
    (hn : ∀ n ∈ a.nums, (errorMessage n).isSome = true ∧ (Late S e a.tok ∨ n = 28)) :
    ∃ new, (a.run e).errs = new ++ e0.errs ∧
      ∀ r ∈ new, ∃ t n, r = errRec t n ∧ (errorMessage n).isSome ∧ (Late S (a.run e) t ∨ n = 28) := by
  obtain ⟨new, h1, h2⟩ := h.errs
  refine ⟨(a.nums.map (errRec a.tok)).reverse ++ new, by rw [run_errs, h1, List.append_assoc], fun r hr => ?_⟩
  rcases List.mem_append.1 hr with hr | hr
  · obtain ⟨n, hm, rfl⟩ := List.mem_map.1 (List.mem_reverse.1 hr)
    exact ⟨a.tok, n, rfl, (hn n hm).1, (hn n hm).2.imp_left (Late.run a)⟩
  · obtain ⟨t, n, h3, h4, h5⟩ := h2 r hr
    exact ⟨t, n, h3, h4, h5.imp_left (Late.run a)⟩

theorem Ext2.note {S : Token → Prop} {e0 e : Ers F} (h : Ext2 S e0 e) (a : Act) (hr : a.records = false)
    (hn : ∀ n ∈ a.nums, (errorMessage n).isSome = true ∧ (Late S e a.tok ∨ n = 28)) : Ext2 S e0 (a.run e) := by
  refine ⟨h.errs_run a hn, ?_⟩
  obtain ⟨new, l', h1, h2, h3⟩ := h.recs
  have hrun : (a.run e).recs = a.recs e.recs := rfl
  cases new with
  | nil =>
    generalize e0.recs = l0 at h2
    cases h2 with
    | mk c s =>
      refine ⟨[], _, ?_, .mk ((core_tweak (tweak_ok a _)).trans c) s, by simp⟩
      rw [hrun, h1]; exact note_shape a hr _ _
  | cons n new =>
    refine ⟨a.tweak n :: new, l', ?_, h2, fun r hm => ?_⟩
    · rw [hrun, h1]; exact note_shape a hr _ _
    · rcases List.mem_cons.1 hm with rfl | hm
      · obtain ⟨b, b1, b2, b3, b4⟩ := h3 n (by simp)
        exact ⟨b, b1, b2, (core_tweak (tweak_ok a n)).trans b3, b4.run a⟩
      · obtain ⟨b, b1, b2, b3, b4⟩ := h3 r (by simp [hm])
        exact ⟨b, b1, b2, b3, b4.run a⟩

theorem Ext2.rcd {S : Token → Prop} {e0 e : Ers F} (h : Ext2 S e0 e) (a : Act) (hr : a.records = true)
    (hk : ∃ T, a.Kind T) (ht : Late S e a.tok) (hn : ∀ n ∈ a.nums, (errorMessage n).isSome = true) : Ext2 S e0 (a.run e) := by
  refine ⟨h.errs_run a fun n hm => ⟨hn n hm, .inl ht⟩, ?_⟩
  obtain ⟨new, l', h1, h2, h3⟩ := h.recs
  have hrun : (a.run e).recs = a.recs e.recs := rfl
  have first : ∀ p, ∃ b : Act, b.records = true ∧ (∃ T, b.Kind T) ∧ core (a.newRec p : Record F) = b.coreRec F ∧
      Late S (a.run e) b.tok := fun p => ⟨a, hr, hk, core_newRec a p, ht.run a⟩
  cases new with
  | nil =>
    generalize e0.recs = l0 at h2
    cases h2 with
    | mk c s =>
      rename_i r0 r0' l0 l0'
      obtain ⟨l2, h4, k⟩ := push_near a hr r0' l0'
      cases k with
      | mk c' s' =>
        refine ⟨[_], _, by rw [hrun, h1]; exact h4, .mk (c'.trans c) (s.trans s'), fun r hm => ?_⟩
        rw [List.mem_singleton] at hm; subst hm; exact first _
  | cons n new =>
    obtain ⟨l2, h4, k⟩ := push_near a hr n (new ++ l')
    generalize hz : new ++ l' = z at h4 k
    cases k with
    | mk c' s' =>
      rename_i n' z'
      have hn' : ∃ b : Act, b.records = true ∧ (∃ T, b.Kind T) ∧ core n' = b.coreRec F ∧ Late S (a.run e) b.tok := by
        obtain ⟨b, b1, b2, b3, b4⟩ := h3 n (by simp)
        exact ⟨b, b1, b2, c'.trans b3, b4.run a⟩
      have he : (a.run e).recs = a.newRec n :: n' :: z' := by
        rw [hrun, h1]; rw [List.cons_append, hz]; exact h4
      cases new with
      | nil =>
        subst hz
        refine ⟨[_, n'], z', he, ?_, fun r hm => ?_⟩
        · generalize e0.recs = l0 at h2
          change Second l' z' at s'
          cases h2 with
          | mk c s =>
            cases s' with
            | cons t => exact .mk (t.core.trans c) s
        · simp only [List.mem_cons, List.not_mem_nil, or_false] at hm
          rcases hm with rfl | rfl
          · exact first _
          · exact hn'
      | cons m new =>
        subst hz
        change Second (m :: (new ++ l')) z' at s'
        cases s' with
        | cons t =>
          rename_i m'
          refine ⟨a.newRec n :: n' :: m' :: new, l', he, h2, fun r hm => ?_⟩
          simp only [List.mem_cons] at hm
          rcases hm with rfl | rfl | rfl | hm
          · exact first _
          · exact hn'
          · obtain ⟨b, b1, b2, b3, b4⟩ := h3 m (by simp)
            exact ⟨b, b1, b2, t.core.trans b3, b4.run a⟩
          · obtain ⟨b, b1, b2, b3, b4⟩ := h3 r (by simp [hm])
            exact ⟨b, b1, b2, b3, b4.run a⟩

/-- The messages of an action exist. -/
theorem nums_some {T : List Token} {a : Act} {e : Ers F} {ts : List Token} (ok : a.Ok T e ts) {n : Nat} (hn : n ∈ a.nums) :
    (errorMessage n).isSome = true := by
  have pn : ∀ t, n ∈ posNums t → (errorMessage n).isSome := by
    intro t h
    have : n = 42 ∨ n = 43 ∨ n = 44 ∨ n = 45 ∨ n = 46 := by
      unfold posNums at h
      split at h <;> (try simp only [degErr, minErr, brgErr] at h) <;> (try split at h) <;> (try split at h) <;>
        (try split at h) <;> simp at h <;> (try omega)
    rcases this with h | h | h | h | h <;> subst h <;> decide
  have gn : ∀ s, n ∈ granErr s → (errorMessage n).isSome := by
    intro s h
    unfold granErr at h
    split at h <;> simp at h
    subst h; decide
  cases a with
  | err t m => simp [Act.nums] at hn; subst hn; exact plainErr.isSome ok
  | point t | vToI t | ccPoint t => exact pn _ hn
  | level t | plus t => exact gn _ hn
  | levels t =>
    rcases List.mem_append.1 hn with h | h
    · exact gn _ h
    · exact gn _ h
  | _ => simp [Act.nums] at hn

theorem Ext2.star {T : List Token} {S : Token → Prop} {e0 : Ers F} {a b : Cfg F} (s : Star T a b)
    (hl : ∀ t ∈ T, Late S a.ers t) (h : Ext2 S e0 a.ers) : Ext2 S e0 b.ers := by
  induction s with
  | refl => exact h
  | head ev _ ih =>
    cases ev with
    | pop | drop => exact ih hl h
    | note x e ts hd hr ht ok =>
      exact ih (fun t hm => (hl t hm).run x) (h.note x hr fun n hn => ⟨nums_some ok hn, .inl (hl _ ht)⟩)
    | rcd x e ts ha hb hr ht ok hk =>
      exact ih (fun t hm => (hl t hm).run x) (h.rcd x hr ⟨T, ok.kind⟩ (hl _ ht) fun n hn => nums_some ok hn)

theorem Star.toks {T : List Token} {a b : Cfg F} (s : Star T a b) : b.toks <:+ a.toks := by
  induction s with
  | refl => exact List.suffix_refl _
  | head ev _ ih =>
    cases ev with
    | pop e t ts h => exact ih.trans (List.suffix_cons t ts)
    | drop | note | rcd => exact ih

theorem Star.retains {T : List Token} {a b : Cfg F} (s : Star T a b) {r : Record F} (h : r ∈ a.ers.errs) : r ∈ b.ers.errs :=
  Star.inv (P := fun c => r ∈ c.ers.errs) (fun a b ev h => by
    cases ev with
    | pop | drop => exact h
    | note x | rcd x => show r ∈ (x.run _).errs; rw [run_errs]; exact List.mem_append_right _ h) s h

end F15
