import Verif.Lemmas.Evolve
/-!
# The history of a run: which action created which element
-/

namespace F15
open Spec

set_option linter.unusedSectionVars false
variable {F : Type} [PyFloat F] {T : List Token}

/-- The part of an element that never changes after its creation: name, indices, types, position. -/
def core (r : Record F) : Record F :=
  { r with speed := [], speedSi := 0, altitude := [], altitudeSi := 0, cruiseTo := [], cruiseToSi := 0, rules := [],
           breakText := [], stayTime := 0, bearing := fzero, distance := fzero }

theorem core_keep {r r' : Record F} (h : Keep r r') : core r' = core r := by unfold Keep at h; rw [h]; rfl
theorem core_tweak {r r' : Record F} (h : Tweak r r') : core r' = core r := by unfold Tweak at h; rw [h]; rfl

/-- The constant part of the element an action creates. -/
def Act.coreRec (F : Type) [PyFloat F] (a : Act) : Record F := core (a.newRec (Record.new [] 0 0 .UNKNOWN .UNKNOWN))

theorem core_newRec (a : Act) (p : Record F) : core (a.newRec p) = a.coreRec F := by
  cases a with
  | point t => unfold Act.coreRec Act.newRec posHead; dsimp only; cases t.sub <;> rfl
  | vToI t => unfold Act.coreRec Act.newRec posHead; dsimp only; cases t.sub <;> rfl
  | ccPoint t => unfold Act.coreRec Act.newRec posHead; dsimp only; cases t.sub <;> rfl
  | brk t => unfold Act.coreRec Act.newRec brkRules; dsimp only; cases t.sub <;> rfl
  | _ => rfl

/-- What is known about the token of a recording action. -/
def Act.Kind (T : List Token) (a : Act) : Prop :=
  match a with
  | .vfr t => t.base = .SPEED_VFR
  | .brk t => t.base = .BREAK_START
  | .route t => t.base = .ROUTE
  | .plain t => t.base = .DCT ∨ t.base = .C ∨ t.base = .SID ∨ t.base = .STAR ∨ t.base = .SID_STAR
  | .sid t => t.base = .SID ∨ t.base = .SID_STAR
  | .star t => t.base = .STAR ∨ t.base = .SID_STAR
  | .vToI t => t.base = .POINT
  | .vToIToV t => t.base = .POINT ∧ ∃ pre w sl sp rest, T = pre ++ w :: t :: sl :: sp :: rest ∧ w.sub = .IFR ∧ sl.base = .SLASH ∧
      sp.base = .SPEED_VFR
  | _ => True

theorem Act.Ok.kind {a : Act} {e : Ers F} {ts : List Token} (h : a.Ok T e ts) : a.Kind T := by
  cases a with
  | err | level | levels | plus | stay | text | point | ccPoint => trivial
  | sid | star => exact h.1
  | _ => exact h

/-- The history: `as` are the recording actions, newest first. -/
structure Hist (T : List Token) (e0 : Ers F) (c : Cfg F) (as : List Act) (new old : List (Record F)) : Prop where
  recs : c.ers.recs = new ++ old
  made : All2 (fun (a : Act) r => core r = a.coreRec F) as new
  acts : ∀ a ∈ as, a.records = true ∧ a.tok ∈ T ∧ a.Kind T
  old : All2 (fun r r' : Record F => core r' = core r) e0.recs old
  used : ∃ u, (((as.map Act.tok).reverse ++ (c.hand ++ c.toks)) ++ u).Perm T
  order : Has48 T c.ers ∨ ((as.map Act.tok).reverse ++ (c.hand ++ c.toks)).Sublist T

theorem All2.core_keep {l l' : List (Record F)} {as : List Act} (h : All2 (fun (a : Act) r => core r = a.coreRec F) as l)
    (k : All2 Keep l l') : All2 (fun (a : Act) r => core r = a.coreRec F) as l' :=
  All2.comp (R := fun (a : Act) r => core r = a.coreRec F) (S := Keep) (fun _ _ _ h h' => (F15.core_keep h').trans h) h k

theorem old_keep {l l' l0 : List (Record F)} (h : All2 (fun r r' : Record F => core r' = core r) l0 l) (k : All2 Keep l l') :
    All2 (fun r r' : Record F => core r' = core r) l0 l' :=
  All2.comp (R := fun r r' : Record F => core r' = core r) (S := Keep) (fun _ _ _ h h' => (F15.core_keep h').trans h) h k

theorem Hist.ev {e0 : Ers F} (hne : e0.recs ≠ []) {a b : Cfg F} (ev : Ev T a b) {as : List Act} {new old : List (Record F)}
    (h : Hist T e0 a as new old) : ∃ as new old, Hist T e0 b as new old := by
  obtain ⟨h1, h2, h3, h4, h5, h6⟩ := h
  have hold : old ≠ [] := by intro h; subst h; cases h4' : e0.recs with
    | nil => exact hne h4'
    | cons r l => rw [h4'] at h4; cases h4
  cases ev with
  | pop e t ts hd =>
    refine ⟨as, new, old, h1, h2, h3, h4, ?_, ?_⟩
    · simpa using h5
    · simpa using h6
  | drop e ts ha t hb =>
    refine ⟨as, new, old, h1, h2, h3, h4, ?_, ?_⟩
    · obtain ⟨u, hu⟩ := h5
      refine ⟨t :: u, List.Perm.trans ?_ hu⟩
      dsimp only
      have : ∀ X A B C : List Token, ((X ++ (A ++ B ++ C)) ++ t :: u).Perm ((X ++ (A ++ t :: B ++ C)) ++ u) := by
        intro X A B C
        simp only [List.append_assoc, List.cons_append]
        refine List.Perm.append_left _ (List.Perm.append_left _ ?_)
        have := List.perm_middle (a := t) (l₁ := B ++ C) (l₂ := u)
        simpa using this
      exact this _ _ _ _
    · rcases h6 with h6 | h6
      · exact .inl h6
      · refine .inr (List.Sublist.trans ?_ h6)
        dsimp only
        refine List.Sublist.append_left (List.Sublist.append_right (List.Sublist.append_left ?_ _) _) _
        exact List.sublist_cons_self _ _
  | note x e ts hd hr ht ok =>
    have h48 : Has48 T e → Has48 T (x.run e) := fun h => (Ev.note x e ts hd hr ht ok).has48 h
    have hrun : (x.run e).recs = x.recs e.recs := rfl
    dsimp only at h1
    cases new with
    | nil =>
      cases old with
      | nil => exact absurd rfl hold
      | cons o old =>
        refine ⟨as, [], x.tweak o :: old, ?_, h2, h3, ?_, h5, h6.imp_left h48⟩
        · show (x.run e).recs = _
          rw [hrun, h1]; exact note_shape x hr _ _
        · generalize e0.recs = l0 at h4
          cases h4 with
          | cons h h' => exact .cons ((core_tweak (tweak_ok x o)).trans h) h'
    | cons n new =>
      refine ⟨as, x.tweak n :: new, old, ?_, ?_, h3, h4, h5, h6.imp_left h48⟩
      · show (x.run e).recs = _
        rw [hrun, h1]; exact note_shape x hr _ _
      · cases h2 with
        | cons h h' => exact .cons ((core_tweak (tweak_ok x n)).trans h) h'
  | rcd x e ts ha hb hr ht ok hk =>
    have h48 : Has48 T e → Has48 T (x.run e) := fun h => (Ev.rcd x e ts ha hb hr ht ok hk).has48 h
    have hrun : (x.run e).recs = x.recs e.recs := rfl
    dsimp only at h1
    have hperm : ∀ X A B C u : List Token, ((X ++ (A ++ x.tok :: B ++ C)) ++ u).Perm (((X ++ [x.tok]) ++ (A ++ B ++ C)) ++ u) := by
      intro X A B C u
      refine List.Perm.append_right _ ?_
      simp only [List.append_assoc, List.cons_append, List.nil_append]
      refine List.Perm.append_left _ ?_
      exact List.perm_middle
    have hused : ∃ u, (((((x :: as).map Act.tok).reverse) ++ (ha ++ hb ++ ts)) ++ u).Perm T := by
      obtain ⟨u, hu⟩ := h5
      refine ⟨u, List.Perm.trans ?_ hu⟩
      simp only [List.map_cons, List.reverse_cons]
      exact (hperm _ _ _ _ _).symm
    have hord : Has48 T (x.run e) ∨ ((((x :: as).map Act.tok).reverse) ++ (ha ++ hb ++ ts)).Sublist T := by
      rcases h6 with h6 | h6
      · exact .inl (h48 h6)
      · rcases hk with hk | hk
        · subst hk
          right
          simpa using h6
        · exact .inl (h48 hk)
    have hacts : ∀ a ∈ x :: as, a.records = true ∧ a.tok ∈ T ∧ a.Kind T := by
      intro a ha
      rcases List.mem_cons.1 ha with rfl | ha
      · exact ⟨hr, ht, ok.kind⟩
      · exact h3 a ha
    cases hp : new ++ old with
    | nil => simp at hp; exact absurd hp.2 hold
    | cons p rs =>
      obtain ⟨l', e1, k⟩ := push_shape (F := F) x hr p rs
      rw [← hp] at k
      obtain ⟨new', old', rfl, k1, k2⟩ := k.append_left
      refine ⟨x :: as, x.newRec p :: new', old', ?_, .cons (core_newRec x p) (h2.core_keep k1), hacts, old_keep h4 k2, hused, hord⟩
      show (x.run e).recs = _
      rw [hrun, h1, hp, e1]; rfl

theorem Hist.star {e0 : Ers F} (hne : e0.recs ≠ []) {a b : Cfg F} (s : Star T a b)
    (h : ∃ as new old, Hist T e0 a as new old) : ∃ as new old, Hist T e0 b as new old :=
  Star.inv (P := fun c => ∃ as new old, Hist T e0 c as new old) (fun _ _ ev ⟨_, _, _, h⟩ => Hist.ev hne ev h) s h

theorem Hist.start (e0 : Ers F) (T : List Token) : Hist T e0 ⟨e0, T, []⟩ [] [] e0.recs :=
  ⟨rfl, .nil, by simp, All2.refl (R := fun r r' : Record F => core r' = core r) (fun _ => rfl) _, ⟨[], by simp⟩, .inr (by simp)⟩

/-- The history of a run of `parse_f15`. -/
theorem RunOk.hist {e : Ers F} (he : e.recs ≠ []) {t : Token} {rest : List Token} {e1 : Ers F}
    (h : RunOk (t :: rest) e t rest e1) : ∃ ts as new old, Hist (t :: rest) e ⟨e1, ts, []⟩ as new old := by
  obtain ⟨ts1, hs⟩ := h.start (by simp)
  exact ⟨ts1, Hist.star he hs ⟨_, _, _, Hist.start e (t :: rest)⟩⟩

/-- An invariant of the list of elements under actions. -/
theorem Star.recs_inv {P : List (Record F) → Prop}
    (hp : ∀ (a : Act) p rs l', a.records = true → a.tok ∈ T → a.Kind T → P (p :: rs) → a.recs (p :: rs) = a.newRec p :: l' →
      All2 Keep (p :: rs) l' → P (a.newRec p :: l'))
    (ht : ∀ (a : Act) p rs, a.records = false → a.tok ∈ T → (∀ t, a = .stay t → t.base = .STAY_TIME) → P (p :: rs) → P (a.tweak p :: rs))
    {a b : Cfg F} (s : Star T a b) (hne : a.ers.recs ≠ []) (h : P a.ers.recs) : P b.ers.recs := by
  refine (Star.inv (P := fun c => c.ers.recs ≠ [] ∧ P c.ers.recs) ?_ s ⟨hne, h⟩).2
  intro a b ev hi
  cases ev with
  | pop | drop => exact hi
  | note x e ts hd hr htk ok =>
    refine ⟨x.run_ne e hi.1, ?_⟩
    have h' : P e.recs := hi.2
    have hn : e.recs ≠ [] := hi.1
    show P (x.recs e.recs)
    cases hl : e.recs with
    | nil => exact absurd hl hn
    | cons p rs =>
      rw [hl] at h'
      rw [note_shape x hr]; exact ht x p rs hr htk (fun t h => by subst h; exact ok) h'
  | rcd x e ts ha hb hr htk ok hk =>
    refine ⟨x.run_ne e hi.1, ?_⟩
    have h' : P e.recs := hi.2
    have hn : e.recs ≠ [] := hi.1
    show P (x.recs e.recs)
    cases hl : e.recs with
    | nil => exact absurd hl hn
    | cons p rs =>
      rw [hl] at h'
      obtain ⟨l', h1, k⟩ := push_shape (F := F) x hr p rs
      rw [h1]; exact hp x p rs l' hr htk ok.kind h' h1 k

/-- Errors come from tokens. -/
theorem Star.errs {e0 : Ers F} {a b : Cfg F} (s : Star T a b)
    (h : ∃ new, a.ers.errs = new ++ e0.errs ∧ ∀ r ∈ new, ∃ t ∈ T, ∃ n, r = errRec t n ∧ n ∈ Spec.reportable) :
    ∃ new, b.ers.errs = new ++ e0.errs ∧ ∀ r ∈ new, ∃ t ∈ T, ∃ n, r = errRec t n ∧ n ∈ Spec.reportable := by
  refine Star.inv (P := fun c => ∃ new, c.ers.errs = new ++ e0.errs ∧ ∀ r ∈ new, ∃ t ∈ T, ∃ n, r = errRec t n ∧ n ∈ Spec.reportable) ?_ s h
  have key : ∀ (x : Act) (e : Ers F) ts, x.tok ∈ T → x.Ok T e ts →
      (∃ new, e.errs = new ++ e0.errs ∧ ∀ r ∈ new, ∃ t ∈ T, ∃ n, r = errRec t n ∧ n ∈ Spec.reportable) →
      (∃ new, (x.run e).errs = new ++ e0.errs ∧ ∀ r ∈ new, ∃ t ∈ T, ∃ n, r = errRec t n ∧ n ∈ Spec.reportable) := by
    intro x e ts ht ok ⟨new, h1, h2⟩
    refine ⟨(x.nums.map (errRec x.tok)).reverse ++ new, ?_, ?_⟩
    · rw [run_errs, h1, List.append_assoc]
    · intro r hr
      rcases List.mem_append.1 hr with hr | hr
      · obtain ⟨n, hn, rfl⟩ := List.mem_map.1 (List.mem_reverse.1 hr)
        refine ⟨_, ht, n, rfl, ?_⟩
        have pn : ∀ t, n ∈ posNums t → n ∈ Spec.reportable := by
          intro t h
          have : n = 42 ∨ n = 43 ∨ n = 44 ∨ n = 45 ∨ n = 46 := by
            unfold posNums at h
            split at h <;> (try simp only [degErr, minErr, brgErr] at h) <;> (try split at h) <;> (try split at h) <;>
              (try split at h) <;> simp at h <;> (try omega)
          rcases this with h | h | h | h | h <;> subst h <;> decide
        have gn : ∀ s, n ∈ granErr s → n ∈ Spec.reportable := by
          intro s h
          unfold granErr at h
          split at h <;> simp at h
          subst h; decide
        cases x with
        | err t m => simp [Act.nums] at hn; subst hn; exact plainErr.reportable ok
        | point t | vToI t | ccPoint t => exact pn _ hn
        | level t | plus t => exact gn _ hn
        | levels t =>
          rcases List.mem_append.1 hn with h | h
          · exact gn _ h
          · exact gn _ h
        | _ => simp [Act.nums] at hn
      · exact h2 r hr
  intro a b ev hi
  cases ev with
  | pop | drop => exact hi
  | note x e ts hd hr ht ok => exact key x e ts ht ok hi
  | rcd x e ts ha hb hr ht ok => exact key x e ts ht ok hi

end F15
