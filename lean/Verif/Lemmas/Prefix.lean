import Verif.Lemmas.FreeText
/-!
# Beginnings of accepted field 15s
-/

namespace F15
open Spec

set_option linter.unusedSectionVars false
variable {F : Type} [PyFloat F]

/-- The cut is not at a slash, and the first part does not end in IFR and a point. -/
def CutAt (u v : List Token) : Prop :=
  (∀ t, u.getLast? = some t → t.base ≠ .SLASH) ∧ (∀ t, v.head? = some t → t.base ≠ .SLASH) ∧
  ∀ w x p, u = w ++ [x, p] → x.sub = .IFR → p.base ≠ .POINT

theorem CutAt.tail {x : Token} {u v : List Token} (h : CutAt (x :: u) v) : CutAt u v := by
  refine ⟨fun t ht => h.1 t ?_, h.2.1, fun w y p hu => h.2.2 (x :: w) y p (by rw [hu]; rfl)⟩
  cases u with
  | nil => cases ht
  | cons y ys => rw [List.getLast?_cons_cons]; exact ht

theorem CutAt.last {s : Token} {v : List Token} (h : CutAt [s] v) (hs : s.base = .SLASH) : False := h.1 s rfl hs
theorem CutAt.head {s : Token} {u v : List Token} (h : CutAt u (s :: v)) (hs : s.base = .SLASH) : False := h.2.1 s rfl hs

/-- A beginning is read with the same actions. -/
theorem run_prefix {q : Phase} {w : List Token} {bs : List Act} (h : Run q w bs) : ∀ {u v : List Token}, w = u ++ v → CutAt u v →
    ∃ as cs, bs = as ++ cs ∧ Run q u as := by
  have nil : ∀ (q : Phase) (bs : List Act), ∃ as cs, bs = as ++ cs ∧ Run q [] as := fun q bs => ⟨[], bs, rfl, .stop q⟩
  induction h with
  | stop q =>
    intro u v hw _
    obtain rfl : u = [] := by cases u with | nil => rfl | cons => cases hw
    exact nil _ _
  | truncate hq hb =>
    intro u v hw _
    cases u with
    | nil => exact nil _ _
    | cons x u =>
      simp only [List.cons_append, List.cons.injEq] at hw
      obtain ⟨rfl, hw⟩ := hw
      obtain rfl : u = [] := by cases u with | nil => rfl | cons => cases hw
      exact ⟨[], [], rfl, .truncate hq hb⟩
  | star hq hb =>
    intro u v hw _
    cases u with
    | nil => exact nil _ _
    | cons x u =>
      simp only [List.cons_append, List.cons.injEq] at hw
      obtain ⟨rfl, hw⟩ := hw
      obtain rfl : u = [] := by cases u with | nil => rfl | cons => cases hw
      exact ⟨[_], [], rfl, .star hq hb⟩
  | sid hb _ ih =>
    intro u v hw hc
    cases u with
    | nil => exact nil _ _
    | cons x u =>
      simp only [List.cons_append, List.cons.injEq] at hw
      obtain ⟨rfl, rfl⟩ := hw
      obtain ⟨as, cs, rfl, h⟩ := ih rfl hc.tail
      exact ⟨_ :: as, cs, rfl, .sid hb h⟩
  | dct hq hb _ ih =>
    intro u v hw hc
    cases u with
    | nil => exact nil _ _
    | cons x u =>
      simp only [List.cons_append, List.cons.injEq] at hw
      obtain ⟨rfl, rfl⟩ := hw
      obtain ⟨as, cs, rfl, h⟩ := ih rfl hc.tail
      exact ⟨_ :: as, cs, rfl, .dct hq hb h⟩
  | route hq hb _ ih =>
    intro u v hw hc
    cases u with
    | nil => exact nil _ _
    | cons x u =>
      simp only [List.cons_append, List.cons.injEq] at hw
      obtain ⟨rfl, rfl⟩ := hw
      obtain ⟨as, cs, rfl, h⟩ := ih rfl hc.tail
      exact ⟨_ :: as, cs, rfl, .route hq hb h⟩
  | point hq hb hn _ ih =>
    intro u v hw hc
    cases u with
    | nil => exact nil _ _
    | cons x u =>
      simp only [List.cons_append, List.cons.injEq] at hw
      obtain ⟨rfl, rfl⟩ := hw
      obtain ⟨as, cs, rfl, h⟩ := ih rfl hc.tail
      exact ⟨_ :: as, cs, rfl, .point hq hb hn h⟩
  | climb hq hb _ ih =>
    intro u v hw hc
    cases u with
    | nil => exact nil _ _
    | cons x u =>
      simp only [List.cons_append, List.cons.injEq] at hw
      obtain ⟨rfl, rfl⟩ := hw
      obtain ⟨as, cs, rfl, h⟩ := ih rfl hc.tail
      exact ⟨_ :: as, cs, rfl, .climb hq hb h⟩
  | break_ hq hb _ ih =>
    intro u v hw hc
    cases u with
    | nil => exact nil _ _
    | cons x u =>
      simp only [List.cons_append, List.cons.injEq] at hw
      obtain ⟨rfl, rfl⟩ := hw
      obtain ⟨as, cs, rfl, h⟩ := ih rfl hc.tail
      exact ⟨_ :: as, cs, rfl, .break_ hq hb h⟩
  | cruise hq hb hs hp hs' hl _ ih =>
    intro u v hw hc
    match u with
    | [] => exact nil _ _
    | [x] =>
      simp only [List.cons_append, List.nil_append, List.cons.injEq] at hw
      obtain ⟨rfl, rfl⟩ := hw
      exact (hc.head hs).elim
    | [x, y] =>
      simp only [List.cons_append, List.nil_append, List.cons.injEq] at hw
      obtain ⟨rfl, rfl, rfl⟩ := hw
      exact (hc.tail.last hs).elim
    | [x, y, z] =>
      simp only [List.cons_append, List.nil_append, List.cons.injEq] at hw
      obtain ⟨rfl, rfl, rfl, rfl⟩ := hw
      exact (hc.head hs').elim
    | [x, y, z, y'] =>
      simp only [List.cons_append, List.nil_append, List.cons.injEq] at hw
      obtain ⟨rfl, rfl, rfl, rfl, rfl⟩ := hw
      exact (hc.tail.tail.tail.last hs').elim
    | x :: y :: z :: y' :: z' :: u =>
      simp only [List.cons_append, List.cons.injEq] at hw
      obtain ⟨rfl, rfl, rfl, rfl, rfl, rfl⟩ := hw
      obtain ⟨as, cs, rfl, h⟩ := ih rfl hc.tail.tail.tail.tail.tail
      exact ⟨_ :: _ :: as, cs, rfl, .cruise hq hb hs hp hs' hl h⟩
  | stay hq hb hs hm _ ih =>
    intro u v hw hc
    match u with
    | [] => exact nil _ _
    | [x] =>
      simp only [List.cons_append, List.nil_append, List.cons.injEq] at hw
      obtain ⟨rfl, rfl⟩ := hw
      exact (hc.head hs).elim
    | [x, y] =>
      simp only [List.cons_append, List.nil_append, List.cons.injEq] at hw
      obtain ⟨rfl, rfl, rfl⟩ := hw
      exact (hc.tail.last hs).elim
    | x :: y :: z :: u =>
      simp only [List.cons_append, List.cons.injEq] at hw
      obtain ⟨rfl, rfl, rfl, rfl⟩ := hw
      obtain ⟨as, cs, rfl, h⟩ := ih rfl hc.tail.tail.tail
      exact ⟨_ :: as, cs, rfl, .stay hq hb hs hm h⟩
  | level hs hb hl _ ih =>
    intro u v hw hc
    match u with
    | [] => exact nil _ _
    | [x] =>
      simp only [List.cons_append, List.nil_append, List.cons.injEq] at hw
      obtain ⟨rfl, rfl⟩ := hw
      exact (hc.last hs).elim
    | x :: y :: u =>
      simp only [List.cons_append, List.cons.injEq] at hw
      obtain ⟨rfl, rfl, rfl⟩ := hw
      obtain ⟨as, cs, rfl, h⟩ := ih rfl hc.tail.tail
      exact ⟨_ :: as, cs, rfl, .level hs hb hl h⟩
  | vfr hs hb _ ih =>
    intro u v hw hc
    match u with
    | [] => exact nil _ _
    | [x] =>
      simp only [List.cons_append, List.nil_append, List.cons.injEq] at hw
      obtain ⟨rfl, rfl⟩ := hw
      exact (hc.last hs).elim
    | x :: y :: u =>
      simp only [List.cons_append, List.cons.injEq] at hw
      obtain ⟨rfl, rfl, rfl⟩ := hw
      obtain ⟨as, cs, rfl, h⟩ := ih rfl hc.tail.tail
      exact ⟨_ :: as, cs, rfl, .vfr hs hb h⟩
  | word hb hcl _ ih =>
    intro u v hw hc
    cases u with
    | nil => exact nil _ _
    | cons x u =>
      simp only [List.cons_append, List.cons.injEq] at hw
      obtain ⟨rfl, rfl⟩ := hw
      obtain ⟨as, cs, rfl, h⟩ := ih rfl hc.tail
      refine ⟨_ :: as, cs, rfl, .word hb (fun hcc => ?_) h⟩
      match u with
      | [] => trivial
      | [p] =>
        rcases hcl hcc with h | ⟨h1, _⟩
        · exact .inl h
        · exact .inl (hc.2.2 [] _ _ rfl h1)
      | p :: s :: u =>
        rcases hcl hcc with h | ⟨h1, s', r', h2, h3⟩
        · exact .inl h
        · injection h2 with h2 _
          exact .inr ⟨h1, s, u, rfl, by rw [h2]; exact h3⟩
  | resume hcl hi hb hp hn _ ih =>
    intro u v hw hc
    match u with
    | [] => exact nil _ _
    | [x] =>
      simp only [List.cons_append, List.nil_append, List.cons.injEq] at hw
      obtain ⟨rfl, rfl⟩ := hw
      exact ⟨[_], _, rfl, .word hb (fun _ => trivial) (.stop _)⟩
    | x :: y :: u =>
      simp only [List.cons_append, List.cons.injEq] at hw
      obtain ⟨rfl, rfl, rfl⟩ := hw
      obtain ⟨as, cs, rfl, h⟩ := ih rfl hc.tail.tail
      exact ⟨_ :: _ :: as, cs, rfl, .resume hcl hi hb hp hn h⟩
  | resumeIfr hcl hi hb hp hn hs hl hk _ ih =>
    intro u v hw hc
    match u with
    | [] => exact nil _ _
    | [x] =>
      simp only [List.cons_append, List.nil_append, List.cons.injEq] at hw
      obtain ⟨rfl, rfl⟩ := hw
      exact ⟨[_], _, rfl, .word hb (fun _ => trivial) (.stop _)⟩
    | [x, y] =>
      simp only [List.cons_append, List.nil_append, List.cons.injEq] at hw
      obtain ⟨rfl, rfl, rfl⟩ := hw
      exact (hc.head hs).elim
    | [x, y, z] =>
      simp only [List.cons_append, List.nil_append, List.cons.injEq] at hw
      obtain ⟨rfl, rfl, rfl, rfl⟩ := hw
      exact (hc.tail.tail.last hs).elim
    | x :: y :: z :: z' :: u =>
      simp only [List.cons_append, List.cons.injEq] at hw
      obtain ⟨rfl, rfl, rfl, rfl, rfl⟩ := hw
      obtain ⟨as, cs, rfl, h⟩ := ih rfl hc.tail.tail.tail.tail
      exact ⟨_ :: _ :: _ :: as, cs, rfl, .resumeIfr hcl hi hb hp hn hs hl hk h⟩
  | resumeVfr hcl hi hb hp hs hl _ ih =>
    intro u v hw hc
    match u with
    | [] => exact nil _ _
    | [x] =>
      simp only [List.cons_append, List.nil_append, List.cons.injEq] at hw
      obtain ⟨rfl, rfl⟩ := hw
      exact ⟨[_], _, rfl, .word hb (fun _ => trivial) (.stop _)⟩
    | [x, y] =>
      simp only [List.cons_append, List.nil_append, List.cons.injEq] at hw
      obtain ⟨rfl, rfl, rfl⟩ := hw
      exact (hc.head hs).elim
    | [x, y, z] =>
      simp only [List.cons_append, List.nil_append, List.cons.injEq] at hw
      obtain ⟨rfl, rfl, rfl, rfl⟩ := hw
      exact (hc.tail.tail.last hs).elim
    | x :: y :: z :: z' :: u =>
      simp only [List.cons_append, List.cons.injEq] at hw
      obtain ⟨rfl, rfl, rfl, rfl, rfl⟩ := hw
      obtain ⟨as, cs, rfl, h⟩ := ih rfl hc.tail.tail.tail.tail
      exact ⟨_ :: _ :: _ :: as, cs, rfl, .resumeVfr hcl hi hb hp hs hl h⟩

/-! ### What later actions change -/

theorem sameEl_refl (r : Record F) : SameElement r r := ⟨rfl, rfl, rfl, rfl, rfl, rfl, rfl, rfl⟩

theorem sameEl_trans {a b c : Record F} (h : SameElement a b) (h' : SameElement b c) : SameElement a c := by
  obtain ⟨h1, h2, h3, h4, h5, h6, h7, h8⟩ := h
  obtain ⟨g1, g2, g3, g4, g5, g6, g7, g8⟩ := h'
  exact ⟨g1.trans h1, g2.trans h2, g3.trans h3, g4.trans h4, g5.trans h5, g6.trans h6, g7.trans h7, g8.trans h8⟩

theorem keepPos_same {r r' : Record F} (h : KeepPos r r') : SameElement r r' := by
  unfold KeepPos at h
  rw [h]
  exact ⟨rfl, rfl, rfl, rfl, rfl, rfl, rfl, rfl⟩

theorem before_same (a : Act) (p : Record F) : SameElement p (a.before p) := by
  cases a <;> exact ⟨rfl, rfl, rfl, rfl, rfl, rfl, rfl, rfl⟩

theorem tweak_same (a : Act) (p : Record F) : SameElement p (a.tweak p) := by
  cases a with
  | text t =>
    show SameElement p (p.appendBreakText t.text)
    unfold Record.appendBreakText
    split <;> exact ⟨rfl, rfl, rfl, rfl, rfl, rfl, rfl, rfl⟩
  | _ => exact ⟨rfl, rfl, rfl, rfl, rfl, rfl, rfl, rfl⟩

/-- `l` has grown out of `r :: rs`: the newest of these is the same element, the others have at most another course. -/
def Grown (r : Record F) (rs l : List (Record F)) : Prop :=
  ∃ new r' rs', l = new ++ r' :: rs' ∧ SameElement r r' ∧ All2 KeepPos rs rs'

theorem all2_split {R : Record F → Record F → Prop} {a b : List (Record F)} : ∀ {l : List (Record F)}, All2 R (a ++ b) l →
    ∃ a' b', l = a' ++ b' ∧ All2 R a a' ∧ All2 R b b' := by
  induction a with
  | nil => intro l h; exact ⟨[], l, rfl, .nil, h⟩
  | cons x a ih =>
    intro l h
    cases h with
    | cons h h' =>
      obtain ⟨a', b', rfl, h1, h2⟩ := ih h'
      exact ⟨_ :: a', b', rfl, .cons h h1, h2⟩

theorem grown_act (a : Act) {r : Record F} {rs l : List (Record F)} (h : Grown r rs l) : Grown r rs (a.recs l) := by
  obtain ⟨new, r', rs', rfl, h1, h2⟩ := h
  by_cases hr : a.records = true
  · cases new with
    | nil =>
      obtain ⟨l', g1, g2⟩ := push_shape' (F := F) a hr r' rs'
      rw [List.nil_append, g1]
      cases g2 with
      | cons g2 g3 =>
        exact ⟨[_], _, _, rfl, sameEl_trans (sameEl_trans h1 (before_same a r')) (keepPos_same g2),
          All2.comp (R := KeepPos) (S := KeepPos) (Q := KeepPos) (fun _ _ _ h h' => KeepPos.trans h h') h2 g3⟩
    | cons n new =>
      obtain ⟨l', g1, g2⟩ := push_shape' (F := F) a hr n (new ++ r' :: rs')
      rw [List.cons_append, g1]
      cases g2 with
      | cons g2 g3 =>
        obtain ⟨a', b', rfl, k1, k2⟩ := all2_split g3
        cases k2 with
        | cons k2 k3 =>
          exact ⟨_ :: _ :: a', _, _, rfl, sameEl_trans h1 (keepPos_same k2),
            All2.comp (R := KeepPos) (S := KeepPos) (Q := KeepPos) (fun _ _ _ h h' => KeepPos.trans h h') h2 k3⟩
  · have hr : a.records = false := by simpa using hr
    cases new with
    | nil =>
      rw [List.nil_append, note_shape a hr]
      exact ⟨[], _, _, rfl, sameEl_trans h1 (tweak_same a r'), h2⟩
    | cons n new =>
      rw [List.cons_append, note_shape a hr]
      exact ⟨_ :: new, _, _, rfl, h1, h2⟩

theorem grown_runs (as : List Act) : ∀ {e : Ers F} {r : Record F} {rs : List (Record F)}, Grown r rs e.recs →
    Grown r rs (runs as e).recs := by
  induction as with
  | nil => intro e r rs h; exact h
  | cons a as ih => intro e r rs h; exact ih (grown_act a h)

end F15
