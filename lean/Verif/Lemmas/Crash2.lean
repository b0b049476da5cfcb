import Verif.Lemmas.Crash
/-!
# What an exception leaves is the beginning of what a run with more stack does
-/

namespace F15.Crash
open Spec

set_option linter.unusedSectionVars false
variable {F : Type} [PyFloat F]

theorem settled_refl (n : Nat) (r : Record F) : Settled n r r := by
  match n with
  | 0 => exact ⟨rfl, rfl, rfl⟩
  | 1 => exact ⟨rfl, rfl, rfl, rfl, rfl, rfl, rfl, rfl⟩
  | 2 => exact rfl
  | _ + 3 => exact rfl

theorem course_same {r r' : Record F} (h : SameButCourse r r') : SameElement r r' := by
  unfold SameButCourse at h
  rw [h]; exact ⟨rfl, rfl, rfl, rfl, rfl, rfl, rfl, rfl⟩

theorem settled_pred {n : Nat} {r r' : Record F} (h : Settled (n + 1) r r') : Settled n r r' := by
  match n, h with
  | 0, h => exact ⟨h.1, h.2.1, h.2.2.1⟩
  | 1, h => exact course_same h
  | 2, h => cases h; exact rfl
  | _ + 3, h => exact h

theorem settled_mono {m n : Nat} (hmn : m ≤ n) {r r' : Record F} (h : Settled n r r') : Settled m r r' := by
  obtain ⟨k, rfl⟩ := Nat.exists_eq_add_of_le hmn
  induction k with
  | zero => exact h
  | succ k ih => exact ih (by omega) (settled_pred h)

theorem settled_trans {n : Nat} {a b c : Record F} (h : Settled n a b) (k : Settled n b c) : Settled n a c := by
  match n, h, k with
  | 0, h, k => exact ⟨k.1.trans h.1, k.2.1.trans h.2.1, k.2.2.trans h.2.2⟩
  | 1, h, k =>
    obtain ⟨a1, a2, a3, a4, a5, a6, a7, a8⟩ := h
    obtain ⟨b1, b2, b3, b4, b5, b6, b7, b8⟩ := k
    exact ⟨b1.trans a1, b2.trans a2, b3.trans a3, b4.trans a4, b5.trans a5, b6.trans a6, b7.trans a7, b8.trans a8⟩
  | 2, h, k =>
    show SameButCourse a c
    change SameButCourse a b at h
    change SameButCourse b c at k
    unfold SameButCourse at h k ⊢
    rw [h] at k
    exact k
  | _ + 3, h, k => exact Eq.trans k h

/-- Corresponding elements, newest first, each settled as its age demands. -/
def Aged : Nat → List (Record F) → List (Record F) → Prop
  | _, [], [] => True
  | n, r :: l, r' :: l' => Settled n r r' ∧ Aged (n + 1) l l'
  | _, _, _ => False

theorem aged_refl (n : Nat) (l : List (Record F)) : Aged n l l := by
  induction l generalizing n with
  | nil => trivial
  | cons r l ih => exact ⟨settled_refl _ _, ih _⟩

theorem aged_mono {m n : Nat} (hmn : m ≤ n) {l l' : List (Record F)} (h : Aged n l l') : Aged m l l' := by
  induction l generalizing m n l' with
  | nil => cases l' with
    | nil => trivial
    | cons => exact h
  | cons r l ih =>
    cases l' with
    | nil => exact h
    | cons r' l' => exact ⟨settled_mono hmn h.1, ih (by omega) h.2⟩

theorem aged_trans {n : Nat} {a b c : List (Record F)} (h : Aged n a b) (k : Aged n b c) : Aged n a c := by
  induction a generalizing n b c with
  | nil =>
    cases b with
    | nil => exact k
    | cons => exact h.elim
  | cons r a ih =>
    cases b with
    | nil => exact h.elim
    | cons r' b =>
      cases c with
      | nil => exact k.elim
      | cons r'' c => exact ⟨settled_trans h.1 k.1, ih h.2 k.2⟩

theorem aged_append {n : Nat} {a b l : List (Record F)} (h : Aged n (a ++ b) l) :
    ∃ a' b', l = a' ++ b' ∧ Aged n a a' ∧ Aged (n + a.length) b b' := by
  induction a generalizing n l with
  | nil => exact ⟨[], l, rfl, trivial, h⟩
  | cons r a ih =>
    cases l with
    | nil => exact h.elim
    | cons r' l =>
      obtain ⟨a', b', rfl, h1, h2⟩ := ih h.2
      refine ⟨r' :: a', b', rfl, ⟨h.1, h1⟩, ?_⟩
      have e : n + (r :: a).length = n + 1 + a.length := by simp; omega
      rw [e]; exact h2

theorem aged_length {n : Nat} {a b : List (Record F)} (h : Aged n a b) : a.length = b.length := by
  induction a generalizing n b with
  | nil => cases b with
    | nil => rfl
    | cons => exact h.elim
  | cons r a ih => cases b with
    | nil => exact h.elim
    | cons => simp [ih h.2]

/-- The second state goes on where the first is. -/
structure Later (s s' : St Tokens F) : Prop where
  toks : s'.toks.toks = s.toks.toks
  cur : s.toks.cur ≤ s'.toks.cur
  errs : ∃ new, s'.ers.errs = new ++ s.ers.errs
  derived : s'.ers.derived = s.ers.derived
  recs : ∃ new old, s'.ers.recs = new ++ old ∧ Aged 0 s.ers.recs old

theorem Later.refl (s : St Tokens F) : Later s s :=
  ⟨rfl, Int.le_refl _, ⟨[], rfl⟩, rfl, [], _, rfl, aged_refl _ _⟩

theorem Later.trans {s s1 s2 : St Tokens F} (h : Later s s1) (k : Later s1 s2) : Later s s2 := by
  obtain ⟨a1, a2, ⟨n1, a3⟩, a4, m1, o1, a5, a6⟩ := h
  obtain ⟨b1, b2, ⟨n2, b3⟩, b4, m2, o2, b5, b6⟩ := k
  refine ⟨b1.trans a1, Int.le_trans a2 b2, ⟨n2 ++ n1, by rw [b3, a3, List.append_assoc]⟩, b4.trans a4, ?_⟩
  rw [a5] at b6
  obtain ⟨m1', o1', rfl, h1, h2⟩ := aged_append b6
  exact ⟨m2 ++ m1', o1', by rw [b5, List.append_assoc], aged_trans a6 (aged_mono (Nat.zero_le _) h2)⟩

/-! ### A part of the writes of a step -/

theorem settled_mix (n : Nat) (w : Nat → Bool) {r r' : Record F} (h : Settled n r r') : Settled n r (mix w r r') ∧ Settled n (mix w r r') r' := by
  match n, h with
  | 0, h =>
    obtain ⟨h1, h2, h3⟩ := h
    refine ⟨⟨?_, ?_, ?_⟩, ⟨?_, ?_, ?_⟩⟩ <;> simp [mix, h1, h2, h3]
  | 1, h =>
    obtain ⟨h1, h2, h3, h4, h5, h6, h7, h8⟩ := h
    refine ⟨⟨?_, ?_, ?_, ?_, ?_, ?_, ?_, ?_⟩, ⟨?_, ?_, ?_, ?_, ?_, ?_, ?_, ?_⟩⟩ <;> simp [mix, h1, h2, h3, h4, h5, h6, h7, h8]
  | 2, h =>
    change r' = _ at h
    refine ⟨?_, ?_⟩
    · show mix w r r' = _
      rw [h]; simp [mix]
    · show r' = _
      rw [h]; simp [mix]
  | _ + 3, h =>
    cases h
    have e : mix w r r = r := by simp [mix]
    exact ⟨e, e.symm⟩

theorem aged_mix (n : Nat) (w : Nat → Bool) {l l' : List (Record F)} (h : Aged n l l') :
    Aged n l (List.zipWith (mix w) l l') ∧ Aged n (List.zipWith (mix w) l l') l' := by
  induction l generalizing n l' with
  | nil => cases l' with
    | nil => exact ⟨trivial, trivial⟩
    | cons => exact h.elim
  | cons r l ih => cases l' with
    | nil => exact h.elim
    | cons r' l' =>
      exact ⟨⟨(settled_mix n w h.1).1, (ih _ h.2).1⟩, ⟨(settled_mix n w h.1).2, (ih _ h.2).2⟩⟩

/-- A primitive step: at most one element is appended, or elements are changed as their age allows. -/
structure Step (s s' : St Tokens F) : Prop where
  toks : s'.toks.toks = s.toks.toks
  cur : s.toks.cur ≤ s'.toks.cur
  errs : ∃ new, s'.ers.errs = new ++ s.ers.errs
  derived : s'.ers.derived = s.ers.derived
  recs : Aged 0 s.ers.recs s'.ers.recs ∨ ∃ r, s'.ers.recs = r :: s.ers.recs

theorem Step.refl (s : St Tokens F) : Step s s := ⟨rfl, Int.le_refl _, ⟨[], rfl⟩, rfl, .inl (aged_refl _ _)⟩

theorem Step.later {s s' : St Tokens F} (h : Step s s') : Later s s' := by
  refine ⟨h.toks, h.cur, h.errs, h.derived, ?_⟩
  rcases h.recs with h | ⟨r, h⟩
  · exact ⟨[], _, rfl, h⟩
  · exact ⟨[r], _, h, aged_refl _ _⟩

theorem mixAll_same (w : Nat → Bool) {l l' : List (Record F)} (h : Aged 0 l l') : mixAll w l l' = List.zipWith (mix w) l l' := by
  unfold mixAll
  rw [if_pos (aged_length h).symm]

theorem mixAll_new (w : Nat → Bool) (l : List (Record F)) (r : Record F) :
    mixAll w l (r :: l) = if w 20 then mix w (Record.new r.name r.start r.stop r.base r.sub) r :: l else l := by
  unfold mixAll
  rw [if_neg (by simp)]

theorem Step.blend {s s' : St Tokens F} (h : Step s s') (w : Nat → Bool) : Later s (blend w s s') ∧ Later (blend w s s') s' := by
  have ht : (Crash.blend w s s').toks.toks = s.toks.toks := by
    show (if w 23 then s'.toks else s.toks).toks = _
    split
    · exact h.toks
    · rfl
  have hd : (Crash.blend w s s').ers.derived = s.ers.derived := by
    show (if w 22 then s'.ers.derived else s.ers.derived) = _
    rw [h.derived]; simp
  have hc : s.toks.cur ≤ (Crash.blend w s s').toks.cur ∧ (Crash.blend w s s').toks.cur ≤ s'.toks.cur := by
    show _ ≤ (if w 23 then s'.toks else s.toks).cur ∧ (if w 23 then s'.toks else s.toks).cur ≤ _
    have := h.cur
    split
    · exact ⟨this, Int.le_refl _⟩
    · exact ⟨Int.le_refl _, this⟩
  have he : (∃ new, (Crash.blend w s s').ers.errs = new ++ s.ers.errs) ∧ ∃ new, s'.ers.errs = new ++ (Crash.blend w s s').ers.errs := by
    show (∃ new, (if w 21 then s'.ers.errs else s.ers.errs) = new ++ s.ers.errs) ∧ ∃ new, s'.ers.errs = new ++ (if w 21 then s'.ers.errs else s.ers.errs)
    split
    · exact ⟨h.errs, [], rfl⟩
    · exact ⟨⟨[], rfl⟩, h.errs⟩
  rcases h.recs with hr | ⟨r, hr⟩
  · have e : (Crash.blend w s s').ers.recs = List.zipWith (mix w) s.ers.recs s'.ers.recs := mixAll_same w hr
    exact ⟨⟨ht, hc.1, he.1, hd, [], _, e, (aged_mix 0 w hr).1⟩,
      ⟨h.toks.trans ht.symm, hc.2, he.2, h.derived.trans hd.symm, [], _, rfl, by rw [e]; exact (aged_mix 0 w hr).2⟩⟩
  · have e : (Crash.blend w s s').ers.recs =
        if w 20 then mix w (Record.new r.name r.start r.stop r.base r.sub) r :: s.ers.recs else s.ers.recs := by
      show mixAll w s.ers.recs s'.ers.recs = _
      rw [hr]; exact mixAll_new _ _ _
    cases hw : w 20 <;> simp only [hw, if_true, if_false, Bool.false_eq_true] at e
    · exact ⟨⟨ht, hc.1, he.1, hd, [], _, e, aged_refl _ _⟩,
        ⟨h.toks.trans ht.symm, hc.2, he.2, h.derived.trans hd.symm, [r], _, hr, by rw [e]; exact aged_refl _ _⟩⟩
    · refine ⟨⟨ht, hc.1, he.1, hd, [_], _, e, aged_refl _ _⟩,
        ⟨h.toks.trans ht.symm, hc.2, he.2, h.derived.trans hd.symm, [], _, hr, ?_⟩⟩
      rw [e]
      exact ⟨⟨by simp [mix, Record.new], by simp [mix, Record.new], by simp [mix, Record.new]⟩, aged_refl _ _⟩

/-! ### Two runs of the same program -/

/-- `m2` has at least the stack of `m1` and is not struck from outside: both only add, and they agree unless `m1` raises; then `m2` goes on from there.
`R` says how the state can develop. -/
def LimR {α : Type} (R : St Tokens F → St Tokens F → Prop) (m1 m2 : M Tokens F α) : Prop := ∀ s k,
  R s (m1 ⟨s, k⟩).2.st ∧ R s (m2 ⟨s, none⟩).2.st ∧ (m2 ⟨s, none⟩).2.strike = none ∧
  (((m2 ⟨s, none⟩).1 = (m1 ⟨s, k⟩).1 ∧ (m2 ⟨s, none⟩).2.st = (m1 ⟨s, k⟩).2.st) ∨
    ((∃ x, (m1 ⟨s, k⟩).1 = .error x) ∧ R (m1 ⟨s, k⟩).2.st (m2 ⟨s, none⟩).2.st))

abbrev Lim {α : Type} (m1 m2 : M Tokens F α) : Prop := LimR Later m1 m2

section
variable {R : St Tokens F → St Tokens F → Prop} (refl : ∀ s, R s s) (trans : ∀ {a b c}, R a b → R b c → R a c)
include refl

theorem limR_pure {α : Type} (a : α) : LimR (F := F) R (pure a) (pure a) := fun _ _ => ⟨refl _, refl _, rfl, .inl ⟨rfl, rfl⟩⟩
theorem limR_throw {α : Type} (x : PyErr) : LimR (F := F) (α := α) R (throw x) (throw x) := fun _ _ => ⟨refl _, refl _, rfl, .inl ⟨rfl, rfl⟩⟩

theorem limR_prim {α : Type} (m : F15.M Tokens F α)
    (h : ∀ s a s', m s = .ok (a, s') → R s s' ∧ ∀ w, R s (blend w s s') ∧ R (blend w s s') s') : LimR R (prim m) (prim m) := by
  intro s k
  have run : ∀ k', R s (match m s with | .ok (a, s') => (Except.ok a, (⟨s', k'⟩ : Run Tokens F)) | .error x => (.error x, ⟨s, k'⟩)).2.st := by
    intro k'
    cases hm : m s with
    | error x => exact refl _
    | ok p => exact (h s p.1 p.2 hm).1
  have hn : prim m ⟨s, none⟩ = (match m s with | .ok (a, s') => (.ok a, ⟨s', none⟩) | .error x => (.error x, ⟨s, none⟩)) := by
    unfold prim; dsimp only; cases m s <;> rfl
  have hs : (prim m ⟨s, none⟩).2.strike = none := by rw [hn]; cases m s <;> rfl
  rcases k with _ | ⟨_ | n, x, w⟩
  · refine ⟨?_, ?_, hs, .inl ⟨rfl, rfl⟩⟩ <;> (rw [hn]; exact run none)
  · have hk : prim m ⟨s, some ⟨0, x, w⟩⟩ = (.error x, ⟨match m s with | .ok (_, s') => blend w s s' | .error _ => s, none⟩) := by
      unfold prim; dsimp only; cases m s <;> rfl
    refine ⟨?_, by rw [hn]; exact run none, hs, .inr ⟨⟨x, by rw [hk]⟩, ?_⟩⟩
    · rw [hk]
      cases hm : m s with
      | error x => exact refl _
      | ok p => exact ((h s p.1 p.2 hm).2 w).1
    · rw [hk, hn]
      cases hm : m s with
      | error x => exact refl _
      | ok p => exact ((h s p.1 p.2 hm).2 w).2
  · have hk : prim m ⟨s, some ⟨n + 1, x, w⟩⟩ = (match m s with
        | .ok (a, s') => (.ok a, ⟨s', some ⟨n, x, w⟩⟩) | .error y => (.error y, ⟨s, some ⟨n, x, w⟩⟩)) := by
      unfold prim; dsimp only; cases m s <;> rfl
    refine ⟨by rw [hk]; exact run _, by rw [hn]; exact run none, hs, .inl ?_⟩
    rw [hk, hn]
    cases m s <;> exact ⟨rfl, rfl⟩

omit refl
include trans

theorem limR_bind {α β : Type} {m1 m2 : M Tokens F α} {f1 f2 : α → M Tokens F β} (h : LimR R m1 m2) (hf : ∀ a, LimR R (f1 a) (f2 a)) :
    LimR R (m1 >>= f1) (m2 >>= f2) := by
  intro s k
  obtain ⟨h1, h2, h3, h4⟩ := h s k
  rw [bind_eq, bind_eq]
  have after : ∀ s', R s' (m2 ⟨s, none⟩).2.st →
      R s' (goOn f2 (m2 ⟨s, none⟩)).2.st := by
    intro s' hs'
    cases hm : m2 ⟨s, none⟩ with
    | mk a s1 =>
      rw [hm] at hs' h3
      obtain ⟨s1, k1⟩ := s1
      cases h3
      cases a with
      | ok a => exact trans hs' (hf a s1 none).2.1
      | error x => exact hs'
  have quiet : (goOn f2 (m2 ⟨s, none⟩)).2.strike = none := by
    cases hm : m2 ⟨s, none⟩ with
    | mk a s1 =>
      rw [hm] at h3
      obtain ⟨s1, k1⟩ := s1
      cases h3
      cases a with
      | ok a => exact (hf a s1 none).2.2.1
      | error x => rfl
  refine ⟨?_, after s h2, quiet, ?_⟩
  · cases hm : m1 ⟨s, k⟩ with
    | mk a s1 =>
      rw [hm] at h1
      cases a with
      | ok a => exact trans h1 (hf a s1.st s1.strike).1
      | error x => exact h1
  · cases hm : m1 ⟨s, k⟩ with
    | mk a s1 =>
      rw [hm] at h4
      cases a with
      | error x =>
        rcases h4 with ⟨h4, h5⟩ | ⟨_, h5⟩
        · left
          cases hm2 : m2 ⟨s, none⟩ with
          | mk b s2 =>
            rw [hm2] at h4 h5
            cases h4
            exact ⟨rfl, h5⟩
        · right
          exact ⟨⟨x, rfl⟩, after _ h5⟩
      | ok a =>
        rcases h4 with ⟨h4, h5⟩ | ⟨⟨_, h4⟩, _⟩
        · cases hm2 : m2 ⟨s, none⟩ with
          | mk b s2 =>
            rw [hm2] at h4 h5 h3
            obtain ⟨s2, k2⟩ := s2
            cases h4; cases h3
            cases h5
            exact (hf a s1.st s1.strike).2.2.2
        · cases h4

end

theorem lim_pure {α : Type} (a : α) : Lim (F := F) (pure a) (pure a) := limR_pure Later.refl a
theorem lim_throw {α : Type} (x : PyErr) : Lim (F := F) (α := α) (throw x) (throw x) := limR_throw Later.refl x
theorem lim_bind {α β : Type} {m1 m2 : M Tokens F α} {f1 f2 : α → M Tokens F β} (h : Lim m1 m2) (hf : ∀ a, Lim (f1 a) (f2 a)) :
    Lim (m1 >>= f1) (m2 >>= f2) := limR_bind (R := Later) (fun h k => Later.trans h k) h hf
theorem lim_prim {α : Type} (m : F15.M Tokens F α) (h : ∀ s a s', m s = .ok (a, s') → Step s s') : Lim (prim m) (prim m) :=
  limR_prim Later.refl m fun s a s' hm => ⟨(h s a s' hm).later, (h s a s' hm).blend⟩

theorem lim_nextToken : Lim (F := F) nextToken nextToken := by
  refine lim_prim _ ?_
  intro s a s' h
  unfold F15.nextToken at h
  dsimp only at h
  split at h
  · cases h
    exact ⟨rfl, by show _ ≤ s.toks.cur + 1; omega, ⟨[], rfl⟩, rfl, .inl (aged_refl _ _)⟩
  · cases h

theorem lim_read {α : Type} (m : F15.M Tokens F α) (h : ∀ s a s', m s = .ok (a, s') → s' = s) : Lim (prim m) (prim m) :=
  lim_prim m fun s a s' hm => by rw [h s a s' hm]; exact .refl _

theorem lim_peekToken (k : Nat) : Lim (F := F) (peekToken k) (peekToken k) := by
  refine lim_read _ ?_
  intro s a s' h
  unfold F15.peekToken at h
  split at h <;> cases h
  rfl
theorem lim_lastElement : Lim (F := F) lastElement lastElement := by
  refine lim_read _ ?_
  intro s a s' h
  unfold F15.lastElement at h
  split at h <;> cases h
  rfl
theorem lim_numElements : Lim (F := F) numElements numElements := by
  refine lim_read _ ?_
  intro s a s' h
  unfold F15.numElements at h
  cases h
  rfl
theorem lim_getLast : Lim (F := F) getLast getLast := by
  refine lim_read _ ?_
  intro s a s' h
  unfold F15.getLast at h
  split at h <;> cases h
  rfl
theorem lim_liftE {α : Type} (x : Except PyErr α) : Lim (F := F) (liftE x) (liftE x) := by
  refine lim_read _ ?_
  intro s a s' h
  unfold F15.liftE at h
  split at h <;> cases h
  rfl
theorem lim_modLast (f : Record F → Record F) (hf : ∀ r, Settled 0 r (f r)) : Lim (modLast f) (modLast f) := by
  refine lim_prim _ ?_
  intro s a s' h
  unfold F15.modLast at h
  split at h
  · rename_i r rs hr
    cases h
    refine ⟨rfl, Int.le_refl _, ⟨[], rfl⟩, rfl, .inl ?_⟩
    rw [hr]
    exact ⟨hf r, aged_refl _ _⟩
  · cases h
theorem lim_modPrev (f : Record F → Record F) (hf : ∀ r, Settled 1 r (f r)) : Lim (modPrev f) (modPrev f) := by
  refine lim_prim _ ?_
  intro s a s' h
  unfold F15.modPrev at h
  split at h
  · rename_i r q rs hr
    cases h
    refine ⟨rfl, Int.le_refl _, ⟨[], rfl⟩, rfl, .inl ?_⟩
    rw [hr]
    exact ⟨settled_refl _ _, hf q, aged_refl _ _⟩
  · cases h
theorem lim_addErrorNoReSync (t : Token) (n : Nat) : Lim (F := F) (addErrorNoReSync t n) (addErrorNoReSync t n) := by
  refine lim_prim _ ?_
  intro s a s' h
  unfold F15.addErrorNoReSync at h
  split at h
  · cases h
    exact ⟨rfl, Int.le_refl _, ⟨[_], rfl⟩, rfl, .inl (aged_refl _ _)⟩
  · cases h
theorem lim_addRecord (t : Token) : Lim (F := F) (addRecord t) (addRecord t) := by
  refine lim_prim _ ?_
  intro s a s' h
  unfold F15.addRecord at h
  split at h
  · rename_i prev rs hr
    cases h
    exact ⟨rfl, Int.le_refl _, ⟨[], rfl⟩, rfl, .inr ⟨_, by rw [hr]⟩⟩
  · cases h

theorem course_azimuth (p q : Record F) : SameButCourse p (setAzimuthAndDistance p q) := rfl

theorem aged_azimuth (l : List (Record F)) : Aged 0 l (azimuthList l) := by
  unfold azimuthList
  split
  · rename_i last prev rs
    split
    · split
      · exact ⟨settled_refl _ _, course_same (course_azimuth _ _), aged_refl _ _⟩
      · split
        · split
          · exact ⟨settled_refl _ _, settled_refl _ _, course_azimuth _ _, aged_refl _ _⟩
          · exact aged_refl _ _
        · exact aged_refl _ _
    · exact aged_refl _ _
  · exact aged_refl _ _

theorem lim_assignAzimuth : Lim (F := F) assignAzimuth assignAzimuth := by
  refine lim_prim _ ?_
  intro s a s' h
  unfold F15.assignAzimuth at h
  cases h
  exact ⟨rfl, Int.le_refl _, ⟨[], rfl⟩, rfl, .inl (aged_azimuth _)⟩

theorem lim_whenM (c : Bool) {m1 m2 : M Tokens F Unit} (h : Lim m1 m2) : Lim (whenM c m1) (whenM c m2) := by
  cases c
  · exact lim_pure ()
  · exact h

/-- A setter does not change name and indices. -/
macro "setter" : tactic => `(tactic| (intro r; show _ ∧ _ ∧ _; first | exact ⟨rfl, rfl, rfl⟩ | (split <;> exact ⟨rfl, rfl, rfl⟩) | (unfold Record.appendBreakText; split <;> exact ⟨rfl, rfl, rfl⟩)))

/-- Solves goals `Lim m1 m2` for two copies of the same program text. -/
macro "lim" : tactic => `(tactic| repeat (first
  | with_reducible exact lim_pure _ | with_reducible exact lim_throw _ | with_reducible exact lim_nextToken | with_reducible exact lim_peekToken _
  | with_reducible exact lim_lastElement | with_reducible exact lim_numElements | with_reducible exact lim_getLast | with_reducible exact lim_liftE _
  | ((with_reducible refine lim_modLast _ ?_); setter) | with_reducible exact lim_addErrorNoReSync _ _ | with_reducible exact lim_addRecord _
  | with_reducible exact lim_assignAzimuth | (with_reducible refine lim_whenM _ ?_) | (with_reducible refine lim_bind ?_ (fun _ => ?_)) | split))

theorem lim_assignAltitude (t : Token) (a : Str) (c : Bool) : Lim (F := F) (assignAltitude t a c) (assignAltitude t a c) := by
  unfold assignAltitude; lim
theorem lim_assignSpeed (a : Str) : Lim (F := F) (assignSpeed a) (assignSpeed a) := by unfold assignSpeed; lim
theorem lim_assignLatitude (a : Str) : Lim (F := F) (assignLatitude a) (assignLatitude a) := by unfold assignLatitude; lim
theorem lim_assignLongitude (a : Str) : Lim (F := F) (assignLongitude a) (assignLongitude a) := by unfold assignLongitude; lim
theorem lim_assignLlDeg (t : Token) (a : Str) : Lim (F := F) (assignLlDeg t a) (assignLlDeg t a) := by
  unfold assignLlDeg
  refine lim_bind (lim_assignLatitude _) fun _ => lim_bind (lim_assignLongitude _) fun _ => ?_
  lim
theorem lim_assignLlDegMin (t : Token) (a : Str) : Lim (F := F) (assignLlDegMin t a) (assignLlDegMin t a) := by
  unfold assignLlDegMin
  refine lim_bind (lim_assignLatitude _) fun _ => lim_bind (lim_assignLongitude _) fun _ => ?_
  lim
theorem lim_resolve (b d : F) : Lim (resolveRealBdPoint b d) (resolveRealBdPoint b d) := by unfold resolveRealBdPoint; lim
theorem lim_assignBearingDistance (t : Token) (a : Str) : Lim (F := F) (assignBearingDistance t a) (assignBearingDistance t a) := by
  unfold assignBearingDistance
  refine lim_bind (lim_liftE _) fun _ => lim_bind (lim_whenM _ (lim_addErrorNoReSync _ _)) fun _ =>
    lim_bind (lim_liftE _) fun _ => lim_bind (lim_liftE _) fun _ => lim_resolve _ _
theorem lim_assignLatLong (t : Token) : Lim (F := F) (assignLatLongBearingDistance t) (assignLatLongBearingDistance t) := by
  unfold assignLatLongBearingDistance
  split
  · lim
  · exact lim_assignLlDeg _ _
  · exact lim_assignLlDegMin _ _
  · exact lim_bind (lim_assignLlDeg _ _) fun _ => lim_assignBearingDistance _ _
  · exact lim_bind (lim_assignLlDegMin _ _) fun _ => lim_assignBearingDistance _ _
  · exact lim_pure _
theorem lim_checkPosition (t : Token) : Lim (F := F) (checkPosition t) (checkPosition t) := lim_whenM _ (lim_assignLatLong t)
theorem lim_levelSpeed (t : Token) (a b : Str) : Lim (F := F) (levelSpeed t a b) (levelSpeed t a b) :=
  lim_bind (lim_assignAltitude _ _ _) fun _ => lim_assignSpeed _
theorem lim_levelLevelSpeed (t : Token) (a b c : Str) : Lim (F := F) (levelLevelSpeed t a b c) (levelLevelSpeed t a b c) :=
  lim_bind (lim_assignAltitude _ _ _) fun _ => lim_bind (lim_assignAltitude _ _ _) fun _ => lim_assignSpeed _
theorem lim_levelPlusSpeed (t : Token) (a b c : Str) : Lim (F := F) (levelPlusSpeed t a b c) (levelPlusSpeed t a b c) :=
  lim_bind (lim_assignAltitude _ _ _) fun _ => lim_bind (lim_modLast _ (by setter)) fun _ => lim_assignSpeed _
theorem lim_vfrSpeedRules (t : Token) : Lim (F := F) (vfrSpeedRules t) (vfrSpeedRules t) := by
  unfold vfrSpeedRules
  dsimp only
  split
  · exact lim_bind (lim_assignSpeed _) fun _ => by lim
  · exact lim_bind (lim_assignSpeed _) fun _ => by lim
  · exact lim_bind (lim_assignSpeed _) fun _ => by lim
  · exact lim_bind (lim_assignSpeed _) fun _ => by lim
  · exact lim_bind (lim_assignAltitude _ _ _) fun _ => by lim
theorem lim_markSid (a : Str) : Lim (F := F) (markSid a) (markSid a) := lim_modLast _ (by setter)
theorem lim_markStar (a : Str) : Lim (F := F) (markStar a) (markStar a) := lim_modLast _ (by setter)

theorem stay_setter {r r' : Record F} {a : Str} (h : r.setStayTime a = .ok r') : Settled 0 r r' := by
  unfold Record.setStayTime at h
  cases h1 : pyInt (slice a 0 2) with
  | error x => rw [h1] at h; cases h
  | ok u =>
    cases h2 : pyInt (sliceFrom a 2) with
    | error x => rw [h1, h2] at h; cases h
    | ok v => rw [h1, h2] at h; cases h; exact ⟨rfl, rfl, rfl⟩

theorem lim_saveStayTime (a : Str) : Lim (F := F) (saveStayTime a) (saveStayTime a) := by
  refine lim_prim _ ?_
  intro s u s' h
  obtain ⟨⟨recs, errs, d⟩, tk⟩ := s
  cases recs with
  | nil => cases h
  | cons r rs =>
    change ((F15.liftE (r.setStayTime a) >>= fun r' => F15.modLast fun _ => r' : F15.M Tokens F Unit) ⟨⟨r :: rs, errs, d⟩, tk⟩) = _ at h
    cases hr : r.setStayTime a with
    | error x => rw [hr] at h; cases h
    | ok r' =>
      rw [hr] at h
      cases h
      exact ⟨rfl, Int.le_refl _, ⟨[], rfl⟩, rfl, .inl ⟨stay_setter hr, aged_refl _ _⟩⟩

/-- As `lim`, with the recursive calls and the composite helpers. -/
macro "limc" h:ident : tactic => `(tactic| repeat (first
  | with_reducible exact lim_pure _ | with_reducible exact lim_throw _ | with_reducible exact $h _ | with_reducible exact lim_assignAltitude _ _ _
  | with_reducible exact lim_assignSpeed _
  | with_reducible exact lim_assignLatLong _ | with_reducible exact lim_checkPosition _ | with_reducible exact lim_levelSpeed _ _ _
  | with_reducible exact lim_levelLevelSpeed _ _ _ _ | with_reducible exact lim_levelPlusSpeed _ _ _ _ | with_reducible exact lim_vfrSpeedRules _
  | with_reducible exact lim_saveStayTime _ | with_reducible exact lim_markSid _ | with_reducible exact lim_markStar _
  | with_reducible exact lim_nextToken | with_reducible exact lim_peekToken _
  | with_reducible exact lim_lastElement | with_reducible exact lim_numElements | with_reducible exact lim_getLast | with_reducible exact lim_liftE _
  | ((with_reducible refine lim_modLast _ ?_); setter) | ((with_reducible refine lim_modPrev _ ?_); (intro r; show SameElement _ _; exact ⟨rfl, rfl, rfl, rfl, rfl, rfl, rfl, rfl⟩))
  | with_reducible exact lim_addErrorNoReSync _ _ | with_reducible exact lim_addRecord _
  | with_reducible exact lim_assignAzimuth | (with_reducible refine lim_whenM _ ?_) | (with_reducible refine lim_bind ?_ (fun _ => ?_)) | split))

theorem lim_step {call call' : Call → M Tokens F Unit} (h : ∀ c, Lim (call c) (call' c)) (c : Call) : Lim (step call c) (step call' c) := by
  cases c with
  | addErrorAndReSync t n => simp only [step]; unfold addErrorAndReSync; limc h
  | assignSpeedAltitude t => simp only [step]; unfold assignSpeedAltitude; limc h
  | assignSpeedAltitudeAltitude t => simp only [step]; unfold assignSpeedAltitudeAltitude rulesThenPostPoint; limc h
  | assignSpeedAltitudePlus t => simp only [step]; unfold assignSpeedAltitudePlus rulesThenPostPoint; limc h
  | assignSpeedVfr t => simp only [step]; unfold assignSpeedVfr; limc h
  | breakEnd t => simp only [step]; unfold breakEnd breakEndTail; limc h
  | breakEndError t => simp only [step]; unfold breakEndError; limc h
  | breakStart t => simp only [step]; unfold breakStart; limc h
  | breakTextSave t => simp only [step]; unfold breakTextSave; limc h
  | cruiseClimbC t => simp only [step]; unfold cruiseClimbC; limc h
  | cruiseClimbPoint t => simp only [step]; unfold cruiseClimbPoint; limc h
  | dct t => simp only [step]; unfold dct; limc h
  | forwardSlash t => simp only [step]; unfold forwardSlash; limc h
  | postAdep t => simp only [step]; unfold postAdep; limc h
  | postPoint t => simp only [step]; unfold postPoint; limc h
  | postSid => simp only [step]; unfold postSid; limc h
  | point t => simp only [step]; unfold point; limc h
  | reSync => simp only [step]; unfold reSync; limc h
  | route t => simp only [step]; unfold route; limc h
  | sid t => simp only [step]; unfold sid; limc h
  | sidStar t => simp only [step]; unfold sidStar; limc h
  | star t => simp only [step]; unfold star; limc h
  | stay t => simp only [step]; unfold stay; limc h
  | stayTime t => simp only [step]; unfold stayTime; limc h
  | truncate => simp only [step]; unfold truncate; limc h
  | vToI => simp only [step]; unfold vToI; limc h
  | vToIToV => simp only [step]; unfold vToIToV; limc h

theorem lim_self (n : Nat) (c : Call) : Lim (F := F) (exec n c) (exec n c) := by
  induction n generalizing c with
  | zero => exact fun s k => ⟨.refl _, .refl _, rfl, .inl ⟨rfl, rfl⟩⟩
  | succ n ih => exact lim_step ih c

/-- With more stack the run is the same, or goes on where it had failed. -/
theorem lim_exec (n k : Nat) (c : Call) : Lim (F := F) (exec n c) (exec (n + k) c) := by
  induction n generalizing c with
  | zero => exact fun s k => ⟨.refl _, (lim_self _ c s none).1, (lim_self _ c s none).2.2.1, .inr ⟨⟨_, rfl⟩, (lim_self _ c s none).1⟩⟩
  | succ n ih =>
    rw [Nat.succ_add]
    exact lim_step ih c

end F15.Crash
