import Verif.Lemmas.Crash2
import Verif.Spec.Threads
/-!
# `parse_f15` as a whole when exceptions are raised
-/

namespace F15.Crash
open Spec

set_option linter.unusedSectionVars false
variable {F : Type} [PyFloat F]

/-! ### The flight rules of the oldest element are set at the end -/

theorem settled_rules (n : Nat) (y : Str) {a b : Record F} (h : Settled n a b) : Settled n { a with rules := y } { b with rules := y } := by
  match n, h with
  | 0, h => exact h
  | 1, h => exact h
  | 2, h =>
    change b = _ at h
    show _ = _
    rw [h]
  | _ + 3, h => cases h; exact rfl

/-- As `Aged`; the oldest may also get other flight rules. -/
def AgedF : Nat → List (Record F) → List (Record F) → Prop
  | _, [], [] => True
  | n, r :: l, r' :: l' => (Settled n r r' ∨ (l = [] ∧ ∃ x, Settled n { r with rules := x } r')) ∧ AgedF (n + 1) l l'
  | _, _, _ => False

theorem aged_agedF {n : Nat} {l l' : List (Record F)} (h : Aged n l l') : AgedF n l l' := by
  induction l generalizing n l' with
  | nil => cases l' with
    | nil => trivial
    | cons => exact h.elim
  | cons r l ih => cases l' with
    | nil => exact h.elim
    | cons r' l' => exact ⟨.inl h.1, ih h.2⟩

theorem agedF_refl (n : Nat) (l : List (Record F)) : AgedF n l l := aged_agedF (aged_refl n l)

theorem agedF_mono {m n : Nat} (hmn : m ≤ n) {l l' : List (Record F)} (h : AgedF n l l') : AgedF m l l' := by
  induction l generalizing m n l' with
  | nil => cases l' with
    | nil => trivial
    | cons => exact h
  | cons r l ih =>
    cases l' with
    | nil => exact h
    | cons r' l' =>
      refine ⟨?_, ih (by omega) h.2⟩
      rcases h.1 with h1 | ⟨h1, x, h2⟩
      · exact .inl (settled_mono hmn h1)
      · exact .inr ⟨h1, x, settled_mono hmn h2⟩

theorem agedF_nil {n : Nat} {l : List (Record F)} (h : AgedF n [] l) : l = [] := by
  cases l with
  | nil => rfl
  | cons => exact h.elim

theorem agedF_length {n : Nat} {a b : List (Record F)} (h : AgedF n a b) : a.length = b.length := by
  induction a generalizing n b with
  | nil => rw [agedF_nil h]
  | cons r a ih => cases b with
    | nil => exact h.elim
    | cons => simp [ih h.2]

theorem agedF_trans {n : Nat} {a b c : List (Record F)} (h : AgedF n a b) (k : AgedF n b c) : AgedF n a c := by
  induction a generalizing n b c with
  | nil =>
    cases b with
    | nil => exact k
    | cons => exact h.elim
  | cons r a ih =>
    cases b with
    | nil => exact h.elim
    | cons r' b =>
      cases c with
      | nil => exact k.elim
      | cons r'' c =>
        refine ⟨?_, ih h.2 k.2⟩
        have e : b = [] → a = [] := by
          intro hb
          have := agedF_length h.2
          rw [hb] at this
          exact List.length_eq_zero_iff.mp this
        rcases h.1 with h1 | ⟨h1, x, h2⟩ <;> rcases k.1 with k1 | ⟨k1, y, k2⟩
        · exact .inl (settled_trans h1 k1)
        · exact .inr ⟨e k1, y, settled_trans (settled_rules n y h1) k2⟩
        · exact .inr ⟨h1, x, settled_trans h2 k1⟩
        · have g := settled_rules n y h2
          exact .inr ⟨h1, y, settled_trans g k2⟩

theorem agedF_append {n : Nat} {a b l : List (Record F)} (h : AgedF n (a ++ b) l) (hb : b ≠ []) :
    ∃ a' b', l = a' ++ b' ∧ Aged n a a' ∧ AgedF (n + a.length) b b' := by
  induction a generalizing n l with
  | nil => exact ⟨[], l, rfl, trivial, h⟩
  | cons r a ih =>
    cases l with
    | nil => exact h.elim
    | cons r' l =>
      obtain ⟨a', b', rfl, h1, h2⟩ := ih h.2
      have h0 : Settled n r r' := by
        rcases h.1 with h | ⟨h, _⟩
        · exact h
        · exact (hb (List.append_eq_nil_iff.mp h).2).elim
      refine ⟨r' :: a', b', rfl, ⟨h0, h1⟩, ?_⟩
      have e : n + (r :: a).length = n + 1 + a.length := by simp; omega
      rw [e]; exact h2

/-- How the two objects develop: nothing recorded is lost, and the words of the tokens stay. -/
structure Goes (s s' : St Tokens F) : Prop where
  words : words s'.toks.toks = words s.toks.toks
  errs : ∃ new, s'.ers.errs = new ++ s.ers.errs
  recs : ∃ new old, s'.ers.recs = new ++ old ∧ AgedF 0 s.ers.recs old

theorem Goes.refl (s : St Tokens F) : Goes s s := ⟨rfl, ⟨[], rfl⟩, [], _, rfl, agedF_refl _ _⟩

theorem Goes.trans {s s1 s2 : St Tokens F} (h : Goes s s1) (k : Goes s1 s2) : Goes s s2 := by
  obtain ⟨a1, ⟨n1, a3⟩, m1, o1, a5, a6⟩ := h
  obtain ⟨b1, ⟨n2, b3⟩, m2, o2, b5, b6⟩ := k
  refine ⟨b1.trans a1, ⟨n2 ++ n1, by rw [b3, a3, List.append_assoc]⟩, ?_⟩
  rw [a5] at b6
  by_cases ho : o1 = []
  · rw [ho] at a6
    exact ⟨s2.ers.recs, [], by simp, a6⟩
  · obtain ⟨m1', o1', rfl, h1, h2⟩ := agedF_append b6 ho
    exact ⟨m2 ++ m1', o1', by rw [b5, List.append_assoc], agedF_trans a6 (agedF_mono (Nat.zero_le _) h2)⟩

theorem Later.goes {s s' : St Tokens F} (h : Later s s') : Goes s s' := by
  obtain ⟨new, old, h1, h2⟩ := h.recs
  exact ⟨by rw [h.toks], h.errs, new, old, h1, aged_agedF h2⟩

/-! ### The steps of `parse_f15` itself -/

theorem settled_mixF (n : Nat) (w : Nat → Bool) {r r' : Record F} {x : Str} (h : Settled n { r with rules := x } r') :
    (∃ y, Settled n { r with rules := y } (mix w r r')) ∧ ∃ y, Settled n { mix w r r' with rules := y } r' := by
  match n, h with
  | 0, h =>
    obtain ⟨h1, h2, h3⟩ := h
    dsimp only at h1 h2 h3
    refine ⟨⟨[], ?_, ?_, ?_⟩, ⟨[], ?_, ?_, ?_⟩⟩ <;> simp [mix, h1, h2, h3]
  | 1, h =>
    obtain ⟨h1, h2, h3, h4, h5, h6, h7, h8⟩ := h
    dsimp only at h1 h2 h3 h4 h5 h6 h7 h8
    refine ⟨⟨[], ?_, ?_, ?_, ?_, ?_, ?_, ?_, ?_⟩, ⟨[], ?_, ?_, ?_, ?_, ?_, ?_, ?_, ?_⟩⟩ <;> simp [mix, h1, h2, h3, h4, h5, h6, h7, h8]
  | 2, h =>
    change r' = _ at h
    refine ⟨⟨(mix w r r').rules, ?_⟩, ⟨r'.rules, ?_⟩⟩
    · show mix w r r' = _
      rw [h]; simp [mix]
    · show r' = _
      rw [h]; simp [mix]
  | _ + 3, h =>
    cases h
    refine ⟨⟨(mix w r { r with rules := x }).rules, ?_⟩, ⟨x, ?_⟩⟩ <;> (show _ = _; simp [mix])

theorem agedF_mix (n : Nat) (w : Nat → Bool) {l l' : List (Record F)} (h : AgedF n l l') :
    AgedF n l (List.zipWith (mix w) l l') ∧ AgedF n (List.zipWith (mix w) l l') l' := by
  induction l generalizing n l' with
  | nil => cases l' with
    | nil => exact ⟨trivial, trivial⟩
    | cons => exact h.elim
  | cons r l ih => cases l' with
    | nil => exact h.elim
    | cons r' l' =>
      obtain ⟨k1, k2⟩ := ih _ h.2
      rcases h.1 with h1 | ⟨h1, x, h2⟩
      · exact ⟨⟨.inl (settled_mix n w h1).1, k1⟩, ⟨.inl (settled_mix n w h1).2, k2⟩⟩
      · obtain ⟨g1, g2⟩ := settled_mixF n w h2
        exact ⟨⟨.inr ⟨h1, g1⟩, k1⟩, ⟨.inr ⟨by rw [h1]; rfl, g2⟩, k2⟩⟩

/-- A primitive step of `parse_f15`. -/
structure StepF (s s' : St Tokens F) : Prop where
  words : words s'.toks.toks = words s.toks.toks
  errs : ∃ new, s'.ers.errs = new ++ s.ers.errs
  recs : AgedF 0 s.ers.recs s'.ers.recs ∨ ∃ r, s'.ers.recs = r :: s.ers.recs

theorem StepF.goes {s s' : St Tokens F} (h : StepF s s') : Goes s s' := by
  refine ⟨h.words, h.errs, ?_⟩
  rcases h.recs with h | ⟨r, h⟩
  · exact ⟨[], _, rfl, h⟩
  · exact ⟨[r], _, h, agedF_refl _ _⟩

theorem StepF.blend {s s' : St Tokens F} (h : StepF s s') (w : Nat → Bool) : Goes s (blend w s s') ∧ Goes (blend w s s') s' := by
  have ht : Spec.words (Crash.blend w s s').toks.toks = Spec.words s.toks.toks := by
    show Spec.words (if w 23 then s'.toks else s.toks).toks = _
    split
    · exact h.words
    · rfl
  have he : (∃ new, (Crash.blend w s s').ers.errs = new ++ s.ers.errs) ∧ ∃ new, s'.ers.errs = new ++ (Crash.blend w s s').ers.errs := by
    show (∃ new, (if w 21 then s'.ers.errs else s.ers.errs) = new ++ s.ers.errs) ∧ ∃ new, s'.ers.errs = new ++ (if w 21 then s'.ers.errs else s.ers.errs)
    split
    · exact ⟨h.errs, [], rfl⟩
    · exact ⟨⟨[], rfl⟩, h.errs⟩
  rcases h.recs with hr | ⟨r, hr⟩
  · have e : (Crash.blend w s s').ers.recs = List.zipWith (mix w) s.ers.recs s'.ers.recs := by
      show mixAll w s.ers.recs s'.ers.recs = _
      unfold mixAll
      rw [if_pos (agedF_length hr).symm]
    exact ⟨⟨ht, he.1, [], _, e, (agedF_mix 0 w hr).1⟩,
      ⟨h.words.trans ht.symm, he.2, [], _, rfl, by rw [e]; exact (agedF_mix 0 w hr).2⟩⟩
  · have e : (Crash.blend w s s').ers.recs =
        if w 20 then mix w (Record.new r.name r.start r.stop r.base r.sub) r :: s.ers.recs else s.ers.recs := by
      show mixAll w s.ers.recs s'.ers.recs = _
      rw [hr]; exact mixAll_new _ _ _
    cases hw : w 20 <;> simp only [hw, if_true, if_false, Bool.false_eq_true] at e
    · exact ⟨⟨ht, he.1, [], _, e, agedF_refl _ _⟩,
        ⟨h.words.trans ht.symm, he.2, [r], _, hr, by rw [e]; exact agedF_refl _ _⟩⟩
    · refine ⟨⟨ht, he.1, [_], _, e, agedF_refl _ _⟩,
        ⟨h.words.trans ht.symm, he.2, [], _, hr, ?_⟩⟩
      rw [e]
      exact ⟨.inl ⟨by simp [mix, Record.new], by simp [mix, Record.new], by simp [mix, Record.new]⟩, agedF_refl _ _⟩

abbrev LimG {α : Type} (m1 m2 : M Tokens F α) : Prop := LimR Goes m1 m2

theorem Lim.goes {α : Type} {m1 m2 : M Tokens F α} (h : Lim m1 m2) : LimG m1 m2 := by
  intro s k
  obtain ⟨h1, h2, h3, h4⟩ := h s k
  refine ⟨h1.goes, h2.goes, h3, ?_⟩
  rcases h4 with h4 | ⟨h4, h5⟩
  · exact .inl h4
  · exact .inr ⟨h4, h5.goes⟩

theorem limG_pure {α : Type} (a : α) : LimG (F := F) (pure a) (pure a) := limR_pure Goes.refl a
theorem limG_throw {α : Type} (x : PyErr) : LimG (F := F) (α := α) (throw x) (throw x) := limR_throw Goes.refl x
theorem limG_bind {α β : Type} {m1 m2 : M Tokens F α} {f1 f2 : α → M Tokens F β} (h : LimG m1 m2) (hf : ∀ a, LimG (f1 a) (f2 a)) :
    LimG (m1 >>= f1) (m2 >>= f2) := limR_bind (R := Goes) (fun h k => Goes.trans h k) h hf
theorem limG_prim {α : Type} (m : F15.M Tokens F α) (h : ∀ s a s', m s = .ok (a, s') → StepF s s') : LimG (prim m) (prim m) :=
  limR_prim Goes.refl m fun s a s' hm => ⟨(h s a s' hm).goes, (h s a s' hm).blend⟩
theorem limG_whenM (c : Bool) {m1 m2 : M Tokens F Unit} (h : LimG m1 m2) : LimG (whenM c m1) (whenM c m2) := by
  cases c
  · exact limG_pure ()
  · exact h
theorem limG_read {α : Type} (m : F15.M Tokens F α) (h : ∀ s a s', m s = .ok (a, s') → s' = s) : LimG (prim m) (prim m) :=
  limG_prim m fun s a s' hm => by rw [h s a s' hm]; exact ⟨rfl, ⟨[], rfl⟩, .inl (agedF_refl _ _)⟩

theorem words_modify (f : Token → Token) (hf : ∀ t, (f t).text = t.text ∧ (f t).start = t.start ∧ (f t).stop = t.stop) (i : Nat) (l : List Token) :
    words (l.modify i f) = words l := by
  induction l generalizing i with
  | nil => cases i <;> rfl
  | cons t l ih =>
    cases i with
    | zero =>
      obtain ⟨h1, h2, h3⟩ := hf t
      show ((f t).text, (f t).start, (f t).stop) :: words l = _
      rw [h1, h2, h3]; rfl
    | succ i =>
      show (t.text, t.start, t.stop) :: words (l.modify i f) = _
      rw [ih]; rfl

theorem limG_setBase (i : Nat) (b : BaseType) : LimG (F := F) (setBase i b) (setBase i b) := by
  refine limG_prim _ ?_
  intro s a s' h
  cases h
  refine ⟨?_, ⟨[], rfl⟩, .inl (agedF_refl _ _)⟩
  exact words_modify _ (by intro t; exact ⟨rfl, rfl, rfl⟩) _ _

theorem limG_setSub (i : Nat) (b : SubType) : LimG (F := F) (setSub i b) (setSub i b) := by
  refine limG_prim _ ?_
  intro s a s' h
  cases h
  refine ⟨?_, ⟨[], rfl⟩, .inl (agedF_refl _ _)⟩
  exact words_modify _ (by intro t; exact ⟨rfl, rfl, rfl⟩) _ _

theorem limG_assignTypes (i : Nat) (l : List Token) : LimG (F := F) (assignTypes i l) (assignTypes i l) := by
  induction l generalizing i with
  | nil => exact limG_pure ()
  | cons t l ih =>
    unfold assignTypes
    exact limG_bind (limG_setBase _ _) fun _ => limG_bind (limG_setSub _ _) fun _ =>
      limG_bind (limG_whenM _ (limG_bind (limG_setBase _ _) fun _ => limG_setSub _ _)) fun _ => ih _

theorem limG_firstToken : LimG (F := F) firstToken firstToken := by
  refine limG_prim _ ?_
  intro s a s' h
  have e : s.toks.getFirstToken.2.toks = s.toks.toks := rfl
  revert h e
  generalize s.toks.getFirstToken = q
  intro h e
  obtain ⟨q, ts⟩ := q
  cases q with
  | error x => cases h
  | ok o =>
    cases h
    exact ⟨congrArg words e, ⟨[], rfl⟩, .inl (agedF_refl _ _)⟩

theorem limG_addNullError : LimG (F := F) addNullError addNullError := by
  refine limG_prim _ ?_
  intro s a s' h
  split at h
  · cases h
  · cases h
    exact ⟨rfl, ⟨[_], rfl⟩, .inl (agedF_refl _ _)⟩

theorem limG_addAdes : LimG (F := F) addAdes addAdes := by
  refine limG_prim _ ?_
  intro s a s' h
  cases h
  exact ⟨rfl, ⟨[], rfl⟩, .inr ⟨_, rfl⟩⟩

theorem agedF_last (n : Nat) (l : List (Record F)) (r : Record F) (x : Str) : AgedF n (l ++ [r]) (l ++ [r.setRules x]) := by
  induction l generalizing n with
  | nil => exact ⟨.inr ⟨rfl, x, settled_refl _ _⟩, trivial⟩
  | cons q l ih => exact ⟨.inl (settled_refl _ _), ih _⟩

theorem limG_setFirst (x : Str) : LimG (F := F) (setFirst x) (setFirst x) := by
  refine limG_prim _ ?_
  intro s a s' h
  unfold setFirstRules at h
  cases he : s.ers.elements with
  | nil => rw [he] at h; cases h
  | cons r rs =>
    rw [he] at h
    cases h
    refine ⟨rfl, ⟨[], rfl⟩, .inl ?_⟩
    have e : s.ers.recs = rs.reverse ++ [r] := by
      have : s.ers.recs.reverse = r :: rs := he
      rw [← List.reverse_reverse s.ers.recs, this]; simp
    show AgedF 0 s.ers.recs (r.setRules x :: rs).reverse
    rw [e, List.reverse_cons]
    exact agedF_last _ _ _ _

theorem limG_previousToLast : LimG (F := F) previousToLast previousToLast := by
  refine limG_read _ ?_
  intro s a s' h
  split at h <;> cases h
  rfl
theorem limG_firstElement : LimG (F := F) firstElement firstElement := by
  refine limG_read _ ?_
  intro s a s' h
  split at h <;> cases h
  rfl
theorem limG_allRules : LimG (F := F) allRules allRules := by
  refine limG_read _ ?_
  intro s a s' h
  cases h
  rfl
theorem limG_noErrors : LimG (F := F) noErrors noErrors := by
  refine limG_read _ ?_
  intro s a s' h
  cases h
  rfl
theorem limG_setLastRules (x : Str) : LimG (F := F) (setLastRules x) (setLastRules x) := by
  refine limG_prim _ ?_
  intro s a s' h
  cases h
  refine ⟨rfl, ⟨[], rfl⟩, .inl ?_⟩
  dsimp only
  cases s.ers.recs with
  | nil => trivial
  | cons r rs => exact ⟨.inl ⟨rfl, rfl, rfl⟩, agedF_refl _ _⟩
theorem limG_setDerived (x : Str) : LimG (F := F) (setDerived x) (setDerived x) := by
  refine limG_prim _ ?_
  intro s a s' h
  cases h
  exact ⟨rfl, ⟨[], rfl⟩, .inl (agedF_refl _ _)⟩

theorem limG_exec (n k : Nat) (c : Call) : LimG (F := F) (exec n c) (exec (n + k) c) := (lim_exec n k c).goes

theorem limG_dispatch (n k number : Nat) (t : Token) : LimG (F := F) (dispatch n number t) (dispatch (n + k) number t) := by
  unfold dispatch
  split
  · exact limG_bind (limG_exec _ _ _) fun _ => limG_setFirst _
  · refine limG_bind (limG_exec _ _ _) fun _ => ?_
    split
    · exact limG_exec _ _ _
    · exact limG_pure ()
  · exact limG_exec _ _ _

theorem limG_finish : LimG (F := F) finish finish := by
  unfold finish
  refine limG_bind limG_addAdes fun _ => limG_bind limG_previousToLast fun p => ?_
  split
  · exact limG_noErrors
  · refine limG_bind (limG_setLastRules _) fun _ => limG_bind limG_firstElement fun f => ?_
    split
    · exact limG_throw _
    · refine limG_bind limG_allRules fun _ => ?_
      split <;> exact limG_bind (limG_setDerived _) fun _ => limG_bind (limG_whenM _ (limG_setDerived _)) fun _ => limG_noErrors

/-- `parse_f15` with at least as much stack and without an exception from outside does the same, or goes on from there. -/
theorem limG_parse (n k : Nat) (l : List Token) : LimG (F := F) (parse n l) (parse (n + k) l) := by
  unfold parse
  refine limG_bind (limG_assignTypes _ _) fun _ => limG_bind limG_firstToken fun o => ?_
  split
  · exact limG_bind limG_addNullError fun _ => limG_bind limG_addAdes fun _ => limG_pure _
  · exact limG_bind (limG_dispatch _ _ _ _) fun _ => limG_finish

/-! ### In terms of the elements -/

theorem agedF_get {n : Nat} {l l' : List (Record F)} (h : AgedF n l l') (j : Nat) (r r' : Record F) (hj : l[j]? = some r) (hj' : l'[j]? = some r') :
    Settled (n + j) r r' ∨ (j + 1 = l.length ∧ ∃ x, Settled (n + j) { r with rules := x } r') := by
  induction l generalizing n l' j with
  | nil => cases hj
  | cons q l ih =>
    cases l' with
    | nil => cases hj'
    | cons q' l' =>
      cases j with
      | zero =>
        cases hj; cases hj'
        rcases h.1 with h1 | ⟨h1, h2⟩
        · exact .inl h1
        · exact .inr ⟨by rw [h1]; rfl, h2⟩
      | succ j =>
        have := ih h.2 j hj hj'
        rw [show n + 1 + j = n + (j + 1) by omega] at this
        rcases this with h1 | ⟨h1, h2⟩
        · exact .inl h1
        · exact .inr ⟨by simp; exact h1, h2⟩

theorem Goes.from {s s' : St Tokens F} (h : Goes s s') : GoesOnFrom s.ers s'.ers := by
  obtain ⟨new, old, h1, h2⟩ := h.recs
  obtain ⟨ne, h3⟩ := h.errs
  have hl := agedF_length h2
  refine ⟨⟨ne.reverse, ?_⟩, ?_, ?_⟩
  · show s'.ers.errs.reverse = s.ers.errs.reverse ++ _
    rw [h3, List.reverse_append]
  · show s.ers.recs.reverse.length ≤ s'.ers.recs.reverse.length
    rw [h1]; simp; omega
  · intro i r r' hi hi'
    change s.ers.recs.reverse[i]? = _ at hi
    change s'.ers.recs.reverse[i]? = _ at hi'
    show Settled (s.ers.recs.reverse.length - 1 - i) r r' ∨ (i = 0 ∧ Settled (s.ers.recs.reverse.length - 1 - i) _ r')
    have hlt : i < s.ers.recs.length := by
      have := (List.getElem?_eq_some_iff.mp hi).1
      simpa using this
    rw [List.getElem?_reverse hlt] at hi
    have hlt' : i < old.length := by omega
    rw [h1, List.reverse_append, List.getElem?_append_left (by simpa using hlt'), List.getElem?_reverse hlt'] at hi'
    rw [← hl] at hi'
    rw [List.length_reverse]
    have := agedF_get h2 _ r r' hi hi'
    rw [Nat.zero_add] at this
    rcases this with g | ⟨g1, x, g2⟩
    · exact .inl g
    · refine .inr ⟨by omega, ?_⟩
      have := settled_rules _ r'.rules g2
      exact this

end F15.Crash
