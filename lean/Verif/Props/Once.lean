import Verif.Lemmas.OnlyOnce
import Verif.Props.Sequence
import Verif.Props.Tokenizer
import Verif.Spec.Once
import Verif.Spec.Example
/-!
# C67: no complaint is made twice, and the errors are few

No two errors say the same about the same word, and there are at most four errors for each word. The exception: error 40 about a
SPEED/LEVEL/LEVEL word is reported for each of its levels, with the same text.
-/

namespace F15
open Spec

set_option linter.unusedSectionVars false
variable {F : Type} [PyFloat F]

/-- The run keeps the errors different and few. -/
theorem run_once {t : Token} {p : List Token} (hT : ∀ u ∈ t :: p, Typed u) {n : Nat}
    (hst : (t :: p).Pairwise fun t u => t.start < u.start) {e1 : Ers F} (h : runL n Ers.new t p = .ok e1) :
    e1.errs.Pairwise Differ ∧ e1.recs ≠ [] ∧ e1.errs.length ≤ 4 * (t :: p).length := by
  have ho : InOnce (F := F) Ers.new (t :: p) := ⟨⟨List.Pairwise.nil, hst, new_ne⟩, fun a ha => (by cases ha)⟩
  have ih := (once_exec (F := F) hT n).1
  have hs : p <:+ t :: p := List.suffix_cons _ _
  have hr : Room (F := F) (fun _ => True) p (4 * (t :: p).length) Ers.new p 4 :=
    ⟨fun _ _ => trivial, fun _ _ _ _ => trivial, List.suffix_refl _, by
      show 0 + _ + _ ≤ _
      simp only [List.length_cons]; omega⟩
  unfold runL at h
  cases hb : t.base <;> rw [hb] at h
  case SPEED_VFR =>
    dsimp only at h
    have g := OnceIH.one (c := .assignSpeedVfr t) ih ho.tail hs hr rfl (by simp) (fun _ _ => trivial) ho.fresh (fun h1 h2 => ⟨h1, h2⟩)
      ⟨by simp, hb⟩ (by simp [costOf, argOf]; omega)
    cases r : exec n (.assignSpeedVfr t) (⟨Ers.new, p⟩ : St (List Token) F) with
    | error u => rw [r] at h; cases h
    | ok q =>
      rw [r] at h g
      obtain ⟨k, _, _, l⟩ := g q.2.ers q.2.toks rfl
      dsimp only at h
      rw [setFirst_eq _ k.ne] at h
      cases h
      refine ⟨k.errs, ?_, by dsimp only; omega⟩
      show mapOldest toVfr q.2.ers.recs ≠ []
      obtain ⟨a, o, ha⟩ := split_last _ k.ne
      rw [ha, mapOldest_append]; simp
  case SPEED_ALTITUDE =>
    dsimp only at h
    have g := OnceIH.one (c := .assignSpeedAltitude t) ih ho.tail hs hr rfl (by simp) (fun _ _ => trivial) ho.fresh (fun h1 h2 => ⟨h1, h2⟩)
      ⟨by simp, hb⟩ (by simp [costOf, argOf]; omega)
    cases r : exec n (.assignSpeedAltitude t) (⟨Ers.new, p⟩ : St (List Token) F) with
    | error u => rw [r] at h; cases h
    | ok q =>
      rw [r] at h g
      obtain ⟨k, _, _, l⟩ := g q.2.ers q.2.toks rfl
      dsimp only at h
      split at h
      · rename_i hp
        subst hp
        have hq : q.2 = ⟨(Act.level t).run Ers.new, []⟩ := by
          cases n with
          | zero => exact absurd r (by simp [exec])
          | succ n =>
            change step (exec n) (.assignSpeedAltitude t) ⟨Ers.new, []⟩ = _ at r
            rw [step_level _ t (hT t (by simp)) hb Ers.new [] ho.ne] at r
            cases r; rfl
        have hnums := mild_nums (a := .level t) trivial
        have hun : Unsaid ((Act.level t).run (Ers.new (F := F))) t 49 := by
          intro x hx
          rw [run_errs, List.mem_append, List.mem_reverse, List.mem_map] at hx
          rcases hx with ⟨m, hm, rfl⟩ | hx
          · refine .inr fun hc => ?_
            have h49 := errText_inj (hnums.1.2 m hm) (by decide) hc
            subst h49
            have : granErr (restOf t.text) = [] ∨ granErr (restOf t.text) = [40] := granErr_cases _
            change 49 ∈ granErr (restOf t.text) at hm
            rcases this with k | k <;> rw [k] at hm <;> simp at hm
          · cases hx
        have hr1 : Room (F := F) (fun _ => True) [] 4 ((Act.level t).run Ers.new) [] 1 :=
          ⟨fun _ _ => trivial, fun _ _ _ _ => trivial, List.suffix_refl _, by
            rw [run_errs_len]
            show _ + 0 + 0 + 1 ≤ 4
            have := hnums.2.2
            omega⟩
        rw [hq] at k h
        have g2 := OnceIH.err (n := 49) (t := t) ih k (List.nil_suffix) hr1 (by simp) (fun _ _ => trivial) (fun _ h => nomatch h) (by decide)
          (by decide) hun (by omega)
        cases r2 : exec n (.addErrorAndReSync t 49) (⟨(Act.level t).run Ers.new, []⟩ : St (List Token) F) with
        | error u => rw [r2] at h; cases h
        | ok v =>
          rw [r2] at h; cases h
          obtain ⟨k2, _, _, l2⟩ := g2 v.2.ers v.2.toks r2
          exact ⟨k2.errs, k2.ne, by simp only [List.length_cons, List.length_nil]; omega⟩
      · cases h; exact ⟨k.errs, k.ne, by omega⟩
  all_goals
    dsimp only at h
    have g := OnceIH.fresh (t := t) (n := 1) ih ho.tail hs hr (by simp) (fun _ _ => trivial) ho.fresh (by decide) (by decide) (by omega)
    cases r : exec n (.addErrorAndReSync t 1) (⟨Ers.new, p⟩ : St (List Token) F) with
    | error u => rw [r] at h; cases h
    | ok q =>
      rw [r] at h g; cases h
      obtain ⟨k, _, _, l⟩ := g q.2.ers q.2.toks rfl
      exact ⟨k.errs, k.ne, by omega⟩

/-- The facts about a parse. -/
theorem parse_once {n : Nat} {tokens : Tokens} (hs : tokens.toks.Pairwise fun t u => t.start < u.start) {b : Bool} {e : Ers F}
    (h : parseF15 n Ers.new tokens = .ok (b, e)) :
    (e.errors.Pairwise fun r r' => ¬ SameComplaint r r' ∨ AboutTwoLevels r') ∧ e.errors.length ≤ max 1 (4 * tokens.toks.length) := by
  have hT : ∀ u ∈ typedTokens tokens, Typed u := fun u hu => typed_map hu
  have hlen : (typedTokens tokens).length = tokens.toks.length := by unfold typedTokens; simp
  have hst : (typedTokens tokens).Pairwise fun t u => t.start < u.start := by
    unfold typedTokens
    rw [List.pairwise_map]
    have as : ∀ u : Token, (assignSyntax u).start = u.start := by
      intro u; unfold assignSyntax; dsimp only; split <;> rfl
    simpa only [as] using hs
  rw [parse_eq] at h
  change parseL n _ (typedTokens tokens) = _ at h
  cases ht : typedTokens tokens with
  | nil =>
    rw [ht] at h
    have h' := (Prod.mk.inj (Except.ok.inj h)).2
    rw [← h']
    refine ⟨?_, ?_⟩
    · show List.Pairwise _ [(nullErr : Record F)]
      simp
    · show 1 ≤ _
      omega
  | cons t p =>
    rw [ht] at h hT hst
    unfold parseL at h
    dsimp only at h
    cases r : runL n (Ers.new (F := F)) t p with
    | error u => rw [r] at h; cases h
    | ok d =>
      rw [r] at h
      obtain ⟨k1, k2, k3⟩ := run_once hT hst r
      dsimp only at h
      rw [finish_eq _ k2] at h
      have q : finErs d = e := (Prod.mk.inj (Except.ok.inj h)).2
      have herr : e.errors = d.errs.reverse := by rw [← q]; rfl
      rw [herr, List.pairwise_reverse, List.length_reverse, ← hlen, ht]
      refine ⟨k1.imp fun {x y} hxy => ?_, by omega⟩
      rcases hxy with hxy | ⟨u, rfl, hu⟩
      · refine .inl fun hc => ?_
        rcases hxy with k | k
        · exact k hc.1.symm
        · exact k hc.2.symm
      · exact .inr ⟨hu, u, errRec_is (by decide)⟩

/-- **C67** for tokens in the order of the text: no complaint is made twice, except error 40 about a word with two levels. -/
theorem c67_partial {n : Nat} {tokens : Tokens} (hs : tokens.toks.Pairwise fun t u => t.start < u.start) {b : Bool} {e : Ers F}
    (h : parseF15 n Ers.new tokens = .ok (b, e)) : e.errors.Pairwise fun r r' => ¬ SameComplaint r r' ∨ AboutTwoLevels r' :=
  (parse_once hs h).1

theorem starts_increase (ws s : Str) : (tokenizeList ws s).Pairwise fun t u => t.start < u.start := by
  refine List.Pairwise.imp_of_mem ?_ (c02_disjoint ws s)
  intro x y hx hy hxy
  have := (c01_locations ws s x hx).1
  omega

/-- **C67** for texts: no complaint is made twice, except error 40 about a word with two levels. -/
theorem c67_text_partial {n : Nat} (ws s : Str) {b : Bool} {e : Ers F} (h : parseF15 n Ers.new ⟨tokenizeList ws s, 0⟩ = .ok (b, e)) :
    e.errors.Pairwise fun r r' => ¬ SameComplaint r r' ∨ AboutTwoLevels r' :=
  c67_partial (starts_increase ws s) h

/-- **C67** If no SPEED/LEVEL/LEVEL word is complained about, no complaint is made twice. -/
theorem c67_others {n : Nat} (ws s : Str) {b : Bool} {e : Ers F} (h : parseF15 n Ers.new ⟨tokenizeList ws s, 0⟩ = .ok (b, e))
    (hno : ∀ r ∈ e.errors, r.base ≠ .SPEED_ALTITUDE_ALTITUDE) : e.errors.Pairwise fun r r' => ¬ SameComplaint r r' := by
  refine List.Pairwise.imp_of_mem ?_ (c67_text_partial ws s h)
  intro x y hx hy hxy
  exact hxy.resolve_right fun k => hno y hy k.1

/-- **C67** There are at most four errors for each word (and one for the empty field). -/
theorem c67_count {n : Nat} (ws s : Str) {b : Bool} {e : Ers F} (h : parseF15 n Ers.new ⟨tokenizeList ws s, 0⟩ = .ok (b, e)) :
    e.errors.length ≤ max 1 (4 * (tokenizeList ws s).length) :=
  (parse_once (starts_increase ws s) h).2

/-- The exception is needed: a word with two wrong levels is complained about twice in the same words. -/
theorem c67_false : ∃ (s : Str) (b : Bool) (e : Ers Rat), parseText s = .ok (b, e) ∧ ¬ e.errors.Pairwise fun r r' => ¬ SameComplaint r r' := by
  obtain ⟨b, e, h1, h2⟩ := check_ok (s := py! "N0450F350 LNZ C/LNZ/N0450F351F352")
    (p := fun _ e => (e.errors.map fun r => (r.start, r.errorText)) =
      [(20, py! "The flight level 'N0450F351F352' must end in a zero or 5"), (20, py! "The flight level 'N0450F351F352' must end in a zero or 5")])
    (by decide +kernel)
  refine ⟨_, b, e, h1, fun hp => ?_⟩
  rw [decide_eq_true_eq] at h2
  match he : e.errors with
  | [] => rw [he] at h2; cases h2
  | [_] => rw [he] at h2; simp at h2
  | x :: y :: l =>
    rw [he] at h2 hp
    simp only [List.map_cons, List.cons.injEq, Prod.mk.injEq] at h2
    refine (List.pairwise_cons.1 hp).1 y (by simp) ⟨?_, ?_⟩
    · rw [h2.1.1, h2.2.1.1]
    · rw [h2.1.2, h2.2.1.2]

/-! ## Examples -/

/-- A word with four complaints, all different: a point refused after a route, with wrong latitude, longitude and bearing. -/
example : check (py! "N0450F350 ABC UL9 95N190E370100") (fun b e => !b && (e.errors.map fun r => (r.start, r.errorText)) =
    [(18, py! "Lat/Long '95N190E370100' cannot follow an ATS route"),
     (18, py! "Latitude degree value must be 0 to 90 instead of '95N190E370100'"),
     (18, py! "Longitude degree value must be 0 to 180 instead of '95N190E370100'"),
     (18, py! "Bearing degree value must be 0 to 360 instead of '95N190E370100'")]) = true := by
  decide +kernel

/-- The word after a STAR is complained about when it is seen, and again when it is read. -/
example : check (py! "N0450F350 ABC LNZ1A STAR XXX!!") (fun b e => !b && (e.errors.map fun r => (r.start, r.name))
    = [(20, py! "STAR"), (25, py! "XXX!!"), (25, py! "XXX!!")]) = true := by
  decide +kernel

end F15
