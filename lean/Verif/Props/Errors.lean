import Verif.Props.Sequence
/-!
# C15 and C23: exceptions, and the rule for the first element
-/

namespace F15
open Spec

set_option linter.unusedSectionVars false
variable {F : Type} [PyFloat F]

/-! ### C23 -/

/-- **C23** If the first token is neither SPEED/LEVEL nor SPEED/VFR, the first error of a fresh sequence is message 1
on the first token. -/
theorem c23_first {frames : Nat} {tokens : Tokens} {t : Token} (ht : (typedTokens tokens).head? = some t)
    (h1 : t.base ≠ .SPEED_ALTITUDE) (h2 : t.base ≠ .SPEED_VFR) {b : Bool} {e' : Ers F}
    (h : parseF15 frames Ers.new tokens = .ok (b, e')) : ∃ r, e'.errors.head? = some r ∧ ErrorIs t 1 r := by
  rcases parse_cases new_ne h with ⟨h, _⟩ | ⟨t', rest, e1, htt, hr, hn, _, rfl⟩
  · rw [h] at ht; simp at ht
  · rw [htt] at ht
    simp only [List.head?_cons, Option.some.injEq] at ht
    subst ht
    obtain ⟨ts1, hs⟩ := hr
    have hf : firstAct t' = .err t' 1 := by unfold firstAct; split <;> simp_all
    rw [hf] at hs
    obtain ⟨new, h3, _⟩ := Star.errs (e0 := (Act.err t' 1).run (Ers.new : Ers F)) hs ⟨[], rfl, by simp⟩
    refine ⟨errRec t' 1, ?_, errRec_is (by decide)⟩
    show (post t' e1).errs.reverse.head? = _
    rw [post_errs, show e1.errs = new ++ _ from h3]
    have : ((Act.err t' 1).run (Ers.new : Ers F)).errs = [errRec t' 1] := rfl
    rw [this]; simp

/-- **C23** A field 15 consisting of a lone SPEED/LEVEL has error 49 on it as its last error; the only other
possible error is 40 (flight level granularity) before it. -/
theorem c23_lone {frames : Nat} {tokens : Tokens} {t : Token} (ht : typedTokens tokens = [t])
    (hb : t.base = .SPEED_ALTITUDE) {b : Bool} {e' : Ers F}
    (h : parseF15 frames Ers.new tokens = .ok (b, e')) :
    ∃ l r, e'.errors = l ++ [r] ∧ ErrorIs t 49 r ∧ (l = [] ∨ ∃ r', l = [r'] ∧ ErrorIs t 40 r') := by
  rw [parse_eq] at h
  change parseL frames Ers.new (typedTokens tokens) = _ at h
  have hty : Typed t := typed_map (l := tokens.toks) (by show t ∈ typedTokens tokens; rw [ht]; simp)
  rw [ht] at h
  unfold parseL runL at h
  dsimp only at h
  rw [hb] at h
  dsimp only at h
  cases frames with
  | zero => simp [exec] at h
  | succ n =>
    have e1 : exec (n+1) (.assignSpeedAltitude t) (⟨Ers.new, []⟩ : St (List Token) F) = done ((Act.level t).run Ers.new) [] :=
      step_level (exec n) t hty hb Ers.new [] new_ne
    rw [e1] at h
    unfold done at h
    dsimp only at h
    rw [if_pos rfl] at h
    have e2 : exec (n+1) (.addErrorAndReSync t 49) (⟨(Act.level t).run Ers.new, []⟩ : St (List Token) F) =
        exec n .reSync ⟨(Act.err t 49).run ((Act.level t).run Ers.new), []⟩ :=
      step_err (exec n) t 49 (by decide) _ [] (Act.run_ne _ _ new_ne)
    rw [e2] at h
    cases n with
    | zero => simp [exec] at h
    | succ m =>
      have e3 : exec (m+1) .reSync (⟨(Act.err t 49).run ((Act.level t).run Ers.new), []⟩ : St (List Token) F) =
        done ((Act.err t 49).run ((Act.level t).run Ers.new)) [] := step_reSync (exec m) _ []
      rw [e3] at h
      unfold done at h
      dsimp only at h
      rw [finish_eq _ (Act.run_ne _ _ (Act.run_ne _ _ new_ne))] at h
      have h' := (Prod.mk.inj (Except.ok.inj h)).2
      subst h'
      refine ⟨((granErr (restOf t.text)).map (errRec t)), errRec t 49, ?_, errRec_is (by decide), ?_⟩
      · show ([errRec t 49] ++ (((granErr (restOf t.text)).map (errRec t)).reverse ++ [])).reverse = _
        simp
      · unfold granErr
        split
        · right; exact ⟨_, rfl, errRec_is (by decide)⟩
        · left; rfl

example : summary (py! "N0450F353") = some (false, [py! "ADEP", py! "ADES"],
    [py! "The flight level 'N0450F353' must end in a zero or 5", py! "Field 15 contains no route description"],
    py! "I") := by decide +kernel
example : summary (py! "ABC N0450F350 DEF") = some (false, [py! "ADEP", py! "DEF", py! "ADES"],
    [py! "The first Field 15 element must be a SPEED/LEVEL and not 'ABC'"], py! "I") := by decide +kernel

/-! ### C15 -/

/-- **C15 (partial)** `parse_f15` raises only `RecursionError`, or `ValueError`, the latter only when the field
contains a token `NddddAddddSdddd` or `NddddAddddMdddd`. (When no `RecursionError` occurs: C16.) The full claim is
false, see `c15_false`. -/
theorem c15_partial {frames : Nat} {e : Ers F} (he : e.elements ≠ []) {tokens : Tokens} {x : PyErr}
    (h : parseF15 frames e tokens = .error x) :
    x = .recursionError ∨ (x = .valueError ∧ ∃ t ∈ tokens.toks, ∃ a b c d, Digits 4 a ∧ Digits 4 b ∧ (c = 'S' ∨ c = 'M') ∧
      Digits 4 d ∧ t.text = 'N' :: a ++ 'A' :: b ++ c :: d) := by
  have he' : e.recs ≠ [] := by intro h; apply he; unfold Ers.elements; rw [h]; rfl
  rw [parse_eq] at h
  cases hl : tokens.toks.map assignSyntax with
  | nil => rw [hl] at h; simp [parseL] at h
  | cons t rest =>
    rw [hl] at h
    have := parse_cons frames e he' t rest (fun x hx => typed_map (hl ▸ hx))
    rw [h] at this
    rcases this with h | ⟨h, t', ht', hs⟩
    · exact .inl h
    · refine .inr ⟨h, ?_⟩
      rw [← hl] at ht'
      have hty := typed_map ht'
      obtain ⟨t0, ht0, rfl⟩ := List.mem_map.1 ht'
      refine ⟨t0, ht0, ?_⟩
      have hb := badText_of hty hs
      have : (assignSyntax t0).text = t0.text := by rw [assignSyntax_eq]; split <;> rfl
      rw [this] at hb
      obtain ⟨a, b, c, d, h1, h2, h3, h4, h5⟩ := hb
      exact ⟨a, b, c, d, h1, h2, h3, h4, by simpa using h5⟩

/-- **C15 (refutation)** `N0450F350 PNT C/ABC/N0450A0450S1130` makes `parse_f15` raise `ValueError`. -/
theorem c15_false : parseText (py! "N0450F350 PNT C/ABC/N0450A0450S1130") = .error .valueError := by
  have : (match parseText (py! "N0450F350 PNT C/ABC/N0450A0450S1130") with
    | .ok _ => false | .error x => decide (x = .valueError)) = true := by decide +kernel
  cases h : parseText (py! "N0450F350 PNT C/ABC/N0450A0450S1130") with
  | ok r => rw [h] at this; simp at this
  | error x => rw [h] at this; simpa using this

end F15
