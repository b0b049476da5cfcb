import Verif.Props.Sequence
/-!
# Error messages that cannot be confused with another message, whatever the text inserted
-/

namespace F15
open Spec

set_option linter.unusedSectionVars false
variable {F : Type} [PyFloat F]

/-- The two messages differ before the first placeholder of either. -/
def differ : Str → Str → Bool
  | a :: s, b :: s' => if a = '!' ∨ b = '!' then false else if a = b then differ s s' else true
  | [], [] => false
  | [], b :: _ => b ≠ '!'
  | a :: _, [] => a ≠ '!'

theorem differ_ne {x : Str} : ∀ {s s' : Str}, differ s s' = true →
    s.flatMap (fun c => if c = '!' then x else [c]) ≠ s'.flatMap (fun c => if c = '!' then x else [c])
  | [], [], h => by simp [differ] at h
  | [], b :: s', h => by simp [differ] at h; simp [h]
  | a :: s, [], h => by simp [differ] at h; simp [h]
  | a :: s, b :: s', h => by
    rw [differ] at h
    split at h
    · cases h
    · rename_i hn
      have h1 : a ≠ '!' := fun hc => hn (.inl hc)
      have h2 : b ≠ '!' := fun hc => hn (.inr hc)
      simp only [List.flatMap_cons, if_neg h1, if_neg h2, List.singleton_append, ne_eq, List.cons.injEq, not_and]
      intro hab
      rw [if_pos hab] at h
      exact differ_ne h

theorem differ_table : (errorMessages.all fun p => [40, 42, 43, 44, 45, 46].all fun n =>
    p.1 = n || errorMessages.all fun q => q.1 ≠ n || differ q.2 p.2) = true := by decide +kernel

/-- A record with the message 40, 42, 43, 44, 45 or 46 for one token is not the record of another message or token. -/
theorem error_unique {t t' : Token} {n m : Nat} {x : Record F} (hn : n = 40 ∨ 42 ≤ n ∧ n ≤ 46) (h : ErrorIs t n x)
    (h' : ErrorIs t' m x) : t' = t ∧ m = n := by
  obtain ⟨s, hs, rfl⟩ := h
  obtain ⟨s', hs', he⟩ := h'
  have e1 : t'.text = t.text := (congrArg Record.name he).symm
  have e2 : t'.start = t.start := (congrArg Record.start he).symm
  have e3 : t'.stop = t.stop := (congrArg Record.stop he).symm
  have e4 : t'.base = t.base := (congrArg Record.base he).symm
  have e5 : t'.sub = t.sub := (congrArg Record.sub he).symm
  have e6 := congrArg Record.errorText he
  dsimp only at e6
  refine ⟨by cases t; cases t'; simp_all, ?_⟩
  have h1 := List.all_eq_true.1 differ_table _ hs'
  have h2 := List.all_eq_true.1 h1 n (by
    simp only [List.mem_cons, List.not_mem_nil, or_false]; omega)
  simp only [Bool.or_eq_true, decide_eq_true_eq] at h2
  rcases h2 with h2 | h2
  · exact h2
  · have h3 := List.all_eq_true.1 h2 _ hs
    simp only [Bool.or_eq_true, decide_eq_true_eq, ne_eq, not_true_eq_false, false_or, decide_false, Bool.false_eq_true] at h3
    rw [e1] at e6
    exact absurd e6 (differ_ne h3)

end F15
