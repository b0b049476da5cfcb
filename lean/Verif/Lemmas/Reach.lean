import Verif.Lemmas.Tasks
/-!
# The states of a task that is not disturbed

They are the states that Model/Crash.lean gives for an exception at that point.
-/

namespace F15.Tasks
open Spec

set_option linter.unusedSectionVars false

section
variable {σ F : Type} [TokStream σ] [PyFloat F]

/-- `Reach t s t' s'`: some steps of the task `t` in state `s` leave the task `t'` and the state `s'`. -/
inductive Reach {α : Type} (t : M σ F α) (s : St σ F) : M σ F α → St σ F → Prop
  | refl : Reach t s t s
  | step {n w s'} : Reach t s (.act n w) s' → Reach t s (n s') (w s')

theorem Reach.play {α : Type} {t t' : M σ F α} {s s' : St σ F} (h : Reach t s t' s') :
    (∃ k, ∀ j x v, play t ⟨s, some ⟨k + j, x, v⟩⟩ = play t' ⟨s', some ⟨j, x, v⟩⟩) ∧ play t ⟨s, none⟩ = play t' ⟨s', none⟩ := by
  induction h with
  | refl => exact ⟨⟨0, fun j x v => by rw [Nat.zero_add]⟩, rfl⟩
  | @step n w s' _ ih =>
    obtain ⟨⟨k, ih1⟩, ih2⟩ := ih
    refine ⟨⟨k + 1, fun j x v => ?_⟩, ih2⟩
    have := ih1 (j + 1) x v
    rw [show k + 1 + j = k + (j + 1) by omega, this]
    rfl

theorem mix_none (r r' : Record F) : Crash.mix (fun _ => false) r r' = r := rfl

theorem blend_none (s s' : St σ F) : Crash.blend (fun _ => false) s s' = s := by
  unfold Crash.blend
  have : Crash.mixAll (fun _ => false) s.ers.recs s'.ers.recs = s.ers.recs := by
    unfold Crash.mixAll
    split
    · rename_i hl
      generalize s.ers.recs = l at hl ⊢
      generalize s'.ers.recs = l' at hl ⊢
      induction l generalizing l' with
      | nil => cases l' <;> rfl
      | cons r l ih =>
        cases l' with
        | nil => simp at hl
        | cons r' l' => rw [List.zipWith_cons_cons, mix_none, ih l' (by simpa using hl)]
    · rfl
  rw [this]
  rfl

end

section
variable {F : Type} [PyFloat F]

/-- The state in between is one that an exception leaves. -/
theorem Reach.state {n : Nat} {e : Ers F} {tk : Tokens} {t : M Tokens F Bool} {s : St Tokens F} (h : Reach (parse n tk.toks) ⟨e, tk⟩ t s) :
    ∃ k, (Crash.parseF15 n k e tk).2 = (s.ers, s.toks) := by
  obtain ⟨⟨k, h1⟩, h2⟩ := h.play
  cases t with
  | done r =>
    refine ⟨none, ?_⟩
    unfold Crash.parseF15
    rw [← play_parse n tk.toks, h2]
    rfl
  | act m w =>
    refine ⟨some ⟨k, .keyError, fun _ => false⟩, ?_⟩
    have := h1 0 .keyError fun _ => false
    unfold Crash.parseF15
    rw [Nat.add_zero] at this
    rw [← play_parse n tk.toks, this]
    show ((Crash.blend _ s (w s)).ers, (Crash.blend _ s (w s)).toks) = _
    rw [blend_none]

/-- The state after an exception in the next step. -/
theorem Reach.struck {n : Nat} {e : Ers F} {tk : Tokens} {m : St Tokens F → M Tokens F Bool} {w : St Tokens F → St Tokens F} {s : St Tokens F}
    (h : Reach (parse n tk.toks) ⟨e, tk⟩ (.act m w) s) (x : PyErr) (v : Nat → Bool) :
    ∃ k, Crash.parseF15 n (some ⟨k, x, v⟩) e tk = (.error x, (Crash.blend v s (w s)).ers, (Crash.blend v s (w s)).toks) := by
  obtain ⟨⟨k, h1⟩, -⟩ := h.play
  refine ⟨k, ?_⟩
  have := h1 0 x v
  unfold Crash.parseF15
  rw [Nat.add_zero] at this
  rw [← play_parse n tk.toks, this]
  rfl

/-- The result. -/
theorem Reach.result {n : Nat} {e : Ers F} {tk : Tokens} {r : Except PyErr Bool} {s : St Tokens F}
    (h : Reach (parse n tk.toks) ⟨e, tk⟩ (.done r) s) : Crash.parseF15 n none e tk = (r, s.ers, s.toks) := by
  unfold Crash.parseF15
  rw [← play_parse n tk.toks, h.play.2]
  rfl

end
end F15.Tasks
