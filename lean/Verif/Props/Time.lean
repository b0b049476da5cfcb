import Verif.Lemmas.Cost
import Verif.Spec.Example
/-!
# C62: the time of a parse

The number of primitive steps of `parse_f15` is at most 25 times the number of tokens, and 4: no field 15 makes it run for ever or for longer than its length
allows, whatever the words are and whatever the errors.
-/

namespace F15
open Spec
open Tasks (Task Cost A leave bound cost_bind cost_prim cost_pure cost_throw cost_ite cost_whenM cost_exec assignTypes)

set_option linter.unusedSectionVars false
variable {F : Type} [PyFloat F]

/-- At most `b` steps, and the number of tokens stays. -/
def Flat {α : Type} (m : Tasks.M Tokens F α) (b : Nat) : Prop :=
  ∀ s : St Tokens F, steps m s ≤ b ∧ (leave m s).toks.toks.length = s.toks.toks.length

theorem flat_bind {α β : Type} {m : Tasks.M Tokens F α} {f : α → Tasks.M Tokens F β} {a b : Nat} (hm : Flat m a) (hf : ∀ x, Flat (f x) b) :
    Flat (m >>= f) (a + b) := by
  have key : ∀ (t : Tasks.M Tokens F α) s, steps (t.bind f) s ≤ steps t s + b ∧
      (leave (t.bind f) s).toks.toks.length = (leave t s).toks.toks.length := by
    intro t
    induction t with
    | done r =>
      intro s
      cases r with
      | ok x => exact ⟨Nat.le_trans (hf x s).1 (Nat.le_add_left _ _), (hf x s).2⟩
      | error x => exact ⟨Nat.zero_le _, rfl⟩
    | act n w ih =>
      intro s
      refine ⟨?_, (ih s (w s)).2⟩
      have := (ih s (w s)).1
      show steps ((n s).bind f) (w s) + 1 ≤ steps (n s) (w s) + 1 + b
      omega
  intro s
  have h1 := key m s
  have h2 := hm s
  exact ⟨Nat.le_trans h1.1 (Nat.add_le_add_right h2.1 _), h1.2.trans h2.2⟩

theorem flat_pure {α : Type} (a : α) (b : Nat) : Flat (F := F) (pure a) b := fun _ => ⟨Nat.zero_le _, rfl⟩

theorem flat_mod (i : Nat) (f : Token → Token) :
    Flat (F := F) (Tasks.prim fun s => .ok ((), { s with toks := { s.toks with toks := s.toks.toks.modify i f } })) 1 := by
  intro s
  refine ⟨Nat.le_refl 1, ?_⟩
  show (s.toks.toks.modify i f).length = _
  exact List.length_modify ..

theorem flat_types (i : Nat) (l : List Token) : Flat (F := F) (assignTypes i l) (4 * l.length) := by
  induction l generalizing i with
  | nil => exact flat_pure _ _
  | cons t l ih =>
    unfold assignTypes
    have : 4 * (t :: l).length = 1 + (1 + (2 + 4 * l.length)) := by simp only [List.length_cons]; omega
    rw [this]
    refine flat_bind (flat_mod _ _) fun _ => flat_bind (flat_mod _ _) fun _ => flat_bind ?_ fun _ => ih _
    unfold Tasks.whenM
    split
    · exact flat_bind (a := 1) (b := 1) (flat_mod _ _) fun _ => flat_mod _ _
    · exact flat_pure _ _

theorem steps_le {α : Type} {m : Tasks.M Tokens F α} {b : Nat} (h : Cost m b) (s : St Tokens F) : steps m s ≤ A * Tasks.rem s.toks + b := by
  have := h s
  omega

theorem cost_keep {α : Type} (m : F15.M Tokens F α) (h : ∀ s a s', m s = .ok (a, s') → s'.toks = s.toks) {b : Nat} (hb : 1 ≤ b) :
    Cost (Tasks.prim m) b := cost_prim m (fun s a s' hm => by rw [h s a s' hm]; exact Nat.le_refl _) hb

theorem cost_finish : Cost (F := F) Tasks.finish 8 := by
  unfold Tasks.finish
  refine cost_bind (a := 1) (cost_keep _ (fun s a s' h => by cases h; rfl) (Nat.le_refl _)) (by decide) fun _ =>
    cost_bind (a := 1) (cost_keep _ (fun s a s' h => by split at h <;> cases h; rfl) (Nat.le_refl _)) (by decide) fun o => ?_
  have hn : ∀ b, 1 ≤ b → Cost (F := F) Tasks.noErrors b := fun b hb => cost_keep _ (fun s a s' h => by cases h; rfl) hb
  have hd : ∀ x b, 1 ≤ b → Cost (F := F) (Tasks.setDerived x) b := fun x b hb => cost_keep _ (fun s a s' h => by cases h; rfl) hb
  cases o with
  | none => exact hn _ (by decide)
  | some p =>
    refine cost_bind (a := 1) (cost_keep _ (fun s a s' h => by cases h; rfl) (Nat.le_refl _)) (by decide) fun _ =>
      cost_bind (a := 1) (cost_keep _ (fun s a s' h => by split at h <;> cases h; rfl) (Nat.le_refl _)) (by decide) fun o => ?_
    cases o with
    | none => exact cost_throw _ _
    | some f =>
      refine cost_bind (a := 1) (cost_keep _ (fun s a s' h => by cases h; rfl) (Nat.le_refl _)) (by decide) fun l => cost_ite _ ?_ ?_
      all_goals exact cost_bind (a := 1) (hd _ _ (Nat.le_refl _)) (by decide) fun _ =>
        cost_bind (a := 1) (cost_whenM _ (hd _ _ (Nat.le_refl _))) (by decide) fun _ => hn _ (by decide)

theorem cost_dispatch (n k : Nat) (t : Token) : Cost (F := F) (Tasks.dispatch n k t) 16 := by
  unfold Tasks.dispatch
  have he : ∀ b, 2 ≤ b → Cost (F := F) (Tasks.exec n (.addErrorAndReSync t 1)) b := fun b hb => (cost_exec n _).mono hb
  generalize t.base = b
  cases b
  case SPEED_VFR =>
    exact cost_bind (a := 15) (cost_exec n (.assignSpeedVfr t)) (by decide) fun _ =>
      cost_keep _ (fun s a s' h => by split at h <;> cases h; rfl) (by decide)
  case SPEED_ALTITUDE =>
    exact cost_bind (a := 11) (cost_exec n (.assignSpeedAltitude t)) (by decide) fun _ =>
      cost_ite _ ((cost_exec n (.addErrorAndReSync t 49)).mono (by simp [bound])) (cost_pure _ _)
  all_goals exact he _ (by decide)

/-- **C62** `parse_f15` makes at most 25 n + 4 primitive steps for `n` tokens, for every sequence and every token list (also used ones), every
number of stack frames. -/
theorem c62 (frames : Nat) (e : Ers F) (tk : Tokens) : steps (Tasks.parse frames tk.toks) ⟨e, tk⟩ ≤ 25 * tk.toks.length + 4 := by
  have key : ∀ (t : Tasks.M Tokens F Unit) (f : Unit → Tasks.M Tokens F Bool) (s : St Tokens F) (b : Nat),
      (∀ x, steps (f x) (leave t s) ≤ b) → steps (t.bind f) s ≤ steps t s + b := by
    intro t f
    induction t with
    | done r =>
      intro s b h
      cases r with
      | ok x => exact Nat.le_trans (h x) (Nat.le_add_left _ _)
      | error x => exact Nat.zero_le _
    | act n w ih =>
      intro s b h
      have := ih s (w s) b h
      show steps ((n s).bind f) (w s) + 1 ≤ steps (n s) (w s) + 1 + b
      omega
  unfold Tasks.parse
  obtain ⟨h1, h2⟩ := flat_types (F := F) 0 tk.toks ⟨e, tk⟩
  refine Nat.le_trans (key _ _ _ (21 * tk.toks.length + 4) fun _ => ?_) (by omega)
  generalize leave (assignTypes 0 tk.toks) ⟨e, tk⟩ = s at h2
  dsimp only at h2
  show steps (Tasks.Task.bind (Tasks.prim _) _) s ≤ _
  unfold Tasks.prim
  dsimp only [Tasks.Task.bind, steps]
  unfold Tokens.getFirstToken Tokens.getTokenAt
  dsimp only
  by_cases hz : s.toks.toks.length = 0
  · rw [if_pos (.inr (by omega))]
    dsimp only [Tasks.Task.bind]
    have : steps (Tasks.addNullError >>= fun _ => Tasks.addAdes >>= fun _ => pure false : Tasks.M Tokens F Bool) { s with toks := { s.toks with cur := 0 } } ≤ 2 := by
      refine Nat.le_trans (steps_le (b := 2) ?_ _) ?_
      · exact cost_bind (a := 1) (cost_keep _ (fun s a s' h => by split at h <;> cases h; rfl) (Nat.le_refl _)) (by decide) fun _ =>
          cost_bind (a := 1) (cost_keep _ (fun s a s' h => by cases h; rfl) (Nat.le_refl _)) (by decide) fun _ => cost_pure _ _
      · unfold Tasks.rem A
        dsimp only
        omega
    exact Nat.le_trans (Nat.add_le_add_right this 1) (by omega)
  · rw [if_neg (by omega)]
    cases hg : pyGet s.toks.toks 0 with
    | error x => exact Nat.le_add_left_of_le (by show 0 + 1 ≤ 4; omega)
    | ok t =>
      dsimp only [Except.map, Tasks.Task.bind]
      have := steps_le (F := F) (m := Tasks.dispatch frames tk.toks.length t >>= fun _ => Tasks.finish) (b := 24)
        (cost_bind (a := 16) (cost_dispatch _ _ _) (by decide) fun _ => cost_finish) { s with toks := { s.toks with cur := 0 } }
      refine Nat.le_trans (Nat.add_le_add_right this 1) ?_
      unfold Tasks.rem A
      dsimp only
      omega

/-- A field 15 with words of many kinds and an error: 15 tokens, 117 steps. -/
example : (tokenizeList f15Whitespace (py! "N0450F350 4620N05005W180030 B9 DCT C/ABC/N0440F350F370 % VFR IFR PQR/N0450F350")).length = 15 ∧
    steps (Tasks.parse (F := Rat) 100 (tokenizeList f15Whitespace (py! "N0450F350 4620N05005W180030 B9 DCT C/ABC/N0440F350F370 % VFR IFR PQR/N0450F350")))
      ⟨Ers.new, ⟨tokenizeList f15Whitespace (py! "N0450F350 4620N05005W180030 B9 DCT C/ABC/N0440F350F370 % VFR IFR PQR/N0450F350"), 0⟩⟩ = 117 := by
  decide +kernel

end F15
