import Verif.Lemmas.Unique
import Verif.Props.Faults
import Verif.Props.Grammar
/-!
# C47: the first fault is determined by the tokens, and a field with a first fault is rejected with it
-/

namespace F15
open Spec

set_option linter.unusedSectionVars false
variable {F : Type} [PyFloat F]

/-- There is at most one first fault: place and message are functions of the tokens. -/
theorem c47_unique {pre pre' post post' : List Token} {t t' : Token} {n n' : Nat} (h : FirstFault pre t post n)
    (h' : FirstFault pre' t' post' n') (hT : ∀ y ∈ pre ++ t :: post, assignSyntax y = y)
    (he : pre ++ t :: post = pre' ++ t' :: post') : pre = pre' ∧ t = t' ∧ post = post' ∧ n = n' := by
  have tl : ∀ {a : Token} {p : List Token} {x : Token} {po : List Token},
      (∀ y ∈ (a :: p) ++ x :: po, assignSyntax y = y) → ∀ y ∈ p ++ x :: po, assignSyntax y = y :=
    fun h y hy => h y (by simp at hy ⊢; exact .inr hy)
  cases h with
  | start h1 h2 =>
    cases h' with
    | start => cases he; exact ⟨rfl, rfl, rfl, rfl⟩
    | step hb | lone hb | ifr hb => cases he; exact absurd hb h1
    | vfr hb => cases he; exact absurd hb h2
  | step hb hl =>
    cases h' with
    | start h1 h2 => cases he; exact absurd hb h1
    | step => cases he; exact ⟨rfl, rfl, rfl, rfl⟩
    | lone _ hl' | ifr _ hl' => cases he; exact absurd hl' hl
    | vfr hb' => cases he; rw [hb] at hb'; cases hb'
  | lone hb hl =>
    cases h' with
    | start h1 h2 => cases he; exact absurd hb h1
    | step _ hl' => cases he; exact absurd hl hl'
    | lone => cases he; exact ⟨rfl, rfl, rfl, rfl⟩
    | ifr | vfr => simp at he
  | ifr hb hl h =>
    cases h' with
    | start h1 h2 => cases he; exact absurd hb h1
    | step _ hl' => cases he; exact absurd hl hl'
    | lone => simp at he
    | ifr hb' hl' h' =>
      simp only [List.cons_append, List.cons.injEq] at he
      obtain ⟨rfl, he⟩ := he
      obtain ⟨rfl, rfl, rfl, rfl⟩ := fault_unique h h' (tl hT) he
      exact ⟨rfl, rfl, rfl, rfl⟩
    | vfr hb' => obtain ⟨rfl, _⟩ := List.cons.inj he; rw [hb] at hb'; cases hb'
  | vfr hb h =>
    cases h' with
    | start h1 h2 => cases he; exact absurd hb h2
    | step hb' | ifr hb' => obtain ⟨rfl, _⟩ := List.cons.inj he; rw [hb] at hb'; cases hb'
    | lone => simp at he
    | vfr hb' h' =>
      simp only [List.cons_append, List.cons.injEq] at he
      obtain ⟨rfl, he⟩ := he
      obtain ⟨rfl, rfl, rfl, rfl⟩ := fault_unique h h' (tl hT) he
      exact ⟨rfl, rfl, rfl, rfl⟩

/-- The converse of `c47_first`: a field whose tokens have a first fault is rejected, and that fault is the first
error. -/
theorem c47_fault {frames : Nat} {tokens : Tokens} {b : Bool} {e' : Ers F} {pre post : List Token} {t : Token} {n : Nat}
    (ht : typedTokens tokens = pre ++ t :: post) (hf : FirstFault pre t post n)
    (h : parseF15 frames Ers.new tokens = .ok (b, e')) :
    b = false ∧ ∃ x xs, e'.errors = x :: xs ∧ ErrorIs t n x := by
  have hT : ∀ y ∈ pre ++ t :: post, assignSyntax y = y := by rw [← ht]; exact fun y hy => typed_map hy
  have hb : b = false := by
    cases b with
    | false => rfl
    | true => exact absurd (ht ▸ c22_sound tokens h) (c47_disjoint hf hT)
  refine ⟨hb, ?_⟩
  have hne := c13 (by simp [Ers.elements, Ers.new, Ers.addDummyAdepAdes, Ers.createAppendElement, Ers.appendElement]) h
  cases hx : e'.errors with
  | nil => subst hb; simp [hx] at hne
  | cons x xs =>
    obtain ⟨pre', t', post', n', h1, h2, h3⟩ := c47_first (by rw [ht]; simp) h hx
    obtain ⟨rfl, rfl, rfl, rfl⟩ := c47_unique hf h2 hT (by rw [← ht, h1])
    exact ⟨x, xs, rfl, h3⟩

/-- A parse that returns accepts exactly the fields without a first fault. -/
theorem c47_accepts {frames : Nat} {tokens : Tokens} {b : Bool} {e' : Ers F} (hne : typedTokens tokens ≠ [])
    (h : parseF15 frames Ers.new tokens = .ok (b, e')) :
    b = true ↔ ¬ ∃ pre t post n, typedTokens tokens = pre ++ t :: post ∧ FirstFault pre t post n := by
  constructor
  · rintro rfl ⟨pre, t, post, n, h1, h2⟩
    have := (c47_fault h1 h2 h).1
    cases this
  · intro hn
    cases b with
    | true => rfl
    | false =>
      have h0 := c13 (by simp [Ers.elements, Ers.new, Ers.addDummyAdepAdes, Ers.createAppendElement, Ers.appendElement]) h
      cases hx : e'.errors with
      | nil => simp [hx] at h0
      | cons x xs =>
        obtain ⟨pre, t, post, n, h1, h2, _⟩ := c47_first hne h hx
        exact absurd ⟨pre, t, post, n, h1, h2⟩ hn

-- a latitude and a longitude out of range: the message is about the latitude
example : check (py! "N0450F350 95N190E DCT DEF")
    (fun b e => !b && decide (e.errors.map (fun r => (r.name, r.errorText.take 8)) =
      [(py! "95N190E", py! "Latitude"), (py! "95N190E", py! "Longitud")])) = true := by decide +kernel

-- the hypotheses of `c47_unique` and `c47_fault`: a second ATS route in a row
example : FirstFault [mkTok (py! "N0450F350"), mkTok (py! "ABC"), mkTok (py! "UL9")] (mkTok (py! "UL10"))
    [mkTok (py! "DEF")] 53 := by
  refine .ifr (by decide +kernel) (levelOk_iff (mk_typed _) (by decide +kernel) |>.2 (by decide +kernel)) (.point (by decide +kernel) (by decide +kernel) mk_pnt_ok
    (.route (by decide +kernel) (by decide +kernel) (.here (by decide +kernel) (by simp) (by simp))))

end F15
