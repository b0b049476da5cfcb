import Verif.Lemmas.Reflect3
import Verif.Props.Sequence
import Verif.Spec.Example
/-!
# C48: no token disappears
-/

namespace F15
open Spec

set_option linter.unusedSectionVars false
variable {F : Type} [PyFloat F]

theorem word_elem_oldest {x t : Token} {e : Ers F} (hne : e.recs ≠ []) (h : Acc x e) : Acc x (post t e) := by
  rcases h with h | h
  · exact .inl h
  right
  obtain ⟨l, o, hl⟩ := split_last e.recs hne
  unfold Visible at h ⊢
  rw [post_recs t e l o hl, post_errs]
  rw [hl] at h
  have up : ∀ r ∈ l ++ [o], ∃ r' ∈ l ++ [if t.base = .SPEED_VFR then toVfr o else o],
      r'.breakText = r.breakText ∧ core r' = core r := by
    intro r hr
    rcases List.mem_append.1 hr with hr | hr
    · exact ⟨r, by simp [hr], rfl, rfl⟩
    · obtain rfl := List.mem_singleton.1 hr
      refine ⟨_, List.mem_append_right _ (List.mem_singleton.2 rfl), ?_, ?_⟩ <;> split <;> rfl
  rcases h with ⟨r, hr, h⟩ | ⟨r, hr, h⟩ | h
  · obtain ⟨r', h1, _, h3⟩ := up r hr
    exact .inl ⟨r', h1, elem_core h3 h⟩
  · obtain ⟨r', h1, h2, _⟩ := up r hr
    exact .inr (.inl ⟨r', h1, word_same h2 h⟩)
  · exact .inr (.inr h)

theorem run_reflect {frames : Nat} {e : Ers F} (hne : e.recs ≠ []) {t : Token} {rest : List Token}
    (hT : ∀ x ∈ t :: rest, Typed x) (hN : ∀ x ∈ t :: rest, x.text ≠ []) {e' : Ers F} (h : runL frames e t rest = .ok e') :
    ∃ read dropped, t :: rest = read ++ dropped ∧ (∀ x ∈ read, Acc x e') ∧
      (dropped = [] ∨ ∃ pre b, read = pre ++ [b] ∧ b.base = .BREAK_END ∧ e'.errs ≠ []) := by
  have li := lih_exec (F := F) hT hN frames
  have ka := keep_of (F := F) hN (trace_exec (F := F) hT frames)
  have mo := mono_of (trace_exec (F := F) hT frames)
  have hi : Inv (t :: rest) e rest := ⟨hne, List.suffix_cons _ _⟩
  have ht : t ∈ t :: rest := by simp
  have fin : ∀ s : St (List Token) F, Lf (t :: rest) false [t] rest s →
      ∃ read dropped, t :: rest = read ++ dropped ∧ (∀ x ∈ read, Acc x s.ers) ∧
      (dropped = [] ∨ ∃ pre b, read = pre ++ [b] ∧ b.base = .BREAK_END ∧ s.ers.errs ≠ []) := by
    rintro s ⟨read, h1, h2, h3⟩
    refine ⟨t :: read, s.toks, by rw [List.cons_append, ← h1], by simpa using h2, h3.imp id ?_⟩
    rintro ⟨⟨b, hb, pre, hp⟩, h4⟩
    have : t :: read = pre ++ [b] := by
      have : (t :: read) ++ s.toks = (pre ++ [b]) ++ s.toks := by rw [List.cons_append, ← h1, ← hp]; simp
      exact List.append_cancel_right this
    exact ⟨pre, b, this, hb, h4.resolve_left (by simp)⟩
  unfold runL at h
  cases hb : t.base <;> rw [hb] at h <;> dsimp only at h
  case SPEED_VFR =>
    cases h1 : exec frames (.assignSpeedVfr t) (⟨e, rest⟩ : St (List Token) F) with
    | error x => rw [h1] at h; cases h
    | ok p =>
      rw [h1] at h
      have i1 := (mo (.assignSpeedVfr t) _ _ _ hi ⟨ht, hb⟩ h1).2
      dsimp only at h
      rw [setFirst_eq _ i1.ne] at h
      cases h
      obtain ⟨read, dropped, h2, h3, h4⟩ := fin p.2 (li (.assignSpeedVfr t) _ _ _ hi ⟨ht, hb⟩ trivial h1)
      refine ⟨read, dropped, h2, fun x hx => ?_, h4⟩
      have := word_elem_oldest (t := t) i1.ne (h3 x hx)
      unfold post at this
      rwa [if_pos hb] at this
  case SPEED_ALTITUDE =>
    cases h1 : exec frames (.assignSpeedAltitude t) (⟨e, rest⟩ : St (List Token) F) with
    | error x => rw [h1] at h; cases h
    | ok p =>
      rw [h1] at h
      have i1 := (mo (.assignSpeedAltitude t) _ _ _ hi ⟨ht, hb⟩ h1).2
      dsimp only at h
      by_cases hr : rest = []
      · rw [if_pos hr] at h
        cases h2 : exec frames (.addErrorAndReSync t 49) p.2 with
        | error x => rw [h2] at h; cases h
        | ok q =>
          rw [h2] at h
          cases h
          refine ⟨[t], [], by simp [hr], ?_, .inl rfl⟩
          intro x hx
          rw [List.mem_singleton.1 hx]
          exact .inl (by simp [auxiliary, hb])
      · rw [if_neg hr] at h
        cases h
        exact fin p.2 (li (.assignSpeedAltitude t) _ _ _ hi ⟨ht, hb⟩ trivial h1)
  all_goals
    cases h1 : exec frames (.addErrorAndReSync t 1) (⟨e, rest⟩ : St (List Token) F) with
    | error x => rw [h1] at h; cases h
    | ok p =>
      rw [h1] at h
      cases h
      exact fin p.2 (li (.addErrorAndReSync t 1) _ _ _ hi ⟨ht, by decide⟩ trivial h1)

/-- **C48** Whatever the field 15, every token, up to a possible cut, is visible in the result: as an element, as a word of
the break text of an element, or as the subject of an error; except for the separators and modifiers (`auxiliary`). If tokens
were cut off at the end, errors were reported, and the last token read was a word that ends a break. -/
theorem c48 {frames : Nat} {tokens : Tokens} {b : Bool} {e' : Ers F} (hN : ∀ t ∈ tokens.toks, t.text ≠ [])
    (h : parseF15 frames Ers.new tokens = .ok (b, e')) :
    ∃ read dropped, typedTokens tokens = read ++ dropped ∧
      (∀ t ∈ read, auxiliary t = true ∨ Visible t e'.elements e'.errors) ∧
      (dropped = [] ∨ ∃ pre w, read = pre ++ [w] ∧ w.base = .BREAK_END ∧ e'.errors ≠ []) := by
  rw [parse_eq] at h
  change parseL frames Ers.new (typedTokens tokens) = _ at h
  have hT : ∀ t ∈ typedTokens tokens, Typed t := fun t ht => typed_map ht
  have hN' : ∀ t ∈ typedTokens tokens, t.text ≠ [] := by
    intro t ht
    obtain ⟨y, hy, rfl⟩ := List.mem_map.1 ht
    rw [assignSyntax_eq]
    split <;> exact hN y hy
  cases hl : typedTokens tokens with
  | nil => exact ⟨[], [], rfl, by simp, .inl rfl⟩
  | cons t rest =>
    rw [hl] at h hT hN'
    have hp := run_trace frames (Ers.new : Ers F) (new_ne (F := F)) t rest hT
    unfold parseL at h
    dsimp only at h
    cases hr : runL frames (Ers.new : Ers F) t rest with
    | error x => rw [hr] at h; cases h
    | ok e1 =>
      rw [hr] at h hp
      obtain ⟨e2, ⟨ts2, hs⟩, rfl⟩ := hp
      have hn : e2.recs ≠ [] := (hs.invs ⟨Act.run_ne _ _ (new_ne (F := F)), List.suffix_cons _ _⟩).ne
      dsimp only at h
      rw [finish_eq _ (post_ne t e2 hn)] at h
      simp only [Except.ok.injEq, Prod.mk.injEq] at h
      obtain ⟨_, rfl⟩ := h
      obtain ⟨read, dropped, h1, h2, h3⟩ := run_reflect (new_ne (F := F)) hT hN' hr
      refine ⟨read, dropped, h1, fun x hx => ?_, h3.imp id ?_⟩
      · refine (h2 x hx).imp id ?_
        rintro (⟨r, hr, h⟩ | ⟨r, hr, h⟩ | ⟨n, r, hr, h⟩)
        · exact .inl ⟨r, by rw [fin_elements]; simp [Ers.elements, hr], h⟩
        · exact .inr (.inl ⟨r, by rw [fin_elements]; simp [Ers.elements, hr], h⟩)
        · exact .inr (.inr ⟨n, r, by show r ∈ (post t e2).errs.reverse; simpa using hr, h⟩)
      · rintro ⟨pre, w, h4, h5, h6⟩
        exact ⟨pre, w, h4, h5, by show (post t e2).errs.reverse ≠ []; simpa using h6⟩

/-- **C48** Without the words that end a break, nothing is cut off: every token that is not a separator or modifier is
visible in the result. -/
theorem c48_uncut {frames : Nat} {tokens : Tokens} {b : Bool} {e' : Ers F} (hN : ∀ t ∈ tokens.toks, t.text ≠ [])
    (h : parseF15 frames Ers.new tokens = .ok (b, e')) (hb : ∀ t ∈ typedTokens tokens, t.base ≠ .BREAK_END)
    {t : Token} (ht : t ∈ typedTokens tokens) (ha : auxiliary t = false) : Visible t e'.elements e'.errors := by
  obtain ⟨read, dropped, h1, h2, h3⟩ := c48 hN h
  rcases h3 with rfl | ⟨pre, w, rfl, h4, _⟩
  · rcases h2 t (by simpa [h1] using ht) with h | h
    · rw [ha] at h; cases h
    · exact h
  · exact absurd h4 (hb w (by rw [h1]; simp))

/-- **C48** Nor if no error was reported. -/
theorem c48_accepted {frames : Nat} {tokens : Tokens} {e' : Ers F} (hN : ∀ t ∈ tokens.toks, t.text ≠ [])
    (h : parseF15 frames Ers.new tokens = .ok (true, e'))
    {t : Token} (ht : t ∈ typedTokens tokens) (ha : auxiliary t = false) : Visible t e'.elements [] := by
  obtain ⟨read, dropped, h1, h2, h3⟩ := c48 hN h
  have he : e'.errors = [] := by
    rcases parse_cases new_ne h with ⟨_, h, _⟩ | ⟨_, _, e1, _, _, _, h4, rfl⟩
    · cases h
    · have : e1.errs = [] := of_decide_eq_true h4.symm
      show (post _ e1).errs.reverse = []
      rw [post_errs, this]; rfl
  rw [he] at h2
  rcases h3 with rfl | ⟨_, _, _, _, h6⟩
  · rcases h2 t (by simpa [h1] using ht) with h | h
    · rw [ha] at h; cases h
    · exact h
  · exact absurd he h6

/-- The exception is needed: a token can disappear (here `DCT DEF`, after `IFR` in a field 15 with an error). -/
theorem c48_false : ¬ ∀ (s : Str) (b : Bool) (e' : Ers Rat), parseText s = .ok (b, e') →
    ∀ t ∈ typedTokens ⟨tokenizeList f15Whitespace s, 0⟩, auxiliary t = false → Visible t e'.elements e'.errors := by
  intro h
  obtain ⟨b, e', h1, h2⟩ := check_ok (s := py! "N0450F350 ABC N0450F350 IFR DCT DEF")
    (p := fun _ e => (e.elements.all fun r => r.start ≠ 32 && r.breakText = []) && (e.errors.all fun r => r.start ≠ 32))
    (by decide +kernel)
  have h3 := h _ b e' h1 { text := py! "DEF", start := 32, stop := 35, base := .POINT, sub := .PRP } (by decide +kernel) rfl
  simp only [Bool.and_eq_true, List.all_eq_true, decide_eq_true_eq] at h2
  rcases h3 with ⟨r, hr, h3⟩ | ⟨r, hr, u, v, h3, _⟩ | ⟨n, r, hr, msg, _, rfl⟩
  · exact (h2.1 r hr).1 h3.1
  · rw [(h2.1 r hr).2] at h3
    have := congrArg List.length h3
    simp at this
  · exact h2.2 _ hr rfl

/-- A rejected field 15 with an element, break text words, errors, and none of its fifteen tokens lost. -/
example : ∃ b, ∃ e' : Ers Rat, parseText (py! "N0450F350 ABC UL9 VFR FREE TEXT XYZZYX DEF/N0450F350 C/GHI UL9 (JKL") = .ok (b, e') ∧
    e'.errors ≠ [] ∧ ∀ t ∈ typedTokens ⟨tokenizeList f15Whitespace (py! "N0450F350 ABC UL9 VFR FREE TEXT XYZZYX DEF/N0450F350 C/GHI UL9 (JKL"), 0⟩,
      auxiliary t = false → Visible t e'.elements e'.errors := by
  obtain ⟨b, e', h, h1⟩ := check_ok (s := py! "N0450F350 ABC UL9 VFR FREE TEXT XYZZYX DEF/N0450F350 C/GHI UL9 (JKL")
    (p := fun _ e => !e.errors.isEmpty) (by decide +kernel)
  refine ⟨b, e', h, by simpa using h1, fun t ht ha => c48_uncut ?_ h ?_ ht ha⟩
  · decide +kernel
  · decide +kernel

/-- A cut: the tokens after `IFR` are not read. -/
example : ∃ b, ∃ e' : Ers Rat, parseText (py! "N0450F350 ABC N0450F350 IFR DCT DEF") = .ok (b, e') ∧ e'.errors ≠ [] ∧
    ∃ read dropped, typedTokens ⟨tokenizeList f15Whitespace (py! "N0450F350 ABC N0450F350 IFR DCT DEF"), 0⟩ = read ++ dropped ∧
      (∀ t ∈ read, auxiliary t = true ∨ Visible t e'.elements e'.errors) := by
  obtain ⟨b, e', h, h1⟩ := check_ok (s := py! "N0450F350 ABC N0450F350 IFR DCT DEF") (p := fun _ e => !e.errors.isEmpty) (by decide +kernel)
  obtain ⟨read, dropped, h2, h3, _⟩ := c48 (by decide +kernel) h
  exact ⟨b, e', h, by simpa using h1, read, dropped, h2, h3⟩

/-- An accepted field 15. -/
example : ∃ e' : Ers Rat, parseText (py! "N0450F350 ABC VFR FREE TEXT IFR DEF/N0450F350 GHI") = .ok (true, e') ∧
    ∀ t ∈ typedTokens ⟨tokenizeList f15Whitespace (py! "N0450F350 ABC VFR FREE TEXT IFR DEF/N0450F350 GHI"), 0⟩,
      auxiliary t = false → Visible t e'.elements [] := by
  obtain ⟨b, e', h, h1⟩ := check_ok (s := py! "N0450F350 ABC VFR FREE TEXT IFR DEF/N0450F350 GHI") (p := fun b _ => b) (by decide +kernel)
  subst h1
  exact ⟨e', h, fun t ht ha => c48_accepted (by decide +kernel) h ht ha⟩

end F15
