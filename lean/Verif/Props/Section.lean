import Verif.Props.Attributes
import Verif.Props.Local
import Verif.Spec.Example
/-!
# C38, C39: where a section under other rules ends, and the departure under VFR
-/

namespace F15
open Spec

set_option linter.unusedSectionVars false
variable {F : Type} [PyFloat F]

/-- After an element the reader goes on as the kind of the element says. -/
theorem mark_behind {m : Mode} {ts : List Token} {b after : List (Token × Role)} {t : Token} (h : mark m ts = b ++ (t, .head) :: after) :
    after = mark (modeAfter t) (after.map (·.1)) := by
  have none : ∀ {b after : List (Token × Role)}, ([] : List (Token × Role)) = b ++ (t, .head) :: after → False := by
    intro b after h; cases b <;> cases h
  induction ts generalizing m b with
  | nil => rw [mark_nil] at h; exact (none h).elim
  | cons x ts ih =>
    have step : ∀ {o : Role} {m' : Mode}, mark m (x :: ts) = (x, o) :: mark m' ts → (o = .head → m' = modeAfter x) →
        after = mark (modeAfter t) (after.map (·.1)) := by
      intro o m' he ho
      rw [he] at h
      cases b with
      | nil =>
        simp only [List.nil_append, List.cons.injEq, Prod.mk.injEq] at h
        obtain ⟨⟨rfl, h1⟩, h2⟩ := h
        rw [← h2, mark_tokens, ho h1]
      | cons y b =>
        simp only [List.cons_append, List.cons.injEq] at h
        exact ih h.2
    cases m with
    | route f =>
      by_cases hc : isCruise x ts = true
      · exact step (by rw [mark, if_pos hc]) (by intro h; cases h)
      · exact step (by rw [mark, if_neg hc]) (fun _ => rfl)
    | text r => exact step (by rw [mark]) (by intro h; cases h)
    | climb => exact step (by rw [mark]) (by intro h; cases h)
    | slot => exact step (by rw [mark]) (by intro h; cases h)

theorem roles_behind {ts : List Token} {b after : List (Token × Role)} {t : Token} (h : roles ts = b ++ (t, .head) :: after) :
    after = mark (modeAfter t) (after.map (·.1)) := by
  cases ts with
  | nil => unfold roles at h; cases b <;> cases h
  | cons x ts =>
    unfold roles at h
    dsimp only at h
    split at h
    · rename_i hb
      cases b with
      | nil =>
        simp only [List.nil_append, List.cons.injEq, Prod.mk.injEq] at h
        obtain ⟨⟨rfl, _⟩, h2⟩ := h
        rw [← h2, mark_tokens]; simp [modeAfter, hb]
      | cons y b =>
        simp only [List.cons_append, List.cons.injEq] at h
        exact mark_behind h.2
    · cases b with
      | nil => simp at h
      | cons y b =>
        simp only [List.cons_append, List.cons.injEq] at h
        exact mark_behind h.2

/-- The words of a section: up to the first closing word behind which the route can go on. -/
theorem mark_section (r : Str) (ts : List Token) : ∃ words rest, ts = words ++ rest ∧
    mark (.text r) ts = words.map (fun w => (w, .word)) ++ mark (.route false) rest ∧
    (rest = [] ∨ ∃ ws c, words = ws ++ [c] ∧ closes c r ∧ ¬ readOn c rest) ∧
    ∀ a w b, words = a ++ w :: b → closes w r → (b = [] ∧ rest ≠ []) ∨ readOn w (b ++ rest) := by
  induction ts with
  | nil => exact ⟨[], [], rfl, by simp [mark_nil], .inl rfl, by intro a w b h; cases a <;> cases h⟩
  | cons t ts ih =>
    by_cases hc : closes t r ∧ ¬ readOn t ts
    · refine ⟨[t], ts, rfl, by rw [mark_close hc.1 hc.2]; rfl, .inr ⟨[], t, rfl, hc⟩, ?_⟩
      intro a w b h _
      cases a with
      | nil =>
        cases h
        left
        refine ⟨rfl, ?_⟩
        rintro rfl
        exact hc.2 trivial
      | cons x a => cases a <;> cases h
    · have hc' : closes t r → readOn t ts := fun h => Classical.byContradiction fun k => hc ⟨h, k⟩
      obtain ⟨words, rest, h1, h2, h3, h4⟩ := ih
      refine ⟨t :: words, rest, by rw [h1]; rfl, by rw [mark_word hc', h2]; rfl, ?_, ?_⟩
      · refine h3.imp_right ?_
        rintro ⟨ws, c, rfl, hh⟩
        exact ⟨t :: ws, c, rfl, hh⟩
      · intro a w b h hw
        cases a with
        | nil =>
          cases h
          right
          rw [← h1]; exact hc' hw
        | cons x a =>
          simp only [List.cons_append, List.cons.injEq] at h
          exact h4 a w b h.2 hw

theorem take_words (words : List Token) (l : List (Token × Role)) (hl : ∀ m l', l = m :: l' → m.2.isElement = true) :
    (words.map (fun w => (w, Role.word)) ++ l).takeWhile (!·.2.isElement) = words.map fun w => (w, .word) := by
  induction words with
  | nil =>
    cases l with
    | nil => rfl
    | cons m l => simp [hl m l rfl]
  | cons w words ih =>
    have : Role.word.isElement = false := rfl
    simp only [List.map_cons, List.cons_append, List.takeWhile_cons, this]
    simp only [Bool.not_false, if_true]
    rw [ih]

/-- **C39 (where the section ends)** Let `t` be a VFR, OAT, IFPSTOP or SPEED/VFR that is an element of an accepted field 15. The tokens behind it
are `words ++ rest`, and the break text of its element consists of the texts of `words` joined by single spaces. `words` ends with the word
that closes the rules of the element (IFR, GAT, IFPSTART) and is followed by a point (after IFR a point with a `/`, or a last one), or
else goes to the end of field 15; and no word before that is such a closing word. -/
theorem c39_section {frames : Nat} {tokens : Tokens} {e : Ers F} (h : parseF15 frames Ers.new tokens = .ok (true, e))
    (hne : ∀ t ∈ tokens.toks, t.text ≠ []) {before after : List (Token × Role)} {t : Token}
    (hr : roles (typedTokens tokens) = before ++ (t, .head) :: after) (hs : t.base = .BREAK_START ∨ t.base = .SPEED_VFR) :
    ∃ r words rest, e.elements[elementCount before + 1]? = some r ∧ r.start = t.start ∧ r.stop = t.stop ∧
      typedTokens tokens = before.map (·.1) ++ t :: words ++ rest ∧ r.breakText = spaced words ∧
      (rest = [] ∨ ∃ ws c p rest', words = ws ++ [c] ∧ closes c r.rules ∧ rest = p :: rest' ∧ p.base = .POINT ∧
        (c.sub = .IFR → ∀ s, rest'.head? = some s → s.base = .SLASH)) ∧
      ∀ a w b, words = a ++ w :: b → closes w r.rules → (b = [] ∧ rest ≠ []) ∨ readOn w (b ++ rest) := by
  have hst : startsText (t, .head) = true := by rcases hs with hs | hs <;> simp [startsText, hs]
  obtain ⟨r, h1, h2, _⟩ := (c39 h hne).1 before _ after hr rfl
  obtain ⟨r', h1', h3⟩ := (c25_accepted h).1 before _ after hr rfl
  rw [h1] at h1'; cases h1'
  obtain ⟨r', h1', h4⟩ := (c46 h).2 before _ after hr rfl
  rw [h1] at h1'; cases h1'
  have hb := roles_behind hr
  have hm : modeAfter t = .text r.rules := by
    rw [h3]
    rcases hs with hs | hs <;> simp [modeAfter, elementRules, hs]
  obtain ⟨words, rest, k1, k2, k3, k4⟩ := mark_section r.rules (after.map (·.1))
  rw [hm, k2] at hb
  have habout : about after = words.map fun w => (w, .word) := by
    rw [hb]
    unfold about
    apply take_words
    intro m l' hl
    rcases k3 with rfl | ⟨ws, c, _, _, hn⟩
    · rw [mark_nil] at hl; cases hl
    · cases rest with
      | nil => rw [mark_nil] at hl; cases hl
      | cons p rest =>
        have hp : p.base = .POINT := Classical.byContradiction fun k => hn (.inl k)
        rw [mark_route (by simp [hp])] at hl
        cases hl
        simp [roleOf, hp, Role.isElement]
  have htok : typedTokens tokens = before.map (·.1) ++ t :: words ++ rest := by
    have := roles_tokens (typedTokens tokens)
    rw [hr] at this
    rw [← this]
    simp only [List.map_append, List.map_cons, k1]
    simp
  refine ⟨r, words, rest, h1, h4.1, h4.2.1, htok, ?_, ?_, k4⟩
  · rw [(h2 hst).1, habout]
    unfold joined spaced
    rw [List.map_map]; rfl
  · rcases k3 with k3 | ⟨ws, c, e1, e2, hn⟩
    · exact .inl k3
    · right
      cases rest with
      | nil => exact absurd trivial hn
      | cons p rest =>
        have hp : p.base = .POINT := Classical.byContradiction fun k => hn (.inl k)
        refine ⟨ws, c, p, rest, e1, e2, rfl, hp, ?_⟩
        intro hi s hsl
        cases rest with
        | nil => cases hsl
        | cons x rest =>
          cases hsl
          exact Classical.byContradiction fun k => hn (.inr ⟨hi, _, _, rfl, k⟩)

/-- **C38** Whenever `parse_f15` returns on a field 15 that starts with SPEED/VFR, with or without errors, the ADEP is VFR. -/
theorem c38_adep {frames : Nat} {tokens : Tokens} {b : Bool} {e : Ers F} (h : parseF15 frames Ers.new tokens = .ok (b, e)) {t : Token}
    (ht : (typedTokens tokens).head? = some t) (hb : t.base = .SPEED_VFR) :
    ∃ r, e.elements.head? = some r ∧ Placeholder (py! "ADEP") r ∧ r.rules = py! "VFR" := by
  obtain ⟨r, l, hl, hp⟩ : ∃ r l, e.elements = r :: l ∧ Placeholder (py! "ADEP") r := by
    obtain ⟨adep, mid, ades, h1, h2, _⟩ := c12 h
    exact ⟨_, _, h1, h2⟩
  refine ⟨r, by rw [hl]; rfl, hp, ?_⟩
  rcases parse_cases new_ne h with ⟨h, _⟩ | ⟨t', rest, e1, htt, hrun, hn, _, rfl⟩
  · rw [h] at ht; cases ht
  · rw [htt] at ht
    cases ht
    obtain ⟨l', o, ho⟩ := split_last e1.recs hn
    rw [fin_elements] at hl
    have hpo := post_recs t e1 l' o ho
    rw [if_pos hb] at hpo
    unfold Ers.elements at hl
    rw [hpo] at hl
    simp only [List.reverse_append, List.reverse_cons, List.reverse_nil, List.nil_append, List.cons_append, List.cons.injEq] at hl
    rw [← hl.1]; rfl

/-- **C38 (only of accepted field 15s)** After an error the element of a SPEED/VFR can be given another speed, level and rules: in
`N0120VFR THISWORDISFARTOOLONGTOREAD / N0450F350` it becomes IFR. -/
theorem c38_exception : check (py! "N0120VFR THISWORDISFARTOOLONGTOREAD / N0450F350") (fun b e => !b &&
    decide (e.elements.map (fun r => (r.name, r.rules, r.speed)) =
      [(py! "ADEP", py! "VFR", py! "N0120"), (py! "VFR", py! "IFR", py! "N0450"), (py! "ADES", py! "IFR", [])])) = true := by decide +kernel

/-! ### Examples -/

/-- The hypotheses of `c39_section` hold of the VFR in `N0450F350 LNZ VFR IFR ABC IFR PNT/N0450F350`, where the first IFR does not end the
section, the second does. -/
example : ∃ (e : Ers Rat) (before after : List (Token × Role)) (t : Token),
    parseText (py! "N0450F350 LNZ VFR IFR ABC IFR PNT/N0450F350") = .ok (true, e) ∧
    (∀ t ∈ (⟨tokenizeList f15Whitespace (py! "N0450F350 LNZ VFR IFR ABC IFR PNT/N0450F350"), 0⟩ : Tokens).toks, t.text ≠ []) ∧
    roles (typedTokens ⟨tokenizeList f15Whitespace (py! "N0450F350 LNZ VFR IFR ABC IFR PNT/N0450F350"), 0⟩) = before ++ (t, .head) :: after ∧
    t.base = .BREAK_START ∧ elementCount before + 1 = 2 ∧ (e.elements.map (·.breakText))[2]? = some (py! "IFR ABC IFR") := by
  have hacc : check (py! "N0450F350 LNZ VFR IFR ABC IFR PNT/N0450F350") (fun b e => b && decide ((e.elements.map (·.breakText))[2]? =
      some (py! "IFR ABC IFR"))) = true := by decide +kernel
  obtain ⟨b, e, h1, h2⟩ := check_ok hacc
  simp only [Bool.and_eq_true, decide_eq_true_eq] at h2
  obtain ⟨rfl, h2⟩ := h2
  let l := roles (typedTokens ⟨tokenizeList f15Whitespace (py! "N0450F350 LNZ VFR IFR ABC IFR PNT/N0450F350"), 0⟩)
  exact ⟨e, l.take 2, l.drop 3, ⟨py! "VFR", 14, 17, .BREAK_START, .VFR⟩, h1, by decide +kernel, by decide +kernel, rfl, by decide +kernel, h2⟩

/-- A field 15 with an error that starts with SPEED/VFR. -/
example : check (py! "N0120VFR ABC THISWORDISFARTOOLONGTOREAD") (fun b e => !b && decide ((e.elements.map (·.rules)).head? = some (py! "VFR"))) = true := by
  decide +kernel

end F15
