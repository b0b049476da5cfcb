import Verif.Spec.Tokenizer
/-! Invariant of the tokenizer's scanning loop. -/

namespace F15
open Spec

/-- Loop invariant: `text` is the pending piece `[idx - text.length, idx)`. -/
structure TokInv (ws src : Str) (rest : Str) (idx : Nat) (text : Str) (acc : List Token) : Prop where
  hrest : src.drop idx = rest
  hidx : idx ≤ src.length
  hlen : text.length ≤ idx
  htext : text = piece src (idx - text.length) idx
  hclean : ∀ k, idx - text.length ≤ k → k < idx → ¬ SepAt ws src k
  hstart : idx - text.length = 0 ∨ SepAt ws src (idx - text.length - 1)
  hsound : ∀ t ∈ acc, t = Token.new (piece src t.start t.stop) t.start t.stop ∧
    IsTok ws src t.start t.stop ∧ t.stop ≤ idx - text.length
  hcompl : ∀ i j, IsTok ws src i j → j ≤ idx - text.length → ∃ t ∈ acc, t.start = i ∧ t.stop = j
  hpw : acc.Pairwise fun a b => a.stop ≤ b.start

theorem sepAt_iff {ws src rest : Str} {idx : Nat} {c : Char} (h : src.drop idx = c :: rest) :
    SepAt ws src idx ↔ c ∈ ws := by
  have : src[idx]? = some c := by
    have := congrArg List.head? h
    simpa [List.head?_drop] using this
  simp [SepAt, this]

theorem getElem?_of_drop {src rest : Str} {idx : Nat} {c : Char} (h : src.drop idx = c :: rest) :
    src[idx]? = some c := by
  have := congrArg List.head? h
  simpa [List.head?_drop] using this

theorem run_of_pending {ws src rest text : Str} {idx : Nat} {acc : List Token}
    (h : TokInv ws src rest idx text acc) (hne : text.length > 0)
    (hend : idx = src.length ∨ SepAt ws src idx) : IsRun ws src (idx - text.length) idx := by
  refine ⟨?_, h.hidx, h.hclean, h.hstart, hend⟩
  have := h.hlen
  omega

/-- A token interval ending after the pending start but not after `idx` is the pending run. -/
theorem run_unique {ws src rest text : Str} {idx : Nat} {acc : List Token}
    (h : TokInv ws src rest idx text acc) {i j : Nat} (hr : IsRun ws src i j)
    (h1 : idx - text.length < j) (h2 : j ≤ idx) : i = idx - text.length ∧ j = idx := by
  obtain ⟨hij, _, hcl, hs, he⟩ := hr
  have hl := h.hlen
  have hj : j = idx := by
    refine Decidable.byContradiction fun hne => ?_
    rcases he with he | he
    · have := h.hidx; omega
    · exact h.hclean j (by omega) (by omega) he
  refine ⟨?_, hj⟩
  rcases Nat.lt_trichotomy i (idx - text.length) with hlt | heq | hgt
  · rcases h.hstart with h0 | h0
    · omega
    · exact absurd h0 (hcl _ (by omega) (by omega))
  · exact heq
  · rcases hs with h0 | h0
    · omega
    · exact absurd h0 (h.hclean (i - 1) (by omega) (by omega))

theorem slash_late {ws src rest text : Str} {idx : Nat} {acc : List Token}
    (h : TokInv ws src rest idx text acc) {i j : Nat} (hr : IsSlash ws src i j)
    (h1 : idx - text.length < j) : idx ≤ i := by
  obtain ⟨hj, hi, hw⟩ := hr
  refine Decidable.byContradiction fun hlt => ?_
  exact h.hclean i (by omega) (by omega) ⟨'/', hi, hw⟩

/-- The invariant is preserved when a non-separator is read. -/
theorem TokInv.step_text {ws src rest text : Str} {idx : Nat} {acc : List Token} {c : Char}
    (h : TokInv ws src (c :: rest) idx text acc) (hc : c ∉ ws) :
    TokInv ws src rest (idx + 1) (text ++ [c]) acc := by
  have hg := getElem?_of_drop h.hrest
  have hlt : idx < src.length := by
    rcases Nat.lt_or_ge idx src.length with h' | h'
    · exact h'
    · simp [List.getElem?_eq_none h'] at hg
  have hl := h.hlen
  have e : idx + 1 - (text ++ [c]).length = idx - text.length := by simp
  refine ⟨?_, by omega, by simp; omega, ?_, ?_, ?_, ?_, ?_, h.hpw⟩
  · have := h.hrest
    rw [show src.drop (idx + 1) = (src.drop idx).drop 1 by simp [List.drop_drop], this]; rfl
  · rw [e]
    have ht := h.htext
    have : src.take (idx + 1) = src.take idx ++ [c] := by
      rw [List.take_add_one, hg]; rfl
    unfold piece at *
    rw [this, List.drop_append_of_le_length (by simp; omega), ← ht]
  · intro k hk1 hk2
    rw [e] at hk1
    rcases Nat.lt_or_ge k idx with h' | h'
    · exact h.hclean k hk1 h'
    · have : k = idx := by omega
      subst this
      rw [sepAt_iff h.hrest]; exact hc
  · rw [e]; exact h.hstart
  · rw [e]; exact h.hsound
  · rw [e]; exact h.hcompl

theorem saveToken_toks (acc : Tokens) (text : Str) (idx : Nat) :
    (Tokenize.saveToken acc text idx).toks =
      if text.length > 0 then acc.toks ++ [Token.new text (idx - text.length) idx] else acc.toks := by
  unfold Tokenize.saveToken Tokens.createAppendToken Tokens.appendToken
  split <;> rfl

/-- Saving the pending run. -/
theorem TokInv.save {ws src rest text : Str} {idx : Nat} {acc : List Token}
    (h : TokInv ws src rest idx text acc) (hend : idx = src.length ∨ SepAt ws src idx) :
    let acc' := if text.length > 0 then acc ++ [Token.new text (idx - text.length) idx] else acc
    (∀ t ∈ acc', t = Token.new (piece src t.start t.stop) t.start t.stop ∧
      IsTok ws src t.start t.stop ∧ t.stop ≤ idx) ∧
    (∀ i j, IsTok ws src i j → j ≤ idx → ∃ t ∈ acc', t.start = i ∧ t.stop = j) ∧
    acc'.Pairwise (fun a b => a.stop ≤ b.start) := by
  have hl := h.hlen
  intro acc'
  by_cases hne : text.length > 0
  · have hacc : acc' = acc ++ [Token.new text (idx - text.length) idx] := by simp [acc', hne]
    rw [hacc]
    refine ⟨?_, ?_, ?_⟩
    · intro t ht
      rcases List.mem_append.1 ht with ht | ht
      · obtain ⟨a, b, c⟩ := h.hsound t ht
        exact ⟨a, b, by omega⟩
      · simp only [List.mem_singleton] at ht
        subst ht
        refine ⟨?_, .inl (run_of_pending h hne hend), Nat.le_refl _⟩
        show Token.new text (idx - text.length) idx = Token.new (piece src (idx - text.length) idx) _ _
        rw [← h.htext]; rfl
    · intro i j hij hj
      rcases Nat.lt_or_ge (idx - text.length) j with h1 | h1
      · rcases hij with hr | hs
        · obtain ⟨rfl, rfl⟩ := run_unique h hr h1 hj
          exact ⟨Token.new text (j - text.length) j, by simp, rfl, rfl⟩
        · have := slash_late h hs h1
          have := hs.1
          omega
      · obtain ⟨t, ht, hh⟩ := h.hcompl i j hij h1
        exact ⟨t, by simp [ht], hh⟩
    · rw [List.pairwise_append]
      refine ⟨h.hpw, by simp, ?_⟩
      intro a ha b hb
      simp only [List.mem_singleton] at hb
      subst hb
      exact (h.hsound a ha).2.2
  · have hacc : acc' = acc := by simp [acc', hne]
    have h0 : text.length = 0 := by omega
    rw [hacc]
    refine ⟨?_, ?_, h.hpw⟩
    · intro t ht
      obtain ⟨a, b, c⟩ := h.hsound t ht
      exact ⟨a, b, by omega⟩
    · intro i j hij hj
      exact h.hcompl i j hij (by omega)

/-- The invariant is preserved when a separator is read. -/
theorem TokInv.step_sep {ws src rest text : Str} {idx : Nat} {acc : Tokens} {c : Char}
    (h : TokInv ws src (c :: rest) idx text acc.toks) (hc : c ∈ ws) :
    TokInv ws src rest (idx + 1) []
      (if c = '/' then Tokenize.saveToken (Tokenize.saveToken acc text idx) [c] (idx + 1)
        else Tokenize.saveToken acc text idx).toks := by
  have hg := getElem?_of_drop h.hrest
  have hlt : idx < src.length := by
    rcases Nat.lt_or_ge idx src.length with h' | h'
    · exact h'
    · simp [List.getElem?_eq_none h'] at hg
  have hsep : SepAt ws src idx := (sepAt_iff h.hrest).2 hc
  obtain ⟨s1, s2, s3⟩ := h.save (.inr hsep)
  have hl := h.hlen
  have key : ∀ i j, IsTok ws src i j → j ≤ idx + 1 → j ≤ idx ∨ (i = idx ∧ j = idx + 1 ∧ c = '/') := by
    intro i j hij hj
    rcases Nat.lt_or_ge idx j with h1 | h1
    · right
      have hj' : j = idx + 1 := by omega
      rcases hij with hr | hs
      · have h2 := hr.2.2.1 idx (by have := hr.1; omega) (by omega)
        exact absurd hsep h2
      · have := hs.1
        have hi : i = idx := by omega
        have := hs.2.1
        rw [hi, hg] at this
        exact ⟨hi, hj', by simpa using this⟩
    · exact .inl h1
  have hdrop : src.drop (idx + 1) = rest := by
    rw [show src.drop (idx + 1) = (src.drop idx).drop 1 by simp [List.drop_drop], h.hrest]; rfl
  by_cases hsl : c = '/'
  · subst hsl
    have hp : piece src idx (idx + 1) = ['/'] := by
      unfold piece
      rw [List.take_add_one, hg, List.drop_append_of_le_length (by simp; omega)]
      simp
    simp only [if_true, saveToken_toks] at s1 s2 s3 ⊢
    refine ⟨hdrop, by omega, by simp, by simp [piece], by intro k; simp; omega, ?_, ?_, ?_, ?_⟩
    · exact .inr hsep
    · intro t ht
      simp only [List.length_singleton, Nat.zero_lt_one, if_true, gt_iff_lt] at ht
      rcases List.mem_append.1 ht with ht | ht
      · obtain ⟨a, b, d⟩ := s1 t ht
        exact ⟨a, b, by simp; omega⟩
      · simp only [List.mem_singleton] at ht
        subst ht
        refine ⟨?_, .inr ⟨rfl, by simpa [Token.new] using hg, hc⟩, by simp [Token.new]⟩
        simp [Token.new, hp]
    · intro i j hij hj
      simp only [List.length_singleton, Nat.zero_lt_one, if_true, gt_iff_lt]
      rcases key i j hij (by simpa using hj) with h1 | ⟨rfl, rfl, _⟩
      · obtain ⟨t, ht, hh⟩ := s2 i j hij h1
        exact ⟨t, List.mem_append_left _ ht, hh⟩
      · exact ⟨_, List.mem_append_right _ (by simp; rfl), by simp [Token.new], by simp [Token.new]⟩
    · simp only [List.length_singleton, Nat.zero_lt_one, if_true, gt_iff_lt]
      rw [List.pairwise_append]
      refine ⟨s3, by simp, ?_⟩
      intro a ha b hb
      simp only [List.mem_singleton] at hb
      subst hb
      have := (s1 a ha).2.2
      simpa [Token.new] using this
  · simp only [hsl, if_false, saveToken_toks] at s1 s2 s3 ⊢
    refine ⟨hdrop, by omega, by simp, by simp [piece], by intro k; simp; omega, .inr hsep, ?_, ?_, s3⟩
    · intro t ht
      obtain ⟨a, b, d⟩ := s1 t ht
      exact ⟨a, b, by simp; omega⟩
    · intro i j hij hj
      rcases key i j hij (by simpa using hj) with h1 | ⟨_, _, h3⟩
      · exact s2 i j hij h1
      · exact absurd h3 hsl

/-- The loop establishes the specification. -/
theorem loop_spec (ws src : Str) : ∀ (rest : Str) (idx : Nat) (text : Str) (acc : Tokens),
    TokInv ws src rest idx text acc.toks →
    let out := (Tokenize.loop ws rest idx text acc).toks
    (∀ t ∈ out, t = Token.new (piece src t.start t.stop) t.start t.stop ∧ IsTok ws src t.start t.stop) ∧
    (∀ i j, IsTok ws src i j → ∃ t ∈ out, t.start = i ∧ t.stop = j) ∧
    out.Pairwise (fun a b => a.stop ≤ b.start) := by
  intro rest
  induction rest with
  | nil =>
    intro idx text acc h
    have hlen : src.length ≤ idx := by simpa using h.hrest
    have hidx := h.hidx
    have he : idx = src.length := by omega
    obtain ⟨s1, s2, s3⟩ := h.save (.inl he)
    simp only [Tokenize.loop, saveToken_toks]
    refine ⟨fun t ht => ⟨(s1 t ht).1, (s1 t ht).2.1⟩, ?_, s3⟩
    intro i j hij
    refine s2 i j hij ?_
    rcases hij with hr | hs
    · have := hr.2.1; omega
    · have h1 := hs.1
      have : i < src.length := by
        rcases Nat.lt_or_ge i src.length with h' | h'
        · exact h'
        · have := hs.2.1; simp [List.getElem?_eq_none h'] at this
      omega
  | cons c rest ih =>
    intro idx text acc h
    simp only [Tokenize.loop]
    by_cases hc : c ∈ ws
    · have hc' : ws.contains c = true := by simpa using hc
      simp only [hc', if_true]
      have := ih (idx + 1) [] _ (h.step_sep hc)
      by_cases ht : text.length > 0
      · simpa [ht] using this
      · simp only [ht, if_false]
        have e : Tokenize.saveToken acc text idx = acc := by simp [Tokenize.saveToken, ht]
        simpa [e] using this
    · have hc' : ws.contains c = false := by simpa using hc
      simp only [hc', Bool.false_eq_true, if_false]
      exact ih (idx + 1) (text ++ [c]) acc (h.step_text hc)

theorem tokInv_init (ws src : Str) : TokInv ws src src 0 [] Tokens.new.toks := by
  refine ⟨by simp, by omega, by simp, by simp [piece], by intro k; simp, .inl rfl, ?_, ?_, ?_⟩
  · intro t ht; simp [Tokens.new] at ht
  · intro i j hij hj
    rcases hij with hr | hs
    · have := hr.1; simp at hj; omega
    · have := hs.1; simp at hj; omega
  · simp [Tokens.new]

/-! ### Token texts -/

/-- The texts the loop still has to produce. -/
def pieces (ws : Str) : Str → Str → List Str
  | [], text => if text.length > 0 then [text] else []
  | c :: r, text =>
    if c ∈ ws then
      (if text.length > 0 then [text] else []) ++ ((if c = '/' then [['/']] else []) ++ pieces ws r [])
    else pieces ws r (text ++ [c])

theorem loop_texts (ws : Str) : ∀ (s : Str) (idx : Nat) (text : Str) (acc : Tokens),
    (Tokenize.loop ws s idx text acc).toks.map (·.text) = acc.toks.map (·.text) ++ pieces ws s text := by
  intro s
  induction s with
  | nil =>
    intro idx text acc
    simp only [Tokenize.loop, saveToken_toks, pieces]
    split <;> simp [Token.new]
  | cons c r ih =>
    intro idx text acc
    simp only [Tokenize.loop, pieces]
    by_cases hc : c ∈ ws
    · have hc' : ws.contains c = true := by simpa using hc
      simp only [hc', hc, if_true, ih]
      by_cases ht : text.length > 0 <;> by_cases hs : c = '/' <;>
        simp [ht, hs, saveToken_toks, Token.new]
    · have hc' : ws.contains c = false := by simpa using hc
      simp only [hc', hc, Bool.false_eq_true, if_false, ih]

theorem pieces_gap {ws g : Str} (hg : Gap ws g) (s : Str) : pieces ws (g ++ s) [] = pieces ws s [] := by
  induction g with
  | nil => rfl
  | cons c g ih =>
    have hc := hg c (by simp)
    have := ih (fun d hd => hg d (by simp [hd]))
    simp [pieces, hc.1, hc.2, this]

theorem pieces_word {ws t : Str} (ht : ∀ c ∈ t, c ∉ ws) : ∀ (text s : Str),
    pieces ws (t ++ s) text = pieces ws s (text ++ t) := by
  induction t with
  | nil => intro text s; simp
  | cons c t ih =>
    intro text s
    have hc := ht c (by simp)
    have := ih (fun d hd => ht d (by simp [hd])) (text ++ [c]) s
    simp [pieces, hc, this]

theorem pieces_layout {ws : Str} {ts : List Str} {src : Str} (h : Layout ws ts src) :
    pieces ws src [] = ts := by
  induction h with
  | nil hg => have := pieces_gap hg []; simpa [pieces] using this
  | word hg hw =>
    rw [pieces_gap hg]
    have := pieces_word hw.2 [] []
    rw [List.append_nil] at this
    rw [this]
    have : _ ≠ [] := hw.1
    simp [pieces, List.length_pos_iff, hw.1]
  | @wordSep g t c rest ts hg hw hc _ ih =>
    rw [List.append_assoc, pieces_gap hg, pieces_word hw.2]
    have h1 : pieces ws (c :: rest) ([] ++ t) = t :: pieces ws (c :: rest) [] := by
      simp [pieces, hc, List.length_pos_iff, hw.1]
    rw [h1, ih]
  | slash hg hs _ ih =>
    rw [pieces_gap hg]
    simp [pieces, hs, ih]

end F15
