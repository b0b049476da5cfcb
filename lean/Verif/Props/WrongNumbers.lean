import Verif.Lemmas.Reports
import Verif.Props.Grammar
import Verif.Props.Depth
import Verif.Spec.Example
/-!
# C78: wrong numbers derail nothing

A field 15 whose words are of the kinds of those of an accepted field 15, but whose numbers may be wrong, is read as if it were accepted:
its elements are what the rules of `Spec.Meaning` say, and its errors are the messages its wrong numbers deserve, in the order of
the words, each once, and nothing else.
-/

namespace F15
open Spec

set_option linter.unusedSectionVars false
variable {F : Type} [PyFloat F]

/-- The outcome for words of the kinds of an accepted field 15. -/
theorem same_kinds {n m : Nat} {T U : Tokens} {e : Ers F} (h : parseF15 n Ers.new T = .ok (true, e))
    (hk : (typedTokens T).map (fun t => (t.base, t.sub)) = (typedTokens U).map fun t => (t.base, t.sub))
    (hm : 4 * U.toks.length ≤ m) :
    ∃ f : Ers F, parseF15 m Ers.new U = .ok (decide (f.errors = []), f) ∧ Lawful U f ∧ Reported [] (roles (typedTokens U)) f.errors := by
  have hTT : ∀ x ∈ T.toks.map assignSyntax, Typed x := fun x hx => typed_map hx
  have hTU : ∀ x ∈ typedTokens U, Typed x := fun x hx => typed_map hx
  rw [parse_eq] at h
  obtain ⟨t, rest, as, hts, hs, -⟩ := accepted (F := F) rfl rfl hTT h
  obtain ⟨bs, hb⟩ := kinds_sent hs (U := typedTokens U) hk
  obtain ⟨fr, u, hu, hp⟩ := loose_parses (F := F) new_len hTU hb
  cases hU : typedTokens U with
  | nil => rw [hU] at hu; cases hu
  | cons u' us =>
    rw [hU] at hu hb hTU
    cases hu
    have hp' : parseF15 fr (Ers.new : Ers F) U = .ok (decide ((runs bs (Ers.new : Ers F)).errs = []), finErs (post u (runs bs Ers.new))) := by
      rw [parse_eq]; exact hp
    have hne : (Ers.new : Ers F).elements ≠ [] := by simp [Ers.elements, new_ne]
    have hq : parseF15 m (Ers.new : Ers F) U = .ok (decide ((runs bs (Ers.new : Ers F)).errs = []), finErs (post u (runs bs Ers.new))) := by
      rcases Nat.le_total fr m with hle | hle
      · rw [c16_same hle _ _ (by rw [hp']; intro h; cases h), hp']
      · rw [← c16_same hle _ _ (c16_enough hne U hm), hp']
    have herr : (finErs (post u (runs bs (Ers.new : Ers F)))).errors = (runs bs (Ers.new : Ers F)).errors := by
      unfold finErs post Ers.errors
      split <;> rfl
    have hd : decide ((runs bs (Ers.new : Ers F)).errs = []) = decide ((finErs (post u (runs bs (Ers.new : Ers F)))).errors = []) := by
      rw [herr]; unfold Ers.errors; simp
    refine ⟨_, by rw [← hd]; exact hq, ⟨⟨m, _, hq⟩, False, u, us, bs, hU, hb, rfl⟩, ?_⟩
    rw [herr, runs_errors]
    have := sent_reported (F := F) hb hTU
    exact this

/-- **C78** A field 15 whose words have, one by one, the kinds of those of an accepted field 15, with whatever numbers in them, is read to
its end: the call returns True iff there are no errors, the elements are what the rules of `Spec.Meaning` say (and only that), and the
errors are exactly the messages about wrong numbers, in the order of the words. -/
theorem c78 {n m : Nat} {T U : Tokens} {e : Ers F} (h : parseF15 n Ers.new T = .ok (true, e))
    (hk : (typedTokens T).map (fun t => (t.base, t.sub)) = (typedTokens U).map fun t => (t.base, t.sub))
    (hne : ∀ t ∈ U.toks, t.text ≠ []) (hm : 4 * U.toks.length ≤ m) :
    ∃ f : Ers F, parseF15 m Ers.new U = .ok (decide (f.errors = []), f) ∧
      (∀ l, Meaning (typedTokens U) l ↔ l = f.elements) ∧ Reported [] (roles (typedTokens U)) f.errors := by
  obtain ⟨f, h1, h2, h3⟩ := same_kinds h hk hm
  refine ⟨f, h1, fun l => ⟨fun hl => meaning_unique hl (c68_lawful h2 hne), ?_⟩, h3⟩
  rintro rfl
  exact c68_lawful h2 hne

/-! ### The rules leave nothing open -/

theorem level_reports_unique {s : Str} {l l' : List Nat} (h : LevelReports s l) (h' : LevelReports s l') : l = l' := by
  rcases h with ⟨h1, rfl⟩ | ⟨h1, rfl⟩ <;> rcases h' with ⟨h2, rfl⟩ | ⟨h2, rfl⟩
  · rfl
  · exact absurd h1 h2
  · exact absurd h2 h1
  · rfl

theorem sorted_unique {l l' : List Nat} (h : l.Pairwise (· < ·)) (h' : l'.Pairwise (· < ·)) (he : ∀ n, n ∈ l ↔ n ∈ l') : l = l' := by
  induction l generalizing l' with
  | nil =>
    cases l' with
    | nil => rfl
    | cons a l' => exact absurd ((he a).2 (by simp)) (by simp)
  | cons a l ih =>
    cases l' with
    | nil => exact absurd ((he a).1 (by simp)) (by simp)
    | cons b l' =>
      obtain ⟨h1, h2⟩ := List.pairwise_cons.1 h
      obtain ⟨h3, h4⟩ := List.pairwise_cons.1 h'
      have hab : a = b := by
        have ha := (he a).1 (by simp)
        have hb := (he b).2 (by simp)
        simp only [List.mem_cons] at ha hb
        rcases ha with rfl | ha
        · rfl
        · rcases hb with rfl | hb
          · rfl
          · have := h1 b hb; have := h3 a ha; omega
      subst hab
      congr 1
      refine ih h2 h4 fun n => ⟨fun hn => ?_, fun hn => ?_⟩
      · have := (he n).1 (by simp [hn])
        rcases List.mem_cons.1 this with rfl | h
        · exact absurd (h1 n hn) (Nat.lt_irrefl _)
        · exact h
      · have := (he n).2 (by simp [hn])
        rcases List.mem_cons.1 this with rfl | h
        · exact absurd (h3 n hn) (Nat.lt_irrefl _)
        · exact h

theorem range_reports_unique {t : Token} {l l' : List Nat} (h : RangeReports t l) (h' : RangeReports t l') : l = l' :=
  sorted_unique h.1 h'.1 fun n => (h.2 n).trans (h'.2 n).symm

theorem word_reports_unique {before after : List (Token × Role)} {m : Token × Role} {l l' : List Nat} (h : WordReports before m after l)
    (h' : WordReports before m after l') : l = l' := by
  obtain ⟨t, o⟩ := m
  unfold WordReports at h h'
  cases o with
  | head =>
    dsimp only at h h'
    split at h
    · rename_i hb
      rw [if_pos hb] at h'
      rcases h with ⟨h1, rfl⟩ | ⟨h1, h2⟩ <;> rcases h' with ⟨h3, rfl⟩ | ⟨h3, h4⟩
      · rfl
      · exact absurd h1 h3
      · exact absurd h3 h1
      · exact range_reports_unique h2 h4
    · rename_i hb
      rw [if_neg hb] at h'
      rw [h, h']
  | slot => exact range_reports_unique h h'
  | sid | star | word =>
    dsimp only at h h'
    rw [h, h']
  | note =>
    dsimp only at h h'
    split at h
    · rename_i hb
      rw [hb] at h'
      dsimp only at h'
      obtain ⟨a, b, h1, h2, h3, h4⟩ := h
      obtain ⟨a', b', k1, k2, k3, k4⟩ := h'
      obtain ⟨rfl, rfl⟩ := speed_eq h1 k1 (h3.symm.trans k3)
      exact level_reports_unique h4 k4
    · rename_i hb
      rw [hb] at h'
      dsimp only at h'
      obtain ⟨a, b, h1, h2, h3, h4⟩ := h
      obtain ⟨a', b', k1, k2, k3, k4⟩ := h'
      rw [List.append_assoc] at h3 k3
      obtain ⟨rfl, he⟩ := speed_eq h1 k1 (h3.symm.trans k3)
      obtain ⟨rfl, _⟩ := level_eq h2 k2 he
      exact level_reports_unique h4 k4
    · rename_i hb
      rw [hb] at h'
      dsimp only at h'
      obtain ⟨a, b, c, h1, h2, _, h3, l1, l2, rfl, h4, h5⟩ := h
      obtain ⟨a', b', c', k1, k2, _, k3, m1, m2, rfl, k4, k5⟩ := h'
      rw [List.append_assoc] at h3 k3
      obtain ⟨rfl, he⟩ := speed_eq h1 k1 (h3.symm.trans k3)
      obtain ⟨rfl, rfl⟩ := level_eq h2 k2 he
      rw [level_reports_unique h4 k4]
      split at h5
      · rename_i hc
        rw [if_pos hc] at k5
        rw [level_reports_unique h5 k5]
      · rename_i hc
        rw [if_neg hc] at k5
        rw [h5, k5]
    · rename_i h1 h2 h3
      split at h'
      · exact absurd ‹_› h1
      · exact absurd ‹_› h2
      · exact absurd ‹_› h3
      · rw [h, h']

theorem catalogue_once : ∀ p ∈ errorMessages, ∀ q ∈ errorMessages, p.1 = q.1 → p.2 = q.2 := by decide +kernel

theorem errorIs_unique {t : Token} {n : Nat} {x y : Record F} (hx : ErrorIs t n x) (hy : ErrorIs t n y) : x = y := by
  obtain ⟨a, h1, rfl⟩ := hx
  obtain ⟨b, h2, rfl⟩ := hy
  have : a = b := catalogue_once _ h1 _ h2 rfl
  rw [this]

theorem messages_unique {t : Token} {l : List Nat} {xs ys : List (Record F)} (h : Messages t l xs) (h' : Messages t l ys) : xs = ys := by
  induction h generalizing ys with
  | nil => cases h'; rfl
  | cons hx _ ih =>
    cases h' with
    | cons hy h' =>
      rw [ih h']
      congr 1
      exact errorIs_unique hx hy

/-- **C78** The words determine the messages. -/
theorem c78_only {before l : List (Token × Role)} {xs ys : List (Record F)} (h : Reported before l xs) (h' : Reported before l ys) : xs = ys := by
  induction h generalizing ys with
  | nil => cases h'; rfl
  | cons hw hx _ ih =>
    cases h' with
    | cons hw' hx' h' =>
      cases word_reports_unique hw hw'
      rw [messages_unique hx hx', ih h']

/-- **C78** From the texts: the words of `u` have the kinds of those of the accepted field 15 `s`. -/
theorem c78_text {n m : Nat} (ws : Str) {s u : Str} {e : Ers F} (h : parseF15 n Ers.new ⟨tokenizeList ws s, 0⟩ = .ok (true, e))
    (hk : (typedTokens ⟨tokenizeList ws s, 0⟩).map (fun t => (t.base, t.sub)) = (typedTokens ⟨tokenizeList ws u, 0⟩).map fun t => (t.base, t.sub))
    (hm : 4 * (tokenizeList ws u).length ≤ m) :
    ∃ f : Ers F, parseF15 m Ers.new ⟨tokenizeList ws u, 0⟩ = .ok (decide (f.errors = []), f) ∧
      (∀ l, Meaning (typedTokens ⟨tokenizeList ws u, 0⟩) l ↔ l = f.elements) ∧
      (∀ x, Reported [] (roles (typedTokens ⟨tokenizeList ws u, 0⟩)) x ↔ x = f.errors) := by
  obtain ⟨f, h1, h2, h3⟩ := c78 (U := ⟨tokenizeList ws u, 0⟩) h hk
    (fun t ht => layout_ne (c04_layout_exists ws u) t.text (List.mem_map.2 ⟨t, ht, rfl⟩)) hm
  exact ⟨f, h1, h2, fun x => ⟨fun hx => c78_only hx h3, fun hx => hx ▸ h3⟩⟩

/-- A field 15 with wrong numbers in a level, two points, a cruise climb and behind free text, and an accepted one of the same kinds. -/
def wrongSample : Str := py! "N0450F351 99N190E/M082F332 DCT ABC370010 C/5060N01060W/N0450F291F352 DCT ABC VFR FREE IFR 95N020W/N0120VFR SIGHT"
def rightSample : Str := py! "N0450F350 50N010E/M082F330 DCT ABC350010 C/5030N01030W/N0450F290F350 DCT ABC VFR FREE IFR 40N020W/N0120VFR SIGHT"

example : (typedTokens ⟨tokenizeList f15Whitespace rightSample, 0⟩).map (fun t => (t.base, t.sub)) =
    (typedTokens ⟨tokenizeList f15Whitespace wrongSample, 0⟩).map fun t => (t.base, t.sub) := by decide +kernel
example : check rightSample (fun b e => b && decide (e.errors = [])) = true := by decide +kernel
/-- The messages are about the wrong words, in order; the point in front of `/N0120VFR` is overlooked. -/
example : check wrongSample (fun b e => !b && decide (e.errors.map (fun x => (x.name,
    (errorMessages.find? fun p => replaceBang p.2 x.name == x.errorText).map (·.1))) = [(py! "N0450F351", some 40), (py! "99N190E", some 42),
    (py! "99N190E", some 44), (py! "M082F332", some 40), (py! "ABC370010", some 46), (py! "5060N01060W", some 43), (py! "5060N01060W", some 45),
    (py! "N0450F291F352", some 40), (py! "N0450F291F352", some 40)])) = true := by
  decide +kernel

end F15
