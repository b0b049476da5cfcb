import Verif.Lemmas.Past
import Verif.Lemmas.Alike
import Verif.Props.Sequence
import Verif.Spec.Reuse
import Verif.Spec.Example
/-!
# C70: parsing into a sequence that already holds a route
-/

namespace F15
open Spec

set_option linter.unusedSectionVars false
variable {F : Type} [PyFloat F]

/-- **C70 (partial: what was there stays; what is added may differ)** Parsing into a used sequence leaves what it holds in place:
every error, and every element but the first (of which at most the flight rules change), the last but one (at most bearing and
distance) and the last (name, indices, types and position stay). True is returned if there is neither an old nor a new error. -/
theorem c70_partial {frames : Nat} {e : Ers F} (he : e.elements ≠ []) {tokens : Tokens} {b : Bool} {e' : Ers F}
    (h : parseF15 frames e tokens = .ok (b, e')) :
    Preserved e e' ∧ (b = true ↔ e'.errors = []) := by
  refine ⟨⟨(c21 he h).1, ?_⟩, c13 he h⟩
  intro first middle prev last hl
  have he' : e.recs ≠ [] := by intro h; apply he; unfold Ers.elements; rw [h]; rfl
  have hrecs : e.recs = last :: prev :: (middle.reverse ++ [first]) := by
    have := congrArg List.reverse hl
    simpa [Ers.elements] using this
  rcases parse_cases he' h with ⟨_, rfl, rfl⟩ | ⟨t, rest, e1, htt, hr, hn, _, rfl⟩
  · refine ⟨first, prev, last, [adesRec []], ?_, by simp, rfl, rfl, ⟨rfl, rfl, rfl, rfl, rfl, rfl, rfl, rfl⟩⟩
    rw [show ({ e with errs := nullErr :: e.errs } : Ers F).addDummyAdes.elements = e.elements ++ [adesRec []] by
      simp [Ers.elements, Ers.addDummyAdes, Ers.addDummyAdepAdes, Ers.createAppendElement, Ers.appendElement]; rfl, hl]
    simp
  · obtain ⟨ts1, hs⟩ := hr.start (by simp)
    obtain ⟨new, l', h1, h2, _⟩ := (Ext2.star (S := fun _ => True) (e0 := e) hs (fun _ _ => .inl trivial) (.refl he')).recs
    rw [hrecs] at h2
    cases h2 with
    | @mk _ last' _ _ hc hsec =>
      cases hsec with
      | @cons _ prev' _ ht =>
        rw [fin_elements]
        have h1 : e1.recs = (new ++ last' :: prev' :: middle.reverse) ++ [first] := by
          rw [show e1.recs = _ from h1]; simp
        generalize (adesRec (((post t e1).recs.head?.map (·.rules)).getD []) : Record F) = x
        refine ⟨if t.base = .SPEED_VFR then toVfr first else first, prev', last', new.reverse ++ [x], ?_, by simp, ?_, ht, core_same hc⟩
        · show (post t e1).recs.reverse ++ _ = _
          rw [post_recs t e1 _ _ h1]
          simp
        · split <;> rfl

/-- What is added to a used sequence is not what a parse of the same text into a fresh one gives: `DET2A` is a SID in a fresh sequence,
and a STAR in a used one, so that the same text is refused. -/
theorem c70_false : ∃ (s s' : Str) (e e1 e2 : Ers Rat) (b : Bool), parseText s = .ok (true, e) ∧ parseText s' = .ok (true, e1) ∧
    parseF15 1000 e ⟨tokenizeList f15Whitespace s', 0⟩ = .ok (b, e2) ∧ b = false ∧
      e2.elements.map (·.sub) ≠ e.elements.map (·.sub) ++ e1.elements.tail.map (·.sub) := by
  have key : (match parseText (py! "N0450F350 ABC DCT DEF") with
    | .ok (b, e) => b && (match parseF15 1000 e ⟨tokenizeList f15Whitespace (py! "N0450F350 DET2A DET UL9 ABC"), 0⟩ with
      | .ok (b2, e2) => !b2 && (match parseText (py! "N0450F350 DET2A DET UL9 ABC") with
        | .ok (b1, e1) => b1 && decide (e2.elements.map (·.sub) ≠ e.elements.map (·.sub) ++ e1.elements.tail.map (·.sub))
        | .error _ => false)
      | .error _ => false)
    | .error _ => false) = true := by decide +kernel
  split at key
  · rename_i b e h0
    simp only [Bool.and_eq_true] at key
    obtain ⟨rfl, key⟩ := key
    split at key
    · rename_i b2 e2 h2
      simp only [Bool.and_eq_true, Bool.not_eq_true'] at key
      obtain ⟨rfl, key⟩ := key
      split at key
      · rename_i b1 e1 h1
        simp only [Bool.and_eq_true, decide_eq_true_eq] at key
        obtain ⟨rfl, key⟩ := key
        exact ⟨_, _, e, e1, e2, false, h0, h1, h2, rfl, key⟩
      · cases key
    · cases key
  · cases key

/-- What is added to a used sequence depends on nothing in it but its last element: two sequences with at least two elements (as
every sequence has that went through a parse) and the same last one get the same elements behind it and the same errors, the last one is
changed in the same way, and the same exception is raised. -/
theorem c70_end (frames : Nat) {e e' : Ers F} (h2 : 2 ≤ e.elements.length) (h2' : 2 ≤ e'.elements.length)
    (hl : e.elements.getLast? = e'.elements.getLast?) (tokens : Tokens) :
    SameAddition e e' (parseF15 frames e tokens) (parseF15 frames e' tokens) := by
  have start : AlikeOn 1 { e with recs := e.recs.tail } { e' with recs := e'.recs.tail } e e' := by
    unfold Ers.elements at h2 h2' hl
    rw [List.getLast?_reverse, List.getLast?_reverse] at hl
    rw [List.length_reverse] at h2 h2'
    refine ⟨?_, [], rfl, rfl⟩
    cases hr : e.recs with
    | nil => rw [hr] at h2; simp at h2
    | cons r old =>
      cases hr' : e'.recs with
      | nil => rw [hr'] at h2'; simp at h2'
      | cons r' old' =>
        rw [hr, hr'] at hl
        rw [hr] at h2; rw [hr'] at h2'
        cases hl
        refine ⟨[r], old, old', rfl, rfl, by simp, ?_, ?_, rfl, rfl⟩
        · rintro rfl; simp at h2
        · rintro rfl; simp at h2'
  rcases al_parse frames tokens start with ⟨y, h1, h2⟩ | ⟨b, b', a, a', h1, h2, h3⟩
  · rw [h1, h2]; exact .raised y
  · rw [h1, h2]
    obtain ⟨new, old, old', g1, g2, g3, g4, g5, g6, g7⟩ := h3.recs
    obtain ⟨errs, k1, k2⟩ := h3.errs
    refine .returned ?_ ?_
    · have e1 : e.elements.length - 1 = old.reverse.length := by simp [Ers.elements, g6]
      have e2 : e'.elements.length - 1 = old'.reverse.length := by simp [Ers.elements, g7]
      rw [e1, e2]
      simp only [Ers.elements, g1, g2, List.reverse_append, List.drop_left]
    · have e1 : e.errors.length = e.errs.reverse.length := rfl
      have e2 : e'.errors.length = e'.errs.reverse.length := rfl
      rw [e1, e2]
      simp only [Ers.errors, k1, k2, List.reverse_append, List.drop_left]

/-- Where the claim holds: a field 15 that begins with a SPEED/VFR, or a SPEED/LEVEL and a point or DCT (or nothing), whatever follows and
however wrong, adds to any sequence the elements and errors that a parse into a fresh one gives. -/
theorem c70_fresh (frames : Nat) {e : Ers F} (he : e.elements ≠ []) (tokens : Tokens) {t : Token} {rest : List Token}
    (hl : typedTokens tokens = t :: rest) (ho : Opening t rest) :
    AddsAsFresh e (parseF15 frames e tokens) (parseF15 frames Ers.new tokens) := by
  have he' : e.recs ≠ [] := by intro h; apply he; unfold Ers.elements; rw [h]; rfl
  rcases fresh_parse he' (e' := Ers.new) (by show [_] ≠ []; simp) frames tokens t rest hl ho with ⟨y, h1, h2⟩ | ⟨b, b', a, a', h1, h2, h3⟩
  · rw [h1, h2]; exact .raised y
  · rw [h1, h2]
    obtain ⟨new, old, old', g1, g2, g3, g4, g5, g6, g7⟩ := h3.recs
    obtain ⟨errs, k1, k2⟩ := h3.errs
    refine .returned ?_ ?_
    · have e1 : e.elements.length = old.reverse.length := by simp [Ers.elements, g6]
      have e2 : 1 = old'.reverse.length := by rw [List.length_reverse, g7]; rfl
      rw [e1, e2]
      simp only [Ers.elements, g1, g2, List.reverse_append, List.drop_left]
    · have e1 : e.errors.length = e.errs.reverse.length := rfl
      rw [e1]
      simp only [Ers.errors, k1, k2, List.reverse_append, List.drop_left]
      rfl

-- the hypotheses of `c70_fresh` are met, also by a field 15 with errors; a SID in second place (`c70_false`) is excluded
example : (match parseText (py! "N0450F350 ABC DCT DEF") with
    | .ok (_, e) => !e.elements.isEmpty &&
      (match typedTokens ⟨tokenizeList f15Whitespace (py! "M082F350 12N034E / UL9 XYZ/K0400"), 0⟩ with
        | t :: p :: _ => t.base == .SPEED_ALTITUDE && p.base == .POINT
        | _ => false) &&
      (match parseF15 1000 e ⟨tokenizeList f15Whitespace (py! "M082F350 12N034E / UL9 XYZ/K0400"), 0⟩ with
        | .ok (_, a) => decide ((a.elements.drop e.elements.length).map (·.name) = [py! "12N034E", py! "XYZ", py! "ADES"]) &&
          !a.errors.isEmpty
        | _ => false)
    | _ => false) = true := by decide +kernel

/-- So of an earlier parse only the flight rules at its end can matter: after any two parses (into any sequences, of any texts) that end
under the same flight rules, a further parse adds the same. -/
theorem c70_used {frames1 frames2 : Nat} {e1 e2 e e' : Ers F} {tokens1 tokens2 : Tokens} {b1 b2 : Bool} (he1 : e1.elements ≠ [])
    (he2 : e2.elements ≠ []) (h1 : parseF15 frames1 e1 tokens1 = .ok (b1, e)) (h2 : parseF15 frames2 e2 tokens2 = .ok (b2, e'))
    (hr : e.elements.getLast?.map (·.rules) = e'.elements.getLast?.map (·.rules)) (frames : Nat) (tokens : Tokens) :
    SameAddition e e' (parseF15 frames e tokens) (parseF15 frames e' tokens) := by
  have ends : ∀ {frames : Nat} {e1 e : Ers F} {tokens : Tokens} {b : Bool}, e1.elements ≠ [] → parseF15 frames e1 tokens = .ok (b, e) →
      ∃ l x, l ≠ [] ∧ e.elements = l ++ [adesRec x] := by
    intro frames e1 e tokens b he h
    have he' : e1.recs ≠ [] := by intro h; apply he; unfold Ers.elements; rw [h]; rfl
    rcases parse_cases he' h with ⟨_, _, rfl⟩ | ⟨t, rest, e2, _, _, hn, _, rfl⟩
    · exact ⟨e1.elements, [], he, by
        simp [Ers.elements, Ers.addDummyAdes, Ers.addDummyAdepAdes, Ers.createAppendElement, Ers.appendElement]; rfl⟩
    · rw [fin_elements]
      obtain ⟨l, o, ho⟩ := split_last e2.recs hn
      exact ⟨_, _, by simp [Ers.elements, post_recs t e2 l o ho], rfl⟩
  obtain ⟨l, x, hl, hx⟩ := ends he1 h1
  obtain ⟨l', x', hl', hx'⟩ := ends he2 h2
  have p := List.length_pos_iff.2 hl
  have p' := List.length_pos_iff.2 hl'
  refine c70_end frames (by rw [hx]; simp; omega) (by rw [hx']; simp; omega) ?_ tokens
  rw [hx, hx'] at hr ⊢
  simp only [List.getLast?_append, List.getLast?_singleton, Option.some_or, Option.map_some] at hr ⊢
  have : x = x' := Option.some.inj hr
  rw [this]

-- the hypotheses of `c70_end` and `c70_used` are met: two different routes, and a third behind each of them
example : (match parseText (py! "N0450F350 ABC DCT DEF"), parseText (py! "K0800S1130 N12E034 UL9 XYZ/N0400F300 IFR XXXXXX") with
    | .ok (_, e), .ok (_, e') => decide (2 ≤ e.elements.length) && decide (2 ≤ e'.elements.length) &&
      decide (e.elements.getLast?.map (·.rules) = e'.elements.getLast?.map (·.rules)) &&
      decide (e.elements.map (·.name) ≠ e'.elements.map (·.name)) &&
      (match parseF15 1000 e ⟨tokenizeList f15Whitespace (py! "N0250A090 GHI"), 0⟩,
          parseF15 1000 e' ⟨tokenizeList f15Whitespace (py! "N0250A090 GHI"), 0⟩ with
      | .ok (_, a), .ok (_, a') => decide ((a.elements.drop (e.elements.length - 1)).map (·.name) = [py! "ADES", py! "GHI", py! "ADES"]) &&
        decide ((a'.elements.drop (e'.elements.length - 1)).map (·.name) = [py! "ADES", py! "GHI", py! "ADES"])
      | _, _ => false)
    | _, _ => false) = true := by decide +kernel

-- the hypotheses of `c70_partial` are met: a second route behind a first, and the elements of the first are still there
example : (match parseText (py! "N0450F350 ABC DCT DEF") with
    | .ok (_, e) => !e.elements.isEmpty && (match parseF15 1000 e ⟨tokenizeList f15Whitespace (py! "N0250A090 GHI"), 0⟩ with
      | .ok (b2, e2) => b2 && decide (e2.elements.map (fun r => (r.name, r.altitude)) =
          [(py! "ADEP", py! "F350"), (py! "ABC", py! "F350"), (py! "DCT", py! "F350"), (py! "DEF", py! "F350"),
            (py! "ADES", py! "A090"), (py! "GHI", py! "A090"), (py! "ADES", [])])
      | .error _ => false)
    | .error _ => false) = true := by decide +kernel

end F15
