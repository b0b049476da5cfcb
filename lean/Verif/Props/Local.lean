import Verif.Lemmas.Local
/-!
# What is said about an element stands between it and the next one (C50)
-/

namespace F15
open Spec

set_option linter.unusedSectionVars false
variable {F : Type} [PyFloat F]

/-- **C50** Whenever `parse_f15` returns on a fresh sequence without an error 48 (a latitude/longitude point after a route),
be the field 15 accepted or not: the elements before the ADES divide the tokens among them. Speed and level, stay time,
cruise climb and free text of an element come from its own stretch of the text (speed and level may also be those of the
element before, or come from a SPEED/VFR that follows). -/
theorem c50 {frames : Nat} {tokens : Tokens} {b : Bool} {e' : Ers F} (h : parseF15 frames Ers.new tokens = .ok (b, e'))
    (hne : ∀ t ∈ tokens.toks, t.text ≠ []) (h48 : ∀ r ∈ e'.errors, ∀ t, ¬ ErrorIs t 48 r) :
    ∃ l ades, e'.elements = l ++ [ades] ∧ Placeholder (py! "ADES") ades ∧
      Divides (typedTokens tokens) (overlong (typedTokens tokens)) none none (typedTokens tokens) l := by
  rw [parse_eq] at h
  unfold typedTokens
  have htx : ∀ t ∈ tokens.toks.map assignSyntax, t.text ≠ [] := by
    intro t ht
    obtain ⟨x, hx, rfl⟩ := List.mem_map.1 ht
    rw [assignSyntax_eq]; split <;> exact hne x hx
  cases hl : tokens.toks.map assignSyntax with
  | nil =>
    rw [hl] at h
    have h' : (false, ({ (Ers.new : Ers F) with errs := nullErr :: (Ers.new : Ers F).errs } : Ers F).addDummyAdes) = (b, e') :=
      Except.ok.inj h
    simp only [Prod.mk.injEq] at h'
    rw [← h'.2]
    refine ⟨[_], _, rfl, ⟨rfl, rfl, rfl, rfl, rfl⟩, .last ?_⟩
    exact ⟨fun _ => ⟨rfl, rfl, rfl, rfl, rfl⟩, .inl ⟨fun _ h => (nomatch h), fun _ => ⟨rfl, rfl, rfl, rfl⟩⟩, .inl rfl,
      .inl ⟨rfl, rfl⟩, ⟨[], rfl, by simp, by simp⟩, fun _ _ h => (nomatch h)⟩
  | cons t rest =>
    rw [hl] at h htx
    have hT : ∀ x ∈ t :: rest, Typed x := fun x hx => typed_map (hl ▸ hx)
    replace h : (match runL frames (Ers.new : Ers F) t rest with
      | .ok (e : Ers F) => finish e
      | .error x => .error x) = .ok (b, e') := h
    cases hr : runL frames (Ers.new : Ers F) t rest with
    | error x => rw [hr] at h; cases h
    | ok e2 =>
      rw [hr] at h
      replace h : finish e2 = .ok (b, e') := h
      obtain ⟨e1, ts1, hs, rfl⟩ := run_place new_ne hT hr
      have hi := hs.invs ⟨new_ne, List.suffix_refl _⟩
      have hfin : e' = finErs (post t e1) := by
        rw [finish_eq _ (post_ne t e1 hi.ne)] at h
        cases h; rfl
      subst hfin
      rw [fin_elements]
      refine ⟨_, _, rfl, ⟨rfl, rfl, rfl, rfl, rfl⟩, ?_⟩
      rcases Divided.start.star hT htx hs new_ne with ⟨t', _, hm⟩ | ⟨dn, h1, h2⟩
      · refine absurd (errRec_is (by decide)) (h48 _ ?_ t')
        show _ ∈ (post t e1).errs.reverse
        rw [post_errs]; exact List.mem_reverse.2 hm
      · rcases h1 with ⟨_, h1⟩ | ⟨h1, _⟩
        · have h3 := h2.grow none ts1
          rw [← show t :: rest = dn ++ ts1 from h1] at h3
          show Divides _ _ _ _ _ (post t e1).recs.reverse
          unfold post
          split
          · obtain ⟨p, rs, p', rs', _, g2, g3, _⟩ := h3.vfr
            show Divides _ _ _ _ _ (mapOldest toVfr e1.recs).reverse
            rw [g2]; exact g3.all
          · exact h3.rows2.all
        · cases h1

/-- The elements after the first have their tokens in the order of the text. -/
theorem divides_starts {T X : List Token} {prev : Option (Record F)} {own : Option Token} {ts : List Token} {l : List (Record F)}
    (h : Divides T X prev own ts l) : (l.tail.map (·.start)).Sublist (ts.map (·.start)) := by
  induction h with
  | last => exact List.nil_sublist _
  | next _ he _ ih =>
    rw [List.map_append, List.tail_cons, List.map_cons, List.map_cons, he.1]
    exact ((ih.cons_cons _).trans (List.sublist_append_right _ _))

/-- **C50 (the exception)** With error 48 the tokens need not be divided: in `N0450F350 PNT B9 50N010E XYZ` the element
`50N010E` comes after `XYZ`. -/
theorem c50_exception : ∃ s : Str, ∃ b e', parseText s = .ok (b, e') ∧
    ¬ ∃ l ades, e'.elements = l ++ [ades] ∧
      Divides (typedTokens ⟨tokenizeList f15Whitespace s, 0⟩) (overlong (typedTokens ⟨tokenizeList f15Whitespace s, 0⟩)) none none (typedTokens ⟨tokenizeList f15Whitespace s, 0⟩) l := by
  refine ⟨py! "N0450F350 PNT B9 50N010E XYZ", ?_⟩
  obtain ⟨b, e, h1, h2⟩ := check_ok (s := py! "N0450F350 PNT B9 50N010E XYZ")
    (p := fun _ e => e.elements.dropLast.tail.map (·.start) = [10, 14, 25, 17]) (by decide +kernel)
  refine ⟨b, e, h1, fun ⟨l, ades, h3, h4⟩ => ?_⟩
  have h5 := divides_starts h4
  have h6 : (typedTokens ⟨tokenizeList f15Whitespace (py! "N0450F350 PNT B9 50N010E XYZ"), 0⟩).map (·.start) = [0, 10, 14, 17, 25] := by
    decide +kernel
  rw [h6] at h5
  rw [h3, List.dropLast_concat] at h2
  have h7 : l.tail.map (·.start) = [10, 14, 25, 17] := of_decide_eq_true h2
  rw [h7] at h5
  exact absurd h5 (by decide)

/-- A rejected field 15 whose stretches carry something: the stay time is that of `STAY2/0130`, the free text of `VFR` is
`AAA BBB`. -/
example : check (py! "N0450F350 PNT/N0400F330 ? STAY2/0130 XYZ VFR AAA BBB") (fun b e => !b &&
    e.errors.map (·.errorText) = [py! "The element '?' is an unrecognised Field 15 element"] &&
    e.elements.map (·.name) = [py! "ADEP", py! "PNT", py! "XYZ", py! "VFR", py! "ADES"] &&
    e.elements.map (·.stayTime) = [0, 90, 0, 0, 0] &&
    e.elements.map (·.altitude) = [py! "F350", py! "F330", py! "F330", py! "F330", py! ""] &&
    e.elements.map (·.breakText) = [[], [], [], py! "AAA BBB", []]) = true := by decide +kernel

end F15
