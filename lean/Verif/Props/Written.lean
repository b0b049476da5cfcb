import Verif.Lemmas.Write5
import Verif.Props.Grammar
import Verif.Props.Layout
import Verif.Props.Recover
import Verif.Props.Meaning
/-!
# C77: the elements say it all

A field 15 written from nothing but the elements of an accepted field 15 (`Spec.written`) is accepted and has the same elements.
-/

namespace F15
open Spec

set_option linter.unusedSectionVars false
variable {F : Type} [PyFloat F]

theorem place_courses {l : List (Record F)} (hc : ∀ before r following, l = before ++ r :: following → (r.bearing, r.distance) = courseOf r following) :
    ∀ before r following, l.map noPlace = before ++ r :: following → (r.bearing, r.distance) = courseOf r following := by
  intro before r following h
  obtain ⟨l1, l2, rfl, rfl, h2⟩ := List.map_eq_append_iff.1 h
  obtain ⟨r0, l3, rfl, rfl, rfl⟩ := List.map_eq_cons_iff.1 h2
  have h1 := hc l1 r0 l3 rfl
  have hall : ∀ l : List (Record F), All2 LocEq l (l.map noPlace) := by
    intro l
    induction l with
    | nil => exact .nil
    | cons x l ih => exact .cons ⟨rfl, rfl, rfl⟩ ih
  rw [← courseOf_congr (r := r0) (r' := noPlace r0) (n := l3) ⟨rfl, rfl, rfl⟩ ((hall l3).take 2), ← h1]
  rfl

/-- Elements that agree but for indices and courses agree but for indices: the courses follow from the positions. -/
theorem bare_places {frames frames' : Nat} {T T' : Tokens} {b b' : Bool} {e e' : Ers F} (h : parseF15 frames Ers.new T = .ok (b, e))
    (h' : parseF15 frames' Ers.new T' = .ok (b', e')) (hb : e.elements.map bare = e'.elements.map bare) :
    e.elements.map noPlace = e'.elements.map noPlace := by
  refine aim_unique ?_ (place_courses fun _ _ _ hr => c31 h hr) (place_courses fun _ _ _ hr => c31 h' hr)
  rw [List.map_map, List.map_map]
  exact hb

/-- Words separated by blanks are these words. -/
theorem join_layout {ws : Str} {c : Char} (hc : c ∈ ws) (hs : c ≠ '/') {ts : List Str} (hall : ∀ x ∈ ts, TokText ws x) : Layout ws ts (joinSep c ts) := by
  have hgap : ∀ {ts s}, Layout ws ts s → Layout ws ts (c :: s) := by
    intro ts s hl
    have hcg : ∀ {g : Str}, Gap ws g → Gap ws (c :: g) := by
      intro g hg d hd
      rcases List.mem_cons.1 hd with rfl | hd
      · exact ⟨hc, hs⟩
      · exact hg d hd
    cases hl with
    | nil hg => exact .nil (hcg hg)
    | word hg hw => exact .word (g := c :: _) (hcg hg) hw
    | wordSep hg hw hd hl => exact .wordSep (g := c :: _) (hcg hg) hw hd hl
    | slash hg hsl hl => exact .slash (g := c :: _) (hcg hg) hsl hl
  induction ts with
  | nil => exact .nil (by intro c hc; simp [joinSep] at hc)
  | cons t ts ih =>
    have ih' := ih fun x hx => hall x (List.mem_cons_of_mem _ hx)
    have hj : joinSep c (t :: ts) = t ++ c :: joinSep c ts := by simp [joinSep]
    rw [hj]
    rcases hall t (by simp) with hw | ⟨rfl, hsl⟩
    · exact Layout.wordSep (g := []) (by intro c hc; simp at hc) hw hc (hgap ih')
    · exact Layout.slash (g := []) (by intro c hc; simp at hc) hsl (hgap ih')

/-- The texts of tokens are words or slashes. -/
theorem texts_fine (ws s : Str) : ∀ t ∈ tokenizeList ws s, TokText ws t.text := by
  intro t ht
  rcases c03_no_separator_in_token ws s t ht with h | h
  · left
    refine ⟨?_, h⟩
    have := c01_locations ws s t ht
    intro he
    have := this.2.2.2
    rw [he] at this
    simp at this; omega
  · exact .inr h

theorem written_places (l l' : List (Record F)) (h : l.map noPlace = l'.map noPlace) : written l = written l' := by
  have hb : ∀ l : List (Record F), (l.map noPlace).map bare = l.map bare := by
    intro l; rw [List.map_map]; rfl
  rw [← written_bare l, ← written_bare l', ← hb l, ← hb l', h]

/-- **C77** From the elements of an accepted field 15, and from nothing else, a field 15 can be written that is accepted and has the same elements:
the words `written` makes of them are words the tokenizer can deliver, tokens with these words are accepted, with the same derived flight rules
and the same elements, field by field, but for the places of the tokens. So the elements hold all that the field 15 said; writing them once more
gives the same words. -/
theorem c77 {frames frames' : Nat} {tokens tokens' : Tokens} {e : Ers F} (h : parseF15 frames Ers.new tokens = .ok (true, e))
    (hf : ∀ t ∈ tokens.toks, TokText f15Whitespace t.text) (ht : tokens'.toks.map (·.text) = written e.elements)
    (hd : 4 * tokens'.toks.length ≤ frames') :
    (∀ w ∈ written e.elements, TokText f15Whitespace w) ∧ ∃ e', parseF15 frames' Ers.new tokens' = .ok (true, e') ∧
      e'.derived = e.derived ∧ e'.elements.map noPlace = e.elements.map noPlace ∧ written e'.elements = written e.elements := by
  have hT : ∀ x ∈ tokens.toks.map assignSyntax, Typed x := fun x hx => typed_map hx
  have hF : ∀ x ∈ tokens.toks.map assignSyntax, TextOk x.text := by
    intro x hx
    obtain ⟨t, ht, rfl⟩ := List.mem_map.1 hx
    rw [assign_text]; exact hf t ht
  have h0 := h
  rw [parse_eq] at h0
  obtain ⟨t, rest, as, e1, hs, rfl⟩ := accepted new_len rfl hT h0
  rw [e1] at hs hT hF
  obtain ⟨W, as', w1, w2, w3, w4⟩ := written_run (F := F) hs hT hF
  rw [w1] at ht ⊢
  refine ⟨fun w hw => ?_, ?_⟩
  · rcases List.mem_cons.1 hw with rfl | hw
    · exact hF t (by simp)
    · exact w2 w hw
  have hT1 : ∀ x ∈ t.re :: W.map tk, Typed x := by
    intro x hx
    rcases List.mem_cons.1 hx with rfl | hx
    · rw [← tk_re (hT t (by simp))]; exact tk_typed _
    · obtain ⟨w, _, rfl⟩ := List.mem_map.1 hx
      exact tk_typed w
  obtain ⟨n, t1, ht1, hp⟩ := sentence_parses (F := F) new_len rfl hT1 w3
  cases ht1
  let T1 : Tokens := ⟨(t.text :: W).map fun s => ⟨s, 0, 0, .UNKNOWN, .UNKNOWN⟩, 0⟩
  have hT1m : T1.toks.map assignSyntax = t.re :: W.map tk := by
    show ((t.text :: W).map fun s => (⟨s, 0, 0, .UNKNOWN, .UNKNOWN⟩ : Token)).map assignSyntax = _
    rw [List.map_map, List.map_cons, ← tk_re (hT t (by simp))]; rfl
  rw [← hT1m, ← parse_eq] at hp
  have hlen : T1.toks.length = tokens'.toks.length := by
    have := congrArg List.length ht
    rw [List.length_map] at this
    rw [this]
    show (List.map _ _).length = _
    rw [List.length_map]
  have hne : (Ers.new : Ers F).elements ≠ [] := by simp [Ers.elements, new_ne]
  have hp' : parseF15 frames' (Ers.new : Ers F) T1 = .ok (true, finErs (post t.re (runs as' Ers.new))) := by
    rcases Nat.le_total n frames' with hle | hle
    · rw [c16_same hle _ _ (by rw [hp]; intro h; cases h), hp]
    · rw [← c16_same hle _ _ (c16_enough hne T1 (by rw [hlen]; exact hd)), hp]
  have htx : T1.toks.map (·.text) = tokens'.toks.map (·.text) := by
    rw [ht]
    show List.map _ (List.map _ _) = _
    rw [List.map_map]
    exact List.map_id' _
  have hc := c51 (F := F) frames' T1 tokens' htx
  rw [hp'] at hc
  cases hq : parseF15 frames' (Ers.new : Ers F) tokens' with
  | error x => rw [hq] at hc; exact hc.elim
  | ok r =>
    obtain ⟨b, e'⟩ := r
    rw [hq] at hc
    obtain ⟨rfl, hder, hsame, _⟩ := hc
    have hrec : (post t.re (runs as' (Ers.new : Ers F))).recs.map bare = (post t (runs as (Ers.new : Ers F))).recs.map bare := by
      rw [post_bare, post_bare, runs_recs, runs_recs, bare_runs as' _ new_ne, bare_runs as _ new_ne, new_bare, w4]; rfl
    obtain ⟨g1, g2⟩ := fin_bare hrec
    have hpl := bare_places hp' h g1
    have heq := (noPlace_of hsame).symm.trans hpl
    exact ⟨e', rfl, hder.symm.trans g2, heq, (written_places _ _ heq).trans w1⟩

/-- **C77** The same from text to text: write the words of the elements with a blank after each and parse the text. -/
theorem c77_text {frames frames' : Nat} {s : Str} {e : Ers F} (h : parseF15 frames Ers.new ⟨tokenizeList f15Whitespace s, 0⟩ = .ok (true, e))
    (hd : 4 * (written e.elements).length ≤ frames') :
    ∃ e', parseF15 frames' Ers.new ⟨tokenizeList f15Whitespace (joinSep ' ' (written e.elements)), 0⟩ = .ok (true, e') ∧
      e'.derived = e.derived ∧ e'.elements.map noPlace = e.elements.map noPlace ∧ written e'.elements = written e.elements := by
  have hf : ∀ t ∈ (⟨tokenizeList f15Whitespace s, 0⟩ : Tokens).toks, TokText f15Whitespace t.text := texts_fine _ s
  have hw := (c77 (tokens' := ⟨(written e.elements).map fun s => ⟨s, 0, 0, .UNKNOWN, .UNKNOWN⟩, 0⟩) (frames' := frames') h hf
    (by rw [List.map_map]; exact List.map_id' _) (by simpa using hd)).1
  have hl := c04_layout f15Whitespace _ _ (join_layout (c := ' ') (by decide) (by decide) hw)
  have hlen := congrArg List.length hl
  rw [List.length_map] at hlen
  exact (c77 h hf (tokens' := ⟨tokenizeList f15Whitespace (joinSep ' ' (written e.elements)), 0⟩) hl (by show 4 * List.length _ ≤ _; rw [hlen]; exact hd)).2

/-- **C77** Two accepted field 15s with the same elements (but for places) are written alike, and two that are written alike have the same elements: what
`written` makes is a normal form. -/
theorem c77_normal {frames frames' : Nat} {s s' : Str} {e e' : Ers F} (h : parseF15 frames Ers.new ⟨tokenizeList f15Whitespace s, 0⟩ = .ok (true, e))
    (h' : parseF15 frames' Ers.new ⟨tokenizeList f15Whitespace s', 0⟩ = .ok (true, e')) :
    written e.elements = written e'.elements ↔ e.elements.map noPlace = e'.elements.map noPlace := by
  constructor
  · intro hw
    obtain ⟨e1, p1, _, q1, _⟩ := c77_text (frames' := 4 * (written e.elements).length) h (Nat.le_refl _)
    obtain ⟨e2, p2, _, q2, _⟩ := c77_text (frames' := 4 * (written e.elements).length) h' (by rw [hw]; exact Nat.le_refl _)
    rw [← hw, p1] at p2
    cases p2
    rw [← q1, q2]
  · exact written_places _ _

/-- What is written of a route with a SID, level changes, a stay, a cruise climb from a Mach number, VFR and a STAR. -/
example : check (py! "N0450F350 LNZ1A LNZ UL856 PNT/N0460F360 STAY1/0130 DCT 46N050W C/51N050W/M082F290F350 VFR ABC IFR XYZ/N0450F350 DCT PNT ALB1A")
    (fun b e => b && decide (joinSep ' ' (written e.elements) =
      py! "N0450F350 LNZ1A LNZ / N0450F350 UL856 PNT / N0460F360 STAY1 / 0130 DCT 46N050W / N0460F360 C / 51N050W / M000F000F350 / M082F290 VFR ABC IFR XYZ / N0450F350 DCT PNT / N0450F350 ALB1A ")) = true := by
  decide +kernel

/-- A field 15 that begins and ends with a SPEED/VFR. -/
example : check (py! "N0120VFR ABC DEF IFR 40N020W/N0120VFR SIGHT")
    (fun b e => b && decide (joinSep ' ' (written e.elements) = py! "N0120VFR ABC DEF IFR 40N020W / N0120VFR SIGHT ")) = true := by
  decide +kernel

/-- The hypotheses are met: the first of these is accepted, so what is written of it is accepted with the same elements. -/
example : ∃ e e' : Ers Rat, parseText (py! "N0450F350 LNZ UL856 PNT/N0460F360 STAY1/0130 C/51N050W/M082F290F350 VFR ABC IFR XYZ/N0450F350 T") = .ok (true, e) ∧
    e.elements.length = 8 ∧ parseF15 1000 Ers.new ⟨tokenizeList f15Whitespace (joinSep ' ' (written e.elements)), 0⟩ = .ok (true, e') ∧
    e'.elements.map noPlace = e.elements.map noPlace := by
  have h : check (py! "N0450F350 LNZ UL856 PNT/N0460F360 STAY1/0130 C/51N050W/M082F290F350 VFR ABC IFR XYZ/N0450F350 T")
    (fun b e => b && decide (e.elements.length = 8) && decide (4 * (written e.elements).length ≤ 1000)) = true := by decide +kernel
  obtain ⟨b, e, h1, h2⟩ := check_ok h
  simp only [Bool.and_eq_true, decide_eq_true_eq] at h2
  obtain ⟨⟨rfl, h3⟩, h4⟩ := h2
  obtain ⟨e', p1, _, p2, _⟩ := c77_text h1 h4
  exact ⟨e, e', h1, h3, p1, p2⟩

end F15
