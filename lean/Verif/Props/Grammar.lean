import Verif.Lemmas.Sentence
import Verif.Props.Depth
/-!
# C22: accepted field 15s are exactly the sentences of the grammar
-/

namespace F15
open Spec

set_option linter.unusedSectionVars false
variable {F : Type} [PyFloat F]

theorem new_len : (Ers.new : Ers F).recs.length = 1 := rfl

/-- **C22** `parse_f15` returns True, on a new sequence and with a deep enough stack, exactly if the classified tokens are
a sentence of the grammar in `Spec/Grammar.lean`. -/
theorem c22 {frames : Nat} (tokens : Tokens) (hf : 4 * tokens.toks.length ≤ frames) :
    (∃ e', parseF15 frames (Ers.new : Ers F) tokens = .ok (true, e')) ↔ Sentence (typedTokens tokens) := by
  have hT : ∀ x ∈ tokens.toks.map assignSyntax, Typed x := fun x hx => typed_map hx
  constructor
  · rintro ⟨e', h⟩
    rw [parse_eq] at h
    obtain ⟨t, rest, as, _, hs, _⟩ := accepted new_len rfl hT h
    exact (sentence_iff hT).2 ⟨as, hs⟩
  · intro h
    obtain ⟨as, hs⟩ := (sentence_iff hT).1 h
    obtain ⟨n, t, _, hp⟩ := sentence_parses (F := F) new_len rfl hT hs
    rw [← parse_eq] at hp
    have hne : (Ers.new : Ers F).elements ≠ [] := by simp [Ers.elements, new_ne]
    refine ⟨finErs (post t (runs as Ers.new)), ?_⟩
    rcases Nat.le_total n frames with hle | hle
    · rw [c16_same hle _ _ (by rw [hp]; intro h; cases h), hp]
    · rw [← c16_same hle _ _ (c16_enough hne tokens hf), hp]

/-- **C22** With fewer stack frames the parser still accepts nothing but sentences. -/
theorem c22_sound {frames : Nat} (tokens : Tokens) {e' : Ers F}
    (h : parseF15 frames (Ers.new : Ers F) tokens = .ok (true, e')) : Sentence (typedTokens tokens) := by
  have hT : ∀ x ∈ tokens.toks.map assignSyntax, Typed x := fun x hx => typed_map hx
  rw [parse_eq] at h
  obtain ⟨t, rest, as, _, hs, _⟩ := accepted new_len rfl hT h
  exact (sentence_iff hT).2 ⟨as, hs⟩

/-- A route with a SID, level change, stay, cruise climb, VFR part and STAR is a sentence. -/
example : Sentence (typedTokens ⟨tokenizeList f15Whitespace
    (py! "N0450F350 LNZ1A LNZ UL856 PNT/N0460F360 STAY1/0130 DCT 46N050W C/51N050W/M082F290F350 VFR ABC IFR XYZ/N0450F350 DCT PNT ALB1A"), 0⟩) := by
  have h : check (py! "N0450F350 LNZ1A LNZ UL856 PNT/N0460F360 STAY1/0130 DCT 46N050W C/51N050W/M082F290F350 VFR ABC IFR XYZ/N0450F350 DCT PNT ALB1A")
    (fun b _ => b) = true := by decide +kernel
  obtain ⟨b, e, h1, h2⟩ := check_ok h
  subst h2
  exact c22_sound _ h1

/-- A STAR in the middle is not. -/
example : ¬ Sentence (typedTokens ⟨tokenizeList f15Whitespace (py! "N0450F350 PNT ALB1A PNT"), 0⟩) := by
  intro h
  obtain ⟨e', h⟩ := (c22 (F := Rat) (frames := 1000) _ (by decide +kernel)).2 h
  have h1 : check (py! "N0450F350 PNT ALB1A PNT") (fun b _ => !b) = true := by decide +kernel
  obtain ⟨b, e, h2, h3⟩ := check_ok h1
  rw [parseText, h] at h2
  cases h2
  cases h3

end F15
