import Verif.Spec.Trust
import Verif.Spec.Example
import Verif.Props.Faults
import Verif.Props.Causal
import Verif.Props.Meaning
import Verif.Props.Grammar
/-!
# C80: as far as the first error, the result is right

The words before the first error are the beginning of a field 15 that is accepted (C47). What has been extracted from them is what is extracted
from every such field 15, and what the rules for accepted field 15s (C68) say.
-/

namespace F15
open Spec

set_option linter.unusedSectionVars false
variable {F : Type} [PyFloat F]

theorem so_far {n1 n2 : Nat} {tokens1 tokens2 : Tokens} {b1 : Bool} {e1 e2 : Ers F} {pre x y : List Token} (hpre : pre ≠ [])
    (ht1 : typedTokens tokens1 = pre ++ x) (ht2 : typedTokens tokens2 = pre ++ y)
    (h1 : parseF15 n1 Ers.new tokens1 = .ok (b1, e1)) (h2 : parseF15 n2 Ers.new tokens2 = .ok (true, e2)) :
    RightSoFar e1 pre x y e2.elements := by
  obtain ⟨past, near1, near2, late1, late2, a1, a2, g1, g2, g3, g4, g5, g6, g7⟩ := (c53 new_ne hpre ht1 ht2 h1 h2).elements
  have hz : e2.errors = [] := (c13 (by simp [Ers.elements, Ers.new, Ers.addDummyAdepAdes, Ers.createAppendElement, Ers.appendElement]) h2).1 rfl
  refine ⟨past, near1, near2, late1, late2, a1, a2, g1, g2, g3, g4, fun r hr => ?_, g6, g7⟩
  obtain ⟨t, ht | ⟨q, hq, _⟩, hel⟩ := g5 r hr
  · exact ⟨t, ht, hel⟩
  · rw [hz] at hq; cases hq

/-- **C80** A field 15 is rejected, and the first error is about the word `t`. The words `pre` before it can be completed to a field 15 that
is accepted, and as far as they go the elements are those of every such field 15: the same, but for what words behind `pre` may still say
about the last one or two, and but for elements taken, there and here, from the last three words of `pre` or later (or from a point refused
with error 48, which is recorded later). -/
theorem c80 {frames : Nat} {tokens : Tokens} {b : Bool} {e : Ers F} {x : Record F} {xs : List (Record F)}
    (hne : typedTokens tokens ≠ []) (h : parseF15 frames Ers.new tokens = .ok (b, e)) (hx : e.errors = x :: xs) :
    ∃ pre t post n, typedTokens tokens = pre ++ t :: post ∧ ErrorIs t n x ∧ Extendable pre ∧
      (pre ≠ [] → ∀ (frames' : Nat) (good : Tokens) (rest : List Token) (e' : Ers F), parseF15 frames' Ers.new good = .ok (true, e') →
        typedTokens good = pre ++ rest → RightSoFar e pre (t :: post) rest e'.elements) := by
  obtain ⟨pre, t, post, n, h1, h2, h3, _⟩ := c47 hne h hx
  refine ⟨pre, t, post, n, h1, h2, h3, fun hp frames' good rest e' hg hy => so_far hp h1 hy h hg⟩

/-- **C80** By the rules: whatever sentence of the grammar begins with the words before the first error, the elements follow, that far, the rules
of `Spec.Meaning` for this sentence. -/
theorem c80_rules {frames : Nat} {tokens : Tokens} {b : Bool} {e : Ers F} {x : Record F} {xs : List (Record F)}
    (hne : typedTokens tokens ≠ []) (h : parseF15 frames Ers.new tokens = .ok (b, e)) (hx : e.errors = x :: xs) :
    ∃ pre t post n, typedTokens tokens = pre ++ t :: post ∧ ErrorIs t n x ∧ Extendable pre ∧
      (pre ≠ [] → ∀ z : List Token, (∀ u ∈ pre ++ z, assignSyntax u = u ∧ u.text ≠ []) → Sentence (pre ++ z) → ∀ l : List (Record F),
        Meaning (pre ++ z) l → RightSoFar e pre (t :: post) z l) := by
  obtain ⟨pre, t, post, n, h1, h2, h3, h4⟩ := c80 hne h hx
  refine ⟨pre, t, post, n, h1, h2, h3, fun hp z hz hs l hl => ?_⟩
  have ht : typedTokens ⟨pre ++ z, 0⟩ = pre ++ z := by
    unfold typedTokens
    conv_rhs => rw [← List.map_id (pre ++ z)]
    exact List.map_congr_left fun u hu => (hz u hu).1
  obtain ⟨e', he'⟩ := (c22 (F := F) ⟨pre ++ z, 0⟩ (Nat.le_refl _)).2 (by rw [ht]; exact hs)
  have := (c68_only he' (fun u hu => (hz u hu).2) (l := l)).1 (by rw [ht]; exact hl)
  subst this
  exact h4 hp _ _ _ _ he' ht

/-- A rejected field 15: the first error is about the last word but one. The other one begins alike and is accepted; its elements begin alike. -/
example :
    check (py! "N0450F350 DCT PNT UL9 ABC STAY1/0030 DCT EFG ??? HIJ") (fun b e => !b && (e.errors.map (·.name) = [py! "???"]) &&
      (e.elements.map (·.name) = [py! "ADEP", py! "DCT", py! "PNT", py! "UL9", py! "ABC", py! "DCT", py! "EFG", py! "HIJ", py! "ADES"])) = true ∧
    check (py! "N0450F350 DCT PNT UL9 ABC STAY1/0030 DCT EFG/N0460F370 STAR") (fun b e => b &&
      (e.elements.map (·.name) = [py! "ADEP", py! "DCT", py! "PNT", py! "UL9", py! "ABC", py! "DCT", py! "EFG", py! "STAR", py! "ADES"])) = true := by
  refine ⟨by decide +kernel, by decide +kernel⟩

end F15
