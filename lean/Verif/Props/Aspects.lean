import Verif.Props.Names
/-!
# C81: what a word says stays in its own field

Speeds and levels come from the speed words, positions and courses from the words with coordinates, staying times from the words with a
time, and each of the messages about numbers from the word it is about; nothing else in the text has any influence on them but by its kind.
-/

namespace F15
open Spec

set_option linter.unusedSectionVars false
variable {F : Type} [PyFloat F]

theorem all2_imp {α β : Type} {P Q : α → β → Prop} (hr : ∀ x y, P x y → Q x y) {a : List α} {b : List β} (h : All2 P a b) : All2 Q a b := by
  induction h with
  | nil => exact .nil
  | cons h _ ih => exact .cons (hr _ _ h) ih

/-- **C81** Two field 15s whose words are of the same kinds, word by word. The parser leaves both with the same exception, or both parses give as
many elements, of the same shape and from the same words; and
* if the speed words are the same, so are all speeds and levels;
* if the words with coordinates and bearings are the same, so are all positions, courses and distances;
* if the staying times are the same, they are the same in the elements;
* if the speed words are the same, so are all messages but those about coordinates and bearings (42 to 46);
* if the words with coordinates and bearings are the same, so are all messages but those about levels (40). -/
theorem c81 {n : Nat} {T U : Tokens} (hk : (typedTokens T).map (fun t => (t.base, t.sub)) = (typedTokens U).map fun t => (t.base, t.sub))
    (hne : typedTokens T ≠ []) :
    (∃ b e c f, parseF15 (F := F) n Ers.new T = .ok (b, e) ∧ parseF15 (F := F) n Ers.new U = .ok (c, f) ∧
      All2 (SameShape (typedTokens T) (typedTokens U)) e.elements f.elements ∧ e.derived = f.derived ∧
      (Agree SpeedWord (typedTokens T) (typedTokens U) → All2 SameSpeeds e.elements f.elements) ∧
      (Agree PlaceWord (typedTokens T) (typedTokens U) → All2 SamePosition e.elements f.elements) ∧
      (Agree StayWord (typedTokens T) (typedTokens U) → e.elements.map (·.stayTime) = f.elements.map (·.stayTime)) ∧
      (Agree SpeedWord (typedTokens T) (typedTokens U) →
        SameErrorsBut (· ∈ [42, 43, 44, 45, 46]) (typedTokens T) (typedTokens U) e.errors f.errors) ∧
      (Agree PlaceWord (typedTokens T) (typedTokens U) →
        SameErrorsBut (· = 40) (typedTokens T) (typedTokens U) e.errors f.errors)) ∨
    ∃ x, parseF15 (F := F) n Ers.new T = .error x ∧ parseF15 (F := F) n Ers.new U = .error x := by
  rcases kinds_alike (F := F) (n := n) hk hne with ⟨b, e, c, f, h1, h2, h3, _, h5, h6, h7⟩ | h
  · refine .inl ⟨b, e, c, f, h1, h2, h3, h5, fun ha => all2_imp (fun _ _ h => h.speeds ha) h6, fun ha => all2_imp (fun _ _ h => h.places ha) h6,
      fun ha => all2_map.1 (all2_imp (fun _ _ h => h.stays ha) h6), fun ha => h7.mono ?_, fun ha => h7.mono ?_⟩
    · rintro n (h | h)
      · exact absurd ha h.2
      · exact h.1
    · rintro n (h | h)
      · exact h.1
      · exact absurd ha h.2
  · exact .inr h

/-- **C81** In particular, in a rejected field 15 as well as in an accepted one, other speeds and levels (and names) change nothing but speeds and
levels, names and places, and the messages about levels. -/
theorem c81_speeds {n : Nat} {T U : Tokens} (hk : (typedTokens T).map (fun t => (t.base, t.sub)) = (typedTokens U).map fun t => (t.base, t.sub))
    (hp : Agree PlaceWord (typedTokens T) (typedTokens U)) (hs : Agree StayWord (typedTokens T) (typedTokens U))
    {b c : Bool} {e f : Ers F} (h1 : parseF15 n Ers.new T = .ok (b, e)) (h2 : parseF15 n Ers.new U = .ok (c, f)) :
    All2 SameButNameAndSpeeds e.elements f.elements := by
  by_cases hne : typedTokens T = []
  · have hU : typedTokens U = [] := by
      rw [hne] at hk
      exact List.map_eq_nil_iff.1 hk.symm
    rw [c61_empty hne hU, h2] at h1
    cases h1
    generalize e.elements = l
    induction l with
    | nil => exact .nil
    | cons x l ih => exact .cons rfl ih
  · rcases kinds_alike (F := F) (n := n) hk hne with ⟨b', e', c', f', g1, g2, h3, _, h5, h6, h7⟩ | ⟨x, g, _⟩
    · rw [h1] at g1; rw [h2] at g2
      cases g1; cases g2
      refine all2_and ?_ h3 h6
      rintro r s ⟨a1, a2, a3, _, _⟩ k
      obtain ⟨b1, b2, b3, b4, b5⟩ := k.places hp
      have c1 := k.stays hs
      have c2 := k.clean
      unfold SameButNameAndSpeeds
      obtain ⟨_, _, _, _, _, _, _, _, _, _, _, _, _, _, _, _, _, _, _, _⟩ := r
      obtain ⟨_, _, _, _, _, _, _, _, _, _, _, _, _, _, _, _, _, _, _, _⟩ := s
      simp_all
    · rw [h1] at g; cases g

/-- Other speeds and levels, another of them wrong; the same coordinates (out of range) and the same time. -/
example :
    (typedTokens ⟨tokenizeList f15Whitespace (py! "N0450F350 DCT 9930N01020W/M082F360 STAY1/0130 ???"), 0⟩).map (fun t => (t.base, t.sub)) =
      (typedTokens ⟨tokenizeList f15Whitespace (py! "N0100F123 DCT 9930N01020W/M001F999 STAY2/0130 !!"), 0⟩).map (fun t => (t.base, t.sub)) ∧
    (∀ z ∈ (typedTokens ⟨tokenizeList f15Whitespace (py! "N0450F350 DCT 9930N01020W/M082F360 STAY1/0130 ???"), 0⟩).zip
      (typedTokens ⟨tokenizeList f15Whitespace (py! "N0100F123 DCT 9930N01020W/M001F999 STAY2/0130 !!"), 0⟩),
      z.1.sub ∈ [SubType.LL_DEG, .LL_MIN, .LLBD_DEG, .LLBD_MIN, .PRP_BD] ∨ z.1.base = .STAY_TIME → z.1.text = z.2.text) ∧
    check (py! "N0450F350 DCT 9930N01020W/M082F360 STAY1/0130 ???") (fun b e => !b && (e.errors.map (·.start) = [14, 46])) = true ∧
    check (py! "N0100F123 DCT 9930N01020W/M001F999 STAY2/0130 !!") (fun b e => !b && (e.errors.map (·.start) = [0, 14, 26, 46])) = true := by
  refine ⟨by decide +kernel, by decide +kernel, by decide +kernel, by decide +kernel⟩

end F15
