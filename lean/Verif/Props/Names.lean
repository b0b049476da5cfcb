import Verif.Props.Kinds
import Verif.Spec.Example
/-!
# C79: names are opaque

Which point, route, procedure or remark a word names is nothing to the parser but a text to copy: change the names in a field 15 to
others of the same kinds, and speeds, levels, flight rules, positions, courses, staying times and messages are what they were. For every
input, accepted or not.
-/

namespace F15
open Spec

set_option linter.unusedSectionVars false
variable {F : Type} [PyFloat F]

theorem renamed_kinds {A B : List Token} (h : All2 Renamed A B) : A.map (fun t => (t.base, t.sub)) = B.map fun t => (t.base, t.sub) := by
  induction h with
  | nil => rfl
  | cons h _ ih => rw [List.map_cons, List.map_cons, ih, h.1.1, h.1.2]

theorem renamed_text {A B : List Token} (h : All2 Renamed A B) {t u : Token} (hf : Facing A B t u) (hn : Numeric t) : t.text = u.text := by
  obtain ⟨i, h1, h2⟩ := hf
  induction h generalizing i with
  | nil => cases h1
  | cons h _ ih =>
    cases i with
    | zero => cases h1; cases h2; exact h.2 hn
    | succ i => exact ih i h1 h2

theorem values_of {T U : List Token} {r s : Record F} (h : SameShape T U r s) (k : SameFrom T U r s) (h1 : Agree SpeedWord T U)
    (h2 : Agree PlaceWord T U) (h3 : Agree StayWord T U) : SameValues r s := by
  obtain ⟨a1, a2, a3, a4, a5, a6⟩ := k.speeds h1
  obtain ⟨b1, b2, b3, b4, b5⟩ := k.places h2
  have c1 := k.stays h3
  have c2 := k.clean
  obtain ⟨g1, g2, g3, _, _⟩ := h
  unfold SameValues
  obtain ⟨_, _, _, _, _, _, _, _, _, _, _, _, _, _, _, _, _, _, _, _⟩ := r
  obtain ⟨_, _, _, _, _, _, _, _, _, _, _, _, _, _, _, _, _, _, _, _⟩ := s
  simp_all

theorem all2_and {α β : Type} {P Q R : α → β → Prop} (hr : ∀ x y, P x y → Q x y → R x y) {a : List α} {b : List β} (h : All2 P a b)
    (k : All2 Q a b) : All2 R a b := by
  induction h with
  | nil => exact .nil
  | cons h _ ih => cases k with
    | cons k l => exact .cons (hr _ _ h k) (ih l)

/-- The return value says whether there are errors. -/
theorem same_value {n : Nat} {T U : Tokens} {b c : Bool} {e f : Ers F} (h1 : parseF15 n Ers.new T = .ok (b, e))
    (h2 : parseF15 n Ers.new U = .ok (c, f)) (hl : e.errors.length = f.errors.length) : b = c := by
  have g1 := c13 (e := Ers.new) (by simp [Ers.elements, new_ne]) h1
  have g2 := c13 (e := Ers.new) (by simp [Ers.elements, new_ne]) h2
  rw [← List.length_eq_zero_iff] at g1 g2
  rw [hl, ← g2] at g1
  cases b <;> cases c <;> simp_all

/-- **C79** Two field 15s that differ, word by word, only in names (words of the same kind without numbers the parser reads) and in where
the words stand: the parser leaves both with the same exception, or returns the same for both, with the same derived flight rules, the
same elements at the same words, but for names, places and remarks, and the same messages about the same words. -/
theorem c79 {n : Nat} {T U : Tokens} (h : All2 Renamed (typedTokens T) (typedTokens U)) (hne : typedTokens T ≠ []) :
    (∃ b e f, parseF15 (F := F) n Ers.new T = .ok (b, e) ∧ parseF15 (F := F) n Ers.new U = .ok (b, f) ∧
      All2 SameValues e.elements f.elements ∧ All2 (SameShape (typedTokens T) (typedTokens U)) e.elements f.elements ∧
      All2 (SameError (typedTokens T) (typedTokens U)) e.errors f.errors ∧ e.derived = f.derived) ∨
    ∃ x, parseF15 (F := F) n Ers.new T = .error x ∧ parseF15 (F := F) n Ers.new U = .error x := by
  rcases kinds_alike (F := F) (n := n) (renamed_kinds h) hne with ⟨b, e, c, f, h1, h2, h3, _, h5, h6, h7⟩ | h
  · have a1 : Agree SpeedWord (typedTokens T) (typedTokens U) := fun t u hf hn => renamed_text h hf (.inl hn)
    have a2 : Agree PlaceWord (typedTokens T) (typedTokens U) := fun t u hf hn => renamed_text h hf (.inr (.inl hn))
    have a3 : Agree StayWord (typedTokens T) (typedTokens U) := fun t u hf hn => renamed_text h hf (.inr (.inr hn))
    have h8 := h7.none fun n hn => hn.elim (fun h => h.2 a1) (fun h => h.2 a2)
    cases same_value h1 h2 h8.len
    exact .inl ⟨b, e, f, h1, h2, all2_and (fun r s g k => values_of g k a1 a2 a3) h3 h6, h3, h8, h5⟩
  · exact .inr h

instance (t u : Token) : Decidable (Renamed t u) := by
  unfold Renamed Alike Numeric SpeedWord PlaceWord StayWord
  infer_instance

theorem all2_zip {α β : Type} {R : α → β → Prop} {a : List α} {b : List β} (hl : a.length = b.length) (h : ∀ z ∈ a.zip b, R z.1 z.2) : All2 R a b := by
  induction a generalizing b with
  | nil => cases b with
    | nil => exact .nil
    | cons => cases hl
  | cons x a ih => cases b with
    | nil => cases hl
    | cons y b =>
      rw [List.zip_cons_cons] at h
      exact .cons (h (x, y) (by simp)) (ih (by simpa using hl) fun z hz => h z (by simp [hz]))

/-- A field 15 and another one with other names; and they are faulty. -/
example :
    All2 Renamed (typedTokens ⟨tokenizeList f15Whitespace (py! "N0450F351 DCT 5030N01020W UL9 ABC ABC/VFR REST"), 0⟩)
      (typedTokens ⟨tokenizeList f15Whitespace (py! "  N0450F351 DCT 5030N01020W B1 XYZZY EFG/VFR PNTS"), 0⟩) ∧
    check (py! "N0450F351 DCT 5030N01020W UL9 ABC ABC/VFR REST") (fun b e => !b && (e.errors.map (·.start) = [0, 26, 38])) = true := by
  refine ⟨all2_zip (by decide +kernel) (by decide +kernel), by decide +kernel⟩

end F15
