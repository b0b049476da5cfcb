import Verif.Props.Due
import Verif.Lemmas.Messages
/-!
# Which messages are reported

C87: the messages that can be reported are known, and each of them can be.
-/

namespace F15
open Spec

set_option linter.unusedSectionVars false
variable {F : Type} [PyFloat F]

/-- The messages of the catalogue that are never used. -/
def unused : List Nat := [0, 2, 17, 18, 33, 56]

theorem starts_apart : ∀ n ∈ reportable, ∀ m ∈ unused, m = 56 ∨
    (!(litStart ((errorMessage n).getD [])).isPrefixOf (litStart ((errorMessage m).getD [])) &&
      !(litStart ((errorMessage m).getD [])).isPrefixOf (litStart ((errorMessage n).getD []))) = true := by decide +kernel

theorem starts_some : ∀ n ∈ reportable, litStart ((errorMessage n).getD []) ≠ [] := by decide +kernel

theorem says_message : ∀ n, n ∈ reportable ∨ n ∈ unused → ∀ w, replaceBang ((errorMessage n).getD []) w = says n w := by
  intro n hn w
  have key : ∀ n, n ∈ reportable ∨ n ∈ unused → (n, (errorMessage n).getD []) ∈ errorMessages := by
    have h1 : ∀ n ∈ reportable, (n, (errorMessage n).getD []) ∈ errorMessages := by decide +kernel
    have h2 : ∀ n ∈ unused, (n, (errorMessage n).getD []) ∈ errorMessages := by decide +kernel
    exact fun n h => h.elim (h1 n) (h2 n)
  exact catalogue_says w _ (key n hn)

/-- What a message in use says of a word is never what another one would say of any word. -/
theorem says_apart {n m : Nat} (hn : n ∈ reportable) (hm : m ∈ unused) (w v : Str) : says n w ≠ says m v := by
  rw [← says_message n (.inl hn), ← says_message m (.inr hm)]
  intro he
  have h1 := litStart_prefix w ((errorMessage n).getD [])
  rcases starts_apart n hn m hm with rfl | h
  · have : replaceBang ((errorMessage 56).getD []) v = [] := rfl
    rw [he, this] at h1
    exact starts_some n hn (List.prefix_nil.1 h1)
  · have h2 := litStart_prefix v ((errorMessage m).getD [])
    simp only [Bool.and_eq_true, Bool.not_eq_true'] at h
    rcases prefix_total h1 (he ▸ h2) with k | k
    · exact absurd (List.isPrefixOf_iff_prefix.2 k) (by simp [h.1])
    · exact absurd (List.isPrefixOf_iff_prefix.2 k) (by simp [h.2])

theorem empty_apart {m : Nat} (hm : m ∈ unused) (v : Str) : says m v ≠ py! "Field 15 is empty" := by
  have h : m = 0 ∨ m = 2 ∨ m = 17 ∨ m = 18 ∨ m = 33 ∨ m = 56 := by simpa [unused] using hm
  rcases h with rfl | rfl | rfl | rfl | rfl | rfl <;> simp [says, around]

/-- **C87** Every error a parse reports says what one of 49 messages says of a word of field 15 (or that field 15 is empty, if there is no word in it), ... -/
theorem c87 {n : Nat} {tokens : Tokens} {b : Bool} {e : Ers F} (h : parseF15 n Ers.new tokens = .ok (b, e)) :
    ∀ x ∈ e.errors, (typedTokens tokens = [] ∧ x.errorText = py! "Field 15 is empty") ∨
      ∃ t ∈ typedTokens tokens, ∃ m ∈ reportable, x.errorText = says m t.text ∧ x.name = t.text ∧ (x.start, x.stop) = (t.start, t.stop) := by
  intro x hx
  by_cases hne : tokens.toks = []
  · left
    have ht : typedTokens tokens = [] := by simp [typedTokens, hne]
    rcases c60_said_partial h x hx with h1 | ⟨p, t, q, m, h1, _⟩
    · exact h1
    · rw [ht] at h1; simp at h1
  · right
    obtain ⟨new, h1, h2⟩ := new_errors (by unfold Ers.elements; simpa using new_ne) hne h
    rw [h1] at hx
    rw [show (Ers.new : Ers F).errors = [] from rfl, List.nil_append] at hx
    obtain ⟨t, ht, m, hm, hr⟩ := h2 x hx
    refine ⟨t, ht, m, hm, c60_wording hr, ?_⟩
    obtain ⟨msg, _, rfl⟩ := hr
    exact ⟨rfl, rfl⟩

/-- **C87** ... so no error says what one of the other messages of the catalogue would say, of whatever word: in particular none says "ERROR UNDEFINED",
and none is without text. -/
theorem c87_never {n : Nat} {tokens : Tokens} {b : Bool} {e : Ers F} (h : parseF15 n Ers.new tokens = .ok (b, e)) :
    ∀ x ∈ e.errors, (∀ m ∈ [0, 2, 17, 18, 33, 56], ∀ w, x.errorText ≠ says m w) ∧ x.errorText ≠ py! "ERROR UNDEFINED" ∧ x.errorText ≠ [] := by
  intro x hx
  have key : ∀ m ∈ unused, ∀ w, x.errorText ≠ says m w := by
    intro m hm w
    rcases c87 h x hx with ⟨_, h1⟩ | ⟨t, _, k, hk, h1, _⟩
    · rw [h1]; exact fun h => empty_apart hm w h.symm
    · rw [h1]; exact says_apart hk hm _ _
  exact ⟨key, key 0 (by decide) [], key 56 (by decide) []⟩

/-- The sentence `says n w` is among the errors. -/
def reports (s : Str) (n : Nat) (w : Str) : Bool := check s fun _ e => e.errors.any fun x => x.errorText = says n w && x.name = w

/-- A field 15 for each of the messages, and the word complained of. -/
def instances : List (Nat × Str × Str) := [
  (1, py! "ABC", py! "ABC"),
  (3, py! "N0450F350 !!", py! "!!"),
  (4, py! "N0450F350 ABCDEFGHIJKLMNOPQRSTUVWXYZABCDEFGHIJKLMNOPQRSTUVWXYZ", py! "ABCDEFGHIJKLMNOPQRSTUVWXYZABCDEFGHIJKLMNOPQRSTUVWXYZ"),
  (5, py! "N0450F350 ABC N0450F350", py! "N0450F350"),
  (6, py! "N0450F350 ABC IFR", py! "IFR"),
  (7, py! "N0450F350 ABC GAT", py! "GAT"),
  (8, py! "N0450F350 ABC IFPSTART", py! "IFPSTART"),
  (9, py! "N0450F350 N0450F350PLUS", py! "N0450F350PLUS"),
  (10, py! "N0450F350 0020", py! "0020"),
  (11, py! "ABC / UL620", py! "UL620"),
  (12, py! "ABC UL620 /", py! "/"),
  (13, py! "ABC UL620 N0450VFR", py! "N0450VFR"),
  (14, py! "ABC UL620 DCT", py! "DCT"),
  (15, py! "ABC UL620 STAY1", py! "STAY1"),
  (16, py! "N0450F350 ABC / /", py! "/"),
  (19, py! "N0450F350 T N0450F350", py! "N0450F350"),
  (20, py! "N0450F350 ABC /", py! "/"),
  (21, py! "N0450F350 DCT N0450F350", py! "N0450F350"),
  (22, py! "N0450VFR IFR ABC", py! "ABC"),
  (23, py! "N0450F350 N0450F350", py! "N0450F350"),
  (24, py! "N0450F350 UL620", py! "UL620"),
  (25, py! "ABC /", py! "/"),
  (26, py! "N0450F350 ABC C/ABC N0450F350", py! "N0450F350"),
  (27, py! "ABC C/ABC", py! "ABC"),
  (28, py! "N0450F350 ABC C/ABC/", py! "ABC"),
  (29, py! "N0450F350 ABC C/ABC/N0450F350", py! "N0450F350"),
  (30, py! "N0450F350 ABC SID", py! "SID"),
  (31, py! "N0450F350 ABC1A N0450F350", py! "N0450F350"),
  (32, py! "N0450F350 ABC1A SID", py! "SID"),
  (34, py! "N0450F350 STAR N0450F350", py! "N0450F350"),
  (35, py! "ABC STAY1", py! "STAY1"),
  (36, py! "ABC STAY1 N0450F350", py! "N0450F350"),
  (37, py! "ABC STAY1/", py! "/"),
  (38, py! "N0450F350 ABC STAY1/N0450F350", py! "N0450F350"),
  (39, py! "N0450F350 ABC STAY1/0020 /", py! "/"),
  (40, py! "N0450F352", py! "N0450F352"),
  (42, py! "N0450F350 93N010W", py! "93N010W"),
  (43, py! "N0450F350 5360N01000W", py! "5360N01000W"),
  (44, py! "N0450F350 53N190W", py! "53N190W"),
  (45, py! "N0450F350 5300N01060W", py! "5300N01060W"),
  (46, py! "N0450F350 ABC370010", py! "ABC370010"),
  (47, py! "N0450F350 53N010W UL620", py! "UL620"),
  (48, py! "ABC UL620 53N010W", py! "53N010W"),
  (49, py! "N0450F350", py! "N0450F350"),
  (50, py! "N0450F350 ABC / ABC", py! "ABC"),
  (52, py! "ABC C/", py! "/"),
  (53, py! "ABC UL620 UL621", py! "UL621"),
  (54, py! "ABC UL620 ABC1A", py! "ABC1A"),
  (55, py! "ABC UL620 N0450F350", py! "N0450F350")]

theorem instances_do : ∀ x ∈ instances, reports x.2.1 x.1 x.2.2 = true := by decide +kernel

theorem instances_all : ∀ n ∈ reportable, ∃ x ∈ instances, x.1 = n := by decide +kernel

/-- **C87** None of the messages counted in is there for nothing: each can be reported, "Field 15 is empty" too. -/
theorem c87_each : (∀ n ∈ reportable, ∃ (s w : Str) (b : Bool) (e : Ers Rat), parseText s = .ok (b, e) ∧ ∃ x ∈ e.errors, x.errorText = says n w ∧ x.name = w) ∧
    ∃ (b : Bool) (e : Ers Rat), parseText [] = .ok (b, e) ∧ ∃ x ∈ e.errors, x.errorText = py! "Field 15 is empty" := by
  constructor
  · intro n hn
    obtain ⟨x, hx, rfl⟩ := instances_all n hn
    obtain ⟨b, e, h1, h2⟩ := check_ok (instances_do x hx)
    obtain ⟨r, hr, h3⟩ := List.any_eq_true.1 h2
    simp only [Bool.and_eq_true, decide_eq_true_eq] at h3
    exact ⟨_, _, b, e, h1, r, hr, h3⟩
  · obtain ⟨b, e, h1, h2⟩ := check_ok (s := []) (p := fun _ e => e.errors.any fun x => x.errorText = py! "Field 15 is empty") (by decide +kernel)
    obtain ⟨r, hr, h3⟩ := List.any_eq_true.1 h2
    exact ⟨b, e, h1, r, hr, of_decide_eq_true h3⟩

/-- Every message of the catalogue is in use, is about the empty field, or is never used. -/
theorem catalogue_split : ∀ p ∈ errorMessages, p.1 ∈ reportable ∨ p.1 = 41 ∨ p.1 ∈ unused := by decide +kernel

/-- Three words of which something is wrong. -/
example : (summary (py! "ABC UL620 DCT 93N010W /")).map (fun s => s.2.2.1) = some
    [says 1 (py! "ABC"), says 14 (py! "DCT"), says 42 (py! "93N010W"), says 20 (py! "/")] := by decide +kernel

end F15
