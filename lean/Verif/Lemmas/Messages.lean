import Verif.Lemmas.Does
import Verif.Spec.Sequence
/-!
# Different complaints about a word have different texts
-/

namespace F15
open Spec

set_option linter.unusedSectionVars false
variable {F : Type} [PyFloat F]

/-- The messages that are used. -/
def numOk (n : Nat) : Bool := (errorMessage n).isSome && n != 56

/-- The text before the first `!`. -/
def litStart (s : Str) : Str := s.takeWhile (· ≠ '!')

/-- The text after the last `!`. -/
def litEnd (s : Str) : Str := litStart s.reverse

theorem litStart_prefix (w : Str) : ∀ s, litStart s <+: replaceBang s w
  | [] => by simp [litStart]
  | c :: s => by
    unfold litStart replaceBang
    by_cases h : c = '!'
    · simp [h]
    · have := litStart_prefix w s
      simp only [litStart, replaceBang] at this
      simp [h]
      simpa using this

theorem replaceBang_reverse (s w : Str) : (replaceBang s w).reverse = replaceBang s.reverse w.reverse := by
  unfold replaceBang
  rw [List.reverse_flatMap]
  congr 1
  funext c
  simp only [Function.comp]
  split <;> rfl

theorem replaceBang_length (w : Str) : ∀ s, (replaceBang s w).length + s.count '!' = s.length + s.count '!' * w.length
  | [] => by simp [replaceBang]
  | c :: s => by
    have := replaceBang_length w s
    unfold replaceBang at this ⊢
    by_cases h : c = '!'
    · subst h
      simp only [List.flatMap_cons, if_pos, List.length_append, List.count_cons_self, List.length_cons, Nat.add_mul]
      omega
    · simp only [List.flatMap_cons, if_neg h, List.length_append, List.length_cons, List.count_cons_of_ne h, List.length_nil]
      omega

/-- A reason why two messages are never the same. -/
def apart (a b : Str) : Bool :=
  (!(litStart a).isPrefixOf (litStart b) && !(litStart b).isPrefixOf (litStart a)) ||
  (!(litEnd a).isPrefixOf (litEnd b) && !(litEnd b).isPrefixOf (litEnd a)) ||
  (a.count '!' == b.count '!' && a.length != b.length)

theorem prefix_total {α : Type} {a b c : List α} (h1 : a <+: c) (h2 : b <+: c) : a <+: b ∨ b <+: a :=
  List.prefix_or_prefix_of_prefix h1 h2

theorem apart_ne {a b : Str} (h : apart a b = true) (w : Str) : replaceBang a w ≠ replaceBang b w := by
  intro he
  have k1 := prefix_total (litStart_prefix w a) (he ▸ litStart_prefix w b)
  have k2 : litEnd a <+: litEnd b ∨ litEnd b <+: litEnd a := by
    have r := congrArg List.reverse he
    rw [replaceBang_reverse, replaceBang_reverse] at r
    exact prefix_total (litStart_prefix w.reverse a.reverse) (by rw [r]; exact litStart_prefix _ _)
  have l1 := replaceBang_length w a
  have l2 := replaceBang_length w b
  rw [he] at l1
  simp only [apart, Bool.or_eq_true, Bool.and_eq_true, Bool.not_eq_true', beq_iff_eq, bne_iff_ne, ne_eq] at h
  rcases h with (⟨h1, h2⟩ | ⟨h1, h2⟩) | ⟨h1, h2⟩
  · rcases k1 with k | k
    · exact absurd (List.isPrefixOf_iff_prefix.2 k) (by simp [h1])
    · exact absurd (List.isPrefixOf_iff_prefix.2 k) (by simp [h2])
  · rcases k2 with k | k
    · exact absurd (List.isPrefixOf_iff_prefix.2 k) (by simp [h1])
    · exact absurd (List.isPrefixOf_iff_prefix.2 k) (by simp [h2])
  · rw [h1] at l1
    omega

theorem all_apart : ∀ p ∈ errorMessages, ∀ q ∈ errorMessages, p.1 ≠ 56 → q.1 ≠ 56 → p.1 = q.1 ∨ apart p.2 q.2 = true := by
  decide +kernel

theorem lookup_mem {α β : Type} [BEq α] [LawfulBEq α] {l : List (α × β)} {a : α} {b : β} (h : l.lookup a = some b) : (a, b) ∈ l := by
  induction l with
  | nil => cases h
  | cons p l ih =>
    obtain ⟨x, y⟩ := p
    rw [List.lookup_cons] at h
    cases hx : a == x
    · rw [hx] at h; exact List.mem_cons_of_mem _ (ih h)
    · rw [hx] at h
      cases h
      rw [beq_iff_eq] at hx
      subst hx
      exact List.mem_cons_self ..

theorem errRec_text (t : Token) (n : Nat) : (errRec t n : Record F).errorText = replaceBang ((errorMessage n).getD []) t.text := by
  unfold errRec Record.appendErrorText Record.new
  rfl

theorem errRec_start (t : Token) (n : Nat) : (errRec t n : Record F).start = t.start := rfl

/-- Different complaints about a word have different texts. -/
theorem errText_inj {t : Token} {n m : Nat} (hn : numOk n = true) (hm : numOk m = true)
    (k : (errRec t n : Record F).errorText = (errRec t m : Record F).errorText) : n = m := by
  rw [errRec_text, errRec_text] at k
  simp only [numOk, Bool.and_eq_true, bne_iff_ne, ne_eq] at hn hm
  obtain ⟨a, ha⟩ := Option.isSome_iff_exists.1 hn.1
  obtain ⟨b, hb⟩ := Option.isSome_iff_exists.1 hm.1
  rw [ha, hb] at k
  rcases all_apart _ (lookup_mem ha) _ (lookup_mem hb) hn.2 hm.2 with h1 | h1
  · exact h1
  · exact absurd k (apart_ne h1 _)

end F15
