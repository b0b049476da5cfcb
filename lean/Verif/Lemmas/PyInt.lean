import Verif.Model.Parser
import Verif.Spec.Values
/-! `int()` on strings of decimal digits. -/

namespace F15
open Spec

/-- A non-empty string of decimal digits. -/
def DigitStr (s : Str) : Prop := s ≠ [] ∧ ∀ c ∈ s, Digit c

theorem isDig_iff (c : Char) : isDig c = true ↔ Digit c := by simp [isDig, Digit]

theorem digit_toNat {c : Char} (h : Digit c) : 48 ≤ c.toNat ∧ c.toNat ≤ 57 := by
  obtain ⟨h1, h2⟩ := h
  rw [Char.le_def] at h1 h2
  exact ⟨h1, h2⟩

theorem digVal_eq (c : Char) : digVal c = dval c := rfl

theorem dval_le {c : Char} (h : Digit c) : dval c ≤ 9 := by
  have := digit_toNat h
  have e : ('0' : Char).toNat = 48 := rfl
  simp only [dval, e]; omega

theorem digitsAux_digits (s : Str) (h : ∀ c ∈ s, Digit c) (acc : Nat) :
    digitsAux acc true s = some (s.foldl (fun a c => 10 * a + dval c) acc) := by
  induction s generalizing acc with
  | nil => rfl
  | cons c s ih =>
    have hc : isDig c = true := (isDig_iff c).2 (h c (by simp))
    simp only [digitsAux, hc, if_true, List.foldl_cons]
    rw [ih (fun d hd => h d (by simp [hd])), digVal_eq, Nat.mul_comm]

theorem digit_not_space {c : Char} (h : Digit c) : isSpace c = false := by
  have := digit_toNat h
  simp only [isSpace, Bool.or_eq_false_iff, decide_eq_false_iff_not]
  refine ⟨⟨⟨⟨⟨?_, ?_⟩, ?_⟩, ?_⟩, ?_⟩, ?_⟩ <;> rintro rfl <;> revert this <;> decide

theorem dropWhile_eq_self {s : Str} (h : ∀ c ∈ s, isSpace c = false) : s.dropWhile isSpace = s := by
  cases s with
  | nil => rfl
  | cons c s => rw [List.dropWhile_cons, h c (by simp)]; simp

theorem strip_digits {s : Str} (h : ∀ c ∈ s, Digit c) : strip s = s := by
  have h1 : s.dropWhile isSpace = s := dropWhile_eq_self fun c hc => digit_not_space (h c hc)
  have h2 : s.reverse.dropWhile isSpace = s.reverse :=
    dropWhile_eq_self fun c hc => digit_not_space (h c (by simpa using hc))
  unfold strip
  rw [h1, h2, List.reverse_reverse]

/-- `int(s)` of a digit string is its decimal value. -/
theorem pyInt_digits {s : Str} (h : DigitStr s) : pyInt s = .ok (numVal s : Int) := by
  obtain ⟨hne, hd⟩ := h
  unfold pyInt
  rw [strip_digits hd]
  cases s with
  | nil => exact absurd rfl hne
  | cons c s =>
    have hc := hd c (by simp)
    have key : digitsAux 0 false (c :: s) = some (numVal (c :: s)) := by
      have hdig : isDig c = true := (isDig_iff c).2 hc
      simp only [digitsAux, hdig, if_true, numVal, List.foldl_cons]
      rw [digitsAux_digits s (fun d hd' => hd d (by simp [hd']))]
      simp [digVal_eq]
    have n1 : c ≠ '-' := by
      rintro rfl; exact absurd (digit_toNat hc) (by decide)
    have n2 : c ≠ '+' := by
      rintro rfl; exact absurd (digit_toNat hc) (by decide)
    split
    · rename_i h; exact absurd (List.cons.inj h).1 n1
    · rename_i h; exact absurd (List.cons.inj h).1 n2
    · rw [key]

theorem pyFloat_digits {F : Type} [PyFloat F] {s : Str} (h : DigitStr s) :
    pyFloat s = .ok (PyFloat.ofInt (numVal s : Int) : F) := by
  unfold pyFloat; rw [pyInt_digits h]

theorem numVal_append (a b : Str) : numVal (a ++ b) = numVal a * 10 ^ b.length + numVal b := by
  unfold numVal
  rw [List.foldl_append]
  generalize List.foldl (fun a c => 10 * a + dval c) 0 a = x
  have : ∀ (b : Str) (x : Nat), List.foldl (fun a c => 10 * a + dval c) x b
      = x * 10 ^ b.length + List.foldl (fun a c => 10 * a + dval c) 0 b := by
    intro b
    induction b with
    | nil => simp
    | cons c b ih =>
      intro x
      simp only [List.foldl_cons, List.length_cons]
      rw [ih (10 * x + dval c), ih (10 * 0 + dval c)]
      rw [Nat.pow_succ, Nat.add_mul, Nat.add_mul]
      have : 10 * x * 10 ^ b.length = x * (10 ^ b.length * 10) := by
        rw [Nat.mul_comm 10 x, Nat.mul_assoc, Nat.mul_comm 10]
      omega
  exact this b x

theorem numVal_lt {s : Str} (h : ∀ c ∈ s, Digit c) : numVal s < 10 ^ s.length := by
  induction s with
  | nil => decide
  | cons c s ih =>
    have h1 := ih fun d hd => h d (by simp [hd])
    have h2 := dval_le (h c (by simp))
    have : numVal (c :: s) = dval c * 10 ^ s.length + numVal s := by
      have := numVal_append [c] s
      simpa [numVal] using this
    rw [this, List.length_cons, Nat.pow_succ]
    have : dval c * 10 ^ s.length ≤ 9 * 10 ^ s.length := Nat.mul_le_mul_right _ h2
    omega

end F15
