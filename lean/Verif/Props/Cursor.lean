import Verif.Lemmas.Access
/-!
# C06: the token cursor

`Tokens` behaves like a list with an integer cursor. `at?` is the specification of "the element at this
position, or `None`".
-/

namespace F15

/-- The element of `l` at integer position `i`, `none` if out of range. -/
def Spec.at? {α : Type} (l : List α) (i : Int) : Option α :=
  match i with
  | .ofNat n => l[n]?
  | .negSucc _ => none

open Spec (at?)

theorem getTokenAt_eq (t : Tokens) (i : Int) : t.getTokenAt i = .ok (at? t.toks i) := by
  rw [getTokenAt_ok]
  unfold at?
  cases i with
  | ofNat n =>
    simp only [Int.ofNat_eq_natCast, Int.toNat_natCast]
    split
    · rename_i h
      rcases h with h | h
      · omega
      · have : t.toks.length ≤ n := by omega
        simp [List.getElem?_eq_none this]
    · rfl
  | negSucc n =>
    have : Int.negSucc n < 0 := by omega
    simp [this]

/-- **C06** `get_token_at` returns the element at the position, `None` if it is out of range; it never raises. -/
theorem c06_at (t : Tokens) (i : Int) :
    t.getTokenAt i = .ok (if 0 ≤ i ∧ i < t.toks.length then t.toks[i.toNat]? else none) := by
  rw [getTokenAt_ok]
  by_cases h : i < 0 ∨ i ≥ t.toks.length
  · have : ¬ (0 ≤ i ∧ i < t.toks.length) := by omega
    simp [h, this]
  · have : 0 ≤ i ∧ i < t.toks.length := by omega
    simp [h, this]

/-- **C06** `get_first_token`: element 0, cursor at 0. -/
theorem c06_first (t : Tokens) : t.getFirstToken = (.ok t.toks.head?, { t with cur := 0 }) := by
  simp [Tokens.getFirstToken, getTokenAt_eq, at?, List.head?_eq_getElem?]

/-- **C06** `get_last_token`: the last element, cursor on it. -/
theorem c06_last (t : Tokens) :
    t.getLastToken = (.ok t.toks.getLast?, { t with cur := (t.toks.length : Int) - 1 }) := by
  simp only [Tokens.getLastToken, getTokenAt_eq, Tokens.getNumberOfTokens, Prod.mk.injEq, and_true]
  cases h : t.toks with
  | nil => rfl
  | cons a l =>
    rw [List.getLast?_eq_getElem?]
    simp [at?]

/-- **C06** `get_next_token` moves one position forward and returns the element there. -/
theorem c06_next (t : Tokens) :
    t.getNextToken = (.ok (at? t.toks (t.cur + 1)), { t with cur := t.cur + 1 }) := by
  simp [Tokens.getNextToken, getTokenAt_eq]

/-- **C06** `get_previous_token` moves one position backward and returns the element there. -/
theorem c06_previous (t : Tokens) :
    t.getPreviousToken = (.ok (at? t.toks (t.cur - 1)), { t with cur := t.cur - 1 }) := by
  simp [Tokens.getPreviousToken, getTokenAt_eq]

/-- **C06** `next` followed by `previous` returns to the same element and cursor. -/
theorem c06_next_previous (t : Tokens) :
    t.getNextToken.2.getPreviousToken = (t.getCurrentToken, t) := by
  rw [c06_next, c06_previous]
  simp only [Tokens.getCurrentToken, getTokenAt_eq]
  rw [show t.cur + 1 - 1 = t.cur by omega]

/-- **C06** `peek_next_token(k)`, `peek_previous_token(k)` and `get_current_token` read relative to the
cursor. (They return no new object: the cursor is not moved.) -/
theorem c06_peek (t : Tokens) (k : Int) :
    t.peekNextToken k = .ok (at? t.toks (t.cur + k)) ∧ t.peekPreviousToken k = .ok (at? t.toks (t.cur - k)) ∧
      t.getCurrentToken = .ok (at? t.toks t.cur) := by
  simp [Tokens.peekNextToken, Tokens.peekPreviousToken, Tokens.getCurrentToken, getTokenAt_eq]

/-- **C06** Peeking 1 agrees with the next `get_next_token`. -/
theorem c06_peek_next (t : Tokens) : t.peekNextToken 1 = t.getNextToken.1 := by
  simp [Tokens.peekNextToken, Tokens.getNextToken, getTokenAt_eq]

/-- **C06** `remove_tokens_from_end_of_list(i)` keeps exactly the elements with index ≤ i (0 ≤ i); the
cursor is not moved. -/
theorem c06_remove (t : Tokens) (i : Nat) :
    (t.removeTokensFromEndOfList i).toks = t.toks.take (i + 1) ∧
      (t.removeTokensFromEndOfList i).cur = t.cur := by
  refine ⟨?_, rfl⟩
  simp only [Tokens.removeTokensFromEndOfList, sliceTo, pyIdx]
  have : ¬ ((i : Int) + 1 < 0) := by omega
  simp only [this, if_false]
  rw [List.take_eq_take_iff]
  omega

/-- **C06** `append_token` adds at the end, `insert_token` at the (clamped) index, both keep the cursor
number. -/
theorem c06_append_insert (t : Tokens) (x : Token) (i : Nat) :
    (t.appendToken x).toks = t.toks ++ [x] ∧ (t.appendToken x).cur = t.cur ∧
    (t.insertToken x i).toks = t.toks.take i ++ x :: t.toks.drop i ∧ (t.insertToken x i).cur = t.cur := by
  refine ⟨rfl, rfl, ?_, rfl⟩
  simp only [Tokens.insertToken, pyIdx]
  have : ¬ ((i : Int) < 0) := by omega
  simp only [this, if_false, Int.toNat_natCast]
  rcases Nat.le_total i t.toks.length with h | h
  · rw [Nat.min_eq_left h]
  · rw [Nat.min_eq_right h, List.take_of_length_le h, List.drop_of_length_le h]
    simp

/-- Cursor movements. -/
inductive Move | first | last | next | previous

/-- One movement of the program, with the value returned. -/
def Move.run (t : Tokens) : Move → Except PyErr (Option Token) × Tokens
  | .first => t.getFirstToken
  | .last => t.getLastToken
  | .next => t.getNextToken
  | .previous => t.getPreviousToken

/-- Where the cursor should be after a movement, in a list of `n` elements. -/
def Move.pos (n : Nat) (c : Int) : Move → Int
  | .first => 0
  | .last => n - 1
  | .next => c + 1
  | .previous => c - 1

/-- **C06** For any sequence of movements, from any cursor position (also out of range): the list is
unchanged, the cursor is the position computed from the movements alone, and the value returned by
each movement is the element at that position, `None` if out of range. -/
theorem c06_history (ms : List Move) : ∀ (t : Tokens) (m : Move),
    let t' := ms.foldl (fun t m => (m.run t).2) t
    let c := ms.foldl (fun c m => m.pos t.toks.length c) t.cur
    t'.toks = t.toks ∧ t'.cur = c ∧ (m.run t').1 = .ok (at? t.toks (m.pos t.toks.length c)) := by
  induction ms with
  | nil =>
    intro t m
    refine ⟨rfl, rfl, ?_⟩
    cases m with
    | first => simp [Move.run, c06_first, Move.pos, at?, List.head?_eq_getElem?]
    | last =>
      simp only [List.foldl_nil, Move.run, c06_last, Move.pos]
      cases h : t.toks with
      | nil => rfl
      | cons a l => rw [List.getLast?_eq_getElem?]; simp [at?]
    | next => simp [Move.run, c06_next, Move.pos]
    | previous => simp [Move.run, c06_previous, Move.pos]
  | cons a ms ih =>
    intro t m
    have h1 : (a.run t).2.toks = t.toks := by cases a <;> rfl
    have h2 : (a.run t).2.cur = a.pos t.toks.length t.cur := by cases a <;> rfl
    have := ih (a.run t).2 m
    rw [h1, h2] at this
    simpa using this

/-- Non-trivial instance: three tokens, running past the end and coming back. -/
example : let t : Tokens := ⟨[Token.new (py! "A") 0 1, Token.new (py! "B") 2 3, Token.new (py! "C") 4 5], 1⟩
    let t' := ([.next, .next, .next, .previous, .previous] : List Move).foldl (fun t m => (m.run t).2) t
    (t'.cur, (Move.previous.run t').1.toOption.map (·.map (·.text))) = (2, some (some (py! "B"))) := by decide

end F15
