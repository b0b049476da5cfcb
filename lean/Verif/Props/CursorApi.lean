import Verif.Props.Cursor
/-!
# C06: the whole interface of the token container

`Spec.ListOp` has a constructor for every method of `Tokens` but `print_tokens`; its meaning is given on a plain list and a number.
-/

namespace F15.Spec

/-- A call of a method of the token container. -/
inductive ListOp
  | first | last | next | previous | current
  | peekNext (k : Int) | peekPrevious (k : Int) | at (i : Int)
  | append (x : Token) | create (text : Str) (start stop : Nat) | insert (x : Token) (i : Int) | remove (i : Int)
  | count | all

/-- What a call returns. -/
inductive ListResult
  | nothing
  | token (t : Option Token)
  | number (n : Nat)
  | tokens (l : List Token)

/-- What a call returns, and the list and the cursor after it. -/
def ListOp.meaning (l : List Token) (c : Int) : ListOp → ListResult × List Token × Int
  | .first => (.token (at? l 0), l, 0)
  | .last => (.token (at? l (l.length - 1)), l, l.length - 1)
  | .next => (.token (at? l (c + 1)), l, c + 1)
  | .previous => (.token (at? l (c - 1)), l, c - 1)
  | .current => (.token (at? l c), l, c)
  | .peekNext k => (.token (at? l (c + k)), l, c)
  | .peekPrevious k => (.token (at? l (c - k)), l, c)
  | .at i => (.token (at? l i), l, c)
  | .append x => (.nothing, l ++ [x], c)
  | .create s a b => (.nothing, l ++ [⟨s, a, b, .UNKNOWN, .UNKNOWN⟩], c)
  -- before the element with index `i`; from the end if `i` is negative
  | .insert x i =>
    let p := if 0 ≤ i then i.toNat else (l.length + i).toNat
    (.nothing, l.take p ++ x :: l.drop p, c)
  -- the elements with indices up to `i`; −1 leaves nothing, and numbers below count from the end
  | .remove i =>
    let p := if -1 ≤ i then (i + 1).toNat else (l.length + 1 + i).toNat
    (.nothing, l.take p, c)
  | .count => (.number l.length, l, c)
  | .all => (.tokens l, l, c)

/-- The results of a sequence of calls, and the list and the cursor after it. -/
def meanings : List ListOp → List Token → Int → List ListResult × List Token × Int
  | [], l, c => ([], l, c)
  | o :: os, l, c =>
    let (r, l', c') := o.meaning l c
    let (rs, l'', c'') := meanings os l' c'
    (r :: rs, l'', c'')

end F15.Spec

namespace F15
open Spec

/-- A call, run by the program: the result or the exception, and the container after it. -/
def Spec.ListOp.run (t : Tokens) : ListOp → Except PyErr ListResult × Tokens
  | .first => (t.getFirstToken.1.map .token, t.getFirstToken.2)
  | .last => (t.getLastToken.1.map .token, t.getLastToken.2)
  | .next => (t.getNextToken.1.map .token, t.getNextToken.2)
  | .previous => (t.getPreviousToken.1.map .token, t.getPreviousToken.2)
  | .current => (t.getCurrentToken.map .token, t)
  | .peekNext k => ((t.peekNextToken k).map .token, t)
  | .peekPrevious k => ((t.peekPreviousToken k).map .token, t)
  | .at i => ((t.getTokenAt i).map .token, t)
  | .append x => (.ok .nothing, t.appendToken x)
  | .create s a b => (.ok .nothing, t.createAppendToken s a b)
  | .insert x i => (.ok .nothing, t.insertToken x i)
  | .remove i => (.ok .nothing, t.removeTokensFromEndOfList i)
  | .count => (.ok (.number t.getNumberOfTokens), t)
  | .all => (.ok (.tokens t.toks), t)

/-- A sequence of calls, run by the program. -/
def runOps : List ListOp → Tokens → List (Except PyErr ListResult) × Tokens
  | [], t => ([], t)
  | o :: os, t =>
    let (r, t') := o.run t
    let (rs, t'') := runOps os t'
    (r :: rs, t'')

theorem op_run (t : Tokens) (o : ListOp) :
    o.run t = (.ok (o.meaning t.toks t.cur).1, ⟨(o.meaning t.toks t.cur).2.1, (o.meaning t.toks t.cur).2.2⟩) := by
  cases o with
  | first => simp only [ListOp.run, c06_first]; simp [ListOp.meaning, Except.map, at?, List.head?_eq_getElem?]
  | last =>
    simp only [ListOp.run, c06_last, ListOp.meaning, Except.map]
    cases h : t.toks with
    | nil => rfl
    | cons a l => rw [List.getLast?_eq_getElem?]; simp [at?]
  | next => simp only [ListOp.run, c06_next]; rfl
  | previous => simp only [ListOp.run, c06_previous]; rfl
  | current => simp only [ListOp.run, (c06_peek t 0).2.2]; rfl
  | peekNext k => simp only [ListOp.run, (c06_peek t k).1]; rfl
  | peekPrevious k => simp only [ListOp.run, (c06_peek t k).2.1]; rfl
  | «at» i => simp only [ListOp.run, getTokenAt_eq]; rfl
  | append x => rfl
  | create s a b => rfl
  | insert x i =>
    simp only [ListOp.run, ListOp.meaning, Tokens.insertToken, pyIdx]
    by_cases h : i < 0
    · have h' : ¬ 0 ≤ i := by omega
      simp only [h, h', if_true, if_false]
      rw [Int.add_comm]
    · have h' : 0 ≤ i := by omega
      simp only [h, h', if_true, if_false]
      rcases Nat.le_total i.toNat t.toks.length with hl | hl
      · rw [Nat.min_eq_left hl]
      · rw [Nat.min_eq_right hl, List.take_of_length_le hl, List.drop_of_length_le hl]; simp
  | remove i =>
    simp only [ListOp.run, ListOp.meaning, Tokens.removeTokensFromEndOfList, sliceTo, pyIdx]
    by_cases h : i + 1 < 0
    · have h' : ¬ -1 ≤ i := by omega
      simp only [h, h', if_true, if_false]
      rw [show i + 1 + (t.toks.length : Int) = t.toks.length + 1 + i by omega]
    · have h' : -1 ≤ i := by omega
      simp only [h, h', if_true, if_false]
      congr 2
      rw [List.take_eq_take_iff]; omega
  | count => rfl
  | all => rfl

/-- **C06** Any sequence of calls, from any list and any cursor: no call raises, and the results, the list and the cursor are those of a plain
list with a number. -/
theorem c06_api (os : List ListOp) : ∀ (t : Tokens),
    runOps os t = ((meanings os t.toks t.cur).1.map .ok, ⟨(meanings os t.toks t.cur).2.1, (meanings os t.toks t.cur).2.2⟩) := by
  induction os with
  | nil => intro t; rfl
  | cons o os ih =>
    intro t
    simp only [runOps, meanings]
    rw [op_run]
    simp only [ih, List.map_cons]

/-- The calls that only look leave the list and the cursor as they are. -/
theorem c06_looks (l : List Token) (c : Int) (k : Int) :
    (ListOp.current.meaning l c).2 = (l, c) ∧ ((ListOp.peekNext k).meaning l c).2 = (l, c) ∧
    ((ListOp.peekPrevious k).meaning l c).2 = (l, c) ∧ ((ListOp.at k).meaning l c).2 = (l, c) ∧
    (ListOp.count.meaning l c).2 = (l, c) ∧ (ListOp.all.meaning l c).2 = (l, c) := ⟨rfl, rfl, rfl, rfl, rfl, rfl⟩

/-- Removing above the index −2 of three tokens keeps two of them. -/
example : ((runOps [.create (py! "A") 0 1, .create (py! "B") 2 3, .next, .insert (Token.new (py! "C") 4 5) (-1), .remove (-2), .current]
    ⟨[], 0⟩).2.toks.map (·.text)) = [py! "A", py! "C"] := by decide

end F15
