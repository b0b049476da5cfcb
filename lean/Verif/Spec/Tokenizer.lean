import Verif.Model.Token
/-!
# What the tokenizer is supposed to do

Stated with positions of the source string only; no reference to the scanning loop.
-/

namespace F15.Spec

/-- The character at position `k` exists and is a separator. -/
def SepAt (ws src : Str) (k : Nat) : Prop := ∃ c, src[k]? = some c ∧ c ∈ ws

/-- `[i, j)` is a maximal run of non-separator characters of `src`. -/
def IsRun (ws src : Str) (i j : Nat) : Prop :=
  i < j ∧ j ≤ src.length ∧ (∀ k, i ≤ k → k < j → ¬ SepAt ws src k) ∧
  (i = 0 ∨ SepAt ws src (i - 1)) ∧ (j = src.length ∨ SepAt ws src j)

/-- `[i, j)` is a single `/`, and `/` is one of the separators. -/
def IsSlash (ws src : Str) (i j : Nat) : Prop :=
  j = i + 1 ∧ src[i]? = some '/' ∧ '/' ∈ ws

/-- `[i, j)` should be a token. -/
def IsTok (ws src : Str) (i j : Nat) : Prop := IsRun ws src i j ∨ IsSlash ws src i j

/-- The piece of `src` from position `i` (inclusive) to `j` (exclusive): the text a user sees
highlighted. -/
def piece (src : Str) (i j : Nat) : Str := (src.take j).drop i

/-- A word: non-empty and free of separators. -/
def Word (ws t : Str) : Prop := t ≠ [] ∧ ∀ c ∈ t, c ∉ ws

/-- A possible token text: a word, or a slash if `/` is a separator. -/
def TokText (ws t : Str) : Prop := Word ws t ∨ (t = ['/'] ∧ '/' ∈ ws)

/-- Blank space: separators other than `/`. -/
def Gap (ws g : Str) : Prop := ∀ c ∈ g, c ∈ ws ∧ c ≠ '/'

/-- `Layout ws texts src`: `src` consists of the token texts `texts`, in order, with blank space
before, between and after them; between two words there is at least one blank character. -/
inductive Layout (ws : Str) : List Str → Str → Prop
  | nil {g} : Gap ws g → Layout ws [] g
  | word {g t} : Gap ws g → Word ws t → Layout ws [t] (g ++ t)
  | wordSep {g t c rest ts} : Gap ws g → Word ws t → c ∈ ws → Layout ws ts (c :: rest) →
      Layout ws (t :: ts) (g ++ t ++ c :: rest)
  | slash {g rest ts} : Gap ws g → '/' ∈ ws → Layout ws ts rest → Layout ws (['/'] :: ts) (g ++ '/' :: rest)

end F15.Spec
