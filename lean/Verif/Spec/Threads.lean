import Verif.Model.Objects
/-!
# Specification: programs and schedules
-/

namespace F15.Spec
variable {F : Type} [PyFloat F]

/-- A program that shares nothing: it only uses objects it has been given by its own calls. -/
def Honest (p : Program F) : Prop := ∀ seen d, p seen = some d → ∀ r ∈ d.refs, Obs.ref r ∈ seen

/-- The program of README.md and main.py for the text `s` and the separators `w`: make the objects, tokenize, parse, read the result. -/
def documentedUse (s w : Str) : Program F
  | [] => some .newTokenize
  | [.ref z] => some (.setString z s)
  | [.ref z, _] => some (.setWhitespace z w)
  | [.ref z, _, _] => some (.tokenize z)
  | [.ref z, _, _, _] => some (.getTokens z)
  | [_, _, _, _, .ref _] => some .newErs
  | [_, _, _, _, .ref x, .ref e] => some (.parse e x)
  | [_, _, _, _, .ref _, .ref e, _] => some (.readErs e)
  | _ => none

/-- The words of a list of tokens with their places. -/
def words (l : List Token) : List (Str × Nat × Nat) := l.map fun t => (t.text, t.start, t.stop)

/-- Tokenizing the text `s` with the tokenizer `z` and reading the tokens, after `before` calls. -/
def useTokenizer (z : Ref) (s w : Str) (before : Nat) (seen : List (Obs F)) : Option Cmd :=
  match seen.drop before with
  | [] => some (.setString z s)
  | [_] => some (.setWhitespace z w)
  | [_, _] => some (.tokenize z)
  | [_, _, _] => some (.getTokens z)
  | [_, _, _, .ref x] => some (.readTokens x)
  | _ => none

/-- Two threads with the same tokenizer: thread 0 makes it and tokenizes `s`, thread 1 tokenizes `t`. -/
def sharing (s t w : Str) : Nat → Program F
  | 0 => fun seen => if seen.isEmpty then some .newTokenize else useTokenizer (0, 0) s w 1 seen
  | 1 => useTokenizer (0, 0) t w 0
  | _ => fun _ => none

end F15.Spec
