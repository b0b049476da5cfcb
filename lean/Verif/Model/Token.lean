import Verif.Model.Types
/-!
# `Token`, `Tokens` and `Tokenize` (Tokenizer/*.py)
-/

namespace F15

/-- `Token` (Token.py:4-49). Indices are non-negative wherever the tokenizer creates them. -/
structure Token where
  text : Str
  start : Nat
  stop : Nat
  base : BaseType
  sub : SubType
deriving DecidableEq, Repr

/-- `Token.__init__(token_string, token_start_index, token_end_index)` (Token.py:36-49) -/
def Token.new (text : Str) (start stop : Nat) : Token :=
  { text, start, stop, base := .UNKNOWN, sub := .UNKNOWN }

/-- `Tokens` (Tokens.py:4-23): a list and an integer cursor. -/
structure Tokens where
  toks : List Token
  cur : Int
deriving DecidableEq, Repr

namespace Tokens

/-- `Tokens.__init__` (Tokens.py:17-23) -/
def new : Tokens := { toks := [], cur := 0 }

/-- `get_number_of_tokens` (Tokens.py:25-30) -/
def getNumberOfTokens (t : Tokens) : Nat := t.toks.length

/-- `append_token` (Tokens.py:32-38) -/
def appendToken (t : Tokens) (x : Token) : Tokens := { t with toks := t.toks ++ [x] }

/-- `insert_token` (Tokens.py:40-47): Python `list.insert(index, x)`, which clamps the index (a negative
index counts from the end). -/
def insertToken (t : Tokens) (x : Token) (index : Int) : Tokens :=
  let i := pyIdx t.toks.length index
  { t with toks := t.toks.take i ++ x :: t.toks.drop i }

/-- `create_append_token` (Tokens.py:49-59) -/
def createAppendToken (t : Tokens) (text : Str) (start stop : Nat) : Tokens :=
  t.appendToken (Token.new text start stop)

/-- `get_token_at` (Tokens.py:68-77) -/
def getTokenAt (t : Tokens) (index : Int) : Except PyErr (Option Token) :=
  if index < 0 ∨ index ≥ t.toks.length then .ok none else (pyGet t.toks index).map some

/-- `get_first_token` (Tokens.py:79-86) -/
def getFirstToken (t : Tokens) : Except PyErr (Option Token) × Tokens :=
  let t' := { t with cur := 0 }
  (t'.getTokenAt t'.cur, t')

/-- `get_last_token` (Tokens.py:88-95) -/
def getLastToken (t : Tokens) : Except PyErr (Option Token) × Tokens :=
  let t' := { t with cur := (t.getNumberOfTokens : Int) - 1 }
  (t'.getTokenAt ((t'.getNumberOfTokens : Int) - 1), t')

/-- `get_next_token` (Tokens.py:97-105) -/
def getNextToken (t : Tokens) : Except PyErr (Option Token) × Tokens :=
  let t' := { t with cur := t.cur + 1 }
  (t'.getTokenAt t'.cur, t')

/-- `get_previous_token` (Tokens.py:107-115) -/
def getPreviousToken (t : Tokens) : Except PyErr (Option Token) × Tokens :=
  let t' := { t with cur := t.cur - 1 }
  (t'.getTokenAt t'.cur, t')

/-- `peek_next_token` (Tokens.py:117-124) -/
def peekNextToken (t : Tokens) (lookAhead : Int) : Except PyErr (Option Token) :=
  t.getTokenAt (t.cur + lookAhead)

/-- `peek_previous_token` (Tokens.py:126-133) -/
def peekPreviousToken (t : Tokens) (lookBehind : Int) : Except PyErr (Option Token) :=
  t.getTokenAt (t.cur - lookBehind)

/-- `get_current_token` (Tokens.py:135-141) -/
def getCurrentToken (t : Tokens) : Except PyErr (Option Token) := t.getTokenAt t.cur

/-- `remove_tokens_from_end_of_list` (Tokens.py:143-150): `self.tokens[:split_index + 1]`, the cursor is
not changed. -/
def removeTokensFromEndOfList (t : Tokens) (splitIndex : Int) : Tokens :=
  { t with toks := sliceTo t.toks (splitIndex + 1) }

end Tokens

/-- `Tokenize` (Tokenize.py:4-27): the tokenizer object. -/
structure Tokenize where
  string : Str
  whitespace : Str
  tokens : Tokens
deriving DecidableEq, Repr

namespace Tokenize

/-- `Tokenize.__init__` (Tokenize.py:20-27) -/
def new : Tokenize := { string := [], whitespace := [' ', '\n', '\t', '\r'], tokens := Tokens.new }

/-- `__save_token` (Tokenize.py:96-105) -/
def saveToken (acc : Tokens) (text : Str) (idx : Nat) : Tokens :=
  if text.length > 0 then acc.createAppendToken text (idx - text.length) idx else acc

/-- The loop of `tokenize` (Tokenize.py:38-52), with the local variables `token_text`, `idx` and the
tokens saved so far. `item in self.whitespace` with a one-character `item` is list membership. -/
def loop (ws : Str) : Str → Nat → Str → Tokens → Tokens
  | [], idx, text, acc => saveToken acc text idx
  | item :: rest, idx, text, acc =>
    if ws.contains item then
      let acc := if text.length > 0 then saveToken acc text idx else acc
      let acc := if item = '/' then saveToken acc [item] (idx + 1) else acc
      loop ws rest (idx + 1) [] acc
    else
      loop ws rest (idx + 1) (text ++ [item]) acc

/-- `tokenize` (Tokenize.py:29-52) -/
def tokenize (t : Tokenize) : Tokenize :=
  { t with tokens := loop t.whitespace t.string 0 [] Tokens.new }

/-- `set_string_to_tokenize` (Tokenize.py:54-60) -/
def setStringToTokenize (t : Tokenize) (s : Str) : Tokenize := { t with string := s }

/-- `set_whitespace` (Tokenize.py:69-80) -/
def setWhitespace (t : Tokenize) (w : Str) : Tokenize := { t with whitespace := w }

/-- `get_tokens` (Tokenize.py:89-94) -/
def getTokens (t : Tokenize) : Tokens := t.tokens

end Tokenize

/-- The usage pattern of README.md and main.py: a fresh `Tokenize()`, `set_string_to_tokenize`,
`set_whitespace`, `tokenize`, `get_tokens().get_tokens()`. -/
def tokenizeList (ws s : Str) : List Token :=
  (((Tokenize.new.setStringToTokenize s).setWhitespace ws).tokenize).getTokens.toks

/-- The separators the documentation prescribes for field 15 (README.md, main.py:22): `" \n\t\r/"`. -/
def f15Whitespace : Str := [' ', '\n', '\t', '\r', '/']

end F15
