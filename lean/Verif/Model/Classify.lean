import Verif.Model.Table
import Verif.Model.Regex
import Verif.Model.Token
/-!
# Token classification
-/

namespace F15

/-- `re.fullmatch(item[TOKEN_REGEXP_IDX], token_string)` for one row. A pattern with a syntax error would
raise; `all_patterns_parse` (Lemmas/Classify) shows there is none. -/
def Row.fullmatch (r : Row) (s : Str) : Bool :=
  match parseRe r.pattern with
  | some re => re.fullmatch s
  | none => false

/-- `F15TokenSyntaxDefinition.get_token_type` (F15TokenSyntaxDescriptions.py:382-397): base and subtype of
the first row that matches, otherwise unknown. (The pattern returned in field 0 is not used anywhere.) -/
def getTokenType (s : Str) : BaseType × SubType :=
  match table.find? (fun r => r.fullmatch s) with
  | some r => (r.base, r.sub)
  | none => (.UNKNOWN, .UNKNOWN)

/-- One iteration of `ParseF15.assign_syntax_descriptions` (F15Parse.py:1699-1706). -/
def assignSyntax (t : Token) : Token :=
  let result := getTokenType t.text
  let t := { t with base := result.1, sub := result.2 }
  if t.text.length > maxTokenLength then { t with base := .TOO_LONG, sub := .UNKNOWN } else t

/-- `ParseF15.assign_syntax_descriptions` (F15Parse.py:1689-1706). -/
def assignSyntaxDescriptions (ts : Tokens) : Tokens :=
  { ts with toks := ts.toks.map assignSyntax }

end F15
