import Verif.Model.Parser
/-!
# `parse_f15` with both objects it works on

`parseF15` (Model/Parser.lean) gives the result and the `ers`. The method also changes the `tokens` object: it writes the
types into the tokens and moves the cursor. Here the state of both objects after the call is returned; `full_eq`
(Props/Reads.lean) proves that the rest is the same.
-/

namespace F15
section
variable {F : Type} [PyFloat F]

/-- The dispatch of `parse_f15` on the first token (F15Parse.py:87-100), with the `tokens` object. -/
def dispatchFull (frames : Nat) (e : Ers F) (ts : Tokens) (token : Token) : Except PyErr (Ers F × Tokens) :=
  match token.base with
  | .SPEED_VFR => do
    let r ← exec frames (.assignSpeedVfr token) ⟨e, ts⟩
    let e ← setFirstRules r.2.ers (py! "VFR")
    pure (e, r.2.toks)
  | .SPEED_ALTITUDE => do
    let r ← exec frames (.assignSpeedAltitude token) ⟨e, ts⟩
    if ts.getNumberOfTokens = 1 then do
      let r' ← exec frames (.addErrorAndReSync token 49) r.2
      pure (r'.2.ers, r'.2.toks)
    else pure (r.2.ers, r.2.toks)
  | _ => do
    let r ← exec frames (.addErrorAndReSync token 1) ⟨e, ts⟩
    pure (r.2.ers, r.2.toks)

/-- `parse_f15` (F15Parse.py:52-128): the result and both objects. -/
def parseF15Full (frames : Nat) (e : Ers F) (tokens : Tokens) : Except PyErr ((Bool × Ers F) × Tokens) :=
  let tokens := assignSyntaxDescriptions tokens
  match tokens.getFirstToken with
  | (.error x, _) => .error x
  | (.ok none, tokens) =>
    match errorMessage 41 with
    | none => .error .keyError
    | some m =>
      let e := e.addError (py! "NULL") 0 0 .UNKNOWN .UNKNOWN m
      .ok ((false, e.addDummyAdes), tokens)
  | (.ok (some token), tokens) => do
    let (e, tokens) ← dispatchFull frames e tokens token
    let r ← finish e
    pure (r, tokens)

end
end F15
