#!/usr/bin/env python3
"""Generates lean/Verif/Replay.lean: the expectations written in /repo/UnitTests (read as text, not run), checked of the model by the kernel."""
import ast, os, re
def lit(s):
    esc = s.replace('\\', '\\\\').replace('"', '\\"').replace('\n', '\\n').replace('\t', '\\t').replace('\r', '\\r')
    return '(py! "%s")' % esc
def load(name):
    return ast.parse(open('/repo/UnitTests/' + name).read())
out = ['''import Verif.Spec.Example
import Verif.Model.Print
/-!
# The unit tests of the repository (generated by tools/gen_replay.py)

Every expectation that is written in /repo/UnitTests/test_F15Parser.py, test_Tokenize.py, test_Tokens.py and the exact ones of test_Utils.py, checked of
the model by the kernel. These are tests of the model, not proofs of properties: they show that the model says what the authors of the program expect of
it. Not replayed: the tests of trivial setters (test_Token.py), the tests with rounded numbers of test_Utils.py, and test_XmlOutput.py, which
expects nothing.
-/

namespace F15.Replay

/-- What a test expects of a sequence. -/
inductive Expect
  /-- `get_number_of_errors()` -/
  | errors (n : Nat)
  /-- `get_number_of_elements()` -/
  | elements (n : Nat)
  /-- `get_element_at(i).unit_test_only()` -/
  | element (i : Nat) (text : Str)
  /-- `get_all_errors()[i].get_error_text()` -/
  | error (i : Nat) (text : Str)

/-- The expectation is met. -/
def Expect.met (e : Ers Rat) : Expect → Bool
  | .errors n => e.errors.length == n
  | .elements n => e.elements.length == n
  | .element i t => (e.elements[i]?.map (·.unitTestOnly)) == some t
  | .error i t => (e.errors[i]?.map (·.errorText)) == some t

/-- The field 15 is parsed and all expectations are met. -/
def passes (t : Str × List Expect) : Bool := check t.1 fun _ e => t.2.all (·.met e)

/-- The texts that a cursor gives for some calls, one after the other. -/
def texts (t : Tokens) : List (Tokens → Except PyErr (Option Token) × Tokens) → List (Option Str)
  | [] => []
  | f :: l => (match (f t).1 with | .ok (some k) => some k.text | _ => none) :: texts (f t).2 l
''']
n = 0
tree = load('test_F15Parser.py')
for fn in ast.walk(tree):
    if isinstance(fn, ast.FunctionDef) and fn.name.startswith('test'):
        cases = []
        for st in fn.body:
            if not isinstance(st, ast.Expr) or not isinstance(st.value, ast.Call):
                raise SystemExit('unknown statement ' + ast.unparse(st))
            c = st.value
            name = c.func.attr
            if name.endswith('__parse_field_15'):
                cases.append((ast.literal_eval(c.args[0]), []))
                continue
            assert name == 'assertEqual', name
            s = ast.unparse(c.args[1]); exp = ast.literal_eval(c.args[0])
            n += 1
            if s == 'self.ers.get_number_of_errors()': cases[-1][1].append('.errors %d' % exp)
            elif s == 'self.ers.get_number_of_elements()': cases[-1][1].append('.elements %d' % exp)
            elif s == 'self.ers.get_first_element().unit_test_only()': cases[-1][1].append('.element 0 ' + lit(exp))
            else:
                m = re.fullmatch(r'self\.ers\.get_element_at\((\d+)\)\.unit_test_only\(\)', s)
                k = re.fullmatch(r'self\.__get_error_text_at\((\d+)\)', s)
                if m: cases[-1][1].append('.element %s %s' % (m[1], lit(exp)))
                elif k: cases[-1][1].append('.error %s %s' % (k[1], lit(exp)))
                else: raise SystemExit('unknown expectation ' + s)
        out.append('/-- test_F15Parser.py, `%s` (line %d) -/\nexample : ([\n%s] : List (Str × List Expect)).all passes = true := by decide +kernel\n' % (fn.name, fn.lineno,
            ',\n'.join('    (%s, [%s])' % (lit(a), ', '.join(b)) for a, b in cases)))
# the tokenizer
for fn in ast.walk(load('test_Tokenize.py')):
    if isinstance(fn, ast.FunctionDef) and fn.name.startswith('test'):
        z = 'Tokenize.new'; count = None; words = []
        for st in fn.body:
            s = ast.unparse(st)
            if s == 'tokenizer = Tokenize()': continue
            c = st.value
            if c.func.attr == 'set_string_to_tokenize': z = '(%s.setStringToTokenize %s)' % (z, lit(ast.literal_eval(c.args[0])))
            elif c.func.attr == 'set_whitespace': z = '(%s.setWhitespace %s)' % (z, lit(ast.literal_eval(c.args[0])))
            elif c.func.attr == 'tokenize': z = '(%s.tokenize)' % z
            else:
                n += 1
                exp = ast.literal_eval(c.args[0]); t = ast.unparse(c.args[1])
                if t.endswith('get_number_of_tokens()'): count = exp
                else:
                    assert t == 'tokenizer.get_tokens().%s().get_token_string()' % ('get_first_token' if not words else 'get_next_token'), t
                    words.append(exp)
        calls = ', '.join(['Tokens.getFirstToken'] + ['Tokens.getNextToken'] * (len(words) - 1)) if words else ''
        out.append('/-- test_Tokenize.py, `%s` (line %d) -/\nexample : (%s).getTokens.getNumberOfTokens = %d ∧\n    texts (%s).getTokens [%s] =\n      [%s] := by decide +kernel\n'
            % (fn.name, fn.lineno, z, count, z, calls, ', '.join('some ' + lit(w) for w in words)))
# the cursor
tree = load('test_Tokens.py')
made = 'Tokens.new'; 
calls = {'get_first_token': 'Tokens.getFirstToken', 'get_next_token': 'Tokens.getNextToken', 'get_last_token': 'Tokens.getLastToken',
  'get_previous_token': 'Tokens.getPreviousToken', 'get_current_token': 'fun t => (t.getCurrentToken, t)',
  'peek_next_token': 'fun t => (t.peekNextToken %s, t)', 'peek_previous_token': 'fun t => (t.peekPreviousToken %s, t)'}
toks = []
for fn in ast.walk(tree):
    if not isinstance(fn, ast.FunctionDef): continue
    if fn.name == 'setUpClass':
        for st in fn.body[1:]:
            c = st.value
            a = c.args[0].args if c.func.attr == 'append_token' else c.args
            toks.append('⟨%s, %s, %s, .UNKNOWN, .UNKNOWN⟩' % (lit(ast.literal_eval(a[0])), ast.unparse(a[1]), ast.unparse(a[2])))
    elif fn.name.startswith('test'):
        seq = []; extra = []
        for st in fn.body:
            if not isinstance(st, ast.Expr): continue
            c = st.value; n += 1
            exp = ast.literal_eval(c.args[0]); t = c.args[1]; s = ast.unparse(t)
            if s == 'self.tokens.get_number_of_tokens()': extra.append('made.getNumberOfTokens = %d' % exp)
            elif s.startswith('token_list['): extra.append('(made.toks[%s]?.map (·.text)) = some %s' % (s[11:s.index(']')], lit(exp)))
            else:
                g = t.func.value
                f = calls[g.func.attr]
                seq.append((f % ast.unparse(g.args[0]) if g.args else f, exp))
        out.append('/-- test_Tokens.py, `%s` (line %d) -/\nexample : ' % (fn.name, fn.lineno) + ' ∧\n    '.join(extra + (['texts made [%s] =\n      [%s]' %
            (', '.join(a for a, _ in seq), ', '.join('some ' + lit(b) for _, b in seq))] if seq else [])) + ' := by decide +kernel\n')
MADE = '/-- The tokens of test_Tokens.py (lines 11-21) -/\ndef made : Tokens := ⟨[' + ', '.join(toks) + '], 0⟩\n'
i = next(i for i, b in enumerate(out) if 'test_Tokens.py, ' in b)
out.insert(i, MADE)
# exact helpers
for fn in ast.walk(load('test_Utils.py')):
    if isinstance(fn, ast.FunctionDef) and fn.name.startswith('test_is_'):
        parts = []
        for st in fn.body:
            c = st.value; n += 1
            exp = ast.literal_eval(c.args[0]); g = c.args[1]
            a = [ast.literal_eval(x) for x in g.args]
            f = {'is_degree_semantics': 'Utils.isDegreeSemantics', 'is_degree_minute_semantics': 'Utils.isDegreeMinuteSemantics'}[g.func.attr]
            parts.append('(%s %s %s).toOption = some %s' % (f, lit(a[0]), ' '.join(map(str, a[1:])), 'true' if exp else 'false'))
        out.append('/-- test_Utils.py, `%s` (line %d) -/\nexample : %s := by decide +kernel\n' % (fn.name, fn.lineno, ' ∧\n    '.join(parts)))
out.append('end F15.Replay')
open(os.path.join(os.path.dirname(__file__), '../lean/Verif/Replay.lean'), 'w').write('\n'.join(out) + '\n')
print(n, 'expectations')
