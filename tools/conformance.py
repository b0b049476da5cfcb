#!/usr/bin/env python3
"""Compare the Lean model with the expectations written in /repo/UnitTests/test_F15Parser.py.

Reads the test file as text (it is not executed), emits a Lean script with one #eval that runs the model on
every field 15 string of the tests (floats = Lean's `Float`, i.e. IEEE doubles; geodesics are not
available and return zeros), and compares the output with the asserted values.
"""
import ast, subprocess, sys, json
src = open('/repo/UnitTests/test_F15Parser.py').read()
tree = ast.parse(src)
cases = []  # (string, [(kind, idx, expected)])
for fn in ast.walk(tree):
    if isinstance(fn, ast.FunctionDef) and fn.name.startswith('test'):
        for st in fn.body:
            if not isinstance(st, ast.Expr) or not isinstance(st.value, ast.Call): continue
            c = st.value
            name = c.func.attr if isinstance(c.func, ast.Attribute) else ''
            if name.endswith('__parse_field_15'):
                cases.append((ast.literal_eval(c.args[0]), []))
            elif name == 'assertEqual':
                s = ast.unparse(c.args[1]); exp = c.args[0]
                try: exp = ast.literal_eval(exp)
                except Exception: print('skip', ast.unparse(c)); continue
                if s == 'self.ers.get_number_of_errors()': cases[-1][1].append(('nerr', 0, exp))
                elif s == 'self.ers.get_number_of_elements()': cases[-1][1].append(('nel', 0, exp))
                elif s == 'self.ers.get_first_element().unit_test_only()': cases[-1][1].append(('el', 0, exp))
                elif s.startswith('self.ers.get_element_at('):
                    i = int(s[len('self.ers.get_element_at('):].split(')')[0])
                    meth = s.split(').')[-1]
                    cases[-1][1].append((meth, i, exp))
                elif '__get_error_text_at(' in s:
                    i = int(s.split('(')[1].split(')')[0]); cases[-1][1].append(('err', i, exp))
                else: print('skip', s)
lean = r'''
import Verif.Model.Parser
open F15
instance : PyFloat Float where
  dec m e := if m < 0 then -(Float.ofScientific m.natAbs true e) else Float.ofScientific m.natAbs true e
  ofInt n := Float.ofInt n
  add := (·+·); sub := (·-·); mul := (·*·); div := (·/·); abs := Float.abs; sqrt := Float.sqrt
  toInt x := if x < 0 then -((-x).toUInt64.toNat : Int) else x.toUInt64.toNat
  fmt2 _ := []
  direct a b _ _ := (a, b)
  inverse _ _ _ _ := (0, 0)
def run (s : String) : IO Unit := do
  let t := Tokenize.tokenize ((Tokenize.new.setStringToTokenize s.toList).setWhitespace f15Whitespace)
  match parseF15 (F := Float) 1000 Ers.new t.getTokens with
  | .error e => IO.println s!"EXC {repr e}"
  | .ok (b, e) =>
    IO.println s!"CASE {b} {String.ofList e.derived}"
    for r in e.elements do
      IO.println ("EL\t" ++ "\t".intercalate [String.ofList r.name, String.ofList r.rules, String.ofList r.speed, String.ofList r.altitude, String.ofList r.breakText, toString r.speedSi, toString r.altitudeSi, toString r.stayTime, String.ofList r.cruiseTo, toString r.cruiseToSi, toString r.latitude, toString r.longitude])
    for r in e.errors do
      IO.println ("ER\t" ++ String.ofList r.errorText)
'''
lean += "#eval do\n" + "".join("  run %s\n" % json.dumps(c[0]) for c in cases)
open('/tmp/scr/conf.lean','w').write(lean)
out = subprocess.run(['lake','env','lean','/tmp/scr/conf.lean'],cwd=sys.argv[1] if len(sys.argv)>1 else '/verif/lean',capture_output=True,text=True)
if out.returncode: print(out.stdout[:3000], out.stderr[:3000]); sys.exit(1)
res = []
for l in out.stdout.split('\n'):
    if l.startswith('CASE') or l.startswith('EXC'): res.append([l,[],[]])
    elif l.startswith('EL\t'): res[-1][1].append(l.split('\t')[1:])
    elif l.startswith('ER\t'): res[-1][2].append(l.split('\t')[1])
assert len(res)==len(cases),(len(res),len(cases))
bad = n = 0
for (s,asserts),(h,els,ers) in zip(cases,res):
    for kind,i,exp in asserts:
        n += 1
        if kind=='nerr': got=len(ers)
        elif kind=='nel': got=len(els)
        elif kind=='err': got=ers[i] if i<len(ers) else None
        elif kind in('el','unit_test_only()'): got=' '.join(els[i][:5]).rstrip(' ') if i<len(els) else None
        else:
            idx={'get_speed_si()':5,'get_altitude_si()':6,'get_stay_time()':7,'get_altitude_cruise_to()':8,'get_altitude_cruise_to_si()':9}.get(kind)
            if idx is None: print('skip kind',kind); continue
            got=els[i][idx]; exp=str(exp)
        if got!=exp: bad+=1; print('MISMATCH',repr(s),kind,i,'expected',repr(exp),'got',repr(got))
print(len(cases),'cases',n,'assertions',bad,'mismatches')
