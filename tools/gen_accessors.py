"""Writes lean/Verif/Model/Accessors.lean from the getters and setters in /repo (read as text, with ast)."""
import ast
R='/repo/'
def methods(path, cls):
    t=ast.parse(open(R+path).read())
    c=[n for n in t.body if isinstance(n,ast.ClassDef) and n.name==cls][0]
    return [n for n in c.body if isinstance(n,ast.FunctionDef)]
def body(m):
    return [s for s in m.body if not (isinstance(s,ast.Expr) and isinstance(s.value,ast.Constant))]
def getter(m):
    b=body(m)
    if len(b)==1 and isinstance(b[0],ast.Return) and isinstance(b[0].value,ast.Attribute) and len(m.args.args)==1 \
       and isinstance(b[0].value.value,ast.Name) and b[0].value.value.id=='self':
        return b[0].value.attr
def setter(m):
    b=body(m)
    if len(b)==1 and isinstance(b[0],ast.Assign) and len(m.args.args)==2 and len(b[0].targets)==1 \
       and isinstance(b[0].targets[0],ast.Attribute) and b[0].targets[0].value.id=='self' \
       and isinstance(b[0].value,ast.Name) and b[0].value.id==m.args.args[1].arg:
        return b[0].targets[0].attr
RT={'string':'Str','start_index':'Nat','end_index':'Nat','base_type':'BaseType','sub_type':'SubType','altitude':'Str','altitude_si':'Int',
 'speed':'Str','speed_si':'Int','break_text':'Str','flight_rules':'Str','error_text':'Str','stay_time':'Int','altitude_cruise_to':'Str',
 'altitude_cruise_to_si':'Int','latitude':'F','longitude':'F','bearing':'F','distance':'F','lat_long_valid':'Bool'}
DEF={'Str':'[]','Nat':'0','Int':'0','F':'fzero','Bool':'false','BaseType':'.UNKNOWN','SubType':'.UNKNOWN'}
TT={'token_string':'Str','token_start_index':'Nat','token_end_index':'Nat','token_base_type':'BaseType','token_sub_type':'SubType'}
def gen(path,cls,ty,pre,lines):
    ms=methods(path,cls); fn=path.split('/')[-1]
    out=[]
    for m in ms:
        a=getter(m)
        if a: out.append(f'/-- `{cls}.{m.name}` ({fn}:{m.lineno}-{m.end_lineno}) -/\ndef {pre}Obj.{m.name} (o : {pre}Obj F) : {ty[a]} := o.read .{a}\n'); continue
        a=setter(m)
        if a: out.append(f'/-- `{cls}.{m.name}` ({fn}:{m.lineno}-{m.end_lineno}) -/\ndef {pre}Obj.{m.name} (o : {pre}Obj F) (v : {ty[a]}) : {pre}Obj F := o.write .{a} v\n'); continue
    return '\n'.join(out), [(m.name,setter(m),m) for m in ms if setter(m)], [(m.name,getter(m)) for m in ms if getter(m)]
def attrs(pre,cls,ty,fn,span):
    s=f'/-- The attributes of `{cls}` ({fn}:{span}). -/\ninductive {pre}Attr\n  | '+' | '.join(ty)+'\nderiving DecidableEq, Repr\n\n'
    s+=f'/-- The types of their values, as documented there (SI values: see `Record`). -/\n@[reducible] def {pre}Attr.ty (F : Type) : {pre}Attr → Type\n'
    inv={}
    for a,t in ty.items(): s+=f'  | .{a} => {t}\n'
    return s
H='''import Verif.Model.Ers
import Verif.Model.Token
/-!
# The getters and setters of `ExtractedRouteRecord` and `Token`, as Python runs them

Generated by tools/gen_accessors.py from the source. An object is its `__dict__`; reading an attribute that the object does not have
gives the value the class has for it. `x = v` in a method writes to the object only.
-/

set_option linter.unusedVariables false
namespace F15
variable {F : Type} [PyFloat F]

'''
def objdefs(pre,cls,ty,fn,span):
    s=f'/-- The values of the class attributes ({fn}:{span}). (Simplified: the default `0` of the two types is written UNKNOWN; the constructor\nreplaces it.) -/\ndef {pre}Attr.default : (a : {pre}Attr) → a.ty F\n'
    for a,t in ty.items(): s+=f'  | .{a} => {DEF[t]}\n'
    s+=f'''
/-- The `__dict__` of an object of class `{cls}` ({fn}:{span}). -/
def {pre}Obj (F : Type) := (a : {pre}Attr) → Option (a.ty F)

/-- `self.a`: the attribute of the object, else that of the class ({fn}:{span}). -/
def {pre}Obj.read (o : {pre}Obj F) (a : {pre}Attr) : a.ty F := (o a).getD a.default

/-- `self.a = v` in the methods of {fn}. -/
def {pre}Obj.write (o : {pre}Obj F) (a : {pre}Attr) (v : a.ty F) : {pre}Obj F :=
  fun b => if h : b = a then some (h ▸ v) else o b

'''
    return s
out=H
out+=attrs('Rec','ExtractedRouteRecord',RT,'ExtractedRouteRecord.py','18-79')+'\n'
out+=objdefs('Rec','ExtractedRouteRecord',RT,'ExtractedRouteRecord.py','18-79')
out+='''/-- `ExtractedRouteRecord.__init__` (ExtractedRouteRecord.py:81-97), on a new object. -/
def RecObj.init (string : Str) (start_index end_index : Nat) (base_type : BaseType) (sub_type : SubType) : RecObj F :=
  let o : RecObj F := fun _ => none
  let o := o.write .string string
  let o := o.write .start_index start_index
  let o := o.write .end_index end_index
  let o := o.write .base_type base_type
  o.write .sub_type sub_type

/-- `ExtractedRouteRecord.append_break_text` (ExtractedRouteRecord.py:100-113) -/
def RecObj.append_break_text (o : RecObj F) (v : Str) : RecObj F :=
  if o.read .break_text = [] then o.write .break_text v
  else o.write .break_text (o.read .break_text ++ py! " " ++ v)

/-- `ExtractedRouteRecord.append_error_text` (ExtractedRouteRecord.py:115-124) -/
def RecObj.append_error_text (o : RecObj F) (v : Str) : RecObj F :=
  if o.read .error_text = [] then o.write .error_text v
  else o.write .error_text (o.read .error_text ++ py! " " ++ v)

/-- `ExtractedRouteRecord.set_stay_time` (ExtractedRouteRecord.py:459-466): the right-hand side is evaluated first, so when `int` raises,
the object is as before. -/
def RecObj.set_stay_time (o : RecObj F) (s : Str) : Except PyErr (RecObj F) := do
  let h ← pyInt (slice s 0 2)
  let m ← pyInt (sliceFrom s 2)
  pure (o.write .stay_time (h * 60 + m))

'''
b,ss,gs=gen('F15_Parser/ExtractedRouteRecord.py','ExtractedRouteRecord',RT,'Rec',None)
out+=b
out+='\n/-- A call of one of the methods that change a record (ExtractedRouteRecord.py:100-124, 286-476). -/\ninductive RecCall (F : Type)\n'
for n,a,m in ss: out+=f'  | {n} (v : {RT[a]})\n'
out+='  | append_break_text (v : Str)\n  | append_error_text (v : Str)\n  | set_stay_time (s : Str)\n\n'
out+='/-- What the call does to the object (ExtractedRouteRecord.py:100-124, 286-476). -/\ndef RecCall.run : RecCall F → RecObj F → Except PyErr (RecObj F)\n'
for n,a,m in ss: out+=f'  | .{n} v, o => .ok (o.{n} v)\n'
out+='  | .append_break_text v, o => .ok (o.append_break_text v)\n  | .append_error_text v, o => .ok (o.append_error_text v)\n  | .set_stay_time s, o => o.set_stay_time s\n\n'
out+=attrs('Tok','Token',TT,'Token.py','4-35')+'\n'+objdefs('Tok','Token',TT,'Token.py','4-35')
out+='''/-- `Token.__init__` (Token.py:36-49), on a new object. -/
def TokObj.init (token_string : Str) (token_start_index token_end_index : Nat) : TokObj F :=
  let o : TokObj F := fun _ => none
  let o := o.write .token_string token_string
  let o := o.write .token_start_index token_start_index
  let o := o.write .token_end_index token_end_index
  let o := o.write .token_base_type .UNKNOWN
  o.write .token_sub_type .UNKNOWN

'''
b2,ss2,gs2=gen('Tokenizer/Token.py','Token',TT,'Tok',None)
out+=b2
out+='\n/-- A call of one of the setters of `Token` (Token.py:51-133). -/\ninductive TokCall\n'
for n,a,m in ss2: out+=f'  | {n} (v : {TT[a]})\n'
out+='\n/-- What the call does to the object (Token.py:51-133). -/\ndef TokCall.run : TokCall → TokObj F → TokObj F\n'
for n,a,m in ss2: out+=f'  | .{n} v, o => o.{n} v\n'
out+='\nend F15\n'
open('/verif/lean/Verif/Model/Accessors.lean','w').write(out)
print(len(ss),len(gs),len(ss2),len(gs2)); print(gs,gs2,[x[:2] for x in ss])
