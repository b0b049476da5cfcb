#!/usr/bin/env python3
"""Generates lean/Verif/Model/{Types,Table,Messages}.lean from the *text* of the repository files
(the repository code is not imported or run)."""
import re, os
REPO="/repo"; OUT=os.path.join(os.path.dirname(os.path.abspath(__file__)),"../lean/Verif/Model")
src=open(REPO+"/F15_Parser/F15TokenSyntaxDescriptions.py").read().split("\n")
def enum(cls,prefix):
    names=[];on=False
    for i,l in enumerate(src):
        if l.startswith("class "):
            on = l.startswith("class "+cls+"(")
            if on: start=i+1
        elif on:
            m=re.match(r"\s+"+prefix+r"(\w+) = (0|auto\(\))",l)
            if m:
                names.append(m.group(1)); end=i+1
    return names,start,end
bn,bs,be=enum("TokenBaseType","F15_")
sn,ss,se=enum("TokenSubType","F15_SB_")
with open(OUT+"/Types.lean","w") as f:
    f.write("""import Verif.Model.Py
/-! Generated by tools/gen_table.py from the text of F15_Parser/F15TokenSyntaxDescriptions.py. -/

namespace F15

/-- `TokenBaseType` (F15TokenSyntaxDescriptions.py:%d-%d). The Python integer value is the constructor
number (`F15_UNKNOWN = 0`, the others `auto()`). -/
inductive BaseType
""" % (bs,be))
    for n in bn: f.write("  | %s\n"%n)
    f.write("deriving DecidableEq, Repr\n\n")
    f.write("""/-- `TokenSubType` (F15TokenSyntaxDescriptions.py:%d-%d). -/
inductive SubType
"""%(ss,se))
    for n in sn: f.write("  | %s\n"%n)
    f.write("deriving DecidableEq, Repr\n\n")
    f.write("""/-- The `IntEnum` value of a base type. -/
def BaseType.val (b : BaseType) : Nat := b.ctorIdx

/-- The `IntEnum` value of a subtype. -/
def SubType.val (b : SubType) : Nat := b.ctorIdx

end F15
""")
# ---- table
text="\n".join(src)
rows=[]
for m in re.finditer(r'\["([^"]*)",\s*TokenBaseType\.F15_(\w+),\s*TokenSubType\.F15_SB_(\w+)\]',text):
    line=text[:m.start()].count("\n")+1
    rows.append((m.group(1),m.group(2),m.group(3),line))
rows=[r for r in rows if r[0]]
nopen=len(re.findall(r'^\s+\["',text,re.M))
assert nopen==len(rows),(nopen,len(rows))
maxlen=re.search(r"MAX_TOKEN_LENGTH: int = (\d+)",text)
with open(OUT+"/Table.lean","w") as f:
    f.write("""import Verif.Model.Types
/-! Generated by tools/gen_table.py from the text of F15_Parser/F15TokenSyntaxDescriptions.py. -/

namespace F15

/-- `F15TokenSyntaxDefinition.MAX_TOKEN_LENGTH` (F15TokenSyntaxDescriptions.py:%d) -/
def maxTokenLength : Nat := %s

/-- One row of `F15_SB_CONFIGURATION`: pattern text, base type, subtype. -/
structure Row where
  pattern : Str
  base : BaseType
  sub : SubType
deriving DecidableEq, Repr

/-- `F15TokenSyntaxDefinition.F15_SB_CONFIGURATION` (F15TokenSyntaxDescriptions.py:%d-%d); the source
line of each row is given behind it. -/
def table : List Row := [
""" % (text[:maxlen.start()].count("\n")+1, maxlen.group(1), rows[0][3]-3, rows[-1][3]+1))
    for i,(p,b,s,l) in enumerate(rows):
        f.write('  ⟨py! "%s", .%s, .%s⟩%s -- %d\n'%(p,b,s,"," if i<len(rows)-1 else "",l))
    f.write("]\n\nend F15\n")
# ---- messages
ms=open(REPO+"/F15_Parser/ErrorMessageDefinitions.py").read()
rows2=[(int(m.group(1)),m.group(2),ms[:m.start()].count("\n")+1) for m in re.finditer(r'^\s+(\d+): "([^"]*)"',ms,re.M)]
with open(OUT+"/Messages.lean","w") as f:
    f.write("""import Verif.Model.Py
/-! Generated by tools/gen_table.py from the text of F15_Parser/ErrorMessageDefinitions.py. -/

namespace F15

/-- `ErrorMessages.error_messages` (ErrorMessageDefinitions.py:%d-%d). Note there is no key 51. -/
def errorMessages : List (Nat × Str) := [
""" % (rows2[0][2]-1, rows2[-1][2]+1))
    for i,(k,v,l) in enumerate(rows2):
        f.write('  (%d, py! "%s")%s\n'%(k,v,"," if i<len(rows2)-1 else ""))
    f.write("]\n\n/-- `ErrorMessages.error_messages[n]`; `none` stands for `KeyError`. -/\ndef errorMessage (n : Nat) : Option Str := errorMessages.lookup n\n\nend F15\n")
print(len(bn),len(sn),len(rows),len(rows2))
