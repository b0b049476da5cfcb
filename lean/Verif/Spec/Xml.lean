import Verif.Model.Types
/-!
# A reader of XML documents

A strict reader for a sublanguage of XML 1.0: elements with attributes and character data. Whatever it accepts is a well-formed
document, read as XML prescribes: names match, no element has two attributes with the same name, no raw `<` or `&` occurs in character
data or attribute values, tabs and line ends in attribute values are read as blanks. It does not accept some well-formed documents:
those with entity references, CDATA sections, comments, processing instructions, empty-element tags, single quotes around attribute values,
`>` or carriage returns in character data, and names with other characters than Latin letters, digits and `_`.
-/

namespace F15.Spec

/-- The tree of a document. -/
inductive Node
  | text (s : Str)
  | elem (name : Str) (attrs : List (Str × Str)) (children : List Node)
deriving Repr

/-- An element whose end tag is still to come, with its children so far, the last one first. -/
structure Open where
  name : Str
  attrs : List (Str × Str)
  children : List Node

/-- Where the reader is; `acc` are the characters read so far, the last one first. -/
inductive ReadMode
  /-- in character data -/
  | data (acc : Str)
  /-- after `<` -/
  | lt
  /-- in the name of a start tag -/
  | name (acc : Str)
  /-- after the name or an attribute of a start tag -/
  | tag (name : Str) (attrs : List (Str × Str))
  /-- in the name of an attribute -/
  | attr (name : Str) (attrs : List (Str × Str)) (acc : Str)
  /-- after the `=` of an attribute -/
  | eq (name : Str) (attrs : List (Str × Str)) (an : Str)
  /-- in the value of an attribute -/
  | value (name : Str) (attrs : List (Str × Str)) (an : Str) (acc : Str)
  /-- in the name of an end tag -/
  | stop (acc : Str)

/-- Characters names start with. -/
def nameStart (c : Char) : Bool := ('a' ≤ c ∧ c ≤ 'z') || ('A' ≤ c ∧ c ≤ 'Z') || c = '_'
/-- Characters of names. -/
def nameChar (c : Char) : Bool := nameStart c || ('0' ≤ c ∧ c ≤ '9')
/-- The characters of XML 1.0 (production 2), without carriage return. -/
def xmlChar (c : Char) : Bool := c = '\t' || c = '\n' || ('\x20' ≤ c && c != '\uFFFE' && c != '\uFFFF')

/-- The character data read so far as a node, if there is any. -/
def textNode (s : Str) : List Node := if s = [] then [] else [.text s]

/-- Read one character. -/
def readChar : ReadMode × List Open → Char → Option (ReadMode × List Open)
  | (.data acc, o :: os), c =>
    if c = '<' then some (.lt, { o with children := textNode acc.reverse ++ o.children } :: os)
    else if xmlChar c && c != '&' && c != '>' then some (.data (c :: acc), o :: os) else none
  | (.lt, os), c =>
    if c = '/' then some (.stop [], os) else if nameStart c then some (.name [c], os) else none
  | (.name acc, os), c =>
    if nameChar c then some (.name (c :: acc), os)
    else if c = ' ' then some (.attr acc.reverse [] [], os)
    else if c = '>' then some (.data [], ⟨acc.reverse, [], []⟩ :: os) else none
  | (.tag n as, os), c =>
    if c = ' ' then some (.attr n as [], os)
    else if c = '>' then some (.data [], ⟨n, as, []⟩ :: os) else none
  | (.attr n as acc, os), c =>
    if (if acc = [] then nameStart c else nameChar c) then some (.attr n as (c :: acc), os)
    else if c = '=' ∧ acc ≠ [] ∧ acc.reverse ∉ as.map (·.1) then some (.eq n as acc.reverse, os) else none
  | (.eq n as an, os), c => if c = '"' then some (.value n as an [], os) else none
  | (.value n as an acc, os), c =>
    if c = '"' then some (.tag n (as ++ [(an, acc.reverse)]), os)
    else if c = '\t' ∨ c = '\n' then some (.value n as an (' ' :: acc), os)
    else if xmlChar c && c != '<' && c != '&' then some (.value n as an (c :: acc), os) else none
  | (.stop acc, o :: p :: os), c =>
    if c = '>' then
      if o.name = acc.reverse then
        some (.data [], { p with children := .elem o.name o.attrs o.children.reverse :: p.children } :: os)
      else none
    else if nameChar c then some (.stop (c :: acc), o :: p :: os) else none
  | _, _ => none

def blank (s : Str) : Bool := s.all fun c => c = ' ' || c = '\t' || c = '\n'

/-- The children that are elements. -/
def elems (l : List Node) : List Node := l.filter fun n => match n with | .elem .. => true | .text _ => false

/-- The root element of a document; before and after it there may be blanks. -/
def readXml (s : Str) : Option Node :=
  match s.foldlM readChar (.data [], [⟨[], [], []⟩]) with
  | some (.data acc, [o]) =>
    if blank acc && o.children.all (fun n => match n with | .elem .. => true | .text t => blank t) then
      match elems o.children with
      | [n] => some n
      | _ => none
    else none
  | _ => none

/-- A small document is read, and typical faults are found. -/
example : ∃ n, readXml (py! "  <a x=\"1\" y=\"&\"></a>") = none ∧ readXml (py! "<a><b></a></b>") = none ∧
    readXml (py! "<a x=\"1\" x=\"2\"></a>") = none ∧ readXml (py! "<a></a><b></b>") = none ∧
    readXml (py! " <a x=\"1\">t<b></b></a>\n") = some n ∧
    n = .elem (py! "a") [(py! "x", py! "1")] [.text (py! "t"), .elem (py! "b") [] []] :=
  ⟨_, rfl, rfl, rfl, rfl, rfl, rfl⟩

end F15.Spec
