import Verif.Model.Py
/-!
# The regular expressions used by the syntax table

`re.fullmatch` on the patterns of `F15_SB_CONFIGURATION` (F15TokenSyntaxDescriptions.py:164-379): literals,
character classes, `{n}` / `{m,n}` repetition, groups and alternation. `parseRe` reads the pattern
text, `Re.fullmatch` is a backtracking matcher.
-/

namespace F15

/-- A character class: a union of inclusive ranges. -/
abbrev Cls := List (Char × Char)

/-- Membership of a character in a class. -/
def Cls.has (k : Cls) (c : Char) : Bool := k.any fun r => r.1 ≤ c && c ≤ r.2

/-- Regular expressions (the fragment of Python's `re` syntax occurring in the table). -/
inductive Re
  | eps
  | cls (k : Cls)
  | seq (a b : Re)
  | alt (a b : Re)
  | rep (a : Re) (lo hi : Nat)
deriving DecidableEq, Repr

/-- Repeat a continuation-passing matcher between `lo` and `hi` times. -/
def repK (f : Str → (Str → Bool) → Bool) : Nat → Nat → Str → (Str → Bool) → Bool
  | lo, 0, s, k => lo == 0 && k s
  | lo, hi + 1, s, k => (lo == 0 && k s) || f s (fun s' => repK f (lo - 1) hi s' k)

/-- Backtracking matcher with continuation. -/
def Re.matchK : Re → Str → (Str → Bool) → Bool
  | .eps, s, k => k s
  | .cls _, [], _ => false
  | .cls c, x :: s, k => c.has x && k s
  | .seq a b, s, k => a.matchK s (fun s' => b.matchK s' k)
  | .alt a b, s, k => a.matchK s k || b.matchK s k
  | .rep a lo hi, s, k => repK a.matchK lo hi s k

/-- `re.fullmatch(pattern, s) is not None`. -/
def Re.fullmatch (r : Re) (s : Str) : Bool := r.matchK s (fun s' => s'.isEmpty)

/-! ### Reading the pattern text -/

/-- Body of a character class, after `[`, up to `]`. -/
def parseCls : Str → Cls → Option (Cls × Str)
  | ']' :: r, acc => some (acc.reverse, r)
  | a :: '-' :: b :: r, acc => parseCls r ((a, b) :: acc)
  | a :: r, acc => parseCls r ((a, a) :: acc)
  | [], _ => none

/-- Decimal number in a repetition count. -/
def parseNum : Str → Nat → Nat × Str
  | c :: r, acc => if isDig c then parseNum r (acc * 10 + digVal c) else (acc, c :: r)
  | [], acc => (acc, [])

/-- Optional `{n}` or `{m,n}` suffix. -/
def parseRep (a : Re) (s : Str) : Option (Re × Str) :=
  match s with
  | '{' :: r =>
    match parseNum r 0 with
    | (m, '}' :: r') => some (.rep a m m, r')
    | (m, ',' :: r') =>
      match parseNum r' 0 with
      | (n, '}' :: r'') => some (.rep a m n, r'')
      | _ => none
    | _ => none
  | _ => some (a, s)

mutual
/-- alternatives separated by `|`, until end of text or `)` -/
def parseAlt : Nat → Str → Option (Re × Str)
  | 0, _ => none
  | n + 1, s =>
    match parseSeq n s with
    | some (a, '|' :: r) =>
      match parseAlt n r with
      | some (b, r') => some (.alt a b, r')
      | none => none
    | x => x
/-- a sequence of (possibly repeated) atoms -/
def parseSeq : Nat → Str → Option (Re × Str)
  | 0, _ => none
  | _ + 1, [] => some (.eps, [])
  | n + 1, c :: r =>
    if c = ')' || c = '|' then some (.eps, c :: r)
    else
      let atom : Option (Re × Str) :=
        if c = '[' then (parseCls r []).map fun p => (.cls p.1, p.2)
        else if c = '(' then
          match parseAlt n r with
          | some (a, ')' :: r') => some (a, r')
          | _ => none
        else some (.cls [(c, c)], r)
      match atom with
      | some (a, r1) =>
        match parseRep a r1 with
        | some (a', r2) =>
          match parseSeq n r2 with
          | some (b, r3) => some (.seq a' b, r3)
          | none => none
        | none => none
      | none => none
end

/-- Compile a pattern. `none` stands for a syntax error (`re.error`). -/
def parseRe (p : Str) : Option Re :=
  match parseAlt (2 * p.length + 2) p with
  | some (r, []) => some r
  | _ => none

end F15
