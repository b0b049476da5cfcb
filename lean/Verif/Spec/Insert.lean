import Verif.Spec.Splice
/-!
# Vocabulary for "the flight rules can be changed at any point"
-/

namespace F15.Spec

/-- What is written about a point: any number of `/` SPEED LEVEL, and possibly `STAYn/HHMM` last. -/
inductive Remarks : List Token → Prop
  | none : Remarks []
  | level {s l rest} (hs : s.base = .SLASH) (hl : l.base = .SPEED_ALTITUDE) (h : Remarks rest) : Remarks (s :: l :: rest)
  | stay {t s m} (ht : t.base = .STAY) (hs : s.base = .SLASH) (hm : m.base = .STAY_TIME) : Remarks [t, s, m]

/-- A part of the route under other rules: `VFR`, `OAT` or `IFPSTOP`, words, the word that ends it (`IFR`, `GAT`, `IFPSTART`) and the
point from which IFR is flown again, with a SPEED LEVEL (only `GAT` and `IFPSTART` can do without). -/
structure Section (brk : Token) (words : List Token) (close p : Token) (level : List Token) : Prop where
  start : brk.base = .BREAK_START
  words : ∀ w ∈ words, w.base ≠ .TOO_LONG ∧ ¬ closes w (rulesOfBreak brk.sub)
  stop : closes close (rulesOfBreak brk.sub)
  point : p.base = .POINT
  position : PositionOk p
  level : (level = [] ∧ close.sub ≠ .IFR) ∨
    ∃ s l, level = [s, l] ∧ s.base = .SLASH ∧ l.base = .SPEED_ALTITUDE ∧ LevelOk l.text

end F15.Spec
