import Verif.Model.Token
import Verif.Spec.Position
import Verif.Spec.Values
/-!
# The grammar of accepted field 15s

A right-linear grammar over classified tokens (the base and sub types are those of the published token tables and
are characterised by the C07–C11 theorems), with the numeric conditions on levels, positions and bearings. It is
written without reference to the methods of the parser.
-/

namespace F15.Spec

/-! ### Numeric conditions -/

/-- A flight level is a multiple of five. -/
def FiveStep (level : Str) : Prop := ∀ d, level = 'F' :: d → numVal d % 5 = 0

/-- The level of a SPEED/LEVEL element is acceptable. -/
def LevelOk (s : Str) : Prop := ∀ a b, s = a ++ b → Speed a → Level b → FiveStep b

/-- The first level of SPEED/LEVEL/PLUS is acceptable. -/
def PlusOk (s : Str) : Prop := ∀ a b, s = a ++ b ++ py! "PLUS" → Speed a → Level b → FiveStep b

/-- The levels of SPEED/LEVEL/LEVEL are acceptable. The second level is only looked at if the speed is not a Mach number
and the first level is a flight level or an altitude in hundreds of feet. -/
def ClimbOk (s : Str) : Prop := ∀ a b c, s = a ++ b ++ c → Speed a → Level b → Level c →
  FiveStep b ∧ (UnitDigits ['K', 'N'] 4 a → UnitDigits ['F', 'A'] 3 b → FiveStep c)

/-- `ddHdddH` has at most 90 and 180 degrees. -/
def DegInRange (s : Str) : Prop := ∀ a b h c d e k, s = [a, b, h, c, d, e, k] → num2 a b ≤ 90 ∧ num3 c d e ≤ 180

/-- `ddmmHdddmmH` has at most 59 minutes and at most 90 and 180 degrees. -/
def MinInRange (s : Str) : Prop := ∀ a b c d h e f g i j k, s = [a, b, c, d, h, e, f, g, i, j, k] →
  (num2 c d ≤ 59 ∧ 60 * num2 a b + num2 c d ≤ 60 * 90) ∧ (num2 i j ≤ 59 ∧ 60 * num3 e f g + num2 i j ≤ 60 * 180)

/-- The bearing `BBB` of a text ending in `BBBDDD` is at most 360 degrees. -/
def BearingInRange (s : Str) : Prop := ∀ u a b c d e f, s = u ++ [a, b, c, d, e, f] → num3 a b c ≤ 360

/-- The numbers in a point are in range. -/
def PositionOk (t : Token) : Prop :=
  match t.sub with
  | .PRP_BD => BearingInRange t.text
  | .LL_DEG => DegInRange t.text
  | .LL_MIN => MinInRange t.text
  | .LLBD_DEG => (∀ u v, t.text = u ++ v → v.length = 6 → DegInRange u) ∧ BearingInRange t.text
  | .LLBD_MIN => (∀ u v, t.text = u ++ v → v.length = 6 → MinInRange u) ∧ BearingInRange t.text
  | _ => True

/-! ### Phases and what may follow -/

/-- A point given by coordinates or by bearing and distance (no ATS route leads to or from it). -/
def isFixed (t : Token) : Bool := [SubType.PRP_BD, .LL_DEG, .LL_MIN, .LLBD_DEG, .LLBD_MIN].contains t.sub

/-- What has just been read. -/
inductive Phase
  /-- the initial SPEED/LEVEL -/
  | adep
  | sid
  /-- a point, possibly with a change of speed and level; is it given by coordinates or bearing and distance? -/
  | point (fixed : Bool)
  | dct
  | route
  /-- the cruise climb indicator `C` not followed by `/` -/
  | climb
  /-- a stay -/
  | stay
  /-- free text under VFR, OAT or IFPS rules -/
  | text (rules : Str)
deriving DecidableEq

/-- May the token start the next item? -/
def Phase.allows (q : Phase) (t : Token) : Bool :=
  match q with
  | .adep => [BaseType.DCT, .TRUNCATE, .POINT, .SID_STAR, .SID, .STAR].contains t.base
  | .sid => [BaseType.TRUNCATE, .POINT, .ROUTE, .SID_STAR, .STAR].contains t.base
  | .point fixed => [BaseType.BREAK_START, .DCT, .STAY, .TRUNCATE, .C, .POINT, .SID_STAR, .STAR].contains t.base ||
      (decide (t.base = .ROUTE) && !fixed)
  | .dct => [BaseType.TRUNCATE, .POINT, .C].contains t.base
  | .route => [BaseType.TRUNCATE, .C].contains t.base || (decide (t.base = .POINT) && !isFixed t)
  | .climb => [BaseType.BREAK_START, .DCT, .STAY, .TRUNCATE, .C, .POINT, .ROUTE, .SID_STAR, .STAR].contains t.base
  | .stay => [BaseType.BREAK_START, .DCT, .TRUNCATE, .C, .POINT, .ROUTE, .SID_STAR, .STAR].contains t.base
  | .text _ => false

/-- The flight rules begun by VFR, OAT, IFPSTOP. -/
def rulesOfBreak (s : SubType) : Str :=
  match s with
  | .OAT => py! "OAT"
  | .VFR => py! "VFR"
  | .IFPSTOP => py! "IFPS"
  | _ => []

/-- IFR ends VFR, GAT ends OAT, IFPSTART ends IFPS. -/
def closes (t : Token) (rules : Str) : Prop :=
  (t.sub = .IFR ∧ rules = py! "VFR") ∨ (t.sub = .GAT ∧ rules = py! "OAT") ∨ (t.sub = .IFPSTART ∧ rules = py! "IFPS")

/-- The closing word `t` is not taken as an end of the free text: no point follows, or (after IFR) a point that is
followed by something else than `/`. -/
def readOn (t : Token) (following : List Token) : Prop :=
  match following with
  | [] => True
  | p :: rest => p.base ≠ .POINT ∨ (t.sub = .IFR ∧ ∃ s rest', rest = s :: rest' ∧ s.base ≠ .SLASH)

/-- The two forms of levels in a cruise climb. -/
def ClimbLevels (t : Token) : Prop :=
  (t.base = .SPEED_ALTITUDE_ALTITUDE ∧ t.sub ≠ .SPEED_ALTITUDE_NAS ∧ t.sub ≠ .SPEED_ALTITUDE_NAM ∧ ClimbOk t.text) ∨
  (t.base = .SPEED_ALTITUDE_PLUS ∧ PlusOk t.text)

/-- `Accepts q ts`: after `q`, the tokens `ts` complete the field correctly. -/
inductive Accepts : Phase → List Token → Prop
  /-- end of field 15 -/
  | stop (q : Phase) : Accepts q []
  /-- `T` is last -/
  | truncate {q t} (hq : q.allows t) (hb : t.base = .TRUNCATE) : Accepts q [t]
  /-- a STAR is last; a SID/STAR designator is a STAR unless it follows the initial SPEED/LEVEL -/
  | star {q t} (hq : q.allows t) (hb : t.base = .STAR ∨ (t.base = .SID_STAR ∧ q ≠ .adep)) : Accepts q [t]
  /-- a SID directly follows the initial SPEED/LEVEL -/
  | sid {t ts} (hb : t.base = .SID ∨ t.base = .SID_STAR) (h : Accepts .sid ts) : Accepts .adep (t :: ts)
  | dct {q t ts} (hq : q.allows t) (hb : t.base = .DCT) (h : Accepts .dct ts) : Accepts q (t :: ts)
  | route {q t ts} (hq : q.allows t) (hb : t.base = .ROUTE) (h : Accepts .route ts) : Accepts q (t :: ts)
  | point {q t ts} (hq : q.allows t) (hb : t.base = .POINT) (hn : PositionOk t)
      (h : Accepts (.point (isFixed t)) ts) : Accepts q (t :: ts)
  /-- `C` alone -/
  | climb {q t ts} (hq : q.allows t) (hb : t.base = .C) (h : Accepts .climb ts) : Accepts q (t :: ts)
  /-- `C/point/levels`; any token is taken as the point -/
  | cruise {q t s p s' l ts} (hq : q.allows t) (hb : t.base = .C) (hs : s.base = .SLASH) (hp : PositionOk p)
      (hs' : s'.base = .SLASH) (hl : ClimbLevels l) (h : Accepts (.point (isFixed p)) ts) :
      Accepts q (t :: s :: p :: s' :: l :: ts)
  /-- `STAYn/HHMM` -/
  | stay {q t s m ts} (hq : q.allows t) (hb : t.base = .STAY) (hs : s.base = .SLASH) (hm : m.base = .STAY_TIME)
      (h : Accepts .stay ts) : Accepts q (t :: s :: m :: ts)
  /-- VFR, OAT or IFPSTOP starts free text -/
  | break_ {q t ts} (hq : q.allows t) (hb : t.base = .BREAK_START) (h : Accepts (.text (rulesOfBreak t.sub)) ts) :
      Accepts q (t :: ts)
  /-- `point/SPEED LEVEL` -/
  | level {f s l ts} (hs : s.base = .SLASH) (hb : l.base = .SPEED_ALTITUDE) (hl : LevelOk l.text)
      (h : Accepts (.point f) ts) : Accepts (.point f) (s :: l :: ts)
  /-- `point/SPEED VFR` -/
  | vfr {f s l ts} (hs : s.base = .SLASH) (hb : l.base = .SPEED_VFR) (h : Accepts (.text (py! "VFR")) ts) :
      Accepts (.point f) (s :: l :: ts)
  /-- a word of free text -/
  | word {r t ts} (hb : t.base ≠ .TOO_LONG) (hc : closes t r → readOn t ts) (h : Accepts (.text r) ts) :
      Accepts (.text r) (t :: ts)
  /-- `GAT point`, `IFPSTART point` -/
  | resume {r t p ts} (hc : closes t r) (hi : t.sub ≠ .IFR) (hb : t.base ≠ .TOO_LONG) (hp : p.base = .POINT)
      (hn : PositionOk p) (h : Accepts (.point (isFixed p)) ts) : Accepts (.text r) (t :: p :: ts)
  /-- `IFR point/SPEED LEVEL` -/
  | resumeIfr {r t p s l ts} (hc : closes t r) (hi : t.sub = .IFR) (hb : t.base ≠ .TOO_LONG) (hp : p.base = .POINT)
      (hn : PositionOk p) (hs : s.base = .SLASH) (hl : l.base = .SPEED_ALTITUDE) (hk : LevelOk l.text)
      (h : Accepts (.point (isFixed p)) ts) : Accepts (.text r) (t :: p :: s :: l :: ts)
  /-- `IFR point/SPEED VFR` -/
  | resumeVfr {r t p s l ts} (hc : closes t r) (hi : t.sub = .IFR) (hb : t.base ≠ .TOO_LONG) (hp : p.base = .POINT)
      (hs : s.base = .SLASH) (hl : l.base = .SPEED_VFR) (h : Accepts (.text (py! "VFR")) ts) :
      Accepts (.text r) (t :: p :: s :: l :: ts)

/-- A complete field 15. -/
inductive Sentence : List Token → Prop
  /-- SPEED/LEVEL and at least one more token -/
  | ifr {t ts} (hb : t.base = .SPEED_ALTITUDE) (hl : LevelOk t.text) (hne : ts ≠ []) (h : Accepts .adep ts) :
      Sentence (t :: ts)
  /-- SPEED/VFR and free text -/
  | vfr {t ts} (hb : t.base = .SPEED_VFR) (h : Accepts (.text (py! "VFR")) ts) : Sentence (t :: ts)

end F15.Spec
