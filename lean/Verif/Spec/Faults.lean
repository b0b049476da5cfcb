import Verif.Spec.Grammar
import Verif.Spec.Ranges
import Verif.Model.Classify
/-!
# The first fault of a field 15

Reading the classified tokens from left to right along the grammar of `Spec/Grammar.lean`, `FirstFault` says which
token is the first that does not fit, and which message is due. `Extendable` says, without a table of cases, that the
tokens read so far can still be completed to an acceptable field 15.
-/

namespace F15.Spec

/-- The tokens are the beginning of an acceptable field 15: it can be completed by classified tokens. -/
def Extendable (p : List Token) : Prop := ∃ z, (∀ t ∈ z, assignSyntax t = t) ∧ Sentence (p ++ z)

/-- The message about a token that fits nowhere but in a certain context. -/
def misplaced (t : Token) : Nat :=
  match t.base with
  | .UNKNOWN => 3
  | .TOO_LONG => 4
  | .SPEED_ALTITUDE | .SPEED_VFR => 5
  | .BREAK_END => match t.sub with
    | .IFR => 6
    | .GAT => 7
    | _ => 8
  | .SPEED_ALTITUDE_ALTITUDE | .SPEED_ALTITUDE_PLUS => 9
  | .STAY_TIME => 10
  | .SID => 30
  | _ => 0

/-- The message about a token that may not come next. -/
def unexpected (q : Phase) (t : Token) : Nat :=
  match q with
  | .adep => match t.base with
    | .UNKNOWN | .TOO_LONG | .SPEED_ALTITUDE_ALTITUDE | .SPEED_ALTITUDE_PLUS | .STAY_TIME => misplaced t
    | .ROUTE => 24
    | _ => 23
  | .sid => match t.base with
    | .TOO_LONG => 4
    | .SID => 32
    | _ => 31
  | .point _ => match t.base with
    | .ROUTE => 47
    | _ => misplaced t
  | .dct => 21
  | .route => match t.base with
    | .SLASH => 12
    | .BREAK_START | .SPEED_VFR => 13
    | .DCT => 14
    | .STAY => 15
    | .POINT => 48
    | .ROUTE => 53
    | .STAR | .SID_STAR => 54
    | .SPEED_ALTITUDE => 55
    | _ => misplaced t
  | .climb => misplaced t
  | .stay => match t.base with
    | .UNKNOWN | .TOO_LONG | .BREAK_END | .SID => misplaced t
    | _ => 39
  | .text _ => 4

/-- The message about a token after `point/`. -/
def afterSlash (t : Token) : Nat :=
  match t.base with
  | .UNKNOWN => 3
  | .TOO_LONG => 4
  | .SLASH => 16
  | _ => 50

/-- `Fault q pre t post n`: after `q`, in the tokens `pre ++ t :: post`, the first fault is at `t`, with message `n`. -/
inductive Fault : Phase → List Token → Token → List Token → Nat → Prop
  /-- a token that cannot come next -/
  | here {q t post} (hq : q.allows t = false) (ht : ∀ r, q ≠ .text r) (hs : ∀ f, q = .point f → t.base ≠ .SLASH) :
      Fault q [] t post (unexpected q t)
  /-- a point with numbers out of range -/
  | position {q t post n} (hq : q.allows t) (hb : t.base = .POINT) (hn : FirstRangeFault t.sub t.text n) : Fault q [] t post n
  /-- something after `T` -/
  | truncate {q t x post} (hq : q.allows t) (hb : t.base = .TRUNCATE) : Fault q [t] x post 19
  /-- something after a STAR -/
  | star {q t x post} (hq : q.allows t) (hb : t.base = .STAR ∨ (t.base = .SID_STAR ∧ q ≠ .adep)) : Fault q [t] x post 34
  | sid {t pre x post n} (hb : t.base = .SID ∨ t.base = .SID_STAR) (h : Fault .sid pre x post n) :
      Fault .adep (t :: pre) x post n
  | dct {q t pre x post n} (hq : q.allows t) (hb : t.base = .DCT) (h : Fault .dct pre x post n) : Fault q (t :: pre) x post n
  | route {q t pre x post n} (hq : q.allows t) (hb : t.base = .ROUTE) (h : Fault .route pre x post n) :
      Fault q (t :: pre) x post n
  | point {q t pre x post n} (hq : q.allows t) (hb : t.base = .POINT) (hn : PositionOk t)
      (h : Fault (.point (isFixed t)) pre x post n) : Fault q (t :: pre) x post n
  | break_ {q t pre x post n} (hq : q.allows t) (hb : t.base = .BREAK_START)
      (h : Fault (.text (rulesOfBreak t.sub)) pre x post n) : Fault q (t :: pre) x post n
  /-- `C` not followed by `/` -/
  | climb {q t pre x post n} (hq : q.allows t) (hb : t.base = .C) (hh : (pre ++ [x]).head?.map (·.base) ≠ some .SLASH)
      (h : Fault .climb pre x post n) : Fault q (t :: pre) x post n
  /-- `C/` at the end -/
  | climbEnd {q t s} (hq : q.allows t) (hb : t.base = .C) (hs : s.base = .SLASH) : Fault q [t] s [] 52
  /-- `C/point` with numbers out of range -/
  | cruisePosition {q t s p post n} (hq : q.allows t) (hb : t.base = .C) (hs : s.base = .SLASH)
      (hn : FirstRangeFault p.sub p.text n) : Fault q [t, s] p post n
  /-- `C/point` at the end -/
  | cruiseEnd {q t s p} (hq : q.allows t) (hb : t.base = .C) (hs : s.base = .SLASH) (hp : PositionOk p) :
      Fault q [t, s] p [] 27
  /-- `C/point` without `/` -/
  | cruiseSlash {q t s p x post} (hq : q.allows t) (hb : t.base = .C) (hs : s.base = .SLASH) (hp : PositionOk p)
      (hx : x.base ≠ .SLASH) : Fault q [t, s, p] x post 26
  /-- `C/point/` at the end: the message is about the point -/
  | cruiseLevelsEnd {q t s p s'} (hq : q.allows t) (hb : t.base = .C) (hs : s.base = .SLASH) (hp : PositionOk p)
      (hs' : s'.base = .SLASH) : Fault q [t, s] p [s'] 28
  /-- `C/point/` without levels -/
  | cruiseLevels {q t s p s' l post} (hq : q.allows t) (hb : t.base = .C) (hs : s.base = .SLASH) (hp : PositionOk p)
      (hs' : s'.base = .SLASH) (h1 : l.base ≠ .SPEED_ALTITUDE_ALTITUDE) (h2 : l.base ≠ .SPEED_ALTITUDE_PLUS) :
      Fault q [t, s, p, s'] l post 29
  /-- `C/point/levels` with a flight level that does not end in 0 or 5 -/
  | cruiseStep {q t s p s' l post} (hq : q.allows t) (hb : t.base = .C) (hs : s.base = .SLASH) (hp : PositionOk p)
      (hs' : s'.base = .SLASH)
      (hl : (l.base = .SPEED_ALTITUDE_ALTITUDE ∧ ¬ ClimbOk l.text) ∨ (l.base = .SPEED_ALTITUDE_PLUS ∧ ¬ PlusOk l.text)) :
      Fault q [t, s, p, s'] l post 40
  | cruise {q t s p s' l pre x post n} (hq : q.allows t) (hb : t.base = .C) (hs : s.base = .SLASH) (hp : PositionOk p)
      (hs' : s'.base = .SLASH) (hl : ClimbLevels l) (h : Fault (.point (isFixed p)) pre x post n) :
      Fault q (t :: s :: p :: s' :: l :: pre) x post n
  /-- `STAYn` at the end -/
  | stayEnd {q t} (hq : q.allows t) (hb : t.base = .STAY) : Fault q [] t [] 35
  /-- `STAYn` without `/` -/
  | staySlash {q t x post} (hq : q.allows t) (hb : t.base = .STAY) (hx : x.base ≠ .SLASH) : Fault q [t] x post 36
  /-- `STAYn/` at the end -/
  | stayTimeEnd {q t s} (hq : q.allows t) (hb : t.base = .STAY) (hs : s.base = .SLASH) : Fault q [t] s [] 37
  /-- `STAYn/` without a time -/
  | stayTime {q t s x post} (hq : q.allows t) (hb : t.base = .STAY) (hs : s.base = .SLASH) (hx : x.base ≠ .STAY_TIME) :
      Fault q [t, s] x post 38
  | stay {q t s m pre x post n} (hq : q.allows t) (hb : t.base = .STAY) (hs : s.base = .SLASH) (hm : m.base = .STAY_TIME)
      (h : Fault .stay pre x post n) : Fault q (t :: s :: m :: pre) x post n
  /-- `point/` at the end -/
  | slashEnd {f s} (hs : s.base = .SLASH) : Fault (.point f) [] s [] 20
  /-- `point/` without SPEED/LEVEL or SPEED/VFR -/
  | slash {f s x post} (hs : s.base = .SLASH) (h1 : x.base ≠ .SPEED_ALTITUDE) (h2 : x.base ≠ .SPEED_VFR) :
      Fault (.point f) [s] x post (afterSlash x)
  /-- `point/SPEED LEVEL` with a flight level that does not end in 0 or 5 -/
  | levelStep {f s l post} (hs : s.base = .SLASH) (hb : l.base = .SPEED_ALTITUDE) (hl : ¬ LevelOk l.text) :
      Fault (.point f) [s] l post 40
  | level {f s l pre x post n} (hs : s.base = .SLASH) (hb : l.base = .SPEED_ALTITUDE) (hl : LevelOk l.text)
      (h : Fault (.point f) pre x post n) : Fault (.point f) (s :: l :: pre) x post n
  | vfr {f s l pre x post n} (hs : s.base = .SLASH) (hb : l.base = .SPEED_VFR) (h : Fault (.text (py! "VFR")) pre x post n) :
      Fault (.point f) (s :: l :: pre) x post n
  /-- free text may not contain a word that is too long -/
  | tooLong {r t post} (hb : t.base = .TOO_LONG) : Fault (.text r) [] t post 4
  | word {r t pre x post n} (hb : t.base ≠ .TOO_LONG) (hc : closes t r → readOn t (pre ++ x :: post))
      (h : Fault (.text r) pre x post n) : Fault (.text r) (t :: pre) x post n
  /-- `GAT point`, `IFPSTART point` with numbers out of range -/
  | resumePosition {r t p post n} (hc : closes t r) (hi : t.sub ≠ .IFR) (hb : t.base ≠ .TOO_LONG) (hp : p.base = .POINT)
      (hn : FirstRangeFault p.sub p.text n) : Fault (.text r) [t] p post n
  | resume {r t p pre x post n} (hc : closes t r) (hi : t.sub ≠ .IFR) (hb : t.base ≠ .TOO_LONG) (hp : p.base = .POINT)
      (hn : PositionOk p) (h : Fault (.point (isFixed p)) pre x post n) : Fault (.text r) (t :: p :: pre) x post n
  /-- `IFR point` at the end -/
  | ifrEnd {r t p} (hc : closes t r) (hi : t.sub = .IFR) (hb : t.base ≠ .TOO_LONG) (hp : p.base = .POINT) :
      Fault (.text r) [t] p [] 22
  /-- `IFR point/` at the end: the message is about the point -/
  | ifrSlashEnd {r t p s} (hc : closes t r) (hi : t.sub = .IFR) (hb : t.base ≠ .TOO_LONG) (hp : p.base = .POINT)
      (hs : s.base = .SLASH) : Fault (.text r) [t] p [s] 22
  /-- `IFR point/` without SPEED/LEVEL or SPEED/VFR: the message is about the point -/
  | ifrSlash {r t p s x post} (hc : closes t r) (hi : t.sub = .IFR) (hb : t.base ≠ .TOO_LONG) (hp : p.base = .POINT)
      (hs : s.base = .SLASH) (h1 : x.base ≠ .SPEED_ALTITUDE) (h2 : x.base ≠ .SPEED_VFR) :
      Fault (.text r) [t] p (s :: x :: post) 22
  /-- `IFR point/SPEED LEVEL` with numbers out of range in the point -/
  | ifrPosition {r t p s l post n} (hc : closes t r) (hi : t.sub = .IFR) (hb : t.base ≠ .TOO_LONG) (hp : p.base = .POINT)
      (hs : s.base = .SLASH) (hl : l.base = .SPEED_ALTITUDE) (hn : FirstRangeFault p.sub p.text n) :
      Fault (.text r) [t] p (s :: l :: post) n
  /-- `IFR point/SPEED LEVEL` with a flight level that does not end in 0 or 5 -/
  | ifrStep {r t p s l post} (hc : closes t r) (hi : t.sub = .IFR) (hb : t.base ≠ .TOO_LONG) (hp : p.base = .POINT)
      (hn : PositionOk p) (hs : s.base = .SLASH) (hl : l.base = .SPEED_ALTITUDE) (hk : ¬ LevelOk l.text) :
      Fault (.text r) [t, p, s] l post 40
  | resumeIfr {r t p s l pre x post n} (hc : closes t r) (hi : t.sub = .IFR) (hb : t.base ≠ .TOO_LONG) (hp : p.base = .POINT)
      (hn : PositionOk p) (hs : s.base = .SLASH) (hl : l.base = .SPEED_ALTITUDE) (hk : LevelOk l.text)
      (h : Fault (.point (isFixed p)) pre x post n) : Fault (.text r) (t :: p :: s :: l :: pre) x post n
  | resumeVfr {r t p s l pre x post n} (hc : closes t r) (hi : t.sub = .IFR) (hb : t.base ≠ .TOO_LONG) (hp : p.base = .POINT)
      (hs : s.base = .SLASH) (hl : l.base = .SPEED_VFR) (h : Fault (.text (py! "VFR")) pre x post n) :
      Fault (.text r) (t :: p :: s :: l :: pre) x post n

/-- `FirstFault pre t post n`: in the field `pre ++ t :: post`, the first fault is at `t`, with message `n`. -/
inductive FirstFault : List Token → Token → List Token → Nat → Prop
  /-- the field does not start with SPEED/LEVEL or SPEED/VFR -/
  | start {t post} (h1 : t.base ≠ .SPEED_ALTITUDE) (h2 : t.base ≠ .SPEED_VFR) : FirstFault [] t post 1
  /-- the first flight level does not end in 0 or 5 -/
  | step {t post} (hb : t.base = .SPEED_ALTITUDE) (hl : ¬ LevelOk t.text) : FirstFault [] t post 40
  /-- SPEED/LEVEL alone -/
  | lone {t} (hb : t.base = .SPEED_ALTITUDE) (hl : LevelOk t.text) : FirstFault [] t [] 49
  | ifr {t pre x post n} (hb : t.base = .SPEED_ALTITUDE) (hl : LevelOk t.text) (h : Fault .adep pre x post n) :
      FirstFault (t :: pre) x post n
  | vfr {t pre x post n} (hb : t.base = .SPEED_VFR) (h : Fault (.text (py! "VFR")) pre x post n) :
      FirstFault (t :: pre) x post n

end F15.Spec
