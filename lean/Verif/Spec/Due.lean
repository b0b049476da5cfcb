import Verif.Spec.Faults
import Verif.Spec.Sequence
/-!
# When an error message is true of the text

`Due E p t q n` says that message `n` about the token `t`, found between the tokens `p` before it and `q` after it, tells the
truth, `E` being all errors reported. It follows the wording of the messages.
-/

namespace F15.Spec
variable {F : Type} [PyFloat F]

/-- The tokens end with tokens of these types. -/
def EndsIn (bs : List BaseType) (p : List Token) : Prop := bs <:+ p.map (·.base)

/-- The last token is of one of these types. -/
def LastIn (bs : List BaseType) (p : List Token) : Prop := ∃ x, p.getLast? = some x ∧ x.base ∈ bs

/-- An error about the token has been reported. -/
def Blamed (E : List (Record F)) (t : Token) : Prop := ∃ n, ∃ x ∈ E, ErrorIs t n x

/-- No section of other flight rules is open at the end of `p`: whatever starts one has been rejected, has been followed by a
word that ends a section or by one that is too long, or has been given as the point of a cruise climb. -/
def NoOpenSection (E : List (Record F)) (p : List Token) : Prop :=
  ∀ a w b, p = a ++ w :: b → w.base = .BREAK_START ∨ w.base = .SPEED_VFR →
    Blamed E w ∨ (∃ x ∈ b, x.base = .BREAK_END ∨ x.base = .TOO_LONG) ∨ EndsIn [.C, .SLASH] a

/-- The last route element before the end of `p`, rejected tokens aside, is a point given by a bearing or by coordinates. -/
def AfterFix (E : List (Record F)) (p : List Token) : Prop :=
  ∃ a x b, p = a ++ x :: b ∧ isFixed x = true ∧
    ∀ y ∈ b, Blamed E y ∨ y.base ∈ [BaseType.SLASH, .SPEED_ALTITUDE, .SPEED_ALTITUDE_ALTITUDE, .SPEED_ALTITUDE_PLUS, .STAY,
      .STAY_TIME, .TRUNCATE, .C, .BREAK_END]

/-- A level of the token is not a multiple of five. -/
def LevelFault (t : Token) : Prop :=
  match t.base with
  | .SPEED_ALTITUDE => ¬ LevelOk t.text
  | .SPEED_ALTITUDE_ALTITUDE => ¬ ClimbOk t.text
  | .SPEED_ALTITUDE_PLUS => ¬ PlusOk t.text
  | _ => False

/-- Message `n` is true of the token `t` between `p` and `q`. -/
def Due (E : List (Record F)) (p : List Token) (t : Token) (q : List Token) (n : Nat) : Prop :=
  match n with
  /- the first element must be a SPEED/LEVEL and not 't' -/
  | 1 => p = [] ∧ t.base ∉ [BaseType.SPEED_ALTITUDE, .SPEED_VFR]
  /- 't' is an unrecognised element -/
  | 3 => t.base = .UNKNOWN
  /- 't' is too long -/
  | 4 => t.base = .TOO_LONG
  /- expecting '/' before 't' -/
  | 5 => t.base ∈ [BaseType.SPEED_ALTITUDE, .SPEED_VFR] ∧ ¬ EndsIn [.SLASH] p
  /- no VFR, OAT, IFPSTOP section preceding this 't' -/
  | 6 => t.base = .BREAK_END ∧ t.sub = .IFR ∧ NoOpenSection E p
  | 7 => t.base = .BREAK_END ∧ t.sub = .GAT ∧ NoOpenSection E p
  | 8 => t.base = .BREAK_END ∧ t.sub = .IFPSTART ∧ NoOpenSection E p
  /- expecting C/POINT/ before 't' -/
  | 9 => t.base ∈ [BaseType.SPEED_ALTITUDE_ALTITUDE, .SPEED_ALTITUDE_PLUS] ∧ ¬ EndsIn [.SLASH] p
  /- expecting the keyword STAY before 't' -/
  | 10 => t.base = .STAY_TIME ∧ ¬ EndsIn [.STAY, .SLASH] p
  /- '/' not expected preceding 't' -/
  | 11 => EndsIn [.SLASH] p ∧
      t.base ∉ [BaseType.SPEED_ALTITUDE, .SPEED_VFR, .POINT, .SPEED_ALTITUDE_ALTITUDE, .SPEED_ALTITUDE_PLUS]
  /- after an ATS route: expecting a PRP; no rule change; no DCT; no STAY -/
  | 12 => EndsIn [.ROUTE] p ∧ t.base = .SLASH
  | 13 => EndsIn [.ROUTE] p ∧ t.base ∈ [BaseType.BREAK_START, .SPEED_VFR]
  | 14 => EndsIn [.ROUTE] p ∧ t.base = .DCT
  | 15 => EndsIn [.ROUTE] p ∧ t.base = .STAY
  /- 't' cannot follow a '/' -/
  | 16 => EndsIn [.SLASH] p ∧ t.base = .SLASH
  /- expecting the end after the truncation indicator -/
  | 19 => EndsIn [.TRUNCATE] p
  /- incomplete, expecting data after the final 't' -/
  | 20 => t.base = .SLASH ∧ q = []
  /- DCT must be followed by a point instead of 't' -/
  | 21 => EndsIn [.DCT] p ∧ t.base ∉ [BaseType.POINT, .C, .TRUNCATE]
  /- expecting /SPEED/LEVEL following 't' to complete the change to IFR -/
  | 22 => (∃ x, p.getLast? = some x ∧ x.base = .BREAK_END ∧ x.sub = .IFR) ∧ t.base = .POINT ∧
      (q = [] ∨ (∃ s, q = [s] ∧ s.base = .SLASH) ∨
        ∃ s x r, q = s :: x :: r ∧ s.base = .SLASH ∧ x.base ∉ [BaseType.SPEED_ALTITUDE, .SPEED_VFR])
  /- the first SPEED/LEVEL cannot be followed by 't' -/
  | 23 => EndsIn [.SPEED_ALTITUDE] p ∧
      t.base ∈ [BaseType.SLASH, .BREAK_START, .SPEED_VFR, .SPEED_ALTITUDE, .BREAK_END, .STAY, .C]
  /- expecting a SID or point after the first SPEED/LEVEL instead of 't' -/
  | 24 => EndsIn [.SPEED_ALTITUDE] p ∧ t.base = .ROUTE
  /- cannot end with 't' -/
  | 25 => t.base = .SLASH ∧ q = []
  /- expecting '/' after C/POINT instead of 't' -/
  | 26 => (∃ a x, p = a ++ [x] ∧ EndsIn [.C, .SLASH] a) ∧ t.base ≠ .SLASH
  /- expecting point, speed and levels after 'C/t' -/
  | 27 => EndsIn [.C, .SLASH] p ∧ q = []
  /- expecting speed and levels after 'C/t/' -/
  | 28 => EndsIn [.C, .SLASH] p ∧ ((∃ s, q = [s] ∧ s.base = .SLASH) ∨ ∃ x r, q = x :: r ∧ x.base ≠ .SLASH)
  /- expecting speed and levels instead of 't' -/
  | 29 => (∃ a x s, p = a ++ [x, s] ∧ EndsIn [.C, .SLASH] a ∧ s.base = .SLASH) ∧
      t.base ∉ [BaseType.SPEED_ALTITUDE_ALTITUDE, .SPEED_ALTITUDE_PLUS]
  /- the SID 't' must follow the first SPEED/LEVEL -/
  | 30 => t.base = .SID ∧ 2 ≤ p.length
  /- the SID cannot be followed by 't' -/
  | 31 => LastIn [.SID, .SID_STAR] p ∧
      t.base ∉ [BaseType.POINT, .ROUTE, .STAR, .SID_STAR, .TRUNCATE, .SID, .TOO_LONG]
  | 32 => LastIn [.SID, .SID_STAR] p ∧ t.base = .SID
  /- a STAR must be the last element and cannot be followed by 't' -/
  | 34 => LastIn [.STAR, .SID_STAR] p
  /- expecting the time of the STAY after 't' -/
  | 35 => t.base = .STAY ∧ q = []
  /- expecting '/' after STAY instead of 't' -/
  | 36 => EndsIn [.STAY] p ∧ t.base ≠ .SLASH
  /- time missing after 't' -/
  | 37 => EndsIn [.STAY] p ∧ t.base = .SLASH ∧ q = []
  /- expecting a time following STAY/ -/
  | 38 => EndsIn [.STAY, .SLASH] p ∧ t.base ≠ .STAY_TIME
  /- 't' cannot follow a STAY/HHMM -/
  | 39 => EndsIn [.STAY_TIME] p ∧
      t.base ∈ [BaseType.SLASH, .SPEED_VFR, .SPEED_ALTITUDE, .STAY, .SPEED_ALTITUDE_ALTITUDE, .SPEED_ALTITUDE_PLUS, .STAY_TIME]
  /- the level must end in 0 or 5 -/
  | 40 => LevelFault t
  /- ATS route 't' cannot follow a Lat/Long point -/
  | 47 => t.base = .ROUTE ∧ AfterFix E p
  /- Lat/Long 't' cannot follow an ATS route -/
  | 48 => EndsIn [.ROUTE] p ∧ t.base = .POINT ∧ isFixed t = true
  /- no route description -/
  | 49 => t.base = .SPEED_ALTITUDE ∧ p = [] ∧ q = []
  /- expecting SPEED/LEVEL or SPEED/VFR after '/' instead of 't' -/
  | 50 => EndsIn [.SLASH] p ∧ t.base ∉ [BaseType.SPEED_ALTITUDE, .SPEED_VFR, .SLASH, .UNKNOWN, .TOO_LONG]
  /- expecting point, speed and levels after 'Ct' -/
  | 52 => EndsIn [.C] p ∧ t.base = .SLASH ∧ q = []
  /- add a point between the ATS route and 't' -/
  | 53 => EndsIn [.ROUTE] p ∧ t.base = .ROUTE
  | 54 => EndsIn [.ROUTE] p ∧ t.base ∈ [BaseType.STAR, .SID_STAR]
  /- the SPEED/LEVEL 't' cannot follow an ATS route -/
  | 55 => EndsIn [.ROUTE] p ∧ t.base = .SPEED_ALTITUDE
  /- degrees, minutes or bearing out of range -/
  | 42 | 43 | 44 | 45 | 46 => RangeFault t.sub t.text n
  | _ => False

/-- Between an error and the tokens `q`, the text (`p` up to `q`) has a word that ends a section of other flight rules (IFR, GAT,
IFPSTART) without what has to follow it. -/
def Loose (E : List (Record F)) (p q : List Token) : Prop :=
  ∃ a w b, p = a ++ w :: b ∧ w.base = .BREAK_END ∧ readOn w (b ++ q) ∧ ∃ u ∈ a ++ [w], Blamed E u

end F15.Spec
