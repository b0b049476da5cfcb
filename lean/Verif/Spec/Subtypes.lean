import Verif.Spec.Shapes
/-!
# The documented forms named by the subtypes

`Spec/Shapes.lean` says what the base types mean; here is what the subtypes add, taken from their names and the comments
beside them, independently of the regular expressions.
-/

namespace F15.Spec

/-- SPEED/LEVEL with the given unit letters. -/
def SpeedLevelOf (k : Char × Char) (s : Str) : Prop :=
  ∃ a b, s = a ++ b ∧ UnitDigits [k.1] (speedDigits k.1) a ∧ UnitDigits [k.2] (levelDigits k.2) b

/-- SPEED/LEVEL/PLUS with the given unit letters. -/
def SpeedLevelPlusOf (k : Char × Char) (s : Str) : Prop := ∃ a, s = a ++ py! "PLUS" ∧ SpeedLevelOf k a

/-- SPEED/VFR with the given unit letter. -/
def SpeedVfrOf (u : Char) (s : Str) : Prop := ∃ a, s = a ++ py! "VFR" ∧ UnitDigits [u] (speedDigits u) a

/-- The twelve combinations of unit letters and the subtypes named after them, without and with `PLUS`. -/
def speedLevelSubtypes : List ((Char × Char) × SubType × SubType) :=
  [(('M', 'F'), .SPEED_ALTITUDE_MF, .SPEED_ALTITUDE_MF_P), (('M', 'S'), .SPEED_ALTITUDE_MS, .SPEED_ALTITUDE_MS_P),
   (('M', 'A'), .SPEED_ALTITUDE_MA, .SPEED_ALTITUDE_MA_P), (('M', 'M'), .SPEED_ALTITUDE_MM, .SPEED_ALTITUDE_MM_P),
   (('K', 'F'), .SPEED_ALTITUDE_KF, .SPEED_ALTITUDE_KF_P), (('K', 'S'), .SPEED_ALTITUDE_KS, .SPEED_ALTITUDE_KS_P),
   (('K', 'A'), .SPEED_ALTITUDE_KA, .SPEED_ALTITUDE_KA_P), (('K', 'M'), .SPEED_ALTITUDE_KM, .SPEED_ALTITUDE_KM_P),
   (('N', 'F'), .SPEED_ALTITUDE_NF, .SPEED_ALTITUDE_NF_P), (('N', 'S'), .SPEED_ALTITUDE_NS, .SPEED_ALTITUDE_NS_P),
   (('N', 'A'), .SPEED_ALTITUDE_NA, .SPEED_ALTITUDE_NA_P), (('N', 'M'), .SPEED_ALTITUDE_NM, .SPEED_ALTITUDE_NM_P)]

/-- The three SPEED/VFR subtypes. -/
def speedVfrSubtypes : List (Char × SubType) :=
  [('M', .SPEED_ALTITUDE_MV), ('N', .SPEED_ALTITUDE_NV), ('K', .SPEED_ALTITUDE_KV)]

/-- North Atlantic track: `NAT`, a letter and possibly a digit. -/
def NatTrack (s : Str) : Prop :=
  ∃ c, Letter c ∧ (s = py! "NAT" ++ [c] ∨ ∃ d, Digit d ∧ s = py! "NAT" ++ [c, d])

/-- Polar track: `PTS` and a letter or a digit. -/
def PolarTrack (s : Str) : Prop := ∃ c, (Letter c ∨ Digit c) ∧ s = py! "PTS" ++ [c]

/-- Letter/digit/letter counts of the usual ATS routes: one or two letters, one to three digits, possibly a letter. -/
def atsFormats : List (Nat × Nat × Nat) :=
  [(1, 1, 0), (1, 2, 0), (1, 3, 0), (2, 1, 0), (2, 2, 0), (2, 3, 0), (1, 1, 1), (1, 2, 1), (1, 3, 1), (2, 1, 1),
   (2, 2, 1), (2, 3, 1)]

/-- All subtypes the statements of C10, C11 and C49 are about. -/
def allSubtypes : List SubType :=
  speedLevelSubtypes.map (·.2.1) ++ speedLevelSubtypes.map (·.2.2) ++ speedVfrSubtypes.map (·.2) ++
    cruiseClimbSubtypes.map (·.2) ++
    [.NAT, .PTS, .ATS_TURK, .ATS_OLD, .ATS_RUS, .ATS, .PRP, .PRP_AERO, .PRP_BD, .LL_DEG, .LL_MIN, .LLBD_DEG, .LLBD_MIN,
     .VFR, .OAT, .IFPSTOP, .IFR, .GAT, .IFPSTART, .STAR, .SID_LITERAL, .STAR_LITERAL, .SLASH, .DCT, .STAY, .STAY_TIME,
     .TRUNCATE, .C]

end F15.Spec
