import Verif.Model.Types
/-!
# The documented shapes of field 15 elements

Written from the ICAO conventions quoted in the documentation of the parser, independently of the regular
expressions of the program.
-/

namespace F15.Spec

/-- Upper case Latin letter. -/
def Letter (c : Char) : Prop := 'A' ≤ c ∧ c ≤ 'Z'

/-- Decimal digit. -/
def Digit (c : Char) : Prop := '0' ≤ c ∧ c ≤ '9'

/-- A string of `n` letters. -/
def Letters (n : Nat) (s : Str) : Prop := s.length = n ∧ ∀ c ∈ s, Letter c

/-- A string of `n` digits. -/
def Digits (n : Nat) (s : Str) : Prop := s.length = n ∧ ∀ c ∈ s, Digit c

/-- A unit or hemisphere letter out of `us` followed by `n` digits. -/
def UnitDigits (us : List Char) (n : Nat) (s : Str) : Prop := ∃ u d, u ∈ us ∧ s = u :: d ∧ Digits n d

/-- A speed: Mach `M` + 3 digits, km/h `K` or knots `N` + 4 digits. -/
def Speed (s : Str) : Prop := UnitDigits ['M'] 3 s ∨ UnitDigits ['K', 'N'] 4 s

/-- A level: flight level `F` / altitude `A` + 3 digits, metric `S` / `M` + 4 digits. -/
def Level (s : Str) : Prop := UnitDigits ['F', 'A'] 3 s ∨ UnitDigits ['S', 'M'] 4 s

/-- SPEED/LEVEL -/
def SpeedLevel (s : Str) : Prop := ∃ a b, s = a ++ b ∧ Speed a ∧ Level b

/-- SPEED/VFR -/
def SpeedVfr (s : Str) : Prop := ∃ a, s = a ++ py! "VFR" ∧ Speed a

/-- SPEED/LEVEL/LEVEL (cruise climb) -/
def SpeedLevelLevel (s : Str) : Prop := ∃ a b c, s = a ++ b ++ c ∧ Speed a ∧ Level b ∧ Level c

/-- SPEED/LEVEL/PLUS (cruise climb) -/
def SpeedLevelPlus (s : Str) : Prop := ∃ a b, s = a ++ b ++ py! "PLUS" ∧ Speed a ∧ Level b

/-- Latitude/longitude with `n` latitude digits and `m` longitude digits. -/
def LatLon (n m : Nat) (s : Str) : Prop :=
  ∃ d h e k, s = d ++ h :: (e ++ [k]) ∧ Digits n d ∧ h ∈ ['N', 'S'] ∧ Digits m e ∧ k ∈ ['E', 'W']

/-- Numeric value of a digit character. -/
def dval (c : Char) : Nat := c.toNat - '0'.toNat

/-- A time of day `HHMM`, hours below 24 and minutes below 60. -/
def TimeOfDay (s : Str) : Prop :=
  ∃ a b c d, s = [a, b, c, d] ∧ Digit a ∧ Digit b ∧ Digit c ∧ Digit d ∧
    10 * dval a + dval b < 24 ∧ 10 * dval c + dval d < 60

/-- The words with a meaning of their own among the strings of 1–5 letters. -/
def reservedWords : List Str :=
  [py! "VFR", py! "IFR", py! "DCT", py! "OAT", py! "GAT", py! "T", py! "C", py! "SID", py! "STAR"]

/-- North Atlantic and Polar track designators that consist of letters only: `NAT` or `PTS` + letter. -/
def TrackLetters (s : Str) : Prop := ∃ c, Letter c ∧ (s = py! "NAT" ++ [c] ∨ s = py! "PTS" ++ [c])

/-- A named point: 1–5 letters, not a reserved word and not a track. -/
def NamedPoint (s : Str) : Prop :=
  (∃ n, 1 ≤ n ∧ n ≤ 5 ∧ Letters n s) ∧ s ∉ reservedWords ∧ ¬ TrackLetters s

/-- A named point with bearing and distance: 1–5 letters and six digits. -/
def NamedBearingDistance (s : Str) : Prop :=
  ∃ n a b, s = a ++ b ∧ 1 ≤ n ∧ n ≤ 5 ∧ Letters n a ∧ Digits 6 b

/-- A lat/long with bearing and distance. -/
def LatLonBearingDistance (n m : Nat) (s : Str) : Prop := ∃ a b, s = a ++ b ∧ LatLon n m a ∧ Digits 6 b

/-- A significant point in any of its forms. -/
def PointShape (s : Str) : Prop :=
  NamedPoint s ∨ NamedBearingDistance s ∨ LatLon 2 3 s ∨ LatLon 4 5 s ∨
    LatLonBearingDistance 2 3 s ∨ LatLonBearingDistance 4 5 s

/-- `a` letters, `d` digits, `l` letters. -/
def LDL (f : Nat × Nat × Nat) (s : Str) : Prop :=
  ∃ u v w, s = u ++ (v ++ w) ∧ Letters f.1 u ∧ Digits f.2.1 v ∧ Letters f.2.2 w

/-- Letter/digit/letter counts of ATS route designators: 1–3 letters + 1–3 digits, 4 letters + 1–2 digits,
1–2 letters + 1–3 digits + a letter. -/
def routeFormats : List (Nat × Nat × Nat) :=
  [(1, 1, 0), (1, 2, 0), (1, 3, 0), (2, 1, 0), (2, 2, 0), (2, 3, 0), (3, 1, 0), (3, 2, 0), (3, 3, 0),
   (4, 1, 0), (4, 2, 0), (1, 1, 1), (1, 2, 1), (1, 3, 1), (2, 1, 1), (2, 2, 1), (2, 3, 1)]

/-- An ATS route or track: one of the formats (but not `STAY` + digit), or a track of letters only. -/
def RouteShape (s : Str) : Prop :=
  ((∃ f ∈ routeFormats, LDL f s) ∧ ¬ ∃ c, Digit c ∧ s = py! "STAY" ++ [c]) ∨ TrackLetters s

/-- Letter/digit/letter counts of SID/STAR designators: 3 letters + 1–2 digits + letter, 5 letters + 1–2
digits, 4–6 letters + digit + letter, 5 letters + 2 digits + letter. -/
def sidStarFormats : List (Nat × Nat × Nat) :=
  [(3, 1, 1), (3, 2, 1), (5, 1, 0), (5, 2, 0), (4, 1, 1), (5, 1, 1), (6, 1, 1), (5, 2, 1)]

/-- A SID or STAR designator. -/
def SidStarShape (s : Str) : Prop := ∃ f ∈ sidStarFormats, LDL f s

/-- Number of digits behind a speed unit letter. -/
def speedDigits (u : Char) : Nat := if u = 'M' then 3 else 4

/-- Number of digits behind a level unit letter. -/
def levelDigits (u : Char) : Nat := if u = 'F' ∨ u = 'A' then 3 else 4

/-- SPEED/LEVEL/LEVEL with the given unit letters. -/
def SpeedLevelLevelOf (k : Char × Char × Char) (s : Str) : Prop :=
  ∃ a b c, s = a ++ (b ++ c) ∧ UnitDigits [k.1] (speedDigits k.1) a ∧
    UnitDigits [k.2.1] (levelDigits k.2.1) b ∧ UnitDigits [k.2.2] (levelDigits k.2.2) c

/-- The 48 combinations of unit letters and the subtype named after each. -/
def cruiseClimbSubtypes : List ((Char × Char × Char) × SubType) :=
  [(('K', 'F', 'F'), .SPEED_ALTITUDE_KFF), (('K', 'F', 'S'), .SPEED_ALTITUDE_KFS),
   (('K', 'F', 'A'), .SPEED_ALTITUDE_KFA), (('K', 'F', 'M'), .SPEED_ALTITUDE_KFM),
   (('K', 'S', 'F'), .SPEED_ALTITUDE_KSF), (('K', 'S', 'S'), .SPEED_ALTITUDE_KSS),
   (('K', 'S', 'A'), .SPEED_ALTITUDE_KSA), (('K', 'S', 'M'), .SPEED_ALTITUDE_KSM),
   (('K', 'A', 'F'), .SPEED_ALTITUDE_KAF), (('K', 'A', 'S'), .SPEED_ALTITUDE_KAS),
   (('K', 'A', 'A'), .SPEED_ALTITUDE_KAA), (('K', 'A', 'M'), .SPEED_ALTITUDE_KAM),
   (('K', 'M', 'F'), .SPEED_ALTITUDE_KMF), (('K', 'M', 'S'), .SPEED_ALTITUDE_KMS),
   (('K', 'M', 'A'), .SPEED_ALTITUDE_KMA), (('K', 'M', 'M'), .SPEED_ALTITUDE_KMM),
   (('N', 'F', 'F'), .SPEED_ALTITUDE_NFF), (('N', 'F', 'S'), .SPEED_ALTITUDE_NFS),
   (('N', 'F', 'A'), .SPEED_ALTITUDE_NFA), (('N', 'F', 'M'), .SPEED_ALTITUDE_NFM),
   (('N', 'S', 'F'), .SPEED_ALTITUDE_NSF), (('N', 'S', 'S'), .SPEED_ALTITUDE_NSS),
   (('N', 'S', 'A'), .SPEED_ALTITUDE_NSA), (('N', 'S', 'M'), .SPEED_ALTITUDE_NSM),
   (('N', 'A', 'F'), .SPEED_ALTITUDE_NAF), (('N', 'A', 'S'), .SPEED_ALTITUDE_NAS),
   (('N', 'A', 'A'), .SPEED_ALTITUDE_NAA), (('N', 'A', 'M'), .SPEED_ALTITUDE_NAM),
   (('N', 'M', 'F'), .SPEED_ALTITUDE_NMF), (('N', 'M', 'S'), .SPEED_ALTITUDE_NMS),
   (('N', 'M', 'A'), .SPEED_ALTITUDE_NMA), (('N', 'M', 'M'), .SPEED_ALTITUDE_NMM),
   (('M', 'F', 'F'), .SPEED_ALTITUDE_MFF), (('M', 'F', 'S'), .SPEED_ALTITUDE_MFS),
   (('M', 'F', 'A'), .SPEED_ALTITUDE_MFA), (('M', 'F', 'M'), .SPEED_ALTITUDE_MFM),
   (('M', 'S', 'F'), .SPEED_ALTITUDE_MSF), (('M', 'S', 'S'), .SPEED_ALTITUDE_MSS),
   (('M', 'S', 'A'), .SPEED_ALTITUDE_MSA), (('M', 'S', 'M'), .SPEED_ALTITUDE_MSM),
   (('M', 'A', 'F'), .SPEED_ALTITUDE_MAF), (('M', 'A', 'S'), .SPEED_ALTITUDE_MAS),
   (('M', 'A', 'A'), .SPEED_ALTITUDE_MAA), (('M', 'A', 'M'), .SPEED_ALTITUDE_MAM),
   (('M', 'M', 'F'), .SPEED_ALTITUDE_MMF), (('M', 'M', 'S'), .SPEED_ALTITUDE_MMS),
   (('M', 'M', 'A'), .SPEED_ALTITUDE_MMA), (('M', 'M', 'M'), .SPEED_ALTITUDE_MMM)]

end F15.Spec
