import Verif.Spec.Example
import Verif.Model.Print
/-!
# The unit tests of the repository (generated by tools/gen_replay.py)

Every expectation that is written in /repo/UnitTests/test_F15Parser.py, test_Tokenize.py, test_Tokens.py and the exact ones of test_Utils.py, checked of
the model by the kernel. These are tests of the model, not proofs of properties: they show that the model says what the authors of the program expect of
it. Not replayed: the tests of trivial setters (test_Token.py), the tests with rounded numbers of test_Utils.py, and test_XmlOutput.py, which
expects nothing.
-/

namespace F15.Replay

/-- What a test expects of a sequence. -/
inductive Expect
  /-- `get_number_of_errors()` -/
  | errors (n : Nat)
  /-- `get_number_of_elements()` -/
  | elements (n : Nat)
  /-- `get_element_at(i).unit_test_only()` -/
  | element (i : Nat) (text : Str)
  /-- `get_all_errors()[i].get_error_text()` -/
  | error (i : Nat) (text : Str)

/-- The expectation is met. -/
def Expect.met (e : Ers Rat) : Expect → Bool
  | .errors n => e.errors.length == n
  | .elements n => e.elements.length == n
  | .element i t => (e.elements[i]?.map (·.unitTestOnly)) == some t
  | .error i t => (e.errors[i]?.map (·.errorText)) == some t

/-- The field 15 is parsed and all expectations are met. -/
def passes (t : Str × List Expect) : Bool := check t.1 fun _ e => t.2.all (·.met e)

/-- The texts that a cursor gives for some calls, one after the other. -/
def texts (t : Tokens) : List (Tokens → Except PyErr (Option Token) × Tokens) → List (Option Str)
  | [] => []
  | f :: l => (match (f t).1 with | .ok (some k) => some k.text | _ => none) :: texts (f t).2 l

/-- test_F15Parser.py, `test_parse_f15` (line 19) -/
example : ([
    ((py! ""), [.element 0 (py! "ADEP"), .element 1 (py! "ADES"), .errors 1, .error 0 (py! "Field 15 is empty")]),
    ((py! "B9"), [.element 0 (py! "ADEP"), .element 1 (py! "ADES"), .errors 1, .error 0 (py! "The first Field 15 element must be a SPEED/LEVEL and not 'B9'")]),
    ((py! "N0450F350"), [.element 0 (py! "ADEP IFR N0450 F350"), .element 1 (py! "ADES IFR"), .errors 1, .error 0 (py! "Field 15 contains no route description")]),
    ((py! "N0450VFR"), [.element 0 (py! "ADEP VFR N0450 F050"), .element 1 (py! "VFR VFR N0450 F050"), .element 2 (py! "ADES VFR"), .errors 0]),
    ((py! "N0450VFR THIS IS VFR TEXT"), [.element 0 (py! "ADEP VFR N0450 F050"), .element 1 (py! "VFR VFR N0450 F050 THIS IS VFR TEXT"), .element 2 (py! "ADES VFR"), .errors 0])] : List (Str × List Expect)).all passes = true := by decide +kernel

/-- test_F15Parser.py, `test_post_adep` (line 55) -/
example : ([
    ((py! "N0450F350 6B6B"), [.element 0 (py! "ADEP IFR N0450 F350"), .element 1 (py! "ADES IFR"), .errors 1, .error 0 (py! "The element '6B6B' is an unrecognised Field 15 element")]),
    ((py! "N0450F350 /"), [.element 0 (py! "ADEP IFR N0450 F350"), .element 1 (py! "ADES IFR"), .errors 1, .error 0 (py! "The first SPEED/LEVEL cannot be followed by the element '/'")]),
    ((py! "N0450F350 VFR"), [.element 0 (py! "ADEP IFR N0450 F350"), .element 1 (py! "ADES IFR"), .errors 1, .error 0 (py! "The first SPEED/LEVEL cannot be followed by the element 'VFR'")]),
    ((py! "N0450F350 IFPSTOP"), [.element 0 (py! "ADEP IFR N0450 F350"), .element 1 (py! "ADES IFR"), .errors 1, .error 0 (py! "The first SPEED/LEVEL cannot be followed by the element 'IFPSTOP'")]),
    ((py! "N0450F350 N0100VFR"), [.element 0 (py! "ADEP IFR N0450 F350"), .element 1 (py! "ADES IFR"), .errors 1, .error 0 (py! "The first SPEED/LEVEL cannot be followed by the element 'N0100VFR'")]),
    ((py! "N0450F350 N0100F100"), [.element 0 (py! "ADEP IFR N0450 F350"), .element 1 (py! "ADES IFR"), .errors 1, .error 0 (py! "The first SPEED/LEVEL cannot be followed by the element 'N0100F100'")]),
    ((py! "N0450F350 STAY1"), [.element 0 (py! "ADEP IFR N0450 F350"), .element 1 (py! "ADES IFR"), .errors 1, .error 0 (py! "The first SPEED/LEVEL cannot be followed by the element 'STAY1'")]),
    ((py! "N0450F350 C"), [.element 0 (py! "ADEP IFR N0450 F350"), .element 1 (py! "ADES IFR"), .errors 1, .error 0 (py! "The first SPEED/LEVEL cannot be followed by the element 'C'")]),
    ((py! "N0450F350 DCT"), [.element 0 (py! "ADEP IFR N0450 F350"), .element 1 (py! "DCT IFR N0450 F350"), .element 2 (py! "ADES IFR"), .errors 0]),
    ((py! "N0450F350 T"), [.element 0 (py! "ADEP IFR N0450 F350"), .element 1 (py! "ADES IFR"), .errors 0]),
    ((py! "N0450F350 PNT"), [.element 0 (py! "ADEP IFR N0450 F350"), .element 1 (py! "PNT IFR N0450 F350"), .element 2 (py! "ADES IFR"), .errors 0]),
    ((py! "N0450F350 B9"), [.element 0 (py! "ADEP IFR N0450 F350"), .element 1 (py! "ADES IFR"), .errors 1, .error 0 (py! "Expecting SID or DPF after first SPEED/LEVEL element instead of 'B9'")]),
    ((py! "N0450F350 LNZ1A"), [.element 0 (py! "ADEP IFR N0450 F350"), .element 1 (py! "LNZ1A IFR N0450 F350"), .element 2 (py! "ADES IFR"), .errors 0]),
    ((py! "N0450F350 N0100F100F200"), [.element 0 (py! "ADEP IFR N0450 F350"), .element 1 (py! "ADES IFR"), .errors 1, .error 0 (py! "Expecting 'C/POINT/' before 'N0100F100F200'")]),
    ((py! "N0450F350 N0100F100PLUS"), [.element 0 (py! "ADEP IFR N0450 F350"), .element 1 (py! "ADES IFR"), .errors 1, .error 0 (py! "Expecting 'C/POINT/' before 'N0100F100PLUS'")]),
    ((py! "N0450F350 ABCDEFGHIJKLMNOPQRSTUVWXYZ"), [.element 0 (py! "ADEP IFR N0450 F350"), .element 1 (py! "ADES IFR"), .errors 1, .error 0 (py! "Element 'ABCDEFGHIJKLMNOPQRSTUVWXYZ' is too long for a Field 15 Element")]),
    ((py! "N0450F350 1234"), [.element 0 (py! "ADEP IFR N0450 F350"), .element 1 (py! "ADES IFR"), .errors 1, .error 0 (py! "Expecting the keyword 'STAY' before '1234'")]),
    ((py! "N0450F350 SID"), [.element 0 (py! "ADEP IFR N0450 F350"), .element 1 (py! "SID IFR N0450 F350"), .element 2 (py! "ADES IFR"), .errors 0]),
    ((py! "N0450F350 STAR"), [.element 0 (py! "ADEP IFR N0450 F350"), .element 1 (py! "STAR IFR N0450 F350"), .element 2 (py! "ADES IFR"), .errors 0])] : List (Str × List Expect)).all passes = true := by decide +kernel

/-- test_F15Parser.py, `test_post_point` (line 196) -/
example : ([
    ((py! "N0450F250 PNT 6B6B"), [.element 0 (py! "ADEP IFR N0450 F250"), .element 1 (py! "PNT IFR N0450 F250"), .element 2 (py! "ADES IFR"), .errors 1, .error 0 (py! "The element '6B6B' is an unrecognised Field 15 element")]),
    ((py! "M082F350 PNT /"), [.element 0 (py! "ADEP IFR M082 F350"), .element 1 (py! "PNT IFR M082 F350"), .element 2 (py! "ADES IFR"), .errors 1, .error 0 (py! "Field 15 is incomplete, expecting additional data after the final '/'")]),
    ((py! "N0450F350 PNT OAT OAT/G A T BREAK TEXT"), [.element 0 (py! "ADEP IFR N0450 F350"), .element 1 (py! "PNT IFR N0450 F350"), .element 2 (py! "OAT OAT N0450 F350 OAT / G A T BREAK TEXT"), .element 3 (py! "ADES OAT"), .errors 0]),
    ((py! "N0150F350 PNT N0100VFR"), [.element 0 (py! "ADEP IFR N0150 F350"), .element 1 (py! "PNT IFR N0150 F350"), .element 2 (py! "ADES IFR"), .errors 1, .error 0 (py! "Expecting '/' before 'N0100VFR'")]),
    ((py! "N0440F350 PNT GAT"), [.element 0 (py! "ADEP IFR N0440 F350"), .element 1 (py! "PNT IFR N0440 F350"), .element 2 (py! "ADES IFR"), .errors 1, .error 0 (py! "No OAT section preceding this 'GAT' rule change indicator")]),
    ((py! "N0450F350 PNT DCT"), [.element 0 (py! "ADEP IFR N0450 F350"), .element 1 (py! "PNT IFR N0450 F350"), .element 2 (py! "DCT IFR N0450 F350"), .element 3 (py! "ADES IFR"), .errors 0]),
    ((py! "N0410F350 PNT STAY1"), [.element 0 (py! "ADEP IFR N0410 F350"), .element 1 (py! "PNT IFR N0410 F350"), .element 2 (py! "ADES IFR"), .errors 1, .error 0 (py! "Expecting STAY time as '/HHMM' after 'STAY1'")]),
    ((py! "N0390F350 PNT T"), [.element 0 (py! "ADEP IFR N0390 F350"), .element 1 (py! "PNT IFR N0390 F350"), .element 2 (py! "ADES IFR"), .errors 0]),
    ((py! "K0450F350 PNT C"), [.element 0 (py! "ADEP IFR K0450 F350"), .element 1 (py! "PNT IFR K0450 F350"), .element 2 (py! "C IFR K0450 F350"), .element 3 (py! "ADES IFR"), .errors 0]),
    ((py! "N0450F350 PNT SBG"), [.element 0 (py! "ADEP IFR N0450 F350"), .element 1 (py! "PNT IFR N0450 F350"), .element 2 (py! "SBG IFR N0450 F350"), .element 3 (py! "ADES IFR"), .errors 0]),
    ((py! "N0450F350 PNT A8"), [.element 0 (py! "ADEP IFR N0450 F350"), .element 1 (py! "PNT IFR N0450 F350"), .element 2 (py! "A8 IFR N0450 F350"), .element 3 (py! "ADES IFR"), .errors 0]),
    ((py! "N0450F350 PNT LNZ1A"), [.element 0 (py! "ADEP IFR N0450 F350"), .element 1 (py! "PNT IFR N0450 F350"), .element 2 (py! "LNZ1A IFR N0450 F350"), .element 3 (py! "ADES IFR"), .errors 0]),
    ((py! "N0450A350 PNT N0300F100"), [.element 0 (py! "ADEP IFR N0450 A350"), .element 1 (py! "PNT IFR N0450 A350"), .element 2 (py! "ADES IFR"), .errors 1, .error 0 (py! "Expecting '/' before 'N0300F100'")]),
    ((py! "N0450S0350 PNT N0200F100F200"), [.element 0 (py! "ADEP IFR N0450 S0350"), .element 1 (py! "PNT IFR N0450 S0350"), .element 2 (py! "ADES IFR"), .errors 1, .error 0 (py! "Expecting 'C/POINT/' before 'N0200F100F200'")]),
    ((py! "N0450S0150 PNT N0150F150PLUS"), [.element 0 (py! "ADEP IFR N0450 S0150"), .element 1 (py! "PNT IFR N0450 S0150"), .element 2 (py! "ADES IFR"), .errors 1, .error 0 (py! "Expecting 'C/POINT/' before 'N0150F150PLUS'")]),
    ((py! "K0990A300 PNT ABCDEFGHIJKLMNOPQRSTUVWXYZ"), [.element 0 (py! "ADEP IFR K0990 A300"), .element 1 (py! "PNT IFR K0990 A300"), .element 2 (py! "ADES IFR"), .errors 1, .error 0 (py! "Element 'ABCDEFGHIJKLMNOPQRSTUVWXYZ' is too long for a Field 15 Element")]),
    ((py! "N0450M0800 PNT 2256"), [.element 0 (py! "ADEP IFR N0450 M0800"), .element 1 (py! "PNT IFR N0450 M0800"), .element 2 (py! "ADES IFR"), .errors 1, .error 0 (py! "Expecting the keyword 'STAY' before '2256'")]),
    ((py! "N0450A700 PNT LNZ1A"), [.element 0 (py! "ADEP IFR N0450 A700"), .element 1 (py! "PNT IFR N0450 A700"), .element 2 (py! "LNZ1A IFR N0450 A700"), .element 3 (py! "ADES IFR"), .errors 0]),
    ((py! "N0450F350 PNT NOLAN2C"), [.element 0 (py! "ADEP IFR N0450 F350"), .element 1 (py! "PNT IFR N0450 F350"), .element 2 (py! "NOLAN2C IFR N0450 F350"), .element 3 (py! "ADES IFR"), .errors 0])] : List (Str × List Expect)).all passes = true := by decide +kernel

/-- test_F15Parser.py, `test_re_sync_parser_after_error` (line 350) -/
example : ([
    ((py! "N0450M0825 N0100VFR B8B8"), [.element 0 (py! "ADEP IFR N0450 M0825"), .element 1 (py! "ADES IFR"), .errors 2, .error 0 (py! "The first SPEED/LEVEL cannot be followed by the element 'N0100VFR'"), .error 1 (py! "The element 'B8B8' is an unrecognised Field 15 element")]),
    ((py! "N0450M0700 B9 /"), [.element 0 (py! "ADEP IFR N0450 M0700"), .element 1 (py! "ADES IFR"), .errors 2, .error 0 (py! "Expecting SID or DPF after first SPEED/LEVEL element instead of 'B9'"), .error 1 (py! "Field 15 cannot end with the '/' element")]),
    ((py! "N0450M0800 B9 /N0100VFR"), [.element 0 (py! "ADEP IFR N0100 F050"), .element 1 (py! "VFR VFR N0100 F050"), .element 2 (py! "ADES VFR"), .errors 1, .error 0 (py! "Expecting SID or DPF after first SPEED/LEVEL element instead of 'B9'")]),
    ((py! "N0450M0800 B9 / ABCDE"), [.element 0 (py! "ADEP IFR N0450 M0800"), .element 1 (py! "ABCDE IFR N0450 M0800"), .element 2 (py! "ADES IFR"), .errors 1, .error 0 (py! "Expecting SID or DPF after first SPEED/LEVEL element instead of 'B9'")]),
    ((py! "N0450M0800 B9 /N0100F200"), [.element 0 (py! "ADEP IFR N0100 F200"), .element 1 (py! "ADES IFR"), .errors 1, .error 0 (py! "Expecting SID or DPF after first SPEED/LEVEL element instead of 'B9'")]),
    ((py! "N0450M0800 B9 /N0100F210F300"), [.element 0 (py! "ADEP IFR N0100 F210"), .element 1 (py! "ADES IFR"), .errors 1, .error 0 (py! "Expecting SID or DPF after first SPEED/LEVEL element instead of 'B9'")]),
    ((py! "N0450M0800 B9 /N0230F130PLUS"), [.element 0 (py! "ADEP IFR N0230 F130"), .element 1 (py! "ADES IFR"), .errors 1, .error 0 (py! "Expecting SID or DPF after first SPEED/LEVEL element instead of 'B9'")]),
    ((py! "N0450M0800 B9 / B9"), [.element 0 (py! "ADEP IFR N0450 M0800"), .element 1 (py! "ADES IFR"), .errors 2, .error 0 (py! "Expecting SID or DPF after first SPEED/LEVEL element instead of 'B9'"), .error 1 (py! "'/' not expected preceding 'B9'")]),
    ((py! "N0450M0800 N0100VFR IFPSTOP"), [.element 0 (py! "ADEP IFR N0450 M0800"), .element 1 (py! "IFPSTOP IFPS N0450 M0800"), .element 2 (py! "ADES IFPS"), .errors 1, .error 0 (py! "The first SPEED/LEVEL cannot be followed by the element 'N0100VFR'")]),
    ((py! "N0450M0800 STAY6 N0110VFR"), [.element 0 (py! "ADEP IFR N0110 F050"), .element 1 (py! "VFR VFR N0110 F050"), .element 2 (py! "ADES VFR"), .errors 1, .error 0 (py! "The first SPEED/LEVEL cannot be followed by the element 'STAY6'")]),
    ((py! "N0450M0800 N0100VFR IFR"), [.element 0 (py! "ADEP IFR N0450 M0800"), .element 1 (py! "ADES IFR"), .errors 1, .error 0 (py! "The first SPEED/LEVEL cannot be followed by the element 'N0100VFR'")]),
    ((py! "N0450M0800 N0100VFR DCT"), [.element 0 (py! "ADEP IFR N0450 M0800"), .element 1 (py! "DCT IFR N0450 M0800"), .element 2 (py! "ADES IFR"), .errors 1, .error 0 (py! "The first SPEED/LEVEL cannot be followed by the element 'N0100VFR'")]),
    ((py! "N0450M0650 N0100VFR STAY2"), [.element 0 (py! "ADEP IFR N0450 M0650"), .element 1 (py! "ADES IFR"), .errors 2, .error 0 (py! "The first SPEED/LEVEL cannot be followed by the element 'N0100VFR'"), .error 1 (py! "Expecting STAY time as '/HHMM' after 'STAY2'")]),
    ((py! "N0450M0500 N0100VFR T"), [.element 0 (py! "ADEP IFR N0450 M0500"), .element 1 (py! "ADES IFR"), .errors 1, .error 0 (py! "The first SPEED/LEVEL cannot be followed by the element 'N0100VFR'")]),
    ((py! "N0450M0800 N0100VFR C"), [.element 0 (py! "ADEP IFR N0450 M0800"), .element 1 (py! "C IFR N0450 M0800"), .element 2 (py! "ADES IFR"), .errors 1, .error 0 (py! "The first SPEED/LEVEL cannot be followed by the element 'N0100VFR'")]),
    ((py! "N0450M0800 N0100VFR GHGIK"), [.element 0 (py! "ADEP IFR N0450 M0800"), .element 1 (py! "GHGIK IFR N0450 M0800"), .element 2 (py! "ADES IFR"), .errors 1, .error 0 (py! "The first SPEED/LEVEL cannot be followed by the element 'N0100VFR'")]),
    ((py! "N0450M0800 N0100VFR B8"), [.element 0 (py! "ADEP IFR N0450 M0800"), .element 1 (py! "B8 IFR N0450 M0800"), .element 2 (py! "ADES IFR"), .errors 1, .error 0 (py! "The first SPEED/LEVEL cannot be followed by the element 'N0100VFR'")]),
    ((py! "N0450M0800 N0100VFR SBG5R"), [.element 0 (py! "ADEP IFR N0450 M0800"), .element 1 (py! "SBG5R IFR N0450 M0800"), .element 2 (py! "ADES IFR"), .errors 1, .error 0 (py! "The first SPEED/LEVEL cannot be followed by the element 'N0100VFR'")]),
    ((py! "N0450M0800 N0100VFR N0200F120"), [.element 0 (py! "ADEP IFR N0200 F120"), .element 1 (py! "ADES IFR"), .errors 1, .error 0 (py! "The first SPEED/LEVEL cannot be followed by the element 'N0100VFR'")]),
    ((py! "N0450M0800 N0100VFR K0234S3423A123"), [.element 0 (py! "ADEP IFR K0234 S3423"), .element 1 (py! "ADES IFR"), .errors 1, .error 0 (py! "The first SPEED/LEVEL cannot be followed by the element 'N0100VFR'")]),
    ((py! "N0450M0800 N0100VFR M070F100M1000"), [.element 0 (py! "ADEP IFR M070 F100"), .element 1 (py! "ADES IFR"), .errors 1, .error 0 (py! "The first SPEED/LEVEL cannot be followed by the element 'N0100VFR'")]),
    ((py! "N0450M0800 N0100VFR ABCDEFGHIJKLMNOPQRSTUVWXYZ"), [.element 0 (py! "ADEP IFR N0450 M0800"), .element 1 (py! "ADES IFR"), .errors 2, .error 0 (py! "The first SPEED/LEVEL cannot be followed by the element 'N0100VFR'"), .error 1 (py! "Element 'ABCDEFGHIJKLMNOPQRSTUVWXYZ' is too long for a Field 15 Element")]),
    ((py! "N0450M0400 N0100VFR 2359"), [.element 0 (py! "ADEP IFR N0450 M0400"), .element 1 (py! "ADES IFR"), .errors 2, .error 0 (py! "The first SPEED/LEVEL cannot be followed by the element 'N0100VFR'"), .error 1 (py! "Expecting the keyword 'STAY' before '2359'")]),
    ((py! "N0450M0800 N0100VFR JKL0R"), [.element 0 (py! "ADEP IFR N0450 M0800"), .element 1 (py! "JKL0R IFR N0450 M0800"), .element 2 (py! "ADES IFR"), .errors 1, .error 0 (py! "The first SPEED/LEVEL cannot be followed by the element 'N0100VFR'")]),
    ((py! "N0450M0800 N0100VFR NOLAN8Y"), [.element 0 (py! "ADEP IFR N0450 M0800"), .element 1 (py! "NOLAN8Y IFR N0450 M0800"), .element 2 (py! "ADES IFR"), .errors 1, .error 0 (py! "The first SPEED/LEVEL cannot be followed by the element 'N0100VFR'")])] : List (Str × List Expect)).all passes = true := by decide +kernel

/-- test_F15Parser.py, `test_break_end` (line 574) -/
example : ([
    ((py! "N0450M0825 BGH VFR THIS IS VFR TEXT IFR"), [.element 0 (py! "ADEP IFR N0450 M0825"), .element 1 (py! "BGH IFR N0450 M0825"), .element 2 (py! "VFR VFR N0450 M0825 THIS IS VFR TEXT IFR"), .element 3 (py! "ADES VFR"), .errors 0]),
    ((py! "N0450M0825 BGH OAT THIS IS OAT TEXT GAT"), [.element 0 (py! "ADEP IFR N0450 M0825"), .element 1 (py! "BGH IFR N0450 M0825"), .element 2 (py! "OAT OAT N0450 M0825 THIS IS OAT TEXT GAT"), .element 3 (py! "ADES OAT"), .errors 0]),
    ((py! "N0450M0825 BGH IFPSTOP THIS IS OAT TEXT IFPSTART"), [.element 0 (py! "ADEP IFR N0450 M0825"), .element 1 (py! "BGH IFR N0450 M0825"), .element 2 (py! "IFPSTOP IFPS N0450 M0825 THIS IS OAT TEXT IFPSTART"), .element 3 (py! "ADES IFPS"), .errors 0]),
    ((py! "N0450M0825 BGH VFR THIS IS VFR TEXT IFR B8B8"), [.element 0 (py! "ADEP IFR N0450 M0825"), .element 1 (py! "BGH IFR N0450 M0825"), .element 2 (py! "VFR VFR N0450 M0825 THIS IS VFR TEXT IFR B8B8"), .element 3 (py! "ADES VFR"), .errors 0]),
    ((py! "N0450M0825 BGH OAT THIS IS OAT TEXT GAT B8B8"), [.element 0 (py! "ADEP IFR N0450 M0825"), .element 1 (py! "BGH IFR N0450 M0825"), .element 2 (py! "OAT OAT N0450 M0825 THIS IS OAT TEXT GAT B8B8"), .element 3 (py! "ADES OAT"), .errors 0]),
    ((py! "N0450M0825 BGH IFPSTOP THIS IS OAT TEXT IFPSTART B8B8"), [.element 0 (py! "ADEP IFR N0450 M0825"), .element 1 (py! "BGH IFR N0450 M0825"), .element 2 (py! "IFPSTOP IFPS N0450 M0825 THIS IS OAT TEXT IFPSTART B8B8"), .element 3 (py! "ADES IFPS"), .errors 0]),
    ((py! "N0450M0825 BGH VFR THIS IS VFR TEXT IFR / "), [.element 0 (py! "ADEP IFR N0450 M0825"), .element 1 (py! "BGH IFR N0450 M0825"), .element 2 (py! "VFR VFR N0450 M0825 THIS IS VFR TEXT IFR /"), .element 3 (py! "ADES VFR"), .errors 0]),
    ((py! "N0450M0825 BGH OAT THIS IS OAT TEXT GAT /"), [.element 0 (py! "ADEP IFR N0450 M0825"), .element 1 (py! "BGH IFR N0450 M0825"), .element 2 (py! "OAT OAT N0450 M0825 THIS IS OAT TEXT GAT /"), .element 3 (py! "ADES OAT"), .errors 0]),
    ((py! "N0450M0825 BGH IFPSTOP THIS IS OAT TEXT IFPSTART /"), [.element 0 (py! "ADEP IFR N0450 M0825"), .element 1 (py! "BGH IFR N0450 M0825"), .element 2 (py! "IFPSTOP IFPS N0450 M0825 THIS IS OAT TEXT IFPSTART /"), .element 3 (py! "ADES IFPS"), .errors 0]),
    ((py! "N0450M0825 BGH VFR THIS IS VFR TEXT IFR VFR"), [.element 0 (py! "ADEP IFR N0450 M0825"), .element 1 (py! "BGH IFR N0450 M0825"), .element 2 (py! "VFR VFR N0450 M0825 THIS IS VFR TEXT IFR VFR"), .element 3 (py! "ADES VFR"), .errors 0]),
    ((py! "N0450M0825 BGH OAT THIS IS OAT TEXT GAT OAT"), [.element 0 (py! "ADEP IFR N0450 M0825"), .element 1 (py! "BGH IFR N0450 M0825"), .element 2 (py! "OAT OAT N0450 M0825 THIS IS OAT TEXT GAT OAT"), .element 3 (py! "ADES OAT"), .errors 0]),
    ((py! "N0450M0825 BGH IFPSTOP THIS IS OAT TEXT IFPSTART IFPSTOP"), [.element 0 (py! "ADEP IFR N0450 M0825"), .element 1 (py! "BGH IFR N0450 M0825"), .element 2 (py! "IFPSTOP IFPS N0450 M0825 THIS IS OAT TEXT IFPSTART IFPSTOP"), .element 3 (py! "ADES IFPS"), .errors 0]),
    ((py! "N0450M0825 BGH VFR THIS IS VFR TEXT IFR N0450VFR"), [.element 0 (py! "ADEP IFR N0450 M0825"), .element 1 (py! "BGH IFR N0450 M0825"), .element 2 (py! "VFR VFR N0450 M0825 THIS IS VFR TEXT IFR N0450VFR"), .element 3 (py! "ADES VFR"), .errors 0]),
    ((py! "N0450M0825 BGH OAT THIS IS OAT TEXT GAT N0450VFR"), [.element 0 (py! "ADEP IFR N0450 M0825"), .element 1 (py! "BGH IFR N0450 M0825"), .element 2 (py! "OAT OAT N0450 M0825 THIS IS OAT TEXT GAT N0450VFR"), .element 3 (py! "ADES OAT"), .errors 0]),
    ((py! "N0450M0825 BGH IFPSTOP THIS IS OAT TEXT IFPSTART N0450VFR"), [.element 0 (py! "ADEP IFR N0450 M0825"), .element 1 (py! "BGH IFR N0450 M0825"), .element 2 (py! "IFPSTOP IFPS N0450 M0825 THIS IS OAT TEXT IFPSTART N0450VFR"), .element 3 (py! "ADES IFPS"), .errors 0]),
    ((py! "N0450M0825 BGH VFR THIS IS VFR TEXT IFR IFR"), [.element 0 (py! "ADEP IFR N0450 M0825"), .element 1 (py! "BGH IFR N0450 M0825"), .element 2 (py! "VFR VFR N0450 M0825 THIS IS VFR TEXT IFR IFR"), .element 3 (py! "ADES VFR"), .errors 0]),
    ((py! "N0450M0825 BGH OAT THIS IS OAT TEXT GAT GAT"), [.element 0 (py! "ADEP IFR N0450 M0825"), .element 1 (py! "BGH IFR N0450 M0825"), .element 2 (py! "OAT OAT N0450 M0825 THIS IS OAT TEXT GAT GAT"), .element 3 (py! "ADES OAT")]),
    ((py! "N0450M0825 BGH IFPSTOP THIS IS OAT TEXT IFPSTART IFPSTART"), [.element 0 (py! "ADEP IFR N0450 M0825"), .element 1 (py! "BGH IFR N0450 M0825"), .element 2 (py! "IFPSTOP IFPS N0450 M0825 THIS IS OAT TEXT IFPSTART IFPSTART"), .element 3 (py! "ADES IFPS"), .errors 0]),
    ((py! "N0450M0825 BGH VFR THIS IS VFR TEXT IFR DCT"), [.element 0 (py! "ADEP IFR N0450 M0825"), .element 1 (py! "BGH IFR N0450 M0825"), .element 2 (py! "VFR VFR N0450 M0825 THIS IS VFR TEXT IFR DCT"), .element 3 (py! "ADES VFR"), .errors 0]),
    ((py! "N0450M0825 BGH OAT THIS IS OAT TEXT GAT DCT"), [.element 0 (py! "ADEP IFR N0450 M0825"), .element 1 (py! "BGH IFR N0450 M0825"), .element 2 (py! "OAT OAT N0450 M0825 THIS IS OAT TEXT GAT DCT"), .element 3 (py! "ADES OAT"), .errors 0]),
    ((py! "N0450M0825 BGH IFPSTOP THIS IS OAT TEXT IFPSTART DCT"), [.element 0 (py! "ADEP IFR N0450 M0825"), .element 1 (py! "BGH IFR N0450 M0825"), .element 2 (py! "IFPSTOP IFPS N0450 M0825 THIS IS OAT TEXT IFPSTART DCT"), .element 3 (py! "ADES IFPS"), .errors 0]),
    ((py! "N0450M0825 BGH VFR THIS IS VFR TEXT IFR STAY3"), [.element 0 (py! "ADEP IFR N0450 M0825"), .element 1 (py! "BGH IFR N0450 M0825"), .element 2 (py! "VFR VFR N0450 M0825 THIS IS VFR TEXT IFR STAY3"), .element 3 (py! "ADES VFR"), .errors 0]),
    ((py! "N0450M0825 BGH OAT THIS IS OAT TEXT GAT STAY3"), [.element 0 (py! "ADEP IFR N0450 M0825"), .element 1 (py! "BGH IFR N0450 M0825"), .element 2 (py! "OAT OAT N0450 M0825 THIS IS OAT TEXT GAT STAY3"), .element 3 (py! "ADES OAT"), .errors 0]),
    ((py! "N0450M0825 BGH IFPSTOP THIS IS OAT TEXT IFPSTART STAY3"), [.element 0 (py! "ADEP IFR N0450 M0825"), .element 1 (py! "BGH IFR N0450 M0825"), .element 2 (py! "IFPSTOP IFPS N0450 M0825 THIS IS OAT TEXT IFPSTART STAY3"), .element 3 (py! "ADES IFPS"), .errors 0]),
    ((py! "N0450M0825 BGH VFR THIS IS VFR TEXT IFR T"), [.element 0 (py! "ADEP IFR N0450 M0825"), .element 1 (py! "BGH IFR N0450 M0825"), .element 2 (py! "VFR VFR N0450 M0825 THIS IS VFR TEXT IFR T"), .element 3 (py! "ADES VFR"), .errors 0]),
    ((py! "N0450M0825 BGH OAT THIS IS OAT TEXT GAT T"), [.element 0 (py! "ADEP IFR N0450 M0825"), .element 1 (py! "BGH IFR N0450 M0825"), .element 2 (py! "OAT OAT N0450 M0825 THIS IS OAT TEXT GAT T"), .element 3 (py! "ADES OAT"), .errors 0]),
    ((py! "N0450M0825 BGH IFPSTOP THIS IS OAT TEXT IFPSTART T"), [.element 0 (py! "ADEP IFR N0450 M0825"), .element 1 (py! "BGH IFR N0450 M0825"), .element 2 (py! "IFPSTOP IFPS N0450 M0825 THIS IS OAT TEXT IFPSTART T"), .element 3 (py! "ADES IFPS"), .errors 0]),
    ((py! "N0450M0825 BGH VFR THIS IS VFR TEXT IFR C"), [.element 0 (py! "ADEP IFR N0450 M0825"), .element 1 (py! "BGH IFR N0450 M0825"), .element 2 (py! "VFR VFR N0450 M0825 THIS IS VFR TEXT IFR C"), .element 3 (py! "ADES VFR"), .errors 0]),
    ((py! "N0450M0825 BGH OAT THIS IS OAT TEXT GAT C"), [.element 0 (py! "ADEP IFR N0450 M0825"), .element 1 (py! "BGH IFR N0450 M0825"), .element 2 (py! "OAT OAT N0450 M0825 THIS IS OAT TEXT GAT C"), .element 3 (py! "ADES OAT"), .errors 0]),
    ((py! "N0450M0825 BGH IFPSTOP THIS IS OAT TEXT IFPSTART C"), [.element 0 (py! "ADEP IFR N0450 M0825"), .element 1 (py! "BGH IFR N0450 M0825"), .element 2 (py! "IFPSTOP IFPS N0450 M0825 THIS IS OAT TEXT IFPSTART C"), .element 3 (py! "ADES IFPS"), .errors 0]),
    ((py! "N0450M0825 BGH VFR THIS IS VFR TEXT IFR ABC"), [.element 0 (py! "ADEP IFR N0450 M0825"), .element 1 (py! "BGH IFR N0450 M0825"), .element 2 (py! "VFR VFR N0450 M0825 THIS IS VFR TEXT IFR"), .element 3 (py! "ABC IFR N0450 M0825"), .element 4 (py! "ADES IFR"), .errors 1, .error 0 (py! "Expecting '/SPEED/LEVEL' following 'ABC' to complete rule change to IFR")]),
    ((py! "N0450M0825 BGH OAT THIS IS OAT TEXT GAT ABC"), [.element 0 (py! "ADEP IFR N0450 M0825"), .element 1 (py! "BGH IFR N0450 M0825"), .element 2 (py! "OAT OAT N0450 M0825 THIS IS OAT TEXT GAT"), .element 3 (py! "ABC IFR N0450 M0825"), .element 4 (py! "ADES IFR"), .errors 0]),
    ((py! "N0450M0825 BGH IFPSTOP THIS IS OAT TEXT IFPSTART ABC"), [.element 0 (py! "ADEP IFR N0450 M0825"), .element 1 (py! "BGH IFR N0450 M0825"), .element 2 (py! "IFPSTOP IFPS N0450 M0825 THIS IS OAT TEXT IFPSTART"), .element 3 (py! "ABC IFR N0450 M0825"), .element 4 (py! "ADES IFR"), .errors 0]),
    ((py! "N0450M0825 BGH VFR THIS IS VFR TEXT IFR A3"), [.element 0 (py! "ADEP IFR N0450 M0825"), .element 1 (py! "BGH IFR N0450 M0825"), .element 2 (py! "VFR VFR N0450 M0825 THIS IS VFR TEXT IFR A3"), .element 3 (py! "ADES VFR"), .errors 0]),
    ((py! "N0450M0825 BGH OAT THIS IS OAT TEXT GAT A3"), [.element 0 (py! "ADEP IFR N0450 M0825"), .element 1 (py! "BGH IFR N0450 M0825"), .element 2 (py! "OAT OAT N0450 M0825 THIS IS OAT TEXT GAT A3"), .element 3 (py! "ADES OAT"), .errors 0]),
    ((py! "N0450M0825 BGH IFPSTOP THIS IS OAT TEXT IFPSTART A3"), [.element 0 (py! "ADEP IFR N0450 M0825"), .element 1 (py! "BGH IFR N0450 M0825"), .element 2 (py! "IFPSTOP IFPS N0450 M0825 THIS IS OAT TEXT IFPSTART A3"), .element 3 (py! "ADES IFPS"), .errors 0]),
    ((py! "N0450M0825 BGH VFR THIS IS VFR TEXT IFR LNZ1G"), [.element 0 (py! "ADEP IFR N0450 M0825"), .element 1 (py! "BGH IFR N0450 M0825"), .element 2 (py! "VFR VFR N0450 M0825 THIS IS VFR TEXT IFR LNZ1G"), .element 3 (py! "ADES VFR"), .errors 0]),
    ((py! "N0450M0825 BGH OAT THIS IS OAT TEXT GAT LNZ1G"), [.element 0 (py! "ADEP IFR N0450 M0825"), .element 1 (py! "BGH IFR N0450 M0825"), .element 2 (py! "OAT OAT N0450 M0825 THIS IS OAT TEXT GAT LNZ1G"), .element 3 (py! "ADES OAT"), .errors 0]),
    ((py! "N0450M0825 BGH IFPSTOP THIS IS OAT TEXT IFPSTART LNZ1G"), [.element 0 (py! "ADEP IFR N0450 M0825"), .element 1 (py! "BGH IFR N0450 M0825"), .element 2 (py! "IFPSTOP IFPS N0450 M0825 THIS IS OAT TEXT IFPSTART LNZ1G"), .element 3 (py! "ADES IFPS"), .errors 0]),
    ((py! "N0450M0825 BGH VFR THIS IS VFR TEXT IFR N0100F200"), [.element 0 (py! "ADEP IFR N0450 M0825"), .element 1 (py! "BGH IFR N0450 M0825"), .element 2 (py! "VFR VFR N0450 M0825 THIS IS VFR TEXT IFR N0100F200"), .element 3 (py! "ADES VFR"), .errors 0]),
    ((py! "N0450M0825 BGH OAT THIS IS OAT TEXT GAT N0100F200"), [.element 0 (py! "ADEP IFR N0450 M0825"), .element 1 (py! "BGH IFR N0450 M0825"), .element 2 (py! "OAT OAT N0450 M0825 THIS IS OAT TEXT GAT N0100F200"), .element 3 (py! "ADES OAT"), .errors 0]),
    ((py! "N0450M0825 BGH IFPSTOP THIS IS OAT TEXT IFPSTART N0100F200"), [.element 0 (py! "ADEP IFR N0450 M0825"), .element 1 (py! "BGH IFR N0450 M0825"), .element 2 (py! "IFPSTOP IFPS N0450 M0825 THIS IS OAT TEXT IFPSTART N0100F200"), .element 3 (py! "ADES IFPS"), .errors 0]),
    ((py! "N0450M0825 BGH VFR THIS IS VFR TEXT IFR N0100F200F320"), [.element 0 (py! "ADEP IFR N0450 M0825"), .element 1 (py! "BGH IFR N0450 M0825"), .element 2 (py! "VFR VFR N0450 M0825 THIS IS VFR TEXT IFR N0100F200F320"), .element 3 (py! "ADES VFR"), .errors 0]),
    ((py! "N0450M0825 BGH OAT THIS IS OAT TEXT GAT N0100F200F320"), [.element 0 (py! "ADEP IFR N0450 M0825"), .element 1 (py! "BGH IFR N0450 M0825"), .element 2 (py! "OAT OAT N0450 M0825 THIS IS OAT TEXT GAT N0100F200F320"), .element 3 (py! "ADES OAT"), .errors 0]),
    ((py! "N0450M0825 BGH IFPSTOP THIS IS OAT TEXT IFPSTART N0100F200F320"), [.element 0 (py! "ADEP IFR N0450 M0825"), .element 1 (py! "BGH IFR N0450 M0825"), .element 2 (py! "IFPSTOP IFPS N0450 M0825 THIS IS OAT TEXT IFPSTART N0100F200F320"), .element 3 (py! "ADES IFPS"), .errors 0]),
    ((py! "N0450M0825 BGH VFR THIS IS VFR TEXT IFR N0100F200PLUS"), [.element 0 (py! "ADEP IFR N0450 M0825"), .element 1 (py! "BGH IFR N0450 M0825"), .element 2 (py! "VFR VFR N0450 M0825 THIS IS VFR TEXT IFR N0100F200PLUS"), .element 3 (py! "ADES VFR"), .errors 0]),
    ((py! "N0450M0825 BGH OAT THIS IS OAT TEXT GAT N0100F200PLUS"), [.element 0 (py! "ADEP IFR N0450 M0825"), .element 1 (py! "BGH IFR N0450 M0825"), .element 2 (py! "OAT OAT N0450 M0825 THIS IS OAT TEXT GAT N0100F200PLUS"), .element 3 (py! "ADES OAT"), .errors 0]),
    ((py! "N0450M0825 BGH IFPSTOP THIS IS OAT TEXT IFPSTART N0100F200PLUS"), [.element 0 (py! "ADEP IFR N0450 M0825"), .element 1 (py! "BGH IFR N0450 M0825"), .element 2 (py! "IFPSTOP IFPS N0450 M0825 THIS IS OAT TEXT IFPSTART N0100F200PLUS"), .element 3 (py! "ADES IFPS"), .errors 0]),
    ((py! "N0450M0825 BGH VFR THIS IS VFR TEXT IFR ABCDEFGHIJKLMNOPQRSTUVWXYZ"), [.element 0 (py! "ADEP IFR N0450 M0825"), .element 1 (py! "BGH IFR N0450 M0825"), .element 2 (py! "VFR VFR N0450 M0825 THIS IS VFR TEXT IFR ABCDEFGHIJKLMNOPQRSTUVWXYZ"), .element 3 (py! "ADES VFR"), .errors 1, .error 0 (py! "Element 'ABCDEFGHIJKLMNOPQRSTUVWXYZ' is too long for a Field 15 Element")]),
    ((py! "N0450M0825 BGH OAT THIS IS OAT TEXT GAT ABCDEFGHIJKLMNOPQRSTUVWXYZ"), [.element 0 (py! "ADEP IFR N0450 M0825"), .element 1 (py! "BGH IFR N0450 M0825"), .element 2 (py! "OAT OAT N0450 M0825 THIS IS OAT TEXT GAT ABCDEFGHIJKLMNOPQRSTUVWXYZ"), .element 3 (py! "ADES OAT"), .errors 1, .error 0 (py! "Element 'ABCDEFGHIJKLMNOPQRSTUVWXYZ' is too long for a Field 15 Element")]),
    ((py! "N0450M0825 BGH IFPSTOP THIS IS OAT TEXT IFPSTART ABCDEFGHIJKLMNOPQRSTUVWXYZ"), [.element 0 (py! "ADEP IFR N0450 M0825"), .element 1 (py! "BGH IFR N0450 M0825"), .element 2 (py! "IFPSTOP IFPS N0450 M0825 THIS IS OAT TEXT IFPSTART ABCDEFGHIJKLMNOPQRSTUVWXYZ"), .element 3 (py! "ADES IFPS"), .errors 1, .error 0 (py! "Element 'ABCDEFGHIJKLMNOPQRSTUVWXYZ' is too long for a Field 15 Element")]),
    ((py! "N0450M0825 BGH VFR THIS IS VFR TEXT IFR STAY5"), [.element 0 (py! "ADEP IFR N0450 M0825"), .element 1 (py! "BGH IFR N0450 M0825"), .element 2 (py! "VFR VFR N0450 M0825 THIS IS VFR TEXT IFR STAY5"), .element 3 (py! "ADES VFR"), .errors 0]),
    ((py! "N0450M0825 BGH OAT THIS IS OAT TEXT GAT STAY5"), [.element 0 (py! "ADEP IFR N0450 M0825"), .element 1 (py! "BGH IFR N0450 M0825"), .element 2 (py! "OAT OAT N0450 M0825 THIS IS OAT TEXT GAT STAY5"), .element 3 (py! "ADES OAT"), .errors 0]),
    ((py! "N0450M0825 BGH IFPSTOP THIS IS OAT TEXT IFPSTART STAY5"), [.element 0 (py! "ADEP IFR N0450 M0825"), .element 1 (py! "BGH IFR N0450 M0825"), .element 2 (py! "IFPSTOP IFPS N0450 M0825 THIS IS OAT TEXT IFPSTART STAY5"), .element 3 (py! "ADES IFPS"), .errors 0]),
    ((py! "N0450M0825 BGH VFR THIS IS VFR TEXT IFR SID"), [.element 0 (py! "ADEP IFR N0450 M0825"), .element 1 (py! "BGH IFR N0450 M0825"), .element 2 (py! "VFR VFR N0450 M0825 THIS IS VFR TEXT IFR SID"), .element 3 (py! "ADES VFR"), .errors 0]),
    ((py! "N0450M0825 BGH OAT THIS IS OAT TEXT GAT SID"), [.element 0 (py! "ADEP IFR N0450 M0825"), .element 1 (py! "BGH IFR N0450 M0825"), .element 2 (py! "OAT OAT N0450 M0825 THIS IS OAT TEXT GAT SID"), .element 3 (py! "ADES OAT"), .errors 0]),
    ((py! "N0450M0825 BGH IFPSTOP THIS IS OAT TEXT IFPSTART SID"), [.element 0 (py! "ADEP IFR N0450 M0825"), .element 1 (py! "BGH IFR N0450 M0825"), .element 2 (py! "IFPSTOP IFPS N0450 M0825 THIS IS OAT TEXT IFPSTART SID"), .element 3 (py! "ADES IFPS"), .errors 0]),
    ((py! "N0450M0825 BGH VFR THIS IS VFR TEXT IFR STAR"), [.element 0 (py! "ADEP IFR N0450 M0825"), .element 1 (py! "BGH IFR N0450 M0825"), .element 2 (py! "VFR VFR N0450 M0825 THIS IS VFR TEXT IFR STAR"), .element 3 (py! "ADES VFR"), .errors 0]),
    ((py! "N0450M0825 BGH OAT THIS IS OAT TEXT GAT STAR"), [.element 0 (py! "ADEP IFR N0450 M0825"), .element 1 (py! "BGH IFR N0450 M0825"), .element 2 (py! "OAT OAT N0450 M0825 THIS IS OAT TEXT GAT STAR"), .element 3 (py! "ADES OAT"), .errors 0]),
    ((py! "N0450M0825 BGH IFPSTOP THIS IS OAT TEXT IFPSTART STAR"), [.element 0 (py! "ADEP IFR N0450 M0825"), .element 1 (py! "BGH IFR N0450 M0825"), .element 2 (py! "IFPSTOP IFPS N0450 M0825 THIS IS OAT TEXT IFPSTART STAR"), .element 3 (py! "ADES IFPS"), .errors 0]),
    ((py! "N0450M0826 BGH VFR THIS IS VFR TEXT IFR PNT"), [.element 0 (py! "ADEP IFR N0450 M0826"), .element 1 (py! "BGH IFR N0450 M0826"), .element 2 (py! "VFR VFR N0450 M0826 THIS IS VFR TEXT IFR"), .element 3 (py! "PNT IFR N0450 M0826"), .element 4 (py! "ADES IFR"), .errors 1, .error 0 (py! "Expecting '/SPEED/LEVEL' following 'PNT' to complete rule change to IFR")]),
    ((py! "N0450M0827 BGH VFR THIS IS VFR TEXT IFR PNT/"), [.element 0 (py! "ADEP IFR N0450 M0827"), .element 1 (py! "BGH IFR N0450 M0827"), .element 2 (py! "VFR VFR N0450 M0827 THIS IS VFR TEXT IFR"), .element 3 (py! "PNT IFR N0450 M0827"), .element 4 (py! "ADES IFR"), .errors 2, .error 0 (py! "Expecting '/SPEED/LEVEL' following 'PNT' to complete rule change to IFR"), .error 1 (py! "Field 15 is incomplete, expecting additional data after the final '/'")]),
    ((py! "N0450M0825 BGH VFR THIS IS VFR TEXT IFR PNT ABC"), [.element 0 (py! "ADEP IFR N0450 M0825"), .element 1 (py! "BGH IFR N0450 M0825"), .element 2 (py! "VFR VFR N0450 M0825 THIS IS VFR TEXT IFR PNT ABC"), .element 3 (py! "ADES VFR"), .errors 0]),
    ((py! "N0450M0825 BGH VFR THIS IS VFR TEXT IFR PNT/B9"), [.element 0 (py! "ADEP IFR N0450 M0825"), .element 1 (py! "BGH IFR N0450 M0825"), .element 2 (py! "VFR VFR N0450 M0825 THIS IS VFR TEXT IFR"), .element 3 (py! "PNT IFR N0450 M0825"), .element 4 (py! "ADES IFR"), .errors 2, .error 0 (py! "Expecting '/SPEED/LEVEL' following 'PNT' to complete rule change to IFR"), .error 1 (py! "Expecting SPEED/LEVEL or SPEED/VFR after '/' instead of 'B9'")]),
    ((py! "N0450M0825 BGH VFR THIS IS VFR TEXT IFR PNT/N0100F070"), [.element 0 (py! "ADEP IFR N0450 M0825"), .element 1 (py! "BGH IFR N0450 M0825"), .element 2 (py! "VFR VFR N0450 M0825 THIS IS VFR TEXT IFR"), .element 3 (py! "PNT IFR N0100 F070"), .element 4 (py! "ADES IFR"), .errors 0]),
    ((py! "N0450M0825 BGH VFR THIS IS VFR TEXT IFR PNT/N0150VFR"), [.element 0 (py! "ADEP IFR N0450 M0825"), .element 1 (py! "BGH IFR N0450 M0825"), .element 2 (py! "VFR VFR N0450 M0825 THIS IS VFR TEXT IFR"), .element 3 (py! "PNT IFR N0150 F050"), .element 4 (py! "VFR VFR N0150 F050"), .element 5 (py! "ADES VFR"), .errors 0])] : List (Str × List Expect)).all passes = true := by decide +kernel

/-- test_F15Parser.py, `test_point` (line 1162) -/
example : ([
    ((py! "N0450M0825 ABC DEF"), [.element 0 (py! "ADEP IFR N0450 M0825"), .element 1 (py! "ABC IFR N0450 M0825"), .element 2 (py! "DEF IFR N0450 M0825"), .element 3 (py! "ADES IFR"), .errors 0]),
    ((py! "N0450M0825 ABC 23N179E"), [.element 0 (py! "ADEP IFR N0450 M0825"), .element 1 (py! "ABC IFR N0450 M0825"), .element 2 (py! "23N179E IFR N0450 M0825"), .element 3 (py! "ADES IFR"), .errors 0]),
    ((py! "N0450M0825 ABC 2314S12356W"), [.element 0 (py! "ADEP IFR N0450 M0825"), .element 1 (py! "ABC IFR N0450 M0825"), .element 2 (py! "2314S12356W IFR N0450 M0825"), .element 3 (py! "ADES IFR"), .errors 0]),
    ((py! "N0450M0825 ABC 12N123E123456"), [.element 0 (py! "ADEP IFR N0450 M0825"), .element 1 (py! "ABC IFR N0450 M0825"), .element 2 (py! "12N123E123456 IFR N0450 M0825"), .element 3 (py! "ADES IFR"), .errors 0]),
    ((py! "N0450M0825 ABC 1234S09012E"), [.element 0 (py! "ADEP IFR N0450 M0825"), .element 1 (py! "ABC IFR N0450 M0825"), .element 2 (py! "1234S09012E IFR N0450 M0825"), .element 3 (py! "ADES IFR"), .errors 0]),
    ((py! "N0450M0825 ABC 91N181E"), [.element 0 (py! "ADEP IFR N0450 M0825"), .element 1 (py! "ABC IFR N0450 M0825"), .element 2 (py! "91N181E IFR N0450 M0825"), .element 3 (py! "ADES IFR"), .errors 2, .error 0 (py! "Latitude degree value must be 0 to 90 instead of '91N181E'"), .error 1 (py! "Longitude degree value must be 0 to 180 instead of '91N181E'")]),
    ((py! "N0450M0825 ABC 8960N17960E"), [.element 0 (py! "ADEP IFR N0450 M0825"), .element 1 (py! "ABC IFR N0450 M0825"), .element 2 (py! "8960N17960E IFR N0450 M0825"), .element 3 (py! "ADES IFR"), .errors 2, .error 0 (py! "Latitude degree/minute value must be 0 to 9000 with minutes < 60 instead of '8960N17960E'"), .error 1 (py! "Longitude degree/minute value must be 0 to 18000 with minutes < 60 instead of '8960N17960E'")]),
    ((py! "N0450M0825 ABC 89N179E B9"), [.element 0 (py! "ADEP IFR N0450 M0825"), .element 1 (py! "ABC IFR N0450 M0825"), .element 2 (py! "89N179E IFR N0450 M0825"), .element 3 (py! "ADES IFR"), .errors 1, .error 0 (py! "ATS route 'B9' cannot follow a Lat/Long point")])] : List (Str × List Expect)).all passes = true := by decide +kernel

/-- test_F15Parser.py, `test_dct` (line 1237) -/
example : ([
    ((py! "N0450M0825 ABC DCT T"), [.element 0 (py! "ADEP IFR N0450 M0825"), .element 1 (py! "ABC IFR N0450 M0825"), .element 2 (py! "DCT IFR N0450 M0825"), .element 3 (py! "ADES IFR"), .errors 0]),
    ((py! "N0450M0825 ABC DCT DEF"), [.element 0 (py! "ADEP IFR N0450 M0825"), .element 1 (py! "ABC IFR N0450 M0825"), .element 2 (py! "DCT IFR N0450 M0825"), .element 3 (py! "DEF IFR N0450 M0825"), .element 4 (py! "ADES IFR"), .errors 0]),
    ((py! "N0450M0825 ABC DCT C"), [.element 0 (py! "ADEP IFR N0450 M0825"), .element 1 (py! "ABC IFR N0450 M0825"), .element 2 (py! "DCT IFR N0450 M0825"), .element 3 (py! "C IFR N0450 M0825"), .element 4 (py! "ADES IFR"), .errors 0]),
    ((py! "N0450M0829 ABC DCT B9"), [.element 0 (py! "ADEP IFR N0450 M0829"), .element 1 (py! "ABC IFR N0450 M0829"), .element 2 (py! "DCT IFR N0450 M0829"), .element 3 (py! "ADES IFR"), .errors 1, .error 0 (py! "A 'DCT' must be followed by a point instead of 'B9'")])] : List (Str × List Expect)).all passes = true := by decide +kernel

/-- test_F15Parser.py, `test_stay` (line 1274) -/
example : ([
    ((py! "N0450M0825 ABC STAY4"), [.element 0 (py! "ADEP IFR N0450 M0825"), .element 1 (py! "ABC IFR N0450 M0825"), .element 2 (py! "ADES IFR"), .errors 1, .error 0 (py! "Expecting STAY time as '/HHMM' after 'STAY4'")]),
    ((py! "N0450M0831 ABC STAY4/"), [.element 0 (py! "ADEP IFR N0450 M0831"), .element 1 (py! "ABC IFR N0450 M0831"), .element 2 (py! "ADES IFR"), .errors 1, .error 0 (py! "Time value as HHMM token missing after '/'")]),
    ((py! "N0450M0832 ABC STAY4/B9"), [.element 0 (py! "ADEP IFR N0450 M0832"), .element 1 (py! "ABC IFR N0450 M0832"), .element 2 (py! "ADES IFR"), .errors 1, .error 0 (py! "Expecting HHMM token following STAYx/ element")]),
    ((py! "N0450M0833 ABC STAY4/1260"), [.element 0 (py! "ADEP IFR N0450 M0833"), .element 1 (py! "ABC IFR N0450 M0833"), .element 2 (py! "ADES IFR"), .errors 1, .error 0 (py! "Expecting HHMM token following STAYx/ element")]),
    ((py! "N0450M0835 ABC STAY4/1259"), [.element 0 (py! "ADEP IFR N0450 M0835"), .element 1 (py! "ABC IFR N0450 M0835"), .element 2 (py! "ADES IFR"), .errors 0])] : List (Str × List Expect)).all passes = true := by decide +kernel

/-- test_F15Parser.py, `test_truncate` (line 1318) -/
example : ([
    ((py! "N0450M0840 ABC T DEF"), [.element 0 (py! "ADEP IFR N0450 M0840"), .element 1 (py! "ABC IFR N0450 M0840"), .element 2 (py! "ADES IFR"), .errors 1, .error 0 (py! "Expecting end of field 15 after truncation indicator 'T' instead od 'DEF'")]),
    ((py! "N0450M0841 ABC T"), [.element 0 (py! "ADEP IFR N0450 M0841"), .element 1 (py! "ABC IFR N0450 M0841"), .element 2 (py! "ADES IFR"), .errors 0])] : List (Str × List Expect)).all passes = true := by decide +kernel

/-- test_F15Parser.py, `test_cruise_climb_c` (line 1335) -/
example : ([
    ((py! "N0450M0840 ABC C"), [.element 0 (py! "ADEP IFR N0450 M0840"), .element 1 (py! "ABC IFR N0450 M0840"), .element 2 (py! "C IFR N0450 M0840"), .element 3 (py! "ADES IFR"), .errors 0]),
    ((py! "N0450M0841 ABC C/"), [.element 0 (py! "ADEP IFR N0450 M0841"), .element 1 (py! "ABC IFR N0450 M0841"), .element 2 (py! "C IFR N0450 M0841"), .element 3 (py! "ADES IFR"), .errors 1, .error 0 (py! "Expecting point / speed / altitude / altitude after start of Cruise/Climb indicator 'C/'")]),
    ((py! "N0450M0842 ABC C/PNT"), [.element 0 (py! "ADEP IFR N0450 M0842"), .element 1 (py! "ABC IFR N0450 M0842"), .element 2 (py! "PNT IFR N0450 M0842"), .element 3 (py! "ADES IFR"), .errors 1, .error 0 (py! "Expecting point / speed / altitude / altitude after start of Cruise/Climb indicator 'C/PNT'")]),
    ((py! "N0450M0843 ABC C/PNT/"), [.element 0 (py! "ADEP IFR N0450 M0843"), .element 1 (py! "ABC IFR N0450 M0843"), .element 2 (py! "PNT IFR N0450 M0843"), .element 3 (py! "ADES IFR"), .errors 1, .error 0 (py! "Expecting speed / altitude / altitude after start of Cruise/Climb indicator 'C/PNT/'")]),
    ((py! "N0450M0844 ABC C/PNT/N0100F110F220"), [.element 0 (py! "ADEP IFR N0450 M0844"), .element 1 (py! "ABC IFR N0450 M0844"), .element 2 (py! "PNT IFR N0100 F110"), .element 3 (py! "ADES IFR"), .errors 0]),
    ((py! "N0450M0845 ABC C/PNT/N0100F110PLUS"), [.element 0 (py! "ADEP IFR N0450 M0845"), .element 1 (py! "ABC IFR N0450 M0845"), .element 2 (py! "PNT IFR N0100 F110"), .element 3 (py! "ADES IFR"), .errors 0]),
    ((py! "N0450M0846 ABC C UNKNOWN"), [.element 0 (py! "ADEP IFR N0450 M0846"), .element 1 (py! "ABC IFR N0450 M0846"), .element 2 (py! "ADES IFR"), .errors 1, .error 0 (py! "The element 'UNKNOWN' is an unrecognised Field 15 element")]),
    ((py! "N0450M0847 ABC C VFR"), [.element 0 (py! "ADEP IFR N0450 M0847"), .element 1 (py! "ABC IFR N0450 M0847"), .element 2 (py! "C IFR N0450 M0847"), .element 3 (py! "VFR VFR N0450 M0847"), .element 4 (py! "ADES VFR"), .errors 0]),
    ((py! "N0450M0846 ABC C N0220VFR"), [.element 0 (py! "ADEP IFR N0450 M0846"), .element 1 (py! "ABC IFR N0450 M0846"), .element 2 (py! "ADES IFR"), .errors 1, .error 0 (py! "Expecting '/' before 'N0220VFR'")]),
    ((py! "N0450M0846 ABC C GAT"), [.element 0 (py! "ADEP IFR N0450 M0846"), .element 1 (py! "ABC IFR N0450 M0846"), .element 2 (py! "ADES IFR"), .errors 1, .error 0 (py! "No OAT section preceding this 'GAT' rule change indicator")]),
    ((py! "N0450M0846 ABC C DCT"), [.element 0 (py! "ADEP IFR N0450 M0846"), .element 1 (py! "ABC IFR N0450 M0846"), .element 2 (py! "C IFR N0450 M0846"), .element 3 (py! "DCT IFR N0450 M0846"), .element 4 (py! "ADES IFR"), .errors 0]),
    ((py! "N0450M0846 ABC C STAY5"), [.element 0 (py! "ADEP IFR N0450 M0846"), .element 1 (py! "ABC IFR N0450 M0846"), .element 2 (py! "C IFR N0450 M0846"), .element 3 (py! "ADES IFR"), .errors 1, .error 0 (py! "Expecting STAY time as '/HHMM' after 'STAY5'")]),
    ((py! "N0450M0846 ABC C T"), [.element 0 (py! "ADEP IFR N0450 M0846"), .element 1 (py! "ABC IFR N0450 M0846"), .element 2 (py! "C IFR N0450 M0846"), .element 3 (py! "ADES IFR"), .errors 0]),
    ((py! "N0450M0846 ABC C C"), [.element 0 (py! "ADEP IFR N0450 M0846"), .element 1 (py! "ABC IFR N0450 M0846"), .element 2 (py! "C IFR N0450 M0846"), .element 3 (py! "C IFR N0450 M0846"), .element 4 (py! "ADES IFR"), .errors 0]),
    ((py! "N0450M0846 ABC C PNT"), [.element 0 (py! "ADEP IFR N0450 M0846"), .element 1 (py! "ABC IFR N0450 M0846"), .element 2 (py! "C IFR N0450 M0846"), .element 3 (py! "PNT IFR N0450 M0846"), .element 4 (py! "ADES IFR"), .errors 0]),
    ((py! "N0450M0846 ABC C B9"), [.element 0 (py! "ADEP IFR N0450 M0846"), .element 1 (py! "ABC IFR N0450 M0846"), .element 2 (py! "C IFR N0450 M0846"), .element 3 (py! "B9 IFR N0450 M0846"), .element 4 (py! "ADES IFR"), .errors 0]),
    ((py! "N0450M0846 ABC C SID"), [.element 0 (py! "ADEP IFR N0450 M0846"), .element 1 (py! "ABC IFR N0450 M0846"), .element 2 (py! "C IFR N0450 M0846"), .element 3 (py! "SID IFR N0450 M0846"), .element 4 (py! "ADES IFR"), .errors 1, .error 0 (py! "SID 'SID' must follow the first SPEED/ALTITUDE and cannot appear anywhere else in field 15")]),
    ((py! "N0450M0846 ABC C STAR"), [.element 0 (py! "ADEP IFR N0450 M0846"), .element 1 (py! "ABC IFR N0450 M0846"), .element 2 (py! "C IFR N0450 M0846"), .element 3 (py! "STAR IFR N0450 M0846"), .element 4 (py! "ADES IFR"), .errors 0]),
    ((py! "N0450M0846 ABC C N0330F120"), [.element 0 (py! "ADEP IFR N0450 M0846"), .element 1 (py! "ABC IFR N0450 M0846"), .element 2 (py! "ADES IFR"), .errors 1, .error 0 (py! "Expecting '/' before 'N0330F120'")]),
    ((py! "N0450M0846 ABC C N0200F100F200"), [.element 0 (py! "ADEP IFR N0450 M0846"), .element 1 (py! "ABC IFR N0450 M0846"), .element 2 (py! "ADES IFR"), .errors 1, .error 0 (py! "Expecting 'C/POINT/' before 'N0200F100F200'")]),
    ((py! "N0450M0846 ABC C N0200F100PLUS"), [.element 0 (py! "ADEP IFR N0450 M0846"), .element 1 (py! "ABC IFR N0450 M0846"), .element 2 (py! "ADES IFR"), .errors 1, .error 0 (py! "Expecting 'C/POINT/' before 'N0200F100PLUS'")]),
    ((py! "N0450M0846 ABC C ABCDEFGHIJKLMNOPQRSTUVWXYZ"), [.element 0 (py! "ADEP IFR N0450 M0846"), .element 1 (py! "ABC IFR N0450 M0846"), .element 2 (py! "ADES IFR"), .errors 1, .error 0 (py! "Element 'ABCDEFGHIJKLMNOPQRSTUVWXYZ' is too long for a Field 15 Element")]),
    ((py! "N0450M0846 ABC C 1234"), [.element 0 (py! "ADEP IFR N0450 M0846"), .element 1 (py! "ABC IFR N0450 M0846"), .element 2 (py! "ADES IFR"), .errors 1, .error 0 (py! "Expecting the keyword 'STAY' before '1234'")]),
    ((py! "N0450M0846 ABC C LNZ1A"), [.element 0 (py! "ADEP IFR N0450 M0846"), .element 1 (py! "ABC IFR N0450 M0846"), .element 2 (py! "C IFR N0450 M0846"), .element 3 (py! "LNZ1A IFR N0450 M0846"), .element 4 (py! "ADES IFR"), .errors 0]),
    ((py! "N0450M0846 ABC C STAR"), [.element 0 (py! "ADEP IFR N0450 M0846"), .element 1 (py! "ABC IFR N0450 M0846"), .element 2 (py! "C IFR N0450 M0846"), .element 3 (py! "STAR IFR N0450 M0846"), .element 4 (py! "ADES IFR"), .errors 0])] : List (Str × List Expect)).all passes = true := by decide +kernel

/-- test_F15Parser.py, `test_route` (line 1563) -/
example : ([
    ((py! "N0450M0840 ABC B9 UNKNOWN"), [.element 0 (py! "ADEP IFR N0450 M0840"), .element 1 (py! "ABC IFR N0450 M0840"), .element 2 (py! "B9 IFR N0450 M0840"), .element 3 (py! "ADES IFR"), .errors 1, .error 0 (py! "The element 'UNKNOWN' is an unrecognised Field 15 element")]),
    ((py! "N0450M0840 ABC B9 /"), [.element 0 (py! "ADEP IFR N0450 M0840"), .element 1 (py! "ABC IFR N0450 M0840"), .element 2 (py! "B9 IFR N0450 M0840"), .element 3 (py! "ADES IFR"), .errors 1, .error 0 (py! "Expecting a PRP after an ATS route instead of '/'")]),
    ((py! "N0450M0840 ABC B9 VFR"), [.element 0 (py! "ADEP IFR N0450 M0840"), .element 1 (py! "ABC IFR N0450 M0840"), .element 2 (py! "B9 IFR N0450 M0840"), .element 3 (py! "ADES IFR"), .errors 1, .error 0 (py! "Rule change 'VFR' cannot occur following an ATS route element")]),
    ((py! "N0450M0840 ABC B9 N0450VFR"), [.element 0 (py! "ADEP IFR N0450 M0840"), .element 1 (py! "ABC IFR N0450 M0840"), .element 2 (py! "B9 IFR N0450 M0840"), .element 3 (py! "ADES IFR"), .errors 1, .error 0 (py! "Rule change 'N0450VFR' cannot occur following an ATS route element")]),
    ((py! "N0450M0840 ABC B9 IFR"), [.element 0 (py! "ADEP IFR N0450 M0840"), .element 1 (py! "ABC IFR N0450 M0840"), .element 2 (py! "B9 IFR N0450 M0840"), .element 3 (py! "ADES IFR"), .errors 1, .error 0 (py! "No VFR section preceding this 'IFR' rule change indicator")]),
    ((py! "N0450M0840 ABC B9 DCT"), [.element 0 (py! "ADEP IFR N0450 M0840"), .element 1 (py! "ABC IFR N0450 M0840"), .element 2 (py! "B9 IFR N0450 M0840"), .element 3 (py! "ADES IFR"), .errors 1, .error 0 (py! "Cannot go direct ('DCT') from an ATS route element, must be preceded by a point")]),
    ((py! "N0450M0840 ABC B9 STAY6"), [.element 0 (py! "ADEP IFR N0450 M0840"), .element 1 (py! "ABC IFR N0450 M0840"), .element 2 (py! "B9 IFR N0450 M0840"), .element 3 (py! "ADES IFR"), .errors 1, .error 0 (py! "'STAY6' must be preceded by a point")]),
    ((py! "N0450M0840 ABC B9 T"), [.element 0 (py! "ADEP IFR N0450 M0840"), .element 1 (py! "ABC IFR N0450 M0840"), .element 2 (py! "B9 IFR N0450 M0840"), .element 3 (py! "ADES IFR"), .errors 0]),
    ((py! "N0450M0840 ABC B9 C"), [.element 0 (py! "ADEP IFR N0450 M0840"), .element 1 (py! "ABC IFR N0450 M0840"), .element 2 (py! "B9 IFR N0450 M0840"), .element 3 (py! "C IFR N0450 M0840"), .element 4 (py! "ADES IFR"), .errors 0]),
    ((py! "N0450M0840 ABC B9 PNT"), [.element 0 (py! "ADEP IFR N0450 M0840"), .element 1 (py! "ABC IFR N0450 M0840"), .element 2 (py! "B9 IFR N0450 M0840"), .element 3 (py! "PNT IFR N0450 M0840"), .element 4 (py! "ADES IFR"), .errors 0]),
    ((py! "N0450M0840 ABC B9 A17"), [.element 0 (py! "ADEP IFR N0450 M0840"), .element 1 (py! "ABC IFR N0450 M0840"), .element 2 (py! "B9 IFR N0450 M0840"), .element 3 (py! "ADES IFR"), .errors 1, .error 0 (py! "Add crossing point between previous ATS route and 'A17'")]),
    ((py! "N0450M0840 ABC B9 LNZ2R"), [.element 0 (py! "ADEP IFR N0450 M0840"), .element 1 (py! "ABC IFR N0450 M0840"), .element 2 (py! "B9 IFR N0450 M0840"), .element 3 (py! "ADES IFR"), .errors 1, .error 0 (py! "Add APF between previous ATS route and STAR 'LNZ2R'")]),
    ((py! "N0450M0840 ABC B9 N0330F130"), [.element 0 (py! "ADEP IFR N0450 M0840"), .element 1 (py! "ABC IFR N0450 M0840"), .element 2 (py! "B9 IFR N0450 M0840"), .element 3 (py! "ADES IFR"), .errors 1, .error 0 (py! "The SPEED/LEVEL 'N0330F130' cannot follow an ATS route")]),
    ((py! "N0450M0840 ABC B9 N0330F130F140"), [.element 0 (py! "ADEP IFR N0450 M0840"), .element 1 (py! "ABC IFR N0450 M0840"), .element 2 (py! "B9 IFR N0450 M0840"), .element 3 (py! "ADES IFR"), .errors 1, .error 0 (py! "Expecting 'C/POINT/' before 'N0330F130F140'")]),
    ((py! "N0450M0840 ABC B9 N0330F130PLUS"), [.element 0 (py! "ADEP IFR N0450 M0840"), .element 1 (py! "ABC IFR N0450 M0840"), .element 2 (py! "B9 IFR N0450 M0840"), .element 3 (py! "ADES IFR"), .errors 1, .error 0 (py! "Expecting 'C/POINT/' before 'N0330F130PLUS'")]),
    ((py! "N0450M0840 ABC B9 ABCDEFGHIJKLMNOPQRSTUVWXYZ"), [.element 0 (py! "ADEP IFR N0450 M0840"), .element 1 (py! "ABC IFR N0450 M0840"), .element 2 (py! "B9 IFR N0450 M0840"), .element 3 (py! "ADES IFR"), .errors 1, .error 0 (py! "Element 'ABCDEFGHIJKLMNOPQRSTUVWXYZ' is too long for a Field 15 Element")]),
    ((py! "N0450M0840 ABC B9 2359"), [.element 0 (py! "ADEP IFR N0450 M0840"), .element 1 (py! "ABC IFR N0450 M0840"), .element 2 (py! "B9 IFR N0450 M0840"), .element 3 (py! "ADES IFR"), .errors 1, .error 0 (py! "Expecting the keyword 'STAY' before '2359'")]),
    ((py! "N0450M0840 ABC B9 SID"), [.element 0 (py! "ADEP IFR N0450 M0840"), .element 1 (py! "ABC IFR N0450 M0840"), .element 2 (py! "B9 IFR N0450 M0840"), .element 3 (py! "ADES IFR"), .errors 1, .error 0 (py! "SID 'SID' must follow the first SPEED/ALTITUDE and cannot appear anywhere else in field 15")]),
    ((py! "N0450M0840 ABC B9 NOLAN1D"), [.element 0 (py! "ADEP IFR N0450 M0840"), .element 1 (py! "ABC IFR N0450 M0840"), .element 2 (py! "B9 IFR N0450 M0840"), .element 3 (py! "ADES IFR"), .errors 1, .error 0 (py! "Add APF between previous ATS route and STAR 'NOLAN1D'")])] : List (Str × List Expect)).all passes = true := by decide +kernel

/-- test_F15Parser.py, `test_miscellaneous` (line 1750) -/
example : ([
    ((py! "N0450M0825 00N000E B9 00N001E VFR IFR 00N001W/N0350F100 01N001W 01S001W 02S001W180060"), [.element 0 (py! "ADEP IFR N0450 M0825"), .element 1 (py! "00N000E IFR N0450 M0825"), .element 2 (py! "00N001E IFR N0450 M0825"), .element 3 (py! "VFR VFR N0450 M0825 IFR"), .element 4 (py! "00N001W IFR N0350 F100"), .element 5 (py! "01N001W IFR N0350 F100"), .element 6 (py! "01S001W IFR N0350 F100"), .element 7 (py! "02S001W180060 IFR N0350 F100"), .element 8 (py! "ADES IFR"), .errors 1, .error 0 (py! "ATS route 'B9' cannot follow a Lat/Long point")])] : List (Str × List Expect)).all passes = true := by decide +kernel

/-- test_Tokenize.py, `test_tokenize_constructor_01` (line 8) -/
example : (Tokenize.new).getTokens.getNumberOfTokens = 0 ∧
    texts (Tokenize.new).getTokens [] =
      [] := by decide +kernel

/-- test_Tokenize.py, `test_tokenize_constructor_02` (line 12) -/
example : (((Tokenize.new.setStringToTokenize (py! "Token1 Token2\nToken3\rToken4\tToken5 \n \t \r Token6  \r\r\r    Token7")).tokenize)).getTokens.getNumberOfTokens = 7 ∧
    texts (((Tokenize.new.setStringToTokenize (py! "Token1 Token2\nToken3\rToken4\tToken5 \n \t \r Token6  \r\r\r    Token7")).tokenize)).getTokens [Tokens.getFirstToken, Tokens.getNextToken, Tokens.getNextToken, Tokens.getNextToken, Tokens.getNextToken, Tokens.getNextToken, Tokens.getNextToken] =
      [some (py! "Token1"), some (py! "Token2"), some (py! "Token3"), some (py! "Token4"), some (py! "Token5"), some (py! "Token6"), some (py! "Token7")] := by decide +kernel

/-- test_Tokenize.py, `test_tokenize_constructor_03` (line 25) -/
example : ((((Tokenize.new.setStringToTokenize (py! "T1 T2\nT3\rT4\tT5 \n \t \r T6  \r\r\r    T7-T8 - T9")).setWhitespace (py! " \n\t\r-")).tokenize)).getTokens.getNumberOfTokens = 9 ∧
    texts ((((Tokenize.new.setStringToTokenize (py! "T1 T2\nT3\rT4\tT5 \n \t \r T6  \r\r\r    T7-T8 - T9")).setWhitespace (py! " \n\t\r-")).tokenize)).getTokens [Tokens.getFirstToken, Tokens.getNextToken, Tokens.getNextToken, Tokens.getNextToken, Tokens.getNextToken, Tokens.getNextToken, Tokens.getNextToken, Tokens.getNextToken, Tokens.getNextToken] =
      [some (py! "T1"), some (py! "T2"), some (py! "T3"), some (py! "T4"), some (py! "T5"), some (py! "T6"), some (py! "T7"), some (py! "T8"), some (py! "T9")] := by decide +kernel

/-- test_Tokenize.py, `test_tokenize_constructor_04` (line 41) -/
example : (((((Tokenize.new.setStringToTokenize (py! "T1 T2\nT3\rT4\tT5 \n \t \r T6  \r\r\r    T7-T8 - T9")).tokenize).setStringToTokenize (py! "R1 R2 R3 R4 R5 R6 R7 R8")).tokenize)).getTokens.getNumberOfTokens = 8 ∧
    texts (((((Tokenize.new.setStringToTokenize (py! "T1 T2\nT3\rT4\tT5 \n \t \r T6  \r\r\r    T7-T8 - T9")).tokenize).setStringToTokenize (py! "R1 R2 R3 R4 R5 R6 R7 R8")).tokenize)).getTokens [Tokens.getFirstToken, Tokens.getNextToken, Tokens.getNextToken, Tokens.getNextToken, Tokens.getNextToken, Tokens.getNextToken, Tokens.getNextToken, Tokens.getNextToken] =
      [some (py! "R1"), some (py! "R2"), some (py! "R3"), some (py! "R4"), some (py! "R5"), some (py! "R6"), some (py! "R7"), some (py! "R8")] := by decide +kernel

/-- The tokens of test_Tokens.py (lines 11-21) -/
def made : Tokens := ⟨[⟨(py! "Token 1"), 1, 1, .UNKNOWN, .UNKNOWN⟩, ⟨(py! "Token 2"), 2, 2, .UNKNOWN, .UNKNOWN⟩, ⟨(py! "Token 3"), 3, 3, .UNKNOWN, .UNKNOWN⟩, ⟨(py! "Token 4"), 4, 4, .UNKNOWN, .UNKNOWN⟩, ⟨(py! "Token 5"), 5, 5, .UNKNOWN, .UNKNOWN⟩, ⟨(py! "Token 6"), 6, 6, .UNKNOWN, .UNKNOWN⟩, ⟨(py! "Token 7"), 7, 7, .UNKNOWN, .UNKNOWN⟩, ⟨(py! "Token 8"), 8, 8, .UNKNOWN, .UNKNOWN⟩, ⟨(py! "Token 9"), 9, 9, .UNKNOWN, .UNKNOWN⟩, ⟨(py! "Token 10"), 10, 10, .UNKNOWN, .UNKNOWN⟩], 0⟩

/-- test_Tokens.py, `test_tokens_methods_01` (line 24) -/
example : texts made [Tokens.getFirstToken, Tokens.getNextToken, Tokens.getNextToken, Tokens.getNextToken, Tokens.getNextToken, Tokens.getNextToken, Tokens.getNextToken, Tokens.getNextToken, Tokens.getNextToken, Tokens.getNextToken] =
      [some (py! "Token 1"), some (py! "Token 2"), some (py! "Token 3"), some (py! "Token 4"), some (py! "Token 5"), some (py! "Token 6"), some (py! "Token 7"), some (py! "Token 8"), some (py! "Token 9"), some (py! "Token 10")] := by decide +kernel

/-- test_Tokens.py, `test_tokens_methods_02` (line 36) -/
example : made.getNumberOfTokens = 10 ∧
    (made.toks[6]?.map (·.text)) = some (py! "Token 7") := by decide +kernel

/-- test_Tokens.py, `test_tokens_methods_03` (line 41) -/
example : texts made [Tokens.getFirstToken, Tokens.getNextToken, Tokens.getLastToken, Tokens.getPreviousToken, Tokens.getPreviousToken, Tokens.getPreviousToken, Tokens.getPreviousToken, fun t => (t.getCurrentToken, t), Tokens.getPreviousToken, fun t => (t.peekNextToken 2, t), fun t => (t.peekPreviousToken 3, t)] =
      [some (py! "Token 1"), some (py! "Token 2"), some (py! "Token 10"), some (py! "Token 9"), some (py! "Token 8"), some (py! "Token 7"), some (py! "Token 6"), some (py! "Token 6"), some (py! "Token 5"), some (py! "Token 7"), some (py! "Token 2")] := by decide +kernel

/-- test_Utils.py, `test_is_degree_semantics_01` (line 9) -/
example : (Utils.isDegreeSemantics (py! "0") 90).toOption = some true ∧
    (Utils.isDegreeSemantics (py! "89") 90).toOption = some true ∧
    (Utils.isDegreeSemantics (py! "90") 90).toOption = some true ∧
    (Utils.isDegreeSemantics (py! "91") 90).toOption = some false := by decide +kernel

/-- test_Utils.py, `test_is_degree_minute_semantics_01` (line 17) -/
example : (Utils.isDegreeMinuteSemantics (py! "0000") 90 2).toOption = some true ∧
    (Utils.isDegreeMinuteSemantics (py! "8900") 90 2).toOption = some true ∧
    (Utils.isDegreeMinuteSemantics (py! "9000") 90 2).toOption = some true ∧
    (Utils.isDegreeMinuteSemantics (py! "9100") 90 2).toOption = some false ∧
    (Utils.isDegreeMinuteSemantics (py! "8959") 90 2).toOption = some true ∧
    (Utils.isDegreeMinuteSemantics (py! "9001") 90 2).toOption = some false := by decide +kernel

/-- test_Utils.py, `test_is_degree_minute_semantics_02` (line 26) -/
example : (Utils.isDegreeMinuteSemantics (py! "00000") 180 3).toOption = some true ∧
    (Utils.isDegreeMinuteSemantics (py! "17900") 180 3).toOption = some true ∧
    (Utils.isDegreeMinuteSemantics (py! "18000") 180 3).toOption = some true ∧
    (Utils.isDegreeMinuteSemantics (py! "18100") 180 3).toOption = some false ∧
    (Utils.isDegreeMinuteSemantics (py! "17959") 180 3).toOption = some true ∧
    (Utils.isDegreeMinuteSemantics (py! "18001") 180 3).toOption = some false := by decide +kernel

end F15.Replay
