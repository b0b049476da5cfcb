{
 "claims": [
  {
   "property": "C01",
   "status": "proved",
   "theorems": [
    "F15.c01_locations"
   ],
   "note": ""
  },
  {
   "property": "C02",
   "status": "proved",
   "theorems": [
    "F15.c02_disjoint"
   ],
   "note": ""
  },
  {
   "property": "C03",
   "status": "proved",
   "theorems": [
    "F15.c03_tokens_iff",
    "F15.c03_nothing_lost",
    "F15.c03_no_separator_in_token",
    "F15.c03_untyped"
   ],
   "note": ""
  },
  {
   "property": "C04",
   "status": "proved",
   "theorems": [
    "F15.c04_layout",
    "F15.c04_layout_exists",
    "F15.c04_retokenize",
    "F15.c04_same_layout"
   ],
   "note": ""
  },
  {
   "property": "C05",
   "status": "proved",
   "theorems": [
    "F15.c05_reuse",
    "F15.c05_cursor_reset"
   ],
   "note": ""
  },
  {
   "property": "C06",
   "status": "proved",
   "theorems": [
    "F15.c06_at",
    "F15.c06_first",
    "F15.c06_last",
    "F15.c06_next",
    "F15.c06_previous",
    "F15.c06_next_previous",
    "F15.c06_peek",
    "F15.c06_peek_next",
    "F15.c06_remove",
    "F15.c06_append_insert",
    "F15.c06_history",
    "F15.c06_api",
    "F15.c06_looks"
   ],
   "note": ""
  },
  {
   "property": "C07",
   "status": "proved",
   "theorems": [
    "F15.c07_patterns_valid",
    "F15.c07_first_match",
    "F15.c07_unknown",
    "F15.c07_unknown_base"
   ],
   "note": ""
  },
  {
   "property": "C08",
   "status": "proved",
   "theorems": [
    "F15.c08_too_long",
    "F15.c08_unknown_above_17",
    "F15.c08_short",
    "F15.c08_preserves"
   ],
   "note": ""
  },
  {
   "property": "C09",
   "status": "proved",
   "theorems": [
    "F15.c09_foreign",
    "F15.c09_foreign_token"
   ],
   "note": ""
  },
  {
   "property": "C10",
   "status": "proved",
   "theorems": [
    "F15.c10_speed_level",
    "F15.c10_speed_vfr",
    "F15.c10_speed_level_plus",
    "F15.c10_stay_time",
    "F15.c10_point",
    "F15.c10_point_subtypes",
    "F15.c10_keywords",
    "F15.c10_stay",
    "F15.c10_sid_star",
    "F15.c10_route"
   ],
   "note": ""
  },
  {
   "property": "C11",
   "status": "partial",
   "theorems": [
    "F15.c11_partial",
    "F15.c11_wrong",
    "F15.c11_recognised",
    "F15.c11_false"
   ],
   "note": "False of the code: the rows for N speed, A first level, S or M second level ask for four digits after A. c11_false is the negation, c11_partial the true part (all other combinations)."
  },
  {
   "property": "C12",
   "status": "proved",
   "theorems": [
    "F15.c12"
   ],
   "note": ""
  },
  {
   "property": "C13",
   "status": "proved",
   "theorems": [
    "F15.c13",
    "F15.c13_empty",
    "F15.c13_documented"
   ],
   "note": ""
  },
  {
   "property": "C14",
   "status": "proved",
   "theorems": [
    "F15.c14",
    "F15.c14_start"
   ],
   "note": ""
  },
  {
   "property": "C15",
   "status": "partial",
   "theorems": [
    "F15.c15_partial",
    "F15.c15_returns_partial",
    "F15.c15_false",
    "F15.c15_exact",
    "F15.c15_otherwise",
    "F15.c15_exact_text"
   ],
   "note": "False of the code: C/PNT/N0450A0450S1130 raises ValueError (c15_false). Proved: only such tokens, or running out of stack, can make parse_f15 raise; and exactly when: parse_f15 raises iff the field with well-formed cruise climb words in the places of the malformed ones yields a level error about one of those words (c15_exact, c15_exact_text), and otherwise returns (c15_otherwise)."
  },
  {
   "property": "C16",
   "status": "proved",
   "theorems": [
    "F15.c16_enough",
    "F15.c16_same",
    "F15.c16_grows"
   ],
   "note": ""
  },
  {
   "property": "C17",
   "status": "proved",
   "theorems": [
    "F15.c17",
    "F15.c60_wording"
   ],
   "note": ""
  },
  {
   "property": "C18",
   "status": "proved",
   "theorems": [
    "F15.c18",
    "F15.c18_c19"
   ],
   "note": ""
  },
  {
   "property": "C19",
   "status": "proved",
   "theorems": [
    "F15.c19_count",
    "F15.c18_c19"
   ],
   "note": ""
  },
  {
   "property": "C20",
   "status": "partial",
   "theorems": [
    "F15.c20_partial",
    "F15.c20_order",
    "F15.c20_order_text",
    "F15.c20_accepted",
    "F15.c20_false"
   ],
   "note": "False of the code after error 48 (c20_false); true whenever no error 48 is reported, in particular for accepted routes. c20_order: whatever the field 15, only points refused with error 48 can be out of order."
  },
  {
   "property": "C21",
   "status": "proved",
   "theorems": [
    "F15.c21"
   ],
   "note": ""
  },
  {
   "property": "C22",
   "status": "proved",
   "theorems": [
    "F15.c22",
    "F15.c22_sound"
   ],
   "note": ""
  },
  {
   "property": "C23",
   "status": "proved",
   "theorems": [
    "F15.c23_first",
    "F15.c23_lone"
   ],
   "note": ""
  },
  {
   "property": "C24",
   "status": "proved",
   "theorems": [
    "F15.c24_tokens",
    "F15.c24_elements"
   ],
   "note": ""
  },
  {
   "property": "C25",
   "status": "proved",
   "theorems": [
    "F15.c25_values",
    "F15.c25_start",
    "F15.c25_accepted"
   ],
   "note": ""
  },
  {
   "property": "C26",
   "status": "proved",
   "theorems": [
    "F15.c26",
    "F15.c26_ades"
   ],
   "note": ""
  },
  {
   "property": "C27",
   "status": "proved",
   "theorems": [
    "F15.c27",
    "F15.c27_value"
   ],
   "note": "c27_value assumes the laws of rounded arithmetic (Spec/Float.lean, satisfied by Rounded.double)."
  },
  {
   "property": "C28",
   "status": "partial",
   "theorems": [
    "F15.c28_only_latlong",
    "F15.c28_partial",
    "F15.c28_exact",
    "F15.c28_false"
   ],
   "note": "The converse is false of the code: a lat/long point between IFR and SPEED/VFR gets no position (c28_false). c28_partial excludes exactly the points preceded by an IFR word and followed by a slash and a SPEED/VFR."
  },
  {
   "property": "C29",
   "status": "partial",
   "theorems": [
    "F15.c29_only_faults",
    "F15.c29_partial",
    "F15.c29_positions",
    "F15.c29_accepted",
    "F15.c29_value",
    "F15.c29_false"
   ],
   "note": "False of the code for a point between IFR and SPEED/VFR, which is not range checked (c29_false); true of every other point (c29_partial excludes exactly the points preceded by an IFR word and followed by a slash and a SPEED/VFR) and of every element with a position."
  },
  {
   "property": "C30",
   "status": "proved",
   "theorems": [
    "F15.c30_degree",
    "F15.c30_degree_minute"
   ],
   "note": ""
  },
  {
   "property": "C31",
   "status": "proved",
   "theorems": [
    "F15.c31"
   ],
   "note": ""
  },
  {
   "property": "C32",
   "status": "partial",
   "theorems": [
    "F15.c32_partial",
    "F15.c32_false"
   ],
   "note": "False of the code: the calculation skips one point without position (c32_false)."
  },
  {
   "property": "C33",
   "status": "proved",
   "theorems": [
    "F15.c33",
    "F15.c33_cruise",
    "F15.c33_same"
   ],
   "note": "Assumes the laws of rounded arithmetic (Spec/Float.lean); Rounded.double shows that doubles obey them."
  },
  {
   "property": "C34",
   "status": "proved",
   "theorems": [
    "F15.c34"
   ],
   "note": "Assumes the laws of rounded arithmetic. Nearest whole number for knots and km/h; for Mach up to 0.002 m/s of the calculated speed."
  },
  {
   "property": "C35",
   "status": "proved",
   "theorems": [
    "F15.c35_constant",
    "F15.c35_value",
    "F15.c35_altitude",
    "F15.c35_mach"
   ],
   "note": "c35_constant needs no laws; the others assume the laws of rounded arithmetic."
  },
  {
   "property": "C36",
   "status": "proved",
   "theorems": [
    "F15.c36",
    "F15.c36_only_odd",
    "F15.c36_reported",
    "F15.c36_accepted"
   ],
   "note": ""
  },
  {
   "property": "C37",
   "status": "partial",
   "theorems": [
    "F15.c37_partial",
    "F15.c37_others",
    "F15.c37_false"
   ],
   "note": "False of the code for Mach speeds and for first levels in tens of metres: the unit of the second level is cut off (c37_false). Proved: the correct case, what happens in the others, and that no other element has a cruise-to level."
  },
  {
   "property": "C38",
   "status": "proved",
   "theorems": [
    "F15.c38",
    "F15.c38_adep",
    "F15.c38_exception"
   ],
   "note": ""
  },
  {
   "property": "C39",
   "status": "proved",
   "theorems": [
    "F15.c39",
    "F15.c39_section"
   ],
   "note": ""
  },
  {
   "property": "C40",
   "status": "proved",
   "theorems": [
    "F15.c40",
    "F15.c40_range",
    "F15.c40_accepted",
    "F15.c40_none"
   ],
   "note": ""
  },
  {
   "property": "C41",
   "status": "proved",
   "theorems": [
    "F15.c41",
    "F15.c41_again"
   ],
   "note": ""
  },
  {
   "property": "C42",
   "status": "partial",
   "theorems": [
    "F15.c42_partial",
    "F15.c42_false"
   ],
   "note": "False of the code (c42_false): speed and level can be overwritten at once, and after errors tokens are skipped silently. Proved for every accepted field 15 up to overwriting."
  },
  {
   "property": "C43",
   "status": "partial",
   "theorems": [
    "F15.c43_in_range",
    "F15.c43_partial",
    "F15.c43_false",
    "F15.c43_ends"
   ],
   "note": "False of the code: get_element_at(size) raises IndexError (c43_false)."
  },
  {
   "property": "C44",
   "status": "partial",
   "theorems": [
    "F15.c44_document",
    "F15.c44_iff",
    "F15.c44_partial",
    "F15.c44_accepted",
    "F15.c44_false"
   ],
   "note": "False of the code: texts are not escaped, and the error messages 43 and 45 contain a raw < (c44_false). True of every accepted field 15 of plain characters and of every parse without these two errors; c44_iff says exactly when the output is readable."
  },
  {
   "property": "C45",
   "status": "partial",
   "theorems": [
    "F15.c45_partial",
    "F15.c45_false"
   ],
   "note": "False of the code: any token is taken as the point of a cruise climb (c45_false); true of all other elements."
  },
  {
   "property": "C46",
   "status": "proved",
   "theorems": [
    "F15.c46_tokens",
    "F15.c46"
   ],
   "note": ""
  },
  {
   "property": "C47",
   "status": "proved",
   "theorems": [
    "F15.c47",
    "F15.c47_first",
    "F15.c47_located",
    "F15.c47_disjoint",
    "F15.c47_unique",
    "F15.c47_fault",
    "F15.c47_accepts"
   ],
   "note": "c47_unique: the first fault is a function of the tokens; c47_fault is the converse of c47_first. c47_first also fixes the message (Spec/Faults.lean lists the first faults and their messages along the grammar)."
  },
  {
   "property": "C48",
   "status": "proved",
   "theorems": [
    "F15.c48",
    "F15.c48_uncut",
    "F15.c48_accepted",
    "F15.c48_false"
   ],
   "note": "c48_false shows that the exception is needed."
  },
  {
   "property": "C49",
   "status": "proved",
   "theorems": [
    "F15.c49_speed_level",
    "F15.c49_speed_vfr",
    "F15.c49_tracks",
    "F15.c49_routes",
    "F15.c49_named_points",
    "F15.c49_single",
    "F15.c49_complete"
   ],
   "note": "Subtypes of positions and of rule changes are in C10, of cruise climbs in C11; c49_complete says nothing is left out."
  },
  {
   "property": "C50",
   "status": "proved",
   "theorems": [
    "F15.c50",
    "F15.c50_exception",
    "F15.divides_starts"
   ],
   "note": "Divides and Local are in Spec/Local.lean. c50_exception shows that error 48 must be excluded. Over-long words (errors themselves) may be put into the free text of a later element."
  },
  {
   "property": "C51",
   "status": "proved",
   "theorems": [
    "F15.c51",
    "F15.c51_layout",
    "F15.c51_blanks",
    "F15.c51_words"
   ],
   "note": "Relational theorem: relocating the tokens commutes with every method (Lemmas/Shift.lean)."
  },
  {
   "property": "C52",
   "status": "proved",
   "theorems": [
    "F15.c52_record",
    "F15.c52_sequence",
    "F15.c52_parse",
    "F15.c52_fits",
    "F15.c52_tokens",
    "F15.c52_short",
    "F15.c52_short_parse",
    "F15.c52_descriptions"
   ],
   "note": "The two-decimal format of floats is a parameter of the model; that bearings, distances and coordinates fit is a hypothesis."
  },
  {
   "property": "C53",
   "status": "proved",
   "theorems": [
    "F15.c53",
    "F15.c53_text",
    "F15.c53_kept"
   ],
   "note": "CommonPast is in Spec/Causal.lean. Both exceptions are shown to occur. Both parses are assumed to return (see C16 for when they do)."
  },
  {
   "property": "C54",
   "status": "proved",
   "theorems": [
    "F15.c54",
    "F15.c54_text",
    "F15.c54_sorted"
   ],
   "note": "ErrorsInOrder is in Spec/Causal.lean. Both exceptions are shown to occur."
  },
  {
   "property": "C55",
   "status": "partial",
   "theorems": [
    "F15.c55_tokens",
    "F15.c55_partial",
    "F15.c55_accepted",
    "F15.c55_false",
    "F15.full_eq"
   ],
   "note": "False of the code as stated (c55_false): after an error the parser may stop silently at a word that ends a break. Proved: the types, the indices, the accepted case, and that no other stop is possible."
  },
  {
   "property": "C56",
   "status": "partial",
   "theorems": [
    "F15.c56_partial",
    "F15.c56_documented",
    "F15.c56_result",
    "F15.c56_false"
   ],
   "note": "False of a tokenizer shared between threads (c56_false), although main.py claims it; proved for threads that share no objects. Threads can change, and exceptions from outside can strike, inside tokenize (after every loop pass) and inside parse_f15 (at every primitive step, Model/Tasks)."
  },
  {
   "property": "C57",
   "status": "proved",
   "theorems": [
    "F15.c57"
   ],
   "note": "Honest programs, any schedule that can change thread inside tokenize and parse_f15, and any exception in them (by itself or from outside)."
  },
  {
   "property": "C58",
   "status": "proved",
   "theorems": [
    "F15.c58",
    "F15.c58_prefix",
    "F15.c58_returned",
    "F15.c58_same"
   ],
   "note": "Strike (Model/Crash.lean) is the exception from outside: which step, and which of its writes are done. GoesOnFrom and Settled are in Spec/Crash.lean. Exceptions inside a pure helper are attributed to the step that calls it."
  },
  {
   "property": "C59",
   "status": "proved",
   "theorems": [
    "F15.c59",
    "F15.c59_first",
    "F15.c59_types",
    "F15.c59_connector",
    "F15.c59_exceptions"
   ],
   "note": "Joins, mayFollow and mayStart are in Spec/Connect.lean. The README's short form (points and connectors alternate) is false: c59_exceptions shows that each exception in the statement occurs."
  },
  {
   "property": "C60",
   "status": "partial",
   "theorems": [
    "F15.c60_partial",
    "F15.c60",
    "F15.c60_wording",
    "F15.c60_said_partial",
    "F15.c60_false"
   ],
   "note": "Due (Spec/Due.lean) says for each message number what it claims. False of the code as stated (c60_false): behind a word IFR, GAT or IFPSTART that lacks what must follow it, after an error, the program reports untrue messages. Proved: no other message is untrue, and none at all if each such word is followed by what must follow it."
  },
  {
   "property": "C61",
   "status": "proved",
   "theorems": [
    "F15.c61",
    "F15.c61_empty",
    "F15.c61_accepted"
   ],
   "note": "SameShape, SameErrors and NumberError are in Spec/Kinds.lean. Relational theorem over pairs of runs (Lemmas/Kinds, Kinds2)."
  },
  {
   "property": "C62",
   "status": "proved",
   "theorems": [
    "F15.c62",
    "F15.c56_documented"
   ],
   "note": "steps (Spec/Time.lean) counts the primitive steps of the parser as a task (Model/Tasks); a step inside a primitive (scanning the table of patterns for one word, one string concatenation) counts as one."
  },
  {
   "property": "C63",
   "status": "proved",
   "theorems": [
    "F15.c63",
    "F15.c63_one",
    "F15.c63_text"
   ],
   "note": "The number of each error is given by c47 (tables in Spec/Faults). Examples show that the excluded places behave otherwise."
  },
  {
   "property": "C64",
   "status": "proved",
   "theorems": [
    "F15.c64",
    "F15.c64_text"
   ],
   "note": "The free text starts at the last word of an accepted beginning, so a word like VFR inside free text may be that word too; then the words after it follow those before it. Examples show that IFR and over-long words behave otherwise."
  },
  {
   "property": "C65",
   "status": "proved",
   "theorems": [
    "F15.c65",
    "F15.c65_text"
   ],
   "note": "Examples show that each of the three exceptions (initial speed and level alone, a cut beside a slash, a cut behind IFR and a point) is needed."
  },
  {
   "property": "C66",
   "status": "proved",
   "theorems": [
    "F15.c66",
    "F15.c66_model",
    "F15.c66_record",
    "F15.c66_token"
   ],
   "note": "The model (generated from the source by tools/gen_accessors.py) has object dictionaries, class attributes and references; appending one record object twice is left out, an example shows that it is then shared. This also justifies that the parser model treats records as values."
  },
  {
   "property": "C67",
   "status": "partial",
   "theorems": [
    "F15.c67_partial",
    "F15.c67_text_partial",
    "F15.c67_others",
    "F15.c67_count",
    "F15.c67_false"
   ],
   "note": "The bound on the number of errors is proved in full. Partial because the claim is false of the code: a SPEED/LEVEL/LEVEL word with two wrong flight levels gets error 40 twice with the same text (c67_false); everything else is proved to be different (c67_others: all of it when no such word is complained about)."
  },
  {
   "property": "C68",
   "status": "proved",
   "theorems": [
    "F15.c68",
    "F15.c68_only",
    "F15.c68_text"
   ],
   "note": "Spec/Meaning.lean has the rules, including the two places where they are odd (the cut-off second level of C37, the overlooked position of C28). c68_only: a list of elements follows the rules if and only if it is the parser's."
  },
  {
   "property": "C69",
   "status": "proved",
   "theorems": [
    "F15.c69",
    "F15.c69_text"
   ],
   "note": "Injectivity of the output, through the independent reader of C44. What str gives for the types is a parameter; it must be different for different types. That a position is valid is not printed, and numbers are printed with two decimals."
  },
  {
   "property": "C70",
   "status": "partial",
   "theorems": [
    "F15.c70_partial",
    "F15.c70_fresh",
    "F15.c70_end",
    "F15.c70_used",
    "F15.c70_false"
   ],
   "note": "Proved: a field 15 that begins with SPEED/VFR, or SPEED/LEVEL and a point or DCT, adds what a parse into a fresh sequence gives, whatever follows (c70_fresh); in general what is added depends only on the last element of the used sequence (c70_end), so of an earlier parse only on the flight rules at its end (c70_used); what is there stays (errors; all elements but the rules of the first, the course of the last but one and attributes of the last), and what the return value means. The rest is false (c70_false), so partial: a SID is only one in a fresh sequence, SPEED/VFR sets the rules of the first ADEP, the level goes to the old ADES."
  },
  {
   "property": "C71",
   "status": "proved",
   "theorems": [
    "F15.c71_cut",
    "F15.c71_join"
   ],
   "note": "roles, Overlooked and Gives are the words of C46, C68 and C26. An example shows that the overlooked point must be excluded: there the rest alone is rejected. Token indices are kept, so the elements compared include them."
  },
  {
   "property": "C72",
   "status": "proved",
   "theorems": [
    "F15.c72"
   ],
   "note": "Spec.Section and Spec.Remarks say what is inserted and where; roles, Gives, spaced and isFixed are the words of C46, C26, C50 and C22. Examples show that the rules cannot be changed on an ATS route, and that the exclusion of an ATS route behind coordinates is needed."
  },
  {
   "property": "C73",
   "status": "proved",
   "theorems": [
    "F15.c73_calls",
    "F15.c73_pass",
    "F15.c73_parse",
    "F15.c73_append"
   ],
   "note": "Right means Spec.courseOf, the rule of C31. Positions may be added and changed but not taken away: a course to an element that has lost its position would be left as it is. The geodesic calculation itself is a parameter of the model."
  },
  {
   "property": "C74",
   "status": "proved",
   "theorems": [
    "F15.c74_put",
    "F15.c74_leave"
   ],
   "note": "WithDirect (Spec/Direct) relates the two lists of elements. For the parse itself enough stack frames are assumed (4 per token), as in C22. That courses can change behind a point without a position is shown by an example."
  },
  {
   "property": "C75",
   "status": "proved",
   "theorems": [
    "F15.c75"
   ],
   "note": "Remarked (Spec/Remark) relates the two lists of elements. For the parse itself enough stack frames are assumed (4 per token), as in C22. That the two limits are needed is shown by an example."
  },
  {
   "property": "C76",
   "status": "proved",
   "theorems": [
    "F15.c76"
   ],
   "note": "SpeedIn and StayIn (Spec/Remark) say what remarks give. Tokens keep their indices, so the elements compared include them. For the parse itself enough stack frames are assumed (4 per token), as in C22."
  },
  {
   "property": "C77",
   "status": "proved",
   "theorems": [
    "F15.c77",
    "F15.c77_text",
    "F15.c77_normal"
   ],
   "note": "The writer is Spec/Write.lean (written); the program has none. Token texts are assumed to be ones the tokenizer delivers with the separators of field 15 (true of c77_text by C03). Enough stack frames (4 per word) are assumed, as in C22."
  },
  {
   "property": "C78",
   "status": "proved",
   "theorems": [
    "F15.c78",
    "F15.c78_only",
    "F15.c78_text"
   ],
   "note": "The rules for the messages are Spec/Reports.lean, those for the elements Spec/Meaning.lean (as in C68). As the program does, the rules overlook the position of a point between IFR and /SPEED VFR (C28) and the second level of a cruise climb behind a Mach number or a metric level (C37). Enough stack frames (4 per word) are assumed, as in C22."
  },
  {
   "property": "C79",
   "status": "proved",
   "theorems": [
    "F15.c79"
   ],
   "note": "Which words are numeric is Spec/Names.lean. Texts without a word are read alike by c61_empty."
  },
  {
   "property": "C80",
   "status": "proved",
   "theorems": [
    "F15.c80",
    "F15.c80_rules"
   ],
   "note": "How far the results agree is Spec/Trust.lean. If the first error is about the first word there is nothing before it."
  },
  {
   "property": "C81",
   "status": "proved",
   "theorems": [
    "F15.c81",
    "F15.c81_speeds"
   ],
   "note": "The sorts of words and the groups of attributes are Spec/Names.lean. Texts without a word are read alike by c61_empty."
  },
  {
   "property": "C82",
   "status": "proved",
   "theorems": [
    "F15.c82",
    "F15.c82_stays",
    "F15.c82_text"
   ],
   "note": "Extendable (Spec/Faults.lean) is: some continuation makes it a sentence of the grammar, which is what is accepted (C22)."
  },
  {
   "property": "C83",
   "status": "proved",
   "theorems": [
    "F15.c83_levels",
    "F15.c83_same_unit",
    "F15.c83_speeds"
   ],
   "note": "metres and metresPerSecond (Spec/Float.lean) are the exact values."
  },
  {
   "property": "C84",
   "status": "proved",
   "theorems": [
    "F15.c84"
   ],
   "note": "WrittenPosition (Spec/Float.lean) is the exact angle of the text; Rounded.double shows that IEEE doubles obey the laws assumed. 180E and 180W are different longitudes. Points given by bearing and distance go through geographiclib, which is not modelled numerically."
  },
  {
   "property": "C85",
   "status": "proved",
   "theorems": [
    "F15.c85"
   ],
   "note": "Puts C01, C02, C03, C17, C18 and C19 together for texts."
  },
  {
   "property": "C86",
   "status": "proved",
   "theorems": [
    "F15.c86",
    "F15.c86_one",
    "F15.c86_text",
    "F15.c86_which",
    "F15.c86_limits"
   ],
   "note": "Generalises C63 from words that fit nowhere to words that do not fit here. c86_which lists which words these are by the last word before the place; c86_limits shows the exclusions are needed."
  },
  {
   "property": "C87",
   "status": "proved",
   "theorems": [
    "F15.c87",
    "F15.c87_never",
    "F15.c87_each"
   ],
   "note": "The 'case _' branches that report message 0 (F15Parse.py:965, 1121, 1177, 1337, 1398) stand behind cases for all 19 base types; the model matches on the enumeration, and Lean checks that its matches are exhaustive without them."
  },
  {
   "property": "C88",
   "status": "proved",
   "theorems": [
    "F15.c88",
    "F15.c88_accepted"
   ],
   "note": "Relational proof over all 27 methods with two different instances of the arithmetic. Comparisons of computed numbers do not occur in the parser; the range checks work on integers."
  },
  {
   "property": "C89",
   "status": "proved",
   "theorems": [
    "F15.c89",
    "F15.c89_words",
    "F15.c89_size"
   ],
   "note": "Strengthens C18/C19 (elements only) and C50 (only without error 48, and over-long words anywhere) to all words and all results; the order of the shares is not claimed here (C50, C20)."
  },
  {
   "property": "C90",
   "status": "proved",
   "theorems": [
    "F15.c90",
    "F15.c90_count"
   ],
   "note": "c90: elements pinned down by Spec.Meaning, errors without the inserted words by Spec.Reported; c90_count: one error more per inserted word, errors of the wrong numbers a sublist."
  },
  {
   "property": "C91",
   "status": "proved",
   "theorems": [
    "F15.c91_leave",
    "F15.c91"
   ],
   "note": "c91_leave: leaving the connector out; c91: mistyping it; the derived rules are equal because the point before it is flown under IFR."
  },
  {
   "property": "C92",
   "status": "proved",
   "theorems": [
    "F15.c92"
   ],
   "note": "c92. The examples show that both side conditions are needed: a remark behind a garbled point goes to the element before it, and a STAR behind a garbled first point is taken for a SID."
  },
  {
   "property": "C93",
   "status": "proved",
   "theorems": [
    "F15.c93",
    "F15.c93_text"
   ],
   "note": "c93_text says the same of two texts; the garbled text has its words in other places. The derived rules follow from the rules of the elements (C14). C92 is the case of points and connectors without remarks, where speeds and levels are equal too."
  },
  {
   "property": "C94",
   "status": "proved",
   "theorems": [
    "F15.c94",
    "F15.c94_text"
   ],
   "note": "c94_text says the same of two texts. C93 says more of one garbled part (speeds and levels, courses)."
  }
 ]
}