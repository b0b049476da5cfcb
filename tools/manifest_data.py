c("C01", "proved", "c01_locations")
c("C02", "proved", "c02_disjoint")
c("C03", "proved", "c03_tokens_iff c03_nothing_lost c03_no_separator_in_token c03_untyped")
c("C04", "proved", "c04_layout c04_layout_exists c04_retokenize c04_same_layout")
c("C05", "proved", "c05_reuse c05_cursor_reset")
c("C06", "proved", "c06_at c06_first c06_last c06_next c06_previous c06_next_previous c06_peek c06_peek_next c06_remove c06_append_insert c06_history c06_api c06_looks")
c("C07", "proved", "c07_patterns_valid c07_first_match c07_unknown c07_unknown_base")
c("C08", "proved", "c08_too_long c08_unknown_above_17 c08_short c08_preserves")
c("C09", "proved", "c09_foreign c09_foreign_token")
c("C10", "proved", "c10_speed_level c10_speed_vfr c10_speed_level_plus c10_stay_time c10_point c10_point_subtypes c10_keywords c10_stay c10_sid_star c10_route")
c("C11", "partial", "c11_partial c11_wrong c11_recognised c11_false", "False of the code: the rows for N speed, A first level, S or M second level ask for four digits after A. c11_false is the negation, c11_partial the true part (all other combinations).")
c("C12", "proved", "c12")
c("C13", "proved", "c13 c13_empty c13_documented")
c("C14", "proved", "c14 c14_start")
c("C15", "partial", "c15_partial c15_returns_partial c15_false c15_exact c15_otherwise c15_exact_text", "False of the code: C/PNT/N0450A0450S1130 raises ValueError (c15_false). Proved: only such tokens, or running out of stack, can make parse_f15 raise; and exactly when: parse_f15 raises iff the field with well-formed cruise climb words in the places of the malformed ones yields a level error about one of those words (c15_exact, c15_exact_text), and otherwise returns (c15_otherwise).")
c("C16", "proved", "c16_enough c16_same c16_grows")
c("C17", "proved", "c17 c60_wording")
c("C18", "proved", "c18 c18_c19")
c("C19", "proved", "c19_count c18_c19")
c("C20", "partial", "c20_partial c20_order c20_order_text c20_accepted c20_false", "False of the code after error 48 (c20_false); true whenever no error 48 is reported, in particular for accepted routes. c20_order: whatever the field 15, only points refused with error 48 can be out of order.")
c("C21", "proved", "c21")
c("C22", "proved", "c22 c22_sound")
c("C23", "proved", "c23_first c23_lone")
c("C24", "proved", "c24_tokens c24_elements")
c("C25", "proved", "c25_values c25_start c25_accepted")
c("C26", "proved", "c26 c26_ades")
c("C37", "partial", "c37_partial c37_others c37_false", "False of the code for Mach speeds and for first levels in tens of metres: the unit of the second level is cut off (c37_false). Proved: the correct case, what happens in the others, and that no other element has a cruise-to level.")
c("C38", "proved", "c38 c38_adep c38_exception")
c("C39", "proved", "c39 c39_section")
c("C42", "partial", "c42_partial c42_false", "False of the code (c42_false): speed and level can be overwritten at once, and after errors tokens are skipped silently. Proved for every accepted field 15 up to overwriting.")
c("C45", "partial", "c45_partial c45_false", "False of the code: any token is taken as the point of a cruise climb (c45_false); true of all other elements.")
c("C46", "proved", "c46_tokens c46")
c("C27", "proved", "c27 c27_value", "c27_value assumes the laws of rounded arithmetic (Spec/Float.lean, satisfied by Rounded.double).")
c("C28", "partial", "c28_only_latlong c28_partial c28_exact c28_false", "The converse is false of the code: a lat/long point between IFR and SPEED/VFR gets no position (c28_false). c28_partial excludes exactly the points preceded by an IFR word and followed by a slash and a SPEED/VFR.")
c("C31", "proved", "c31")
c("C32", "partial", "c32_partial c32_false", "False of the code: the calculation skips one point without position (c32_false).")
c("C40", "proved", "c40 c40_range c40_accepted c40_none")
c("C41", "proved", "c41 c41_again")
c("C43", "partial", "c43_in_range c43_partial c43_false c43_ends", "False of the code: get_element_at(size) raises IndexError (c43_false).")
c("C29", "partial", "c29_only_faults c29_partial c29_positions c29_accepted c29_value c29_false", "False of the code for a point between IFR and SPEED/VFR, which is not range checked (c29_false); true of every other point (c29_partial excludes exactly the points preceded by an IFR word and followed by a slash and a SPEED/VFR) and of every element with a position.")
c("C30", "proved", "c30_degree c30_degree_minute")
c("C36", "proved", "c36 c36_only_odd c36_reported c36_accepted")

c("C33", "proved", "c33 c33_cruise c33_same", "Assumes the laws of rounded arithmetic (Spec/Float.lean); Rounded.double shows that doubles obey them.")
c("C34", "proved", "c34", "Assumes the laws of rounded arithmetic. Nearest whole number for knots and km/h; for Mach up to 0.002 m/s of the calculated speed.")
c("C35", "proved", "c35_constant c35_value c35_altitude c35_mach", "c35_constant needs no laws; the others assume the laws of rounded arithmetic.")
c("C44", "partial", "c44_document c44_iff c44_partial c44_accepted c44_false", "False of the code: texts are not escaped, and the error messages 43 and 45 contain a raw < (c44_false). True of every accepted field 15 of plain characters and of every parse without these two errors; c44_iff says exactly when the output is readable.")
c("C47", "proved", "c47 c47_first c47_located c47_disjoint c47_unique c47_fault c47_accepts", "c47_unique: the first fault is a function of the tokens; c47_fault is the converse of c47_first. c47_first also fixes the message (Spec/Faults.lean lists the first faults and their messages along the grammar).")
c("C48", "proved", "c48 c48_uncut c48_accepted c48_false", "c48_false shows that the exception is needed.")
c("C49", "proved", "c49_speed_level c49_speed_vfr c49_tracks c49_routes c49_named_points c49_single c49_complete", "Subtypes of positions and of rule changes are in C10, of cruise climbs in C11; c49_complete says nothing is left out.")
c("C50", "proved", "c50 c50_exception divides_starts", "Divides and Local are in Spec/Local.lean. c50_exception shows that error 48 must be excluded. Over-long words (errors themselves) may be put into the free text of a later element.")
c("C51", "proved", "c51 c51_layout c51_blanks c51_words", "Relational theorem: relocating the tokens commutes with every method (Lemmas/Shift.lean).")
c("C52", "proved", "c52_record c52_sequence c52_parse c52_fits c52_tokens c52_short c52_short_parse c52_descriptions", "The two-decimal format of floats is a parameter of the model; that bearings, distances and coordinates fit is a hypothesis.")
c("C53", "proved", "c53 c53_text c53_kept", "CommonPast is in Spec/Causal.lean. Both exceptions are shown to occur. Both parses are assumed to return (see C16 for when they do).")
c("C54", "proved", "c54 c54_text c54_sorted", "ErrorsInOrder is in Spec/Causal.lean. Both exceptions are shown to occur.")
c("C55", "partial", "c55_tokens c55_partial c55_accepted c55_false full_eq", "False of the code as stated (c55_false): after an error the parser may stop silently at a word that ends a break. Proved: the types, the indices, the accepted case, and that no other stop is possible.")
c("C56", "partial", "c56_partial c56_documented c56_result c56_false", "False of a tokenizer shared between threads (c56_false), although main.py claims it; proved for threads that share no objects. Threads can change, and exceptions from outside can strike, inside tokenize (after every loop pass) and inside parse_f15 (at every primitive step, Model/Tasks).")
c("C57", "proved", "c57", "Honest programs, any schedule that can change thread inside tokenize and parse_f15, and any exception in them (by itself or from outside).")
c("C58", "proved", "c58 c58_prefix c58_returned c58_same", "Strike (Model/Crash.lean) is the exception from outside: which step, and which of its writes are done. GoesOnFrom and Settled are in Spec/Crash.lean. Exceptions inside a pure helper are attributed to the step that calls it.")
c("C59", "proved", "c59 c59_first c59_types c59_connector c59_exceptions", "Joins, mayFollow and mayStart are in Spec/Connect.lean. The README's short form (points and connectors alternate) is false: c59_exceptions shows that each exception in the statement occurs.")
c("C60", "partial", "c60_partial c60 c60_wording c60_said_partial c60_false", "Due (Spec/Due.lean) says for each message number what it claims. False of the code as stated (c60_false): behind a word IFR, GAT or IFPSTART that lacks what must follow it, after an error, the program reports untrue messages. Proved: no other message is untrue, and none at all if each such word is followed by what must follow it.")
c("C61", "proved", "c61 c61_empty c61_accepted", "SameShape, SameErrors and NumberError are in Spec/Kinds.lean. Relational theorem over pairs of runs (Lemmas/Kinds, Kinds2).")
c("C62", "proved", "c62 c56_documented", "steps (Spec/Time.lean) counts the primitive steps of the parser as a task (Model/Tasks); a step inside a primitive (scanning the table of patterns for one word, one string concatenation) counts as one.")
c("C63", "proved", "c63 c63_one c63_text", "The number of each error is given by c47 (tables in Spec/Faults). Examples show that the excluded places behave otherwise.")
c("C64", "proved", "c64 c64_text", "The free text starts at the last word of an accepted beginning, so a word like VFR inside free text may be that word too; then the words after it follow those before it. Examples show that IFR and over-long words behave otherwise.")
c("C65", "proved", "c65 c65_text", "Examples show that each of the three exceptions (initial speed and level alone, a cut beside a slash, a cut behind IFR and a point) is needed.")
c("C66", "proved", "c66 c66_model c66_record c66_token", "The model (generated from the source by tools/gen_accessors.py) has object dictionaries, class attributes and references; appending one record object twice is left out, an example shows that it is then shared. This also justifies that the parser model treats records as values.")
c("C67", "partial", "c67_partial c67_text_partial c67_others c67_count c67_false", "The bound on the number of errors is proved in full. Partial because the claim is false of the code: a SPEED/LEVEL/LEVEL word with two wrong flight levels gets error 40 twice with the same text (c67_false); everything else is proved to be different (c67_others: all of it when no such word is complained about).")
c("C68", "proved", "c68 c68_only c68_text", "Spec/Meaning.lean has the rules, including the two places where they are odd (the cut-off second level of C37, the overlooked position of C28). c68_only: a list of elements follows the rules if and only if it is the parser's.")
c("C69", "proved", "c69 c69_text", "Injectivity of the output, through the independent reader of C44. What str gives for the types is a parameter; it must be different for different types. That a position is valid is not printed, and numbers are printed with two decimals.")
c("C70", "partial", "c70_partial c70_fresh c70_end c70_used c70_false", "Proved: a field 15 that begins with SPEED/VFR, or SPEED/LEVEL and a point or DCT, adds what a parse into a fresh sequence gives, whatever follows (c70_fresh); in general what is added depends only on the last element of the used sequence (c70_end), so of an earlier parse only on the flight rules at its end (c70_used); what is there stays (errors; all elements but the rules of the first, the course of the last but one and attributes of the last), and what the return value means. The rest is false (c70_false), so partial: a SID is only one in a fresh sequence, SPEED/VFR sets the rules of the first ADEP, the level goes to the old ADES.")
c("C71", "proved", "c71_cut c71_join", "roles, Overlooked and Gives are the words of C46, C68 and C26. An example shows that the overlooked point must be excluded: there the rest alone is rejected. Token indices are kept, so the elements compared include them.")
c("C72", "proved", "c72", "Spec.Section and Spec.Remarks say what is inserted and where; roles, Gives, spaced and isFixed are the words of C46, C26, C50 and C22. Examples show that the rules cannot be changed on an ATS route, and that the exclusion of an ATS route behind coordinates is needed.")
c("C73", "proved", "c73_calls c73_pass c73_parse c73_append", "Right means Spec.courseOf, the rule of C31. Positions may be added and changed but not taken away: a course to an element that has lost its position would be left as it is. The geodesic calculation itself is a parameter of the model.")
c("C74", "proved", "c74_put c74_leave", "WithDirect (Spec/Direct) relates the two lists of elements. For the parse itself enough stack frames are assumed (4 per token), as in C22. That courses can change behind a point without a position is shown by an example.")
c("C75", "proved", "c75", "Remarked (Spec/Remark) relates the two lists of elements. For the parse itself enough stack frames are assumed (4 per token), as in C22. That the two limits are needed is shown by an example.")
c("C76", "proved", "c76", "SpeedIn and StayIn (Spec/Remark) say what remarks give. Tokens keep their indices, so the elements compared include them. For the parse itself enough stack frames are assumed (4 per token), as in C22.")
c("C77", "proved", "c77 c77_text c77_normal", "The writer is Spec/Write.lean (written); the program has none. Token texts are assumed to be ones the tokenizer delivers with the separators of field 15 (true of c77_text by C03). Enough stack frames (4 per word) are assumed, as in C22.")
c("C78", "proved", "c78 c78_only c78_text", "The rules for the messages are Spec/Reports.lean, those for the elements Spec/Meaning.lean (as in C68). As the program does, the rules overlook the position of a point between IFR and /SPEED VFR (C28) and the second level of a cruise climb behind a Mach number or a metric level (C37). Enough stack frames (4 per word) are assumed, as in C22.")
c("C79", "proved", "c79", "Which words are numeric is Spec/Names.lean. Texts without a word are read alike by c61_empty.")
c("C80", "proved", "c80 c80_rules", "How far the results agree is Spec/Trust.lean. If the first error is about the first word there is nothing before it.")
c("C81", "proved", "c81 c81_speeds", "The sorts of words and the groups of attributes are Spec/Names.lean. Texts without a word are read alike by c61_empty.")
c("C82", "proved", "c82 c82_stays c82_text", "Extendable (Spec/Faults.lean) is: some continuation makes it a sentence of the grammar, which is what is accepted (C22).")
c("C83", "proved", "c83_levels c83_same_unit c83_speeds", "metres and metresPerSecond (Spec/Float.lean) are the exact values.")
c("C84", "proved", "c84", "WrittenPosition (Spec/Float.lean) is the exact angle of the text; Rounded.double shows that IEEE doubles obey the laws assumed. 180E and 180W are different longitudes. Points given by bearing and distance go through geographiclib, which is not modelled numerically.")
c("C85", "proved", "c85", "Puts C01, C02, C03, C17, C18 and C19 together for texts.")
c("C86", "proved", "c86 c86_one c86_text c86_which c86_limits", "Generalises C63 from words that fit nowhere to words that do not fit here. c86_which lists which words these are by the last word before the place; c86_limits shows the exclusions are needed.")
c("C87", "proved", "c87 c87_never c87_each", "The 'case _' branches that report message 0 (F15Parse.py:965, 1121, 1177, 1337, 1398) stand behind cases for all 19 base types; the model matches on the enumeration, and Lean checks that its matches are exhaustive without them.")
c("C88", "proved", "c88 c88_accepted", "Relational proof over all 27 methods with two different instances of the arithmetic. Comparisons of computed numbers do not occur in the parser; the range checks work on integers.")
c("C89", "proved", "c89 c89_words c89_size", "Strengthens C18/C19 (elements only) and C50 (only without error 48, and over-long words anywhere) to all words and all results; the order of the shares is not claimed here (C50, C20).")
c("C90", "proved", "c90 c90_count", "c90: elements pinned down by Spec.Meaning, errors without the inserted words by Spec.Reported; c90_count: one error more per inserted word, errors of the wrong numbers a sublist.")
c("C91", "proved", "c91_leave c91", "c91_leave: leaving the connector out; c91: mistyping it; the derived rules are equal because the point before it is flown under IFR.")
c("C92", "proved", "c92", "c92. The examples show that both side conditions are needed: a remark behind a garbled point goes to the element before it, and a STAR behind a garbled first point is taken for a SID.")
c("C93", "proved", "c93 c93_text", "c93_text says the same of two texts; the garbled text has its words in other places. The derived rules follow from the rules of the elements (C14). C92 is the case of points and connectors without remarks, where speeds and levels are equal too.")
c("C94", "proved", "c94 c94_text", "c94_text says the same of two texts. C93 says more of one garbled part (speeds and levels, courses).")
