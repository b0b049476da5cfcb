#!/usr/bin/env python3
"""Writes /verif/properties.jsonl (one JSON object per line)."""
import json, os
P = []
def p(title, statement, quantifier, why, anchors):
    P.append(dict(id="C%02d" % (len(P)+1), title=title, statement=statement,
                  quantifier=quantifier, why_tests_cant=why, anchors=anchors))

TK="Tokenizer/Tokenize.py"; TS="Tokenizer/Tokens.py"; SY="F15_Parser/F15TokenSyntaxDescriptions.py"
PA="F15_Parser/F15Parse.py"; ERS="F15_Parser/ExtractedRouteSequence.py"; REC="F15_Parser/ExtractedRouteRecord.py"
UT="Utilities/Utils.py"; EM="F15_Parser/ErrorMessageDefinitions.py"; CO="Utilities/Constants.py"

# ---------------- tokenizer
p("Token locations are exact",
  "After tokenize(), every token satisfies 0 <= start < end <= len(source) and source[start:end] is exactly the token text, so a GUI can highlight it.",
  "every source string, every separator set, every token produced",
  "The positions depend on arbitrary interleavings of separators and text in strings of unbounded length; tests can only sample a few strings.",
  [TK+":Tokenize.tokenize", TK+":Tokenize.__save_token", TS+":Tokens.create_append_token"])
p("Tokens are in source order and disjoint",
  "The tokens are listed in increasing position and no two overlap: each token ends at or before the start of the next one.",
  "every source string, every separator set, every pair of tokens",
  "Ordering is a pairwise property of an unbounded list for every possible input string.",
  [TK+":Tokenize.tokenize"])
p("Tokenization is exactly the maximal runs plus slashes",
  "A piece (start,end) of the source is a token if and only if it is a maximal run of non-separator characters, or it is a single '/' when '/' is one of the separators. In particular no non-separator character is lost, no separator other than '/' appears in any token, and a '/' is never glued to neighbouring text.",
  "every source string, every separator set, every candidate interval",
  "An if-and-only-if over all intervals of all strings; a test suite can neither enumerate the inputs nor the intervals.",
  [TK+":Tokenize.tokenize", TK+":Tokenize.set_whitespace"])
p("Token texts do not depend on the layout of whitespace",
  "Leading/trailing separators, repeated separators and replacing one (non-slash) separator by another never change the sequence of token texts; re-tokenizing the texts joined by single separators gives the same texts back.",
  "every list of token texts and every layout of separators between them",
  "Universal over all layouts and all strings.",
  [TK+":Tokenize.tokenize"])
p("Tokenizer reuse: the result depends only on the last string and separators",
  "After any history of set_string_to_tokenize / set_whitespace / tokenize calls, the tokens returned are a function of the string and separators in force at the last tokenize() call, nothing leaks from earlier strings.",
  "every finite sequence of API calls on one Tokenize instance",
  "A history property: quantifies over all call sequences.",
  [TK+":Tokenize", TK+":Tokenize.tokenize", TK+":Tokenize.set_string_to_tokenize"])
p("Token cursor behaves like an index into a list",
  "For any sequence of first/last/next/previous/peek/current/append/insert/remove calls, the container behaves like a plain list with an integer cursor: a call returns the element at the designated position or None if it is out of range, peek/current never move the cursor, next followed by previous returns to the same element, and removing above a split index keeps exactly the prefix.",
  "every token list, cursor position (including out of range) and operation sequence",
  "Histories are unbounded and boundary cases (negative, past the end) combine with every list length.",
  [TS+":Tokens"])
# ---------------- classification
p("Token classification is first-match over the documented patterns",
  "get_token_type returns the base/sub type of the first configuration row whose regular expression matches the whole token, and UNKNOWN exactly when no row matches; matching is membership in the language of the expression (for every way of splitting the text).",
  "every token string",
  "The set of strings is infinite; overlap between ~110 rows cannot be excluded by sampling.",
  [SY+":F15TokenSyntaxDefinition.get_token_type", SY+":F15TokenSyntaxDefinition.F15_SB_CONFIGURATION"])
p("Over-long tokens are flagged and nothing else is",
  "After type assignment a token has base type TOO_LONG if and only if its text has more than 25 characters; no configuration row can match more than 17 characters, so tokens of 18 to 25 characters are always UNKNOWN.",
  "every token list and every token text of any length",
  "Unbounded text length.",
  [PA+":ParseF15.assign_syntax_descriptions", SY+":F15TokenSyntaxDefinition.MAX_TOKEN_LENGTH"])
p("Tokens with foreign characters are never recognised",
  "A token containing any character other than A-Z and 0-9 is classified UNKNOWN (or TOO_LONG), with the sole exception of the one-character token '/'; in particular lower-case input is never recognised as a route element.",
  "every token string over the whole character set",
  "Quantifies over the whole of Unicode and every position in the token.",
  [SY+":F15TokenSyntaxDefinition.F15_SB_CONFIGURATION", PA+":ParseF15.assign_syntax_descriptions"])
p("Each element kind has exactly its documented shape",
  "A token is a point if and only if it is 1-5 letters (and no reserved word or NAT/PTS track), 1-5 letters plus six digits, or one of the four lat/long shapes; a SPEED/LEVEL if and only if it is M+3 digits or K/N+4 digits followed by F/A+3 digits or S/M+4 digits; SPEED/VFR likewise with the suffix VFR; a stay time if and only if it is a four digit HHMM with HH<24 and MM<60.",
  "every token string",
  "If-and-only-if over all strings, with shadowing between rows.",
  [SY+":F15TokenSyntaxDefinition.F15_SB_CONFIGURATION"])
p("Every SPEED/LEVEL/LEVEL combination is recognised",
  "All 48 cruise-climb combinations (speed K/N/M, first level F/S/A/M, second level F/S/A/M, with the digit counts of the plain levels) are recognised as cruise-climb elements of their own subtype.",
  "every combination of unit letters and digits",
  "Quantifies over all digits for each of 48 combinations; a table typo affects a whole family of strings.",
  [SY+":F15TokenSyntaxDefinition.F15_SB_CONFIGURATION"])
# ---------------- parser frame
p("ERS always starts with ADEP and ends with ADES",
  "Whenever parse_f15 returns on a fresh sequence, the first element is the ADEP aerodrome placeholder and the last one is the ADES placeholder (indices 0,0, point/aerodrome types), also for empty or totally erroneous input; there are at least two elements.",
  "every token list / field 15 string",
  "Must survive every error and re-synchronisation path for inputs of any length.",
  [PA+":ParseF15.parse_f15", ERS+":ExtractedRouteSequence.__init__", ERS+":ExtractedRouteSequence.add_dummy_ades"])
p("Return value agrees with the error list",
  "parse_f15 returns True exactly when no error record has been added to the sequence, False otherwise; an empty field 15 returns False with exactly the error 'Field 15 is empty'.",
  "every token list",
  "Quantifies over all inputs and all error paths.",
  [PA+":ParseF15.parse_f15", ERS+":ExtractedRouteSequence.get_number_of_errors"])
p("Derived flight rules summarise the route",
  "After parsing a non-empty field 15 the derived rules are: V if the ADEP is VFR and no element is IFR, Z if the ADEP is VFR and some element is IFR, Y if the ADEP is not VFR and some element is VFR, I otherwise. A field 15 starting with SPEED/VFR gives V or Z, one starting with SPEED/LEVEL gives I or Y, and the ADES carries the rules of the element before it.",
  "every token list",
  "Depends on the whole output list for inputs of any length.",
  [PA+":ParseF15.parse_f15", ERS+":ExtractedRouteSequence.set_derived_flight_rules"])
p("The parser never raises",
  "For every token list parse_f15 returns normally: no ValueError, KeyError, IndexError or AttributeError, whatever the user typed.",
  "every token list / field 15 string",
  "A crash may hide behind one token shape in one context; only a proof over all inputs excludes it.",
  [PA+":ParseF15", PA+":ParseF15.assign_altitude", EM+":ErrorMessages.error_messages"])
p("Termination and recursion depth",
  "Parsing terminates on every token list; the parser's call nesting is at most a fixed multiple of the number of tokens plus a constant. Conversely the nesting does grow with the input, so that for any interpreter recursion limit there are valid routes that exceed it.",
  "every token list and every recursion limit",
  "Termination and worst-case depth are about all inputs, of unbounded length.",
  [PA+":ParseF15.re_sync_parser_after_error", PA+":ParseF15.break_text_save", PA+":ParseF15.post_point"])
p("Every error record points at an offending token with a catalogue message",
  "Each error record carries the text, indices and types of one token of the input (or is the NULL record of the empty field), and its message is one of the catalogue messages with every '!' replaced by the token text.",
  "every token list, every error record",
  "All error paths for all inputs.",
  [PA+":ParseF15.add_error_no_re_sync", ERS+":ExtractedRouteSequence.add_error", EM+":ErrorMessages.error_messages"])
p("Every route record comes from an input token",
  "Each element between ADEP and ADES carries the indices of one input token and that token's text (or 'VFR', when the token is a SPEED/VFR element); the base/sub types are those of the token unless it was re-typed as SID or STAR.",
  "every token list, every element",
  "All control paths for all inputs.",
  [PA+":ParseF15.add_record", PA+":ParseF15.assign_speed_vfr", PA+":ParseF15.sid_star"])
p("No token is recorded twice",
  "Each input token gives rise to at most one element of the sequence, so the sequence has at most (number of tokens + 2) elements.",
  "every token list",
  "Re-synchronisation re-enters the parser at arbitrary points of arbitrarily long inputs.",
  [PA+":ParseF15.add_record", PA+":ParseF15.re_sync_parser_after_error", PA+":ParseF15.route"])
p("Elements appear in source order",
  "The elements of the sequence appear in the order in which their tokens appear in field 15.",
  "every token list",
  "Order must be preserved by every error-recovery path.",
  [PA+":ParseF15.route", PA+":ParseF15.add_record"])
p("Errors and elements are never retracted",
  "Parsing only ever appends: the elements and errors present in the sequence passed in are still there, in the same order, after the call (the last elements present may only have their attributes updated).",
  "every token list and every initial sequence",
  "A history/monotonicity property over all executions.",
  [PA+":ParseF15", ERS+":ExtractedRouteSequence.append_element", ERS+":ExtractedRouteSequence.add_error"])
p("Accepted field 15s are exactly the sentences of the grammar",
  "parse_f15 returns True if and only if the token sequence is a sentence of an explicit grammar (SPEED/LEVEL or SPEED/VFR start, SID second, points/connectors/modifiers, rule-change sections, cruise climb, stay, STAR or T last) whose numeric fields satisfy the range checks.",
  "every token list",
  "An if-and-only-if between a 1,700 line recursive parser and a grammar, over all inputs.",
  [PA+":ParseF15"])
p("First element rule",
  "If the first token is neither SPEED/LEVEL nor SPEED/VFR the first error is message 1 on the first token; a lone SPEED/LEVEL gives error 49.",
  "every token list",
  "All continuations after the first token.",
  [PA+":ParseF15.parse_f15"])
p("SID only second, STAR and T only last, in any accepted route",
  "In a field 15 accepted without errors (outside free VFR/OAT/IFPS text and the free slot of a cruise climb): a SID element occurs only directly after the first SPEED/LEVEL, a STAR or a truncation indicator only as last token; the element typed SID is element 1, the element typed STAR is the last before ADES.",
  "every accepted token list",
  "Quantifies over all accepted inputs and all positions.",
  [PA+":ParseF15.sid", PA+":ParseF15.sid_star", PA+":ParseF15.star", PA+":ParseF15.truncate"])
p("Flight rules of every element",
  "Every element's flight rules are one of IFR, VFR, OAT, IFPS, or empty, and they are empty only if field 15 did not start correctly; every point, ATS route and SPEED/LEVEL element of an accepted IFR part is IFR; break elements carry their own rule.",
  "every token list, every element",
  "All control paths for inputs of any length.",
  [PA+":ParseF15.RULES", PA+":ParseF15.break_start", PA+":ParseF15.point", PA+":ParseF15.carry_speed_altitude_rules_forward"])
p("Speed and level are carried forward",
  "In the sequence produced by an accepted field 15, every element except the ADES placeholder has the speed and level most recently given at or before it (a SPEED/LEVEL or SPEED/VFR applies to the point just before it and everything after it until the next change).",
  "every accepted token list, every element",
  "The value at one element depends on an arbitrarily distant earlier token.",
  [PA+":ParseF15.carry_speed_altitude_rules_forward", PA+":ParseF15.assign_speed_altitude", PA+":ParseF15.assign_speed_vfr"])
p("Coordinates are decoded correctly",
  "For every lat/long point of the final sequence that has no bearing/distance suffix and is marked as having a position, latitude = +/-(degrees + minutes/60) with S negative, longitude likewise with W negative.",
  "every token list, every lat/long element, all digit values",
  "Millions of digit combinations in arbitrary contexts, and later elements must not disturb the value.",
  [PA+":ParseF15.assign_latitude", PA+":ParseF15.assign_longitude", PA+":ParseF15.assign_ll_deg", PA+":ParseF15.assign_ll_deg_min"])
p("Position flag means lat/long token",
  "An element is marked as having a valid position only if its token is one of the four lat/long shapes, and every lat/long point of the route is so marked.",
  "every token list, every element",
  "All control paths.",
  [PA+":ParseF15.assign_lat_long_bearing_distance", PA+":ParseF15.v_to_i_to_v_rule_change"])
p("Angle range errors are reported exactly when out of range",
  "For a lat/long or bearing point, an error 42-46 is added exactly when latitude degrees exceed 90, longitude degrees exceed 180, minutes exceed 59, the total exceeds 90/180 degrees, or the bearing exceeds 360; in an accepted route every decoded latitude lies in [-90,90] and longitude in [-180,180].",
  "every point token",
  "All digit combinations.",
  [PA+":ParseF15.assign_lat_long_bearing_distance", UT+":Utils.is_degree_semantics", UT+":Utils.is_degree_minute_semantics"])
p("Degree/minute check is the arithmetic condition",
  "is_degree_minute_semantics(ddmm, max, split) is true iff minutes <= 59 and degrees*60+minutes <= max*60, for a string of digits split after the degrees; is_degree_semantics is true iff the value is <= max.",
  "every digit string with two minute digits, every maximum",
  "Unbounded domain of numbers.",
  [UT+":Utils.is_degree_semantics", UT+":Utils.is_degree_minute_semantics"])
p("Bearing and distance are those to the next located element",
  "In the final sequence, whenever two neighbouring elements both have a position, the first one's bearing/distance are the geodesic azimuth/distance between their final coordinates; with exactly one position-less element in between, they are those to the element after it; elements without position have no bearing/distance.",
  "every token list, every index",
  "Coordinates of a bearing/distance point are rewritten after a first computation; must hold for all sequences.",
  [PA+":ParseF15.assign_azimuth_distance_between_points", PA+":ParseF15.set_azimuth_and_distance", PA+":ParseF15.resolve_real_bd_point"])
p("Bearing/distance never skip over a point",
  "The documentation says bearing/distance go from a point to the next point and are only available when both have coordinates: an element followed by a point without coordinates must not get a bearing/distance to some later point.",
  "every token list, every point",
  "Arbitrary sequences of points and connectors.",
  [PA+":ParseF15.assign_azimuth_distance_between_points", REC+":ExtractedRouteRecord.get_bearing"])
p("Level conversion to metres",
  "For every level the SI altitude is the level converted to metres rounded to the nearest metre: F and A are hundreds of feet (0.3048 m), S and M are tens of metres; the result does not depend on floating point rounding.",
  "every level value, every arithmetic with small relative error",
  "All values times all rounding behaviours.",
  [PA+":ParseF15.assign_altitude", CO+":Constants.FEET_TO_METERS"])
p("Speed conversion to metres per second",
  "For every speed the SI speed is the speed converted with the documented factors (knots 0.514444, km/h 0.2777778, Mach via the speed of sound at the assigned altitude) rounded to nearest (for Mach: to the nearest of the calculated speed, which is correct to 0.002 m/s).",
  "every speed value and altitude",
  "All values times altitudes.",
  [PA+":ParseF15.assign_speed", UT+":Utils.mach_to_ms_speed"])
p("Speed of sound model",
  "The speed of sound used is constant above 11,000 m, non-increasing in altitude, and strictly positive, so Mach speeds are monotone in the Mach number.",
  "every altitude >= 0 and Mach number",
  "Real-valued domain.",
  [UT+":Utils.speed_of_sound_at_altitude", UT+":Utils.mach_to_ms_speed"])
p("Flight level granularity check",
  "Assigning a level adds exactly one error 40 when it is a flight level (F) not divisible by 5, and none otherwise.",
  "every level token in every context",
  "All values in all contexts.",
  [PA+":ParseF15.assign_altitude"])
p("Cruise-climb target level",
  "For an accepted cruise climb C/POINT/SPEED LEVEL LEVEL the element gets the first level as level and the second level as cruise-to level (text and metres); for LEVEL PLUS the cruise-to text is PLUS.",
  "every cruise-climb element",
  "48+12 families of strings with all digits.",
  [PA+":ParseF15.assign_speed_altitude_altitude", PA+":ParseF15.assign_speed_altitude_plus"])
p("SPEED/VFR semantics",
  "In an accepted field 15 a SPEED/VFR adds a VFR element with the given speed and default level F050, and gives the preceding element the same speed and level. A route starting with it has a VFR ADEP, accepted or not. (After an error the VFR element can be given another speed, level and rules.)",
  "every accepted token list, every SPEED/VFR occurrence; for the ADEP every token list",
  "All contexts.",
  [PA+":ParseF15.assign_speed_vfr", PA+":ParseF15.DEFAULT_ALTITUDE"])
p("Break text is the text of the section",
  "In an accepted field 15, the break text of a VFR/OAT/IFPSTOP element is exactly the texts of the tokens following it up to and including its terminating IFR/GAT/IFPSTART (or the end of field 15), joined by single spaces; other elements have no break text.",
  "every accepted token list",
  "Free text of arbitrary length and content.",
  [PA+":ParseF15.break_text_save", PA+":ParseF15.break_start", REC+":ExtractedRouteRecord.append_break_text"])
p("Stay time in minutes",
  "A stay HHMM following a point sets exactly HH*60+MM minutes on that point, between 0 and 1439; elements without stay have 0.",
  "every token list, every stay element",
  "All contexts and values.",
  [PA+":ParseF15.stay", PA+":ParseF15.stay_time", REC+":ExtractedRouteRecord.set_stay_time"])
p("Parsing is independent of the token list's previous use",
  "The result of parse_f15 depends only on the token texts and positions: neither the cursor position nor types left by earlier parses matter, and parsing the same tokens again into a fresh sequence gives an identical result.",
  "every token list, every previous cursor/type state",
  "History property.",
  [PA+":ParseF15.assign_syntax_descriptions", PA+":ParseF15.parse_f15", TS+":Tokens.get_first_token"])
p("No token is silently ignored",
  "Every token of field 15 is either reflected in the sequence (element, speed/level, stay time, break text, separator) or reported in the error list.",
  "every token list",
  "Recovery paths for all inputs.",
  [PA+":ParseF15.re_sync_parser_after_error", PA+":ParseF15.break_end", PA+":ParseF15.cruise_climb_c"])
p("Element access is total",
  "get_element_at returns the element for an index in range and None for any other index; first/last/previous-to-last agree with it.",
  "every sequence and every integer index",
  "All lengths and indices.",
  [ERS+":ExtractedRouteSequence.get_element_at", ERS+":ExtractedRouteSequence.get_last_element", ERS+":ExtractedRouteSequence.get_previous_to_last_element"])
p("XML output is faithful and well formed",
  "as_xml contains one ers_record per element and one error_record per error, in order, with the element texts and attributes recoverable, and is a well-formed document.",
  "every extracted route sequence",
  "All texts, including characters with XML meaning.",
  [ERS+":ExtractedRouteSequence.as_xml", REC+":ExtractedRouteRecord.as_xml"])
p("Only points, connectors and rule changes become elements of an accepted route",
  "In an accepted field 15 no '/', STAY, time, T, IFR/GAT/IFPSTART, unknown or over-long token ever becomes an element of the sequence.",
  "every accepted token list",
  "All accepted inputs.",
  [PA+":ParseF15.cruise_climb_point", PA+":ParseF15.add_record"])
p("Elements of an accepted route are exactly its element tokens",
  "In the sequence produced by an accepted field 15, the elements between ADEP and ADES are exactly the elements of the tokens in element position (points, connectors, SID, STAR, rule changes, the point of a cruise climb), one each, in the order of the tokens, with their indices, texts and types; words of free text and notes (separators, changes of speed and level, stays, T) give no elements.",
  "every accepted token list",
  "All accepted inputs of any length; the position of an element depends on everything before it.",
  [PA+":ParseF15.parse_f15", PA+":ParseF15.add_record", PA+":ParseF15.post_point"])
p("The first error is about the first token that does not fit",
  "When a non-empty field 15 is rejected, everything before the token reported by the first error could still have been completed to an acceptable field 15, and together with that token it could not, unless the token starts a construction cut off by the end of the field or is the point of a malformed IFR point/. The message of that error is the one due for that token in that context. Place and message are determined by the tokens: there is at most one first fault, a parse that returns reports it first, and it accepts exactly the fields that have none.",
  "every rejected non-empty token list",
  "All rejected inputs: error position depends on every prefix, and the claim quantifies over all completions.",
  [PA+":ParseF15.add_error_and_re_sync", PA+":ParseF15.post_point", PA+":ParseF15.break_text_save", PA+":ParseF15.break_end"])
p("No token that was read disappears",
  "Whatever the field 15, accepted or rejected, every token except separators and modifiers ('/', STAY and its time, T, C, SPEED/LEVEL groups, IFR/GAT/IFPSTART) is visible in the result: as an element, as a word of the break text of an element, or as the subject of an error. The only exception: after an error, a word that ends a break and is not followed by a point makes the parser stop, and what follows is not read.",
  "every token list for which parse_f15 returns",
  "All inputs, in particular all ways to recover from errors.",
  [PA+":ParseF15.re_sync_parser_after_error", PA+":ParseF15.add_error_and_re_sync", PA+":ParseF15.break_text_save", PA+":ParseF15.break_end"])
p("The subtype of a token names its exact form",
  "For every text the reported subtype is exactly the documented form: the twelve SPEED/LEVEL subtypes and their PLUS variants and the three SPEED/VFR subtypes are given exactly to the texts with those unit letters and digit counts; NAT exactly to NAT plus a letter and possibly a digit, PTS exactly to PTS plus a letter or digit; the four ATS route families exactly to their letter/digit/letter formats with the stated precedence; named points of four letters are aerodromes and other named points plain points; every one-form base type has its own subtype.",
  "every text (string) of any length",
  "The set of all strings is infinite, and a row of the table shadowed by an earlier one changes the subtype of a whole family of strings.",
  [SY+":F15TokenSyntaxDefinition.get_token_type", SY+":F15TokenSyntaxDefinition.F15_SB_CONFIGURATION"])
p("What is said about an element stands between it and the next one",
  "Whatever the field 15, accepted or rejected, as long as no error 48 (latitude/longitude point after a route) is reported: the elements before the ADES divide the tokens among them in the order of the text, each owning the stretch from its own token to the token of the next element. Stay time, cruise climb, free text and a change of speed and level reported for an element are written in its own stretch; otherwise speed and level are those of the element before, or those of a SPEED/VFR that is this element or the next one; flight rules are IFR, begun by the element itself, or those of the element before.",
  "every token list of non-empty texts for which parse_f15 returns without error 48",
  "All inputs including every way of recovering from errors; attributes could be attached to the wrong element only after particular histories.",
  [PA+":ParseF15.re_sync_parser_after_error", PA+":ParseF15.add_record", PA+":ParseF15.break_text_save", PA+":ParseF15.stay_time", PA+":ParseF15.assign_speed_altitude", PA+":ParseF15.assign_speed_vfr"])
p("The layout of the text decides nothing",
  "Two token lists with the same texts in the same order, whatever their indices, have the same outcome: the same exception, or the same return value, the same derived rules, the same number of elements and of errors, and each element and error equal field by field to the corresponding one except for its start and end index, which are those of the corresponding token (or 0, 0 for the placeholders). In particular blanks, tabs and line ends, of any number, can be replaced by each other in the source.",
  "all pairs of token lists with equal texts; all pairs of layouts of the same words with any separators",
  "A relation between any two runs; a dependence on absolute positions could show in one layout out of infinitely many.",
  [PA+":ParseF15.parse_f15", TK+":Tokenize.tokenize", PA+":ParseF15.add_record", ERS+":ExtractedRouteSequence.add_error"])
p("The printed tables can be read",
  "print_ers writes the number of elements, two heading lines, one line per element in order, an empty line, the number of errors and, exactly if the parse was not accepted, two heading lines and one line per error in order. Cutting a line at the fixed column widths and removing the blanks gives back every field of the record (numbers by value), provided each field fits into its column; of an element of a parse speed, level, rules and stay time always fit and the name fits if its token was recognised. print_tokens does the same for the token list. The short form of a record (unit_test_only), read blank by blank, gives back name, rules, speed, level and text, also where some are empty; print_descriptions writes one line per row of the syntax table, from which the row can be read.",
  "every record, every sequence whose texts have no line ends, in particular the result of every parse of tokens with plain texts",
  "All records and parses, of any number of elements and values.",
  [REC+":ExtractedRouteRecord.to_string", ERS+":ExtractedRouteSequence.print_ers", "Tokenizer/Token.py:Token.print_token", TS+":Tokens.print_tokens", REC+":ExtractedRouteRecord.unit_test_only", SY+":F15TokenSyntaxDefinition.print_descriptions"])
p("What has been extracted does not depend on what follows",
  "If two field 15 begin with the same words and go on differently, both parses give first the same elements and the same errors: the elements agree exactly, except that the last one extracted from the common beginning need only agree in name, indices, types and position and the one before it in everything but bearing and distance; all further elements and errors are about one of the last three common words or a later one, except points refused with error 48 and errors 28. In particular every element of the first parse that ends before the last three common words begin is an element of the second.",
  "every common beginning of at least one word and every two continuations (and stack depths) for which both parses return",
  "All pairs of continuations of all beginnings.",
  [PA+":ParseF15.parse_f15", PA+":ParseF15.add_record", ERS+":ExtractedRouteSequence.add_error", TK+":Tokenize.tokenize"])
p("Errors are reported in the order of the text",
  "Of two errors the one reported first does not begin after the other, unless the later one is error 28 (cruise climb never completed) or is about a point that was refused with error 48. In particular, without these two errors the start indices of the reported errors are in ascending order.",
  "every field 15 text and white space list (and every token list in ascending order), every stack depth for which parse_f15 returns",
  "All pairs of errors of all texts.",
  [PA+":ParseF15.parse_f15", PA+":ParseF15.add_error_and_re_sync", ERS+":ExtractedRouteSequence.add_error"])
p("parse_f15 reads every token and gives it its type",
  "After parse_f15 the tokens object passed to it holds the same words with the same indices, in the same order, each with the types assign_token_syntax gives to its word, whatever types it had before; and get_next_token on it returns None, since everything has been read. The second part holds of every accepted field 15; it is false of rejected ones: the parser may stop at a word ending a break (IFR, GAT, IFPSTART) without a message about the words after it, and it can stop at no other word.",
  "every tokens object in any state and every stack depth for which parse_f15 returns",
  "All token lists: no part of a field 15 of any shape may be silently dropped.",
  [PA+":ParseF15.parse_f15", PA+":ParseF15.add_error_and_re_sync", TS+":Tokens.get_next_token", SY+":F15TokenSyntaxDefinition"])
p("Threads do not influence each other",
  "main.py recommends the classes for multi threading: 'the Tokenize() class is stateless and thread safe'. Under every interleaving of the steps of any number of threads, each thread observes exactly what it observes running alone; in particular a thread that follows the documented use reads the parse of its own text. True if no object is shared between threads; false of a shared Tokenize object, which keeps the text, the separators and the tokens: the tokens read may be those of another thread's text or a mixture.",
  "every number of threads, every user program that depends in any way on what it has observed, every schedule (threads can change inside tokenize after each character and inside parse_f15 after each setter, getter, append or conversion), every stack depth, exceptions from outside at any point of tokenize and parse_f15",
  "All schedules of all programs.",
  [TK+":Tokenize.tokenize", TK+":Tokenize.get_tokens", PA+":ParseF15.parse_f15", "main.py"])
p("A token list that has been handed out does not change",
  "The words and indices in a Tokens object obtained with get_tokens stay the same for ever, whatever is done afterwards with the tokenizer (another text, other separators, tokenize again), with the cursor, or by parsing it any number of times, in any thread.",
  "every history of calls, every number of threads that do not share objects, every schedule (threads can change inside tokenize and parse_f15), also after any exception in them",
  "All histories and schedules; aliasing between the tokenizer and the list it has handed out shows only in later calls.",
  [TK+":Tokenize.tokenize", TK+":Tokenize.get_tokens", TS+":Tokens", PA+":ParseF15.parse_f15"])
p("Exceptions at any point of a parse",
  "However parse_f15 ends (it returns, the interpreter stack is exhausted, or an exception such as KeyboardInterrupt strikes from outside at any point, even between two attribute assignments), nothing that was in the ExtractedRouteSequence before the call is lost or reordered and the words and indices of the tokens are as before. What an exception leaves behind is the beginning of what the undisturbed call records: the same errors first, the same elements with the same names and indices first; elements with one newer element have their final types and position, with two their final speed, level and rules, with three everything (only the rules of the ADEP are set at the very end). A call that returns is not influenced by how much stack there was.",
  "for all sequences, token lists, stack sizes, crash points, exceptions and sets of writes already done at the crash point",
  "a test cannot interrupt the parser at every point of every input",
  [PA+":ParseF15.parse_f15", PA+":ParseF15.assign_syntax_descriptions", PA+":ParseF15.add_record", ERS+":ExtractedRouteSequence.get_all_elements", ERS+":ExtractedRouteSequence.get_all_errors"])
p("Connectors join points",
  "In a route without errors, DCT or an ATS route is followed by a point, a cruise climb or the ADES, never by another connector, a SID, a STAR or a change of rules; an ATS route does not come directly after the ADEP, DCT, another ATS route or a VFR/OAT/IFPSTOP section; such a section is followed by a point; a SID by a point, an ATS route or a STAR. An ATS route does not lead to coordinates or a bearing and distance, nor away from them unless there was a stay. Whatever stands in the slot of a cruise climb counts as a point.",
  "every accepted field 15, every pair of neighbouring elements",
  "All pairs of neighbours in all accepted routes; the parser decides by the preceding token, a stay or a cruise climb in between changes what that is.",
  [PA+":ParseF15.parse_f15", PA+":ParseF15.dct", PA+":ParseF15.route", ERS+":ExtractedRouteSequence.get_all_elements", "Readme.md"])
p("Every error message is true",
  "Every error reported, not only the first, is about a token of the text and what its message says is true of that token and its neighbourhood: '/' missing before a SPEED/LEVEL means none is there, 'no VFR section preceding' means none is open, 'DCT must be followed by a point' means the token stands behind DCT and is none, a level blamed is no multiple of five, and so on for each of the messages.",
  "every token list, every error of the result",
  "There are unboundedly many ways to recover from earlier errors before a message is chosen; tests look at single errors.",
  [PA+":ParseF15.parse_f15", PA+":ParseF15.re_sync_parser_after_error", PA+":ParseF15.add_error_and_re_sync", EM+":ErrorMessages", ERS+":ExtractedRouteSequence.get_all_errors"])
p("Only the kinds of the words matter",
  "If two field 15s have as many words, and the words at the same place are classified alike (base type and subtype), the parser treats them alike: both parses raise the same exception, or both return the same number of elements, with the same types, the same flight rules, a position or none, found at the same place of their text, the same derived flight rules, and the same error messages about the same words, in the same order. The only exceptions are the errors about the numbers inside one word (flight level digit, degrees, minutes, bearing). What a point, airway or free text is called never matters.",
  "every pair of token lists whose words are of the same kinds, every stack depth",
  "A statement about all pairs of inputs; a test compares two.",
  [PA+":ParseF15.parse_f15", PA+":ParseF15.assign_syntax_descriptions", ERS+":ExtractedRouteSequence.get_all_elements", ERS+":ExtractedRouteSequence.get_all_errors"])

p("The time of a parse is linear",
  "parse_f15 returns or raises after at most 25 n + 4 primitive steps (a setter, a getter, an append, a conversion) for n tokens, whatever the words, the errors and the history of the objects are; the documented use (tokenize, parse, read) of a text of k characters takes at most 26 k + 14 steps. No field 15, however malformed, makes the program hang.",
  "every list of tokens, every sequence and cursor position, every stack depth",
  "A test can only time the inputs it knows; the recursion after errors goes through 27 methods that call each other, and the bound must hold for every way through them.",
  [PA+":ParseF15.parse_f15", PA+":ParseF15.re_sync_parser_after_error", PA+":ParseF15.break_text_save", TK+":Tokenize.tokenize"])

p("A stray word costs one error and nothing else",
  "Insert into an accepted field 15, at one or several places between its items, words that can start no item of a route (not of a known form, too long, a lone time, a lone SPEED/LEVEL, IFR or GAT): parse_f15 returns False with exactly the elements, values, rules and derived rules it had without them, and with exactly one error for each inserted word, in order, at that word. Several such words together cost one error each if they are of no known form. Not between items, and excluded: free text of a VFR/OAT/IFPSTOP section (a word there is text), the place after the indicator C (the climb is lost too), the end after a STAR or T.",
  "every accepted field 15, every number of places between its items, every such word",
  "Recovery from an error goes through the re-synchronisation of 27 methods; a test shows single routes with single errors, the claim is that no error anywhere eats or adds an item.",
  [PA+":ParseF15.parse_f15", PA+":ParseF15.re_sync_parser_after_error", PA+":ParseF15.add_error_and_re_sync"])

p("Free text is only collected",
  "In an accepted field 15, the words of a VFR/OAT/IFPSTOP/SPEED/VFR section can be replaced, added or removed at will as long as the new ones are not IFR, GAT or IFPSTART and not too long (they may be points, routes, a STAR, T, /, misspelt levels, anything): parse_f15 still returns True, the elements, values, rules and derived rules are the same, and nothing changes but the break text of the one element that started the section, in which the new words take the place of the old ones.",
  "every accepted field 15, every place in its free text sections, every list of old words and every list of new words",
  "Words in free text include every word that means something elsewhere; a test shows some sentences, the claim is that no word at all leaks out of the free text.",
  [PA+":ParseF15.parse_f15", PA+":ParseF15.break_start", PA+":ParseF15.break_text_save", REC+":ExtractedRouteRecord.append_break_text"])

p("Every beginning of an accepted field 15 is accepted",
  "Cut an accepted field 15 after any of its words (more than the initial speed and level, not beside a slash, and not right behind IFR and a point): what is before the cut is accepted too, and its extracted elements are those the whole field extracted from these words, followed by ADES: all but the last with the same name, positions, types, rules, levels, speeds and break text, the last with the same name, positions, types and coordinates.",
  "every accepted field 15, every cut of its words, every number of stack frames that suffices",
  "A test tries some cuts of some routes; a route entered word by word must be accepted at every word of every route.",
  [PA+":ParseF15.parse_f15", ERS+":ExtractedRouteSequence.append_element"])

p("Records, tokens and sequences behave as values",
  "After any history of calls of constructors, setters and append methods on any number of extracted route sequences and the records reached through get_element_at, get_last_element, get_previous_to_last_element, get_all_elements and get_all_errors, every getter shows what was last set for that attribute of that record (else the constructor's argument or the documented default): nothing leaks between attributes, records, sequences or the class defaults, and a call that raises (set_stay_time with a bad text, an index out of range) changes nothing.",
  "every history of calls, every number of sequences and records, every argument",
  "Sharing shows only in particular interleavings of calls on several objects; a test tries a few.",
  [REC+":ExtractedRouteRecord", ERS+":ExtractedRouteSequence", TK.replace("Tokenize.py","Token.py")+":Token"])

p("No complaint is made twice, and the errors are few",
  "After a parse no two of the reported errors have the same place and the same text, and there are at most four errors per word of the field (one for an empty field): however badly the recovery goes, a user is not flooded with repetitions.",
  "every text and every separator set",
  "Recovery re-reads words it has already complained about, deferred complaints are made after the rest has been read, and one word can be complained about by several methods; which combinations occur depends on the whole text.",
  [PA+":ParseF15.add_error_and_re_sync", PA+":ParseF15.re_sync_parser_after_error", PA+":ParseF15.route", PA+":ParseF15.cruise_climb_point", EM])

p("The result of an accepted field 15 is determined by the published rules",
  "There is a list of rules that mentions only the typed words: which words stand for elements, and for every attribute of every element (name, indices, types, speed, level, SI values, flight rules, free text, stay, cruise-climb level, position, bearing, distance, error text) what it is. The elements of every accepted field 15 follow these rules, and no other list of elements does: nothing is left open and nothing is added.",
  "every accepted field 15",
  "An attribute of an element depends on words arbitrarily far away (the last change of speed, the next element with a position), and the claim that no attribute is ever filled by accident is about all elements of all fields.",
  [PA+":ParseF15.parse_f15", PA+":ParseF15.point", PA+":ParseF15.assign_speed_altitude", PA+":ParseF15.assign_speed_vfr", PA+":ParseF15.break_text_save", REC])

p("Nothing is lost in the XML output",
  "If the XML outputs of two extracted route sequences are equal (and their texts contain no characters that XML reserves), then the sequences have the same derived flight rules and the same elements and errors in the same order: same texts, indices, types, speeds, levels, flight rules, stay times, free texts and error texts, and numbers that agree in all printed digits.",
  "all pairs of extracted route sequences with plain texts; all pairs of accepted field 15s of plain characters",
  "It is about all pairs of results: tests compare the output of a few results with expected strings, they cannot show that no two different results are printed alike.",
  [ERS+":ExtractedRouteSequence.as_xml", REC+":ExtractedRouteRecord.as_xml"])

p("A sequence can be used for several field 15s",
  "Parsing a second field 15 into a sequence that already holds a route loses and changes nothing that is there, appends the elements and errors that a parse into a fresh sequence would give (without the ADEP), and returns True if and only if no error is in the sequence.",
  "every sequence with at least one element (whatever its history), every token list, every stack depth that suffices",
  "All pairs of a history and a second field 15: tests use a fresh sequence for every parse.",
  [PA+":ParseF15.parse_f15", PA+":ParseF15.sid", PA+":ParseF15.sid_star", ERS+":ExtractedRouteSequence"])

p("A route can be cut and joined at a point",
  "If an accepted route is cut before a point that is an element of its own (other than a point whose position the program overlooks, see C28), the point and everything behind it is accepted behind any valid initial SPEED/LEVEL, and has the same elements from the point on as the whole route: the same in everything but speed and level, and in these too if the new initial SPEED/LEVEL is the one in force at the cut. Conversely, an accepted route that ends in a point and an accepted route that begins with it can be joined: the result is accepted, its elements before the point are those of the first (the course to the next may differ), and from the point on those of the second.",
  "every accepted token list, every point in it, every initial SPEED/LEVEL with a valid level; every pair of accepted token lists that meet in a point",
  "All ways to cut all routes, and all pairs of routes that meet: tests parse whole field 15s only.",
  [PA+":ParseF15.parse_f15", PA+":ParseF15.point", PA+":ParseF15.post_point", ERS+":ExtractedRouteSequence"])

p("The flight rules can be changed at any point of a route",
  "Behind any point of an accepted route (an element of its own, not the point of a cruise climb), after what is said about the point (changes of speed and level, a stay), a section under other rules can be inserted: VFR, OAT or IFPSTOP, any words that are not too long and do not close the section, the closing word (IFR, GAT, IFPSTART) and a valid point, with SPEED/LEVEL (optional after GAT and IFPSTART). The field 15 stays accepted. All elements up to the point are kept but for their courses; then come exactly two new elements, the break with its rules and the words up to and including the closing word, and the new point under IFR; then the elements the route had before: the same but for speed and level, and in these too if no SPEED/LEVEL was given or the one in force. Not allowed: an ATS route directly behind a new point given by coordinates.",
  "every accepted token list, every point in it, every section",
  "All places of all routes and all sections: tests change the rules in a few fixed field 15s.",
  [PA+":ParseF15.break_start", PA+":ParseF15.break_text_save", PA+":ParseF15.post_point", ERS+":ExtractedRouteSequence"])

p("Positions can be filled in later",
  "The Readme leaves the positions of published points to a second pass over the sequence, with the methods of ParseF15. Take the result of any parse (or any sequence whose bearings and distances are right), give any elements positions, new or changed, and call set_azimuth_and_distance at least once for every element with a position and the next one with a position (the following element, or the one after it): in whatever order and however often this is done, the bearing and distance of every element are then those to its next located element, zero if there is none, and nothing else has changed. In general any number of calls with any elements changes bearings and distances only, and the last call for an element decides. A sequence built by appending elements and calling assign_azimuth_distance_between_points has right bearings and distances at every step.",
  "every parse result or sequence with right courses, every choice of new positions, every order and number of calls",
  "All orders and repetitions of calls over all sequences.",
  [PA+":ParseF15.set_azimuth_and_distance", PA+":ParseF15.assign_azimuth_distance_between_points", UT+":Utils.get_bearing_distance_between_points"])

p("A DCT between two points may be put in or left out",
  "Behind any point of an accepted route that is looked at (an IFR point, not free text), with its remarks (speed and level changes, a stay), DCT can be inserted if a point, a cruise climb, the truncation T or nothing follows: the field 15 is accepted again, and there is exactly one more element, named DCT, under IFR, with the speed and level of the point before it and without a position. Conversely, a DCT behind such a point can always be left out, and the field 15 is accepted again. Either way all elements behind are equal with and without the DCT, those before are equal but for bearing and distance, and if the point and the element behind it have positions, they are equal altogether.",
  "every accepted field 15, every point of it, every remark, every rest that may follow a DCT",
  "Relates the parses of two texts for all routes and all places in them.",
  [PA+":ParseF15.parse_f15", PA+":ParseF15.dct", PA+":ParseF15.set_azimuth_and_distance"])

p("What is said about a point concerns the point and what follows",
  "Behind any point of an accepted route that is looked at (an IFR point, not free text) stand its remarks: changes of speed and level, a stay, or nothing. With any other remarks (valid levels) in their place the field 15 is accepted as well. No element before the point differs in any attribute; the point has the stay, speed and level given in the new remarks (no stay, and the speed and level of the element before it, if they give none); in the elements behind nothing differs but speed and level, and these only where they are in both cases those of the point. Not allowed: taking away the SPEED/LEVEL that IFR demands, or a stay between a point given by coordinates and an ATS route.",
  "every accepted field 15, every point of it, every two lists of remarks",
  "Relates the parses of two texts for all routes and all places in them.",
  [PA+":ParseF15.parse_f15", PA+":ParseF15.post_point", PA+":ParseF15.stay", PA+":ParseF15.assign_speed_altitude"])

p("Saying again what is already so changes nothing",
  "In an accepted field 15 the remarks about a point that is looked at (changes of speed and level, a stay, or nothing) may be replaced by any other remarks (valid levels) that say of the point what is already so: the stay they give (none, if they give none) is the one its element has, and the speed and level they give last (those of the element before it, if they give none) are the ones its element has. The field 15 is then accepted with the same result in everything: elements with all attributes, errors and derived flight rules. The two limits of C75 apply.",
  "every accepted field 15, every point of it, every list of remarks that says nothing new",
  "Relates the parses of two token lists for all routes and all places in them.",
  [PA+":ParseF15.parse_f15", PA+":ParseF15.post_point", PA+":ParseF15.stay", PA+":ParseF15.assign_speed_altitude"])

p("The elements say it all: a field 15 can be written back from them",
  "From the elements of an accepted field 15, and from nothing else, a field 15 can be written that is accepted and has the same elements and the same derived flight rules, field by field, but for the indices of the tokens: names, types, speeds, levels, cruise climb levels, stays, free text, flight rules, positions, bearings and distances. The words written are words the tokenizer can deliver, so the text of these words with a blank after each gives the same. Two accepted field 15s are written alike exactly if their elements are the same (but for indices): what is written is a normal form.",
  "every accepted field 15 (of any length), every tokens object with the words written from its elements, every sufficient stack depth",
  "A round trip through all routes; no finite set of routes exercises every neighbourhood of elements in which words are dropped, merged or overlooked.",
  [PA+":ParseF15.parse_f15", ERS+":ExtractedRouteSequence.get_all_elements", REC+":ExtractedRouteRecord", TK+":Tokenize.tokenize"])

p("Wrong numbers derail nothing",
  "A field 15 whose words have, word by word, the kinds of those of an accepted field 15 - but with flight levels that are not multiples of five, degrees, minutes or bearings out of range - is read to its end as if it were accepted. Its elements are exactly what the rules for accepted field 15s say. Its errors are exactly the messages its wrong numbers deserve: for each word in the order of the text, latitude, longitude, bearing or the first and second level, each message once with the word, its indices and its types, and nothing else. The call returns True if and only if there are none. The words determine both the elements and the errors.",
  "every accepted field 15 (of any length), every field 15 with words of the same kinds, every sufficient stack depth",
  "A test sees some wrong numbers in some places; that no combination of wrong numbers anywhere in any route changes how the rest is read, loses a message, or adds one, is a statement about all routes.",
  [PA+":ParseF15.parse_f15", PA+":ParseF15.assign_altitude", PA+":ParseF15.assign_lat_long_bearing_distance", EM+":ErrorMessages", ERS+":ExtractedRouteSequence.get_all_errors"])

p("Names are opaque",
  "Change the names in a field 15 - points, routes, procedures, keywords, free text: every word without numbers the parser reads - to others of the same kinds, and the blanks at will. Then the parser leaves both texts with the same exception, or it returns the same for both: the same derived flight rules, the same number of elements, equal in everything but name, index and break text (types, rules, speeds, levels, staying times, positions, courses, distances), taken from the same words, and the same messages in the same order about the same words. Accepted or not.",
  "every two field 15s of any length whose words agree in kind and, where they are numeric, in text; every stack depth",
  "A test renames some points in some routes; that no name is ever looked at twice (say, one equal to that of the point before, or to a keyword), in any state of the parser, error recovery included, is a statement about all pairs of texts.",
  [PA+":ParseF15.parse_f15", PA+":ParseF15.add_record", ERS+":ExtractedRouteSequence.get_all_elements", ERS+":ExtractedRouteSequence.get_all_errors"])

p("As far as the first error, the result is right",
  "When a non-empty field 15 is rejected, the words before the one the first error is about can be completed to a field 15 that is accepted, and what was extracted from them is what is extracted from every accepted field 15 that begins with these words, that is, what the rules for accepted field 15s say: the same elements in the same order, equal in every attribute, but for what later words may still say about the last one or two, and but for elements taken from the last three of these words or from what follows them (and points refused with error 48, which are recorded later). A user may rely on the elements before the first error.",
  "every rejected non-empty field 15, every accepted field 15 (and every sentence of the grammar) that begins with the words before its first error, every stack depth for which the parses return",
  "A test compares one rejected text with one accepted text; the claim is about every rejected text and every way of completing its beginning.",
  [PA+":ParseF15.parse_f15", ERS+":ExtractedRouteSequence.get_all_elements", ERS+":ExtractedRouteSequence.get_all_errors"])

p("What a word says stays in its own field",
  "Take two field 15s whose words are of the same kinds, word by word. If they have the same SPEED/LEVEL, SPEED/LEVEL/LEVEL, SPEED/LEVEL/PLUS and SPEED/VFR words, all speeds and levels of all elements are the same (SI values included); if they have the same words with coordinates or bearings, all positions, courses and distances are; if they have the same staying times, those are. Messages about levels depend on the speed words only, those about degrees, minutes and bearings on the words with coordinates and bearings only, and all others on the kinds only. Accepted or not. So, for example, to change speeds and levels changes nothing but speeds, levels and the messages about levels.",
  "every two field 15s of any length with words of the same kinds; every stack depth",
  "A test varies some numbers in some routes; that no number ever leaks into an attribute it does not belong to - through the copying of speeds, the recovery from errors or the computation of courses - is a statement about all pairs of texts.",
  [PA+":ParseF15.parse_f15", PA+":ParseF15.carry_speed_altitude_rules_forward", PA+":ParseF15.assign_azimuth_distance_between_points", ERS+":ExtractedRouteSequence.get_all_elements"])

p("An error shows as soon as it is made, and stays",
  "Take the words q a field 15 begins with. If q can still be completed to an acceptable field 15, then the first error, if any, is about one of the last two words of q or a later word; if q can no longer be completed, then the field 15 is rejected whatever follows, and the first error is about one of the words of q. And once the first error has two more words behind it, it remains the first error, whatever is typed after these. So while a field 15 is typed, a first error that is not about one of the last two words will never go away by typing on, and none is reported late.",
  "every non-empty field 15, every beginning of it, every continuation, every stack depth for which the parses return",
  "A test looks at some beginnings and some continuations; the claim is about all continuations of all beginnings, and about there being no completion at all.",
  [PA+":ParseF15.parse_f15", PA+":ParseF15.add_error_and_re_sync", ERS+":ExtractedRouteSequence.get_all_errors", TK+":Tokenize.tokenize"])

p("Speeds and levels in SI units can be compared",
  "Of any two elements, of one parse or of two, whatever units their levels and speeds are written in: the one with the smaller SI altitude is lower, and a lower one never has a greater SI altitude; the one with the smaller SI speed is slower and a slower one never has a greater SI speed (for Mach numbers, if the SI speeds differ by two or more). Of two levels written in the same unit nothing is lost: the SI altitudes are equal, or less, exactly if the levels are.",
  "every two elements with speed and level of any two parses, accepted or not; every arithmetic with small relative error, in particular IEEE doubles",
  "A test compares some values; rounding to whole metres and floating point errors could swap two of the many thousand pairs.",
  [PA+":ParseF15.assign_altitude", PA+":ParseF15.assign_speed", UT+":Utils.mach_to_ms_speed", REC+":ExtractedRouteRecord.get_altitude_si", REC+":ExtractedRouteRecord.get_speed_si"])

p("Coordinates can be compared",
  "Of any two elements with a position in accepted field 15s, written as whole degrees or as degrees and minutes, each in either form: the calculated latitudes are equal, or one is smaller, exactly if this is so of the written ones, and likewise the longitudes. So two elements at the same place have equal coordinates however they are written (51N000E, 5100N00000W), and elements at different places never do; no rounding of floating point numbers hides or invents a difference.",
  "every two elements with a position of any two accepted field 15s, both forms, all hemispheres; every arithmetic with small relative error, in particular IEEE doubles",
  "A test compares some coordinates; that no two of the millions of angles collide or split under rounding is a statement about all pairs.",
  [PA+":ParseF15.assign_lat_long_bearing_distance", REC+":ExtractedRouteRecord.get_latitude", REC+":ExtractedRouteRecord.get_longitude"])

p("Elements and errors can be marked in the text",
  "Tokenize any text with any separators and parse it: each element other than ADEP and ADES, and each error, has the start and end index of a word of this text (a maximal stretch without separators, or a '/'), its name is what stands there in the text (VFR for a SPEED/VFR) and its types are those of that word (or SID, STAR where the word was taken as one). No two elements overlap; an error and an element, or two errors, overlap only if they are about the same word.",
  "every text of at least one word, every set of separators, accepted or not, every stack depth for which the parse returns",
  "A test looks up the indices of some records in some texts; an editor that marks errors and elements relies on it for every text.",
  [TK+":Tokenize.tokenize", PA+":ParseF15.parse_f15", REC+":ExtractedRouteRecord.get_start_index", REC+":ExtractedRouteRecord.get_end_index"])

p("A word that cannot come next costs one error and nothing else",
  "Insert into an accepted field 15, at one or several places between its items, words that cannot come next there, that is, no acceptable field 15 begins with the words before the place and this word: a second DCT or an ATS route behind DCT, a second ATS route, a STAR or VFR behind an ATS route, an ATS route behind coordinates, STAY, C, VFR or '/' behind the first SPEED/LEVEL, and so on. parse_f15 returns False with exactly the elements, values, rules and derived rules it had without them, and with exactly one error for each inserted word, in order, at that word. Excluded: inserted points and SIDs, which become elements; a second inserted word directly behind another unless it is of no known form; and the places excluded in C63 (free text, behind C, at the end behind a STAR or T).",
  "every accepted field 15, every number of places between its items, every word that cannot come next at its place",
  "Which words cannot come next depends on everything before; no set of tests covers all routes, places and words.",
  [PA+":ParseF15.re_sync_parser_after_error", PA+":ParseF15.add_error_and_re_sync", PA+":ParseF15.dct", PA+":ParseF15.route", PA+":ParseF15.post_sid", PA+":ParseF15.post_point", PA+":ParseF15.post_adep", PA+":ParseF15.stay_time"])

p("The messages that can be reported are known",
  "Every error of a parse says what one of 49 of the messages of the catalogue says of a word of field 15 (its name and place being those of the word), or that field 15 is empty, if it has no word. The other messages of the catalogue (0 'ERROR UNDEFINED', 2, 17, 18, 33 and the empty one, 56) are never reported, and no reported text equals what one of them would say of whatever word; so no error is undefined or without text. Each of the 49, and the one for the empty field, is reported for some field 15.",
  "every field 15 and every error reported; every message of the catalogue",
  "That a message is never used needs every parser state and every input; a translator of the messages or a program that reacts to them relies on the list.",
  [EM+":ErrorMessages.error_messages", PA+":ParseF15.add_error_and_re_sync", PA+":ParseF15.add_error_no_re_sync", PA+":ParseF15.parse_f15"])

p("The arithmetic decides nothing",
  "Take any two floating point arithmetics and geodesic libraries (another platform, another rounding, another version of geographiclib) and parse the same field 15 with both, into sequences that say the same in words. Both parses raise the same exception or return the same verdict, with elements and errors that agree in number, name, place, kind, speed, levels and cruise level as written, flight rules, free text, STAY time, error text and in whether the position is known, and with the same derived flight rules. Only latitude, longitude, bearing, distance and the speed and levels in SI units may differ.",
  "every pair of arithmetics (any functions whatever), every field 15, every pair of sequences to parse into that agree in words",
  "Tests run on one arithmetic; that no verdict, message or element hangs on a rounding needs all inputs and all arithmetics.",
  [PA+":ParseF15.parse_f15", PA+":ParseF15.assign_altitude", PA+":ParseF15.assign_speed", PA+":ParseF15.assign_azimuth_distance_between_points", UT+":Utils"])

p("Every word is used at most once",
  "Whatever the field 15, accepted or rejected and whatever the errors: the words can be shared out among the elements so that no word is in two shares or twice in one. The share of an element holds its own token, every word of its free text, its stay time, its cruise climb level and the change of speed and level it reports (a speed and level may otherwise be that of the element before or of a SPEED/VFR that follows). In particular no word is both an element and free text, or free text of two elements, and no word of free text is repeated. All names and free texts of the result together are no longer than twice the text plus eight characters.",
  "every list of tokens with non-empty texts / every text, all stack depths at which parse_f15 returns",
  "Duplication would come from rarely taken paths: resuming after an error (48, over-long words of free text) re-enters the methods with tokens already read. Tests fix a few such paths; the claim is about all of them, for texts of any length.",
  [PA+":ParseF15.parse_f15", PA+":ParseF15.break_text_save", PA+":ParseF15.re_sync_parser_after_error", PA+":ParseF15.route", PA+":ParseF15.add_record"])

p("Faults add up",
  "Take an accepted field 15, make any of its numbers wrong (flight levels, degrees, minutes, bearings) and insert, at any number of places between its items, words that cannot come next there. parse_f15 returns False (unless there is no fault) with exactly the elements, values, rules and derived rules that the published rules give to the words without the inserted ones, and with exactly the errors that the wrong numbers deserve and one error for each inserted word, at that word; each of these stands between the errors about the words before it and the errors about the words after it. No fault hides, doubles or alters what is said about another. Excluded: the inserted words excluded in C86.",
  "every accepted field 15, every choice of other numbers in its words, every number of places between its items, every word that cannot come next at its place, every sufficient stack depth",
  "Tests try one fault at a time; the combinations of faults are unboundedly many.",
  [PA+":ParseF15.parse_f15", PA+":ParseF15.add_error_and_re_sync", PA+":ParseF15.re_sync_parser_after_error", PA+":ParseF15.post_point", PA+":ParseF15.assign_altitude"])

p("A mistyped connector costs its element and one error",
  "Take an accepted field 15 and the DCT or ATS route between two of its points (behind any remarks about the first). Leaving it out gives an accepted field 15 with the same elements but for that one (only courses at and before the first point may differ, and between two positions they do not). Mistyping it into a word that can start no item makes parse_f15 return False with exactly one error, about that word, with the elements of the correct field 15 without the connector and with the same derived flight rules.",
  "every accepted field 15, every point of it, every DCT or ATS route behind that point, every word that can start no item, everything before and behind, every sufficient stack depth",
  "A test can mistype one word of one route; the claim is about every route, every place and every misspelling.",
  [PA+":ParseF15.parse_f15", PA+":ParseF15.post_point", PA+":ParseF15.dct", PA+":ParseF15.route", PA+":ParseF15.add_error_and_re_sync", PA+":ParseF15.re_sync_parser_after_error", ERS+":ExtractedRouteSequence"])

p("A garbled part of the route costs its elements and one error",
  "Take an accepted field 15 and in it a stretch of points and connectors (DCT, ATS routes) without remarks, behind a beginning that is itself accepted and ends between two items, and garble the stretch into one word that can start no item. parse_f15 returns False with exactly one error, about that word; the elements are those of the correct field 15 without those of the stretch: up to there the same but for courses, behind it equal in every attribute; and the derived flight rules are the same. (The route with the stretch simply left out need not even be accepted.)",
  "every accepted field 15, every stretch of points and connectors without remarks in it, everything before and behind, every word that can start no item, every sufficient stack depth",
  "A test can garble one part of one route; the claim is about every route, every stretch of any length and every misspelling, and covers the state in which the parser goes on.",
  [PA+":ParseF15.parse_f15", PA+":ParseF15.add_error_and_re_sync", PA+":ParseF15.re_sync_parser_after_error", PA+":ParseF15.point", PA+":ParseF15.route", PA+":ParseF15.dct", PA+":ParseF15.carry_speed_altitude_rules_forward", PA+":ParseF15.assign_azimuth_distance_between_points"])

p("Whatever part of the route is garbled, the rest is read",
  "Take an accepted field 15 whose middle part (any words: points, connectors, changes of speed and level, stays, cruise climbs, whole VFR or OAT sections) lies between two places where the route may end under IFR, and replace that part by one word that can start no item or that no acceptable field 15 has in that place (and that is no point and no SID). Then the field 15 is refused with exactly one error, about that word. The elements before the part are unchanged (except possibly the course to the next element), the elements that disappear all stand inside the part, and the elements behind it are the same in everything but speed and level; if the part ended at the speed and level that held before it, they are equal in every respect.",
  "all accepted field 15s u x v with u and u x accepted, ending under IFR and not in C, x not empty, neither x nor v beginning with a slash or STAY; all words that can start no item or cannot come next there (points and SIDs excepted); all recursion limits of at least four frames per token",
  "The garbled part may be arbitrarily long, contain anything, and stand anywhere; that nothing else is lost has to hold for every continuation of the route.",
  [PA+":ParseF15.re_sync_parser_after_error", PA+":ParseF15.add_error_and_re_sync", PA+":ParseF15.carry_speed_altitude_rules_forward", PA+":ParseF15.parse_f15"])

p("Several garbled parts of a route cost their elements and one error each",
  "Garble any number of parts of an accepted field 15, each part (any words) lying between two places where the route may end under IFR, each into one word that can start no item or that no acceptable field 15 has in that place (and that is no point and no SID). The field 15 is then refused with exactly as many errors as there are garbled words, the i-th of them about the i-th garbled word, and its elements are those of the correct field 15, in order and in everything but course, speed and level, without elements that stand in the garbled parts.",
  "all accepted field 15s and all ways to cut them into a beginning and pieces (part, words behind), with the field 15 accepted as far as both ends of every part, ending there under IFR and not in C; parts not empty, at least one word between two parts, no part and no continuation beginning with a slash or STAY; all garbled words that can start no item or cannot come next there (points and SIDs excepted); all recursion limits of at least four frames per token",
  "The number of garbled parts is unbounded and each may hide the next; that errors do not swallow one another holds only by induction over the pieces.",
  [PA+":ParseF15.re_sync_parser_after_error", PA+":ParseF15.add_error_and_re_sync", PA+":ParseF15.add_error_no_re_sync", PA+":ParseF15.carry_speed_altitude_rules_forward", PA+":ParseF15.parse_f15"])

if __name__ == "__main__":
    out = os.path.join(os.path.dirname(os.path.abspath(__file__)), "..", "properties.jsonl")
    with open(out, "w") as f:
        for q in P:
            f.write(json.dumps(q) + "\n")
    print(len(P), "properties")
