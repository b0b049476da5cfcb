# DESIGN — a Lean 4 model of pventon/ICAO-F15-Parser

## 1. Shape of the model (`lean/Verif/Model`)

| file | models |
|---|---|
| `Py.lean` | the Python fragment used: `str` = `List Char`, slices, `int()`, `str.replace`, exceptions as values (`PyErr`), an abstract `float` (`PyFloat`) |
| `Types.lean`, `Token.lean` | `TokenBaseType`, `TokenSubType`, `Token`, `Tokens` (list + cursor), `Tokenize` |
| `Regex.lean`, `Table.lean`, `Classify.lean` | the configuration table (generated from the source by `tools/gen_table.py` as *pattern strings*), a parser and matcher for these patterns, `get_token_type`, `assign_syntax_descriptions` |
| `Messages.lean` | the error catalogue (generated from the source by `tools/gen_table.py`) |
| `Ers.lean` | `ExtractedRouteRecord`, `ExtractedRouteSequence` |
| `Utils.lean` | degree/minute checks, speed of sound, unit conversions |
| `Parser.lean` | all methods of `ParseF15`, one definition per method |
| `Xml.lean` | `as_xml` of records and sequences |
| `Print.lean` | `to_string`, `unit_test_only`, `print_*` |
| `Full.lean` | `parse_f15` with the `tokens` object it leaves behind |
| `Crash.lean` | the parser with the state after exceptions, and exceptions from outside (generated from `Parser.lean` by `tools/gen_crash.py`) |
| `Tasks.lean` | the parser as a tree of primitive steps, for threads that change inside `parse_f15` (generated from `Parser.lean` by `tools/gen_crash.py`) |
| `Objects.lean` | objects and references, user programs, threads, a scheduler, exceptions from outside |

* Python `float` is an arbitrary type `F` with the operations the code uses (class `PyFloat`): decimal literals, int→float,
  `+ - * /`, `abs`, `sqrt`, `int()`, `'{:.2f}'`, and geographiclib's `Direct`/`Inverse`. *Nothing* is assumed about these operations
  in the structural theorems, so they hold for IEEE doubles and any geodesic library that does not raise. The numeric theorems
  (`c27_value`, `c29_value`, C33, C34, C35 except `c35_constant`) take the laws of rounded arithmetic (`Spec.Rounded`,
  `Spec/Float.lean`) as an explicit hypothesis; `Spec/FloatModels.lean` proves that they are satisfiable, in particular by
  rounding to multiples of a power of two (`Rounded.double`).
* The mutually recursive methods of `ParseF15` are written in open-recursion style: `step call c` is the body of the method `c`,
  `call` stands for the recursive calls; `exec n` ties the knot with `n` = number of Python stack frames available, `exec 0` raises
  `RecursionError`. The fuel is not an artefact: it is the interpreter's recursion limit, counting the frames of the mutually
  recursive methods only (helpers and library calls add a constant). C16 says how much is enough and that more changes nothing.
* The parser is written over a class `TokStream` of cursors, with two instances: the `Tokens` class as it is (list + integer cursor) and
  the list of the tokens after the cursor. `Lemmas/Sim.lean` proves that the two runs agree; the theorems are about `parseF15`, which
  uses the real one.
* Elements and errors are stored newest first inside the parser (`get_last_element` = head); `Ers.elements`, `Ers.errors` are the
  public lists in Python's order.

## 2. Trusted base

* Lean 4.33.0's kernel. No axioms are added. `#print axioms` on every theorem of `MANIFEST.json` gives at most `propext`,
  `Classical.choice`, `Quot.sound`. No `native_decide`, no `bv_decide`; `decide +kernel` is evaluated by the kernel.
* That the model says what the Python does. Every definition cites the lines it models. The code was not run; `lean/Verif/Replay.lean`
  (generated by `tools/gen_replay.py` from the text of the repository's unit tests) lets the kernel check 1084 expectations written there of the model; `tools/conformance.py` does the
  same with IEEE doubles.
* The generated tables: `tools/gen_table.py` copies the literals of
  `F15TokenSyntaxDescriptions.py` and `ErrorMessageDefinitions.py`.
* Semantics of Python assumed: `re.fullmatch` on the constructs in the table (literals, classes, `{n}`, `{n,m}`, alternatives,
  groups) is language membership (proved of the model's matcher in C07 against a denotational semantics); `int()` on ASCII digits; slices;
  `is` on enum members and interned rule strings is equality; strings without lone surrogates.
* For numeric theorems: `Spec.Rounded` for doubles.

Specifications (`lean/Verif/Spec`) are independent of the model's helpers: `Tokenizer` (maximal runs), `Shapes`, `Subtypes` (what tokens look
like), `Regex` (languages), `Grammar` (accepted field 15s), `Story` (role of each token of an accepted field 15), `Faults` (first faults along the
grammar), `Reflected` (visibility of tokens), `Ranges`, `Position`, `Values`, `Float` (numbers), `Xml`, `XmlDocument` (a small XML reader), `Sequence`
(element/error of a token). `Lemmas` are helper lemmas, `Props` contain the property theorems, each with an `example` that a concrete,
non-trivial input meets the hypotheses.

## 3. Property → model → proof method

| prop | modelled | proof | theorems in |
|---|---|---|---|
| C01–C05 | `Tokenize.tokenize`, setters | invariant of the scanning loop; exact characterisation by maximal runs; induction over histories of setter/tokenize calls | Props/Tokenizer |
| C06 | `Tokens` | refinement to list + cursor over operation sequences | Props/Cursor |
| C07–C11, C49 | `get_token_type`, table, `assign_syntax_descriptions` | regex semantics; every row of the table is a finite union of words of character classes; whole-table facts by `decide +kernel`, lifted to all strings by a lemma | Props/Classify, Subtypes |
| C12–C14, C17–C21, C41 | `parse_f15` and all methods | trace theorem: every run is a sequence of primitive effects with well-formed arguments (induction on the frames, one case per method); each property is an induction over such sequences | Props/Sequence |
| C15, C23 | all methods, exceptions as values | Hoare-style induction; counterexample evaluated by the kernel; exactly when: a relational (twin run) proof against the field with the malformed words mended | Props/Errors, Mend |
| C16 | all methods | total correctness with a depth potential; monotonicity in the frames | Props/Depth |
| C22, C24, C25, C45, C46 | all methods | grammar as an inductive predicate; soundness and completeness by induction; roles of tokens | Props/Grammar, Accepted, Climb |
| C26, C38, C39 | all methods | functional description of accepted runs ("story"); that C39 holds of each element behind a flag and C38 of the ADEP too | Props/Attributes, Props/Section |
| C27, C28, C31, C32 | lat/long, azimuth methods | invariants over traces; real arithmetic for values | Props/Positions, Angles |
| C29, C30, C36 | `Utils`, checks | arithmetic over digit strings; trace invariants | Props/Ranges |
| C33–C35 | conversions | error bounds for any rounded arithmetic | Props/Units |
| C37, C40, C42, C45 | cruise climb, stay | story of accepted runs; counterexamples | Props/Climb |
| C43 | `ExtractedRouteSequence` accessors | case analysis; off-by-one refuted | Props/Elements |
| C44 | `as_xml` | a small XML reader as specification; decoding theorem; refuted for arbitrary text | Props/Xml |
| C47 | all methods | the first error of a run is a first fault of the grammar; faults are decided by the prefix; at most one first fault (a function computes it) | Props/Faults, Unique |
| C48 | all methods | induction on the frames with the set of tokens not yet read | Props/Reflect |
| C50 | `parse_f15`, all methods | the trace theorem with places (Lemmas/Place.lean): an element changes only while the token just taken is at hand; invariant "the tokens taken are divided among the elements" | Props/Local |
| C51 | `parse_f15`, all methods | relational: changing the indices of the tokens commutes with every method (induction on the frames); any two token lists are compared through the tokens numbered 1, 2, … | Props/Layout |
| C52 | `to_string`, `print_ers`, `print_tokens`, `unit_test_only`, `print_descriptions` | decimal printing and reading; lines and columns of concatenated text; cells ended by blanks | Props/Print, Props/Short |
| C53 | the whole parser, two token streams with a common beginning | relational induction over the call tree: two runs on streams with a common beginning are equal until at most two tokens beyond it have been looked at (Lemmas/Past, Causal, Causal2) | Props/Causal |
| C54 | the whole parser | invariant of every method: errors so far are in order and not after the tokens to come (Lemmas/ErrOrder) | Props/ErrOrder |
| C55 | the whole parser with the tokens object (Model/Full) | simulation by the list of tokens still to come, invariant of every method: at its end all is read or errors exist and the last token read ends a break (Lemmas/Reads) | Props/Reads |
| C56 | a heap of Tokenize/Tokens/ERS objects, threads with arbitrary programs, a scheduler; tokenize and parse_f15 in small steps (Model/Objects, Model/Tasks) | a step of a thread depends on and changes its own objects only (Lemmas/Threads), induction over the schedule; the steps of parse_f15 together are the parser of Model/Parser (Lemmas/Tasks) | Props/Threads |
| C57 | the same | invariant: no list in the hands of a program is under construction (Lemmas/Handed) | Props/Threads |
| C58 | the parser in a monad that keeps the state when an exception is raised; an exception from outside can strike at any step, after any part of its writes (Model/Crash, generated from Model/Parser) | both models agree (Lemmas/Crash); every step only adds or changes young elements, and a run with more stack and without strike goes on from the crash point (Lemmas/Crash2, Crash3) | Props/Crash |
| C59 | the grammar of accepted field 15s and the roles of its tokens (Spec/Grammar, Spec/Story) | induction over accepting runs with the last element and what followed it (Lemmas/Connect) | Props/Connect |
| C60 | every error of a parse, message by message (Spec/Due) | induction over all runs, recovery included, with what is known of the text read so far: open sections, last fix, last tokens (Lemmas/Due, Due2) | Props/Due |
| C61 | pairs of runs on token lists of the same kinds, numbers errors aside (Spec/Kinds) | relational induction over the recursion depth: states stay of the same shape, the remaining tokens stay aligned (Lemmas/Kinds, Kinds2) | Props/Kinds |
| C62 | the parser as a tree of primitive steps (Model/Tasks) | amortised: each token taken pays for 21 steps, each method needs a constant number more (Lemmas/Cost), induction over the stack depth | Props/Time |
| C63 | grammar of accepted runs with an end phase (Lemmas/Noise), re-synchronisation | an accepted run is cut at phases between items; from every such phase a stray word leads to one error and to re_sync, and re_sync reads the rest like the phase does (Lemmas/Noise3) | Props/Recover |
| C64 | grammar of accepted runs with an end phase (Lemmas/Noise), the effect of actions on the elements | an accepted beginning whose last word starts free text ends in a text phase, where words that end no text are only collected; all actions commute with erasing break texts, and each changes the break text of the newest element only (Lemmas/FreeText) | Props/FreeText |
| C65 | grammar of accepted runs, effect of the actions on elements already extracted | every phase of the grammar of accepted field 15 between two words may end, except inside the three constructs excluded; later actions only change bearing and distance of the elements before the newest (Lemmas/Prefix) | Props/Prefix |
| C66 | all getters and setters of records and tokens on object dictionaries with class defaults (Model/Accessors, generated), sequences as lists of references (Model/References) | simulation: while no record is referred to from two places (an invariant of all calls) memory and values make the same steps | Props/Sharing |
| C67 | all methods, the texts of all messages | induction on the frames: the errors are pairwise different, none is about a token still to come (but error 22/34 about the next one), and four per token pay for all; different messages about a word have different texts (literal beginnings, ends or lengths differ, decided for the table) | Props/Once |
| C68 | all methods on accepted fields, all attributes | Spec/Meaning: the rules as a relation between typed tokens and elements; the parser satisfies it (C25, C26, C31, C37, C39, C40, C46 combined, plus which elements get a position, by induction over the accepted run), and the relation is functional | Props/Meaning |
| C69 | `as_xml` of sequence and record | injectivity of the output, from the reader and the document of C44 | Props/Lossless |
| C70 | parse_f15 on a used sequence | the invariant Ext2 of C53 from the given sequence on; c70_end by a relation between two runs on sequences that share their top (Lemmas/Alike), method by method; counterexample by evaluation | Props/Reuse |
| C71 | grammar, roles, all attributes | induction over accepted runs (every cut before a point leaves a run from the point on; a run that ends in a point can be continued), then the uniqueness half of C68 for two field 15s with a common end or beginning | Props/Splice |
| C72 | grammar, roles, all attributes | induction over accepted runs (behind a point any other continuation can be read, Lemmas/Insert), then the uniqueness half of C68 for the common beginning and end | Props/Insert |
| C73 | set_azimuth_and_distance, assign_azimuth_distance_between_points as called from outside | induction over the calls (the last one for an element decides), then C31 for the elements without a call; the invariant of C31 for appending | Props/Later |
| C74 | parse_f15 on a route with and without a DCT | the grammar accepts both (as for C72), C68 gives the elements of both, the courses from the rule of C31 | Props/Direct |
| C75 | parse_f15 on a route with other speed, level and stay remarks at a point | the grammar accepts both (as for C72), C68 gives the elements of both, the speeds from the rule of C26 | Props/Remark |
| C76 | parse_f15 on a route with remarks that say nothing new | from C75: remarks determine the stay and the speed and level, these determine the SI values, the rest is the same | Props/Redundant |
| C77 | parse_f15 on what is written from the elements (Spec/Write) | induction over the runs of accepted field 15s (Lemmas/Write to Write5): what is written of the elements made so far and of those to come is again a run with the same effect; courses by C31 | Props/Written |
| C78 | parse_f15 on words of the kinds of an accepted field 15 | the annotated grammar of C22 without its conditions on numbers (`RunG`): the kinds alone make a run, the run is what the parser does (`loose_parses`), its messages by induction over it (Lemmas/Reports), its elements by the proof of C68 (`c68_lawful`) | Props/WrongNumbers |
| C79 | parse_f15 on two texts with other names | the simulation of C61 (`Kin`) with the invariants of C81, for texts that agree in all numeric words | Props/Names |
| C80 | parse_f15 on a rejected text and on an accepted one with the same beginning | C47 (what is before the first error can be completed), C53 (what has been extracted does not depend on what follows), C22 and C68 (what an accepted text means) | Props/Trust |
| C81 | parse_f15 on two texts with words of the same kinds | the simulation of C61 (`Kin`) with an invariant for each group of attributes (`SameFrom`) and for the messages (`SameErrorsBut`), kept by every action of the parser | Props/Aspects |
| C82 | parse_f15 on all continuations of a beginning | from C47 and the grammar; the first fault depends on two words of lookahead (induction over `Fault`) | Props/Early |
| C83 | SI level and speed of elements of any two parses | from C33 and C34 | Props/Compare |
| C84 | latitude and longitude of elements of any two accepted parses | angles are multiples of a minute and the error is below 2e-11 degrees (C27); equal angles take the same or exactly equal calculations | Props/Places |
| C85 | tokenizer and parse_f15 on a text | from C01, C02, C03, C17 and C19 | Props/Marks |
| C86 | parse_f15 on a field 15 with inserted words | annotated grammar with end phase, backward reading, re-synchronisation (Lemmas/Noise*) | Props/Misfit |
| C87 | parse_f15, message catalogue | invariant over all actions (reportable), texts told apart by their fixed beginnings, one witness text per message | Props/Reported |
| C88 | parse_f15 under two arithmetics | relational program logic (Pair2) over every method, induction on the stack frames | Props/Arithmetic, Lemmas/Arithmetic |
| C89 | words shared out among the elements, without repetition | a trace theorem in which every action but an error uses up a token taken from the stream (Lemmas/Spend), invariant 'used + in hand + unread + lost = the words' | Props/Shares |
| C90 | pieces `ps` of an accepted field 15, pieces `qs` of the same kinds with any numbers, inserted words as in C86 | Lemmas/Noise* generalised to readings with wrong numbers (`RunToG c`), `Woven` keeps which errors come from which piece; `kinds_runTo` carries the places between items over | Props/Faulty.lean |
| C91 | point `p` with remarks `s`, connector `d` (DCT or ATS route) and stray word `w` in its place | `leave_connector` (C74 for both kinds), `between_connector` (the place behind a point is between two items: reading the prefix alone, C22, C68) and C63 | Props/Typo.lean |
| C92 | accepted `u x v`, `x` points and connectors, accepted beginning `u`, stray word `w` for `x` | after the error the rest is read as behind a STAY (`run_lenient`, `resync_run`); every action changes only the newest records, and courses (`newest_act`), and hands on speed, level and rules (`same_made`, `simple_all`) | Lemmas/Skip.lean, Props/Gap.lean |
| C93 | Accepted runs of `u`, `u x` and `u x v`; the run of `u w v` | `v` is read after re-synchronising as after a stay (`open_lenient`); actions never look at speeds and levels except to set speeds and levels (`unseeing_act`) and change only the newest records but for courses (`Newest`) | Spec/Lost, Lemmas/Wipe, Props/Lost, Props/LostText |
| C94 | Accepted runs to both ends of every part; the run of the garbled words | induction over the pieces: what stands behind a garbled word is read as after a stay (`torn_reads`), the elements are compared part by part (`miss_step`, `fitting_elements`) | Spec/Torn, Lemmas/Torn, Props/Torn, Props/LostText |

Nothing on the list is beyond a model. `MANIFEST.json` has the status of each; *partial* always means: the full statement is false of
the code, the negation is proved with a witness (`…_false`), and `…_partial` is the part that is true.

How the properties fit together. C22 says exactly which field 15s are accepted, C68 what every attribute of every element of an accepted one is;
together they determine the result of every accepted field 15 from its words. For refused ones C78 (wrong numbers), C86 (words that cannot come
next), C90 (both together) and C93/C94 (garbled parts) determine errors and elements relative to an accepted field 15; the properties on
termination, the error list and re-synchronising hold for every input whatever. The rest are consequences a user relies on directly, or are about the tokenizer, the regular
expressions, the units and the coordinates below this level.

## 4. Disagreements found between the code and its documentation

1. **Cruise climb rows** (C11, C15): the rows for `N` speed, `A` first level, `S`/`M` second level ask for four digits after `A`.
   `N0450A045S1130` is unknown; `C/PNT/N0450A0450S1130` is accepted by the table and then raises `ValueError`.
   The row `K…F…A…` has the subtype KFS.
2. **Cruise-to level** (C37): `assign_speed_altitude_altitude` cuts the second level one character too late for Mach speeds and for first
   levels in tens of metres: the unit letter is lost, so is the level's value check.
3. **`get_element_at(size)`** raises `IndexError` instead of returning `None` (C43).
4. **Order** (C20): after error 48 an ATS route is appended behind later elements.
5. **Positions** (C28, C29, C32): a lat/long point between IFR and SPEED/VFR gets no position and no range check; bearing and distance are
   calculated across one point without position.
6. **Lost tokens** (C42, C48): `N0450F350 ABC N0450F350 IFR DCT DEF` — after re-synchronising, `IFR` closes nothing and the rest of the field is
   dropped without a further message. Speed/level and stay times can be overwritten at once.
7. **Cruise-climb point** (C45, C24): any token is taken as the point of a cruise climb, also a STAR, an ATS route or an unknown word.
8. **Recursion** (C16): two Python frames per point; long routes raise `RecursionError`.
9. **XML** (C44): texts are not escaped, and error messages 43 and 45 contain a raw `<`, so the output of any parse with a minute-range error is not
   well formed. `str` of the `IntEnum` types depends on the Python version.
10. **Documentation**: README/main.py say that the return value counts errors; it is `True` when there are none, so the documented test is wrong for every input (c13_documented). `main.py` imports a package `Parser` that does
   not exist. The derived rules stay empty for an empty field 15. The docstring of SPEED/VFR promises the speed of sound at sea level, the code
   uses F050. The speed of sound at altitude 0 is the constant 343.0, while the formula gives about 340.3 just above.
11. **Errors out of order**: a failed cruise climb reports error 28 about an earlier token.
12. Break text: the terminating IFR/GAT/IFPSTART is part of it; after an over-long token in free text, the text goes to whatever record is last.
13. **Thread safety** (C56): main.py calls `Tokenize` stateless and thread safe; it keeps text, separators and tokens, and two threads with one tokenizer can read
   a mixture of two texts.
14. **Connectors** (C59): an ATS route may lead away from coordinates if a stay stands between them, and `C` alone or the slot of a cruise climb can separate
   or follow connectors; points need no connector between them. The Readme promises "a sequence of points connected by a connector".
15. **Untrue messages** (C60): after an error, a word IFR, GAT or IFPSTART without what must follow it makes the parser lose track; `N0450F350 ABC C/PNT/XYZ IFR / N0450F350`
    is told `Expecting '/' before 'N0450F350'`. `No VFR section preceding` is also reported when a section was opened but a word in it was too long.
16. **Repeated message** (C67): `N0450F350 LNZ C/LNZ/N0450F351F352` gets "The flight level 'N0450F351F352' must end in a zero or 5" twice; the message names the whole
    word, so the two reports cannot be told apart.
17. **Used sequences** (C70): parse_f15 does not notice that the sequence passed in already holds a route. It recognises a SID by "the sequence has one (or two)
    elements", gives the initial level to the last element (the ADES of the earlier route) and the VFR rules to the first ADEP, and counts old errors.

## 5. Not modelled

`main.py` (example script with a stale import), the numerical internals of geographiclib and IEEE
rounding (parameters of the model), memory use and wall-clock time (C62 counts steps); references are modelled in Model/References and Model/Objects only. `print` is modelled as returning the printed lines.

## 6. Testing the theorems

`seeded/LOG.jsonl`: realistic bugs seeded in a scratch copy of the model, with the theorems that failed. Where no theorem failed although a claim was broken, the property was
strengthened or added (C47, C48, C49 came from that).
