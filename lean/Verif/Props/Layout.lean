import Verif.Spec.Layout
import Verif.Spec.Example
import Verif.Lemmas.Shift
import Verif.Props.Sequence
import Verif.Props.Tokenizer
/-!
# C51: the places of the tokens decide nothing
-/

namespace F15
open Spec

set_option linter.unusedSectionVars false
variable {F : Type} [PyFloat F]
variable {φ : Nat → Nat → Nat × Nat}

theorem assign_reloc (t : Token) : assignSyntax (t.reloc φ) = (assignSyntax t).reloc φ := by
  unfold assignSyntax Token.reloc
  dsimp only
  split <;> rfl

theorem rec_reloc {r : Record F} (h0 : φ 0 0 = (0, 0)) (h1 : r.start = 0) (h2 : r.stop = 0) : r.reloc φ = r := by
  obtain ⟨⟩ := r
  unfold Record.reloc
  dsimp only at *
  subst h1 h2
  rw [h0]

theorem dummy_reloc (h0 : φ 0 0 = (0, 0)) (e : Ers F) (x : Str) :
    (e.addDummyAdepAdes x).reloc φ = (e.reloc φ).addDummyAdepAdes x := by
  have h : (Record.new x 0 0 .POINT .PRP_AERO : Record F).reloc φ = Record.new x 0 0 .POINT .PRP_AERO := rec_reloc h0 rfl rfl
  show (⟨_ :: _, _, _⟩ : Ers F) = ⟨_ :: _, _, _⟩
  rw [h]; rfl

theorem new_reloc (h0 : φ 0 0 = (0, 0)) : (Ers.new : Ers F).reloc φ = Ers.new := by
  unfold Ers.new; rw [dummy_reloc h0]; rfl

theorem finErs_reloc (h0 : φ 0 0 = (0, 0)) (e : Ers F) : finErs (e.reloc φ) = (finErs e).reloc φ := by
  have ha : ∀ x, (adesRec x : Record F).reloc φ = adesRec x := by
    intro x
    unfold adesRec Record.reloc Record.setRules Record.new
    simp [h0]
  have hr : ∀ r : Record F, (r.reloc φ).rules = r.rules := fun _ => rfl
  have hr' : (fun r : Record F => (r.reloc φ).rules) = fun r => r.rules := rfl
  obtain ⟨recs, errs, d⟩ := e
  unfold finErs Ers.reloc oldestRules
  simp only [List.map_cons, ha]
  congr 1
  · congr 2
    cases recs <;> rfl
  · congr 1
    · cases h : recs.getLast? <;> simp [h, hr]
    · cases recs with
      | nil => rfl
      | cons a l => simp [Function.comp_def, hr]

theorem map_map_exec (x : Except PyErr (Unit × St (List Token) F)) :
    (match x.map fun p => (id p.1, p.2.reloc φ) with
      | .ok (_, s) => .ok s.ers
      | .error x => .error x : Except PyErr (Ers F)) =
    Except.map (Ers.reloc φ) (match x with
      | .ok (_, s) => .ok s.ers
      | .error x => .error x) := by
  cases x <;> rfl

theorem runL_reloc (n : Nat) (e : Ers F) (he : e.recs ≠ []) (t : Token) (rest : List Token) (hT : ∀ x ∈ t :: rest, Typed x) :
    runL n (e.reloc φ) (t.reloc φ) (rest.map (Token.reloc φ)) = (runL n e t rest).map (Ers.reloc φ) := by
  have key := fun c => mv_exec (F := F) (φ := φ) n c ⟨e, rest⟩
  change ∀ c : Call, exec n (c.reloc φ) ⟨e.reloc φ, rest.map (Token.reloc φ)⟩ = _ at key
  unfold runL
  rw [reloc_base]
  cases hb : t.base
  case SPEED_VFR =>
    dsimp only
    have := key (.assignSpeedVfr t)
    change exec n (.assignSpeedVfr (t.reloc φ)) _ = _ at this
    rw [this]
    have g := run_trace n e he t rest hT
    unfold runL at g
    rw [hb] at g
    dsimp only at g
    cases h : exec n (.assignSpeedVfr t) (⟨e, rest⟩ : St (List Token) F) with
    | error x => rfl
    | ok p =>
      rw [h] at g
      dsimp only at g
      have hne : p.2.ers.recs ≠ [] := by
        intro h0
        have : p.2.ers.elements = [] := by unfold Ers.elements; rw [h0]; rfl
        unfold setFirstRules at g
        rw [this] at g
        dsimp only at g
        rcases g with g | g
        · cases g
        · exact absurd g.1 (by decide)
      show setFirstRules (p.2.ers.reloc φ) _ = Except.map _ (setFirstRules p.2.ers _)
      rw [setFirst_eq _ hne, setFirst_eq _ (by unfold Ers.reloc; simpa using hne)]
      unfold Ers.reloc mapOldest Except.map
      dsimp only
      rw [← List.map_reverse]
      cases p.2.ers.recs.reverse with
      | nil => rfl
      | cons a l => simp [mapHead]; rfl
  case SPEED_ALTITUDE =>
    dsimp only
    have := key (.assignSpeedAltitude t)
    change exec n (.assignSpeedAltitude (t.reloc φ)) _ = _ at this
    rw [this]
    cases h : exec n (.assignSpeedAltitude t) (⟨e, rest⟩ : St (List Token) F) with
    | error x => rfl
    | ok p =>
      have hl : (rest.map (Token.reloc φ) = []) ↔ rest = [] := List.map_eq_nil_iff
      show (if rest.map (Token.reloc φ) = [] then _ else _) = Except.map _ (if rest = [] then _ else _)
      by_cases hr : rest = []
      · rw [if_pos hr, if_pos (hl.2 hr)]
        have h3 := mv_exec (F := F) (φ := φ) n (.addErrorAndReSync t 49) p.2
        change exec n (.addErrorAndReSync (t.reloc φ) 49) _ = _ at h3
        rw [h3]
        exact map_map_exec _
      · rw [if_neg hr, if_neg (fun h => hr (hl.1 h))]; rfl
  all_goals
    dsimp only
    have := key (.addErrorAndReSync t 1)
    change exec n (.addErrorAndReSync (t.reloc φ) 1) _ = _ at this
    rw [this]
    exact map_map_exec _

theorem parseL_reloc (h0 : φ 0 0 = (0, 0)) (n : Nat) (e : Ers F) (he : e.recs ≠ []) (ts : List Token) (hT : ∀ x ∈ ts, Typed x) :
    parseL n (e.reloc φ) (ts.map (Token.reloc φ)) = (parseL n e ts).map fun p => (p.1, p.2.reloc φ) := by
  cases ts with
  | nil =>
    have h1 : (nullErr : Record F).reloc φ = nullErr := rec_reloc h0 rfl rfl
    show Except.ok (false, _) = Except.ok (false, Ers.reloc φ (Ers.addDummyAdepAdes _ _))
    rw [dummy_reloc h0]
    show Except.ok (false, Ers.addDummyAdepAdes ⟨_, nullErr :: _, _⟩ _) = Except.ok (false, Ers.addDummyAdepAdes ⟨_, Record.reloc φ nullErr :: _, _⟩ _)
    rw [h1]; rfl
  | cons t rest =>
    have g := run_trace n e he t rest hT
    show (match runL n (e.reloc φ) (t.reloc φ) (rest.map (Token.reloc φ)) with
      | .ok e => finish e
      | .error x => .error x) = _
    rw [runL_reloc n e he t rest hT]
    unfold parseL
    dsimp only
    cases h : runL n e t rest with
    | error x => rfl
    | ok e' =>
      rw [h] at g
      obtain ⟨e1, hr, rfl⟩ := g
      obtain ⟨ts1, hs⟩ := hr
      have hne : e1.recs ≠ [] := (hs.invs ⟨Act.run_ne _ _ he, List.suffix_cons _ _⟩).ne
      have hne := post_ne t e1 hne
      generalize post t e1 = e2 at hne
      show finish (e2.reloc φ) = Except.map _ (finish e2)
      rw [finish_eq _ hne, finish_eq _ (by unfold Ers.reloc; simpa using hne), finErs_reloc h0]
      show Except.ok _ = Except.ok _
      congr 2
      unfold Ers.reloc
      simp

/-! ### Two token lists with the same texts -/

/-- The tokens of the texts, numbered from 1 in place of the indices. -/
def labelled : Nat → List Str → List Token
  | _, [] => []
  | k, x :: xs => ⟨x, k + 1, 0, .UNKNOWN, .UNKNOWN⟩ :: labelled (k + 1) xs

/-- The place of the token of a number. -/
def placeOf (T : List Token) (a b : Nat) : Nat × Nat :=
  if b = 0 ∧ 1 ≤ a then ((T[a - 1]?).map fun t => (t.start, t.stop)).getD (0, 0) else (0, 0)

theorem labelled_reloc (T : List Token) : ∀ (pre l : List Token), T = pre ++ l →
    ((labelled pre.length (l.map (·.text))).map (Token.reloc (placeOf T))).map assignSyntax = l.map assignSyntax := by
  intro pre l
  induction l generalizing pre with
  | nil => intro _; rfl
  | cons t l ih =>
    intro h
    have hk : T[pre.length]? = some t := by rw [h]; simp
    have h1 : assignSyntax (Token.reloc (placeOf T) ⟨t.text, pre.length + 1, 0, .UNKNOWN, .UNKNOWN⟩) = assignSyntax t := by
      have : placeOf T (pre.length + 1) 0 = (t.start, t.stop) := by
        unfold placeOf
        rw [if_pos ⟨rfl, by omega⟩, Nat.add_sub_cancel, hk]; rfl
      unfold assignSyntax Token.reloc
      dsimp only
      rw [this]
    have h2 := ih (pre ++ [t]) (by simp [h])
    rw [List.length_append] at h2
    show assignSyntax _ :: _ = assignSyntax t :: _
    rw [h1]
    exact congrArg _ h2

/-- The result for any tokens is that for the numbered tokens, with the places filled in. -/
theorem parse_labelled (n : Nat) (T : Tokens) :
    parseF15 n (Ers.new : Ers F) T =
      (parseF15 n (Ers.new : Ers F) ⟨labelled 0 (T.toks.map (·.text)), 0⟩).map fun p => (p.1, p.2.reloc (placeOf T.toks)) := by
  have h0 : placeOf T.toks 0 0 = (0, 0) := by unfold placeOf; rw [if_neg (by omega)]
  rw [parse_eq, parse_eq]
  rw [← parseL_reloc h0 n _ new_ne _ (fun _ => typed_map), new_reloc h0]
  congr 1
  rw [← labelled_reloc T.toks [] T.toks rfl, List.map_map, List.map_map]
  exact List.map_congr_left fun t _ => assign_reloc t

theorem same_reloc (T T' : List Token) (hl : T.length = T'.length) (r : Record F) :
    SameButPlace T T' (r.reloc (placeOf T)) (r.reloc (placeOf T')) := by
  refine ⟨rfl, ?_⟩
  by_cases h : r.stop = 0 ∧ 1 ≤ r.start ∧ r.start - 1 < T.length
  · right
    have e1 := List.getElem?_eq_getElem h.2.2
    have e2 := List.getElem?_eq_getElem (hl ▸ h.2.2)
    refine ⟨r.start - 1, _, _, e1, e2, ?_, ?_⟩
    · show placeOf T _ _ = _
      unfold placeOf
      rw [if_pos ⟨h.1, h.2.1⟩, e1]; rfl
    · show placeOf T' _ _ = _
      unfold placeOf
      rw [if_pos ⟨h.1, h.2.1⟩, e2]; rfl
  · left
    have key : ∀ U : List Token, U.length = T.length → placeOf U r.start r.stop = (0, 0) := by
      intro U hU
      unfold placeOf
      split
      · next h' => rw [List.getElem?_eq_none (by omega)]; rfl
      · rfl
    exact ⟨key T rfl, key T' hl.symm⟩

theorem all_reloc (T T' : List Token) (hl : T.length = T'.length) (l : List (Record F)) :
    AllSameButPlace T T' (l.map (Record.reloc (placeOf T))).reverse (l.map (Record.reloc (placeOf T'))).reverse := by
  refine ⟨by simp, fun i r r' h h' => ?_⟩
  rw [← List.map_reverse, List.getElem?_map] at h h'
  cases hx : l.reverse[i]? with
  | none => rw [hx] at h; cases h
  | some x =>
    rw [hx] at h h'
    cases h; cases h'
    exact same_reloc T T' hl x

/-- **C51** Two token lists with the same texts, whatever their indices, have the same outcome: the same exception, or
the same return value, the same derived rules, and the same elements and errors but for their indices, which are those
of the corresponding tokens. -/
theorem c51 (frames : Nat) (T T' : Tokens) (h : T.toks.map (·.text) = T'.toks.map (·.text)) :
    match parseF15 frames (Ers.new : Ers F) T, parseF15 frames (Ers.new : Ers F) T' with
    | .ok (b, e), .ok (b', e') =>
      b = b' ∧ e.derived = e'.derived ∧ AllSameButPlace T.toks T'.toks e.elements e'.elements ∧
        AllSameButPlace T.toks T'.toks e.errors e'.errors
    | .error x, .error x' => x = x'
    | _, _ => False := by
  rw [parse_labelled frames T, parse_labelled frames T', h]
  have hl : T.toks.length = T'.toks.length := by have := congrArg List.length h; simpa using this
  cases parseF15 frames (Ers.new : Ers F) ⟨labelled 0 (T'.toks.map (·.text)), 0⟩ with
  | error x => rfl
  | ok p => exact ⟨rfl, rfl, all_reloc _ _ hl _, all_reloc _ _ hl _⟩

/-- **C51** for texts: two layouts of the same words (`c04_layout`: blanks, tabs, line ends, in any number) have the same
outcome. -/
theorem c51_layout (frames : Nat) (ws src src' : Str) (ts : List Str) (h : Layout ws ts src) (h' : Layout ws ts src') :
    match parseF15 frames (Ers.new : Ers F) ⟨tokenizeList ws src, 0⟩, parseF15 frames (Ers.new : Ers F) ⟨tokenizeList ws src', 0⟩ with
    | .ok (b, e), .ok (b', e') =>
      b = b' ∧ e.derived = e'.derived ∧
        AllSameButPlace (tokenizeList ws src) (tokenizeList ws src') e.elements e'.elements ∧
        AllSameButPlace (tokenizeList ws src) (tokenizeList ws src') e.errors e'.errors
    | .error x, .error x' => x = x'
    | _, _ => False :=
  c51 frames ⟨_, 0⟩ ⟨_, 0⟩ (c04_same_layout ws src src' ts h h')

/-- **C51** A list of tokens and any text that consists of their texts, in order, with blank space between: the outcome is the same but for the
places. So what is proved of token lists (C71 to C76) holds of all texts made of these words. -/
theorem c51_words (frames : Nat) (T : Tokens) {ws src : Str} (h : Layout ws (T.toks.map (·.text)) src) :
    match parseF15 frames (Ers.new : Ers F) T, parseF15 frames (Ers.new : Ers F) ⟨tokenizeList ws src, 0⟩ with
    | .ok (b, e), .ok (b', e') =>
      b = b' ∧ e.derived = e'.derived ∧ AllSameButPlace T.toks (tokenizeList ws src) e.elements e'.elements ∧
        AllSameButPlace T.toks (tokenizeList ws src) e.errors e'.errors
    | .error x, .error x' => x = x'
    | _, _ => False :=
  c51 frames T ⟨_, 0⟩ (c04_layout ws src _ h).symm

/-- Tokens without places, and a text of two lines. -/
example : Layout f15Whitespace ([⟨py! "ABC", 0, 0, .UNKNOWN, .UNKNOWN⟩, ⟨py! "/", 0, 0, .UNKNOWN, .UNKNOWN⟩, ⟨py! "DEF", 0, 0, .UNKNOWN, .UNKNOWN⟩].map (fun t : Token => t.text)) (py! "ABC\n/DEF") :=
  .wordSep (g := []) (t := py! "ABC") (by unfold Gap; decide) (by unfold Word; decide) (by decide)
    (.slash (g := py! "\n") (by unfold Gap; decide) (by decide) (.word (g := []) (t := py! "DEF") (by unfold Gap; decide) (by unfold Word; decide)))

theorem blanks_gap {g : Str} (h : Blanks g) : Gap f15Whitespace g := by
  intro c hc
  rcases h c hc with rfl | rfl | rfl | rfl <;> exact ⟨by decide, by decide⟩

theorem pieces_blanks {ws g : Str} (hg : Gap ws g) (hn : g ≠ []) (s text : Str) :
    pieces ws (g ++ s) text = (if text.length > 0 then [text] else []) ++ pieces ws s [] := by
  cases g with
  | nil => exact absurd rfl hn
  | cons c g =>
    have hc := hg c (by simp)
    have := pieces_gap (fun d hd => hg d (by simp [hd])) (g := g) s
    simp [pieces, hc.1, hc.2, this]

theorem pieces_end {ws g : Str} (hg : Gap ws g) (text : Str) :
    pieces ws g text = (if text.length > 0 then [text] else []) := by
  cases g with
  | nil => rfl
  | cons c g => have := pieces_blanks hg (by simp) [] text; simpa [pieces] using this

theorem pieces_stroke {g h : Str} (hg : Gap f15Whitespace g) (hh : Gap f15Whitespace h) (s text : Str) :
    pieces f15Whitespace (g ++ '/' :: (h ++ s)) text =
      (if text.length > 0 then [text] else []) ++ (['/'] :: pieces f15Whitespace s []) := by
  have key : ∀ text : Str, pieces f15Whitespace ('/' :: (h ++ s)) text =
      (if text.length > 0 then [text] else []) ++ (['/'] :: pieces f15Whitespace s []) := by
    intro text
    have hm : '/' ∈ f15Whitespace := by decide
    simp only [pieces, if_pos hm, if_true, pieces_gap hh]
    rfl
  cases g with
  | nil => exact key text
  | cons c g => rw [pieces_blanks hg (by simp), key]; rfl

theorem pieces_respaced {s s' : Str} (h : Respaced s s') :
    ∀ text, pieces f15Whitespace s text = pieces f15Whitespace s' text := by
  induction h with
  | done hg hg' => intro text; rw [pieces_end (blanks_gap hg), pieces_end (blanks_gap hg')]
  | same _ ih => intro text; simp only [pieces, ih]
  | gap hg hg' hn hn' _ ih => intro text; rw [pieces_blanks (blanks_gap hg) hn, pieces_blanks (blanks_gap hg') hn', ih]
  | stroke hg hg' hh hh' _ ih =>
    intro text; rw [pieces_stroke (blanks_gap hg) (blanks_gap hh), pieces_stroke (blanks_gap hg') (blanks_gap hh'), ih]

/-- **C51** for the separators the documentation prescribes: two texts which differ in blank space only (blanks, tabs,
line feeds and carriage returns, also put in or left out beside an oblique stroke, before the first word and after the
last one) are cut into the same words and have the same outcome. -/
theorem c51_blanks (frames : Nat) {src src' g g' : Str} (hg : Blanks g) (hg' : Blanks g') (h : Respaced src src') :
    (tokenizeList f15Whitespace (g ++ src)).map (·.text) = (tokenizeList f15Whitespace (g' ++ src')).map (·.text) ∧
    match parseF15 frames (Ers.new : Ers F) ⟨tokenizeList f15Whitespace (g ++ src), 0⟩,
      parseF15 frames (Ers.new : Ers F) ⟨tokenizeList f15Whitespace (g' ++ src'), 0⟩ with
    | .ok (b, e), .ok (b', e') =>
      b = b' ∧ e.derived = e'.derived ∧
        AllSameButPlace (tokenizeList f15Whitespace (g ++ src)) (tokenizeList f15Whitespace (g' ++ src')) e.elements e'.elements ∧
        AllSameButPlace (tokenizeList f15Whitespace (g ++ src)) (tokenizeList f15Whitespace (g' ++ src')) e.errors e'.errors
    | .error x, .error x' => x = x'
    | _, _ => False := by
  have key : (tokenizeList f15Whitespace (g ++ src)).map (·.text) = (tokenizeList f15Whitespace (g' ++ src')).map (·.text) := by
    rw [tokenizeList_eq, tokenizeList_eq, loop_texts, loop_texts, pieces_gap (blanks_gap hg), pieces_gap (blanks_gap hg'),
      pieces_respaced h]
  exact ⟨key, c51 frames ⟨_, 0⟩ ⟨_, 0⟩ key⟩

/-- A text on three lines, with carriage returns and a tab, and the same text on one line. -/
example : Respaced (py! "ABC \r\n/N0450F350\tDEF\r\n") (py! "ABC/ N0450F350 DEF") ∧
    (tokenizeList f15Whitespace (py! "ABC \r\n/N0450F350\tDEF\r\n")).map (·.text) =
      [(py! "ABC"), (py! "/"), (py! "N0450F350"), (py! "DEF")] := by
  have b : ∀ g : Str, g.all (fun c => [' ', '\t', '\n', '\r'].contains c) = true → Blanks g := by
    intro g hg c hc
    have := List.all_eq_true.1 hg c hc
    simpa using this
  refine ⟨.same (.same (.same (.stroke (g := py! " \r\n") (g' := []) (h := []) (h' := py! " ") (b _ (by decide)) (b _ (by decide)) (b _ (by decide)) (b _ (by decide))
    (.same (.same (.same (.same (.same (.same (.same (.same (.same (.gap (g := py! "\t") (g' := py! " ") (b _ (by decide)) (b _ (by decide)) (by decide) (by decide)
      (.same (.same (.same (.done (g := py! "\r\n") (g' := []) (b _ (by decide)) (b _ (by decide))))))))))))))))))), ?_⟩
  decide +kernel

/-- Two layouts of one field 15 with a fault: same words, other indices, same message at the corresponding places. -/
example :
    (tokenizeList f15Whitespace (py! "N0450F350 ABC/ DEF")).map (·.text) =
      (tokenizeList f15Whitespace (py! "\n  N0450F350\t\tABC  / DEF ")).map (·.text) ∧
    check (py! "N0450F350 ABC/ DEF") (fun b e => !b && (e.elements.map fun r => (r.name, r.start, r.stop)) =
        [((py! "ADEP"), 0, 0), ((py! "ABC"), 10, 13), ((py! "ADES"), 0, 0)] &&
        (e.errors.map fun r => (r.name, r.start, r.stop)) = [((py! "DEF"), 15, 18)]) = true ∧
    check (py! "\n  N0450F350\t\tABC  / DEF ") (fun b e => !b && (e.elements.map fun r => (r.name, r.start, r.stop)) =
        [((py! "ADEP"), 0, 0), ((py! "ABC"), 14, 17), ((py! "ADES"), 0, 0)] &&
        (e.errors.map fun r => (r.name, r.start, r.stop)) = [((py! "DEF"), 21, 24)]) = true := by
  decide +kernel

end F15
