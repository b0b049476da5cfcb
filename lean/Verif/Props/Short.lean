import Verif.Props.Print
import Verif.Spec.Short
/-!
# C52: the short form of a record and the printed syntax table
-/

namespace F15
open Spec

set_option linter.unusedSectionVars false
variable {F : Type} [PyFloat F]

/-! ### The short form -/

theorem beforeBlank_cons {a : Str} (h : ' ' ∉ a) (s : Str) : beforeBlank (a ++ ' ' :: s) = a := by
  unfold beforeBlank
  induction a with
  | nil => simp
  | cons c a ih =>
    have h1 : c ≠ ' ' := fun h' => h (by simp [h'])
    rw [List.cons_append, List.takeWhile_cons_of_pos (by simpa using h1), ih (fun h' => h (by simp [h']))]

theorem afterBlank_cons {a : Str} (h : ' ' ∉ a) (s : Str) : afterBlank (a ++ ' ' :: s) = s := by
  unfold afterBlank
  induction a with
  | nil => simp
  | cons c a ih =>
    have h1 : c ≠ ' ' := fun h' => h (by simp [h'])
    rw [List.cons_append, List.dropWhile_cons_of_pos (by simpa using h1), ih (fun h' => h (by simp [h']))]

theorem beforeBlank_blanks (s : Str) (n : Nat) : beforeBlank (s ++ List.replicate n ' ') = beforeBlank s := by
  unfold beforeBlank
  induction s with
  | nil => cases n <;> simp [List.replicate_succ]
  | cons c s ih =>
    rw [List.cons_append]
    by_cases h : c = ' '
    · rw [List.takeWhile_cons_of_neg (by simpa using h), List.takeWhile_cons_of_neg (by simpa using h)]
    · rw [List.takeWhile_cons_of_pos (by simpa using h), List.takeWhile_cons_of_pos (by simpa using h), ih]

theorem afterBlank_blanks (s : Str) (n : Nat) : ∃ m, afterBlank (s ++ List.replicate n ' ') = afterBlank s ++ List.replicate m ' ' := by
  unfold afterBlank
  induction s with
  | nil => cases n with
    | zero => exact ⟨0, by simp⟩
    | succ n => exact ⟨n, by simp [List.replicate_succ]⟩
  | cons c s ih =>
    rw [List.cons_append]
    by_cases h : c = ' '
    · rw [List.dropWhile_cons_of_neg (by simpa using h), List.dropWhile_cons_of_neg (by simpa using h)]
      exact ⟨n, by simp⟩
    · rw [List.dropWhile_cons_of_pos (by simpa using h), List.dropWhile_cons_of_pos (by simpa using h)]
      exact ih

theorem trim_blanks (s : Str) (n : Nat) : trim (s ++ List.replicate n ' ') = trim s := by
  unfold trim
  obtain ⟨m, hm⟩ := dropWhile_blank_end n s
  rw [hm, List.reverse_append, List.reverse_replicate, dropWhile_blanks]

theorem readCells_blanks (k : Nat) : ∀ (s : Str) (n : Nat), readCells k (s ++ List.replicate n ' ') = readCells k s := by
  induction k with
  | zero => intro s n; show [_] = [_]; rw [trim_blanks]
  | succ k ih =>
    intro s n
    show _ :: _ = _ :: _
    obtain ⟨m, hm⟩ := afterBlank_blanks s n
    rw [beforeBlank_blanks, hm, ih]

theorem strip_blanks (s : Str) : ∃ n, s = (s.reverse.dropWhile (· = ' ')).reverse ++ List.replicate n ' ' := by
  refine ⟨(s.reverse.takeWhile (· = ' ')).length, ?_⟩
  have h1 : s.reverse.takeWhile (· = ' ') = List.replicate (s.reverse.takeWhile (· = ' ')).length ' ' :=
    List.eq_replicate_of_mem fun b hb => by simpa using List.all_eq_true.1 (List.all_takeWhile (p := (· = ' ')) (l := s.reverse)) b hb
  have h2 := congrArg List.reverse (List.takeWhile_append_dropWhile (p := (· = ' ')) (l := s.reverse))
  rw [List.reverse_append, List.reverse_reverse, h1, List.reverse_replicate] at h2
  simpa using h2.symm

/-- **C52** The short form of a record: name, rules, speed and level, each followed by one blank, then the texts. Reading it gives them back, also
where some of them are empty. -/
theorem c52_short (r : Record F) (h : ∀ s ∈ [r.name, r.rules, r.speed, r.altitude], ' ' ∉ s) :
    readCells 4 r.unitTestOnly = [r.name, r.rules, r.speed, r.altitude, trim (r.breakText ++ ' ' :: r.errorText)] := by
  simp only [List.forall_mem_cons, List.not_mem_nil, false_imp_iff, implies_true, and_true] at h
  obtain ⟨h1, h2, h3, h4⟩ := h
  have key : readCells 4 (r.name ++ ' ' :: (r.rules ++ ' ' :: (r.speed ++ ' ' :: (r.altitude ++ ' ' :: (r.breakText ++ ' ' :: r.errorText))))) =
      [r.name, r.rules, r.speed, r.altitude, trim (r.breakText ++ ' ' :: r.errorText)] := by
    simp only [readCells, beforeBlank_cons h1, beforeBlank_cons h2, beforeBlank_cons h3, beforeBlank_cons h4, afterBlank_cons h1, afterBlank_cons h2, afterBlank_cons h3, afterBlank_cons h4]
  have hs : r.name ++ py! " " ++ r.rules ++ py! " " ++ r.speed ++ py! " " ++ r.altitude ++ py! " " ++ r.breakText ++ py! " " ++ r.errorText =
      r.name ++ ' ' :: (r.rules ++ ' ' :: (r.speed ++ ' ' :: (r.altitude ++ ' ' :: (r.breakText ++ ' ' :: r.errorText)))) := by
    simp only [List.append_assoc, List.singleton_append, List.cons_append, List.nil_append]
  unfold Record.unitTestOnly
  dsimp only
  rw [hs]
  obtain ⟨n, hn⟩ := strip_blanks (r.name ++ ' ' :: (r.rules ++ ' ' :: (r.speed ++ ' ' :: (r.altitude ++ ' ' :: (r.breakText ++ ' ' :: r.errorText)))))
  rw [hn, readCells_blanks] at key
  exact key

/-- No blank at either end. -/
def Tight (s : Str) : Prop := s.head? ≠ some ' ' ∧ s.getLast? ≠ some ' '

theorem tight_trim {s : Str} (h : Tight s) : trim s = s := by
  have drop : ∀ s : Str, s.head? ≠ some ' ' → s.dropWhile (· = ' ') = s := by
    intro s hs
    cases s with
    | nil => rfl
    | cons c s => exact List.dropWhile_cons_of_neg (by simpa using fun h => hs (by rw [h]; rfl))
  unfold trim
  rw [drop s h.1, drop s.reverse (by rw [List.head?_reverse]; exact h.2), List.reverse_reverse]

theorem tight_none {s : Str} (h : ' ' ∉ s) : Tight s :=
  ⟨fun hh => h (List.mem_of_mem_head? hh), fun hh => h (List.mem_of_mem_getLast? hh)⟩

/-- What is wanted of an element. -/
def Brief (r : Record F) : Prop := ' ' ∉ r.name ∧ r.errorText = [] ∧ Tight r.breakText

theorem brief_inv {T : List Token} (hT : ∀ t ∈ T, ' ' ∉ t.text ∧ t.text ≠ []) : ElemInv (F := F) T Brief := by
  have hpos : ∀ (t : Token) (q : Record F), Brief q → Brief (posHead t q) := by
    intro t q h; unfold posHead; cases t.sub <;> exact h
  have hbrk : ∀ (t : Token) (q : Record F), Brief q → Brief (brkRules t.sub q) := by
    intro t q h; unfold brkRules; cases t.sub <;> exact h
  have hnil : Tight [] := ⟨by simp, by simp⟩
  have hfresh : ∀ (t : Token) (p : Record F), ' ' ∉ t.text → Brief (fresh p t) := fun t p h => ⟨h, rfl, hnil⟩
  refine ⟨?_, ?_, ?_⟩
  · intro r r' hk hp
    unfold Keep at hk
    rw [hk]; exact hp
  · intro a p h1 h2 h3 hp
    have hf := hfresh _ p (hT _ h2).1
    cases a with
    | point t => exact hpos _ _ hf
    | ccPoint t => exact hpos _ _ hf
    | vToI t => exact hpos _ _ hf
    | brk t => exact hbrk _ _ hf
    | vfr t => exact ⟨by show ' ' ∉ (py! "VFR"); decide, rfl, hnil⟩
    | _ => exact hf
  · intro a p h1 h2 h3 hp
    have ht := hT _ h2
    cases a with
    | text t =>
      show Brief (p.appendBreakText t.text)
      unfold Record.appendBreakText
      split
      · exact ⟨hp.1, hp.2.1, tight_none ht.1⟩
      · next hb =>
        refine ⟨hp.1, hp.2.1, ?_, ?_⟩
        · show (p.breakText ++ ' ' :: t.text).head? ≠ _
          cases hh : p.breakText with
          | nil => exact absurd hh hb
          | cons c s => have := hp.2.2.1; rw [hh] at this; exact this
        · show (p.breakText ++ ' ' :: t.text).getLast? ≠ _
          have h5 : t.text ≠ [] := ht.2
          rw [List.getLast?_append]
          cases hh : t.text with
          | nil => exact absurd hh h5
          | cons c s =>
            have h4 := (tight_none ht.1).2
            have h4 : t.text.getLast? ≠ some ' ' := h4
            rw [hh] at h4
            rw [List.getLast?_cons_cons, List.getLast?_cons, Option.some_or, ← List.getLast?_cons]
            exact h4
    | _ => exact hp

theorem parse_brief {frames : Nat} {tokens : Tokens} {b : Bool} {e' : Ers F} (h : parseF15 frames Ers.new tokens = .ok (b, e'))
    (hT : ∀ t ∈ tokens.toks, ' ' ∉ t.text ∧ t.text ≠ []) {r : Record F} (hr : r ∈ e'.elements) : Brief r := by
  have hT' : ∀ t ∈ typedTokens tokens, ' ' ∉ t.text ∧ t.text ≠ [] := by
    intro t ht
    obtain ⟨x, hx, rfl⟩ := List.mem_map.1 ht
    rw [assign_text]; exact hT x hx
  have hnil : Tight [] := ⟨by simp, by simp⟩
  have h0 : Brief (adepRec F) := ⟨by show ' ' ∉ (py! "ADEP"); decide, rfl, hnil⟩
  have ha : ∀ x, Brief (adesRec (F := F) x) := fun x => ⟨by show ' ' ∉ (py! "ADES"); decide, rfl, hnil⟩
  rcases parse_cases new_ne h with ⟨_, _, rfl⟩ | ⟨t, rest, e1, htt, hrun, hne, _, rfl⟩
  · have hr' : r ∈ [adepRec F, adesRec []] := hr
    have : r = adepRec F ∨ r = adesRec (F := F) [] := by simpa using hr'
    rcases this with rfl | rfl
    · exact h0
    · exact ha _
  · have htt' : typedTokens tokens = t :: rest := htt
    rw [htt'] at hT'
    obtain ⟨ts1, hs⟩ := hrun.start (by simp)
    have h1 := Star.elem_inv (brief_inv (F := F) hT') hs new_ne (by
      intro r hr
      rw [new_recs] at hr
      rw [List.mem_singleton.1 hr]; exact h0)
    have h2 : ∀ r ∈ (post t e1).recs, Brief r := by
      obtain ⟨l, o, h3⟩ := split_last _ hne
      rw [post_recs t e1 l o h3]
      rw [h3] at h1
      intro r hr
      rcases List.mem_append.1 hr with hr | hr
      · exact h1 r (by simp [hr])
      · have ho := h1 o (by simp)
        rw [List.mem_singleton.1 hr]
        split <;> exact ho
    rw [fin_elements] at hr
    rcases List.mem_append.1 hr with hr | hr
    · exact h2 r (List.mem_reverse.1 hr)
    · rw [List.mem_singleton.1 hr]
      exact ha _

theorem unit_no_blank {us : List Char} {n : Nat} {s : Str} (hu : ' ' ∉ us) : UnitDigits us n s → ' ' ∉ s := by
  rintro ⟨u, d, h1, rfl, h2, h3⟩ hc
  rcases List.mem_cons.1 hc with hc | hc
  · exact hu (hc ▸ h1)
  · exact absurd (h3 _ hc) (by unfold Digit; decide)

/-- **C52** The short form of every element of a parse gives back its name, rules, speed, level and free text, and the short form of every error
its name and its message. -/
theorem c52_short_parse {frames : Nat} {tokens : Tokens} {b : Bool} {e : Ers F} (h : parseF15 frames Ers.new tokens = .ok (b, e))
    (hT : ∀ t ∈ tokens.toks, ' ' ∉ t.text ∧ t.text ≠ []) :
    (∀ r ∈ e.elements, readCells 4 r.unitTestOnly = [r.name, r.rules, r.speed, r.altitude, r.breakText]) ∧
      ∀ r ∈ e.errors, readCells 4 r.unitTestOnly = [r.name, [], [], [], trim r.errorText] := by
  refine ⟨fun r hr => ?_, fun r hr => ?_⟩
  · have hb := parse_brief h hT hr
    have hq := ((parse_cause h).2.2 r hr).1
    have hsl : ' ' ∉ r.speed ∧ ' ' ∉ r.altitude := by
      rcases hq with hq | ⟨sp, lv, h1, h2, hq⟩
      · have e1 : r.speed = [] := congrArg (·.1) hq
        have e2 : r.altitude = [] := congrArg (·.2.2.1) hq
        rw [e1, e2]; exact ⟨by simp, by simp⟩
      · have e1 : r.speed = sp := congrArg (·.1) hq
        have e2 : r.altitude = lv := congrArg (·.2.2.1) hq
        rw [e1, e2]
        exact ⟨by rcases h1 with h1 | h1 <;> exact unit_no_blank (by decide) h1,
          by rcases h2 with h2 | h2 <;> exact unit_no_blank (by decide) h2⟩
    have hru : ' ' ∉ r.rules := by rcases c25_values h hr with (h | h | h | h) | h <;> rw [h] <;> decide
    rw [c52_short r (by
      simp only [List.forall_mem_cons, List.not_mem_nil, false_imp_iff, implies_true, and_true]
      exact ⟨hb.1, hru, hsl.1, hsl.2⟩), hb.2.1, show ([' '] : Str) = List.replicate 1 ' ' from rfl, trim_blanks, tight_trim hb.2.2]
  · have key : ∀ (t : Token) (n : Nat), ' ' ∉ t.text → ErrorIs t n r → readCells 4 r.unitTestOnly = [r.name, [], [], [], trim r.errorText] := by
      intro t n ht hx
      obtain ⟨m, hm, rfl⟩ := hx
      rw [c52_short _ (by
        simp only [List.forall_mem_cons, List.not_mem_nil, false_imp_iff, implies_true, and_true]
        exact ⟨ht, by show ' ' ∉ []; simp, by show ' ' ∉ []; simp, by show ' ' ∉ []; simp⟩)]
      exact congrArg (fun x => [_, [], [], [], x]) (trim_blank _)
    by_cases hne : typedTokens tokens = []
    · exact key _ _ (by decide) (empty_errors h hne r hr)
    · obtain ⟨new, h1, h2⟩ := c17 (by show (Ers.new : Ers F).recs.reverse ≠ []; simp [new_recs])
        (fun h0 => hne (by unfold typedTokens; rw [h0]; rfl)) h
      have hx : r ∈ new := by
        rw [h1] at hr
        simpa [show (Ers.new : Ers F).errors = [] from rfl] using hr
      obtain ⟨t, h3, n, h4⟩ := h2 r hx
      obtain ⟨y, hy, rfl⟩ := List.mem_map.1 h3
      exact key (assignSyntax y) n (by rw [assign_text]; exact (hT y hy).1) h4

/-! ### The syntax table -/

/-- `cells` are those of the row. -/
def Spec.ShowsRow (str : EnumStr) (row : Row) (cells : List Str) : Prop :=
  ∃ base sub, cells = [row.pattern, str.base row.base, base, str.sub row.sub, sub] ∧
    intVal base = some row.base.ctorIdx ∧ intVal sub = some row.sub.ctorIdx

theorem table_patterns : ∀ row ∈ table, (row.pattern.head? ≠ some ' ' ∧ row.pattern.getLast? ≠ some ' ') ∧ '\n' ∉ row.pattern := by
  decide +kernel

/-- **C52** The printed syntax table has a line for each row in order, from which the row can be read, however long its pattern is, if the names of
the types fit into 40 columns. -/
theorem c52_descriptions (str : EnumStr) (hb : ∀ b, FitsIn 40 (str.base b) ∧ '\n' ∉ str.base b)
    (hs : ∀ s, FitsIn 40 (str.sub s) ∧ '\n' ∉ str.sub s) :
    ∃ ls, lines (printDescriptions str) = ls ++ [[]] ∧ ls.length = table.length ∧
      ∀ (i : Nat) row l, table[i]? = some row → ls[i]? = some l → ShowsRow str row (descriptionCells l) := by
  have n1 := fun n => plain_no (plain_strNat n)
  let line : Row → Str := fun item => alignRight 40 item.pattern ++ ' ' ::
    (alignRight 40 (str.base item.base) ++ alignRight 4 (strNat (baseNumber item.base))) ++ ' ' ::
    (alignRight 40 (str.sub item.sub) ++ alignRight 4 (strNat (subNumber item.sub)))
  have hline : ∀ row ∈ table, '\n' ∉ line row := by
    intro row hr
    have e : '\n' ≠ ' ' := by decide
    simp only [line, List.mem_append, List.mem_cons, not_or]
    exact ⟨⟨right_no (table_patterns row hr).2, e, right_no (hb _).2, right_no (n1 _)⟩, e, right_no (hs _).2, right_no (n1 _)⟩
  refine ⟨table.map line, ?_, by simp, ?_⟩
  · unfold printDescriptions
    rw [show printDescription str = fun t => printLine (line t) from rfl, ← List.append_nil (table.flatMap _), lines_flatMap line _ hline]
    rfl
  · intro i row l hi hl
    rw [List.getElem?_map, hi] at hl
    cases hl
    have hp := table_patterns row (List.mem_of_getElem? hi)
    have sb : row.base.ctorIdx < 10 ^ 4 := by
      have : row.base.ctorIdx ≤ 30 := by cases row.base <;> decide
      omega
    have ss : row.sub.ctorIdx < 10 ^ 4 := by
      have : row.sub.ctorIdx ≤ 200 := by cases row.sub <;> decide
      omega
    have l1 : (strNat (baseNumber row.base)).length ≤ 4 := strNat_len (w := 4) (by decide) sb
    have l2 : (strNat (subNumber row.sub)).length ≤ 4 := strNat_len (w := 4) (by decide) ss
    have e : line row = alignRight 40 row.pattern ++ ((' ' :: alignRight 40 (str.base row.base)) ++ (alignRight 4 (strNat (baseNumber row.base)) ++
        ((' ' :: alignRight 40 (str.sub row.sub)) ++ alignRight 4 (strNat (subNumber row.sub))))) := by
      simp only [line, List.append_assoc, List.cons_append]
    have c1 : (' ' :: alignRight 40 (str.base row.base)).length = 41 := by rw [List.length_cons, right_length (hb _).1.1]
    have c2 : (' ' :: alignRight 40 (str.sub row.sub)).length = 41 := by rw [List.length_cons, right_length (hs _).1.1]
    have c0 : (alignRight 40 row.pattern).length = (line row).length - 90 := by
      rw [e]; simp only [List.length_append, c1, c2, right_length l1, right_length l2]; omega
    unfold descriptionCells
    rw [← c0, e, columns_cons rfl, columns_cons c1, columns_cons (right_length l1), columns_cons c2]
    simp only [columns, List.map_cons, List.map_nil, trim_right, trim_blank, trim_strNat, tight_trim (s := row.pattern) hp.1, (hb _).1.2, (hs _).1.2]
    exact ⟨_, _, rfl, intVal_strNat _, intVal_strNat _⟩

/-- Python 3.11 and later print the numbers, which fit. -/
example : (∀ b, FitsIn 40 (strNat (baseNumber b)) ∧ '\n' ∉ strNat (baseNumber b)) ∧
    ∀ s, FitsIn 40 (strNat (subNumber s)) ∧ '\n' ∉ strNat (subNumber s) := by
  have n1 := fun n => plain_no (plain_strNat n)
  refine ⟨fun b => ⟨⟨?_, trim_strNat _⟩, n1 _⟩, fun s => ⟨⟨?_, trim_strNat _⟩, n1 _⟩⟩
  · have : (strNat (baseNumber b)).length ≤ 5 := strNat_len (w := 5) (by decide) (base_small b)
    omega
  · have : (strNat (subNumber s)).length ≤ 5 := strNat_len (w := 5) (by decide) (sub_small s)
    omega

/-- A field 15 with free text in a break and one with an error, in short. -/
example : check (py! "N0450F350 PNT/N0400VFR SOME TEXT") (fun b e => b && decide (e.elements.map (·.unitTestOnly) =
    [py! "ADEP IFR N0450 F350", py! "PNT IFR N0400 F050", py! "VFR VFR N0400 F050 SOME TEXT", py! "ADES VFR"])) = true := by decide +kernel

end F15
