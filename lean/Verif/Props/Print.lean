import Verif.Model.Print
import Verif.Spec.Print
import Verif.Lemmas.Xml
import Verif.Props.Xml
/-!
# C52: the printed tables can be read
-/

namespace F15
open Spec

set_option linter.unusedSectionVars false
variable {F : Type} [PyFloat F]

/-! ### Numbers -/

theorem foldl_reverse_digits : ∀ (fuel n : Nat), n < fuel →
    (digitsRev fuel n).reverse.foldl (fun a c => 10 * a + (c.toNat - 48)) 0 = n := by
  have dig : ∀ k, k < 10 → (Char.ofNat (48 + k)).toNat - 48 = k := by decide
  intro fuel
  induction fuel with
  | zero => intro n h; omega
  | succ f ih =>
    intro n h
    unfold digitsRev
    split
    · next hn => simp [dig n hn]
    · next hn =>
      rw [List.reverse_cons, List.foldl_append, ih (n / 10) (by omega)]
      simp only [List.foldl_cons, List.foldl_nil]
      rw [dig _ (Nat.mod_lt _ (by decide))]
      omega

theorem digitsRev_ne (fuel n : Nat) (h : 0 < fuel) : digitsRev fuel n ≠ [] := by
  cases fuel with
  | zero => omega
  | succ f => unfold digitsRev; split <;> simp

theorem strNat_digit (n : Nat) : ∀ c ∈ strNat n, '0' ≤ c ∧ c ≤ '9' := fun c hc => digitsRev_digit _ _ c (List.mem_reverse.1 hc)

theorem strNat_ne (n : Nat) : strNat n ≠ [] := by
  unfold strNat
  simpa using digitsRev_ne (n + 1) n (by omega)

theorem strNat_val (n : Nat) : (strNat n).foldl (fun a c => 10 * a + (c.toNat - 48)) 0 = n := foldl_reverse_digits _ _ (by omega)

theorem natVal_strNat (n : Nat) : natVal (strNat n) = some n := by
  unfold natVal; rw [if_pos ⟨strNat_ne n, strNat_digit n⟩, strNat_val]

theorem intVal_strNat (n : Nat) : intVal (strNat n) = some (n : Int) := by
  unfold intVal
  rw [if_neg, natVal_strNat]; · rfl
  intro h
  have : '-' ∈ strNat n := List.mem_of_mem_head? h
  exact absurd (strNat_digit n _ this) (by decide)

theorem intVal_strInt (n : Int) : intVal (strInt n) = some n := by
  unfold strInt
  split
  · next h =>
    unfold intVal
    rw [if_pos (List.head?_cons), List.tail_cons, natVal_strNat]
    show some (-((-n).toNat : Int)) = _
    congr 1; omega
  · next h => rw [intVal_strNat]; congr 1; omega

theorem digitsRev_length : ∀ (k fuel n : Nat), n < 10 ^ (k + 1) → (digitsRev fuel n).length ≤ k + 1 := by
  intro k
  induction k with
  | zero =>
    intro fuel n h
    cases fuel with
    | zero => simp [digitsRev]
    | succ f => unfold digitsRev; rw [if_pos (by simpa using h)]; simp
  | succ k ih =>
    intro fuel n h
    cases fuel with
    | zero => simp [digitsRev]
    | succ f =>
      unfold digitsRev
      split
      · simp
      · have := ih f (n / 10) (by rw [Nat.pow_succ] at h; omega)
        simp only [List.length_cons]; omega

theorem strNat_len {w n : Nat} (hw : 0 < w) (h : n < 10 ^ w) : (strNat n).length ≤ w := by
  obtain ⟨k, rfl⟩ : ∃ k, w = k + 1 := ⟨w - 1, by omega⟩
  unfold strNat; rw [List.length_reverse]; exact digitsRev_length k _ n h

theorem strNat_length {k n : Nat} (h : n < 10 ^ (k + 1)) : (strNat n).length ≤ k + 1 := by
  unfold strNat; rw [List.length_reverse]; exact digitsRev_length k _ n h

theorem strInt_length {k : Nat} {n : Int} (h : n < 10 ^ (k + 2)) (h' : -10 ^ (k + 1) < n) : (strInt n).length ≤ k + 2 := by
  unfold strInt
  split
  · have : (-n).toNat < 10 ^ (k + 1) := by
      have h2 : ((10 ^ (k + 1) : Nat) : Int) = (10 : Int) ^ (k + 1) := by simp
      omega
    have := strNat_length this
    simp only [List.length_cons]; omega
  · apply strNat_length
    have h2 : ((10 ^ (k + 2) : Nat) : Int) = (10 : Int) ^ (k + 2) := by simp
    show n.toNat < 10 ^ (k + 2)
    omega

/-! ### Columns -/

theorem dropWhile_none {s : Str} (h : ∀ c ∈ s, c ≠ ' ') : s.dropWhile (· = ' ') = s := by
  cases s with
  | nil => rfl
  | cons c s => simp [List.dropWhile, h c (by simp)]

theorem trim_none {s : Str} (h : ∀ c ∈ s, c ≠ ' ') : trim s = s := by
  unfold trim
  rw [dropWhile_none h, dropWhile_none (fun c hc => h c (List.mem_reverse.1 hc)), List.reverse_reverse]

theorem dropWhile_blanks (n : Nat) (s : Str) : (List.replicate n ' ' ++ s).dropWhile (· = ' ') = s.dropWhile (· = ' ') := by
  induction n with
  | zero => rfl
  | succ n ih => rw [List.replicate_succ, List.cons_append, List.dropWhile_cons_of_pos (by simp)]; exact ih

theorem trim_right (w : Nat) (s : Str) : trim (alignRight w s) = trim s := by
  unfold trim alignRight; rw [dropWhile_blanks]

theorem dropWhile_blank_end (n : Nat) (s : Str) : ∃ m, (s ++ List.replicate n ' ').dropWhile (· = ' ') =
    s.dropWhile (· = ' ') ++ List.replicate m ' ' := by
  induction s with
  | nil =>
    refine ⟨0, ?_⟩
    have := dropWhile_blanks n []
    simpa using this
  | cons c s ih =>
    by_cases h : c = ' '
    · rw [List.cons_append, List.dropWhile_cons_of_pos (by simpa using h), List.dropWhile_cons_of_pos (by simpa using h)]
      exact ih
    · rw [List.cons_append, List.dropWhile_cons_of_neg (by simpa using h), List.dropWhile_cons_of_neg (by simpa using h)]
      exact ⟨n, rfl⟩

theorem trim_left (w : Nat) (s : Str) : trim (alignLeft w s) = trim s := by
  unfold trim alignLeft
  obtain ⟨m, hm⟩ := dropWhile_blank_end (w - s.length) s
  rw [hm, List.reverse_append, List.reverse_replicate, dropWhile_blanks]

theorem trim_blank (s : Str) : trim (' ' :: s) = trim s := by
  unfold trim; rw [List.dropWhile_cons_of_pos (by simp)]

theorem left_length {w : Nat} {s : Str} (h : s.length ≤ w) : (alignLeft w s).length = w := by
  unfold alignLeft; simp; omega

theorem right_length {w : Nat} {s : Str} (h : s.length ≤ w) : (alignRight w s).length = w := by
  unfold alignRight; simp; omega

theorem columns_cons {w : Nat} {ws : List Nat} {a s : Str} (h : a.length = w) : columns (w :: ws) (a ++ s) = a :: columns ws s := by
  subst h
  show List.take _ _ :: columns ws (List.drop _ _) = _
  rw [List.take_left, List.drop_left]

theorem trim_strNat (n : Nat) : trim (strNat n) = strNat n :=
  trim_none fun c hc => by
    rintro rfl; exact absurd (strNat_digit n _ hc) (by decide)

theorem trim_strInt (n : Int) : trim (strInt n) = strInt n :=
  trim_none fun c hc => by
    unfold strInt at hc
    split at hc
    · rcases List.mem_cons.1 hc with rfl | hc
      · decide
      · rintro rfl; exact absurd (strNat_digit _ _ hc) (by decide)
    · rintro rfl; exact absurd (strNat_digit _ _ hc) (by decide)

theorem siText_fits {k : Nat} (hk : 1 ≤ k) {text : Str} {si : Int} (h' : -10 ^ (k + 1) < si) (h : si < 10 ^ (k + 2)) : FitsIn (k + 2) (siText text si) := by
  unfold siText
  split
  · exact ⟨by show 3 ≤ _; omega, by decide⟩
  · exact ⟨strInt_length h h', trim_strInt _⟩

theorem base_small (b : BaseType) : b.ctorIdx < 10 ^ 5 := by
  have : b.ctorIdx ≤ 30 := by cases b <;> decide
  omega

theorem sub_small (s : SubType) : s.ctorIdx < 10 ^ 5 := by
  have : s.ctorIdx ≤ 200 := by cases s <;> decide
  omega

/-- **C52** A line of the printed sequence, cut at the fixed columns, gives back every field of the record, if they fit into their columns. -/
theorem c52_record (r : Record F) (error : Bool) (h : RecordFits r error) :
    ShowsRecord r error ((columns recordWidths (r.toText error)).map trim) := by
  have hb : (strNat (baseNumber r.base)).length ≤ 5 := strNat_len (w := 5) (by decide) (base_small r.base)
  have hs : (strNat (subNumber r.sub)).length ≤ 5 := strNat_len (w := 5) (by decide) (sub_small r.sub)
  have h1 := strNat_len (w := 6) (by decide) h.start
  have h2 := strNat_len (w := 6) (by decide) h.stop
  have f1 : FitsIn 6 _ := siText_fits (k := 4) (by decide) (text := r.speed) h.speedSi.1 h.speedSi.2
  have f2 : FitsIn 6 _ := siText_fits (k := 4) (by decide) (text := r.altitude) h.altitudeSi.1 h.altitudeSi.2
  have f3 : FitsIn 7 _ := siText_fits (k := 5) (by decide) (text := if r.cruiseTo = py! "PLUS" then [] else r.cruiseTo) h.cruiseToSi.1 h.cruiseToSi.2
  have h3 : _ ≤ 5 := strInt_length (k := 3) h.stay.2 h.stay.1
  unfold Record.toText recordWidths
  simp only [List.append_assoc]
  rw [columns_cons (left_length h.name.1), columns_cons (right_length h1), columns_cons (right_length h2), columns_cons (right_length hb),
    columns_cons (right_length hs), columns_cons (right_length h.speed.1), columns_cons (right_length f1.1),
    columns_cons (right_length h.altitude.1), columns_cons (right_length f2.1), columns_cons (right_length h.bearing.1),
    columns_cons (right_length h.distance.1), columns_cons (right_length h.rules.1), columns_cons (right_length h3),
    columns_cons (right_length h.cruiseTo.1), columns_cons (right_length f3.1), columns_cons (right_length h.latitude.1),
    columns_cons (right_length h.longitude.1)]
  simp only [columns, List.map_cons, List.map_nil, trim_left, trim_right, trim_blank, trim_strNat, trim_strInt, h.name.2, h.speed.2,
    h.altitude.2, h.bearing.2, h.distance.2, h.rules.2, h.cruiseTo.2, h.latitude.2, h.longitude.2, f1.2, f2.2, f3.2, h.text]
  refine ⟨_, _, _, _, _, _, _, _, rfl, intVal_strNat _, intVal_strNat _, intVal_strNat _, intVal_strNat _, ?_, ?_, intVal_strInt _, ?_⟩
  · unfold siText; split
    · rfl
    · exact intVal_strInt _
  · unfold siText; split
    · rfl
    · exact intVal_strInt _
  · by_cases hp : r.cruiseTo = py! "PLUS"
    · rw [if_pos (.inr hp), if_pos hp]; rfl
    · rw [if_neg hp]
      by_cases h0 : r.cruiseTo = []
      · rw [if_pos (.inl h0)]; unfold siText; rw [if_pos h0]
      · rw [if_neg (by simp [h0, hp])]; unfold siText; rw [if_neg h0]; exact intVal_strInt _

/-! ### Lines -/

theorem lines_ne (s : Str) : lines s ≠ [] := by
  cases s with
  | nil => simp [lines]
  | cons c s => unfold lines; split; · simp
                split <;> simp

theorem lines_append {a : Str} (h : '\n' ∉ a) (b : Str) : lines (a ++ '\n' :: b) = a :: lines b := by
  induction a with
  | nil => simp [lines]
  | cons c a ih =>
    have h1 : c ≠ '\n' := fun h' => h (by simp [h'])
    have h2 := ih (fun h' => h (by simp [h']))
    rw [List.cons_append, lines, if_neg h1, h2]

theorem lines_print {a : Str} (h : '\n' ∉ a) (b : Str) : lines (printLine a ++ b) = a :: lines b := by
  unfold printLine; rw [List.append_assoc]; exact lines_append h b

theorem lines_flatMap {α : Type} (f : α → Str) (l : List α) (h : ∀ x ∈ l, '\n' ∉ f x) (b : Str) :
    lines (l.flatMap (fun x => printLine (f x)) ++ b) = l.map f ++ lines b := by
  induction l with
  | nil => rfl
  | cons x l ih =>
    rw [List.flatMap_cons, List.append_assoc, lines_print (h x (by simp)), ih (fun y hy => h y (by simp [hy]))]
    rfl

theorem right_no {w : Nat} {s : Str} (h : '\n' ∉ s) : '\n' ∉ alignRight w s := by
  unfold alignRight; simp [h]

theorem left_no {w : Nat} {s : Str} (h : '\n' ∉ s) : '\n' ∉ alignLeft w s := by
  unfold alignLeft; simp [h]

theorem plain_no {s : Str} (h : Plain s) : '\n' ∉ s := fun hc => (h _ hc).2.2.2.2.2.2 rfl

theorem siText_no (t : Str) (n : Int) : '\n' ∉ siText t n := by
  unfold siText; split
  · decide
  · exact plain_no (plain_strInt n)

/-- The texts of the record, as they are printed, have no line ends. -/
def Spec.OneLine (r : Record F) (error : Bool) : Prop :=
  ∀ s ∈ [r.name, r.speed, r.altitude, PyFloat.fmt2 r.bearing, PyFloat.fmt2 r.distance, r.rules, r.cruiseTo, PyFloat.fmt2 r.latitude,
    PyFloat.fmt2 r.longitude, if error then r.errorText else r.breakText], '\n' ∉ s

theorem toText_no {r : Record F} {error : Bool} (h : OneLine r error) : '\n' ∉ r.toText error := by
  have n1 := fun n => plain_no (plain_strNat n)
  have n2 := fun n => plain_no (plain_strInt n)
  unfold OneLine at h
  simp only [List.forall_mem_cons, List.not_mem_nil, false_imp_iff, implies_true, and_true] at h
  obtain ⟨h1, h2, h3, h4, h5, h6, h7, h8, h9, h10⟩ := h
  unfold Record.toText
  dsimp only
  have e : '\n' ≠ ' ' := by decide
  simp only [List.mem_append, not_or, List.mem_cons]
  refine ⟨⟨⟨⟨⟨⟨⟨⟨⟨⟨⟨⟨⟨⟨⟨⟨⟨left_no h1, right_no (n1 _)⟩, right_no (n1 _)⟩, right_no (n1 _)⟩, right_no (n1 _)⟩, right_no h2⟩,
    right_no (siText_no _ _)⟩, right_no h3⟩, right_no (siText_no _ _)⟩, right_no h4⟩, right_no h5⟩, right_no h6⟩, right_no (n2 _)⟩,
    right_no h7⟩, right_no (siText_no _ _)⟩, right_no h8⟩, right_no h9⟩, e, left_no h10⟩

/-- The two lines above the elements. -/
def Spec.elementHeading : List Str :=
  [py! "                  Start  End  Base Sub-         SI          SI                          Stay Cruise Cruise",
   py! "Name              Index Index Type Type Speed Speed  Alt.  Alt. Bearing  Distance Rules Time     To  To SI   Lat.    Long Break Text     "]

/-- The two lines above the errors. -/
def Spec.errorHeading : List Str :=
  [py! "                  Start  End  Base Sub-         SI          SI                          Stay Cruise Cruise",
   py! "Name              Index Index Type Type Speed Speed  Alt.  Alt. Bearing  Distance Rules Time     To  To SI   Lat.    Long Error Text     "]

theorem heading_false (b : Str) : lines (printHeaderLines false ++ b) = elementHeading ++ lines b := by
  unfold printHeaderLines
  rw [List.append_assoc, lines_print (by decide), lines_print (by decide)]
  rfl

theorem heading_true (b : Str) : lines (printHeaderLines true ++ b) = errorHeading ++ lines b := by
  unfold printHeaderLines
  rw [List.append_assoc, lines_print (by decide), lines_print (by decide)]
  rfl

/-- **C52** The printed route sequence: the number of elements, two lines of headings, a line for each element in order, an empty line, the
number of errors, and if there are errors, headings and a line for each error in order. -/
theorem c52_sequence (e : Ers F) (h1 : ∀ r ∈ e.elements, OneLine r false) (h2 : ∀ r ∈ e.errors, OneLine r true) :
    ∃ n m, intVal n = some (e.elements.length : Int) ∧ intVal m = some (e.errors.length : Int) ∧
      lines e.printErs = [py! "Total Number of Extracted Route Records: " ++ n] ++ elementHeading ++ e.elements.map (·.toText false) ++
        [[], py! "Total Number of Errors: " ++ m] ++ (if e.errors = [] then [] else errorHeading ++ e.errors.map (·.toText true)) ++ [[]] := by
  refine ⟨strNat e.elements.length, strNat e.errors.length, intVal_strNat _, intVal_strNat _, ?_⟩
  have hl : e.numberOfElements = e.elements.length := by unfold Ers.numberOfElements Ers.elements; simp
  have hm : e.numberOfErrors = e.errors.length := by unfold Ers.numberOfErrors Ers.errors; simp
  have n1 := fun n => plain_no (plain_strNat n)
  unfold Ers.printErs
  rw [hl, hm]
  simp only [List.append_assoc]
  rw [lines_print (by rw [List.mem_append, not_or]; exact ⟨by decide, n1 _⟩), heading_false,
    show (fun r : Record F => r.printRecord false) = fun r => printLine (r.toText false) from rfl,
    lines_flatMap _ _ (fun r hr => toText_no (h1 r hr))]
  have hnl : ∀ (x b : Str), printLine ('\n' :: x) ++ b = [] ++ '\n' :: (printLine x ++ b) := fun _ _ => rfl
  rw [show (py! "\nTotal Number of Errors: " ++ strNat e.errors.length) = '\n' :: (py! "Total Number of Errors: " ++ strNat e.errors.length) from rfl,
    hnl, lines_append (by simp), lines_print (by rw [List.mem_append, not_or]; exact ⟨by decide, n1 _⟩)]
  by_cases he : e.errors = []
  · rw [if_neg (by simp [he]), if_pos he]
    simp [lines]
  · rw [if_pos (by cases hh : e.errors with | nil => exact absurd hh he | cons => simp), if_neg he]
    rw [heading_true, ← List.append_nil (e.errors.flatMap _),
      show (fun r : Record F => r.printRecord true) = fun r => printLine (r.toText true) from rfl,
      lines_flatMap _ _ (fun r hr => toText_no (h2 r hr))]
    simp [lines]

/-- **C52** for a parse: the printed result of any field 15 whose tokens have plain texts consists of these lines. -/
theorem c52_parse (hf : ∀ x : F, Plain (PyFloat.fmt2 x)) {frames : Nat} {tokens : Tokens} {b : Bool} {e : Ers F}
    (h : parseF15 frames Ers.new tokens = .ok (b, e)) (hT : ∀ t ∈ tokens.toks, Plain t.text) :
    ∃ n m, intVal n = some (e.elements.length : Int) ∧ intVal m = some (e.errors.length : Int) ∧
      lines e.printErs = [py! "Total Number of Extracted Route Records: " ++ n] ++ elementHeading ++ e.elements.map (·.toText false) ++
        [[], py! "Total Number of Errors: " ++ m] ++ (if b then [] else errorHeading ++ e.errors.map (·.toText true)) ++ [[]] := by
  have hb : (e.errors = []) ↔ b = true := by
    exact (c13 (by show (Ers.new : Ers F).recs.reverse ≠ []; simp [new_recs]) h).symm
  have h1 : ∀ r ∈ e.elements, OneLine r false := by
    intro r hr
    obtain ⟨p1, p2, p3, p4, p5, p6, p7⟩ := parse_plain h hT hr
    intro s hs
    simp only [List.mem_cons, List.not_mem_nil, or_false] at hs
    rcases hs with rfl | rfl | rfl | rfl | rfl | rfl | rfl | rfl | rfl | rfl
    all_goals first | exact plain_no (hf _) | exact plain_no p1 | exact plain_no p2 | exact plain_no p3 | exact plain_no p4 | exact plain_no p5 | exact plain_no p6
  have h2 : ∀ r ∈ e.errors, OneLine r true := by
    intro r hr
    obtain ⟨p1, p2, p3, p4, p5, p6, p7⟩ := parse_errors_nearly h hT hr
    intro s hs
    simp only [List.mem_cons, List.not_mem_nil, or_false] at hs
    have p7' : '\n' ∉ r.errorText := by
      intro hc
      rcases p7 _ hc with h | h
      · exact absurd h (by decide)
      · exact h.2.2.2.2.2.2 rfl
    rcases hs with rfl | rfl | rfl | rfl | rfl | rfl | rfl | rfl | rfl | rfl
    all_goals first | exact plain_no (hf _) | exact plain_no p1 | exact plain_no p2 | exact plain_no p3 | exact plain_no p4 | exact plain_no p5 | exact p7'
  obtain ⟨n, m, e1, e2, e3⟩ := c52_sequence e h1 h2
  refine ⟨n, m, e1, e2, ?_⟩
  rw [e3]
  cases b with
  | true => rw [if_pos (hb.2 rfl), if_pos rfl]
  | false => rw [if_neg (fun hh => by simpa using hb.1 hh), if_neg (by simp)]

/-- **C52** The text columns of an element of a parse fit: speed, level and rules always, the stay time always, and the name unless
the token was not recognised. -/
theorem c52_fits {frames : Nat} {tokens : Tokens} {b : Bool} {e : Ers F} (h : parseF15 frames Ers.new tokens = .ok (b, e))
    (hT : ∀ t ∈ tokens.toks, ' ' ∉ t.text) {r : Record F} (hr : r ∈ e.elements) :
    FitsIn 6 r.speed ∧ FitsIn 6 r.altitude ∧ FitsIn 6 r.rules ∧ (-10 ^ 4 < r.stayTime ∧ r.stayTime < 10 ^ 5) ∧
      (r.base ≠ .UNKNOWN → r.base ≠ .TOO_LONG → FitsIn 17 r.name) := by
  have trimPlain : ∀ s : Str, ' ' ∉ s → trim s = s := fun s hs => trim_none fun c hc => by rintro rfl; exact hs hc
  have hunit : ∀ (us : List Char) (n : Nat) (s : Str), ' ' ∉ us → n ≤ 4 → UnitDigits us n s → FitsIn 6 s := by
    rintro us n s hu hn ⟨u, d, h1, rfl, h2, h3⟩
    refine ⟨by simp only [List.length_cons]; omega, trimPlain _ ?_⟩
    intro hc
    rcases List.mem_cons.1 hc with hc | hc
    · exact hu (hc ▸ h1)
    · exact absurd (h3 _ hc) (by unfold Digit; decide)
  have hnil : FitsIn 6 [] := ⟨by simp, rfl⟩
  have hq := ((parse_cause h).2.2 r hr).1
  have hsp : FitsIn 6 r.speed ∧ FitsIn 6 r.altitude := by
    rcases hq with hq | ⟨sp, lv, hs, hl, hq⟩
    · simp only [quad, Prod.mk.injEq] at hq
      rw [hq.1, hq.2.2.1]; exact ⟨hnil, hnil⟩
    · simp only [quad, quadOf, Prod.mk.injEq] at hq
      rw [hq.1, hq.2.2.1]
      refine ⟨?_, ?_⟩
      · rcases hs with hs | hs
        · exact hunit _ _ _ (by decide) (by decide) hs
        · exact hunit _ _ _ (by decide) (by decide) hs
      · rcases hl with hl | hl
        · exact hunit _ _ _ (by decide) (by decide) hl
        · exact hunit _ _ _ (by decide) (by decide) hl
  refine ⟨hsp.1, hsp.2, ?_, ?_, ?_⟩
  · rcases c25_values h hr with (h | h | h | h) | h <;> rw [h] <;> exact ⟨by decide, by decide⟩
  · have := c40_range h hr; omega
  · intro hb1 hb2
    obtain ⟨adep, mid, ades, h1, h2, h3⟩ := c12 h
    obtain ⟨adep', mid', ades', h1', h4⟩ := c18 h
    rw [h1] at h1'
    have hmid : mid = mid' := (List.append_inj' (List.cons.inj h1').2 rfl).1
    subst hmid
    rw [h1] at hr
    rcases List.mem_cons.1 hr with rfl | hr
    · rw [h2.1]; exact ⟨by decide, by decide⟩
    rcases List.mem_append.1 hr with hr | hr
    · obtain ⟨t, ht, e1, e2, e3, e4⟩ := h4 r hr
      obtain ⟨x, hx, rfl⟩ := List.mem_map.1 ht
      have ht1 : (assignSyntax x).text = x.text := by rw [assignSyntax_eq]; split <;> rfl
      rcases e3 with e3 | ⟨_, e3⟩
      · rw [e3, ht1]
        refine ⟨?_, trimPlain _ (hT x hx)⟩
        have hbt : (assignSyntax x).base ≠ .UNKNOWN ∧ (assignSyntax x).base ≠ .TOO_LONG := by
          rcases e4 with e4 | e4 | e4
          · rw [← e4.1]; exact ⟨hb1, hb2⟩
          · rcases e4.1 with e | e <;> rw [e] <;> decide
          · rcases e4.1 with e | e <;> rw [e] <;> decide
        rw [assignSyntax_eq] at hbt
        split at hbt
        · exact absurd rfl hbt.2
        · exact length_le_17 _ hbt.1
      · rw [e3]; exact ⟨by decide, by decide⟩
    · rw [List.mem_singleton.1 hr, h3.1]; exact ⟨by decide, by decide⟩

/-- `cells` are those of the token. -/
def Spec.ShowsToken (t : Token) (cells : List Str) : Prop :=
  ∃ start stop base sub, cells = [t.text, start, stop, base, sub] ∧ intVal start = some t.start ∧ intVal stop = some t.stop ∧
    intVal base = some t.base.ctorIdx ∧ intVal sub = some t.sub.ctorIdx

/-- **C52** The printed token list: number, headings, and one line for each token, from which the token can be read if it fits into its
columns (9 characters for the text). -/
theorem c52_tokens (ts : Tokens) (h : ∀ t ∈ ts.toks, '\n' ∉ t.text) :
    ∃ n ls, intVal n = some (ts.toks.length : Int) ∧
      lines ts.printTokens = (py! "Total Number of Tokens: " ++ n) :: py! "          Start  End  Base Sub-" :: py! "     Name Index Index Type Type" :: (ls ++ [[]]) ∧ ls.length = ts.toks.length ∧
      ∀ (i : Nat) t l, ts.toks[i]? = some t → ls[i]? = some l → FitsIn 9 t.text → t.start < 10 ^ 6 → t.stop < 10 ^ 5 →
        ShowsToken t ((columns tokenWidths l).map trim) := by
  have n1 := fun n => plain_no (plain_strNat n)
  let line : Token → Str := fun t => alignRight 9 t.text ++ alignRight 6 (strNat t.start) ++ alignRight 5 (strNat t.stop) ++
    alignRight 5 (strNat (baseNumber t.base)) ++ alignRight 5 (strNat (subNumber t.sub))
  have hline : ∀ t ∈ ts.toks, '\n' ∉ line t := by
    intro t ht
    simp only [line, List.mem_append, not_or]
    exact ⟨⟨⟨⟨right_no (h t ht), right_no (n1 _)⟩, right_no (n1 _)⟩, right_no (n1 _)⟩, right_no (n1 _)⟩
  refine ⟨strNat ts.toks.length, ts.toks.map line, intVal_strNat _, ?_, by simp, ?_⟩
  · unfold Tokens.printTokens
    simp only [List.append_assoc]
    rw [lines_print (by rw [List.mem_append, not_or]; exact ⟨by decide, n1 _⟩), lines_print (by decide), lines_print (by decide),
      show (fun t : Token => t.printToken) = fun t => printLine (line t) from rfl, ← List.append_nil (ts.toks.flatMap _),
      lines_flatMap line _ hline]
    rfl
  · intro i t l ht hl hx hs hp
    rw [List.getElem?_map, ht] at hl
    cases hl
    have hb : (strNat (baseNumber t.base)).length ≤ 5 := strNat_len (w := 5) (by decide) (base_small t.base)
    simp only [line, tokenWidths, List.append_assoc]
    rw [columns_cons (right_length hx.1), columns_cons (right_length (strNat_len (by decide) hs)),
      columns_cons (right_length (strNat_len (by decide) hp)), columns_cons (right_length hb)]
    simp only [columns, List.map_cons, List.map_nil, trim_right, trim_strNat, hx.2]
    exact ⟨_, _, _, _, rfl, intVal_strNat _, intVal_strNat _, intVal_strNat _, intVal_strNat _⟩

/-- A record and a line of the printout that meet the hypotheses (with a format for numbers that prints nothing). -/
example : ∃ b e, parseText (py! "N0450F350 PNT/M080F370 VFR") = .ok (b, e) ∧ b = true ∧
    ∃ r ∈ e.elements, r.name = py! "PNT" ∧ RecordFits r false ∧ (r.toText false).take 63 =
      py! "PNT                  10    13    9   13  M080   236  F370 11278" := by
  obtain ⟨b, e, h1, h2⟩ := check_ok (s := py! "N0450F350 PNT/M080F370 VFR") (p := fun b e => b && (e.elements.any fun r =>
    decide (r.name = py! "PNT") && decide (r.start = 10 ∧ r.stop = 13 ∧ r.speed = py! "M080" ∧ r.altitude = py! "F370" ∧ r.rules = py! "IFR" ∧
      r.speedSi = 236 ∧ r.altitudeSi = 11278 ∧ r.stayTime = 0 ∧ r.cruiseTo = [] ∧ r.cruiseToSi = 0 ∧ r.breakText = []) &&
    decide ((r.toText false).take 63 = py! "PNT                  10    13    9   13  M080   236  F370 11278"))) (by decide +kernel)
  rw [Bool.and_eq_true, List.any_eq_true] at h2
  obtain ⟨hb, r, hr, h3⟩ := h2
  simp only [Bool.and_eq_true, decide_eq_true_eq] at h3
  obtain ⟨⟨hn, g1, g2, g3, g4, g5, g6, g7, g8, g9, g10, g11⟩, hl⟩ := h3
  refine ⟨b, e, h1, hb, r, hr, hn, ?_, hl⟩
  have hf : ∀ w, FitsIn w (PyFloat.fmt2 r.bearing) ∧ FitsIn w (PyFloat.fmt2 r.distance) ∧ FitsIn w (PyFloat.fmt2 r.latitude) ∧
      FitsIn w (PyFloat.fmt2 r.longitude) := fun w => ⟨⟨by show 0 ≤ w; omega, rfl⟩, ⟨by show 0 ≤ w; omega, rfl⟩, ⟨by show 0 ≤ w; omega, rfl⟩, ⟨by show 0 ≤ w; omega, rfl⟩⟩
  exact ⟨by rw [hn]; exact ⟨by decide, by decide⟩, by rw [g1]; decide, by rw [g2]; decide, by rw [g3]; exact ⟨by decide, by decide⟩,
    by rw [g6]; decide, by rw [g4]; exact ⟨by decide, by decide⟩, by rw [g7]; decide, (hf _).1, (hf _).2.1,
    by rw [g5]; exact ⟨by decide, by decide⟩, by rw [g8]; decide, by rw [g9]; exact ⟨by decide, by decide⟩, by rw [g10]; decide,
    (hf _).2.2.1, (hf _).2.2.2, by rw [if_neg (by decide), g11]; rfl⟩

/-- The lines of a printed token list. -/
example : lines (Tokens.printTokens ⟨tokenizeList f15Whitespace (py! "N0450F350 ABC"), 0⟩) =
    [py! "Total Number of Tokens: 2", py! "          Start  End  Base Sub-", py! "     Name Index Index Type Type",
     py! "N0450F350     0    9    0    0", py! "      ABC    10   13    0    0", []] := by decide +kernel

/-- The printout of a rejected field 15 begins like this. -/
example : check (py! "N0450F350 ABC/") (fun b e => !b && decide ((lines e.printErs).length = 12 ∧
    (lines e.printErs)[0]? = some (py! "Total Number of Extracted Route Records: 3") ∧
    (lines e.printErs)[7]? = some (py! "Total Number of Errors: 1"))) = true := by decide +kernel

end F15
