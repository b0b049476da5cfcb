import Verif.Spec.XmlDocument
/-!
# Reading the XML output
-/

namespace F15
open Spec

set_option linter.unusedSectionVars false
variable {F : Type} [PyFloat F]

abbrev RS := ReadMode × List Open

/-- Reading `s` leads from `a` to `b`. -/
def XReads (s : Str) (a b : RS) : Prop := s.foldlM readChar a = some b

theorem XReads.trans {s t : Str} {a b c : RS} (h : XReads s a b) (h' : XReads t b c) : XReads (s ++ t) a c := by
  unfold XReads at *
  rw [List.foldlM_append, h]; exact h'

theorem XReads.cons {x : Char} {s : Str} {a b c : RS} (h : readChar a x = some b) (h' : XReads s b c) : XReads (x :: s) a c := by
  unfold XReads at *
  rw [List.foldlM_cons, h]; exact h'

theorem XReads.nil (a : RS) : XReads [] a a := rfl

theorem reads_data {s : Str} (hs : ∀ c ∈ s, xmlChar c = true ∧ c ≠ '<' ∧ c ≠ '>' ∧ c ≠ '&') (acc : Str) (o : Open) (os : List Open) :
    XReads s (.data acc, o :: os) (.data (s.reverse ++ acc), o :: os) := by
  induction s generalizing acc with
  | nil => exact XReads.nil _
  | cons c s ih =>
    obtain ⟨h1, h2, h3, h4⟩ := hs c (by simp)
    have := ih (fun x hx => hs x (by simp [hx])) (c :: acc)
    refine XReads.cons (b := (.data (c :: acc), o :: os)) ?_ ?_
    · simp [readChar, h1, h2, h3, h4]
    · simpa using this

theorem reads_value {s : Str} (hs : Plain s) (n : Str) (as : List (Str × Str)) (an acc : Str) (os : List Open) :
    XReads s (.value n as an acc, os) (.value n as an (s.reverse ++ acc), os) := by
  induction s generalizing acc with
  | nil => exact XReads.nil _
  | cons c s ih =>
    obtain ⟨h1, h2, h3, h4, h5, h6, h7⟩ := hs c (by simp)
    have := ih (fun x hx => hs x (by simp [hx])) (c :: acc)
    refine XReads.cons (b := (.value n as an (c :: acc), os)) ?_ ?_
    · simp [readChar, h1, h2, h4, h5, h6, h7]
    · simpa using this

theorem reads_attrName {s : Str} (hs : ∀ c ∈ s, nameChar c = true) (n : Str) (as : List (Str × Str)) (acc : Str) (ha : acc ≠ [])
    (os : List Open) : XReads s (.attr n as acc, os) (.attr n as (s.reverse ++ acc), os) := by
  induction s generalizing acc with
  | nil => exact XReads.nil _
  | cons c s ih =>
    have h1 := hs c (by simp)
    have := ih (fun x hx => hs x (by simp [hx])) (c :: acc) (by simp)
    refine XReads.cons (b := (.attr n as (c :: acc), os)) ?_ ?_
    · simp [readChar, h1, ha]
    · simpa using this

theorem reads_name {s : Str} (hs : ∀ c ∈ s, nameChar c = true) (acc : Str) (os : List Open) :
    XReads s (.name acc, os) (.name (s.reverse ++ acc), os) := by
  induction s generalizing acc with
  | nil => exact XReads.nil _
  | cons c s ih =>
    have h1 := hs c (by simp)
    have := ih (fun x hx => hs x (by simp [hx])) (c :: acc)
    refine XReads.cons (b := (.name (c :: acc), os)) ?_ ?_
    · simp [readChar, h1]
    · simpa using this

theorem nameChar_ne {c : Char} (h : nameChar c = true) : c ≠ '>' := by
  rintro rfl; revert h; decide

theorem reads_stop {s : Str} (hs : ∀ c ∈ s, nameChar c = true) (acc : Str) (o p : Open) (os : List Open) :
    XReads s (.stop acc, o :: p :: os) (.stop (s.reverse ++ acc), o :: p :: os) := by
  induction s generalizing acc with
  | nil => exact XReads.nil _
  | cons c s ih =>
    have h1 := hs c (by simp)
    have := ih (fun x hx => hs x (by simp [hx])) (c :: acc)
    refine XReads.cons (b := (.stop (c :: acc), o :: p :: os)) ?_ ?_
    · simp [readChar, h1, nameChar_ne h1]
    · simpa using this

/-- Names: a start character followed by name characters. -/
def okName (s : Str) : Bool := match s with | [] => false | c :: s => nameStart c && s.all nameChar

theorem okName_all {s : Str} (h : okName s = true) : ∀ c ∈ s, nameChar c = true := by
  cases s with
  | nil => simp
  | cons c s =>
    simp only [okName, Bool.and_eq_true, List.all_eq_true] at h
    intro x hx
    rcases List.mem_cons.1 hx with rfl | hx
    · simp [nameChar, h.1]
    · exact h.2 x hx

/-- A start tag up to its name. -/
theorem reads_open {n : Str} (hn : okName n = true) (acc : Str) (o : Open) (os : List Open) :
    XReads ('<' :: n) (.data acc, o :: os) (.name n.reverse, { o with children := textNode acc.reverse ++ o.children } :: os) := by
  cases n with
  | nil => cases hn
  | cons c s =>
    simp only [okName, Bool.and_eq_true, List.all_eq_true] at hn
    refine XReads.cons (b := (.lt, { o with children := textNode acc.reverse ++ o.children } :: os)) (by simp [readChar]) ?_
    have hc : c ≠ '/' := by
      rintro rfl; exact absurd hn.1 (by decide)
    refine XReads.cons (b := (.name [c], { o with children := textNode acc.reverse ++ o.children } :: os)) (by simp [readChar, hc, hn.1]) ?_
    have := reads_name hn.2 [c] ({ o with children := textNode acc.reverse ++ o.children } :: os)
    simpa using this

/-- The end of a start tag without attributes. -/
theorem reads_bare (n : Str) (os : List Open) : XReads (py! ">") (.name n.reverse, os) (.data [], ⟨n, [], []⟩ :: os) := by
  refine XReads.cons (b := _) ?_ (XReads.nil _)
  simp [readChar, show nameChar '>' = false by decide]

/-- An end tag. -/
theorem reads_close {n : Str} (hn : okName n = true) (acc : Str) (as : List (Str × Str)) (ch : List Node) (p : Open) (os : List Open) :
    XReads (py! "</" ++ n ++ py! ">") (.data acc, ⟨n, as, ch⟩ :: p :: os)
      (.data [], { p with children := .elem n as (textNode acc.reverse ++ ch).reverse :: p.children } :: os) := by
  have h1 : XReads (py! "</") (.data acc, ⟨n, as, ch⟩ :: p :: os) (.stop [], ⟨n, as, textNode acc.reverse ++ ch⟩ :: p :: os) :=
    XReads.cons (b := (.lt, ⟨n, as, textNode acc.reverse ++ ch⟩ :: p :: os)) (by simp [readChar])
      (XReads.cons (b := (.stop [], ⟨n, as, textNode acc.reverse ++ ch⟩ :: p :: os)) (by simp [readChar]) (XReads.nil _))
  have h2 := reads_stop (okName_all hn) [] ⟨n, as, textNode acc.reverse ++ ch⟩ p os
  refine (h1.trans h2).trans (XReads.cons (b := _) ?_ (XReads.nil _))
  simp [readChar]

/-- Reading `s` from `a` ends after the attributes `as` of a start tag, which have the names `ks`. -/
def Tagged (s : Str) (a : RS) (n : Str) (ks : List Str) (as : List (Str × Str)) (os : List Open) : Prop :=
  XReads s a (.tag n as, os) ∧ as.map (·.1) = ks

theorem reads_attr {nm : Str} (hn : okName nm = true) {v : Str} (hv : Plain v) (n : Str) (as : List (Str × Str))
    (hk : nm ∉ as.map (·.1)) (os : List Open) :
    XReads (nm ++ py! "=\"" ++ v ++ py! "\"") (.attr n as [], os) (.tag n (as ++ [(nm, v)]), os) := by
  have h1 : XReads nm (.attr n as [], os) (.attr n as nm.reverse, os) := by
    cases nm with
    | nil => cases hn
    | cons c s =>
      simp only [okName, Bool.and_eq_true, List.all_eq_true] at hn
      refine XReads.cons (b := (.attr n as [c], os)) (by simp [readChar, hn.1]) ?_
      have := reads_attrName hn.2 n as [c] (by simp) os
      simpa using this
  have hne : nm ≠ [] := by rintro rfl; cases hn
  have h2 : XReads (py! "=\"") (.attr n as nm.reverse, os) (.value n as nm [], os) := by
    refine XReads.cons (b := (.eq n as nm, os)) ?_ (XReads.cons (b := _) (by simp [readChar]) (XReads.nil _))
    have e2 : nameChar '=' = false := by decide
    simp only [List.mem_map, not_exists, not_and] at hk
    simp [readChar, e2, hne]
    intro x hx
    exact hk (nm, x) hx rfl
  refine ((h1.trans h2).trans (reads_value hv n as nm [] os)).trans (XReads.cons (b := _) ?_ (XReads.nil _))
  simp [readChar]

theorem Tagged.attr {s : Str} {a : RS} {n : Str} {ks : List Str} {as : List (Str × Str)} {os : List Open} (h : Tagged s a n ks as os)
    (nm : Str) {pre : Str} (hp : pre = ' ' :: nm ++ py! "=\"") (hn : okName nm = true) (hk : nm ∉ ks) {v : Str} (hv : Plain v) :
    Tagged (s ++ pre ++ v ++ py! "\"") a n (ks ++ [nm]) (as ++ [(nm, v)]) os := by
  refine ⟨?_, by rw [List.map_append, h.2]; rfl⟩
  have h1 : XReads [' '] (.tag n as, os) (.attr n as [], os) := XReads.cons (b := _) (by simp [readChar]) (XReads.nil _)
  have h2 := h.1.trans (h1.trans (reads_attr hn hv n as (by rw [h.2]; exact hk) os))
  rw [hp]
  simpa [List.append_assoc] using h2

theorem Tagged.first {s : Str} {a : RS} {n : Str} {os : List Open} (h : XReads s a (.name n.reverse, os))
    (nm : Str) {pre : Str} (hp : pre = ' ' :: nm ++ py! "=\"") (hn : okName nm = true) {v : Str} (hv : Plain v) :
    Tagged (s ++ pre ++ v ++ py! "\"") a n [nm] [(nm, v)] os := by
  refine ⟨?_, rfl⟩
  have h1 : XReads [' '] (.name n.reverse, os) (.attr n [] [], os) :=
    XReads.cons (b := _) (by simp [readChar, show nameChar ' ' = false by decide]) (XReads.nil _)
  have h2 := h.trans (h1.trans (reads_attr hn hv n [] (by simp) os))
  rw [hp]
  simpa [List.append_assoc] using h2

theorem digitsRev_digit (fuel n : Nat) : ∀ c ∈ digitsRev fuel n, '0' ≤ c ∧ c ≤ '9' := by
  have dig : ∀ k, k < 10 → '0' ≤ Char.ofNat (48 + k) ∧ Char.ofNat (48 + k) ≤ '9' := by decide
  induction fuel generalizing n with
  | zero => simp [digitsRev]
  | succ f ih =>
    unfold digitsRev
    split
    · intro c hc
      rw [List.mem_singleton.1 hc]; exact dig n (by assumption)
    · intro c hc
      rcases List.mem_cons.1 hc with rfl | hc
      · exact dig _ (Nat.mod_lt _ (by decide))
      · exact ih _ c hc

theorem plain_of_range {c : Char} (h1 : '(' ≤ c) (h2 : c ≤ ';') :
    xmlChar c = true ∧ c ≠ '<' ∧ c ≠ '>' ∧ c ≠ '&' ∧ c ≠ '"' ∧ c ≠ '\t' ∧ c ≠ '\n' := by
  have h1' : 40 ≤ c.toNat := h1
  have h2' : c.toNat ≤ 59 := h2
  have ne : ∀ d : Char, ¬ (40 ≤ d.toNat ∧ d.toNat ≤ 59) → c ≠ d := by
    rintro d hd rfl; exact hd ⟨h1', h2'⟩
  refine ⟨?_, ne _ (by decide), ne _ (by decide), ne _ (by decide), ne _ (by decide), ne _ (by decide), ne _ (by decide)⟩
  have h3 : '\x20' ≤ c := by
    show (32 : Nat) ≤ c.toNat
    omega
  simp [xmlChar, h3, ne '\uFFFE' (by decide), ne '\uFFFF' (by decide)]

theorem plain_strNat (n : Nat) : Plain (strNat n) := by
  intro c hc
  obtain ⟨h1, h2⟩ := digitsRev_digit _ _ c (List.mem_reverse.1 hc)
  have h1' : (48 : Nat) ≤ c.toNat := h1
  have h2' : c.toNat ≤ 57 := h2
  exact plain_of_range (show (40 : Nat) ≤ c.toNat by omega) (show c.toNat ≤ 59 by omega)

theorem plain_strInt (n : Int) : Plain (strInt n) := by
  unfold strInt
  split
  · intro c hc
    rcases List.mem_cons.1 hc with rfl | hc
    · exact plain_of_range (by decide) (by decide)
    · exact plain_strNat _ c hc
  · exact plain_strNat _

theorem join_end (X an v nm rt : Str) : X ++ (' ' :: an ++ py! "=\"") ++ v ++ py! "\"" ++ py! ">" ++ nm ++ (py! "</" ++ rt ++ py! ">") =
    X ++ py! " " ++ an ++ py! "=\"" ++ v ++ py! "\"" ++ py! ">" ++ nm ++ py! "</" ++ rt ++ py! ">" := by
  simp

/-- The names of the attributes but the last one. -/
def attrNames : List Str := [py! "start_index", py! "end_index", py! "base_type", py! "sub_type", py! "speed", py! "speed_si", py! "altitude",
  py! "altitude_si", py! "bearing", py! "distance", py! "flight_rules", py! "stay_time", py! "altitude_cruise_to", py! "altitude_cruise_to_si",
  py! "latitude", py! "longitude"]

/-- A record up to the last attribute. -/
def recordStart (str : EnumStr) (rt : Str) (r : Record F) : Str :=
  py! "   <" ++ rt ++
    py! " start_index=\"" ++ strNat r.start ++ py! "\"" ++
    py! " end_index=\"" ++ strNat r.stop ++ py! "\"" ++
    py! " base_type=\"" ++ str.base r.base ++ py! "\"" ++
    py! " sub_type=\"" ++ str.sub r.sub ++ py! "\"" ++
    py! " speed=\"" ++ r.speed ++ py! "\"" ++
    py! " speed_si=\"" ++ PyFloat.fmt2 (PyFloat.ofInt r.speedSi : F) ++ py! "\"" ++
    py! " altitude=\"" ++ r.altitude ++ py! "\"" ++
    py! " altitude_si=\"" ++ PyFloat.fmt2 (PyFloat.ofInt r.altitudeSi : F) ++ py! "\"" ++
    py! " bearing=\"" ++ PyFloat.fmt2 r.bearing ++ py! "\"" ++
    py! " distance=\"" ++ PyFloat.fmt2 r.distance ++ py! "\"" ++
    py! " flight_rules=\"" ++ r.rules ++ py! "\"" ++
    py! " stay_time=\"" ++ strInt r.stayTime ++ py! "\"" ++
    py! " altitude_cruise_to=\"" ++ r.cruiseTo ++ py! "\"" ++
    py! " altitude_cruise_to_si=\"" ++ PyFloat.fmt2 (PyFloat.ofInt r.cruiseToSi : F) ++ py! "\"" ++
    py! " latitude=\"" ++ PyFloat.fmt2 r.latitude ++ py! "\"" ++
    py! " longitude=\"" ++ PyFloat.fmt2 r.longitude ++ py! "\""

/-- A record with plain texts is read up to the last attribute. -/
theorem tagged_record {str : EnumStr} (hf : PlainFormats F str) {r : Record F} (p2 : Plain r.speed) (p3 : Plain r.altitude)
    (p4 : Plain r.rules) (p5 : Plain r.cruiseTo) (error : Bool) {rt : Str} (hrt : okName rt = true) (acc : Str) (o : Open)
    (os : List Open) : Tagged (recordStart str rt r) (.data acc, o :: os) rt attrNames (recordAttrs str error r).dropLast
      ({ o with children := textNode (py! "   " ++ acc).reverse ++ o.children } :: os) := by
    obtain ⟨f1, f2, f3⟩ := hf
    have h0 : XReads (py! "   ") (.data acc, o :: os) (.data (py! "   " ++ acc), o :: os) :=
      reads_data (by decide) acc o os
    have h1 : XReads (py! "   <" ++ rt) (.data acc, o :: os) (.name rt.reverse,
        { o with children := textNode (py! "   " ++ acc).reverse ++ o.children } :: os) :=
      h0.trans (reads_open hrt _ o os)
    have t := Tagged.first h1 (py! "start_index") rfl rfl (plain_strNat r.start)
    have t := t.attr (py! "end_index") rfl rfl (by decide) (plain_strNat r.stop)
    have t := t.attr (py! "base_type") rfl rfl (by decide) (f2 r.base)
    have t := t.attr (py! "sub_type") rfl rfl (by decide) (f3 r.sub)
    have t := t.attr (py! "speed") rfl rfl (by decide) p2
    have t := t.attr (py! "speed_si") rfl rfl (by decide) (f1 (PyFloat.ofInt r.speedSi : F))
    have t := t.attr (py! "altitude") rfl rfl (by decide) p3
    have t := t.attr (py! "altitude_si") rfl rfl (by decide) (f1 (PyFloat.ofInt r.altitudeSi : F))
    have t := t.attr (py! "bearing") rfl rfl (by decide) (f1 r.bearing)
    have t := t.attr (py! "distance") rfl rfl (by decide) (f1 r.distance)
    have t := t.attr (py! "flight_rules") rfl rfl (by decide) p4
    have t := t.attr (py! "stay_time") rfl rfl (by decide) (plain_strInt r.stayTime)
    have t := t.attr (py! "altitude_cruise_to") rfl rfl (by decide) p5
    have t := t.attr (py! "altitude_cruise_to_si") rfl rfl (by decide) (f1 (PyFloat.ofInt r.cruiseToSi : F))
    have t := t.attr (py! "latitude") rfl rfl (by decide) (f1 r.latitude)
    have t := t.attr (py! "longitude") rfl rfl (by decide) (f1 r.longitude)
    exact t

/-- A record is read. -/
theorem reads_record {str : EnumStr} (hf : PlainFormats F str) {r : Record F} (hr : PlainRecord r) (error : Bool) (acc : Str) (o : Open)
    (os : List Open) : ∃ acc', XReads (r.asXml str error) (.data acc, o :: os)
      (.data [], { o with children := recordNode str error r :: (textNode acc' ++ o.children) } :: os) := by
  obtain ⟨p1, p2, p3, p4, p5, p6, p7⟩ := hr
  obtain ⟨f1, f2, f3⟩ := hf
  have key : ∀ (rt an v : Str), okName rt = true → okName an = true → an ∉ attrNames → Plain v →
      ∃ acc', XReads (py! "   <" ++ rt ++
    py! " start_index=\"" ++ strNat r.start ++ py! "\"" ++
    py! " end_index=\"" ++ strNat r.stop ++ py! "\"" ++
    py! " base_type=\"" ++ str.base r.base ++ py! "\"" ++
    py! " sub_type=\"" ++ str.sub r.sub ++ py! "\"" ++
    py! " speed=\"" ++ r.speed ++ py! "\"" ++
    py! " speed_si=\"" ++ PyFloat.fmt2 (PyFloat.ofInt r.speedSi : F) ++ py! "\"" ++
    py! " altitude=\"" ++ r.altitude ++ py! "\"" ++
    py! " altitude_si=\"" ++ PyFloat.fmt2 (PyFloat.ofInt r.altitudeSi : F) ++ py! "\"" ++
    py! " bearing=\"" ++ PyFloat.fmt2 r.bearing ++ py! "\"" ++
    py! " distance=\"" ++ PyFloat.fmt2 r.distance ++ py! "\"" ++
    py! " flight_rules=\"" ++ r.rules ++ py! "\"" ++
    py! " stay_time=\"" ++ strInt r.stayTime ++ py! "\"" ++
    py! " altitude_cruise_to=\"" ++ r.cruiseTo ++ py! "\"" ++
    py! " altitude_cruise_to_si=\"" ++ PyFloat.fmt2 (PyFloat.ofInt r.cruiseToSi : F) ++ py! "\"" ++
    py! " latitude=\"" ++ PyFloat.fmt2 r.latitude ++ py! "\"" ++
    py! " longitude=\"" ++ PyFloat.fmt2 r.longitude ++ py! "\"" ++
    py! " " ++ an ++ py! "=\"" ++ v ++ py! "\"" ++
    py! ">" ++ r.name ++ py! "</" ++ rt ++ py! ">") (.data acc, o :: os)
      (.data [], { o with children := .elem rt ((recordAttrs str error r).dropLast ++ [(an, v)]) (textNode r.name) ::
        (textNode acc' ++ o.children) } :: os) := by
    intro rt an v hrt han hk hv
    refine ⟨(py! "   " ++ acc).reverse, ?_⟩
    have t := tagged_record ⟨f1, f2, f3⟩ p2 p3 p4 p5 error hrt acc o os
    have t := t.attr an rfl han hk hv
    have e1 : XReads (py! ">") (.tag rt ((recordAttrs str error r).dropLast ++ [(an, v)]),
        { o with children := textNode (py! "   " ++ acc).reverse ++ o.children } :: os)
        (.data [], ⟨rt, (recordAttrs str error r).dropLast ++ [(an, v)], []⟩ ::
          { o with children := textNode (py! "   " ++ acc).reverse ++ o.children } :: os) := XReads.cons (b := _) rfl (XReads.nil _)
    have e2 := reads_data (s := r.name) (fun c hc => ⟨(p1 c hc).1, (p1 c hc).2.1, (p1 c hc).2.2.1, (p1 c hc).2.2.2.1⟩) []
      ⟨rt, (recordAttrs str error r).dropLast ++ [(an, v)], []⟩
      ({ o with children := textNode (py! "   " ++ acc).reverse ++ o.children } :: os)
    have e3 := reads_close hrt (r.name.reverse ++ []) ((recordAttrs str error r).dropLast ++ [(an, v)]) []
      { o with children := textNode (py! "   " ++ acc).reverse ++ o.children } os
    have t' := ((t.1.trans e1).trans e2).trans e3
    have e4 : (textNode (r.name.reverse ++ []).reverse ++ []).reverse = textNode r.name := by
      simp only [List.append_nil, List.reverse_reverse]
      unfold textNode; split <;> rfl
    rw [e4] at t'
    rw [join_end] at t'
    exact t'
  cases error with
  | false => exact key (py! "ers_record") (py! "break_text") r.breakText rfl rfl (by decide) p6
  | true => exact key (py! "error_record") (py! "error_text") r.errorText rfl rfl (by decide) p7

theorem elems_text (s : Str) (l : List Node) : elems (textNode s ++ l) = elems l := by
  unfold elems textNode
  split <;> simp

/-- A list of records is read. -/
theorem reads_records {str : EnumStr} (hf : PlainFormats F str) {l : List (Record F)} (hl : ∀ r ∈ l, PlainRecord r) (error : Bool)
    {ind : Str} (hi : ∀ c ∈ ind, xmlChar c = true ∧ c ≠ '<' ∧ c ≠ '>' ∧ c ≠ '&') {s : Str} {a : RS} {acc : Str} {o : Open} {os : List Open}
    (h : XReads s a (.data acc, o :: os)) :
    ∃ acc' ch, XReads (l.foldl (fun xml item => xml ++ ind ++ item.asXml str error ++ py! "\n") s) a
      (.data acc', { o with children := ch } :: os) ∧ elems ch.reverse = elems o.children.reverse ++ l.map (recordNode str error) := by
  induction l generalizing s acc o with
  | nil => exact ⟨acc, o.children, h, by simp⟩
  | cons r l ih =>
    have h1 := h.trans (reads_data hi acc o os)
    obtain ⟨x, h2⟩ := reads_record hf (hl r (by simp)) error (ind.reverse ++ acc) o os
    have h3 := (h1.trans h2).trans (reads_data (s := py! "\n") (by decide) [] _ os)
    obtain ⟨acc', ch, h4, h5⟩ := ih (fun r hr => hl r (by simp [hr])) h3
    refine ⟨acc', ch, h4, ?_⟩
    rw [h5]
    have : elems (recordNode str error r :: (textNode x ++ o.children)).reverse = elems o.children.reverse ++ [recordNode str error r] := by
      have e1 : elems (textNode x).reverse = [] := by
        unfold textNode; split <;> rfl
      have e2 : elems [recordNode str error r] = [recordNode str error r] := rfl
      rw [List.reverse_cons, List.reverse_append]
      unfold elems at *
      rw [List.filter_append, List.filter_append, e1, e2]; simp
    rw [this]; simp

/-- The document of an extracted route sequence is read. -/
theorem read_document {str : EnumStr} (hf : PlainFormats F str) {e : Ers F} (h1 : ∀ r ∈ e.elements, PlainRecord r)
    (h2 : ∀ r ∈ e.errors, PlainRecord r) (h3 : Plain e.derived) :
    ∃ n, readXml (e.asXml str) = some n ∧ IsDocument str e n := by
  let root : Open := ⟨[], [], []⟩
  have a1 : XReads (py! "   <ers>\n") (.data [], [root])
      (.data (py! "\n"), [⟨py! "ers", [], []⟩, ⟨[], [], [.text (py! "   ")]⟩]) := rfl
  have a2 : XReads (py! "      <derived_flight_rules>") (.data (py! "\n"), [⟨py! "ers", [], []⟩, ⟨[], [], [.text (py! "   ")]⟩])
      (.data [], [⟨py! "derived_flight_rules", [], []⟩, ⟨py! "ers", [], [.text (py! "\n      ")]⟩, ⟨[], [], [.text (py! "   ")]⟩]) := rfl
  have a3 := reads_data (s := e.derived) (fun c hc => ⟨(h3 c hc).1, (h3 c hc).2.1, (h3 c hc).2.2.1, (h3 c hc).2.2.2.1⟩) []
    ⟨py! "derived_flight_rules", [], []⟩ [⟨py! "ers", [], [.text (py! "\n      ")]⟩, ⟨[], [], [.text (py! "   ")]⟩]
  have a4 := reads_close (n := py! "derived_flight_rules") rfl (e.derived.reverse ++ []) [] [] ⟨py! "ers", [], [.text (py! "\n      ")]⟩
    [⟨[], [], [.text (py! "   ")]⟩]
  have e4 : (textNode (e.derived.reverse ++ []).reverse ++ []).reverse = textNode e.derived := by
    simp only [List.append_nil, List.reverse_reverse]
    unfold textNode; split <;> rfl
  rw [e4] at a4
  have a5 := a4.trans (reads_data (s := py! "\n") (by decide) [] _ [⟨[], [], [.text (py! "   ")]⟩])
  have a6 : XReads (py! "   <ers>\n" ++ py! "      <derived_flight_rules>" ++ e.derived ++ py! "</derived_flight_rules>\n") _ _ :=
    ((a1.trans a2).trans a3).trans a5
  obtain ⟨acc, ch, a7, a8⟩ := reads_records hf h1 false (ind := py! "   ") (by decide) a6
  have a8' : elems ch.reverse = .elem (py! "derived_flight_rules") [] (textNode e.derived) :: e.elements.map (recordNode str false) := a8
  have fin : ∀ (s : Str) (acc : Str) (ch : List Node), XReads s (.data [], [root])
      (.data acc, [⟨py! "ers", [], ch⟩, ⟨[], [], [.text (py! "   ")]⟩]) →
      readXml (s ++ py! "   </ers>") = some (.elem (py! "ers") [] (textNode ((py! "   ") ++ acc).reverse ++ ch).reverse) := by
    intro s acc ch h
    have b1 := h.trans ((reads_data (s := py! "   ") (by decide) acc ⟨py! "ers", [], ch⟩ [⟨[], [], [.text (py! "   ")]⟩]).trans
      (reads_close (n := py! "ers") rfl _ [] ch ⟨[], [], [.text (py! "   ")]⟩ []))
    have b2 : List.foldlM readChar (.data [], [root]) (s ++ py! "   </ers>") = _ := b1
    unfold readXml
    show (match List.foldlM readChar (.data [], [root]) (s ++ py! "   </ers>") with | _ => _) = _
    rw [b2]
    rfl
  have elems_fin : ∀ (s : Str) (ch : List Node), elems (textNode s ++ ch).reverse = elems ch.reverse := by
    intro s ch
    have e1 : elems (textNode s).reverse = [] := by
      unfold textNode; split <;> rfl
    rw [List.reverse_append]
    unfold elems at *
    rw [List.filter_append, e1, List.append_nil]
  by_cases he : e.numberOfErrors > 0
  · have hne : e.errors ≠ [] := by
      intro h
      have : e.errs = [] := by simpa [Ers.errors] using h
      simp [Ers.numberOfErrors, this] at he
    have c1 : XReads (py! "   <ers_errors>\n") (.data acc, [⟨py! "ers", [], ch⟩, ⟨[], [], [.text (py! "   ")]⟩])
        (.data (py! "\n"), [⟨py! "ers_errors", [], []⟩, ⟨py! "ers", [], textNode (py! "   " ++ acc).reverse ++ ch⟩,
          ⟨[], [], [.text (py! "   ")]⟩]) :=
      (((reads_data (s := py! "   ") (by decide) acc ⟨py! "ers", [], ch⟩ [⟨[], [], [.text (py! "   ")]⟩]).trans
        (reads_open (n := py! "ers_errors") rfl _ _ _)).trans (reads_bare (py! "ers_errors") _)).trans
        (reads_data (s := py! "\n") (by decide) [] _ _)
    obtain ⟨acc2, ch2, c2, c3⟩ := reads_records hf h2 true (ind := py! "      ") (by decide) (a7.trans c1)
    have c3' : elems ch2.reverse = e.errors.map (recordNode str true) := c3
    have c4 := reads_close (n := py! "ers_errors") rfl (py! "   " ++ acc2) [] ch2 ⟨py! "ers", [], textNode (py! "   " ++ acc).reverse ++ ch⟩
      [⟨[], [], [.text (py! "   ")]⟩]
    have c5 := c2.trans (((reads_data (s := py! "   ") (by decide) acc2 _ _).trans c4).trans (reads_data (s := py! "\n") (by decide) [] _ _))
    have d := fin _ _ _ c5
    refine ⟨_, (by unfold Ers.asXml; dsimp only; rw [if_pos he]; exact d), ?_⟩
    · refine ⟨_, rfl, .inr ⟨hne, (textNode (py! "   " ++ acc2).reverse ++ ch2).reverse, ?_, ?_⟩⟩
      · rw [elems_fin]; exact c3'
      · rw [elems_fin]
        have : elems (Node.elem (py! "ers_errors") [] (textNode (py! "   " ++ acc2).reverse ++ ch2).reverse ::
            (textNode (py! "   " ++ acc).reverse ++ ch)).reverse = elems ch.reverse ++
            [Node.elem (py! "ers_errors") [] (textNode (py! "   " ++ acc2).reverse ++ ch2).reverse] := by
          rw [List.reverse_cons]
          have e0 := elems_fin (py! "   " ++ acc).reverse ch
          unfold elems at *
          rw [List.filter_append, e0]; rfl
        rw [this, a8']
  · have hnil : e.errors = [] := by
      have : e.errs.length = 0 := by unfold Ers.numberOfErrors at he; omega
      simp [Ers.errors, List.length_eq_zero_iff.1 this]
    have d := fin _ _ _ a7
    refine ⟨_, (by unfold Ers.asXml; dsimp only; rw [if_neg he]; exact d), ?_⟩
    · refine ⟨_, rfl, .inl ⟨hnil, ?_⟩⟩
      rw [elems_fin]; exact a8'

/-! ### Documents that cannot be read -/

/-- Reading `s` from `a` fails. -/
def XFails (s : Str) (a : RS) : Prop := s.foldlM readChar a = none

theorem XFails.after {s t : Str} {a b : RS} (h : XReads s a b) (h' : XFails t b) : XFails (s ++ t) a := by
  unfold XReads XFails at *
  rw [List.foldlM_append, h]; exact h'

theorem XFails.append {s : Str} {a : RS} (h : XFails s a) (t : Str) : XFails (s ++ t) a := by
  unfold XFails at *
  rw [List.foldlM_append, h]; rfl

/-- An error record with a `<` in its text is not read. -/
theorem fails_record {str : EnumStr} (hf : PlainFormats F str) {r : Record F} (p2 : Plain r.speed) (p3 : Plain r.altitude)
    (p4 : Plain r.rules) (p5 : Plain r.cruiseTo) {p q : Str} (hp : Plain p) (he : r.errorText = p ++ '<' :: q) (acc : Str) (o : Open)
    (os : List Open) : XFails (r.asXml str true) (.data acc, o :: os) := by
  have t := tagged_record hf p2 p3 p4 p5 true (rt := py! "error_record") rfl acc o os
  obtain ⟨t1, t2⟩ := t
  have h1 : ∀ (n : Str) as os, XReads [' '] (.tag n as, os) (.attr n as [], os) :=
    fun n as os => XReads.cons (b := _) (by simp [readChar]) (XReads.nil _)
  have h2 : ∀ (n : Str) (as : List (Str × Str)) os, (py! "error_text") ∉ as.map (·.1) →
      XReads (py! "error_text" ++ py! "=\"") (.attr n as [], os) (.value n as (py! "error_text") [], os) := by
    intro n as os hk
    refine XReads.trans (b := (.attr n as (py! "error_text").reverse, os)) ?_ ?_
    · rfl
    · refine XReads.cons (b := (.eq n as (py! "error_text"), os)) ?_ (XReads.cons (b := _) (by simp [readChar]) (XReads.nil _))
      have e2 : nameChar '=' = false := by decide
      simp only [List.mem_map, not_exists, not_and] at hk
      simp [readChar, e2]
      intro x hx
      exact hk (_, x) hx rfl
  have h3 := ((t1.trans (h1 _ _ _)).trans (h2 _ _ _ (by rw [t2]; decide))).trans (reads_value hp _ _ _ [] _)
  have h4 : XFails ('<' :: q) (.value (py! "error_record") (recordAttrs str true r).dropLast (py! "error_text") (p.reverse ++ []),
      { o with children := textNode (py! "   " ++ acc).reverse ++ o.children } :: os) := by
    show (List.foldlM readChar _ _) = none
    rw [List.foldlM_cons]
    simp [readChar]
  have h5 := (h4.append (py! "\">" ++ r.name ++ py! "</error_record>")).after h3
  have : r.asXml str true = recordStart str (py! "error_record") r ++ py! " " ++ (py! "error_text" ++ py! "=\"") ++ p ++
      (('<' :: q) ++ (py! "\">" ++ r.name ++ py! "</error_record>")) := by
    have h0 : r.asXml str true = recordStart str (py! "error_record") r ++ py! " " ++ py! "error_text" ++ py! "=\"" ++ r.errorText ++
      py! "\"" ++ py! ">" ++ r.name ++ py! "</" ++ py! "error_record" ++ py! ">" := rfl
    rw [h0, he]
    generalize recordStart str (py! "error_record") r = X
    simp
  rw [this]
  exact h5

/-- Whatever is written is written after what was written before. -/
theorem fold_append {α : Type} (g : α → Str) (l : List α) (s : Str) :
    l.foldl (fun xml x => xml ++ g x) s = s ++ l.flatMap g := by
  induction l generalizing s with
  | nil => simp
  | cons x l ih => rw [List.foldl_cons, ih]; simp

/-- The document of an extracted route sequence with a `<` in an error text is not read. -/
theorem unread_document {str : EnumStr} (hf : PlainFormats F str) {e : Ers F} (h1 : ∀ r ∈ e.elements, PlainRecord r)
    (h3 : Plain e.derived) {l1 l2 : List (Record F)} {r : Record F} (he : e.errors = l1 ++ r :: l2) (h2 : ∀ r ∈ l1, PlainRecord r)
    (p2 : Plain r.speed) (p3 : Plain r.altitude) (p4 : Plain r.rules) (p5 : Plain r.cruiseTo) {p q : Str} (hp : Plain p)
    (ht : r.errorText = p ++ '<' :: q) : readXml (e.asXml str) = none := by
  let root : Open := ⟨[], [], []⟩
  have a1 : XReads (py! "   <ers>\n") (.data [], [root])
      (.data (py! "\n"), [⟨py! "ers", [], []⟩, ⟨[], [], [.text (py! "   ")]⟩]) := rfl
  have a2 : XReads (py! "      <derived_flight_rules>") (.data (py! "\n"), [⟨py! "ers", [], []⟩, ⟨[], [], [.text (py! "   ")]⟩])
      (.data [], [⟨py! "derived_flight_rules", [], []⟩, ⟨py! "ers", [], [.text (py! "\n      ")]⟩, ⟨[], [], [.text (py! "   ")]⟩]) := rfl
  have a3 := reads_data (s := e.derived) (fun c hc => ⟨(h3 c hc).1, (h3 c hc).2.1, (h3 c hc).2.2.1, (h3 c hc).2.2.2.1⟩) []
    ⟨py! "derived_flight_rules", [], []⟩ [⟨py! "ers", [], [.text (py! "\n      ")]⟩, ⟨[], [], [.text (py! "   ")]⟩]
  have a4 := reads_close (n := py! "derived_flight_rules") rfl (e.derived.reverse ++ []) [] [] ⟨py! "ers", [], [.text (py! "\n      ")]⟩
    [⟨[], [], [.text (py! "   ")]⟩]
  have a5 := a4.trans (reads_data (s := py! "\n") (by decide) [] _ [⟨[], [], [.text (py! "   ")]⟩])
  have a6 : XReads (py! "   <ers>\n" ++ py! "      <derived_flight_rules>" ++ e.derived ++ py! "</derived_flight_rules>\n") _ _ :=
    ((a1.trans a2).trans a3).trans a5
  obtain ⟨acc, ch, a7, _⟩ := reads_records hf h1 false (ind := py! "   ") (by decide) a6
  have hn : e.numberOfErrors > 0 := by
    have : e.errors.length > 0 := by rw [he, List.length_append, List.length_cons]; omega
    simpa [Ers.errors, Ers.numberOfErrors] using this
  have c1 : XReads (py! "   <ers_errors>\n") (.data acc, [⟨py! "ers", [], ch⟩, ⟨[], [], [.text (py! "   ")]⟩])
      (.data (py! "\n"), [⟨py! "ers_errors", [], []⟩, ⟨py! "ers", [], textNode (py! "   " ++ acc).reverse ++ ch⟩,
        ⟨[], [], [.text (py! "   ")]⟩]) :=
    (((reads_data (s := py! "   ") (by decide) acc ⟨py! "ers", [], ch⟩ [⟨[], [], [.text (py! "   ")]⟩]).trans
      (reads_open (n := py! "ers_errors") rfl _ _ _)).trans (reads_bare (py! "ers_errors") _)).trans
      (reads_data (s := py! "\n") (by decide) [] _ _)
  obtain ⟨acc2, ch2, c2, _⟩ := reads_records hf h2 true (ind := py! "      ") (by decide) (a7.trans c1)
  have c3 := c2.trans (reads_data (s := py! "      ") (by decide) acc2 _ _)
  have c4 := (fails_record hf p2 p3 p4 p5 hp ht _ _ _).after c3
  have c5 := c4.append (py! "\n" ++ l2.flatMap (fun item => py! "      " ++ (item.asXml str true ++ py! "\n")) ++
    py! "   </ers_errors>\n" ++ py! "   </ers>")
  have c6 : XFails (e.asXml str) (.data [], [root]) := by
    refine Eq.trans (congrArg (fun s => List.foldlM readChar (.data [], [root]) s) ?_) c5
    unfold Ers.asXml
    dsimp only
    rw [if_pos hn, he, List.foldl_append, List.foldl_cons]
    have := fold_append (fun item : Record F => py! "      " ++ (item.asXml str true ++ py! "\n")) l2
    simp only [List.append_assoc] at this ⊢
    rw [this]
    simp only [List.append_assoc]
  unfold readXml
  show (match List.foldlM readChar (.data [], [root]) (e.asXml str) with | _ => _) = _
  rw [show List.foldlM readChar (.data [], [root]) (e.asXml str) = none from c6]

end F15
