import Verif.Spec.Later
import Verif.Lemmas.Course
import Verif.Props.Positions
import Verif.Spec.Example
/-!
# C73: positions can be filled in later
-/

namespace F15
open Spec

set_option linter.unusedSectionVars false
variable {F : Type} [PyFloat F]

/-- `set_azimuth_and_distance(elements[c.1], elements[c.2])` by a caller (F15Parse.py:1401-1414). -/
def setCourse (l : List (Record F)) (c : Nat × Nat) : List (Record F) :=
  match l[c.1]?, l[c.2]? with
  | some p, some q => l.set c.1 (setAzimuthAndDistance p q)
  | _, _ => l

theorem set_course_length (l : List (Record F)) (c : Nat × Nat) : (setCourse l c).length = l.length := by
  unfold setCourse
  split <;> simp

theorem set_courses_length (cs : List (Nat × Nat)) : ∀ l : List (Record F), (cs.foldl setCourse l).length = l.length := by
  induction cs with
  | nil => intro l; rfl
  | cons c cs ih => intro l; rw [List.foldl_cons, ih, set_course_length]

/-- The element after one call. -/
theorem set_course_at {l : List (Record F)} {c : Nat × Nat} {i : Nat} {r : Record F} (h : l[i]? = some r) (h2 : c.2 < l.length) :
    ∃ r', (setCourse l c)[i]? = some r' ∧ SameButCourse r r' ∧
      (c.1 = i → ∃ q, l[c.2]? = some q ∧ (r'.bearing, r'.distance) = course r q) ∧ (c.1 ≠ i → r' = r) := by
  obtain ⟨q, hq⟩ : ∃ q, l[c.2]? = some q := ⟨l[c.2], List.getElem?_eq_getElem h2⟩
  unfold setCourse
  rw [hq]
  by_cases hi : c.1 = i
  · subst hi
    rw [h]
    refine ⟨setAzimuthAndDistance r q, ?_, rfl, fun _ => ⟨q, rfl, rfl⟩, fun h => absurd rfl h⟩
    have := (List.getElem?_eq_some_iff.1 h).1
    simp [List.getElem?_set, this]
  · cases hp : l[c.1]? with
    | none => exact ⟨r, h, rfl, fun h => absurd h hi, fun _ => rfl⟩
    | some p => exact ⟨r, by simp [List.getElem?_set, hi, h], rfl, fun h => absurd h hi, fun _ => rfl⟩

theorem same_trans {r r' r'' : Record F} (h : SameButCourse r r') (h' : SameButCourse r' r'') : SameButCourse r r'' := by
  unfold SameButCourse at *
  rw [h'] at *
  rw [h]

/-- **C73** A caller can call `set_azimuth_and_distance` with any two elements, any number of times and in any order: nothing but bearing
and distance changes, and the bearing and distance of an element are those of the last call with it as first argument, the ones it had if
there was none. -/
theorem c73_calls (cs : List (Nat × Nat)) : ∀ (l : List (Record F)), (∀ c ∈ cs, c.1 < l.length ∧ c.2 < l.length) →
    AllSameButCourse l (cs.foldl setCourse l) ∧
    ∀ (i : Nat) (r r' : Record F), l[i]? = some r → (cs.foldl setCourse l)[i]? = some r' →
      (∀ a j b q, cs = a ++ (i, j) :: b → (∀ c ∈ b, c.1 ≠ i) → l[j]? = some q → (r'.bearing, r'.distance) = course r q) ∧
      ((∀ c ∈ cs, c.1 ≠ i) → r' = r) := by
  induction cs with
  | nil =>
    intro l _
    refine ⟨⟨rfl, fun i r r' h1 h2 => ?_⟩, fun i r r' h1 h2 => ⟨fun a j b q h => ?_, fun _ => ?_⟩⟩
    · rw [List.foldl_nil, h1] at h2; cases h2; rfl
    · cases a <;> cases h
    · rw [List.foldl_nil, h1] at h2; cases h2; rfl
  | cons c cs ih =>
    intro l hc
    have h2 : c.2 < l.length := (hc c (by simp)).2
    obtain ⟨⟨_, k2⟩, k3⟩ := ih (setCourse l c) (fun d hd => by rw [set_course_length]; exact hc d (by simp [hd]))
    refine ⟨⟨by rw [set_courses_length], fun i r r' h h' => ?_⟩, fun i r r' h h' => ?_⟩
    · obtain ⟨r1, g1, g2, _⟩ := set_course_at (c := c) h h2
      exact same_trans g2 (k2 i r1 r' g1 h')
    · obtain ⟨r1, g1, g2, g3⟩ := set_course_at (c := c) h h2
      obtain ⟨m1, m2⟩ := k3 i r1 r' g1 h'
      constructor
      · intro a j b q he hb hq
        cases a with
        | nil =>
          cases he
          obtain ⟨q', e1, e2⟩ := g3.1 rfl
          rw [hq] at e1; cases e1
          rw [m2 hb]; exact e2
        | cons x a =>
          cases he
          obtain ⟨q1, w1, w2, _⟩ := set_course_at (c := c) hq h2
          rw [m1 a j b q1 rfl hb w1]
          unfold course
          rw [show r1.latitude = r.latitude by rw [g2], show r1.longitude = r.longitude by rw [g2],
            show q1.latitude = q.latitude by rw [w2], show q1.longitude = q.longitude by rw [w2]]
      · intro hn
        rw [m2 fun d hd => hn d (by simp [hd])]
        exact g3.2 (hn c (by simp))

theorem next_unique {l : List (Record F)} {i j j' : Nat} (h : NextLocated l i j) (h' : NextLocated l i j') : j = j' := by
  obtain ⟨_, a, b⟩ := h
  obtain ⟨_, a', b'⟩ := h'
  rcases b with rfl | ⟨rfl, b⟩ <;> rcases b' with rfl | ⟨rfl, b'⟩
  · rfl
  · exact absurd a b'
  · exact absurd a' b
  · rfl

/-- `courseOf` by numbers. -/
theorem course_next {l : List (Record F)} {before following : List (Record F)} {r : Record F} (hl : l = before ++ r :: following) :
    (∃ j q, NextLocated l before.length j ∧ l[j]? = some q ∧ courseOf r following = course r q) ∨
    ((∀ j, ¬ NextLocated l before.length j) ∧ courseOf r following = (fzero, fzero)) := by
  have h0 : l[before.length]? = some r := by rw [hl]; simp
  have h1 : ∀ k, l[before.length + 1 + k]? = following[k]? := by
    intro k; rw [hl, List.getElem?_append_right (by omega), show before.length + 1 + k - before.length = k + 1 by omega]; rfl
  by_cases hv : r.latLongValid = true
  · have hi : LocatedAt l before.length := ⟨r, h0, hv⟩
    cases following with
    | nil =>
      right
      refine ⟨fun j hj => ?_, by simp [courseOf]⟩
      obtain ⟨_, ⟨q, a, _⟩, b | ⟨b, _⟩⟩ := hj
      · rw [b, show before.length + 1 = before.length + 1 + 0 by omega, h1] at a; cases a
      · rw [b, show before.length + 2 = before.length + 1 + 1 by omega, h1] at a; cases a
    | cons q rest =>
      have hq : l[before.length + 1]? = some q := h1 0
      by_cases hqv : q.latLongValid = true
      · exact .inl ⟨_, q, ⟨hi, ⟨q, hq, hqv⟩, .inl rfl⟩, hq, by simp [courseOf, hv, hqv]⟩
      · have hn : ¬ LocatedAt l (before.length + 1) := by
          rintro ⟨x, a, b⟩
          rw [hq] at a; cases a; exact hqv b
        cases rest with
        | nil =>
          right
          refine ⟨fun j hj => ?_, by simp [courseOf, hqv]⟩
          obtain ⟨_, hj', b | ⟨b, _⟩⟩ := hj
          · rw [b] at hj'; exact hn hj'
          · obtain ⟨q, a, _⟩ := hj'
            rw [b, show before.length + 2 = before.length + 1 + 1 by omega, h1] at a; cases a
        | cons q' rest =>
          have hq' : l[before.length + 2]? = some q' := h1 1
          by_cases hqv' : q'.latLongValid = true
          · exact .inl ⟨_, q', ⟨hi, ⟨q', hq', hqv'⟩, .inr ⟨rfl, hn⟩⟩, hq', by simp [courseOf, hv, hqv, hqv']⟩
          · right
            refine ⟨fun j hj => ?_, by simp [courseOf, hqv, hqv']⟩
            obtain ⟨_, hj', b | ⟨b, _⟩⟩ := hj
            · rw [b] at hj'; exact hn hj'
            · obtain ⟨q, a, b'⟩ := hj'
              rw [b, hq'] at a; cases a; exact hqv' b'
  · right
    refine ⟨fun j hj => ?_, by simp [courseOf, hv]⟩
    obtain ⟨⟨x, a, b⟩, _⟩ := hj
    rw [h0] at a; cases a; exact hv b

theorem last_call {cs : List (Nat × Nat)} {i : Nat} (h : ∃ c ∈ cs, c.1 = i) : ∃ a j b, cs = a ++ (i, j) :: b ∧ ∀ c ∈ b, c.1 ≠ i := by
  induction cs with
  | nil => obtain ⟨c, hc, _⟩ := h; cases hc
  | cons c cs ih =>
    by_cases h' : ∃ d ∈ cs, d.1 = i
    · obtain ⟨a, j, b, rfl, hb⟩ := ih h'
      exact ⟨c :: a, j, b, rfl, hb⟩
    · obtain ⟨d, hd, he⟩ := h
      rcases List.mem_cons.1 hd with rfl | hd
      · exact ⟨[], d.2, cs, by rw [← he]; rfl, fun c hc he => h' ⟨c, hc, he⟩⟩
      · exact absurd ⟨d, hd, he⟩ h'

/-- **C73** Positions can be filled in later: take any sequence whose courses are right, give any elements new positions, and call
`set_azimuth_and_distance` at least once for each element with a position and the next element with a position (the one after it, or the
one after that), in any order and with repetitions. Then all courses are right again, and nothing else has changed. -/
theorem c73_pass {l l1 : List (Record F)} {cs : List (Nat × Nat)} (hl : CoursesRight l) (h1 : PositionsAdded l l1)
    (hc : ∀ i j, (i, j) ∈ cs ↔ NextLocated l1 i j) :
    CoursesRight (cs.foldl setCourse l1) ∧ AllSameButCourse l1 (cs.foldl setCourse l1) := by
  have hb : ∀ c ∈ cs, c.1 < l1.length ∧ c.2 < l1.length := by
    intro c h
    obtain ⟨⟨x, hx, _⟩, ⟨y, hy, _⟩, _⟩ := (hc c.1 c.2).1 h
    exact ⟨(List.getElem?_eq_some_iff.1 hx).1, (List.getElem?_eq_some_iff.1 hy).1⟩
  obtain ⟨k1, k2⟩ := c73_calls cs l1 hb
  refine ⟨fun before r' following he => ?_, k1⟩
  have hr' : (cs.foldl setCourse l1)[before.length]? = some r' := by rw [he]; simp
  have hlt : before.length < l1.length := by
    have := (List.getElem?_eq_some_iff.1 hr').1
    rwa [set_courses_length] at this
  have hr1 : l1[before.length]? = some l1[before.length] := List.getElem?_eq_getElem hlt
  generalize l1[before.length] = r1 at hr1
  obtain ⟨m1, m2⟩ := k2 _ _ _ hr1 hr'
  -- positions are those of `l1`
  have hloc : ∀ (i : Nat) (x y : Record F), l1[i]? = some x → (cs.foldl setCourse l1)[i]? = some y → LocEq x y := by
    intro i x y hx hy
    have := k1.2 i x y hx hy
    rw [this]; exact ⟨rfl, rfl, rfl⟩
  have hsplit : l1 = l1.take before.length ++ r1 :: l1.drop (before.length + 1) := by
    rw [← (List.getElem?_eq_some_iff.1 hr1).2, ← List.drop_eq_getElem_cons hlt, List.take_append_drop]
  have hcourse : courseOf r' following = courseOf r1 (l1.drop (before.length + 1)) := by
    refine (courseOf_congr (hloc _ _ _ hr1 hr') ?_).symm
    have hf : following = (cs.foldl setCourse l1).drop (before.length + 1) := by rw [he]; simp
    rw [hf]
    have : ∀ x y : List (Record F), x.length = y.length → (∀ (i : Nat) (a b : Record F), x[i]? = some a → y[i]? = some b → LocEq a b) → All2 LocEq x y := by
      intro x
      induction x with
      | nil => intro y hy _; cases y with
        | nil => exact .nil
        | cons => cases hy
      | cons a x ih =>
        intro y hy h
        cases y with
        | nil => cases hy
        | cons b y => exact .cons (h 0 a b rfl rfl) (ih y (by simpa using hy) fun i a b h1 h2 => h (i + 1) a b h1 h2)
    refine All2.take (this _ _ (by simp [set_courses_length]) fun i a b ha hb => ?_) 2
    rw [List.getElem?_drop] at ha hb
    exact hloc _ _ _ ha hb
  rw [hcourse]
  have hlen : (l1.take before.length).length = before.length := by simp; omega
  rcases course_next hsplit with ⟨j, q, n1, n2, n3⟩ | ⟨n1, n2⟩
  · rw [hlen] at n1
    rw [n3]
    obtain ⟨a, j', b, e1, e2⟩ := last_call (cs := cs) (i := before.length) ⟨(before.length, j), (hc _ _).2 n1, rfl⟩
    have : j' = j := next_unique ((hc _ _).1 (by rw [e1]; simp)) n1
    subst this
    exact m1 a j' b q e1 e2 n2
  · rw [hlen] at n1
    have hno : ∀ c ∈ cs, c.1 ≠ before.length := by
      intro c hcc hce
      exact n1 c.2 (by rw [← hce]; exact (hc _ _).1 hcc)
    rw [m2 hno, n2]
    -- the course in `l`
    have hlt0 : before.length < l.length := by rw [h1.1]; exact hlt
    have hr0 : l[before.length]? = some l[before.length] := List.getElem?_eq_getElem hlt0
    generalize l[before.length] = r0 at hr0
    have hsplit0 : l = l.take before.length ++ r0 :: l.drop (before.length + 1) := by
      rw [← (List.getElem?_eq_some_iff.1 hr0).2, ← List.drop_eq_getElem_cons hlt0, List.take_append_drop]
    obtain ⟨p1, p2⟩ := h1.2 _ _ _ hr0 hr1
    have hr01 : (r1.bearing, r1.distance) = (r0.bearing, r0.distance) := by rw [p1]
    rw [hr01, hl _ _ _ hsplit0]
    have hup : ∀ i, LocatedAt l i → LocatedAt l1 i := by
      rintro i ⟨x, hx, hv⟩
      have hi : i < l1.length := by rw [← h1.1]; exact (List.getElem?_eq_some_iff.1 hx).1
      exact ⟨l1[i], List.getElem?_eq_getElem hi, (h1.2 i x _ hx (List.getElem?_eq_getElem hi)).2 hv⟩
    rcases course_next hsplit0 with ⟨j, q, w1, _, _⟩ | ⟨_, w2⟩
    · exfalso
      rw [show (l.take before.length).length = before.length by simp; omega] at w1
      obtain ⟨a1, a2, a3⟩ := w1
      by_cases hn : LocatedAt l1 (before.length + 1)
      · exact n1 _ ⟨hup _ a1, hn, .inl rfl⟩
      · rcases a3 with rfl | ⟨rfl, _⟩
        · exact hn (hup _ a2)
        · exact n1 _ ⟨hup _ a1, hup _ a2, .inr ⟨rfl, hn⟩⟩
    · exact w2

/-- **C73** The sequence may be the result of any parse, accepted or not. -/
theorem c73_parse {frames : Nat} {tokens : Tokens} {b : Bool} {e : Ers F} (h : parseF15 frames Ers.new tokens = .ok (b, e))
    {l1 : List (Record F)} {cs : List (Nat × Nat)} (h1 : PositionsAdded e.elements l1) (hc : ∀ i j, (i, j) ∈ cs ↔ NextLocated l1 i j) :
    CoursesRight (cs.foldl setCourse l1) ∧ AllSameButCourse l1 (cs.foldl setCourse l1) :=
  c73_pass (fun _ _ _ hr => c31 h hr) h1 hc

theorem good_of_right {l : List (Record F)} : ∀ n, (∀ before r following, l.reverse = before ++ r :: following →
    (r.bearing, r.distance) = courseOf r (following ++ n)) → Good n l := by
  induction l with
  | nil => intro n _; trivial
  | cons x l ih =>
    intro n h
    refine ⟨h l.reverse x [] (by simp), ih (x :: n) fun before r following he => ?_⟩
    have := h before r (following ++ [x]) (by simp [he])
    simpa using this

/-- **C73** A caller who builds a sequence himself appends an element that has no course yet and calls
`assign_azimuth_distance_between_points`: if all courses were right, they are right again, and nothing else has changed. -/
theorem c73_append {σ : Type} {s : St σ F} {x : Record F} (h : CoursesRight s.ers.elements) (hx : (x.bearing, x.distance) = (fzero, fzero)) :
    ∃ s', (assignAzimuth : M σ F Unit) { s with ers := s.ers.appendElement x } = .ok ((), s') ∧
      CoursesRight s'.ers.elements ∧ AllSameButCourse (s.ers.elements ++ [x]) s'.ers.elements ∧ s'.toks = s.toks ∧
      s'.ers.errors = s.ers.errors ∧ s'.ers.derived = s.ers.derived := by
  refine ⟨_, rfl, ?_, ?_, rfl, rfl, rfl⟩
  · have g : Good [] s.ers.recs := good_of_right [] fun before r following he => by
      rw [List.append_nil]; exact h before r following he
    have g' : Good [] (azimuthList (x :: s.ers.recs)) := by
      by_cases hv : x.latLongValid = true
      · exact azimuth_good ⟨hx, hv, .inl g⟩
      · have hv' : x.latLongValid = false := by simpa using hv
        have : azimuthList (x :: s.ers.recs) = x :: s.ers.recs := by
          generalize s.ers.recs = l
          cases l with
          | nil => rfl
          | cons p l => simp [azimuthList, hv']
        rw [this]
        exact Good.push hv' hx g
    intro before r following he
    have he' : azimuthList (x :: s.ers.recs) = following.reverse ++ r :: before.reverse := by
      have := congrArg List.reverse he
      simpa [Ers.elements, Ers.appendElement] using this
    rw [he'] at g'
    simpa using g'.at
  · show AllSameButCourse (s.ers.recs.reverse ++ [x]) (azimuthList (x :: s.ers.recs)).reverse
    rw [← List.reverse_cons]
    have same : ∀ l : List (Record F), AllSameButCourse l.reverse (azimuthList l).reverse := by
      intro l
      have key : (azimuthList l).length = l.length ∧ ∀ (i : Nat) (r r' : Record F), l[i]? = some r → (azimuthList l)[i]? = some r' →
          SameButCourse r r' := by
        have rfl' : ∀ l : List (Record F), l.length = l.length ∧ ∀ (i : Nat) (r r' : Record F), l[i]? = some r → l[i]? = some r' →
            SameButCourse r r' := fun l => ⟨rfl, fun i r r' h1 h2 => by rw [h1] at h2; cases h2; rfl⟩
        match l with
        | [] => exact rfl' _
        | [a] => exact rfl' _
        | [a, b] =>
          simp only [azimuthList]
          split
          · split
            · refine ⟨rfl, fun i r r' h1 h2 => ?_⟩
              match i with
              | 0 => cases h1; cases h2; rfl
              | 1 => cases h1; cases h2; rfl
              | i + 2 => cases h1
            · exact rfl' _
          · exact rfl' _
        | a :: b :: c :: l =>
          simp only [azimuthList]
          split
          · split
            · refine ⟨rfl, fun i r r' h1 h2 => ?_⟩
              match i with
              | 0 => cases h1; cases h2; rfl
              | 1 => cases h1; cases h2; rfl
              | i + 2 =>
                have h1 : (c :: l)[i]? = some r := h1
                have h2 : (c :: l)[i]? = some r' := h2
                rw [h1] at h2; cases h2; rfl
            · split
              · refine ⟨rfl, fun i r r' h1 h2 => ?_⟩
                match i with
                | 0 => cases h1; cases h2; rfl
                | 1 => cases h1; cases h2; rfl
                | 2 => cases h1; cases h2; rfl
                | i + 3 =>
                  have h1 : l[i]? = some r := h1
                  have h2 : l[i]? = some r' := h2
                  rw [h1] at h2; cases h2; rfl
              · exact rfl' _
          · exact rfl' _
      refine ⟨by simp [key.1], fun i r r' h1 h2 => ?_⟩
      have hi : i < l.length := by simpa using (List.getElem?_eq_some_iff.1 h1).1
      rw [List.getElem?_reverse hi] at h1
      rw [List.getElem?_reverse (by rw [key.1]; exact hi), key.1] at h2
      exact key.2 _ r r' h1 h2
    exact same _

/-! ### Examples -/

/-- The elements of a route with two published points. -/
def exLater : List (Record Rat) :=
  match parseText (py! "N0450F350 50N010E LNZ 52N012E DCT PNT") with
  | .ok (_, e) => e.elements
  | .error _ => []

/-- The same with positions for the two published points. -/
def exLocated : List (Record Rat) := exLater.map fun r =>
  if r.name = py! "LNZ" then { r with latitude := 51, longitude := 11, latLongValid := true }
  else if r.name = py! "PNT" then { r with latitude := 53, longitude := 13, latLongValid := true } else r

/-- Before: the first point has the course over `LNZ` to the third. After the calls, in some order and one of them twice: to `LNZ`, and so on. -/
example : exLater.map (fun r => (r.name, r.bearing, r.distance)) =
      [(py! "ADEP", 0, 0), (py! "50N010E", 2, 222240), (py! "LNZ", 0, 0), (py! "52N012E", 0, 0), (py! "DCT", 0, 0), (py! "PNT", 0, 0), (py! "ADES", 0, 0)] ∧
    ([(3, 5), (1, 2), (2, 3), (1, 2)].foldl setCourse exLocated).map (fun r => (r.name, r.bearing, r.distance)) =
      [(py! "ADEP", 0, 0), (py! "50N010E", 1, 111120), (py! "LNZ", 1, 111120), (py! "52N012E", 1, 111120), (py! "DCT", 0, 0), (py! "PNT", 0, 0), (py! "ADES", 0, 0)] := by
  decide +kernel

theorem located_iff {l : List (Record F)} {i : Nat} : LocatedAt l i ↔ (l.map (·.latLongValid))[i]? = some true := by
  rw [List.getElem?_map]
  constructor
  · rintro ⟨r, h1, h2⟩
    rw [h1, ← h2]; rfl
  · intro h
    obtain ⟨r, h1, h2⟩ := Option.map_eq_some_iff.1 h
    exact ⟨r, h1, h2⟩

/-- The hypotheses of `c73_parse` hold for these calls. -/
example : CoursesRight ([(3, 5), (1, 2), (2, 3), (1, 2)].foldl setCourse exLocated) := by
  have hacc : (match parseText (py! "N0450F350 50N010E LNZ 52N012E DCT PNT") with | .ok (b, _) => b | .error _ => false) = true := by decide +kernel
  have hv : exLocated.map (·.latLongValid) = [false, true, true, true, false, true, false] := by decide +kernel
  cases h : parseText (py! "N0450F350 50N010E LNZ 52N012E DCT PNT") with
  | error => rw [h] at hacc; cases hacc
  | ok x =>
    obtain ⟨b, e⟩ := x
    have he : exLater = e.elements := by unfold exLater; rw [h]
    refine (c73_parse h (l1 := exLocated) ?_ ?_).1
    · rw [← he]
      refine ⟨by simp [exLocated], fun i r r' h1 h2 => ?_⟩
      unfold exLocated at h2
      rw [List.getElem?_map, h1] at h2
      simp only [Option.map_some, Option.some.injEq] at h2
      rw [← h2]
      split
      · exact ⟨rfl, fun _ => rfl⟩
      · split
        · exact ⟨rfl, fun _ => rfl⟩
        · exact ⟨rfl, id⟩
    · intro i j
      unfold NextLocated
      rw [located_iff, located_iff, located_iff, hv]
      rcases i with _ | _ | _ | _ | _ | _ | _ | i <;> rcases j with _ | _ | _ | _ | _ | _ | _ | j <;> simp

end F15
