import Verif.Props.Misfit
import Verif.Lemmas.Wipe
import Verif.Spec.Lost
import Verif.Props.Gap
/-!
# C93: whatever part of the route is garbled, the rest is read
-/

namespace F15
open Spec

set_option linter.unusedSectionVars false
variable {F : Type} [PyFloat F]

theorem wipe_same {l l' : List (Record F)} (h : l.map wipe = l'.map wipe) : AllSameButSpeedLevel l l' := by
  refine ⟨by simpa using congrArg List.length h, fun i r r' h1 h2 => ?_⟩
  have h3 : (l.map wipe)[i]? = some (wipe r) := by rw [List.getElem?_map, h1]; rfl
  have h4 : (l'.map wipe)[i]? = some (wipe r') := by rw [List.getElem?_map, h2]; rfl
  rw [h, h4] at h3
  have h5 : wipe r' = wipe r := Option.some.inj h3
  unfold SameButSpeedLevel
  have e : ∀ x : Record F, x = { wipe x with speed := x.speed, speedSi := x.speedSi, altitude := x.altitude, altitudeSi := x.altitudeSi } := fun x => rfl
  rw [e r', h5]
  rfl

/-- What does not continue a remark can be read after a stay. -/
theorem open_lenient {c : Prop} {v : List Token} {q : Phase} {ds : List Act} {z : Option Phase} (ho : Open (some q)) (hqa : q ≠ .adep)
    (h : RunToG c q v ds z) (hv : ∀ t, v.head? = some t → t.base ≠ .SLASH ∧ t.base ≠ .STAY) :
    (v = [] ∨ RunToG c .stay v ds z) ∧ (ds = [] ∨ ∃ a as, ds = a :: as ∧ a.Makes) := by
  have al : ∀ t : Token, q.allows t = true → t.base ≠ .STAY → Phase.allows .stay t = true := by
    intro t h1 h2
    cases q with
    | adep => exact absurd rfl hqa
    | climb | text => exact ho.elim
    | _ =>
      simp only [Phase.allows] at h1 ⊢
      cases hb : t.base <;> simp_all
  cases h with
  | here => exact ⟨.inl rfl, .inl rfl⟩
  | truncate h1 hb => exact ⟨.inr (.truncate (al _ h1 (by simp [hb])) hb), .inl rfl⟩
  | star h1 hb =>
    refine ⟨.inr ?_, .inr ⟨_, _, rfl, .star _⟩⟩
    exact .star (al _ h1 (by rcases hb with hb | ⟨hb, _⟩ <;> simp [hb])) (hb.imp id fun h => ⟨h.1, by simp⟩)
  | dct h1 hb h => exact ⟨.inr (.dct (al _ h1 (by simp [hb])) hb h), .inr ⟨_, _, rfl, .plain _⟩⟩
  | route h1 hb h => exact ⟨.inr (.route (al _ h1 (by simp [hb])) hb h), .inr ⟨_, _, rfl, .route _⟩⟩
  | point h1 hb hn h => exact ⟨.inr (.point (al _ h1 (by simp [hb])) hb hn h), .inr ⟨_, _, rfl, .point _⟩⟩
  | climb h1 hb h => exact ⟨.inr (.climb (al _ h1 (by simp [hb])) hb h), .inr ⟨_, _, rfl, .plain _⟩⟩
  | cruise h1 hb hs hp hs' hl h => exact ⟨.inr (.cruise (al _ h1 (by simp [hb])) hb hs hp hs' hl h), .inr ⟨_, _, rfl, .ccPoint _⟩⟩
  | break_ h1 hb h => exact ⟨.inr (.break_ (al _ h1 (by simp [hb])) hb h), .inr ⟨_, _, rfl, .brk _⟩⟩
  | stay h1 hb => exact absurd hb (hv _ rfl).2
  | level hs | vfr hs => exact absurd hs (hv _ rfl).1
  | sid => exact absurd rfl hqa
  | word | resume | resumeIfr | resumeVfr => exact ho.elim

theorem last_index (t : Token) {A : List (Record F)} (h : 2 ≤ A.length) (R : List (Record F)) :
    ((last t A).reverse ++ R)[A.length - 1]? = A.head? := by
  rw [← last_head t h, List.getElem?_append_left (by rw [List.length_reverse, last_length]; omega), List.getElem?_reverse (by rw [last_length]; omega), last_length,
    show A.length - 1 - (A.length - 1) = 0 by omega, List.head?_eq_getElem?]

/-- Without the elements `N`. -/
theorem lost_of (t : Token) {E E1 E2 X1 X2 N : List (Record F)} {x : List Token} (two : 2 ≤ E.length)
    (h1 : E1.map courseless = E.map courseless) (h2 : E2.map courseless = E.map courseless)
    (hN : ∀ r ∈ N, ∃ t ∈ x, r.start = t.start ∧ r.stop = t.stop) (hr : X1 = [] → (N ++ E1).head?.map (·.rules) = E2.head?.map (·.rules))
    (hX : X1.map wipe = X2.map wipe) (hX' : X1 ≠ [] → X1.head?.map (·.rules) = X2.head?.map (·.rules))
    (hs : (∀ p q, E1.head? = some p → (N ++ E1).head? = some q → SameSpeedLevel p q) → X1 = X2)
    {e1 e2 : Ers F} (k1 : e1.recs = X1 ++ (N ++ E1)) (k2 : e2.recs = X2 ++ E2) :
    Lost E.length (N.length + E.length) x (finErs (post t e2)).elements (finErs (post t e1)).elements := by
  have l1 : E1.length = E.length := by simpa using congrArg List.length h1
  have l2 : E2.length = E.length := by simpa using congrArg List.length h2
  have n1 : E1 ≠ [] := by intro h; rw [h] at l1; simp at l1; omega
  have n2 : E2 ≠ [] := by intro h; rw [h] at l2; simp at l2; omega
  have hades : ((last t e1.recs).head?.map (·.rules)).getD [] = ((last t e2.recs).head?.map (·.rules)).getD [] := by
    rw [last_head t (by rw [k1]; simp; omega), last_head t (by rw [k2]; simp; omega), k1, k2]
    cases X1 with
    | nil =>
      obtain rfl : X2 = [] := by simpa using hX.symm
      simp only [List.nil_append]; rw [hr rfl]
    | cons a X1 =>
      cases X2 with
      | nil => simp at hX
      | cons b X2 =>
        have := hX' (by simp)
        simp only [List.cons_append, List.head?_cons, Option.map_some] at this ⊢
        rw [this]
  rw [gap_elements, gap_elements, hades, k1, k2]
  generalize adesRec (F := F) _ = ades at *
  have r1 : (last t E1).reverse.length = E.length := by rw [List.length_reverse, last_length, l1]
  have r2 : (last t E2).reverse.length = E.length := by rw [List.length_reverse, last_length, l2]
  have i1 : ∀ R, ((last t E1).reverse ++ R)[E.length - 1]? = E1.head? := by
    intro R; rw [← l1]; exact last_index t (by omega) R
  have i2 : ∀ R, ((last t (N ++ E1)).reverse ++ R)[N.length + E.length - 1]? = (N ++ E1).head? := by
    intro R
    have := last_index t (A := N ++ E1) (by simp; omega) R
    rwa [List.length_append, l1] at this
  rw [last_append t N n1] at i2
  rw [last_append t X1 (B := N ++ E1) (by simp [n1]), last_append t N n1, last_append t X2 n2]
  simp only [List.reverse_append, List.append_assoc] at i2 ⊢
  have rN : ((last t E1).reverse ++ N.reverse).length = N.length + E.length := by rw [List.length_append, r1, List.length_reverse]; omega
  have d1 : ∀ R, ((last t E1).reverse ++ (N.reverse ++ R)).drop (N.length + E.length) = R := by
    intro R; rw [← List.append_assoc]; exact List.drop_left' rN
  have t1 : ∀ R, ((last t E1).reverse ++ (N.reverse ++ R)).take (N.length + E.length) = (last t E1).reverse ++ N.reverse := by
    intro R; rw [← List.append_assoc]; exact List.take_left' rN
  refine ⟨⟨by omega, ?_⟩, ?_, ?_, ?_, ?_⟩
  · simp only [List.length_append, List.length_reverse, last_length, List.length_singleton]; omega
  · rw [List.take_left' r1, List.take_left' r2]
    apply courseless_same
    rw [List.map_reverse, List.map_reverse, last_courseless, last_courseless, h1, h2]
  · rw [t1, List.drop_left' r1]
    intro r hr
    exact hN r (List.mem_reverse.1 hr)
  · rw [d1, List.drop_left' r2]
    apply wipe_same
    rw [List.map_append, List.map_append, List.map_reverse, List.map_reverse, hX]
  · intro h
    rw [d1, List.drop_left' r2, hs]
    intro p q hp hq
    exact h p q ((i1 _).trans hp) ((i2 _).trans hq)

/-- The elements with and without those of a stretch. -/
theorem lost_elements (t : Token) {e ex e1 e2 : Ers F} {xs ds : List Act} (hx : xs = [] ∨ ∃ a as, xs = a :: as ∧ a.Makes) (two : 2 ≤ e.recs.length)
    (hr : e.recs.head?.map (·.rules) = some (py! "IFR")) (hrx : ex.recs.head?.map (·.rules) = some (py! "IFR"))
    (hd : ds = [] ∨ ∃ a as, ds = a :: as ∧ a.Makes)
    (kx : ex.recs = recsAll xs e.recs) (k1 : e1.recs = recsAll ds ex.recs) (k2 : e2.recs = recsAll ds e.recs) {x : List Token}
    (hxt : ∀ a ∈ xs, ∃ t ∈ x, a.tok.start = t.start ∧ a.tok.stop = t.stop) :
    Lost e.recs.length ex.recs.length x (finErs (post t e2)).elements (finErs (post t e1)).elements := by
  -- the stretch
  have stretch : ∃ N E1, ex.recs = N ++ E1 ∧ E1.map courseless = e.recs.map courseless ∧ ∀ r ∈ N, ∃ t ∈ x, r.start = t.start ∧ r.stop = t.stop := by
    obtain ⟨S, hS, hS'⟩ := span_all xs e.recs
    rw [← kx] at hS
    have mk : ∃ N E1, ex.recs = N ++ E1 ∧ E1.map courseless = e.recs.map courseless := by
      rcases hx with rfl | ⟨a, as, rfl, hm⟩
      · exact ⟨[], e.recs, kx, rfl⟩
      · cases hE : e.recs with
        | nil => rw [hE] at two; simp at two
        | cons y Y =>
          obtain ⟨X, Y', -, -, b2, -, b4, -⟩ := same_made (F := F) hm as (y1 := y) (y2 := y) ⟨rfl, rfl, rfl, rfl, rfl⟩ Y Y
          exact ⟨X, Y', by rw [kx, hE, b2], b4⟩
    obtain ⟨N, E1, hN, hE⟩ := mk
    refine ⟨N, E1, hN, hE, fun r hr' => ?_⟩
    rw [hN, List.map_append, courseless_spans hE] at hS
    have := List.append_inj_left' hS rfl
    have hm : span r ∈ S := by rw [← this]; exact List.mem_map_of_mem hr'
    obtain ⟨a, ha, hsp⟩ := hS' _ hm
    obtain ⟨t, ht, q1, q2⟩ := hxt a ha
    unfold span at hsp
    rw [Prod.mk.injEq] at hsp
    exact ⟨t, ht, hsp.1.trans q1, hsp.2.trans q2⟩
  obtain ⟨N, E1, hN, hE1, hNx⟩ := stretch
  have l1 : E1.length = e.recs.length := by simpa using congrArg List.length hE1
  have hlen : ex.recs.length = N.length + e.recs.length := by rw [hN, List.length_append, l1]
  rw [hlen]
  rcases hd with rfl | ⟨a, as, rfl, hm⟩
  · refine lost_of t two hE1 rfl hNx (fun _ => ?_) rfl (fun h => absurd rfl h) (fun _ => rfl) (X1 := []) (X2 := []) (k1.trans hN) k2
    rw [← hN, hrx, hr]
  · cases hE : e.recs with
    | nil => rw [hE] at two; simp at two
    | cons y Y =>
    cases hX : ex.recs with
    | nil => rw [hX] at hlen; simp [hE] at hlen
    | cons z Z =>
    rw [hE] at hr k2 hE1 two
    rw [hX] at hrx k1 hN
    have hr : y.rules = py! "IFR" := by simpa using hr
    have hrx : z.rules = py! "IFR" := by simpa using hrx
    obtain ⟨X1, X2, Y1, Y2, b1, b2, b3, b4, b5, b6, b7⟩ := like_made hm as (hrx.trans hr.symm) Z Y
    rw [b3] at k1
    rw [b4] at k2
    rw [hN, List.map_append] at b5
    obtain ⟨N1, E3, rfl, c1, c2⟩ := List.map_eq_append_iff.1 b5
    have hNl : N1.length = N.length := by simpa using congrArg List.length c1
    rw [← hNl]
    refine lost_of t two (c2.trans hE1) b6 ?_ (fun h => absurd h b1) b2 ?_ ?_ k1 k2
    · intro r hr'
      have h1 : span r ∈ N1.map span := List.mem_map_of_mem hr'
      rw [courseless_spans c1] at h1
      obtain ⟨q, hq, he⟩ := List.mem_map.1 h1
      obtain ⟨t, ht, q1, q2⟩ := hNx q hq
      unfold span at he
      rw [Prod.mk.injEq] at he
      exact ⟨t, ht, he.1.symm.trans q1, he.2.symm.trans q2⟩
    · intro _
      cases X1 with
      | nil => exact absurd rfl b1
      | cons p X1 =>
        cases X2 with
        | nil => simp at b2
        | cons q X2 =>
          simp only [List.map_cons, List.cons.injEq] at b2
          have := congrArg Record.rules b2.1
          simp only [List.head?_cons, Option.map_some]
          exact congrArg some this
    · intro hsl
      apply b7
      have hc2 := c2.trans hE1
      cases E3 with
      | nil => simp at hc2
      | cons p E3 =>
        simp only [List.map_cons, List.cons.injEq] at hc2
        have hp := courseless_carry hc2.1
        have hz : ∃ q R, N1 ++ p :: E3 = q :: R ∧ courseless q = courseless z := by
          cases N1 with
          | nil =>
            have : N = [] := by simpa using hNl.symm
            subst this
            simp only [List.nil_append] at hN
            subst hN
            simp only [List.map_cons, List.cons.injEq] at c2
            exact ⟨p, E3, rfl, c2.1⟩
          | cons q N1 =>
            cases N with
            | nil => simp at hNl
            | cons q' N =>
              simp only [List.cons_append, List.cons.injEq] at hN
              simp only [List.map_cons, List.cons.injEq] at c1
              exact ⟨q, _, rfl, by rw [c1.1, hN.1]⟩
        obtain ⟨q, R, hq, hqz⟩ := hz
        have hqz := courseless_carry hqz
        have := hsl p q rfl (by rw [hq]; rfl)
        obtain ⟨s1, s2, s3, s4⟩ := this
        obtain ⟨p1, p2, p3, p4, p5⟩ := hp
        obtain ⟨q1, q2, q3, q4, q5⟩ := hqz
        exact ⟨q1.symm.trans (s3.trans p1), q2.symm.trans (s4.trans p2), q3.symm.trans (s1.trans p3), q4.symm.trans (s2.trans p4), hrx.trans hr.symm⟩

theorem head_rules {t : Token} {e : Ers F} (two : 2 ≤ e.recs.length)
    (hi : (finErs (post t e)).elements.getLast?.map (·.rules) = some (py! "IFR")) : e.recs.head?.map (·.rules) = some (py! "IFR") := by
  rw [gap_elements, List.getLast?_append] at hi
  have hi : ((last t e.recs).head?.map (·.rules)).getD [] = py! "IFR" := by simpa [adesRec, Record.setRules] using hi
  rw [last_head _ two] at hi
  generalize e.recs = l at *
  cases l with
  | nil => simp at two
  | cons a l => simpa using hi

/-- A word that cannot come is an error. -/
theorem unfit_of_cannot {t : Token} {u : List Token} {w : Token} {as A : List Act} {q : Phase} (hs : SentRun (assignSyntax t :: u.map assignSyntax) A)
    (hr : RunTo (startPhase (assignSyntax t)) (u.map assignSyntax) as (some q)) (ho : Open (some q)) (hw : CannotCome (t :: u) w) :
    unfit q (assignSyntax w) = true := by
  rcases hw with hw | ⟨h1, h2, h3⟩
  · exact unfit_of_stray ho (strayBase_of hw)
  · obtain ⟨_, _, _, hn, hb⟩ := sentRun_start hs
    exact unfit_of_not hb hn hr ho h2 h3 h1

/-- **C93** Take an accepted field 15 `u x v` of which `u` and `u x` are accepted as well, end between two items and end under IFR, and garble
`x` (which may contain anything: points, changes of speed and level, sections under VFR) into one word `w` that can start no item or cannot come next: the field 15 is
refused with exactly one error, about `w`, and its elements are those of the correct field 15 without those of `x`. -/
theorem c93 {frames frames' framesU framesX : Nat} {u x v : List Token} {w : Token} {e' eu ex : Ers F}
    (h : parseF15 frames (Ers.new : Ers F) ⟨u ++ x ++ v, 0⟩ = .ok (true, e'))
    (hu : parseF15 framesU (Ers.new : Ers F) ⟨u, 0⟩ = .ok (true, eu)) (hi : eu.elements.getLast?.map (·.rules) = some (py! "IFR"))
    (hc : u.getLast?.map (·.text) ≠ some (py! "C"))
    (hux : parseF15 framesX (Ers.new : Ers F) ⟨u ++ x, 0⟩ = .ok (true, ex)) (hix : ex.elements.getLast?.map (·.rules) = some (py! "IFR"))
    (hcx : (u ++ x).getLast?.map (·.text) ≠ some (py! "C"))
    (hx0 : x ≠ []) (hx : NoRemark x) (hv : NoRemark v)
    (hw : CannotCome u w) (hf : 4 * (u ++ w :: v).length ≤ frames') :
    ∃ f r n, parseF15 frames' (Ers.new : Ers F) ⟨u ++ w :: v, 0⟩ = .ok (false, f) ∧
      Lost (eu.elements.length - 1) (ex.elements.length - 1) x f.elements e'.elements ∧ f.errors = [r] ∧ ErrorIs (assignSyntax w) n r := by
  cases u with
  | nil => rw [parse_eq] at hu; cases hu
  | cons t u =>
  have hbt : Between F framesU (t :: u) := .inr ⟨⟨eu, hu, hi⟩, hc⟩
  have hbx : Between F framesX (t :: (u ++ x)) := .inr ⟨⟨ex, hux, hix⟩, hcx⟩
  have hT : ∀ l : List Token, ∀ x ∈ l.map assignSyntax, Typed x := fun l x hx => typed_map hx
  -- the beginning
  obtain ⟨as0, y, hr0, ho⟩ := between_run hbt
  rw [parse_eq] at hu
  obtain ⟨t', rest, asu, heq, hsu, hfu⟩ := accepted (F := F) rfl rfl (hT _) hu
  obtain ⟨rfl, rfl⟩ : assignSyntax t = t' ∧ u.map assignSyntax = rest := by simpa using heq
  obtain ⟨bs, rfl, hbs, -, hb⟩ := sentRun_start hsu
  obtain ⟨yu, hbs⟩ := hbs.to
  obtain ⟨cs0, rfl, hrest⟩ := hr0.extend ho hbs (v := []) (by simp)
  obtain rfl : cs0 = [] := by
    cases y with
    | none => exact hrest.2.1
    | some p => cases hrest; rfl
  rw [List.append_nil] at hfu hsu
  -- the beginning with the stretch
  obtain ⟨asx, yx, hrx, hox⟩ := between_run hbx
  rw [parse_eq] at hux
  obtain ⟨t', rest, asu, heq, hsx, hfx⟩ := accepted (F := F) rfl rfl (hT _) hux
  obtain ⟨rfl, rfl⟩ : assignSyntax t = t' ∧ (u ++ x).map assignSyntax = rest := by simpa using heq
  obtain ⟨bs, rfl, hbs, -, -⟩ := sentRun_start hsx
  obtain ⟨yu, hbs⟩ := hbs.to
  obtain ⟨cs0, rfl, hrest⟩ := hrx.extend hox hbs (v := []) (by simp)
  obtain rfl : cs0 = [] := by
    cases yx with
    | none => exact hrest.2.1
    | some p => cases hrest; rfl
  rw [List.append_nil] at hfx
  -- the whole
  have h0 := h
  rw [parse_eq] at h
  obtain ⟨t', rest, as, heq, hs, rfl⟩ := accepted (F := F) rfl rfl (hT _) h
  obtain ⟨rfl, rfl⟩ : assignSyntax t = t' ∧ (u ++ x ++ v).map assignSyntax = rest := by simpa using heq
  obtain ⟨bs2, rfl, hbs2, -, -⟩ := sentRun_start hs
  obtain ⟨z, hbs2⟩ := hbs2.to
  obtain ⟨ds, rfl, hds⟩ := hrx.extend hox hbs2 (v := v.map assignSyntax) (by simp)
  obtain ⟨xs, rfl, hrest⟩ := hr0.extend ho hrx (v := x.map assignSyntax) (by simp)
  cases y with
  | none => exact absurd (by have := hrest.1; simpa using this) hx0
  | some q =>
  have hrest : RunToG True q (x.map assignSyntax) xs yx := hrest
  have hqa : q ≠ .adep := by
    rintro rfl
    obtain ⟨h1, h2⟩ := back_adep hr0 rfl
    have hsu : SentRun (assignSyntax t :: u.map assignSyntax) (startAct (assignSyntax t) :: as0) := hsu
    rw [h1] at hsu
    generalize startAct (assignSyntax t) :: as0 = A at hsu
    cases hsu with
    | ifr hb hl hne h => exact hne rfl
    | vfr hb h => unfold startPhase at h2; rw [if_pos hb] at h2; cases h2
  have noRemark : ∀ l : List Token, NoRemark l → ∀ t, (l.map assignSyntax).head? = some t → t.base ≠ .SLASH ∧ t.base ≠ .STAY := by
    intro l hl a ha
    cases l with
    | nil => cases ha
    | cons b l => cases ha; exact hl b rfl
  obtain ⟨-, hmx⟩ := open_lenient ho hqa hrest (noRemark x hx)
  obtain ⟨hlen, hmk⟩ : (v.map assignSyntax = [] ∧ ds = [] ∨ ∃ z, RunToG True .stay (v.map assignSyntax) ds z) ∧
      (ds = [] ∨ ∃ a as, ds = a :: as ∧ a.Makes) := by
    cases yx with
    | none => exact ⟨.inl ⟨hds.1, hds.2.1⟩, .inl hds.2.1⟩
    | some q' =>
      have hds : RunToG True q' (v.map assignSyntax) ds z := hds
      have hqa' : q' ≠ .adep := by
        rintro rfl
        obtain ⟨h1, -⟩ := back_adep hrest rfl
        exact hx0 (by simpa using h1)
      obtain ⟨k1, k2⟩ := open_lenient hox hqa' hds (noRemark v hv)
      refine ⟨?_, k2⟩
      rcases k1 with k1 | k1
      · rw [k1] at hds
        cases hds
        exact .inl ⟨k1, rfl⟩
      · exact .inr ⟨z, k1⟩
  have hdsErr : ∀ a ∈ ds, a.isErr = false := by
    rcases hlen with ⟨-, rfl⟩ | ⟨z, hl⟩
    · simp
    · exact hl.run.noErr
  -- reading on after the error
  have sync : ∀ e : Ers F, Fits q e → Evs .reSync e (v.map assignSyntax) (runs ds e) := by
    intro e hfe
    have hfs : Fits .stay e := ⟨hfe.1, hfe.two hqa⟩
    rcases hlen with ⟨hvm, rfl⟩ | ⟨z, hl⟩
    · rw [hvm]
      show Evs .reSync e [] e
      exact .done fun call => by rw [step_reSync]
    · cases hvm : v.map assignSyntax with
      | nil =>
        rw [hvm] at hl
        cases hl
        show Evs .reSync e [] e
        exact .done fun call => by rw [step_reSync]
      | cons b v' =>
        rw [hvm] at hl
        have g : NGoes .stay e (b :: v') (runs ds e) := .inl (bwd hl.run (by rw [← hvm]; exact hT v) e hfs)
        have := resync_run (q := .stay) trivial hl hfs (ts := []) (r := runs ds e) (by simpa using g)
        simpa using this
  have hun : unfit q (assignSyntax w) = true := unfit_of_cannot hsu hr0 ho hw
  have stray : ∀ e : Ers F, Fits q e → NGoes q e (assignSyntax w :: v.map assignSyntax) (runs (.err (assignSyntax w) (unexpected q (assignSyntax w)) :: ds) e) :=
    fun e hfe => stray_goes ho hun (typed_assign w) hfe (err_evs (unexpected_plain ho hun) hfe.1 (sync _ (fits_err hfe)))
  have go := bwd_to hr0 (hT u) rfl ho stray _ (fits_start (F := F) hb)
  obtain ⟨n, hn⟩ := goes_parses (typed_assign t) hb (by simp) go
  -- its actions
  have hadd : AddsErr (startAct (assignSyntax t) :: (as0 ++ .err (assignSyntax w) (unexpected q (assignSyntax w)) :: ds))
      (startAct (assignSyntax t) :: (as0 ++ ds)) [assignSyntax w] := by
    rw [← List.cons_append, ← List.cons_append]
    refine adds_cut (unexpected_plain ho hun) ⟨rfl, [], by simp, ?_, rfl⟩ ?_
    · rw [show List.map _ (List.zip [] []) = [] from rfl, List.filter_eq_nil_iff]
      intro a ha
      rw [hdsErr a ha]; decide
    · intro a ha
      rcases List.mem_cons.1 ha with rfl | ha
      · unfold startAct; split <;> rfl
      · exact hr0.run.noErr a ha
  have hclean := hs.clean
  obtain ⟨g1, -, ns, g2, g3, g4⟩ := adds_runs (F := F) hadd (by
    intro a ha
    apply hclean
    simp only [List.mem_cons, List.mem_append] at ha ⊢
    rcases ha with h | h | h
    · exact .inl h
    · exact .inr (.inl (.inl h))
    · exact .inr (.inr h)) Ers.new
  cases ns with
  | nil => cases g3
  | cons m ns =>
  cases ns with
  | cons _ _ => cases g3
  | nil =>
  have hne : (Ers.new : Ers F).recs ≠ [] := by intro h; cases h
  have hp : parseF15 n (Ers.new : Ers F) ⟨t :: u ++ w :: v, 0⟩ =
      .ok (false, finErs (post (assignSyntax t) (runs (startAct (assignSyntax t) :: (as0 ++ .err (assignSyntax w) (unexpected q (assignSyntax w)) :: ds)) Ers.new))) := by
    rw [parse_eq]
    show parseL n Ers.new ((t :: u ++ w :: v).map assignSyntax) = _
    rw [List.cons_append, List.map_cons, List.map_append, List.map_cons]
    unfold parseL
    dsimp only
    rw [hn]
    dsimp only
    rw [finish_eq _ (post_ne _ _ (runs_ne _ _ hne))]
    congr 2
    rw [decide_eq_false_iff_not, post_errs, g4]
    simp
  have hne' : (Ers.new : Ers F).elements ≠ [] := by simp [Ers.elements, new_ne]
  have hE : (runs (startAct (assignSyntax t) :: as0) (Ers.new : Ers F)).recs.length = eu.elements.length - 1 := by
    rw [hfu, gap_elements, List.length_append, List.length_reverse, last_length]; rfl
  have hfits := fits_end hr0 (hT u) rfl _ (fits_start (F := F) hb)
  have htwo : 2 ≤ (runs (startAct (assignSyntax t) :: as0) (Ers.new : Ers F)).recs.length := by
    rw [runs_cons]; exact hfits.two hqa
  have hrunsApp : ∀ A B : List Act, (runs (startAct (assignSyntax t) :: (A ++ B)) (Ers.new : Ers F)).recs =
      recsAll B (runs (startAct (assignSyntax t) :: A) (Ers.new : Ers F)).recs := by
    intro A B
    rw [runs_recsAll, runs_recsAll, ← List.cons_append]
    unfold recsAll; rw [List.foldl_append]
  have htwoX : 2 ≤ (runs (startAct (assignSyntax t) :: (as0 ++ xs)) (Ers.new : Ers F)).recs.length := by
    rw [hrunsApp]
    obtain ⟨S, hS, -⟩ := span_all xs (runs (startAct (assignSyntax t) :: as0) (Ers.new : Ers F)).recs
    have := congrArg List.length hS
    simp only [List.length_map, List.length_append] at this
    omega
  have hEx : (runs (startAct (assignSyntax t) :: (as0 ++ xs)) (Ers.new : Ers F)).recs.length = ex.elements.length - 1 := by
    rw [hfx, gap_elements, List.length_append, List.length_reverse, last_length]; rfl
  have hskip := lost_elements (assignSyntax t) (x := x) (xs := xs) (ds := ds)
    (e := runs (startAct (assignSyntax t) :: as0) (Ers.new : Ers F)) (ex := runs (startAct (assignSyntax t) :: (as0 ++ xs)) (Ers.new : Ers F))
    (e1 := runs (startAct (assignSyntax t) :: (as0 ++ xs ++ ds)) (Ers.new : Ers F))
    (e2 := runs (startAct (assignSyntax t) :: (as0 ++ .err (assignSyntax w) (unexpected q (assignSyntax w)) :: ds)) (Ers.new : Ers F))
    hmx htwo (head_rules htwo (hfu ▸ hi)) (head_rules htwoX (hfx ▸ hix)) hmk (hrunsApp _ _) (hrunsApp _ _) (by rw [g1, hrunsApp]) (by
      intro a ha
      obtain ⟨b, hb, he⟩ := List.mem_map.1 (run_toks hrest a ha)
      have hse : (assignSyntax b).start = b.start ∧ (assignSyntax b).stop = b.stop := by
        rw [assignSyntax_eq]; split <;> exact ⟨rfl, rfl⟩
      exact ⟨b, hb, by rw [← he, hse.1], by rw [← he, hse.2]⟩)
  refine ⟨finErs (post (assignSyntax t) (runs (startAct (assignSyntax t) :: (as0 ++ .err (assignSyntax w) (unexpected q (assignSyntax w)) :: ds)) Ers.new)),
    errRec (assignSyntax w) m, m, ?par, ?wo, ?err, errRec_is (g2 m (by simp))⟩
  case par =>
    rcases Nat.le_total n frames' with hle | hle
    · rw [c16_same hle _ _ (by rw [hp]; intro h; cases h), hp]
    · rw [← c16_same hle _ _ (c16_enough hne' ⟨t :: u ++ w :: v, 0⟩ hf), hp]
  case wo => rw [← hE, ← hEx]; exact hskip
  case err =>
    show (finErs (post _ _)).errs.reverse = _
    rw [show (finErs (post (assignSyntax t) (runs (startAct (assignSyntax t) :: (as0 ++ .err (assignSyntax w) (unexpected q (assignSyntax w)) :: ds)) (Ers.new : Ers F)))).errs = (post (assignSyntax t) (runs (startAct (assignSyntax t) :: (as0 ++ .err (assignSyntax w) (unexpected q (assignSyntax w)) :: ds)) (Ers.new : Ers F))).errs from rfl, post_errs, g4]
    rfl

/-! ### Examples -/

/-- A stretch with a change of speed and level, a section under VFR and the return to the speed and level before. -/
example : ∃ e' f : Ers Rat, ∃ r n,
    parseF15 100 Ers.new ⟨[exTok (py! "N0450F350"), exTok (py! "LNZ"), exTok (py! "DCT")] ++ [exTok (py! "PNT"), exTok (py! "/"), exTok (py! "N0400F330"), exTok (py! "VFR"), exTok (py! "ABOVE"), exTok (py! "IFR"), exTok (py! "ABC"), exTok (py! "/"), exTok (py! "N0450F350")] ++ [exTok (py! "46N050W"), exTok (py! "/"), exTok (py! "M082F370"), exTok (py! "47N050W")], 0⟩ = .ok (true, e') ∧
    parseF15 100 Ers.new ⟨[exTok (py! "N0450F350"), exTok (py! "LNZ"), exTok (py! "DCT")] ++ exTok (py! "P?Q") :: [exTok (py! "46N050W"), exTok (py! "/"), exTok (py! "M082F370"), exTok (py! "47N050W")], 0⟩ = .ok (false, f) ∧
    e'.elements.map (·.name) = [py! "ADEP", py! "LNZ", py! "DCT", py! "PNT", py! "VFR", py! "ABC", py! "46N050W", py! "47N050W", py! "ADES"] ∧
    AllSameButSpeedLevel (f.elements.drop 3) (e'.elements.drop 6) ∧ f.elements.length = 6 ∧ f.errors = [r] ∧
    ErrorIs (assignSyntax (exTok (py! "P?Q"))) n r := by
  have hacc : ((parseF15 100 (Ers.new : Ers Rat) ⟨[exTok (py! "N0450F350"), exTok (py! "LNZ"), exTok (py! "DCT")] ++ [exTok (py! "PNT"), exTok (py! "/"), exTok (py! "N0400F330"), exTok (py! "VFR"), exTok (py! "ABOVE"), exTok (py! "IFR"), exTok (py! "ABC"), exTok (py! "/"), exTok (py! "N0450F350")] ++ [exTok (py! "46N050W"), exTok (py! "/"), exTok (py! "M082F370"), exTok (py! "47N050W")], 0⟩).toOption.map fun x => (x.1, x.2.elements.map (·.name))) =
      some (true, [py! "ADEP", py! "LNZ", py! "DCT", py! "PNT", py! "VFR", py! "ABC", py! "46N050W", py! "47N050W", py! "ADES"]) := by decide +kernel
  have hbeg : ((parseF15 100 (Ers.new : Ers Rat) ⟨[exTok (py! "N0450F350"), exTok (py! "LNZ"), exTok (py! "DCT")], 0⟩).toOption.map fun x =>
      (x.1, x.2.elements.length, x.2.elements.getLast?.map (·.rules))) = some (true, 4, some (py! "IFR")) := by decide +kernel
  have hmid : ((parseF15 100 (Ers.new : Ers Rat) ⟨[exTok (py! "N0450F350"), exTok (py! "LNZ"), exTok (py! "DCT")] ++ [exTok (py! "PNT"), exTok (py! "/"), exTok (py! "N0400F330"), exTok (py! "VFR"), exTok (py! "ABOVE"), exTok (py! "IFR"), exTok (py! "ABC"), exTok (py! "/"), exTok (py! "N0450F350")], 0⟩).toOption.map fun x =>
      (x.1, x.2.elements.length, x.2.elements.getLast?.map (·.rules))) = some (true, 7, some (py! "IFR")) := by decide +kernel
  cases h : parseF15 100 (Ers.new : Ers Rat) ⟨[exTok (py! "N0450F350"), exTok (py! "LNZ"), exTok (py! "DCT")] ++ [exTok (py! "PNT"), exTok (py! "/"), exTok (py! "N0400F330"), exTok (py! "VFR"), exTok (py! "ABOVE"), exTok (py! "IFR"), exTok (py! "ABC"), exTok (py! "/"), exTok (py! "N0450F350")] ++ [exTok (py! "46N050W"), exTok (py! "/"), exTok (py! "M082F370"), exTok (py! "47N050W")], 0⟩ with
  | error => rw [h] at hacc; simp [Except.toOption] at hacc
  | ok y =>
  cases h2 : parseF15 100 (Ers.new : Ers Rat) ⟨[exTok (py! "N0450F350"), exTok (py! "LNZ"), exTok (py! "DCT")], 0⟩ with
  | error => rw [h2] at hbeg; simp [Except.toOption] at hbeg
  | ok y2 =>
  cases h3 : parseF15 100 (Ers.new : Ers Rat) ⟨[exTok (py! "N0450F350"), exTok (py! "LNZ"), exTok (py! "DCT")] ++ [exTok (py! "PNT"), exTok (py! "/"), exTok (py! "N0400F330"), exTok (py! "VFR"), exTok (py! "ABOVE"), exTok (py! "IFR"), exTok (py! "ABC"), exTok (py! "/"), exTok (py! "N0450F350")], 0⟩ with
  | error => rw [h3] at hmid; simp [Except.toOption] at hmid
  | ok y3 =>
  obtain ⟨b, e'⟩ := y
  obtain ⟨b2, eu⟩ := y2
  obtain ⟨b3, ex⟩ := y3
  rw [h] at hacc
  rw [h2] at hbeg
  rw [h3] at hmid
  simp only [Except.toOption, Option.map_some, Option.some.injEq, Prod.mk.injEq] at hacc hbeg hmid
  obtain ⟨rfl, hnames⟩ := hacc
  obtain ⟨rfl, hl, hi⟩ := hbeg
  obtain ⟨rfl, hlx, hix⟩ := hmid
  obtain ⟨f, r, n, k1, k2, k4, k5⟩ := c93 (frames' := 100) (w := exTok (py! "P?Q")) h h2 hi (by decide +kernel) h3 hix (by decide +kernel)
    (by decide) (by intro t ht; cases ht; decide +kernel) (by intro t ht; cases ht; decide +kernel) (.inl (by unfold Stray; decide +kernel)) (by decide)
  rw [hl, hlx] at k2
  have hl' : e'.elements.length = 9 := by have := congrArg List.length hnames; simpa using this
  refine ⟨e', f, r, n, rfl, k1, hnames, k2.behind, ?_, k4, k5⟩
  have h1 := k2.before.1
  have h2 := k2.behind.1
  simp only [List.length_take, List.length_drop, hl'] at h1 h2
  omega

/-- The point PNT behind DCT becomes another DCT, which cannot come there. -/
example : ∃ e' f : Ers Rat, ∃ r n,
    parseF15 100 Ers.new ⟨[exTok (py! "N0450F350"), exTok (py! "LNZ"), exTok (py! "DCT")] ++ [exTok (py! "PNT")] ++ [exTok (py! "UL8"), exTok (py! "ABC")], 0⟩ = .ok (true, e') ∧
    parseF15 100 Ers.new ⟨[exTok (py! "N0450F350"), exTok (py! "LNZ"), exTok (py! "DCT")] ++ exTok (py! "DCT") :: [exTok (py! "UL8"), exTok (py! "ABC")], 0⟩ = .ok (false, f) ∧
    Lost 3 4 [exTok (py! "PNT")] f.elements e'.elements ∧ f.errors = [r] ∧ ErrorIs (assignSyntax (exTok (py! "DCT"))) n r := by
  have hacc : ((parseF15 100 (Ers.new : Ers Rat) ⟨[exTok (py! "N0450F350"), exTok (py! "LNZ"), exTok (py! "DCT")] ++ [exTok (py! "PNT")] ++ [exTok (py! "UL8"), exTok (py! "ABC")], 0⟩).toOption.map (·.1)) = some true := by decide +kernel
  have hbeg : ((parseF15 100 (Ers.new : Ers Rat) ⟨[exTok (py! "N0450F350"), exTok (py! "LNZ"), exTok (py! "DCT")], 0⟩).toOption.map fun x =>
      (x.1, x.2.elements.length, x.2.elements.getLast?.map (·.rules))) = some (true, 4, some (py! "IFR")) := by decide +kernel
  have hmid : ((parseF15 100 (Ers.new : Ers Rat) ⟨[exTok (py! "N0450F350"), exTok (py! "LNZ"), exTok (py! "DCT")] ++ [exTok (py! "PNT")], 0⟩).toOption.map fun x =>
      (x.1, x.2.elements.length, x.2.elements.getLast?.map (·.rules))) = some (true, 5, some (py! "IFR")) := by decide +kernel
  cases h : parseF15 100 (Ers.new : Ers Rat) ⟨[exTok (py! "N0450F350"), exTok (py! "LNZ"), exTok (py! "DCT")] ++ [exTok (py! "PNT")] ++ [exTok (py! "UL8"), exTok (py! "ABC")], 0⟩ with
  | error => rw [h] at hacc; simp [Except.toOption] at hacc
  | ok y =>
  cases h2 : parseF15 100 (Ers.new : Ers Rat) ⟨[exTok (py! "N0450F350"), exTok (py! "LNZ"), exTok (py! "DCT")], 0⟩ with
  | error => rw [h2] at hbeg; simp [Except.toOption] at hbeg
  | ok y2 =>
  cases h3 : parseF15 100 (Ers.new : Ers Rat) ⟨[exTok (py! "N0450F350"), exTok (py! "LNZ"), exTok (py! "DCT")] ++ [exTok (py! "PNT")], 0⟩ with
  | error => rw [h3] at hmid; simp [Except.toOption] at hmid
  | ok y3 =>
  obtain ⟨b, e'⟩ := y
  obtain ⟨b2, eu⟩ := y2
  obtain ⟨b3, ex⟩ := y3
  rw [h] at hacc
  rw [h2] at hbeg
  rw [h3] at hmid
  simp only [Except.toOption, Option.map_some, Option.some.injEq, Prod.mk.injEq] at hacc hbeg hmid
  subst hacc
  obtain ⟨rfl, hl, hi⟩ := hbeg
  obtain ⟨rfl, hlx, hix⟩ := hmid
  have hc : ([exTok (py! "N0450F350"), exTok (py! "LNZ"), exTok (py! "DCT")] : List Token).getLast?.map (·.text) ≠ some (py! "C") := by decide +kernel
  obtain ⟨f, r, n, k1, k2, k4, k5⟩ := c93 (frames' := 100) (w := exTok (py! "DCT")) h h2 hi hc h3 hix (by decide +kernel)
    (by decide) (by intro t ht; cases ht; decide +kernel) (by intro t ht; cases ht; decide +kernel)
    (.inr ⟨(c86_which (F := Rat) (.inr ⟨⟨eu, h2, hi⟩, hc⟩) rfl).1 (by decide +kernel) (by decide +kernel), by decide +kernel, by decide +kernel⟩) (by decide)
  rw [hl, hlx] at k2
  exact ⟨e', f, r, n, rfl, k1, k2, k4, k5⟩

/-- If the stretch ends at another speed or level, the elements behind keep the speed and level before it, until they are given anew. -/
example : check (py! "N0450F350 LNZ PNT/N0400F330 46N050W DCT 47N050W/N0400F310 ABC") (fun b e => b && (e.elements.map (·.altitude) ==
      [py! "F350", py! "F350", py! "F330", py! "F330", py! "F330", py! "F310", py! "F310", []])) = true ∧
    check (py! "N0450F350 LNZ P?Q 46N050W DCT 47N050W/N0400F310 ABC") (fun b e => !b && (e.elements.map (·.altitude) ==
      [py! "F350", py! "F350", py! "F350", py! "F350", py! "F310", py! "F310", []])) = true := by
  decide +kernel

end F15
