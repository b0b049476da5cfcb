import Verif.Lemmas.Skip
import Verif.Spec.Gap
import Verif.Props.Recover
import Verif.Props.Insert
/-!
# C92: a garbled part of the route costs its elements and one error
-/

namespace F15
open Spec

set_option linter.unusedSectionVars false
variable {F : Type} [PyFloat F]

/-- Phases behind a point or a connector. -/
def Behind : Phase → Prop
  | .point _ | .dct | .route => True
  | _ => False

/-- Reading points and connectors. -/
theorem run_simple {c : Prop} {x v : List Token} {q : Phase} {cs : List Act} {z : Option Phase} (hx : ∀ t ∈ x, t.base = .POINT ∨ t.base = .DCT ∨ t.base = .ROUTE)
    (hq : Behind q ∨ (Open (some q) ∧ x ≠ [])) (h : RunToG c q (x ++ v) cs z) :
    ∃ xs ds q', cs = xs ++ ds ∧ (∀ a ∈ xs, a.Simple) ∧ xs.map (·.tok) = x ∧ RunToG c q' v ds z ∧ Behind q' := by
  induction x generalizing q cs with
  | nil =>
    rcases hq with hq | hq
    · exact ⟨[], cs, q, rfl, by simp, rfl, h, hq⟩
    · exact absurd rfl hq.2
  | cons t x ih =>
    have ht := hx t (by simp)
    have hx' : ∀ t ∈ x, t.base = .POINT ∨ t.base = .DCT ∨ t.base = .ROUTE := fun y hy => hx y (by simp [hy])
    have fin : ∀ {q' : Phase} {a : Act} {as : List Act}, Behind q' → a.Simple → a.tok = t → RunToG c q' (x ++ v) as z →
        ∃ xs ds q', a :: as = xs ++ ds ∧ (∀ a ∈ xs, a.Simple) ∧ xs.map (·.tok) = t :: x ∧ RunToG c q' v ds z ∧ Behind q' := by
      intro q' a as hb hs ha h
      obtain ⟨xs, ds, q'', rfl, h2, h3, h4, h5⟩ := ih hx' (.inl hb) h
      refine ⟨a :: xs, ds, q'', rfl, ?_, by simp [h3, ha], h4, h5⟩
      intro b hb
      rcases List.mem_cons.1 hb with rfl | hb
      · exact hs
      · exact h2 b hb
    have no : ∀ {b : BaseType}, t.base = b → b ≠ .POINT → b ≠ .DCT → b ≠ .ROUTE → False := by
      intro b h h1 h2 h3
      rcases ht with h' | h' | h' <;> rw [h'] at h
      · exact h1 h.symm
      · exact h2 h.symm
      · exact h3 h.symm
    have noText : ∀ r, q ≠ .text r := by
      rintro r rfl
      rcases hq with hq | hq
      · exact hq
      · exact hq.1
    rw [List.cons_append] at h
    generalize hq' : q = p at h
    generalize hw : x ++ v = y at h
    cases h with
    | dct _ hb h => subst hw; exact fin (q' := .dct) trivial (.plain t) rfl h
    | route _ hb h => subst hw; exact fin (q' := .route) trivial (.route t) rfl h
    | point _ hb _ h => subst hw; exact fin (q' := .point (isFixed t)) trivial (.point t) rfl h
    | truncate _ hb | climb _ hb | cruise _ hb | stay _ hb | break_ _ hb | level hb | vfr hb =>
      exact (no hb (by decide) (by decide) (by decide)).elim
    | star _ hb => rcases hb with hb | ⟨hb, _⟩ <;> exact (no hb (by decide) (by decide) (by decide)).elim
    | sid hb => rcases hb with hb | hb <;> exact (no hb (by decide) (by decide) (by decide)).elim
    | word | resume | resumeIfr | resumeVfr => exact absurd hq' (noText _)

/-- What comes behind points and connectors, but for remarks, can be read after a stay. -/
theorem run_lenient {c : Prop} {v : List Token} {q : Phase} {ds : List Act} {z : Option Phase} (hq : Behind q) (h : RunToG c q v ds z)
    (hv : ∀ t, v.head? = some t → t.base ≠ .SLASH ∧ t.base ≠ .STAY) :
    RunToG c (if v = [] then q else .stay) v ds z ∧ (ds = [] ∨ ∃ a as, ds = a :: as ∧ a.Makes) := by
  have al : ∀ t : Token, q.allows t = true → t.base ≠ .STAY → Phase.allows .stay t = true := by
    intro t h1 h2
    cases q <;> simp only [Behind] at hq
    all_goals
      simp only [Phase.allows] at h1 ⊢
      cases hb : t.base <;> simp_all
  cases h with
  | here => exact ⟨.here _, .inl rfl⟩
  | truncate h1 hb => exact ⟨by rw [if_neg (by simp)]; exact .truncate (al _ h1 (by simp [hb])) hb, .inl rfl⟩
  | star h1 hb =>
    refine ⟨?_, .inr ⟨_, _, rfl, .star _⟩⟩
    rw [if_neg (by simp)]
    exact .star (al _ h1 (by rcases hb with hb | ⟨hb, _⟩ <;> simp [hb])) (hb.imp id fun h => ⟨h.1, by simp⟩)
  | dct h1 hb h => exact ⟨by rw [if_neg (by simp)]; exact .dct (al _ h1 (by simp [hb])) hb h, .inr ⟨_, _, rfl, .plain _⟩⟩
  | route h1 hb h => exact ⟨by rw [if_neg (by simp)]; exact .route (al _ h1 (by simp [hb])) hb h, .inr ⟨_, _, rfl, .route _⟩⟩
  | point h1 hb hn h => exact ⟨by rw [if_neg (by simp)]; exact .point (al _ h1 (by simp [hb])) hb hn h, .inr ⟨_, _, rfl, .point _⟩⟩
  | climb h1 hb h => exact ⟨by rw [if_neg (by simp)]; exact .climb (al _ h1 (by simp [hb])) hb h, .inr ⟨_, _, rfl, .plain _⟩⟩
  | cruise h1 hb hs hp hs' hl h => exact ⟨by rw [if_neg (by simp)]; exact .cruise (al _ h1 (by simp [hb])) hb hs hp hs' hl h, .inr ⟨_, _, rfl, .ccPoint _⟩⟩
  | break_ h1 hb h => exact ⟨by rw [if_neg (by simp)]; exact .break_ (al _ h1 (by simp [hb])) hb h, .inr ⟨_, _, rfl, .brk _⟩⟩
  | stay h1 hb => exact absurd hb (hv _ rfl).2
  | level hb | vfr hb => exact absurd hb (hv _ rfl).1
  | sid | word | resume | resumeIfr | resumeVfr => exact hq.elim

theorem back_adep {c : Prop} {q : Phase} {u : List Token} {as : List Act} {z : Option Phase} (h : RunToG c q u as z) (hz : z = some .adep) :
    u = [] ∧ q = .adep := by
  induction h with
  | here => cases hz; exact ⟨rfl, rfl⟩
  | truncate | star => cases hz
  | _ => rename_i ih; cases (ih hz).2

/-! ### The elements -/

theorem courseless_tags {l l' : List (Record F)} (h : l.map courseless = l'.map courseless) : l.map tag = l'.map tag := by
  have e : ∀ l : List (Record F), l.map tag = (l.map courseless).map tag := fun l => by rw [List.map_map]; rfl
  rw [e l, e l', h]

theorem courseless_rules {l l' : List (Record F)} (h : l.map courseless = l'.map courseless) : l.map (·.rules) = l'.map (·.rules) := by
  have e : ∀ l : List (Record F), l.map (·.rules) = (l.map courseless).map (·.rules) := fun l => by rw [List.map_map]; rfl
  rw [e l, e l', h]

theorem courseless_same {l l' : List (Record F)} (h : l.map courseless = l'.map courseless) : AllSameButCourse l l' := by
  refine ⟨by simpa using congrArg List.length h, fun i r r' h1 h2 => ?_⟩
  have h3 : (l.map courseless)[i]? = some (courseless r) := by rw [List.getElem?_map, h1]; rfl
  have h4 : (l'.map courseless)[i]? = some (courseless r') := by rw [List.getElem?_map, h2]; rfl
  rw [h, h4] at h3
  have h5 : courseless r' = courseless r := Option.some.inj h3
  unfold SameButCourse
  have e : ∀ x : Record F, x = { courseless x with bearing := x.bearing, distance := x.distance } := fun x => rfl
  rw [e r', h5]
  rfl

/-- The change of the departure aerodrome at the end. -/
def last (t : Token) (l : List (Record F)) : List (Record F) := if t.base = .SPEED_VFR then mapOldest toVfr l else l

theorem last_append (t : Token) (A : List (Record F)) {B : List (Record F)} (hB : B ≠ []) : last t (A ++ B) = A ++ last t B := by
  unfold last
  split
  · induction A with
    | nil => rfl
    | cons a A ih => rw [List.cons_append, mapOldest_consN _ _ (by simp [hB]), ih]; rfl
  · rfl

theorem last_courseless (t : Token) (l : List (Record F)) : (last t l).map courseless = last t (l.map courseless) := by
  unfold last
  split
  · unfold mapOldest
    rw [List.map_reverse, ← List.map_reverse (l := l)]
    cases l.reverse <;> rfl
  · rfl

theorem last_length (t : Token) (l : List (Record F)) : (last t l).length = l.length := by
  unfold last
  split
  · unfold mapOldest
    rw [List.length_reverse, ← List.length_reverse (as := l)]
    cases l.reverse <;> rfl
  · rfl

theorem last_head (t : Token) {l : List (Record F)} (h : 2 ≤ l.length) : (last t l).head? = l.head? := by
  match l, h with
  | a :: b :: l, _ =>
    rw [show a :: b :: l = [a] ++ (b :: l) from rfl, last_append t _ (by simp)]; rfl

theorem gap_elements (t : Token) (e : Ers F) : (finErs (post t e)).elements =
    (last t e.recs).reverse ++ [adesRec (((last t e.recs).head?.map (·.rules)).getD [])] := by
  unfold finErs post last Ers.elements
  split <;> simp

/-- Without the elements `N`. -/
theorem without_of (t : Token) {E E1 E2 X N : List (Record F)} {x : List Token} (two : 2 ≤ E.length)
    (h1 : E1.map courseless = E.map courseless) (h2 : E2.map courseless = E.map courseless)
    (hN : N.reverse.map tag = x.map tokTag) (hNr : ∀ r ∈ N, r.rules = py! "IFR") (hr : X = [] → (N ++ E1).head?.map (·.rules) = E2.head?.map (·.rules))
    {e1 e2 : Ers F} (k1 : e1.recs = X ++ (N ++ E1)) (k2 : e2.recs = X ++ E2) :
    Without E.length x (finErs (post t e2)).elements (finErs (post t e1)).elements ∧
      ((finErs (post t e2)).elements.take E.length).map (·.rules) = (last t E).reverse.map (·.rules) := by
  have l1 : E1.length = E.length := by simpa using congrArg List.length h1
  have l2 : E2.length = E.length := by simpa using congrArg List.length h2
  have n1 : E1 ≠ [] := by intro h; rw [h] at l1; simp at l1; omega
  have n2 : E2 ≠ [] := by intro h; rw [h] at l2; simp at l2; omega
  have hx : x.length = N.length := by have := congrArg List.length hN; simpa using this.symm
  have hades : ((last t e1.recs).head?.map (·.rules)).getD [] = ((last t e2.recs).head?.map (·.rules)).getD [] := by
    rw [last_head t (by rw [k1]; simp; omega), last_head t (by rw [k2]; simp; omega), k1, k2]
    cases X with
    | nil => simp only [List.nil_append]; rw [hr rfl]
    | cons => rfl
  rw [gap_elements, gap_elements, hades, k1, k2]
  generalize [adesRec (F := F) _] = ades
  rw [last_append t X (B := N ++ E1) (by simp [n1]), last_append t N n1, last_append t X n2]
  simp only [List.reverse_append, List.append_assoc]
  have r1 : (last t E1).reverse.length = E.length := by rw [List.length_reverse, last_length, l1]
  have r2 : (last t E2).reverse.length = E.length := by rw [List.length_reverse, last_length, l2]
  refine ⟨⟨?_, ?_, ?_, ?_⟩, by
    rw [List.take_left' r2, List.map_reverse, List.map_reverse]
    congr 1
    apply courseless_rules
    rw [last_courseless, last_courseless, h2]⟩
  · rw [List.take_left' r1, List.take_left' r2]
    apply courseless_same
    rw [List.map_reverse, List.map_reverse, last_courseless, last_courseless, h1, h2]
  · rw [List.drop_left' r1, hx, List.take_left' (by simp)]
    exact hN
  · rw [List.drop_left' r1, hx, List.take_left' (by simp)]
    intro r hr
    exact hNr r (List.mem_reverse.1 hr)
  · rw [List.drop_left' r2, ← List.drop_drop, List.drop_left' r1, hx, List.drop_left' (by simp)]

/-- The elements with and without those of points and connectors. -/
theorem skip_elements (t : Token) {e e1 e2 : Ers F} {xs ds : List Act} (hx : ∀ a ∈ xs, a.Simple) (two : 2 ≤ e.recs.length)
    (hr : e.recs.head?.map (·.rules) = some (py! "IFR")) (hd : ds = [] ∨ ∃ a as, ds = a :: as ∧ a.Makes)
    (k1 : e1.recs = recsAll (xs ++ ds) e.recs) (k2 : e2.recs = recsAll ds e.recs) {x : List Token} (hxt : xs.map (tokTag ·.tok) = x.map tokTag) :
    Without e.recs.length x (finErs (post t e2)).elements (finErs (post t e1)).elements ∧
      py! "IFR" ∈ ((finErs (post t e2)).elements.take e.recs.length).map (·.rules) := by
  have hin : py! "IFR" ∈ (last t e.recs).reverse.map (·.rules) := by
    have := last_head t two
    cases hl : last t e.recs with
    | nil => rw [hl] at this; rw [← this] at hr; cases hr
    | cons a l =>
      rw [hl] at this
      rw [← this] at hr
      have hr : a.rules = py! "IFR" := by simpa using hr
      exact List.mem_map.2 ⟨a, by simp, hr⟩
  suffices h : Without e.recs.length x (finErs (post t e2)).elements (finErs (post t e1)).elements ∧
      ((finErs (post t e2)).elements.take e.recs.length).map (·.rules) = (last t e.recs).reverse.map (·.rules) from ⟨h.1, by rw [h.2]; exact hin⟩
  clear hin
  cases hE : e.recs with
  | nil => rw [hE] at two; simp at two
  | cons y Y =>
    rw [hE] at hr k1 k2 two
    have hr : y.rules = py! "IFR" := by simpa using hr
    obtain ⟨N, T, a1, a2, a3, a4, r, R, a5, a6⟩ := simple_all xs hx hr Y
    have happ : recsAll (xs ++ ds) (y :: Y) = recsAll ds (recsAll xs (y :: Y)) := by unfold recsAll; rw [List.foldl_append]
    rw [happ, a1] at k1
    rcases hd with rfl | ⟨a, as, rfl, hm⟩
    · refine without_of t two a2 rfl (a3.trans hxt) a4 (fun _ => ?_) (X := []) k1 k2
      rw [a5]
      show some r.rules = some y.rules
      rw [a6.2.2.2.2]
    · rw [a5] at k1
      obtain ⟨X, Y1, Y2, b1, b2, b3, b4, b5⟩ := same_made hm as a6 R Y
      rw [b2] at k1
      rw [b3] at k2
      rw [← a5, List.map_append] at b4
      obtain ⟨N1, E1, rfl, c1, c2⟩ := List.map_eq_append_iff.1 b4
      refine without_of t two (c2.trans a2) b5 ?_ (by
        intro r hr
        have h1 : r.rules ∈ N1.map (·.rules) := List.mem_map_of_mem hr
        rw [courseless_rules c1] at h1
        obtain ⟨q, hq, he⟩ := List.mem_map.1 h1
        rw [← he]; exact a4 q hq) (fun h => absurd h b1) k1 k2
      rw [List.map_reverse, courseless_tags c1, ← List.map_reverse, a3, hxt]

/-- The end of a parse. -/
theorem goes_parses {t : Token} {rest : List Token} {A : List Act} (hT : Typed t) (hb : t.base = .SPEED_VFR ∨ t.base = .SPEED_ALTITUDE)
    (hnr : rest ≠ []) (hg : NGoes (startPhase t) ((startAct t).run (Ers.new : Ers F)) rest (runs A ((startAct t).run Ers.new))) :
    ∃ n, runL n (Ers.new : Ers F) t rest = .ok (post t (runs (startAct t :: A) Ers.new)) := by
  have hne : (Ers.new : Ers F).recs ≠ [] := by intro h; cases h
  have hg := ngoes hg (by unfold startPhase; split <;> simp)
  unfold startPhase startAct at hg
  unfold startAct
  rcases hb with hb | hb
  · rw [if_pos hb, if_pos hb] at hg
    rw [if_pos hb]
    obtain ⟨n, hn⟩ := b_vfr hT hb hne hg
    refine ⟨n, ?_⟩
    unfold runL
    rw [hb]
    dsimp only
    rw [hn n (Nat.le_refl _)]
    dsimp only
    rw [setFirst_eq _ (runs_ne _ _ (Act.run_ne _ _ hne))]
    unfold post
    rw [if_pos hb]; rfl
  · have hb' : ¬ t.base = .SPEED_VFR := by rw [hb]; decide
    rw [if_neg hb', if_neg hb'] at hg
    rw [if_neg hb']
    obtain ⟨n, hn⟩ := b_level hT hb hne false (by rw [if_pos (show (Ers.new : Ers F).recs.length = 1 from rfl)]; exact hg)
    refine ⟨n, ?_⟩
    unfold runL
    rw [hb]
    dsimp only
    rw [hn n (Nat.le_refl _)]
    dsimp only
    rw [if_neg hnr]
    unfold post
    rw [if_neg hb']; rfl

/-- Elements under IFR behind an element under IFR make no difference to the derived rules. -/
theorem without_derived {n : Nat} {x : List Token} {l l' : List (Record F)} (h : Without n x l l')
    (hin : py! "IFR" ∈ (l.take n).map (·.rules)) : derivedOf (l.map (·.rules)) = derivedOf (l'.map (·.rules)) := by
  have e1 : l.map (·.rules) = (l.take n).map (·.rules) ++ (l'.drop (n + x.length)).map (·.rules) := by
    rw [← h.behind, ← List.map_append, List.take_append_drop]
  have e2 : (l.take n).map (·.rules) = (l'.take n).map (·.rules) := by
    obtain ⟨h1, h2⟩ := h.before
    apply List.ext_getElem?
    intro i
    rw [List.getElem?_map, List.getElem?_map]
    cases h3 : (l.take n)[i]? with
    | none => rw [List.getElem?_eq_none (by have := List.getElem?_eq_none_iff.1 h3; omega)]
    | some y =>
      have hi := (List.getElem?_eq_some_iff.1 h3).1
      have h4 := List.getElem?_eq_getElem (l := l'.take n) (i := i) (by omega)
      rw [h4]
      have := h2 i _ _ h3 h4
      simp only [Option.map_some, Option.some.injEq]
      rw [this]
  have e3 : l'.map (·.rules) = (l'.take n).map (·.rules) ++ (((l'.drop n).take x.length).map (·.rules) ++ (l'.drop (n + x.length)).map (·.rules)) := by
    rw [← List.map_append, ← List.drop_drop, List.take_append_drop, ← List.map_append, List.take_append_drop]
  have hm : ∀ r ∈ ((l'.drop n).take x.length).map (·.rules), r = py! "IFR" := by
    intro r hr
    obtain ⟨a, ha, rfl⟩ := List.mem_map.1 hr
    exact h.rules a ha
  rw [e1, e3, ← e2]
  generalize (l.take n).map (·.rules) = a at *
  generalize ((l'.drop n).take x.length).map (·.rules) = m at *
  generalize (l'.drop (n + x.length)).map (·.rules) = b at *
  cases a with
  | nil => cases hin
  | cons z a =>
    unfold derivedOf
    simp only [List.cons_append, List.head?_cons]
    have i1 : py! "IFR" ∈ z :: (a ++ b) := by rw [← List.cons_append]; exact List.mem_append_left _ hin
    have i2 : py! "IFR" ∈ z :: (a ++ (m ++ b)) := by rw [← List.cons_append]; exact List.mem_append_left _ hin
    have i3 : py! "VFR" ∈ z :: (a ++ b) ↔ py! "VFR" ∈ z :: (a ++ (m ++ b)) := by
      have : py! "VFR" ∉ m := fun h => absurd (hm _ h) (by decide)
      simp [this]
    simp only [i1, i2, i3]

/-- **C92** Take an accepted field 15 `u x v`, where `x` are points and connectors without remarks and `u` is an accepted field 15 that
ends between two items, and garble `x` into one word `w` that can start no item: the field 15 is refused with exactly one error, about `w`, and
its elements are those of the correct field 15 without those of `x`. -/
theorem c92 {frames frames' frames'' : Nat} {u x v : List Token} {w : Token} {e' eu : Ers F}
    (h : parseF15 frames (Ers.new : Ers F) ⟨u ++ x ++ v, 0⟩ = .ok (true, e'))
    (hu : parseF15 frames'' (Ers.new : Ers F) ⟨u, 0⟩ = .ok (true, eu)) (hi : eu.elements.getLast?.map (·.rules) = some (py! "IFR"))
    (hc : u.getLast?.map (·.text) ≠ some (py! "C")) (hx : PointsAndConnectors x) (hx0 : x ≠ []) (hv : NoRemark v)
    (hw : Stray w) (hf : 4 * (u ++ w :: v).length ≤ frames') :
    ∃ f r n, parseF15 frames' (Ers.new : Ers F) ⟨u ++ w :: v, 0⟩ = .ok (false, f) ∧
      Without (eu.elements.length - 1) x f.elements e'.elements ∧ f.derived = e'.derived ∧ f.errors = [r] ∧ ErrorIs (assignSyntax w) n r := by
  cases u with
  | nil => rw [parse_eq] at hu; cases hu
  | cons t u =>
  have hbt : Between F frames'' (t :: u) := .inr ⟨⟨eu, hu, hi⟩, hc⟩
  have hT : ∀ l : List Token, ∀ x ∈ l.map assignSyntax, Typed x := fun l x hx => typed_map hx
  -- the beginning
  obtain ⟨as0, y, hr0, ho⟩ := between_run hbt
  rw [parse_eq] at hu
  obtain ⟨t', rest, asu, heq, hsu, hfu⟩ := accepted (F := F) rfl rfl (hT _) hu
  obtain ⟨rfl, rfl⟩ : assignSyntax t = t' ∧ u.map assignSyntax = rest := by simpa using heq
  obtain ⟨bs, rfl, hbs, -, hb⟩ := sentRun_start hsu
  obtain ⟨yu, hbs⟩ := hbs.to
  obtain ⟨cs0, rfl, hrest⟩ := hr0.extend ho hbs (v := []) (by simp)
  obtain rfl : cs0 = [] := by
    cases y with
    | none => exact hrest.2.1
    | some p => cases hrest; rfl
  rw [List.append_nil] at hfu hsu
  -- the whole
  have h0 := h
  rw [parse_eq] at h
  obtain ⟨t', rest, as, heq, hs, rfl⟩ := accepted (F := F) rfl rfl (hT _) h
  obtain ⟨rfl, rfl⟩ : assignSyntax t = t' ∧ (u ++ x ++ v).map assignSyntax = rest := by simpa using heq
  obtain ⟨bs2, rfl, hbs2, -, -⟩ := sentRun_start hs
  obtain ⟨z, hbs2⟩ := hbs2.to
  obtain ⟨cs, rfl, hrest⟩ := hr0.extend ho hbs2 (v := x.map assignSyntax ++ v.map assignSyntax) (by simp)
  cases y with
  | none => exact absurd (by have := hrest.1; simp at this; exact this.1) hx0
  | some q =>
  have hrest : RunToG True q (x.map assignSyntax ++ v.map assignSyntax) cs z := hrest
  obtain ⟨xs, ds, q', rfl, hxs, hxt, hds, hq'⟩ := run_simple (by
    intro a ha
    obtain ⟨b, hb, rfl⟩ := List.mem_map.1 ha
    exact hx b hb) (.inr ⟨ho, by simpa using hx0⟩) hrest
  obtain ⟨hlen, hmk⟩ := run_lenient hq' hds (by
    intro a ha
    cases v with
    | nil => cases ha
    | cons b v => cases ha; exact hv b rfl)
  have hqa : q ≠ .adep := by
    rintro rfl
    obtain ⟨h1, h2⟩ := back_adep hr0 rfl
    have hsu : SentRun (assignSyntax t :: u.map assignSyntax) (startAct (assignSyntax t) :: as0) := hsu
    rw [h1] at hsu
    generalize startAct (assignSyntax t) :: as0 = A at hsu
    cases hsu with
    | ifr hb hl hne h => exact hne rfl
    | vfr hb h => unfold startPhase at h2; rw [if_pos hb] at h2; cases h2
  -- reading on after the error
  have sync : ∀ e : Ers F, Fits q e → Evs .reSync e (v.map assignSyntax) (runs ds e) := by
    intro e hfe
    have hfs : Fits .stay e := ⟨hfe.1, hfe.two hqa⟩
    cases hvm : v.map assignSyntax with
    | nil =>
      rw [hvm] at hds
      cases hds
      show Evs .reSync e [] e
      exact .done fun call => by rw [step_reSync]
    | cons b v' =>
      rw [hvm, if_neg (by simp)] at hlen
      have g : NGoes .stay e (b :: v') (runs ds e) := .inl (bwd hlen.run (by rw [← hvm]; exact hT v) e hfs)
      have := resync_run (q := .stay) trivial hlen hfs (ts := []) (r := runs ds e) (by simpa using g)
      simpa using this
  have hun : unfit q (assignSyntax w) = true := unfit_of_stray ho (strayBase_of hw)
  have stray : ∀ e : Ers F, Fits q e → NGoes q e (assignSyntax w :: v.map assignSyntax) (runs (.err (assignSyntax w) (unexpected q (assignSyntax w)) :: ds) e) :=
    fun e hfe => stray_goes ho hun (typed_assign w) hfe (err_evs (unexpected_plain ho hun) hfe.1 (sync _ (fits_err hfe)))
  have go := bwd_to hr0 (hT u) rfl ho stray _ (fits_start (F := F) hb)
  obtain ⟨n, hn⟩ := goes_parses (typed_assign t) hb (by simp) go
  -- its actions
  have hadd : AddsErr (startAct (assignSyntax t) :: (as0 ++ .err (assignSyntax w) (unexpected q (assignSyntax w)) :: ds))
      (startAct (assignSyntax t) :: (as0 ++ ds)) [assignSyntax w] := by
    rw [← List.cons_append, ← List.cons_append]
    refine adds_cut (unexpected_plain ho hun) ⟨rfl, [], by simp, ?_, rfl⟩ ?_
    · rw [show List.map _ (List.zip [] []) = [] from rfl, List.filter_eq_nil_iff]
      intro a ha
      rw [hds.run.noErr a ha]; decide
    · intro a ha
      rcases List.mem_cons.1 ha with rfl | ha
      · unfold startAct; split <;> rfl
      · exact hr0.run.noErr a ha
  have hclean := hs.clean
  obtain ⟨g1, -, ns, g2, g3, g4⟩ := adds_runs (F := F) hadd (by
    intro a ha
    apply hclean
    simp only [List.mem_cons, List.mem_append] at ha ⊢
    rcases ha with h | h | h
    · exact .inl h
    · exact .inr (.inl h)
    · exact .inr (.inr (.inr h))) Ers.new
  cases ns with
  | nil => cases g3
  | cons m ns =>
  cases ns with
  | cons _ _ => cases g3
  | nil =>
  have hne : (Ers.new : Ers F).recs ≠ [] := by intro h; cases h
  have hp : parseF15 n (Ers.new : Ers F) ⟨t :: u ++ w :: v, 0⟩ =
      .ok (false, finErs (post (assignSyntax t) (runs (startAct (assignSyntax t) :: (as0 ++ .err (assignSyntax w) (unexpected q (assignSyntax w)) :: ds)) Ers.new))) := by
    rw [parse_eq]
    show parseL n Ers.new ((t :: u ++ w :: v).map assignSyntax) = _
    rw [List.cons_append, List.map_cons, List.map_append, List.map_cons]
    unfold parseL
    dsimp only
    rw [hn]
    dsimp only
    rw [finish_eq _ (post_ne _ _ (runs_ne _ _ hne))]
    congr 2
    rw [decide_eq_false_iff_not, post_errs, g4]
    simp
  have hne' : (Ers.new : Ers F).elements ≠ [] := by simp [Ers.elements, new_ne]
  have hE : (runs (startAct (assignSyntax t) :: as0) (Ers.new : Ers F)).recs.length = eu.elements.length - 1 := by
    rw [hfu, gap_elements, List.length_append, List.length_reverse, last_length]; rfl
  have hfits := fits_end hr0 (hT u) rfl _ (fits_start (F := F) hb)
  have htwo : 2 ≤ (runs (startAct (assignSyntax t) :: as0) (Ers.new : Ers F)).recs.length := by
    rw [runs_cons]; exact hfits.two hqa
  have hskip : Without (runs (startAct (assignSyntax t) :: as0) (Ers.new : Ers F)).recs.length x
      (finErs (post (assignSyntax t) (runs (startAct (assignSyntax t) :: (as0 ++ .err (assignSyntax w) (unexpected q (assignSyntax w)) :: ds)) (Ers.new : Ers F)))).elements
      (finErs (post (assignSyntax t) (runs (startAct (assignSyntax t) :: (as0 ++ (xs ++ ds))) (Ers.new : Ers F)))).elements ∧
      py! "IFR" ∈ ((finErs (post (assignSyntax t) (runs (startAct (assignSyntax t) :: (as0 ++ .err (assignSyntax w) (unexpected q (assignSyntax w)) :: ds)) (Ers.new : Ers F)))).elements.take
        (runs (startAct (assignSyntax t) :: as0) (Ers.new : Ers F)).recs.length).map (·.rules) := by
    refine skip_elements (assignSyntax t) (xs := xs) (ds := ds) hxs htwo ?_ hmk ?_ ?_ ?_
    · rw [hfu, gap_elements, List.getLast?_append] at hi
      have hi : ((last (assignSyntax t) (runs (startAct (assignSyntax t) :: as0) (Ers.new : Ers F)).recs).head?.map (·.rules)).getD [] = py! "IFR" := by
        simpa [adesRec, Record.setRules] using hi
      rw [last_head _ htwo] at hi
      generalize (runs (startAct (assignSyntax t) :: as0) (Ers.new : Ers F)).recs = l at *
      cases l with
      | nil => simp at htwo
      | cons a l => simpa using hi
    · rw [runs_recsAll, runs_recsAll, ← List.cons_append]
      unfold recsAll; rw [List.foldl_append]
    · rw [g1, runs_recsAll, runs_recsAll, ← List.cons_append]
      unfold recsAll; rw [List.foldl_append]
    · have : xs.map (tokTag ·.tok) = (xs.map (·.tok)).map tokTag := by rw [List.map_map]; rfl
      rw [this, hxt, List.map_map]
      apply List.map_congr_left
      intro a _
      have hse : (assignSyntax a).start = a.start ∧ (assignSyntax a).stop = a.stop := by
        rw [assignSyntax_eq]; split <;> exact ⟨rfl, rfl⟩
      simp [tokTag, assign_text, hse.1, hse.2]
  refine ⟨finErs (post (assignSyntax t) (runs (startAct (assignSyntax t) :: (as0 ++ .err (assignSyntax w) (unexpected q (assignSyntax w)) :: ds)) Ers.new)),
    errRec (assignSyntax w) m, m, ?par, ?wo, ?der, ?err, errRec_is (g2 m (by simp))⟩
  case par =>
    rcases Nat.le_total n frames' with hle | hle
    · rw [c16_same hle _ _ (by rw [hp]; intro h; cases h), hp]
    · rw [← c16_same hle _ _ (c16_enough hne' ⟨t :: u ++ w :: v, 0⟩ hf), hp]
  case wo => rw [← hE]; exact hskip.1
  case der =>
    have hnew : (Ers.new : Ers F).elements ≠ [] := hne'
    rw [(c14 hnew (by simp) hp).1, (c14 hnew (by simp) h0).1]
    exact without_derived hskip.1 hskip.2
  case err =>
    show (finErs (post _ _)).errs.reverse = _
    rw [show (finErs (post (assignSyntax t) (runs (startAct (assignSyntax t) :: (as0 ++ .err (assignSyntax w) (unexpected q (assignSyntax w)) :: ds)) (Ers.new : Ers F)))).errs = (post (assignSyntax t) (runs (startAct (assignSyntax t) :: (as0 ++ .err (assignSyntax w) (unexpected q (assignSyntax w)) :: ds)) (Ers.new : Ers F))).errs from rfl, post_errs, g4]
    rfl

/-! ### Examples -/

/-- A mistyped point: `LNZ UL856 PNT? UL8 ABC`. Leaving the point out would not be accepted. -/
example : ∃ e' f : Ers Rat, ∃ r n,
    parseF15 100 Ers.new ⟨[exTok (py! "N0450F350"), exTok (py! "LNZ"), exTok (py! "UL856")] ++ [exTok (py! "PNT")] ++
      [exTok (py! "UL8"), exTok (py! "ABC"), exTok (py! "/"), exTok (py! "N0400F330")], 0⟩ = .ok (true, e') ∧
    parseF15 100 Ers.new ⟨[exTok (py! "N0450F350"), exTok (py! "LNZ"), exTok (py! "UL856")] ++ exTok (py! "PNT?") ::
      [exTok (py! "UL8"), exTok (py! "ABC"), exTok (py! "/"), exTok (py! "N0400F330")], 0⟩ = .ok (false, f) ∧
    e'.elements.map (·.name) = [py! "ADEP", py! "LNZ", py! "UL856", py! "PNT", py! "UL8", py! "ABC", py! "ADES"] ∧
    f.elements.length = 6 ∧ f.elements.drop 3 = e'.elements.drop 4 ∧ f.errors = [r] ∧ ErrorIs (assignSyntax (exTok (py! "PNT?"))) n r := by
  have hacc : ((parseF15 100 (Ers.new : Ers Rat) ⟨[exTok (py! "N0450F350"), exTok (py! "LNZ"), exTok (py! "UL856")] ++ [exTok (py! "PNT")] ++
      [exTok (py! "UL8"), exTok (py! "ABC"), exTok (py! "/"), exTok (py! "N0400F330")], 0⟩).toOption.map fun x => (x.1, x.2.elements.map (·.name))) =
      some (true, [py! "ADEP", py! "LNZ", py! "UL856", py! "PNT", py! "UL8", py! "ABC", py! "ADES"]) := by decide +kernel
  have hbeg : ((parseF15 100 (Ers.new : Ers Rat) ⟨[exTok (py! "N0450F350"), exTok (py! "LNZ"), exTok (py! "UL856")], 0⟩).toOption.map fun x =>
      (x.1, x.2.elements.length, x.2.elements.getLast?.map (·.rules))) = some (true, 4, some (py! "IFR")) := by decide +kernel
  cases h : parseF15 100 (Ers.new : Ers Rat) ⟨[exTok (py! "N0450F350"), exTok (py! "LNZ"), exTok (py! "UL856")] ++ [exTok (py! "PNT")] ++
      [exTok (py! "UL8"), exTok (py! "ABC"), exTok (py! "/"), exTok (py! "N0400F330")], 0⟩ with
  | error => rw [h] at hacc; simp [Except.toOption] at hacc
  | ok y =>
    cases h2 : parseF15 100 (Ers.new : Ers Rat) ⟨[exTok (py! "N0450F350"), exTok (py! "LNZ"), exTok (py! "UL856")], 0⟩ with
    | error => rw [h2] at hbeg; simp [Except.toOption] at hbeg
    | ok y2 =>
      obtain ⟨b, e'⟩ := y
      obtain ⟨b2, eu⟩ := y2
      rw [h] at hacc
      rw [h2] at hbeg
      simp only [Except.toOption, Option.map_some, Option.some.injEq, Prod.mk.injEq] at hacc hbeg
      obtain ⟨rfl, hnames⟩ := hacc
      obtain ⟨rfl, hl, hi⟩ := hbeg
      obtain ⟨f, r, n, k1, k2, _, k4, k5⟩ := c92 (frames' := 100) (w := exTok (py! "PNT?")) h h2 hi (by decide +kernel)
        (by unfold PointsAndConnectors; decide +kernel) (by decide) (by intro t ht; cases ht; decide +kernel) (by unfold Stray; decide +kernel) (by decide)
      rw [hl] at k2
      have hl' : e'.elements.length = 7 := by have := congrArg List.length hnames; simpa using this
      refine ⟨e', f, r, n, rfl, k1, hnames, ?_, k2.behind, k4, k5⟩
      have h1 := k2.before.1
      have h2 := congrArg List.length k2.behind
      simp only [List.length_take, List.length_drop, hl', List.length_singleton] at h1 h2
      omega

/-- The stretch must be without remarks: a SPEED LEVEL behind the garbled point is taken for one behind the element before. -/
example : check (py! "N0450F350 LNZ PNT/N0400F330 ABC") (fun b e => b && (e.elements.map (·.speed) ==
      [py! "N0450", py! "N0450", py! "N0400", py! "N0400", []])) = true ∧
    check (py! "N0450F350 LNZ PNT?/N0400F330 ABC") (fun b e => !b && (e.elements.map (·.speed) ==
      [py! "N0450", py! "N0400", py! "N0400", []])) = true := by
  decide +kernel

/-- And it must not be the beginning of the route: what was a STAR behind the only point is then taken for a SID. -/
example : check (py! "N0450F350 LNZ LNZ1A") (fun b e => b && (e.elements.map (·.base) == [.POINT, .POINT, .STAR, .POINT])) = true ∧
    check (py! "N0450F350 LNZ? LNZ1A") (fun b e => !b && (e.elements.map (·.base) == [.POINT, .SID, .POINT])) = true := by
  decide +kernel

end F15
