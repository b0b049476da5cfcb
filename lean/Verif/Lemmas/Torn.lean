import Verif.Lemmas.Wipe
import Verif.Spec.Torn
import Verif.Props.Lost
/-!
# Reading with several garbled parts
-/

namespace F15
open Spec

set_option linter.unusedSectionVars false
variable {F : Type} [PyFloat F]

/-- What is read behind a garbled word: nothing, or it can be read after a stay. -/
def ReadOn (v : List Token) (ds : List Act) : Prop := v = [] ∧ ds = [] ∨ ∃ z, RunToG True .stay v ds z

/-- Reading with garbled words. Each segment: the actions lost, the actions behind, and the garbled word. -/
inductive Torn : Phase → List (List Act × List Act × Token) → List Token → Prop
  | last {q w v xs ds} (ho : Open (some q)) (hqa : q ≠ .adep) (hw : unfit q w = true) (h : ReadOn v ds) : Torn q [(xs, ds, w)] (w :: v)
  | cons {q q' w v xs ds S G} (ho : Open (some q)) (hqa : q ≠ .adep) (hw : unfit q w = true) (hv : v ≠ []) (h : RunToG True .stay v ds (some q'))
      (ho' : Open (some q')) (hr : Torn q' S G) : Torn q ((xs, ds, w) :: S) (w :: (v ++ G))

theorem readOn_noErr {v : List Token} {ds : List Act} (h : ReadOn v ds) : ∀ a ∈ ds, a.isErr = false := by
  rcases h with ⟨-, rfl⟩ | ⟨z, h⟩
  · simp
  · exact h.run.noErr

theorem adds_pre {A bs as : List Act} {ws : List Token} (h : AddsErr A bs ws) (ha : ∀ a ∈ as, a.isErr = false) : AddsErr (as ++ A) (as ++ bs) ws := by
  obtain ⟨h1, ns, h2, h3, h4⟩ := h
  have e1 : as.filter (·.isErr) = [] := by rw [List.filter_eq_nil_iff]; intro a h; rw [ha a h]; decide
  exact ⟨by rw [List.filter_append, List.filter_append, h1], ns, h2, by rw [List.filter_append, e1, h3]; rfl, h4⟩

theorem torn_reads {q : Phase} {S : List (List Act × List Act × Token)} {G : List Token} (h : Torn q S G) (hT : ∀ t ∈ G, Typed t) :
    ∃ A, AddsErr A (S.flatMap (·.2.1)) (S.map (·.2.2)) ∧ ∀ e : Ers F, Fits q e → NGoes q e G (runs A e) := by
  induction h with
  | last ho hqa hw h =>
    rename_i q w v xs ds
    refine ⟨.err w (unexpected q w) :: ds, ?_, ?_⟩
    · have hn : ds.filter (·.isErr) = [] := by rw [List.filter_eq_nil_iff]; intro a ha; rw [readOn_noErr h a ha]; decide
      have := adds_cut (A := ds) (as := []) (bs := ds) (w := w) (ws := []) (unexpected_plain ho hw) ⟨rfl, [], by simp, by simpa using hn, rfl⟩ (by simp)
      simpa using this
    · intro e hf
      refine stray_goes ho hw (hT w (by simp)) hf (err_evs (unexpected_plain ho hw) hf.1 ?_)
      have hf := fits_err (w := w) (n := unexpected q w) hf
      rw [runs_cons]
      generalize (Act.err w (unexpected q w)).run e = e1 at hf
      show Evs .reSync e1 v (runs ds e1)
      have hfs : Fits .stay e1 := ⟨hf.1, hf.two hqa⟩
      rcases h with ⟨rfl, rfl⟩ | ⟨z, hl⟩
      · show Evs .reSync e1 [] e1
        exact .done fun call => by rw [step_reSync]
      · cases v with
        | nil =>
          cases hl
          show Evs .reSync e1 [] e1
          exact .done fun call => by rw [step_reSync]
        | cons b v' =>
          have g : NGoes .stay e1 (b :: v') (runs ds e1) := .inl (bwd hl.run (fun t ht => hT t (by simp only [List.mem_cons] at ht ⊢; exact .inr ht)) e1 hfs)
          have := resync_run (q := .stay) trivial hl hfs (ts := []) (r := runs ds e1) (by simpa using g)
          simpa using this
  | cons ho hqa hw hv h ho' hr ih =>
    rename_i q q' w v xs ds S G
    obtain ⟨A, hA, hk⟩ := ih (fun t ht => hT t (by simp [ht]))
    refine ⟨.err w (unexpected q w) :: (ds ++ A), ?_, ?_⟩
    · have := adds_cut (as := []) (w := w) (unexpected_plain ho hw) (adds_pre hA h.run.noErr) (by simp)
      simpa using this
    · intro e hf
      refine stray_goes ho hw (hT w (by simp)) hf (err_evs (unexpected_plain ho hw) hf.1 ?_)
      have hf := fits_err (w := w) (n := unexpected q w) hf
      rw [runs_cons]
      generalize (Act.err w (unexpected q w)).run e = e1 at hf
      show Evs .reSync e1 (v ++ G) (runs (ds ++ A) e1)
      have hfs : Fits .stay e1 := ⟨hf.1, hf.two hqa⟩
      have go := bwd_to h (fun t ht => hT t (by simp [ht])) rfl ho' hk e1 hfs
      cases v with
      | nil => exact absurd rfl hv
      | cons b v' => exact resync_run (q := .stay) trivial h hfs go

/-! ### The elements -/

/-- A record without course, speed and level. -/
def scant (r : Record F) : Record F := wipe (courseless r)

theorem scant_courseless {l l' : List (Record F)} (h : l.map courseless = l'.map courseless) : l.map scant = l'.map scant := by
  have : ∀ l : List (Record F), l.map scant = (l.map courseless).map wipe := fun l => by rw [List.map_map]; rfl
  rw [this, h, ← this]

theorem scant_wipe {l l' : List (Record F)} (h : l.map wipe = l'.map wipe) : l.map scant = l'.map scant := by
  have : ∀ l : List (Record F), l.map scant = (l.map wipe).map courseless := fun l => by rw [List.map_map]; rfl
  rw [this, h, ← this]

theorem scant_similar {l l' : List (Record F)} (h : l.map scant = l'.map scant) : AllSimilar l l' := by
  refine ⟨by simpa using congrArg List.length h, fun i r r' h1 h2 => ?_⟩
  have h3 : (l.map scant)[i]? = some (scant r) := by rw [List.getElem?_map, h1]; rfl
  have h4 : (l'.map scant)[i]? = some (scant r') := by rw [List.getElem?_map, h2]; rfl
  rw [h, h4] at h3
  have h5 : scant r' = scant r := Option.some.inj h3
  unfold Similar
  have e : ∀ x : Record F, x = { scant x with bearing := x.bearing, distance := x.distance, speed := x.speed, speedSi := x.speedSi, altitude := x.altitude, altitudeSi := x.altitudeSi } := fun x => rfl
  rw [e r', h5]
  rfl

/-- Of the parts `xs` the second list (newest first) has elements that the first has not. -/
inductive MissN : List (List Token) → List (Record F) → List (Record F) → Prop
  | whole {l l'} (hl : 2 ≤ l.length) (h : l.map scant = l'.map scant) : MissN [] l l'
  | gap {xs x l l' b a a'} (h : MissN xs l l') (hb : ∀ r ∈ b, ∃ t ∈ x, r.start = t.start ∧ r.stop = t.stop) (ha : a.map scant = a'.map scant) :
      MissN (xs ++ [x]) (a ++ l) (a' ++ (b ++ l'))

theorem scant_spans {l l' : List (Record F)} (h : l.map scant = l'.map scant) : l.map span = l'.map span := by
  have : ∀ l : List (Record F), l.map span = (l.map scant).map span := fun l => by rw [List.map_map]; rfl
  rw [this, h, ← this]

theorem in_part {b b' : List (Record F)} {x : List Token} (h : b.map scant = b'.map scant) (hb : ∀ r ∈ b, ∃ t ∈ x, r.start = t.start ∧ r.stop = t.stop) :
    ∀ r ∈ b', ∃ t ∈ x, r.start = t.start ∧ r.stop = t.stop := by
  intro r hr
  have h1 : span r ∈ b'.map span := List.mem_map_of_mem hr
  rw [← scant_spans h] at h1
  obtain ⟨q, hq, he⟩ := List.mem_map.1 h1
  obtain ⟨t, ht, q1, q2⟩ := hb q hq
  unfold span at he
  rw [Prod.mk.injEq] at he
  exact ⟨t, ht, he.1.symm.trans q1, he.2.symm.trans q2⟩

/-- Courses, speeds and levels make no difference. -/
theorem MissN.congr {xs : List (List Token)} {l l' : List (Record F)} (h : MissN xs l l') : ∀ {m m' : List (Record F)}, m.map scant = l.map scant →
    m'.map scant = l'.map scant → MissN xs m m' := by
  induction h with
  | whole hl h =>
    intro m m' h1 h2
    exact .whole (by have := congrArg List.length h1; simp at this; omega) (h1.trans (h.trans h2.symm))
  | gap h hb ha ih =>
    intro m m' h1 h2
    rw [List.map_append] at h1 h2
    obtain ⟨a, l, rfl, c1, c2⟩ := List.map_eq_append_iff.1 h1
    obtain ⟨a', r, rfl, c3, c4⟩ := List.map_eq_append_iff.1 h2
    rw [List.map_append] at c4
    obtain ⟨b, l', rfl, c5, c6⟩ := List.map_eq_append_iff.1 c4
    exact .gap (ih c2 c6) (in_part c5.symm hb) (c1.trans (ha.trans c3.symm))

theorem MissN.two {xs : List (List Token)} {l l' : List (Record F)} (h : MissN xs l l') : 2 ≤ l.length ∧ 2 ≤ l'.length := by
  induction h with
  | whole hl h => have := congrArg List.length h; simp at this; omega
  | gap h hb ha ih => simp only [List.length_append]; omega

theorem last_scant (t : Token) (l : List (Record F)) : (last t l).map scant = last t (l.map scant) := by
  unfold last
  split
  · unfold mapOldest
    rw [List.map_reverse, ← List.map_reverse (l := l)]
    cases l.reverse <;> rfl
  · rfl

theorem ne_of_two {l : List (Record F)} (h : 2 ≤ l.length) : l ≠ [] := by rintro rfl; simp at h

theorem MissN.last (t : Token) {xs : List (List Token)} {l l' : List (Record F)} (h : MissN xs l l') : MissN xs (last t l) (last t l') := by
  induction h with
  | whole hl h => exact .whole (by rw [last_length]; exact hl) (by rw [last_scant, last_scant, h])
  | gap h hb ha ih =>
    obtain ⟨h1, h2⟩ := h.two
    rw [last_append t _ (ne_of_two h1), last_append t _ (by simp [ne_of_two h2]), last_append t _ (ne_of_two h2)]
    exact .gap ih hb ha

/-- An element more on both sides. -/
theorem MissN.push {xs : List (List Token)} {l l' : List (Record F)} (h : MissN xs l l') (r : Record F) : MissN xs (r :: l) (r :: l') := by
  cases h with
  | whole hl h => exact .whole (by simp only [List.length_cons]; omega) (by simp [h])
  | gap h hb ha =>
    rename_i xs x l l' b a a'
    exact .gap (a := r :: a) (a' := r :: a') h hb (by simp [ha])

theorem MissN.missing {xs : List (List Token)} {l l' : List (Record F)} (h : MissN xs l l') : Missing xs l.reverse l'.reverse := by
  induction h with
  | whole hl h => exact .whole (scant_similar (by rw [List.map_reverse, List.map_reverse, h]))
  | gap h hb ha ih =>
    simp only [List.reverse_append]
    exact .gap ih (fun r hr => hb r (List.mem_reverse.1 hr)) (scant_similar (by rw [List.map_reverse, List.map_reverse, ha]))

theorem MissN.elements (t : Token) {xs : List (List Token)} {e e' : Ers F} (h : MissN xs e.recs e'.recs)
    (hr : e.recs.head?.map (·.rules) = e'.recs.head?.map (·.rules)) : Missing xs (finErs (post t e)).elements (finErs (post t e')).elements := by
  rw [gap_elements, gap_elements, last_head t h.two.1, last_head t h.two.2, hr]
  have := ((h.last t).push (adesRec ((e'.recs.head?.map (·.rules)).getD []))).missing
  simpa using this

/-- One part more. -/
theorem miss_step {X : List (List Token)} {x : List Token} {L L' : List (Record F)} (h : MissN X L L') {xs ds : List Act}
    (hr : L.head?.map (·.rules) = (recsAll xs L').head?.map (·.rules)) (hx : xs = [] ∨ ∃ a as, xs = a :: as ∧ a.Makes)
    (hd : ds = [] ∨ ∃ a as, ds = a :: as ∧ a.Makes) (hxt : ∀ a ∈ xs, ∃ t ∈ x, a.tok.start = t.start ∧ a.tok.stop = t.stop) :
    MissN (X ++ [x]) (recsAll ds L) (recsAll ds (recsAll xs L')) ∧
      (recsAll ds L).head?.map (·.rules) = (recsAll ds (recsAll xs L')).head?.map (·.rules) := by
  obtain ⟨two, two'⟩ := h.two
  have stretch : ∃ N E1, recsAll xs L' = N ++ E1 ∧ E1.map courseless = L'.map courseless ∧ ∀ r ∈ N, ∃ t ∈ x, r.start = t.start ∧ r.stop = t.stop := by
    obtain ⟨S, hS, hS'⟩ := span_all xs L'
    have mk : ∃ N E1, recsAll xs L' = N ++ E1 ∧ E1.map courseless = L'.map courseless := by
      rcases hx with rfl | ⟨a, as, rfl, hm⟩
      · exact ⟨[], L', rfl, rfl⟩
      · cases L' with
        | nil => simp at two'
        | cons y Y =>
          obtain ⟨X, Y', -, -, b2, -, b4, -⟩ := same_made (F := F) hm as (y1 := y) (y2 := y) ⟨rfl, rfl, rfl, rfl, rfl⟩ Y Y
          exact ⟨X, Y', b2, b4⟩
    obtain ⟨N, E1, hN, hE⟩ := mk
    refine ⟨N, E1, hN, hE, fun r hr' => ?_⟩
    rw [hN, List.map_append, courseless_spans hE] at hS
    have := List.append_inj_left' hS rfl
    have hm : span r ∈ S := by rw [← this]; exact List.mem_map_of_mem hr'
    obtain ⟨a, ha, hsp⟩ := hS' _ hm
    obtain ⟨t, ht, q1, q2⟩ := hxt a ha
    unfold span at hsp
    rw [Prod.mk.injEq] at hsp
    exact ⟨t, ht, hsp.1.trans q1, hsp.2.trans q2⟩
  obtain ⟨N, E1, hN, hE1, hNx⟩ := stretch
  rcases hd with rfl | ⟨a, as, rfl, hm⟩
  · refine ⟨?_, hr⟩
    show MissN _ L (recsAll xs L')
    rw [hN]
    exact .gap (a := []) (a' := []) (h.congr rfl (scant_courseless hE1)) hNx rfl
  · cases L with
    | nil => simp at two
    | cons y Y =>
    cases hX : recsAll xs L' with
    | nil => rw [hX] at hr; simp at hr
    | cons z Z =>
    rw [hX] at hr hN
    have hr : y.rules = z.rules := by simpa using hr
    obtain ⟨X1, X2, Y1, Y2, b1, b2, b3, b4, b5, b6, -⟩ := like_made hm as hr.symm Z Y
    rw [b3, b4]
    rw [hN, List.map_append] at b5
    obtain ⟨N1, E3, rfl, c1, c2⟩ := List.map_eq_append_iff.1 b5
    refine ⟨.gap (h.congr (scant_courseless b6) (scant_courseless (c2.trans hE1))) (in_part (scant_courseless c1.symm) hNx) (scant_wipe b2.symm), ?_⟩
    cases X1 with
    | nil => exact absurd rfl b1
    | cons p X1 =>
      cases X2 with
      | nil => simp at b2
      | cons q X2 =>
        simp only [List.map_cons, List.cons.injEq] at b2
        have := congrArg Record.rules b2.1
        simp only [List.cons_append, List.head?_cons, Option.map_some]
        exact congrArg some this.symm

end F15
