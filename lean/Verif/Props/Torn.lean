import Verif.Lemmas.Torn
/-!
# C94: several garbled parts of the route cost their elements and one error each
-/

namespace F15
open Spec

set_option linter.unusedSectionVars false
variable {F : Type} [PyFloat F]

/-- Reading as far as a place where the field 15 may end. -/
theorem resting_run {t : Token} {u : List Token} (h : Resting F (t :: u)) :
    ∃ as y, RunTo (startPhase (assignSyntax t)) (u.map assignSyntax) as y ∧ Open y ∧ y ≠ some .adep ∧
      (finErs (post (assignSyntax t) (runs (startAct (assignSyntax t) :: as) (Ers.new : Ers F)))).elements.getLast?.map (·.rules) = some (py! "IFR") ∧
      ((assignSyntax t).base = .SPEED_VFR ∨ (assignSyntax t).base = .SPEED_ALTITUDE) ∧
      SentRun (assignSyntax t :: u.map assignSyntax) (startAct (assignSyntax t) :: as) := by
  obtain ⟨⟨frames, eu, hu, hi⟩, hc⟩ := h
  obtain ⟨as0, y, hr0, ho⟩ := between_run (F := F) (.inr ⟨⟨eu, hu, hi⟩, hc⟩)
  rw [parse_eq] at hu
  obtain ⟨t', rest, asu, heq, hsu, hfu⟩ := accepted (F := F) rfl rfl (fun x hx => typed_map hx) hu
  obtain ⟨rfl, rfl⟩ : assignSyntax t = t' ∧ u.map assignSyntax = rest := by simpa using heq
  obtain ⟨bs, rfl, hbs, -, hb⟩ := sentRun_start hsu
  obtain ⟨yu, hbs⟩ := hbs.to
  obtain ⟨cs0, rfl, hrest⟩ := hr0.extend ho hbs (v := []) (by simp)
  obtain rfl : cs0 = [] := by
    cases y with
    | none => exact hrest.2.1
    | some p => cases hrest; rfl
  rw [List.append_nil] at hfu hsu
  refine ⟨as0, y, hr0, ho, ?_, by rw [← hfu]; exact hi, hb, hsu⟩
  rintro rfl
  obtain ⟨h1, h2⟩ := back_adep hr0 rfl
  have hsu : SentRun (assignSyntax t :: u.map assignSyntax) (startAct (assignSyntax t) :: as0) := hsu
  rw [h1] at hsu
  generalize startAct (assignSyntax t) :: as0 = A at hsu
  cases hsu with
  | ifr hb hl hne h => exact hne rfl
  | vfr hb h => unfold startPhase at h2; rw [if_pos hb] at h2; cases h2

/-- The records after the actions `A`. -/
def recsAt (F : Type) [PyFloat F] (t : Token) (A : List Act) : List (Record F) := (runs (startAct (assignSyntax t) :: A) (Ers.new : Ers F)).recs

theorem recsAt_append (t : Token) (A B : List Act) : recsAt F t (A ++ B) = recsAll B (recsAt F t A) := by
  unfold recsAt
  rw [runs_recsAll, runs_recsAll, ← List.cons_append]
  unfold recsAll; rw [List.foldl_append]

theorem recsAt_two {t : Token} {u : List Token} {as : List Act} {q : Phase} (hb : (assignSyntax t).base = .SPEED_VFR ∨ (assignSyntax t).base = .SPEED_ALTITUDE)
    (h : RunTo (startPhase (assignSyntax t)) (u.map assignSyntax) as (some q)) (hqa : q ≠ .adep) : 2 ≤ (recsAt F t as).length := by
  have hfits := fits_end h (fun x hx => typed_map hx) rfl _ (fits_start (F := F) hb)
  unfold recsAt
  rw [runs_cons]; exact hfits.two hqa

theorem recsAt_grows {t : Token} {A B : List Act} (h : 2 ≤ (recsAt F t A).length) : 2 ≤ (recsAt F t (A ++ B)).length := by
  rw [recsAt_append]
  obtain ⟨S, hS, -⟩ := span_all B (recsAt F t A)
  have := congrArg List.length hS
  simp only [List.length_map, List.length_append] at this
  omega

/-- The segments fit the parts. -/
inductive Fitting (F : Type) [PyFloat F] (t : Token) : List Act → List (List Act × List Act × Token) → List (List Token) → Prop
  | nil (A) : Fitting F t A [] []
  | cons {A xs ds w S x X} (h1 : (recsAt F t A).head?.map (·.rules) = some (py! "IFR")) (h2 : (recsAt F t (A ++ xs)).head?.map (·.rules) = some (py! "IFR"))
      (hx : xs = [] ∨ ∃ a as, xs = a :: as ∧ a.Makes) (hd : ds = [] ∨ ∃ a as, ds = a :: as ∧ a.Makes)
      (hxt : ∀ a ∈ xs, ∃ t ∈ x, a.tok.start = t.start ∧ a.tok.stop = t.stop) (hr : Fitting F t (A ++ xs ++ ds) S X) :
      Fitting F t A ((xs, ds, w) :: S) (x :: X)

theorem torn_of {t : Token} {ps : List Piece} : ∀ {u : List Token} {as0 : List Act} {q : Phase} {cs : List Act} {z : Option Phase}, Between2 F (t :: u) ps → ps ≠ [] →
    RunTo (startPhase (assignSyntax t)) (u.map assignSyntax) as0 (some q) → Open (some q) → q ≠ .adep →
    RunTo (startPhase (assignSyntax t)) ((u ++ ps.flatMap fun p => p.part ++ p.behind).map assignSyntax) (as0 ++ cs) z →
    ∃ S, Torn q S ((ps.flatMap fun p => p.garbled :: p.behind).map assignSyntax) ∧ cs = S.flatMap (fun s => s.1 ++ s.2.1) ∧
      S.map (·.2.2) = ps.map (assignSyntax ·.garbled) ∧ Fitting F t as0 S (ps.map (·.part)) := by
  have noRemark : ∀ l : List Token, NoRemark l → ∀ t, (l.map assignSyntax).head? = some t → t.base ≠ .SLASH ∧ t.base ≠ .STAY := by
    intro l hl a ha
    cases l with
    | nil => cases ha
    | cons b l => cases ha; exact hl b rfl
  induction ps with
  | nil => intro u as0 q cs z _ h; exact absurd rfl h
  | cons p ps ih =>
    intro u as0 q cs z hb2 _ hr0 ho hqa hall
    obtain ⟨x, w, v⟩ := p
    cases hb2 with
    | cons before after_ some_ hx hv hw apart rest =>
    dsimp only at after_ some_ hx hv hw apart rest
    obtain ⟨as1, y1, hr1, -, -, hi1, hb, hsu⟩ := resting_run before
    obtain ⟨as2, y2, hr2, ho2, -, hi2, -, -⟩ := resting_run (u := u ++ x) after_
    -- the beginning
    obtain ⟨c1, rfl, hrest⟩ := hr0.extend ho hr1 (v := []) (by simp)
    obtain rfl : c1 = [] := by cases (hrest : RunToG True q [] c1 y1); rfl
    rw [List.append_nil] at hi1
    have two : 2 ≤ (recsAt F t as0).length := recsAt_two hb hr0 hqa
    have hi1 := head_rules two hi1
    -- the part
    obtain ⟨xs, rfl, hxs⟩ := hr0.extend ho hr2 (v := x.map assignSyntax) (by simp)
    have hxs : RunToG True q (x.map assignSyntax) xs y2 := hxs
    have hi2 := head_rules (recsAt_grows two) hi2
    obtain ⟨-, hmx⟩ := open_lenient ho hqa hxs (noRemark x hx)
    have hxt : ∀ a ∈ xs, ∃ t ∈ x, a.tok.start = t.start ∧ a.tok.stop = t.stop := by
      intro a ha
      obtain ⟨b, hb, he⟩ := List.mem_map.1 (run_toks hxs a ha)
      have hse : (assignSyntax b).start = b.start ∧ (assignSyntax b).stop = b.stop := by
        rw [assignSyntax_eq]; split <;> exact ⟨rfl, rfl⟩
      exact ⟨b, hb, by rw [← he, hse.1], by rw [← he, hse.2]⟩
    have hun : unfit q (assignSyntax w) = true := unfit_of_cannot hsu hr0 ho hw
    obtain ⟨ds', hcs, hds⟩ := hr2.extend ho2 hall (v := (v ++ ps.flatMap fun p => p.part ++ p.behind).map assignSyntax) (by simp)
    rw [List.append_assoc, List.append_cancel_left_eq] at hcs
    subst hcs
    cases ps with
    | nil =>
      simp only [List.flatMap_nil, List.append_nil] at hds
      obtain ⟨hlen, hmk⟩ : ReadOn (v.map assignSyntax) ds' ∧ (ds' = [] ∨ ∃ a as, ds' = a :: as ∧ a.Makes) := by
        cases y2 with
        | none => exact ⟨.inl ⟨hds.1, hds.2.1⟩, .inl hds.2.1⟩
        | some q' =>
          have hds : RunToG True q' (v.map assignSyntax) ds' z := hds
          have hqa' : q' ≠ .adep := by
            rintro rfl
            obtain ⟨h1, -⟩ := back_adep hxs rfl
            exact some_ (by simpa using h1)
          obtain ⟨k1, k2⟩ := open_lenient ho2 hqa' hds (noRemark v hv)
          refine ⟨?_, k2⟩
          rcases k1 with k1 | k1
          · rw [k1] at hds
            cases hds
            exact .inl ⟨k1, rfl⟩
          · exact .inr ⟨z, k1⟩
      refine ⟨[(xs, ds', assignSyntax w)], ?_, by simp, by simp, .cons hi1 hi2 hmx hmk hxt (.nil _)⟩
      simpa using Torn.last (xs := xs) ho hqa hun hlen
    | cons p ps =>
      have hv0 : v ≠ [] := by
        rcases apart with h | h
        · exact h
        · cases h
      -- what stands between this part and the next
      have before' : Resting F (t :: (u ++ x ++ v)) := by
        cases rest with
        | cons before => exact before
      obtain ⟨as3, y3, hr3, ho3, hya, -, -, -⟩ := resting_run before'
      obtain ⟨ds, rfl, hds2⟩ := hr2.extend ho2 hr3 (v := v.map assignSyntax) (by simp)
      cases y2 with
      | none => exact absurd (by simpa using hds2.1) hv0
      | some q2 =>
      have hds2 : RunToG True q2 (v.map assignSyntax) ds y3 := hds2
      obtain ⟨es, he, hes⟩ := hr3.extend ho3 hall (v := ((p :: ps).flatMap fun p => p.part ++ p.behind).map assignSyntax) (by simp)
      simp only [List.append_assoc, List.append_cancel_left_eq] at he
      subst he
      cases y3 with
      | none =>
        have h1 := hes.1
        have : p.part ≠ [] := by cases rest with | cons _ _ some_ => exact some_
        simp [this] at h1
      | some q3 =>
      have hqa2 : q2 ≠ .adep := by
        rintro rfl
        obtain ⟨h1, -⟩ := back_adep hxs rfl
        exact some_ (by simpa using h1)
      have hqa3 : q3 ≠ .adep := fun h => hya (by rw [h])
      obtain ⟨k1, k2⟩ := open_lenient ho2 hqa2 hds2 (noRemark v hv)
      have k1 : RunToG True .stay (v.map assignSyntax) ds (some q3) := by
        rcases k1 with k1 | k1
        · exact absurd (by simpa using k1) hv0
        · exact k1
      obtain ⟨S, s1, s2, s3, s4⟩ := ih (u := u ++ x ++ v) rest (by simp) hr3 ho3 hqa3 (by
        have e1 : (u ++ List.flatMap (fun p => p.part ++ p.behind) ({ part := x, garbled := w, behind := v } :: p :: ps)) =
          (u ++ x ++ v ++ List.flatMap (fun p => p.part ++ p.behind) (p :: ps)) := by simp
        rw [e1] at hall
        simpa using hall)
      refine ⟨(xs, ds, assignSyntax w) :: S, ?_, ?_, ?_, .cons hi1 hi2 hmx k2 hxt s4⟩
      · have := Torn.cons (xs := xs) ho hqa hun (by simpa using hv0) k1 ho3 s1
        simpa using this
      · rw [s2]; simp
      · simp only [List.map_cons] at s3 ⊢
        rw [s3]

/-- The elements with and without those of the parts. -/
theorem fitting_elements {t : Token} {A : List Act} {S : List (List Act × List Act × Token)} {X : List (List Token)} (h : Fitting F t A S X) :
    ∀ {Y : List (List Token)} {L : List (Record F)}, MissN Y L (recsAt F t A) → L.head?.map (·.rules) = (recsAt F t A).head?.map (·.rules) →
      MissN (Y ++ X) (recsAll (S.flatMap (·.2.1)) L) (recsAt F t (A ++ S.flatMap fun s => s.1 ++ s.2.1)) ∧
      (recsAll (S.flatMap (·.2.1)) L).head?.map (·.rules) = (recsAt F t (A ++ S.flatMap fun s => s.1 ++ s.2.1)).head?.map (·.rules) := by
  induction h with
  | nil A => intro Y L h1 h2; simpa [recsAll] using And.intro h1 h2
  | cons h1 h2 hx hd hxt hr ih =>
    rename_i A xs ds w S x X
    intro Y L hm hrules
    have hr1 : L.head?.map (·.rules) = (recsAll xs (recsAt F t A)).head?.map (·.rules) := by rw [hrules, h1, ← h2, recsAt_append]
    obtain ⟨m1, m2⟩ := miss_step hm hr1 hx hd hxt
    rw [← recsAt_append, ← recsAt_append] at m1 m2
    obtain ⟨k1, k2⟩ := ih m1 m2
    have e1 : recsAll (List.flatMap (fun x => x.2.1) ((xs, ds, w) :: S)) L = recsAll (S.flatMap (·.2.1)) (recsAll ds L) := by
      unfold recsAll; rw [List.flatMap_cons, List.foldl_append]
    have e2 : A ++ List.flatMap (fun s => s.1 ++ s.2.1) ((xs, ds, w) :: S) = A ++ xs ++ ds ++ S.flatMap fun s => s.1 ++ s.2.1 := by simp
    rw [e1, e2]
    refine ⟨?_, k2⟩
    simpa using k1

/-- **C94** Garble any number of parts of an accepted field 15, each lying between two places where the route may end under IFR, each into one word
that can start no item or cannot come next there: the field 15 is refused with exactly one error for each garbled word, in order, and its elements are those of the correct
field 15 without those of the parts. -/
theorem c94 {frames frames' : Nat} {u : List Token} {ps : List Piece} {e' : Ers F} (h : parseF15 frames (Ers.new : Ers F) ⟨correct u ps, 0⟩ = .ok (true, e'))
    (hp : Between2 F u ps) (hne : ps ≠ []) (hf : 4 * (torn u ps).length ≤ frames') :
    ∃ f, parseF15 frames' (Ers.new : Ers F) ⟨torn u ps, 0⟩ = .ok (false, f) ∧ Missing (ps.map (·.part)) f.elements e'.elements ∧
      f.errors.length = ps.length ∧ ∀ (i : Nat) (p : Piece) (r : Record F), ps[i]? = some p → f.errors[i]? = some r → ∃ n, ErrorIs (assignSyntax p.garbled) n r := by
  cases u with
  | nil =>
    cases hp with
    | nil => exact absurd rfl hne
    | cons before => obtain ⟨⟨n, e, hu, -⟩, -⟩ := before; rw [parse_eq] at hu; cases hu
  | cons t u =>
  have hrest : Resting F (t :: u) := by
    cases hp with
    | nil => exact absurd rfl hne
    | cons before => exact before
  obtain ⟨as0, y, hr0, ho, hya, -, hb, -⟩ := resting_run hrest
  unfold correct at h
  rw [List.cons_append, parse_eq] at h
  obtain ⟨t', rest, as, heq, hs, rfl⟩ := accepted (F := F) rfl rfl (fun x hx => typed_map hx) h
  obtain ⟨rfl, rfl⟩ : assignSyntax t = t' ∧ (u ++ ps.flatMap fun p => p.part ++ p.behind).map assignSyntax = rest := by simpa using heq
  obtain ⟨bs, rfl, hbs, -, -⟩ := sentRun_start hs
  obtain ⟨z, hbs⟩ := hbs.to
  obtain ⟨cs, rfl, hcs⟩ := hr0.extend ho hbs (v := (ps.flatMap fun p => p.part ++ p.behind).map assignSyntax) (by simp)
  cases y with
  | none =>
    have h1 := hcs.1
    cases hp with
    | nil => exact absurd rfl hne
    | cons _ _ some_ => simp [some_] at h1
  | some q =>
  have hqa : q ≠ .adep := fun h => hya (by rw [h])
  obtain ⟨S, hS, rfl, hSw, hfit⟩ := torn_of hp hne hr0 ho hqa hbs
  obtain ⟨A, hA, hk⟩ := torn_reads (F := F) hS (fun t ht => typed_map ht)
  have go := bwd_to hr0 (fun t ht => typed_map ht) rfl ho hk _ (fits_start (F := F) hb)
  have hG : (u.map assignSyntax ++ (ps.flatMap fun p => p.garbled :: p.behind).map assignSyntax) ≠ [] := by
    cases ps with
    | nil => exact absurd rfl hne
    | cons => simp
  obtain ⟨n, hn⟩ := goes_parses (typed_assign t) hb hG go
  have hadd : AddsErr (startAct (assignSyntax t) :: (as0 ++ A)) (startAct (assignSyntax t) :: (as0 ++ S.flatMap (·.2.1))) (S.map (·.2.2)) := by
    rw [← List.cons_append, ← List.cons_append]
    refine adds_pre hA ?_
    intro a ha
    rcases List.mem_cons.1 ha with rfl | ha
    · unfold startAct; split <;> rfl
    · exact hr0.run.noErr a ha
  have hclean := hs.clean
  obtain ⟨g1, -, ns, g2, g3, g4⟩ := adds_runs (F := F) hadd (by
    intro a ha
    apply hclean
    simp only [List.mem_cons, List.mem_append, List.mem_flatMap] at ha ⊢
    rcases ha with h | h | ⟨s, h, h'⟩
    · exact .inl h
    · exact .inr (.inl h)
    · exact .inr (.inr ⟨s, h, .inr h'⟩)) Ers.new
  have hlenS : S.length = ps.length := by simpa using congrArg List.length hSw
  have hnil : (Ers.new : Ers F).recs ≠ [] := by intro h; cases h
  generalize hB : runs (startAct (assignSyntax t) :: (as0 ++ A)) (Ers.new : Ers F) = B at *
  have hBe : B.errs = (((S.map (·.2.2)).zip ns).map fun p => errRec p.1 p.2).reverse := g4.trans (List.append_nil _)
  have hBl : B.errs.length = ps.length := by
    rw [hBe, List.length_reverse, List.length_map, List.length_zip, g3, List.length_map, hlenS]; simp
  have hBne : B.recs ≠ [] := by rw [← hB]; exact runs_ne _ _ hnil
  have hpar : parseF15 n (Ers.new : Ers F) ⟨torn (t :: u) ps, 0⟩ = .ok (false, finErs (post (assignSyntax t) B)) := by
    rw [parse_eq]
    show parseL n Ers.new ((torn (t :: u) ps).map assignSyntax) = _
    unfold torn
    rw [List.cons_append, List.map_cons, List.map_append]
    unfold parseL
    dsimp only
    rw [hn]
    dsimp only
    rw [finish_eq _ (post_ne _ _ hBne)]
    congr 2
    rw [decide_eq_false_iff_not, post_errs]
    intro h
    rw [h] at hBl
    exact hne (List.length_eq_zero_iff.1 hBl.symm)
  have hne' : (Ers.new : Ers F).elements ≠ [] := by simp [Ers.elements, new_ne]
  have herr : (finErs (post (assignSyntax t) B)).errors = ((S.map (·.2.2)).zip ns).map fun p => errRec p.1 p.2 := by
    show (finErs (post _ _)).errs.reverse = _
    rw [show (finErs (post (assignSyntax t) B)).errs = (post (assignSyntax t) B).errs from rfl, post_errs, hBe, List.reverse_reverse]
  refine ⟨finErs (post (assignSyntax t) B), ?par, ?el, ?len, ?err⟩
  case par =>
    rcases Nat.le_total n frames' with hle | hle
    · rw [c16_same hle _ _ (by rw [hpar]; intro h; cases h), hpar]
    · rw [← c16_same hle _ _ (c16_enough hne' ⟨torn (t :: u) ps, 0⟩ hf), hpar]
  case el =>
    have two : 2 ≤ (recsAt F t as0).length := recsAt_two hb hr0 hqa
    obtain ⟨k1, k2⟩ := fitting_elements hfit (Y := []) (L := recsAt F t as0) (.whole two rfl) rfl
    rw [← recsAt_append] at k1 k2
    have hrecs : B.recs = recsAt F t (as0 ++ S.flatMap (·.2.1)) := g1
    rw [← hrecs] at k1 k2
    exact MissN.elements (assignSyntax t) k1 k2
  case len => rw [herr, List.length_map, List.length_zip, g3, List.length_map, hlenS]; simp
  case err =>
    intro i p r h1 h2
    rw [herr, List.getElem?_map, Option.map_eq_some_iff] at h2
    obtain ⟨⟨w, m⟩, h2, rfl⟩ := h2
    rw [List.getElem?_zip_eq_some, hSw, List.getElem?_map, h1] at h2
    obtain ⟨h3, h4⟩ := h2
    simp only [Option.map_some, Option.some.injEq] at h3
    subst h3
    exact ⟨m, errRec_is (g2 m (List.mem_of_getElem? h4))⟩

/-! ### Examples -/

theorem resting_of {n : Nat} {u : List Token}
    (h : ((parseF15 n (Ers.new : Ers F) ⟨u, 0⟩).toOption.map fun x => (x.1, x.2.elements.getLast?.map (·.rules))) = some (true, some (py! "IFR")))
    (hc : u.getLast?.map (·.text) ≠ some (py! "C")) : Resting F u := by
  refine ⟨?_, hc⟩
  cases hp : parseF15 n (Ers.new : Ers F) ⟨u, 0⟩ with
  | error => rw [hp] at h; simp [Except.toOption] at h
  | ok y =>
    obtain ⟨b, e⟩ := y
    rw [hp] at h
    simp only [Except.toOption, Option.map_some, Option.some.injEq, Prod.mk.injEq] at h
    obtain ⟨rfl, h⟩ := h
    exact ⟨n, e, hp, h⟩

theorem two_of {α : Type} {l : List α} (h : l.length = 2) : ∃ a b, l = [a, b] := by
  match l, h with
  | [a, b], _ => exact ⟨a, b, rfl⟩

/-- The point PNT and the stretch `DEF/N0400F330 DCT` are garbled. -/
example : ∃ e' f : Ers Rat, ∃ r1 r2,
    parseF15 100 Ers.new ⟨[exTok (py! "N0450F350"), exTok (py! "LNZ"), exTok (py! "UL856")] ++ ([exTok (py! "PNT")] ++ [exTok (py! "UL8"), exTok (py! "ABC")] ++ ([exTok (py! "DEF"), exTok (py! "/"), exTok (py! "N0400F330"), exTok (py! "DCT")] ++ [exTok (py! "46N050W"), exTok (py! "STAR")])), 0⟩ = .ok (true, e') ∧
    parseF15 100 Ers.new ⟨[exTok (py! "N0450F350"), exTok (py! "LNZ"), exTok (py! "UL856")] ++ (exTok (py! "P?T") :: [exTok (py! "UL8"), exTok (py! "ABC")] ++ exTok (py! "D?F?N04D?T") :: [exTok (py! "46N050W"), exTok (py! "STAR")]), 0⟩ = .ok (false, f) ∧
    Missing [[exTok (py! "PNT")], [exTok (py! "DEF"), exTok (py! "/"), exTok (py! "N0400F330"), exTok (py! "DCT")]] f.elements e'.elements ∧ f.errors = [r1, r2] ∧
    (∃ n, ErrorIs (assignSyntax (exTok (py! "P?T"))) n r1) ∧ ∃ n, ErrorIs (assignSyntax (exTok (py! "D?F?N04D?T"))) n r2 := by
  have hacc : ((parseF15 100 (Ers.new : Ers Rat) ⟨[exTok (py! "N0450F350"), exTok (py! "LNZ"), exTok (py! "UL856")] ++ ([exTok (py! "PNT")] ++ [exTok (py! "UL8"), exTok (py! "ABC")] ++ ([exTok (py! "DEF"), exTok (py! "/"), exTok (py! "N0400F330"), exTok (py! "DCT")] ++ [exTok (py! "46N050W"), exTok (py! "STAR")])), 0⟩).toOption.map (·.1)) = some true := by decide +kernel
  cases h : parseF15 100 (Ers.new : Ers Rat) ⟨[exTok (py! "N0450F350"), exTok (py! "LNZ"), exTok (py! "UL856")] ++ ([exTok (py! "PNT")] ++ [exTok (py! "UL8"), exTok (py! "ABC")] ++ ([exTok (py! "DEF"), exTok (py! "/"), exTok (py! "N0400F330"), exTok (py! "DCT")] ++ [exTok (py! "46N050W"), exTok (py! "STAR")])), 0⟩ with
  | error => rw [h] at hacc; simp [Except.toOption] at hacc
  | ok y =>
  obtain ⟨b, e'⟩ := y
  rw [h] at hacc
  simp only [Except.toOption, Option.map_some, Option.some.injEq] at hacc
  subst hacc
  obtain ⟨f, k1, k2, k3, k4⟩ := c94 (frames' := 100) (u := [exTok (py! "N0450F350"), exTok (py! "LNZ"), exTok (py! "UL856")])
    (ps := [⟨[exTok (py! "PNT")], exTok (py! "P?T"), [exTok (py! "UL8"), exTok (py! "ABC")]⟩, ⟨[exTok (py! "DEF"), exTok (py! "/"), exTok (py! "N0400F330"), exTok (py! "DCT")], exTok (py! "D?F?N04D?T"), [exTok (py! "46N050W"), exTok (py! "STAR")]⟩]) h
    (.cons (resting_of (n := 100) (by decide +kernel) (by decide +kernel)) (resting_of (n := 100) (by decide +kernel) (by decide +kernel)) (by simp)
      (by intro t ht; cases ht; decide +kernel) (by intro t ht; cases ht; decide +kernel) (.inl (by unfold Stray; decide +kernel)) (.inl (by simp))
      (.cons (resting_of (n := 100) (by decide +kernel) (by decide +kernel)) (resting_of (n := 100) (by decide +kernel) (by decide +kernel)) (by simp)
        (by intro t ht; cases ht; decide +kernel) (by intro t ht; cases ht; decide +kernel) (.inl (by unfold Stray; decide +kernel)) (.inr rfl) (.nil _)))
    (by simp) (by decide)
  obtain ⟨r1, r2, hE⟩ := two_of k3
  rw [hE] at k4
  exact ⟨e', f, r1, r2, rfl, k1, k2, hE, k4 0 _ r1 List.getElem?_cons_zero List.getElem?_cons_zero,
    k4 1 _ r2 (List.getElem?_cons_succ.trans List.getElem?_cons_zero) (List.getElem?_cons_succ.trans List.getElem?_cons_zero)⟩

/-- The same as text. -/
example : check (py! "N0450F350 LNZ UL856 PNT UL8 ABC DEF/N0400F330 DCT 46N050W STAR") (fun b e => b && (e.elements.map (·.name) ==
      [py! "ADEP", py! "LNZ", py! "UL856", py! "PNT", py! "UL8", py! "ABC", py! "DEF", py! "DCT", py! "46N050W", py! "STAR", py! "ADES"])) = true ∧
    check (py! "N0450F350 LNZ UL856 P?T UL8 ABC D?F?N04D?T 46N050W STAR") (fun b e => !b && e.errors.length == 2 && (e.elements.map (·.name) ==
      [py! "ADEP", py! "LNZ", py! "UL856", py! "UL8", py! "ABC", py! "46N050W", py! "STAR", py! "ADES"])) = true := by
  decide +kernel

end F15
