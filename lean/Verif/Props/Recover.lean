import Verif.Lemmas.Noise4
import Verif.Props.Depth
import Verif.Props.Grammar
import Verif.Props.Layout
/-!
# C63: a stray word costs exactly one error and nothing else
-/

namespace F15
open Spec

set_option linter.unusedSectionVars false
variable {F : Type} [PyFloat F]

theorem strayBase_of {t : Token} (h : Stray t) : strayBase (assignSyntax t).base = true := by
  unfold Stray at h
  revert h
  cases (assignSyntax t).base <;> decide

theorem foreignBase_of {t : Token} (h : Foreign t) : foreignBase (assignSyntax t).base = true := by
  unfold Foreign at h
  revert h
  cases (assignSyntax t).base <;> decide

/-- The pieces with their words classified. -/
def typedPieces (ps : List (List Token × Token)) : List (List Token × Token) :=
  ps.map fun p => (p.1.map assignSyntax, assignSyntax p.2)

theorem typed_noisy (ps : List (List Token × Token)) (ts : List Token) :
    (interspersed ps ts).map assignSyntax = noisy (typedPieces ps) (ts.map assignSyntax) := by
  unfold interspersed noisy typedPieces
  rw [List.map_append, List.map_flatMap, List.flatMap_map]
  simp

theorem typed_inPieces (ps : List (List Token × Token)) (ts : List Token) :
    (inPieces ps ts).map assignSyntax = inPieces (typedPieces ps) (ts.map assignSyntax) := by
  unfold inPieces typedPieces
  rw [List.map_append, List.map_flatMap, List.flatMap_map]

theorem woven_first {a : Act} {A as : List Act} {t : Token} {u : List Token} {w : Token} {ps : List (List Token × Token)} {ts : List Token}
    (ha : a.tok = t) (h : Woven A as ((u, w) :: ps) ts) : Woven (a :: A) (a :: as) ((t :: u, w) :: ps) ts := by
  obtain ⟨segs, last, h1, rfl, rfl, h2, h3⟩ := h
  cases segs with
  | nil => cases h1
  | cons s segs =>
    refine ⟨(a :: s.1, s.2) :: segs, last, h1, by simp, by simp, ?_, h3⟩
    intro x hx
    rw [List.zip_cons_cons, List.mem_cons] at hx
    have h0 := h2 (s, (u, w)) (by simp)
    rcases hx with rfl | hx
    · refine ⟨fun b hb => ?_, h0.2⟩
      rcases List.mem_cons.1 hb with rfl | hb
      · simp [ha]
      · exact List.mem_cons_of_mem _ (h0.1 b hb)
    · exact h2 x (by simp [hx])

theorem noisy_parses {c : Prop} {t : Token} {u : List Token} {w : Token} {ps : List (List Token × Token)} {ts : List Token}
    {as : List Act} (hT : ∀ x ∈ noisy ((t :: u, w) :: ps) ts, Typed x)
    (hs : SentRunG c (inPieces ((t :: u, w) :: ps) ts) as)
    (hc : ∀ bs, RunG c (startPhase t) (inPieces ((u, w) :: ps) ts) bs → Chain c false (startPhase t) ((u, w) :: ps) ts bs) :
    ∃ A frames, (AddsErr A as (w :: ps.map (·.2)) ∧ Woven A as ((t :: u, w) :: ps) ts) ∧
      runL frames (Ers.new : Ers F) t (noisy ((u, w) :: ps) ts) = .ok (post t (runs A Ers.new)) := by
  have hj : inPieces ((t :: u, w) :: ps) ts = t :: inPieces ((u, w) :: ps) ts := rfl
  rw [hj] at hs
  obtain ⟨bs, rfl, hr, hl, hb⟩ := sentRun_startG hs
  have hn : noisy ((t :: u, w) :: ps) ts = t :: noisy ((u, w) :: ps) ts := rfl
  rw [hn] at hT
  obtain ⟨A, hA, hg⟩ := chain_reads (F := F) (hc bs hr) fun x hx => hT x (by simp [hx])
  have hg := hg _ (fits_start (F := F) hb)
  have hne : (Ers.new : Ers F).recs ≠ [] := by intro h; cases h
  have hnr : noisy ((u, w) :: ps) ts ≠ [] := by unfold noisy; simp
  have hno : (startAct t).isErr = false := by unfold startAct; split <;> rfl
  refine ⟨startAct t :: A, ?_⟩
  have hAdd : AddsErr (startAct t :: A) (startAct t :: bs) (w :: ps.map (·.2)) ∧ Woven (startAct t :: A) (startAct t :: bs) ((t :: u, w) :: ps) ts := by
    obtain ⟨⟨h1, ns, h2, h3, h4⟩, hW⟩ := hA
    refine ⟨⟨?_, ns, h2, ?_, h4⟩, woven_first (by unfold startAct; split <;> rfl) hW⟩
    · rw [List.filter_cons_of_pos (by simp [hno]), List.filter_cons_of_pos (by simp [hno]), h1]
    · rw [List.filter_cons_of_neg (by simp [hno]), h3]; rfl
  rw [if_neg (by decide)] at hg
  have hg := ngoes hg (by unfold startPhase; split <;> simp)
  unfold startPhase startAct at hg
  unfold startAct at hAdd ⊢
  rcases hb with hb | hb
  · rw [if_pos hb, if_pos hb] at hg
    rw [if_pos hb] at hAdd ⊢
    obtain ⟨n, hn⟩ := b_vfr (hT t (by simp)) hb hne hg
    refine ⟨n, hAdd, ?_⟩
    unfold runL
    rw [hb]
    dsimp only
    rw [hn n (Nat.le_refl _)]
    dsimp only
    rw [setFirst_eq _ (runs_ne _ _ (Act.run_ne _ _ hne))]
    unfold post
    rw [if_pos hb]; rfl
  · have hb' : ¬ t.base = .SPEED_VFR := by rw [hb]; decide
    rw [if_neg hb', if_neg hb'] at hg
    rw [if_neg hb'] at hAdd ⊢
    obtain ⟨n, hn⟩ := b_level (hT t (by simp)) hb hne false (by rw [if_pos (show (Ers.new : Ers F).recs.length = 1 from rfl)]; exact hg)
    refine ⟨n, hAdd, ?_⟩
    unfold runL
    rw [hb]
    dsimp only
    rw [hn n (Nat.le_refl _)]
    dsimp only
    rw [if_neg hnr]
    unfold post
    rw [if_neg hb']; rfl

/-- The word `w` cannot come next after the words `u`, which end between two items. -/
def UnfitAfter (u : List Token) (w : Token) : Prop :=
  ∀ t u' as z, u = t :: u' → RunTo (startPhase (assignSyntax t)) (u'.map assignSyntax) as (some z) → Open (some z) →
    unfit z (assignSyntax w) = true

/-- Words that cannot come next, each at a place between two items. -/
theorem cut_core {frames : Nat} {ps : List (List Token × Token)} {ts : List Token} {e : Ers F} (hts : ts ≠ [] ∨ ¬ Closed (inPieces ps ts))
    (hb : ∀ k, k < ps.length → Between F frames ((ps.take (k + 1)).flatMap (·.1)))
    (hw : ∀ k p, ps[k]? = some p → UnfitAfter ((ps.take (k + 1)).flatMap (·.1)) p.2)
    (hfo : ∀ p ∈ ps, p.1 = [] → Foreign p.2)
    (hf : 4 * (interspersed ps ts).length ≤ frames)
    (h : parseF15 frames (Ers.new : Ers F) ⟨inPieces ps ts, 0⟩ = .ok (true, e)) :
    ∃ e', parseF15 frames (Ers.new : Ers F) ⟨interspersed ps ts, 0⟩ = .ok (ps.isEmpty, e') ∧
      e'.elements = e.elements ∧ e'.derived = e.derived ∧
      e'.errors.length = ps.length ∧
      ∀ (k : Nat) (p : List Token × Token) (r : Record F), ps[k]? = some p → e'.errors[k]? = some r →
        ∃ n, ErrorIs (assignSyntax p.2) n r := by
  cases ps with
  | nil =>
    refine ⟨e, h, rfl, rfl, ?_⟩
    have h2 := h
    rw [parse_eq] at h2
    obtain ⟨_, _, as, _, hs, rfl⟩ := accepted (F := F) rfl rfl (fun x hx => typed_map hx) h2
    rename_i t rest _
    have : (finErs (post t (runs as (Ers.new : Ers F)))).errors = [] := by
      unfold finErs Ers.errors
      rw [show (post t (runs as (Ers.new : Ers F))).errs = (runs as (Ers.new : Ers F)).errs by unfold post; split <;> rfl,
        runs_errs hs.clean]
      rfl
    rw [this]
    exact ⟨rfl, fun k p r h => by cases h⟩
  | cons p ps =>
    obtain ⟨v, w⟩ := p
    cases v with
    | nil =>
      exfalso
      have := hb 0 (by simp)
      rcases this with ⟨t, h, _⟩ | ⟨⟨e, h, _⟩, _⟩
      · cases h
      · rw [parse_eq] at h; cases h
    | cons t u =>
    have hT : ∀ x ∈ (interspersed ((t :: u, w) :: ps) ts).map assignSyntax, Typed x := fun x hx => typed_map hx
    have hTj : ∀ x ∈ (inPieces ((t :: u, w) :: ps) ts).map assignSyntax, Typed x := fun x hx => typed_map hx
    rw [parse_eq] at h
    obtain ⟨t', rest, as, heq, hs, rfl⟩ := accepted (F := F) rfl rfl hTj h
    rw [typed_noisy] at hT
    rw [typed_inPieces] at hs heq
    have ht' : t' = assignSyntax t := (List.cons.inj heq).1.symm
    subst ht'
    obtain ⟨A, n, hA, hrun⟩ := noisy_parses (F := F) hT hs (by
      intro bs hr
      obtain ⟨z, hz⟩ := hr.to
      refine chain_of _ hz ?_ (by intro h; cases h) ?_ ?_ ?_
      · refine hts.imp (by simp) fun hc hz' => hc ?_
        obtain ⟨x, hx, hxb⟩ := last_none hz hz'
        have hx : (inPieces (typedPieces ((t :: u, w) :: ps)) (ts.map assignSyntax)).getLast? = some x := by
          show (assignSyntax t :: inPieces ((u.map assignSyntax, assignSyntax w) :: typedPieces ps) (ts.map assignSyntax)).getLast? = _
          rw [List.getLast?_cons]
          have : (inPieces ((u.map assignSyntax, assignSyntax w) :: typedPieces ps) (ts.map assignSyntax)).getLast? = some x := hx
          rw [this]; rfl
        rw [← typed_inPieces, List.getLast?_map] at hx
        cases hl : (inPieces ((t :: u, w) :: ps) ts).getLast? with
        | none => rw [hl] at hx; cases hx
        | some y =>
          rw [hl] at hx
          cases hx
          exact ⟨y, hl, by simpa using hxb⟩
      · intro p hp
        rcases List.mem_cons.1 hp with rfl | hp
        · exact typed_assign _
        · obtain ⟨p', hp', rfl⟩ := List.mem_map.1 hp
          exact typed_assign _
      · intro k p hp hk he
        cases k with
        | zero => rcases hk with h | h <;> cases h
        | succ k =>
          have hp : (typedPieces ps)[k]? = some p := hp
          unfold typedPieces at hp
          rw [List.getElem?_map] at hp
          cases hq : ps[k]? with
          | none => rw [hq] at hp; cases hp
          | some p' =>
            rw [hq] at hp
            cases hp
            exact foreignBase_of (hfo p' (List.mem_cons_of_mem _ (List.mem_of_getElem? hq)) (by simpa using he))
      · intro k pk hk
        have hpk : ∃ q, ((t :: u, w) :: ps)[k]? = some q ∧ pk.2 = assignSyntax q.2 := by
          cases k with
          | zero => cases hk; exact ⟨_, rfl, rfl⟩
          | succ k =>
            have hk : (typedPieces ps)[k]? = some pk := hk
            unfold typedPieces at hk
            rw [List.getElem?_map] at hk
            cases hq : ps[k]? with
            | none => rw [hq] at hk; cases hk
            | some p' => rw [hq] at hk; cases hk; exact ⟨p', hq, rfl⟩
        obtain ⟨pq, hq, hpq⟩ := hpk
        have hlt := (List.getElem?_eq_some_iff.1 hq).1
        have hbt := hb k hlt
        have hun := hw k pq hq
        rw [List.take_succ_cons, List.flatMap_cons, List.cons_append] at hbt hun
        obtain ⟨as, y, hr, ho⟩ := between_run hbt
        refine ⟨as, y, ?_, ho, ?_⟩
        · rw [List.map_append, List.map_flatMap] at hr
          rw [List.take_succ_cons, List.flatMap_cons]
          show RunTo _ (u.map assignSyntax ++ ((typedPieces ps).take k).flatMap _) _ _
          unfold typedPieces
          rw [← List.map_take, List.flatMap_map]
          exact hr
        · rintro z rfl
          rw [hpq]
          exact hun _ _ _ z rfl hr ho)
    obtain ⟨h1, h2, ns, hns, h3, h4⟩ := adds_runs (F := F) hA.1 hs.clean Ers.new
    have hne : (Ers.new : Ers F).recs ≠ [] := by intro h; cases h
    have hp : parseF15 n (Ers.new : Ers F) ⟨interspersed ((t :: u, w) :: ps) ts, 0⟩ =
        .ok (false, finErs (post (assignSyntax t) (runs A Ers.new))) := by
      rw [parse_eq]
      show parseL n Ers.new ((interspersed ((t :: u, w) :: ps) ts).map assignSyntax) = _
      rw [typed_noisy]
      show parseL n Ers.new (assignSyntax t :: noisy ((u.map assignSyntax, assignSyntax w) :: typedPieces ps) (ts.map assignSyntax)) = _
      unfold parseL
      have hrun' : runL n (Ers.new : Ers F) (assignSyntax t)
          (noisy ((u.map assignSyntax, assignSyntax w) :: typedPieces ps) (ts.map assignSyntax)) = _ := hrun
      dsimp only
      rw [hrun']
      dsimp only
      rw [finish_eq _ (post_ne _ _ (runs_ne _ _ hne))]
      congr 2
      rw [decide_eq_false_iff_not, post_errs, h4]
      cases ns with
      | nil => cases h3
      | cons m ns => simp
    have hne' : (Ers.new : Ers F).elements ≠ [] := by simp [Ers.elements, new_ne]
    have hfin : finErs (post (assignSyntax t) (runs A (Ers.new : Ers F))) =
        { finErs (post (assignSyntax t) (runs as (Ers.new : Ers F))) with errs := (runs A (Ers.new : Ers F)).errs } := by
      unfold finErs post
      split <;> simp only [h1]
    refine ⟨finErs (post (assignSyntax t) (runs A Ers.new)), ?_, ?_, ?_, ?_⟩
    · show _ = Except.ok (false, _)
      rcases Nat.le_total n frames with hle | hle
      · rw [c16_same hle _ _ (by rw [hp]; intro h; cases h), hp]
      · rw [← c16_same hle _ _ (c16_enough hne' ⟨interspersed ((t :: u, w) :: ps) ts, 0⟩ hf), hp]
    · rw [hfin]; rfl
    · rw [hfin]
    · rw [hfin]
      have hE : (runs A (Ers.new : Ers F)).errs.reverse = (((assignSyntax w :: (typedPieces ps).map (·.2)).zip ns).map fun p => errRec p.1 p.2) := by
        rw [h4]
        show ((List.map _ _).reverse ++ []).reverse = _
        rw [List.append_nil, List.reverse_reverse]
        rfl
      have h3 : ns.length = (assignSyntax w :: (typedPieces ps).map (·.2)).length := h3
      have hW : assignSyntax w :: (typedPieces ps).map (·.2) = (((t :: u, w) :: ps).map (·.2)).map assignSyntax := by
        unfold typedPieces; simp
      rw [hW] at hE h3
      show (runs A (Ers.new : Ers F)).errs.reverse.length = _ ∧ ∀ k p r, _ → (runs A (Ers.new : Ers F)).errs.reverse[k]? = _ → _
      rw [hE]
      refine ⟨by simp [h3], fun k p r hk hr => ?_⟩
      rw [List.getElem?_map] at hr
      cases hz : ((List.map assignSyntax (List.map (·.2) ((t :: u, w) :: ps))).zip ns)[k]? with
      | none => rw [hz] at hr; cases hr
      | some x =>
        rw [hz] at hr
        cases hr
        rw [List.getElem?_zip_eq_some] at hz
        obtain ⟨z1, z2⟩ := hz
        rw [List.getElem?_map, List.getElem?_map, hk] at z1
        refine ⟨x.2, ?_⟩
        rw [Option.some.inj z1]
        exact errRec_is (hns _ (List.mem_of_getElem? z2))

/-- **C63** Take a field 15 that is accepted, cut it between items, and put after each piece a word that can start no
item: if the stack is deep enough the parse still returns, with exactly the same elements and derived rules, False unless
nothing was inserted, and with one error for each inserted word, in order, each at that word and in its text. -/
theorem c63 {frames : Nat} {ps : List (List Token × Token)} {ts : List Token} {e : Ers F} (hts : ts ≠ [] ∨ ¬ Closed (inPieces ps ts))
    (hb : ∀ k, k < ps.length → Between F frames ((ps.take (k + 1)).flatMap (·.1)))
    (hw : ∀ p ∈ ps, Stray p.2 ∧ (p.1 = [] → Foreign p.2))
    (hf : 4 * (interspersed ps ts).length ≤ frames)
    (h : parseF15 frames (Ers.new : Ers F) ⟨inPieces ps ts, 0⟩ = .ok (true, e)) :
    ∃ e', parseF15 frames (Ers.new : Ers F) ⟨interspersed ps ts, 0⟩ = .ok (ps.isEmpty, e') ∧
      e'.elements = e.elements ∧ e'.derived = e.derived ∧
      e'.errors.length = ps.length ∧
      ∀ (k : Nat) (p : List Token × Token) (r : Record F), ps[k]? = some p → e'.errors[k]? = some r →
        ∃ n, ErrorIs (assignSyntax p.2) n r := by
  refine cut_core hts hb (fun k p hp t u' as z _ _ ho => unfit_of_stray ho (strayBase_of (hw p (List.mem_of_getElem? hp)).1))
    (fun p hp => (hw p hp).2) hf h

/-- **C63** for one word: at any place between two items, any word that can start no item. -/
theorem c63_one {frames : Nat} {u v : List Token} {w : Token} {e : Ers F} (hv : v ≠ [] ∨ ¬ Closed u)
    (hb : Between F frames u) (hw : Stray w) (hf : 4 * (u ++ w :: v).length ≤ frames)
    (h : parseF15 frames (Ers.new : Ers F) ⟨u ++ v, 0⟩ = .ok (true, e)) :
    ∃ e' r n, parseF15 frames (Ers.new : Ers F) ⟨u ++ w :: v, 0⟩ = .ok (false, e') ∧
      e'.elements = e.elements ∧ e'.derived = e.derived ∧ e'.errors = [r] ∧ ErrorIs (assignSyntax w) n r := by
  have hu : u ≠ [] := by
    rintro rfl
    rcases hb with ⟨t, h, _⟩ | ⟨⟨e, h, _⟩, _⟩
    · cases h
    · rw [parse_eq] at h; cases h
  have hj : inPieces [(u, w)] v = u ++ v := by unfold inPieces; simp
  have hi : interspersed [(u, w)] v = u ++ w :: v := by unfold interspersed; simp
  obtain ⟨e', h1, h2, h3, h4, h5⟩ := c63 (F := F) (frames := frames) (ps := [(u, w)]) (ts := v) (e := e)
    (by
      rw [hj]
      rcases hv with hv | hc
      · exact .inl hv
      · by_cases hv : v = []
        · rw [hv, List.append_nil]; exact .inr hc
        · exact .inl hv)
    (by
      intro k hk
      obtain rfl : k = 0 := by simpa using hk
      simpa using hb)
    (by
      intro p hp
      obtain rfl : p = (u, w) := by simpa using hp
      exact ⟨hw, fun h => absurd h hu⟩)
    (by rw [hi]; exact hf) (by rw [hj]; exact h)
  rw [hi] at h1
  obtain ⟨r, he⟩ := List.length_eq_one_iff.1 h4
  obtain ⟨n, hn⟩ := h5 0 (u, w) r rfl (by rw [he]; rfl)
  exact ⟨e', r, n, h1, h2, h3, he, hn⟩

/-! ### Texts -/

theorem assign_base {t t' : Token} (h : t.text = t'.text) : (assignSyntax t).base = (assignSyntax t').base := by
  unfold assignSyntax
  rw [h]
  dsimp only
  split <;> rfl

theorem Spec.Stray.same {t t' : Token} (h : t.text = t'.text) (hs : Stray t) : Stray t' := by
  unfold Stray at *
  rw [← assign_base h]; exact hs

theorem noPlace_of {T T' : List Token} {rs rs' : List (Record F)} (h : AllSameButPlace T T' rs rs') :
    rs.map noPlace = rs'.map noPlace := by
  obtain ⟨hl, h⟩ := h
  apply List.ext_getElem?
  intro i
  rw [List.getElem?_map, List.getElem?_map]
  cases hi : rs[i]? with
  | none =>
    have : rs'[i]? = none := by rw [List.getElem?_eq_none_iff] at hi ⊢; omega
    rw [this]
  | some r =>
    have hlt := (List.getElem?_eq_some_iff.1 hi).1
    have hi' := List.getElem?_eq_getElem (hl ▸ hlt : i < rs'.length)
    rw [hi']
    have := (h i r _ hi hi').1
    show some _ = some _
    rw [this]; rfl

/-- The same words, the same outcome but for the places. -/
theorem same_words {frames : Nat} {T T' : List Token} {b : Bool} {e : Ers F}
    (h : parseF15 frames (Ers.new : Ers F) ⟨T, 0⟩ = .ok (b, e)) (ht : T.map (·.text) = T'.map (·.text)) :
    ∃ e', parseF15 frames (Ers.new : Ers F) ⟨T', 0⟩ = .ok (b, e') ∧ e.elements.map noPlace = e'.elements.map noPlace := by
  have := c51 (F := F) frames ⟨T, 0⟩ ⟨T', 0⟩ ht
  rw [h] at this
  cases hp : parseF15 frames (Ers.new : Ers F) ⟨T', 0⟩ with
  | error x => rw [hp] at this; exact this.elim
  | ok p =>
    obtain ⟨b', e'⟩ := p
    rw [hp] at this
    obtain ⟨rfl, _, h3, _⟩ := this
    exact ⟨e', rfl, noPlace_of h3⟩

theorem closed_same {u u' : List Token} (h : u.map (·.text) = u'.map (·.text)) (hc : Closed u) : Closed u' := by
  obtain ⟨t, ht, hb⟩ := hc
  have := congrArg List.getLast? h
  rw [List.getLast?_map, List.getLast?_map, ht] at this
  cases hu : u'.getLast? with
  | none => rw [hu] at this; cases this
  | some t' =>
    rw [hu] at this
    exact ⟨t', hu, by rw [← assign_base (Option.some.inj this)]; exact hb⟩

theorem between_same {frames : Nat} {u u' : List Token} (h : u.map (·.text) = u'.map (·.text)) (hb : Between F frames u) :
    Between F frames u' := by
  rcases hb with ⟨t, rfl, hb⟩ | ⟨⟨e, he, hr⟩, hl⟩
  · obtain ⟨t', rfl⟩ : ∃ t', u' = [t'] := by
      have := congrArg List.length h
      exact List.length_eq_one_iff.1 (by simpa using this.symm)
    exact .inl ⟨t', rfl, by rw [← assign_base (by simpa using h)]; exact hb⟩
  · right
    constructor
    · have := c51 (F := F) frames ⟨u, 0⟩ ⟨u', 0⟩ h
      rw [he] at this
      cases hp : parseF15 frames (Ers.new : Ers F) ⟨u', 0⟩ with
      | error x => rw [hp] at this; exact this.elim
      | ok p =>
        obtain ⟨b, e'⟩ := p
        rw [hp] at this
        obtain ⟨rfl, _, h3, _⟩ := this
        refine ⟨e', rfl, ?_⟩
        have h4 : (e.elements.map noPlace).map (·.rules) = (e'.elements.map noPlace).map (·.rules) := by rw [noPlace_of h3]
        rw [List.map_map, List.map_map] at h4
        have h5 := congrArg List.getLast? h4
        rw [List.getLast?_map, List.getLast?_map] at h5
        exact h5.symm.trans hr
    · have := congrArg List.getLast? h
      rw [List.getLast?_map, List.getLast?_map] at this
      rw [← this]; exact hl

/-- **C63** for texts: `src` is a layout of the words of `u ++ v`, `src'` one of the words of `u ++ w :: v`. -/
theorem c63_text {frames : Nat} {ws src src' : Str} {u v : List Token} {w : Token} {e : Ers F}
    (hs : Layout ws ((u ++ v).map (·.text)) src) (hs' : Layout ws ((u ++ w :: v).map (·.text)) src')
    (hv : v ≠ [] ∨ ¬ Closed u) (hb : Between F frames u) (hw : Stray w) (hf : 4 * (u ++ w :: v).length ≤ frames)
    (h : parseF15 frames (Ers.new : Ers F) ⟨tokenizeList ws src, 0⟩ = .ok (true, e)) :
    ∃ e' w' r n, parseF15 frames (Ers.new : Ers F) ⟨tokenizeList ws src', 0⟩ = .ok (false, e') ∧
      e'.elements.map noPlace = e.elements.map noPlace ∧ e'.derived = e.derived ∧
      (tokenizeList ws src')[u.length]? = some w' ∧ w'.text = w.text ∧
      e'.errors = [r] ∧ ErrorIs (assignSyntax w') n r := by
  have ht := c04_layout ws src _ hs
  have ht' := c04_layout ws src' _ hs'
  rw [List.map_append, List.map_cons] at ht'
  obtain ⟨u', x, hx, hu', hx'⟩ := List.map_eq_append_iff.1 ht'
  obtain ⟨w', v', rfl, hw', hv'⟩ := List.map_eq_cons_iff.1 hx'
  have hl : u'.length = u.length := by have := congrArg List.length hu'; simpa using this
  have hp := c51 (F := F) frames ⟨tokenizeList ws src, 0⟩ ⟨u' ++ v', 0⟩ (by
    show _ = (u' ++ v').map (·.text)
    rw [ht, List.map_append, List.map_append, hu', hv'])
  rw [h] at hp
  cases h1 : parseF15 frames (Ers.new : Ers F) ⟨u' ++ v', 0⟩ with
  | error x => rw [h1] at hp; exact hp.elim
  | ok q =>
    obtain ⟨b, e1⟩ := q
    rw [h1] at hp
    obtain ⟨rfl, hd, he, _⟩ := hp
    obtain ⟨e', r, n, g1, g2, g3, g4, g5⟩ := c63_one (F := F) (frames := frames) (u := u') (v := v') (w := w')
      (by
        rcases hv with hv | hc
        · left; rintro rfl; exact hv (by simpa using hv'.symm)
        · exact .inr fun h => hc (closed_same hu' h))
      (between_same hu'.symm hb) (hw.same hw'.symm) (by
        have := congrArg List.length hv'
        simp only [List.length_append, List.length_cons, List.length_map] at this hf ⊢
        omega) h1
    refine ⟨e', w', r, n, ?_, ?_, ?_, ?_, hw', g4, g5⟩
    · rw [hx]; exact g1
    · rw [g2, noPlace_of he]
    · rw [g3, hd]
    · rw [hx, ← hl]; simp

/-! ### Concrete cases -/

theorem between_check {s : Str}
    (h : check s (fun b e => b && decide (e.elements.getLast?.map (·.rules) = some (py! "IFR"))) = true)
    (hc : decide ((tokenizeList f15Whitespace s).getLast?.map (·.text) = some (py! "C")) = false) :
    Between Rat 1000 (tokenizeList f15Whitespace s) := by
  obtain ⟨b, e, h1, h2⟩ := check_ok h
  simp only [Bool.and_eq_true, decide_eq_true_eq] at h2
  obtain ⟨rfl, h2⟩ := h2
  exact .inr ⟨⟨e, h1, h2⟩, of_decide_eq_false hc⟩

/-- A route with a level change and a STAR, cut in three. -/
@[irreducible] def pieceA : List Token := tokenizeList f15Whitespace (py! "N0450F350 LNZ DCT")
@[irreducible] def pieceB : List Token := tokenizeList f15Whitespace (py! "PNT/N0460F360")
@[irreducible] def pieceC : List Token := tokenizeList f15Whitespace (py! "UL856 XYZ ALB1A")
/-- Two stray words. -/
@[irreducible] def strayX : Token := { text := py! "??" , start := 0, stop := 2, base := .UNKNOWN, sub := .UNKNOWN }
@[irreducible] def strayY : Token := { text := py! "1230", start := 0, stop := 4, base := .UNKNOWN, sub := .UNKNOWN }

theorem example_between : Between Rat 1000 pieceA ∧ Between Rat 1000 (pieceA ++ pieceB) := by
  constructor
  · exact between_same (u := tokenizeList f15Whitespace (py! "N0450F350 LNZ DCT")) (by decide +kernel)
      (between_check (by decide +kernel) (by decide +kernel))
  · exact between_same (u := tokenizeList f15Whitespace (py! "N0450F350 LNZ DCT PNT/N0460F360")) (by decide +kernel)
      (between_check (by decide +kernel) (by decide +kernel))

theorem example_joined : ∃ e : Ers Rat,
    parseF15 1000 Ers.new ⟨inPieces [(pieceA, strayX), ([], strayY), (pieceB, strayX)] pieceC, 0⟩ = .ok (true, e) ∧
    e.elements.map (·.name) =
      [py! "ADEP", py! "LNZ", py! "DCT", py! "PNT", py! "UL856", py! "XYZ", py! "ALB1A", py! "ADES"] := by
  have h3 : check (py! "N0450F350 LNZ DCT PNT/N0460F360 UL856 XYZ ALB1A") (fun b e => b &&
      e.elements.map (·.name) = [py! "ADEP", py! "LNZ", py! "DCT", py! "PNT", py! "UL856", py! "XYZ", py! "ALB1A", py! "ADES"]) = true := by
    decide +kernel
  obtain ⟨b, e, h4, h5⟩ := check_ok h3
  simp only [Bool.and_eq_true, decide_eq_true_eq] at h5
  obtain ⟨rfl, h5⟩ := h5
  obtain ⟨e1, h6, h7⟩ := same_words (T' := inPieces [(pieceA, strayX), ([], strayY), (pieceB, strayX)] pieceC) h4 (by decide +kernel)
  refine ⟨e1, h6, ?_⟩
  have := congrArg (List.map (·.name)) h7
  rw [List.map_map, List.map_map] at this
  exact this.symm.trans h5

/-- Three stray words, two of them together: three errors, the same elements. -/
example : ∃ e' : Ers Rat,
    parseF15 1000 Ers.new ⟨interspersed [(pieceA, strayX), ([], strayY), (pieceB, strayX)] pieceC, 0⟩ = .ok (false, e') ∧
    e'.errors.length = 3 ∧ e'.elements.map (·.name) =
      [py! "ADEP", py! "LNZ", py! "DCT", py! "PNT", py! "UL856", py! "XYZ", py! "ALB1A", py! "ADES"] := by
  obtain ⟨e, h, hn⟩ := example_joined
  obtain ⟨h1, h2⟩ := example_between
  have hX : Stray strayX ∧ Foreign strayX := by unfold Stray Foreign; decide +kernel
  have hY : Stray strayY ∧ Foreign strayY := by unfold Stray Foreign; decide +kernel
  obtain ⟨e', g1, g2, _, g4, _⟩ := c63 (F := Rat) (frames := 1000) (ps := [(pieceA, strayX), ([], strayY), (pieceB, strayX)])
    (ts := pieceC) (.inl (by decide +kernel))
    (by
      intro k hk
      have hk : k < 3 := hk
      obtain rfl | rfl | rfl : k = 0 ∨ k = 1 ∨ k = 2 := by omega
      · simpa using h1
      · simpa using h1
      · simpa using h2)
    (by
      intro p hp
      simp only [List.mem_cons, List.not_mem_nil, or_false] at hp
      rcases hp with rfl | rfl | rfl
      · exact ⟨hX.1, fun _ => hX.2⟩
      · exact ⟨hY.1, fun _ => hY.2⟩
      · exact ⟨hX.1, fun _ => hX.2⟩)
    (by decide +kernel) h
  exact ⟨e', g1, g4, by rw [g2]; exact hn⟩

/-- A stray word at the very end, and the same in a text with another layout. -/
example :
    (∃ e' r n, parseF15 1000 (Ers.new : Ers Rat) ⟨(pieceA ++ pieceB) ++ [strayX], 0⟩ = .ok (false, e') ∧
      e'.errors = [r] ∧ ErrorIs (assignSyntax strayX) n r) ∧
    (∃ (e' : Ers Rat) (r : Record Rat), parseText (py! "N0450F350 \nLNZ DCT ??\tPNT /N0460F360") = .ok (false, e') ∧ e'.errors = [r]) := by
  obtain ⟨h1, h2⟩ := example_between
  have hX : Stray strayX := by unfold Stray; decide +kernel
  have h3 : check (py! "N0450F350 LNZ DCT PNT/N0460F360") (fun b _ => b) = true := by decide +kernel
  obtain ⟨b, e, h4, rfl⟩ := check_ok h3
  constructor
  · obtain ⟨e1, h5, _⟩ := same_words (T' := (pieceA ++ pieceB) ++ []) h4 (by decide +kernel)
    obtain ⟨e', r, n, g1, _, _, g4, g5⟩ := c63_one (F := Rat) (frames := 1000) (w := strayX)
      (.inr (by
        rintro ⟨t, h, hb⟩
        have h6 : ((pieceA ++ pieceB).getLast?.map fun t => (assignSyntax t).base) = some .SPEED_ALTITUDE := by decide +kernel
        rw [h] at h6
        have h6 : (assignSyntax t).base = .SPEED_ALTITUDE := Option.some.inj h6
        rw [h6] at hb
        exact absurd hb (by decide)))
      h2 hX (by decide +kernel) h5
    exact ⟨e', r, n, g1, g4, g5⟩
  · obtain ⟨e', w', r, n, g1, _, _, _, _, g4, _⟩ := c63_text (F := Rat) (frames := 1000) (ws := f15Whitespace)
      (src := py! "N0450F350 LNZ DCT PNT/N0460F360") (src' := py! "N0450F350 \nLNZ DCT ??\tPNT /N0460F360")
      (u := pieceA) (v := pieceB) (w := strayX)
      (by
        have h := c04_layout_exists f15Whitespace (py! "N0450F350 LNZ DCT PNT/N0460F360")
        have h' : (tokenizeList f15Whitespace (py! "N0450F350 LNZ DCT PNT/N0460F360")).map (·.text) =
          (pieceA ++ pieceB).map (·.text) := by decide +kernel
        rw [h'] at h; exact h)
      (by
        have h := c04_layout_exists f15Whitespace (py! "N0450F350 \nLNZ DCT ??\tPNT /N0460F360")
        have h' : (tokenizeList f15Whitespace (py! "N0450F350 \nLNZ DCT ??\tPNT /N0460F360")).map (·.text) =
          (pieceA ++ strayX :: pieceB).map (·.text) := by decide +kernel
        rw [h'] at h; exact h)
      (.inl (by decide +kernel)) h1 hX (by decide +kernel) h4
    exact ⟨e', r, g1, g4⟩

/-- Why `Closed` is excluded at the end: a word after a STAR costs two errors. -/
example : check (py! "N0450F350 PNT ALB1A ??") (fun b e => !b && e.errors.length = 2) = true := by decide +kernel

/-- Why the place after `C` is excluded: the cruise climb is lost, and there is a second error. -/
example : check (py! "N0450F350 PNT C ?? /51N050W/M082F290F350 ABC") (fun b e => !b && e.errors.length = 2) = true := by
  decide +kernel

/-- Why free text is excluded: there a stray word is text and no error. -/
example : check (py! "N0450F350 PNT VFR ?? ABC") (fun b e => b && e.errors.length = 0) = true := by decide +kernel

end F15
