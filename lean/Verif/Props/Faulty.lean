import Verif.Props.Misfit
import Verif.Props.WrongNumbers
import Verif.Lemmas.Loose
import Verif.Lemmas.Kinds
/-!
# C90: faults add up

C78 is about wrong numbers, C63 and C86 are about inserted words. This is about both at once, any number of either.
-/

namespace F15
open Spec

set_option linter.unusedSectionVars false
variable {F : Type} [PyFloat F]

theorem msgs_about {u : List Token} {a : Act} (hn : a.isErr = false) (ht : a.tok ∈ u.map assignSyntax) : ∀ r ∈ (a.msgs : List (Record F)), About u r := by
  intro r hr
  obtain ⟨x, hx, hxa⟩ := List.mem_map.1 ht
  unfold Act.msgs at hr
  obtain ⟨n, hm, rfl⟩ := List.mem_map.1 hr
  refine ⟨x, hx, n, ?_⟩
  rw [← hxa]
  refine errRec_is ?_
  have := nums_number (hxa ▸ typed_assign x) (fun t m h => by rw [h] at hn; cases hn) hm
  exact (by decide : ∀ n ∈ [40, 42, 43, 44, 45, 46], (errorMessage n).isSome = true) n this

/-- The words of `qs` and `us`, of the kinds of an accepted field 15 with inserted words, are read as without the inserted words. -/
theorem faulty_reads {frames : Nat} {ps qs : List (List Token × Token)} {ts us : List Token} {e : Ers F}
    (h : parseF15 frames (Ers.new : Ers F) ⟨inPieces ps ts, 0⟩ = .ok (true, e))
    (hts : ts ≠ [] ∨ ¬ Closed (inPieces ps ts))
    (hb : ∀ k, k < ps.length → Between F frames ((ps.take (k + 1)).flatMap (·.1)))
    (hw : ∀ k p, ps[k]? = some p → UnfitAfter ((ps.take (k + 1)).flatMap (·.1)) p.2)
    (hfo : ∀ p ∈ ps, p.1 = [] → Foreign p.2)
    (hq : pieceKinds ps = pieceKinds qs) (hu : kinds ts = kinds us) :
    ∃ fr t A bs, (∀ a ∈ bs, a.isErr = false) ∧ Woven A bs (typedPieces qs) (us.map assignSyntax) ∧
      parseF15 fr (Ers.new : Ers F) ⟨inPieces qs us, 0⟩ = .ok (decide ((runs bs (Ers.new : Ers F)).errs = []), finErs (post t (runs bs Ers.new))) ∧
      parseF15 fr (Ers.new : Ers F) ⟨interspersed qs us, 0⟩ = .ok (decide ((runs A (Ers.new : Ers F)).errs = []), finErs (post t (runs A Ers.new))) := by
  have hne : (Ers.new : Ers F).recs ≠ [] := by intro h; cases h
  have hne' : (Ers.new : Ers F).elements ≠ [] := by simp [Ers.elements, new_ne]
  have hkinds : kindsOf ((inPieces ps ts).map assignSyntax) = kindsOf ((inPieces qs us).map assignSyntax) := by
    rw [kinds_typed, kinds_typed]
    unfold inPieces
    rw [kinds_append, kinds_append, kinds_flatMap, kinds_flatMap, hq, hu]
  have h0 := h
  rw [parse_eq] at h0
  obtain ⟨t0, rest0, as0, hts0, hs0, -⟩ := accepted (F := F) rfl rfl (fun x hx => typed_map hx) h0
  obtain ⟨bs, hbs⟩ := kinds_sent hs0 hkinds
  have hTj : ∀ x ∈ (inPieces qs us).map assignSyntax, Typed x := fun x hx => typed_map hx
  obtain ⟨fr, t, ht, hp⟩ := loose_parses (F := F) new_len hTj hbs
  have hnoerr : ∀ a ∈ bs, a.isErr = false := by
    generalize (inPieces qs us).map assignSyntax = L at hbs
    cases hbs with
    | ifr _ _ _ hr =>
      intro a ha
      rcases List.mem_cons.1 ha with rfl | ha
      · rfl
      · exact hr.noErr a ha
    | vfr _ hr =>
      intro a ha
      rcases List.mem_cons.1 ha with rfl | ha
      · rfl
      · exact hr.noErr a ha
  have htoks : ∀ a ∈ bs, a.tok ∈ (inPieces qs us).map assignSyntax := by
    generalize (inPieces qs us).map assignSyntax = L at hbs
    cases hbs with
    | ifr _ _ _ hr =>
      intro a ha
      rcases List.mem_cons.1 ha with rfl | ha
      · exact List.mem_cons_self
      · exact List.mem_cons_of_mem _ (hr.toks a ha)
    | vfr _ hr =>
      intro a ha
      rcases List.mem_cons.1 ha with rfl | ha
      · exact List.mem_cons_self
      · exact List.mem_cons_of_mem _ (hr.toks a ha)
  have hp : parseF15 fr (Ers.new : Ers F) ⟨inPieces qs us, 0⟩ =
      .ok (decide ((runs bs (Ers.new : Ers F)).errs = []), finErs (post t (runs bs Ers.new))) := by rw [parse_eq]; exact hp
  cases qs with
  | nil => exact ⟨fr, t, bs, bs, hnoerr, ⟨[], bs, rfl, rfl, rfl, by simp, htoks⟩, hp, hp⟩
  | cons q qs =>
  obtain ⟨v, w⟩ := q
  cases ps with
  | nil => cases hq
  | cons p ps =>
  obtain ⟨v', w'⟩ := p
  obtain ⟨hq1, hqs⟩ := List.cons.inj hq
  have hqs : pieceKinds ps = pieceKinds qs := hqs
  simp only [Prod.mk.injEq] at hq1
  obtain ⟨hv, hwb, hws⟩ := hq1
  cases v' with
  | nil =>
    exfalso
    have := hb 0 (by simp)
    rcases this with ⟨t, h, _⟩ | ⟨⟨e, h, _⟩, _⟩
    · cases h
    · rw [parse_eq] at h; cases h
  | cons t' u' =>
  cases v with
  | nil => cases hv
  | cons t1 u =>
  obtain ⟨ht1, hu1⟩ := List.cons.inj hv
  simp only [Prod.mk.injEq] at ht1
  cases ht
  have hsp : startPhase (assignSyntax t1) = startPhase (assignSyntax t') := by unfold startPhase; rw [ht1.1]
  have hT : ∀ x ∈ (interspersed ((t1 :: u, w) :: qs) us).map assignSyntax, Typed x := fun x hx => typed_map hx
  rw [typed_noisy] at hT
  rw [typed_inPieces] at hbs
  obtain ⟨A, n, hA, hrun⟩ := noisy_parses (F := F) hT hbs (by
      intro cs hr
      obtain ⟨z, hz⟩ := hr.to
      refine chain_of _ hz ?_ (by intro h; cases h) ?_ ?_ ?_
      · rcases hts with h | hc
        · left
          intro h'
          rw [List.map_eq_nil_iff] at h'
          rw [h'] at hu
          exact h (List.map_eq_nil_iff.1 hu)
        · right
          intro hz'
          apply hc
          obtain ⟨x, hx, hxb⟩ := last_none hz hz'
          have hx : (inPieces (typedPieces ((t1 :: u, w) :: qs)) (us.map assignSyntax)).getLast? = some x := by
            show (assignSyntax t1 :: inPieces ((u.map assignSyntax, assignSyntax w) :: typedPieces qs) (us.map assignSyntax)).getLast? = _
            rw [List.getLast?_cons]
            have : (inPieces ((u.map assignSyntax, assignSyntax w) :: typedPieces qs) (us.map assignSyntax)).getLast? = some x := hx
            rw [this]; rfl
          rw [← typed_inPieces] at hx
          have hl := congrArg List.getLast? hkinds
          unfold kindsOf at hl
          rw [List.getLast?_map, List.getLast?_map, List.getLast?_map, hx] at hl
          cases hy : (inPieces ((t' :: u', w') :: ps) ts).getLast? with
          | none => rw [hy] at hl; cases hl
          | some y =>
            rw [hy] at hl
            simp only [Option.map_some, Option.some.injEq, Prod.mk.injEq] at hl
            refine ⟨y, hy, ?_⟩
            rw [hl.1]; simpa using hxb
      · intro p hp
        rcases List.mem_cons.1 hp with rfl | hp
        · exact typed_assign _
        · obtain ⟨p', hp', rfl⟩ := List.mem_map.1 hp
          exact typed_assign _
      · intro k p hp hk he
        cases k with
        | zero => rcases hk with h | h <;> cases h
        | succ k =>
          have hp : (typedPieces qs)[k]? = some p := hp
          unfold typedPieces at hp
          rw [List.getElem?_map] at hp
          cases hqk : qs[k]? with
          | none => rw [hqk] at hp; cases hp
          | some p' =>
            rw [hqk] at hp
            cases hp
            obtain ⟨p0, hp0, hk0, hb0, hs0⟩ := pieceKinds_get hqs hqk
            have hnil : p0.1 = [] := by
              have : p'.1 = [] := by simpa using he
              rw [this] at hk0
              exact List.map_eq_nil_iff.1 hk0
            have := foreignBase_of (hfo p0 (List.mem_cons_of_mem _ (List.mem_of_getElem? hp0)) hnil)
            show foreignBase (assignSyntax p'.2).base = true
            rw [hb0]; exact this
      · intro k pk hk
        have hpk : ∃ q, ((t1 :: u, w) :: qs)[k]? = some q ∧ pk.2 = assignSyntax q.2 := by
          cases k with
          | zero => cases hk; exact ⟨_, rfl, rfl⟩
          | succ k =>
            have hk : (typedPieces qs)[k]? = some pk := hk
            unfold typedPieces at hk
            rw [List.getElem?_map] at hk
            cases hqk : qs[k]? with
            | none => rw [hqk] at hk; cases hk
            | some p' => rw [hqk] at hk; cases hk; exact ⟨p', hqk, rfl⟩
        obtain ⟨pq, hpq, hpq'⟩ := hpk
        obtain ⟨p0, hp0, hk0, hb0, hs0⟩ := pieceKinds_get hq hpq
        have hlt := (List.getElem?_eq_some_iff.1 hp0).1
        have hbt := hb k hlt
        have hun := hw k p0 hp0
        rw [List.take_succ_cons, List.flatMap_cons, List.cons_append] at hbt hun
        obtain ⟨as, y, hr, ho⟩ := between_run hbt
        obtain ⟨cs, hcs⟩ := kinds_runTo hr ((u ++ (qs.take k).flatMap (·.1)).map assignSyntax) (by
          rw [kinds_typed, kinds_typed, kinds_append, kinds_append, kinds_flatMap, kinds_flatMap, kinds_take, kinds_take, hqs]
          exact congrArg (· ++ _) hu1)
        refine ⟨cs, y, ?_, ho, ?_⟩
        · rw [List.map_append, List.map_flatMap, ← hsp] at hcs
          rw [List.take_succ_cons, List.flatMap_cons]
          show RunToG _ _ (u.map assignSyntax ++ ((typedPieces qs).take k).flatMap _) _ _
          unfold typedPieces
          rw [← List.map_take, List.flatMap_map]
          exact hcs
        · rintro z rfl
          rw [hpq', kinds_unfit hb0 hs0]
          exact hun _ _ _ z rfl hr ho)
  have hp2 : parseF15 n (Ers.new : Ers F) ⟨interspersed ((t1 :: u, w) :: qs) us, 0⟩ =
      .ok (decide ((runs A (Ers.new : Ers F)).errs = []), finErs (post (assignSyntax t1) (runs A Ers.new))) := by
    rw [parse_eq]
    show parseL n Ers.new ((interspersed ((t1 :: u, w) :: qs) us).map assignSyntax) = _
    rw [typed_noisy]
    show parseL n Ers.new (assignSyntax t1 :: noisy ((u.map assignSyntax, assignSyntax w) :: typedPieces qs) (us.map assignSyntax)) = _
    unfold parseL
    have hrun' : runL n (Ers.new : Ers F) (assignSyntax t1)
        (noisy ((u.map assignSyntax, assignSyntax w) :: typedPieces qs) (us.map assignSyntax)) = _ := hrun
    dsimp only
    rw [hrun']
    dsimp only
    rw [finish_eq _ (post_ne _ _ (runs_ne _ _ hne)), post_errs]
  refine ⟨max fr n, assignSyntax t1, A, bs, hnoerr, hA.2, ?_, ?_⟩
  · rw [c16_same (Nat.le_max_left fr n) _ _ (by rw [hp]; intro h; cases h), hp]
  · rw [c16_same (Nat.le_max_right fr n) _ _ (by rw [hp2]; intro h; cases h), hp2]

/-- **C90** Take an accepted field 15, cut it between items into pieces `ps` and `ts`, and put after each piece a word that cannot come next there (as in C86).
Take then any words `qs`, `us` of the same kinds, piece by piece, with whatever numbers in them. Without the inserted words they are read as C78 says: `f`. With
them the elements and the derived rules are those of `f`, and the errors are those of `f` with one more for each inserted word, which stands between the errors about the
words before it and the errors about the words after it. -/
theorem c90 {frames m : Nat} {ps qs : List (List Token × Token)} {ts us : List Token} {e : Ers F}
    (h : parseF15 frames (Ers.new : Ers F) ⟨inPieces ps ts, 0⟩ = .ok (true, e))
    (hts : ts ≠ [] ∨ ¬ Closed (inPieces ps ts))
    (hb : ∀ k, k < ps.length → Between F frames ((ps.take (k + 1)).flatMap (·.1)))
    (hw : ∀ k p, ps[k]? = some p → ¬ Extendable (((ps.take (k + 1)).flatMap (·.1) ++ [p.2]).map assignSyntax))
    (hk : ∀ p ∈ ps, (assignSyntax p.2).base ≠ .POINT ∧ (assignSyntax p.2).base ≠ .SID ∧ (p.1 = [] → Foreign p.2))
    (hq : pieceKinds ps = pieceKinds qs) (hu : kinds ts = kinds us)
    (hne : ∀ t ∈ inPieces qs us, t.text ≠ [])
    (hm : 4 * (interspersed qs us).length ≤ m) :
    ∃ f e' : Ers F,
      (∀ l, Meaning (typedTokens ⟨inPieces qs us, 0⟩) l ↔ l = f.elements) ∧
      Reported [] (roles (typedTokens ⟨inPieces qs us, 0⟩)) f.errors ∧
      parseF15 m Ers.new ⟨inPieces qs us, 0⟩ = .ok (decide (f.errors = []), f) ∧
      parseF15 m Ers.new ⟨interspersed qs us, 0⟩ = .ok (decide (e'.errors = []), e') ∧
      e'.elements = f.elements ∧ e'.derived = f.derived ∧
      ∃ (parts : List (List (Record F) × Record F)) (last : List (Record F)), parts.length = qs.length ∧
        f.errors = parts.flatMap (·.1) ++ last ∧ e'.errors = parts.flatMap (fun x => x.1 ++ [x.2]) ++ last ∧
        (∀ (k : Nat) (x : List (Record F) × Record F) (q : List Token × Token), parts[k]? = some x → qs[k]? = some q → (∀ r ∈ x.1, About q.1 r) ∧ ∃ n, ErrorIs (assignSyntax q.2) n x.2) ∧
        ∀ r ∈ last, About us r := by
  have hl : qs.length = ps.length := by
    have := congrArg List.length hq
    unfold pieceKinds at this
    simpa using this.symm
  have hkinds : kinds (inPieces ps ts) = kinds (inPieces qs us) := by
    unfold inPieces
    rw [kinds_append, kinds_append, kinds_flatMap, kinds_flatMap, hq, hu]
  have hkt : (typedTokens ⟨inPieces ps ts, 0⟩).map (fun t => (t.base, t.sub)) = (typedTokens ⟨inPieces qs us, 0⟩).map fun t => (t.base, t.sub) := by
    show kindsOf ((inPieces ps ts).map assignSyntax) = kindsOf ((inPieces qs us).map assignSyntax)
    rw [kinds_typed, kinds_typed, hkinds]
  have hlen : (inPieces qs us).length ≤ (interspersed qs us).length := by
    unfold inPieces interspersed
    rw [List.length_append, List.length_append]
    refine Nat.add_le_add_right ?_ _
    clear hkt hkinds hl hne hm hq hu
    induction qs with
    | nil => simp
    | cons q qs ih => simp only [List.flatMap_cons, List.length_append]; omega
  obtain ⟨f, hf1, hf2, hf3⟩ := c78 (m := m) h hkt hne (Nat.le_trans (Nat.mul_le_mul_left 4 hlen) hm)
  have hun : ∀ k p, ps[k]? = some p → UnfitAfter ((ps.take (k + 1)).flatMap (·.1)) p.2 := by
    intro k p hp t u as z hu hr ho
    have hx := hw k p hp
    rw [hu] at hx
    obtain ⟨h1, h2, _⟩ := hk p (List.mem_of_getElem? hp)
    have hfirst : ∃ rest, inPieces ps ts = t :: rest := by
      unfold inPieces
      rw [← List.take_append_drop (k + 1) ps, List.flatMap_append, hu]
      exact ⟨_, rfl⟩
    obtain ⟨rest, hfirst⟩ := hfirst
    rw [hfirst, parse_eq] at h
    obtain ⟨t', rest', bs, heq, hs, _⟩ := accepted (F := F) rfl rfl (fun x hx => typed_map hx) h
    rw [List.map_cons] at heq hs
    obtain ⟨_, _, _, hn, hbt⟩ := sentRun_start hs
    exact unfit_of_not hbt hn hr ho h1 h2 hx
  obtain ⟨fr, t, A, bs, hno, ⟨segs, last, hsl, hA, hB, hseg, hlast⟩, hp1, hp2⟩ := faulty_reads h hts hb hun (fun p hp => (hk p hp).2.2) hq hu
  have hne' : (Ers.new : Ers F).elements ≠ [] := by simp [Ers.elements, new_ne]
  have move : ∀ (T : List Token) (r : Bool × Ers F), 4 * T.length ≤ m → parseF15 fr (Ers.new : Ers F) ⟨T, 0⟩ = .ok r →
      parseF15 m (Ers.new : Ers F) ⟨T, 0⟩ = .ok r := by
    intro T r hle hT
    rcases Nat.le_total fr m with h | h
    · rw [c16_same h _ _ (by rw [hT]; intro h; cases h), hT]
    · rw [← c16_same h _ _ (c16_enough hne' ⟨T, 0⟩ hle), hT]
  have hp1 := move _ _ (Nat.le_trans (Nat.mul_le_mul_left 4 hlen) hm) hp1
  have hp2 := move _ _ hm hp2
  have hff : f = finErs (post t (runs bs Ers.new)) := by
    rw [hf1] at hp1
    exact (Prod.mk.inj (Except.ok.inj hp1)).2
  have herr : ∀ as : List Act, (finErs (post t (runs as (Ers.new : Ers F)))).errors = as.flatMap Act.msgs := by
    intro as
    have : (finErs (post t (runs as (Ers.new : Ers F)))).errors = (runs as (Ers.new : Ers F)).errors := by
      unfold finErs post Ers.errors
      split <;> rfl
    rw [this, runs_errors]; rfl
  have hdec : ∀ as : List Act, decide ((runs as (Ers.new : Ers F)).errs = []) =
      decide ((finErs (post t (runs as (Ers.new : Ers F)))).errors = []) := by
    intro as
    have : (finErs (post t (runs as (Ers.new : Ers F)))).errors = (runs as (Ers.new : Ers F)).errors := by
      unfold finErs post Ers.errors
      split <;> rfl
    rw [this]; unfold Ers.errors; simp
  have hsl' : segs.length = qs.length := by rw [hsl]; unfold typedPieces; simp
  -- the acts that are no errors are the same
  have hfil : ∀ {S : List (List Act × Nat)} {P : List (List Token × Token)}, S.length = P.length → (∀ s ∈ S, ∀ a ∈ s.1, a.isErr = false) →
      ((S.zip P).flatMap (fun x => x.1.1 ++ [Act.err x.2.2 x.1.2])).filter (fun a => !a.isErr) = S.flatMap (·.1) := by
    intro S
    induction S with
    | nil => intro P _ _; simp
    | cons s S ih =>
      intro P hl hS
      cases P with
      | nil => cases hl
      | cons p P =>
        rw [List.zip_cons_cons, List.flatMap_cons, List.filter_append, List.filter_append, ih (by simpa using hl) (fun s hs => hS s (by simp [hs])),
          List.flatMap_cons, List.filter_cons_of_neg (by simp [Act.isErr]), List.filter_nil, List.append_nil]
        congr 1
        rw [List.filter_eq_self]
        intro a ha
        rw [hS s (by simp) a ha]; rfl
  have hsno : ∀ s ∈ segs, ∀ a ∈ s.1, a.isErr = false := by
    intro s hs a ha
    refine hno a ?_
    rw [hB, List.mem_append, List.mem_flatMap]
    exact .inl ⟨s, hs, ha⟩
  have hlno : ∀ a ∈ last, a.isErr = false := fun a ha => hno a (by rw [hB]; simp [ha])
  have hrecs : (runs A (Ers.new : Ers F)).recs = (runs bs (Ers.new : Ers F)).recs := by
    have e1 : last.filter (fun a => !a.isErr) = last := by
      rw [List.filter_eq_self]; intro a ha; rw [hlno a ha]; rfl
    have e2 : bs.filter (fun a => !a.isErr) = bs := by
      rw [List.filter_eq_self]; intro a ha; rw [hno a ha]; rfl
    rw [runs_recs_filter, runs_recs_filter, e2, hA, List.filter_append, hfil hsl hsno, e1, ← hB]
  have hfin : finErs (post t (runs A (Ers.new : Ers F))) =
      { finErs (post t (runs bs (Ers.new : Ers F))) with errs := (runs A (Ers.new : Ers F)).errs } := by
    unfold finErs post
    split <;> simp only [hrecs]
  refine ⟨f, finErs (post t (runs A Ers.new)), hf2, hf3, hf1, by rw [hp2, hdec], ?_, ?_, ?_⟩
  · rw [hff, hfin]; rfl
  · rw [hff, hfin]
  · refine ⟨(segs.zip (typedPieces qs)).map fun x => (x.1.1.flatMap Act.msgs, errRec x.2.2 x.1.2), last.flatMap Act.msgs, ?_, ?_, ?_, ?_, ?_⟩
    · rw [List.length_map, List.length_zip, hsl, Nat.min_self]; unfold typedPieces; simp
    · rw [hff, herr, hB, List.flatMap_append, List.flatMap_map]
      congr 1
      have : segs = (segs.zip (typedPieces qs)).map (·.1) := by rw [List.map_fst_zip (by omega)]
      conv => lhs; rw [this, List.flatMap_map, List.flatMap_assoc]
    · rw [herr, hA, List.flatMap_append, List.flatMap_map, List.flatMap_assoc]
      congr 1
      refine congrArg (fun g => List.flatMap g _) (funext fun x => ?_)
      rw [List.flatMap_append]; rfl
    · intro k x q hx hqk
      rw [List.getElem?_map] at hx
      cases hz : (segs.zip (typedPieces qs))[k]? with
      | none => rw [hz] at hx; cases hx
      | some y =>
        rw [hz] at hx
        cases hx
        have hmem := List.mem_of_getElem? hz
        obtain ⟨hy1, hy2⟩ := hseg y hmem
        rw [List.getElem?_zip_eq_some] at hz
        obtain ⟨z1, z2⟩ := hz
        unfold typedPieces at z2
        rw [List.getElem?_map, hqk] at z2
        have z2 := Option.some.inj z2
        refine ⟨fun r hr => ?_, y.1.2, ?_⟩
        · obtain ⟨a, ha, hra⟩ := List.mem_flatMap.1 hr
          refine msgs_about (hsno y.1 (List.mem_of_getElem? z1) a ha) ?_ r hra
          have := hy1 a ha
          rw [← z2] at this
          exact this
        · show ErrorIs _ _ (errRec y.2.2 y.1.2)
          rw [← z2]
          exact errRec_is hy2
    · intro r hr
      obtain ⟨a, ha, hra⟩ := List.mem_flatMap.1 hr
      exact msgs_about (hlno a ha) (hlast a ha) r hra

/-- **C90** in numbers: one error more for each inserted word. -/
theorem c90_count {frames m : Nat} {ps qs : List (List Token × Token)} {ts us : List Token} {e : Ers F}
    (h : parseF15 frames (Ers.new : Ers F) ⟨inPieces ps ts, 0⟩ = .ok (true, e))
    (hts : ts ≠ [] ∨ ¬ Closed (inPieces ps ts))
    (hb : ∀ k, k < ps.length → Between F frames ((ps.take (k + 1)).flatMap (·.1)))
    (hw : ∀ k p, ps[k]? = some p → ¬ Extendable (((ps.take (k + 1)).flatMap (·.1) ++ [p.2]).map assignSyntax))
    (hk : ∀ p ∈ ps, (assignSyntax p.2).base ≠ .POINT ∧ (assignSyntax p.2).base ≠ .SID ∧ (p.1 = [] → Foreign p.2))
    (hq : pieceKinds ps = pieceKinds qs) (hu : kinds ts = kinds us)
    (hne : ∀ t ∈ inPieces qs us, t.text ≠ [])
    (hm : 4 * (interspersed qs us).length ≤ m) {b b' : Bool} {f e' : Ers F}
    (hf : parseF15 m Ers.new ⟨inPieces qs us, 0⟩ = .ok (b, f)) (he : parseF15 m Ers.new ⟨interspersed qs us, 0⟩ = .ok (b', e')) :
    e'.elements = f.elements ∧ e'.derived = f.derived ∧ e'.errors.length = f.errors.length + qs.length ∧ f.errors.Sublist e'.errors := by
  obtain ⟨f1, e1, _, _, h1, h2, h3, h4, parts, last, h5, h6, h7, hr⟩ := c90 h hts hb hw hk hq hu hne hm
  clear hr
  rw [hf] at h1
  rw [he] at h2
  obtain ⟨_, rfl⟩ := Prod.mk.inj (Except.ok.inj h1)
  obtain ⟨_, rfl⟩ := Prod.mk.inj (Except.ok.inj h2)
  refine ⟨h3, h4, ?_, ?_⟩
  · rw [h6, h7, ← h5, List.length_append, List.length_append]
    clear h5 h6 h7
    induction parts with
    | nil => simp
    | cons x parts ih => simp only [List.flatMap_cons, List.length_append, List.length_cons, List.length_nil] at ih ⊢; omega
  · rw [h6, h7]
    refine List.Sublist.append ?_ (List.Sublist.refl _)
    clear h5 h6 h7
    induction parts with
    | nil => simp
    | cons x parts ih =>
      simp only [List.flatMap_cons]
      exact (List.sublist_append_left _ _).append ih

/-! ### An instance: `N0451F351 LNZ DCT [DCT] PNT/N0460F362` -/

/-- The words of `pieceA`, with a wrong level. -/
@[irreducible] def wrongA : List Token := tokenizeList f15Whitespace (py! "N0450F351 LNZ DCT")
/-- The words of `pieceB`, with a wrong level. -/
@[irreducible] def wrongB : List Token := tokenizeList f15Whitespace (py! "PNT/N0460F362")

example : ∃ f e' : Ers Rat, parseF15 1000 Ers.new ⟨wrongA ++ wrongB, 0⟩ = .ok (false, f) ∧
    parseF15 1000 Ers.new ⟨wrongA ++ secondDct :: wrongB, 0⟩ = .ok (false, e') ∧ e'.elements = f.elements ∧
    f.errors.length = 2 ∧ e'.errors.length = 3 := by
  have hi : ∀ a b : List Token, inPieces [(a, secondDct)] b = a ++ b := by intro a b; unfold inPieces; simp
  have hj : ∀ a b : List Token, interspersed [(a, secondDct)] b = a ++ secondDct :: b := by intro a b; unfold interspersed; simp
  obtain ⟨h1, _⟩ := example_between
  have h3 : check (py! "N0450F350 LNZ DCT PNT/N0460F360") (fun b _ => b) = true := by decide +kernel
  obtain ⟨b, _, h4, rfl⟩ := check_ok h3
  obtain ⟨e, h6, _⟩ := same_words (T' := pieceA ++ pieceB) h4 (by decide +kernel)
  have hd : (assignSyntax secondDct).base = .DCT := by decide +kernel
  have ho : ∃ o, pieceA.getLast? = some o ∧ (assignSyntax o).base = .DCT := by
    have : (pieceA.getLast?.map fun t => (assignSyntax t).base) = some .DCT := by decide +kernel
    cases hp : pieceA.getLast? with
    | none => rw [hp] at this; cases this
    | some o => rw [hp] at this; exact ⟨o, rfl, Option.some.inj this⟩
  obtain ⟨o, ho, hob⟩ := ho
  have secondDct_unfit : ¬ Extendable ((pieceA ++ [secondDct]).map assignSyntax) :=
    (c86_which h1 ho).1 (by rw [hob]; decide) (by rw [hd]; decide)
  obtain ⟨f, e', _, _, g1, g2, g3, _, parts, last, g5, g6, g7, _⟩ :=
    c90 (F := Rat) (frames := 1000) (m := 1000) (ps := [(pieceA, secondDct)]) (qs := [(wrongA, secondDct)]) (ts := pieceB) (us := wrongB) (e := e)
      (by rw [hi]; exact h6) (.inl (by decide +kernel))
      (by
        intro k hk
        obtain rfl : k = 0 := by simpa using hk
        simpa using h1)
      (by
        intro k p hk
        obtain rfl : k = 0 := by have := (List.getElem?_eq_some_iff.1 hk).1; simpa using this
        cases hk
        simpa using secondDct_unfit)
      (by
        intro p hm
        obtain rfl : p = (pieceA, secondDct) := by simpa using hm
        exact ⟨by rw [hd]; decide, by rw [hd]; decide, fun h => absurd h (by decide +kernel)⟩)
      (by decide +kernel) (by decide +kernel) (by decide +kernel) (by decide +kernel)
  rw [hi] at g1
  rw [hj] at g2
  have hc : (match parseF15 1000 (Ers.new : Ers Rat) ⟨wrongA ++ wrongB, 0⟩ with
      | .ok (_, f) => f.errors.length == 2 | .error _ => false) = true := by decide +kernel
  rw [g1] at hc
  have hl : f.errors.length = 2 := by simpa using hc
  have hl' : e'.errors.length = 3 := by
    obtain ⟨x, rfl⟩ := List.length_eq_one_iff.1 (show parts.length = 1 from g5)
    rw [g7]
    rw [g6] at hl
    simp only [List.flatMap_cons, List.flatMap_nil, List.append_nil, List.length_append, List.length_cons, List.length_nil] at hl ⊢
    omega
  refine ⟨f, e', ?_, ?_, g3, hl, hl'⟩
  · rw [g1, decide_eq_false]; intro h; rw [h] at hl; cases hl
  · rw [g2, decide_eq_false]; intro h; rw [h] at hl'; cases hl'

/-- The same with several wrong numbers and several inserted words, in one text: the errors stand in the order of the words they are about. -/
example : check (py! "N0450F351 XX12345 LNZ UL1 UL2 99N010E DCT DCT ABC370010/N0460F362 IFR PNT")
    (fun b e => !b && decide (e.errors.map (·.name) =
      [py! "N0450F351", py! "XX12345", py! "UL2", py! "99N010E", py! "DCT", py! "ABC370010", py! "N0460F362", py! "IFR"]) &&
      decide (e.elements.map (·.name) = [py! "ADEP", py! "LNZ", py! "UL1", py! "99N010E", py! "DCT", py! "ABC370010", py! "PNT", py! "ADES"])) = true := by
  decide +kernel

end F15
