import Verif.Lemmas.ErrOrder
import Verif.Props.Sequence
import Verif.Props.Tokenizer
import Verif.Spec.Causal
import Verif.Spec.Example
/-!
# C54: the errors are reported in the order of the text

Except error 28 (a cruise climb that is never completed is only complained about at the end) and the errors about a point that was
refused with error 48 (that point is dealt with again after the rest has been read).
-/

namespace F15
open Spec

set_option linter.unusedSectionVars false
variable {F : Type} [PyFloat F]

/-- The run keeps the order. -/
theorem run_ordered {t : Token} {p : List Token} (hT : ∀ u ∈ t :: p, Typed u) {n : Nat} {e : Ers F} (ho : InOrder e (t :: p))
    {e1 : Ers F} (h : runL n e t p = .ok e1) : ∃ ts, InOrder e1 ts := by
  have ih := ord_exec (F := F) hT n
  have hs : p <:+ t :: p := List.suffix_cons _ _
  have go : ∀ c, argOf c = [t] → Pre (t :: p) p c → KeepsOrd e p (exec n c ⟨e, p⟩) := fun c ha hc =>
    OrdIH.one ih ho.tail hs ha (by simp) ho.fresh hc
  unfold runL at h
  cases hb : t.base <;> rw [hb] at h
  case SPEED_VFR =>
    dsimp only at h
    have g := go (.assignSpeedVfr t) rfl ⟨by simp, hb⟩
    cases r : exec n (.assignSpeedVfr t) (⟨e, p⟩ : St (List Token) F) with
    | error u => rw [r] at h; cases h
    | ok q =>
      rw [r] at h g
      have k := (g q.2.ers q.2.toks rfl).1
      dsimp only at h
      rw [setFirst_eq _ k.ne] at h
      cases h
      have hst : placesOf ({ q.2.ers with recs := mapOldest toVfr q.2.ers.recs } : Ers F) = placesOf q.2.ers := by
        obtain ⟨a, o, ha⟩ := split_last _ k.ne
        unfold placesOf
        dsimp only
        rw [ha, mapOldest_append, List.map_append, List.map_append]; rfl
      refine ⟨q.2.toks, k.errs, k.ahead, k.toks, ?_, by rw [hst]; exact k.recs, by rw [hst]; exact k.aheadR⟩
      show mapOldest toVfr q.2.ers.recs ≠ []
      obtain ⟨a, o, ha⟩ := split_last _ k.ne
      rw [ha, mapOldest_append]; simp
  case SPEED_ALTITUDE =>
    dsimp only at h
    have g := go (.assignSpeedAltitude t) rfl ⟨by simp, hb⟩
    cases r : exec n (.assignSpeedAltitude t) (⟨e, p⟩ : St (List Token) F) with
    | error u => rw [r] at h; cases h
    | ok q =>
      rw [r] at h g
      have k := (g q.2.ers q.2.toks rfl).1
      dsimp only at h
      split at h
      · rename_i hp
        subst hp
        -- the errors so far are not after `t`
        have hq : q.2 = ⟨(Act.level t).run e, []⟩ := by
          cases n with
          | zero => exact absurd r (by simp [exec])
          | succ n =>
            change step (exec n) (.assignSpeedAltitude t) ⟨e, []⟩ = _ at r
            rw [step_level _ t (hT t (by simp)) hb e [] ho.ne] at r
            cases r; rfl
        have hf : FreshTok q.2.ers q.2.toks t := by
          rw [hq]
          exact FreshTok.act ⟨fun u hu => (by cases hu), ho.fresh.errs⟩ ho.ne (.level t) rfl
        have g2 := OrdIH.one ih (c := .addErrorAndReSync t 49) k (by rw [hq]; exact List.nil_suffix) rfl (by simp) hf ⟨by simp, by decide⟩
        cases r2 : exec n (.addErrorAndReSync t 49) q.2 with
        | error u => rw [r2] at h; cases h
        | ok v =>
          rw [r2] at h; cases h
          exact ⟨_, (g2 v.2.ers v.2.toks r2).1⟩
      · cases h; exact ⟨_, k⟩
  all_goals
    dsimp only at h
    have g := go (.addErrorAndReSync t 1) rfl ⟨by simp, by decide⟩
    cases r : exec n (.addErrorAndReSync t 1) (⟨e, p⟩ : St (List Token) F) with
    | error u => rw [r] at h; cases h
    | ok q =>
      rw [r] at h g; cases h
      exact ⟨_, (g q.2.ers q.2.toks rfl).1⟩

/-- After a parse: what holds before the ADES is added. -/
theorem parse_ordered {n : Nat} {tokens : Tokens} (hs : tokens.toks.Pairwise fun t u => t.start ≤ u.start) {b : Bool} {e : Ers F}
    (h : parseF15 n Ers.new tokens = .ok (b, e)) :
    (e.errors = [nullErr] ∧ e.elements.dropLast = Ers.new.elements) ∨ ∃ d ts, InOrder d ts ∧ e.errors = d.errs.reverse ∧
      e.elements.dropLast = d.recs.reverse := by
  have hT : ∀ u ∈ typedTokens tokens, Typed u := fun u hu => typed_map hu
  have hst : (typedTokens tokens).Pairwise fun t u => t.start ≤ u.start := by
    unfold typedTokens
    rw [List.pairwise_map]
    have as : ∀ u : Token, (assignSyntax u).start = u.start := by
      intro u; unfold assignSyntax; dsimp only; split <;> rfl
    simpa only [as] using hs
  rw [parse_eq] at h
  change parseL n _ (typedTokens tokens) = _ at h
  cases ht : typedTokens tokens with
  | nil =>
    rw [ht] at h
    have h' := (Prod.mk.inj (Except.ok.inj h)).2
    rw [← h']
    exact .inl ⟨rfl, rfl⟩
  | cons t p =>
    rw [ht] at h hT hst
    have ho : InOrder (F := F) Ers.new (t :: p) := ⟨List.Pairwise.nil, fun a ha => (by cases ha), hst, new_ne,
      List.pairwise_singleton _ _, fun a ha u _ => by rw [List.mem_singleton.1 ha]; exact Nat.zero_le _⟩
    unfold parseL at h
    dsimp only at h
    cases r : runL n (Ers.new (F := F)) t p with
    | error u => rw [r] at h; cases h
    | ok d =>
      rw [r] at h
      obtain ⟨ts, k⟩ := run_ordered hT ho r
      dsimp only at h
      rw [finish_eq _ k.ne] at h
      have q : finErs d = e := (Prod.mk.inj (Except.ok.inj h)).2
      refine .inr ⟨d, ts, k, by rw [← q]; rfl, ?_⟩
      rw [← q]
      show (adesRec _ :: d.recs).reverse.dropLast = _
      rw [List.reverse_cons, List.dropLast_concat]

/-- **C54** The errors are in the order of the text, except those out of turn. -/
theorem c54 {n : Nat} {tokens : Tokens} (hs : tokens.toks.Pairwise fun t u => t.start ≤ u.start) {b : Bool} {e : Ers F}
    (h : parseF15 n Ers.new tokens = .ok (b, e)) : ErrorsInOrder e := by
  unfold ErrorsInOrder
  rcases parse_ordered hs h with ⟨h1, _⟩ | ⟨d, ts, k, herr, _⟩
  · rw [h1]; simp
  · rw [herr, List.pairwise_reverse]
    refine k.errs.imp fun {x y} hxy => hxy.imp id ?_
    rintro ⟨u, m, rfl, hm⟩
    rcases hm with rfl | hm
    · exact .inl ⟨u, errRec_is (by decide)⟩
    · exact .inr ⟨u, ⟨_, by rw [herr]; simpa using hm, errRec_is (by decide)⟩, rfl, rfl, rfl⟩

/-- **C20 (in full generality)** Whatever the field 15, the elements are in the order of the text, except for points that were refused with
error 48, which can come later. -/
theorem c20_order {n : Nat} {tokens : Tokens} (hs : tokens.toks.Pairwise fun t u => t.start ≤ u.start) {b : Bool} {e : Ers F}
    (h : parseF15 n Ers.new tokens = .ok (b, e)) : ElementsInOrder e := by
  unfold ElementsInOrder
  rcases parse_ordered hs h with ⟨_, h1⟩ | ⟨d, ts, k, herr, hel⟩
  · rw [h1]; exact List.pairwise_singleton _ _
  · rw [hel, List.pairwise_reverse]
    have := k.recs
    unfold placesOf at this
    rw [List.pairwise_map] at this
    refine this.imp fun {x y} hxy => hxy.imp id ?_
    rintro ⟨u, hu, hm⟩
    exact ⟨u, ⟨_, by rw [herr]; simpa using hm, errRec_is (by decide)⟩, hu⟩

/-- **C20 (in full generality)** for texts. -/
theorem c20_order_text {n : Nat} (ws s : Str) {b : Bool} {e : Ers F}
    (h : parseF15 n Ers.new ⟨tokenizeList ws s, 0⟩ = .ok (b, e)) : ElementsInOrder e := by
  refine c20_order ?_ h
  have dis := c02_disjoint ws s
  refine List.Pairwise.imp_of_mem ?_ dis
  intro x y hx hy hxy
  have := (c01_locations ws s x hx).1
  omega

/-- **C54** for texts. -/
theorem c54_text {n : Nat} (ws s : Str) {b : Bool} {e : Ers F}
    (h : parseF15 n Ers.new ⟨tokenizeList ws s, 0⟩ = .ok (b, e)) : ErrorsInOrder e := by
  refine c54 ?_ h
  have dis := c02_disjoint ws s
  refine List.Pairwise.imp_of_mem ?_ dis
  intro x y hx hy hxy
  have := (c01_locations ws s x hx).1
  omega

/-- **C54** In particular, without errors 28 and 48, the errors are in the order of the text. -/
theorem c54_sorted {n : Nat} (ws s : Str) {b : Bool} {e : Ers F}
    (h : parseF15 n Ers.new ⟨tokenizeList ws s, 0⟩ = .ok (b, e))
    (h28 : ∀ t, ∀ r ∈ e.errors, ¬ ErrorIs t 28 r) (h48 : ∀ t, ∀ r ∈ e.errors, ¬ ErrorIs t 48 r) :
    e.errors.Pairwise fun r r' => r.start ≤ r'.start := by
  refine List.Pairwise.imp_of_mem ?_ (c54_text ws s h)
  intro x y hx hy hxy
  rcases hxy with h | ⟨t, h⟩ | ⟨t, ⟨r, hr, h⟩, _⟩
  · exact h
  · exact absurd h (h28 t y hy)
  · exact absurd h (h48 t r hr)

/-! ## Examples -/

/-- Three errors in order. -/
example : check (py! "N0450F350 ABC ABC!! N0450F350 UL9 UL8 XX!!") (fun b e => !b && (e.errors.map (·.start)) = [14, 34, 38]) = true := by
  decide +kernel

/-- Error 28 comes last, although its token is the first one complained about: errors 28 must be excepted. -/
example : check (py! "N0450F350 ABC C/DEF UL9 GHI UL8 N0450F350F370") (fun _ e => (e.errors.map fun r => (r.name, r.start)) =
      [((py! "UL9"), 20), ((py! "N0450F350F370"), 32), ((py! "DEF"), 16)]) = true := by
  decide +kernel

/-- A point refused with error 48 is complained about again at the end: such points must be excepted. -/
example : check (py! "N0450F350 ABC UL9 5060N00130W XXX!!") (fun _ e => (e.errors.map fun r => (r.name, r.start)) =
      [((py! "5060N00130W"), 18), ((py! "XXX!!"), 30), ((py! "5060N00130W"), 18)]) = true := by
  decide +kernel

/-- Two refused points, between and after others: they come last, in reverse order. All other elements are in order. -/
example : check (py! "N0450F350 ABC UL9 50N010E UL8 51N011E DCT DEF") (fun _ e => (e.elements.map fun r => (r.name, r.start)) =
      [((py! "ADEP"), 0), ((py! "ABC"), 10), ((py! "UL9"), 14), ((py! "UL8"), 26), ((py! "DCT"), 38), ((py! "DEF"), 42), ((py! "51N011E"), 30),
       ((py! "50N010E"), 18), ((py! "ADES"), 0)]) = true := by
  decide +kernel

end F15
