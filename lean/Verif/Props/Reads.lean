import Verif.Lemmas.Reads
import Verif.Model.Full
import Verif.Props.Sequence
import Verif.Spec.Example
/-!
# C55: what `parse_f15` does with the tokens

The words and indices stay, the types are written into the tokens, and the cursor has passed all tokens when `parse_f15` returns — except that
after an error the parser may give up at a word that ends a break.
-/

namespace F15
open Spec

set_option linter.unusedSectionVars false
variable {F : Type} [PyFloat F]

theorem dispatch_full (frames : Nat) (e : Ers F) (ts : Tokens) (token : Token) :
    dispatch frames e ts token = (dispatchFull frames e ts token).map (·.1) := by
  unfold dispatch dispatchFull
  cases token.base
  case SPEED_VFR =>
    dsimp only
    cases exec frames (.assignSpeedVfr token) (⟨e, ts⟩ : St Tokens F) with
    | error x => rfl
    | ok r =>
      show setFirstRules r.2.ers _ = Except.map _ (setFirstRules r.2.ers _ >>= _)
      cases setFirstRules r.2.ers (py! "VFR") <;> rfl
  case SPEED_ALTITUDE =>
    dsimp only
    cases exec frames (.assignSpeedAltitude token) (⟨e, ts⟩ : St Tokens F) with
    | error x => rfl
    | ok r =>
      show (if _ then _ else _ : Except PyErr (Ers F)) = Except.map _ (if _ then _ else _)
      split
      · cases exec frames (.addErrorAndReSync token 49) r.2 <;> rfl
      · rfl
  all_goals
    dsimp only
    cases exec frames (.addErrorAndReSync token 1) (⟨e, ts⟩ : St Tokens F) <;> rfl

/-- `parseF15` is `parseF15Full` without the tokens. -/
theorem full_eq (frames : Nat) (e : Ers F) (tokens : Tokens) :
    parseF15 frames e tokens = (parseF15Full frames e tokens).map (·.1) := by
  unfold parseF15 parseF15Full
  dsimp only
  generalize (assignSyntaxDescriptions tokens).getFirstToken = q
  obtain ⟨q, tk⟩ := q
  cases q with
  | error x => rfl
  | ok o =>
    cases o with
    | none => dsimp only; cases errorMessage 41 <;> rfl
    | some t =>
      show (dispatch frames e tk t >>= finish) = Except.map _ (dispatchFull frames e tk t >>= _)
      rw [dispatch_full]
      cases dispatchFull frames e tk t with
      | error x => rfl
      | ok p =>
        show finish p.1 = Except.map _ (finish p.1 >>= _)
        cases finish p.1 <;> rfl

/-- A call on the `tokens` object reads like the call on the list. -/
theorem reads_tokens {T : List Token} {n : Nat} {c : Call} {s s1 : St Tokens F} {s' : St (List Token) F} {u : Unit} (hs : SimR T s s')
    (h : exec n c s = .ok (u, s1)) (hr : Rd T s'.ers s'.toks (exec n c s')) :
    ∃ s1', SimR T s1 s1' ∧ GoesOn s'.ers s'.toks s1'.ers s1'.toks ∧ Finished T s1'.ers s1'.toks := by
  have g := rel_exec (F := F) n c s s' hs
  rw [h] at g
  cases h2 : exec n c s' with
  | error x => rw [h2] at g; exact g.elim
  | ok q =>
    rw [h2] at g
    obtain ⟨_, s1'⟩ := q
    obtain ⟨k1, k2⟩ := hr s1'.ers s1'.toks h2
    exact ⟨s1', g.2, k1, k2⟩

theorem dispatch_reads {t : Token} {rest : List Token} (hT : ∀ u ∈ t :: rest, Typed u) {n : Nat} {e e1 : Ers F} (he : e.recs ≠ [])
    {tk : Tokens} (h : dispatchFull n e ⟨t :: rest, 0⟩ t = .ok (e1, tk)) :
    tk.toks = t :: rest ∧ 0 ≤ tk.cur ∧ e1.recs ≠ [] ∧ Finished (t :: rest) e1 ((t :: rest).drop (tk.cur.toNat + 1)) := by
  have ih := (reads_exec (F := F) hT n).1
  have hs0 : SimR (t :: rest) (⟨e, ⟨t :: rest, 0⟩⟩ : St Tokens F) ⟨e, rest⟩ := ⟨rfl, Int.le_refl 0, rfl, rfl⟩
  have hsuf : rest <:+ t :: rest := List.suffix_cons _ _
  have one : ∀ c, Pre (t :: rest) rest c → NeedR e c → ∀ u s1, exec n c (⟨e, ⟨t :: rest, 0⟩⟩ : St Tokens F) = .ok (u, s1) →
      ∃ s1', SimR (t :: rest) s1 s1' ∧ GoesOn e rest s1'.ers s1'.toks ∧ Finished (t :: rest) s1'.ers s1'.toks := by
    intro c hp hn u s1 hx
    exact reads_tokens hs0 hx (ih c e rest he hsuf hp hn)
  have concl : ∀ (s1 : St Tokens F) (s1' : St (List Token) F), SimR (t :: rest) s1 s1' → GoesOn e rest s1'.ers s1'.toks →
      Finished (t :: rest) s1'.ers s1'.toks → s1.toks.toks = t :: rest ∧ 0 ≤ s1.toks.cur ∧ s1.ers.recs ≠ [] ∧
        Finished (t :: rest) s1.ers ((t :: rest).drop (s1.toks.cur.toNat + 1)) := by
    intro s1 s1' h1 h2 h3
    refine ⟨h1.all, h1.cur, by rw [h1.ers]; exact h2.ne, ?_⟩
    rw [h1.ers]
    rw [h1.rest, h1.all] at h3
    exact h3
  unfold dispatchFull at h
  cases hb : t.base <;> rw [hb] at h
  case SPEED_VFR =>
    dsimp only at h
    cases hx : exec n (.assignSpeedVfr t) (⟨e, ⟨t :: rest, 0⟩⟩ : St Tokens F) with
    | error x => rw [hx] at h; cases h
    | ok r =>
      obtain ⟨u, s1⟩ := r
      obtain ⟨s1', h1, h2, h3⟩ := one (.assignSpeedVfr t) ⟨by simp, hb⟩ trivial u s1 hx
      rw [hx] at h
      change (setFirstRules s1.ers _ >>= _) = _ at h
      obtain ⟨c1, c2, c3, c4⟩ := concl _ _ h1 h2 h3
      rw [setFirst_eq _ c3] at h
      cases h
      refine ⟨c1, c2, ?_, c4⟩
      show mapOldest toVfr s1.ers.recs ≠ []
      obtain ⟨a, o, ha⟩ := split_last _ c3
      rw [ha, mapOldest_append]; simp
  case SPEED_ALTITUDE =>
    dsimp only at h
    cases hx : exec n (.assignSpeedAltitude t) (⟨e, ⟨t :: rest, 0⟩⟩ : St Tokens F) with
    | error x => rw [hx] at h; cases h
    | ok r =>
      obtain ⟨u, s1⟩ := r
      obtain ⟨s1', h1, h2, h3⟩ := one (.assignSpeedAltitude t) ⟨by simp, hb⟩ trivial u s1 hx
      rw [hx] at h
      change (if _ then _ else _) = _ at h
      split at h
      · cases hy : exec n (.addErrorAndReSync t 49) s1 with
        | error x => dsimp only at h; rw [hy] at h; cases h
        | ok r =>
          obtain ⟨u2, s2⟩ := r
          dsimp only at h
          rw [hy] at h
          cases h
          obtain ⟨s2', k1, k2, k3⟩ := reads_tokens h1 hy
            (ih (.addErrorAndReSync t 49) s1'.ers s1'.toks h2.ne (h2.suf.trans hsuf) ⟨by simp, by decide⟩ trivial)
          exact concl s2 s2' k1 (h2.trans k2) k3
      · cases h
        exact concl _ _ h1 h2 h3
  all_goals
    dsimp only at h
    cases hx : exec n (.addErrorAndReSync t 1) (⟨e, ⟨t :: rest, 0⟩⟩ : St Tokens F) with
    | error x => rw [hx] at h; cases h
    | ok r =>
      obtain ⟨u, s1⟩ := r
      obtain ⟨s1', h1, h2, h3⟩ := one (.addErrorAndReSync t 1) ⟨by simp, by decide⟩ trivial u s1 hx
      rw [hx] at h
      cases h
      exact concl _ _ h1 h2 h3

/-- **C55** After `parse_f15` the `tokens` object holds the same words with their types, in the same places. -/
theorem c55_tokens {n : Nat} {e e' : Ers F} (he : e.recs ≠ []) {tokens tokens' : Tokens} {b : Bool}
    (h : parseF15Full n e tokens = .ok ((b, e'), tokens')) :
    tokens'.toks = typedTokens tokens ∧
    tokens'.toks.map (fun t => (t.text, t.start, t.stop)) = tokens.toks.map (fun t => (t.text, t.start, t.stop)) := by
  have key : tokens'.toks = typedTokens tokens := by
    obtain ⟨toks, cur⟩ := tokens
    unfold parseF15Full assignSyntaxDescriptions at h
    unfold typedTokens
    cases toks with
    | nil =>
      change Except.ok _ = _ at h
      cases h; rfl
    | cons t rest =>
      change (dispatchFull n e ⟨(t :: rest).map assignSyntax, 0⟩ (assignSyntax t) >>= _) = _ at h
      rw [List.map_cons] at h
      cases hd : dispatchFull n e ⟨assignSyntax t :: rest.map assignSyntax, 0⟩ (assignSyntax t) with
      | error x => rw [hd] at h; cases h
      | ok p =>
        obtain ⟨e1, tk⟩ := p
        have hT : ∀ u ∈ assignSyntax t :: rest.map assignSyntax, Typed u := fun u hu => typed_map (l := t :: rest) hu
        obtain ⟨c1, _, c3, _⟩ := dispatch_reads hT he hd
        rw [hd] at h
        change (finish e1 >>= _) = _ at h
        rw [finish_eq _ c3] at h
        cases h
        exact c1
  refine ⟨key, ?_⟩
  rw [key]
  unfold typedTokens
  rw [List.map_map]
  apply List.map_congr_left
  intro t _
  show ((assignSyntax t).text, (assignSyntax t).start, (assignSyntax t).stop) = _
  unfold assignSyntax; dsimp only; split <;> rfl

/-- **C55** (the part that is true) When `parse_f15` has returned there is no next token, or the field 15 was rejected and the current token
is one that ends a break. Missing: that there is no next token in any case, which is false (`c55_false`). -/
theorem c55_partial {n : Nat} {e e' : Ers F} (he : e.recs ≠ []) {tokens tokens' : Tokens} {b : Bool}
    (h : parseF15Full n e tokens = .ok ((b, e'), tokens')) :
    tokens'.getNextToken.1 = .ok none ∨
      (b = false ∧ ∃ t, tokens'.getCurrentToken = .ok (some t) ∧ t.base = .BREAK_END) := by
  obtain ⟨toks, cur⟩ := tokens
  unfold parseF15Full assignSyntaxDescriptions at h
  cases toks with
  | nil =>
    change Except.ok _ = _ at h
    cases h; exact .inl rfl
  | cons t rest =>
    change (dispatchFull n e ⟨(t :: rest).map assignSyntax, 0⟩ (assignSyntax t) >>= _) = _ at h
    rw [List.map_cons] at h
    cases hd : dispatchFull n e ⟨assignSyntax t :: rest.map assignSyntax, 0⟩ (assignSyntax t) with
    | error x => rw [hd] at h; cases h
    | ok p =>
      obtain ⟨e1, ⟨tk, c⟩⟩ := p
      have hT : ∀ u ∈ assignSyntax t :: rest.map assignSyntax, Typed u := fun u hu => typed_map (l := t :: rest) hu
      obtain ⟨c1, c2, c3, c4⟩ := dispatch_reads hT he hd
      rw [hd] at h
      change (finish e1 >>= _) = _ at h
      rw [finish_eq _ c3] at h
      cases h
      dsimp only at c1 c2 c4
      subst c1
      rcases c4 with c4 | ⟨k1, pre, u, k2, k3⟩
      · left
        rw [List.drop_eq_nil_iff] at c4
        show (Tokens.getTokenAt _ _) = _
        rw [getTokenAt_ok, if_pos (.inr (by dsimp only; omega))]
      · by_cases hn : (assignSyntax t :: rest.map assignSyntax).drop (c.toNat + 1) = []
        · left
          rw [List.drop_eq_nil_iff] at hn
          show (Tokens.getTokenAt _ _) = _
          rw [getTokenAt_ok, if_pos (.inr (by dsimp only; omega))]
        · right
          refine ⟨by simp [k1], u, ?_, k3⟩
          show (Tokens.getTokenAt _ _) = _
          rw [List.drop_eq_nil_iff] at hn
          have hl := congrArg List.length k2
          simp only [List.length_append, List.length_cons, List.length_drop] at hl hn
          have hc : c.toNat = pre.length := by omega
          rw [getTokenAt_ok, if_neg (by simp only [List.length_cons]; omega)]
          dsimp only
          rw [hc, k2, List.getElem?_append_right (Nat.le_refl _), Nat.sub_self]
          rfl

/-- **C55** For an accepted field 15 there is no next token: everything has been read. -/
theorem c55_accepted {n : Nat} {e e' : Ers F} (he : e.recs ≠ []) {tokens tokens' : Tokens}
    (h : parseF15Full n e tokens = .ok ((true, e'), tokens')) : tokens'.getNextToken.1 = .ok none := by
  rcases c55_partial he h with h | ⟨h, _⟩
  · exact h
  · cases h

/-- **C55 is false in general**: after the error about the second speed, the parser re-synchronises on `IFR` and stops there; `DCT DEF` are not read
and nothing is said about them. -/
theorem c55_false : ¬ ∀ (s : Str) (r : Bool × Ers Rat) (tokens' : Tokens),
    parseF15Full 1000 Ers.new ⟨tokenizeList f15Whitespace s, 0⟩ = .ok (r, tokens') → tokens'.getNextToken.1 = .ok none := by
  intro H
  have h : (match parseF15Full (F := Rat) 1000 Ers.new ⟨tokenizeList f15Whitespace (py! "N0450F350 ABC N0450F350 IFR DCT DEF"), 0⟩ with
      | .ok (_, tk) => decide (tk.getNextToken.1.toOption.join.map (·.text) = some (py! "DCT"))
      | .error _ => false) = true := by decide +kernel
  cases hp : parseF15Full (F := Rat) 1000 Ers.new ⟨tokenizeList f15Whitespace (py! "N0450F350 ABC N0450F350 IFR DCT DEF"), 0⟩ with
  | error x => rw [hp] at h; cases h
  | ok q =>
    rw [hp] at h
    obtain ⟨r, tk⟩ := q
    have := H _ r tk hp
    dsimp only at h
    rw [this] at h
    cases h

/-- A field 15 that is read to the end, and one that is not. -/
example :
    (match parseF15Full (F := Rat) 1000 Ers.new ⟨tokenizeList f15Whitespace (py! "N0450F350 ABC UL9 DEF/N0440F330 DCT GHI STAR"), 7⟩ with
      | .ok (r, tk) => r.1 && decide (tk.toks.map (·.base) = [.SPEED_ALTITUDE, .POINT, .ROUTE, .POINT, .SLASH, .SPEED_ALTITUDE, .DCT, .POINT,
          .STAR]) && decide (tk.cur = 8)
      | .error _ => false) = true ∧
    (match parseF15Full (F := Rat) 1000 Ers.new ⟨tokenizeList f15Whitespace (py! "N0450F350 XX!! GAT UL9 DEF"), 0⟩ with
      | .ok (r, tk) => !r.1 && decide (tk.cur = 2) && decide (tk.getCurrentToken.toOption.join.map (·.text) = some (py! "GAT"))
      | .error _ => false) = true := by
  constructor <;> decide +kernel

end F15
