import Verif.Lemmas.Fault2
import Verif.Lemmas.Locate
import Verif.Spec.Example
import Mathlib.Tactic.FinCases
/-!
# C47: the first error is about the first token that does not fit
-/

namespace F15
open Spec

set_option linter.unusedSectionVars false
variable {F : Type} [PyFloat F]

theorem unexpected_isSome {q : Phase} {t : Token} (hq : q.allows t = false) (ht : ∀ r, q ≠ .text r)
    (hs : ∀ f, q = .point f → t.base ≠ .SLASH) (hc : q = .climb → t.base ≠ .SLASH) : (errorMessage (unexpected q t)).isSome := by
  have mis : ∀ b, t.base = b → b ∈ [BaseType.UNKNOWN, .TOO_LONG, .SPEED_ALTITUDE, .SPEED_VFR, .BREAK_END,
      .SPEED_ALTITUDE_ALTITUDE, .SPEED_ALTITUDE_PLUS, .STAY_TIME, .SID] → (errorMessage (misplaced t)).isSome := by
    intro b hb hm
    unfold misplaced
    rw [hb]
    fin_cases hm <;> first | rfl | (dsimp only; split <;> rfl)
  cases q with
  | text r => exact absurd rfl (ht r)
  | point f =>
    have := hs f rfl
    unfold unexpected
    cases hb : t.base <;> dsimp only <;>
      first | exact absurd hb this | exact mis _ hb (by decide) | rfl | (simp [Phase.allows, hb] at hq; done)
  | climb =>
    have := hc rfl
    unfold unexpected
    cases hb : t.base <;> dsimp only <;>
      first | exact absurd hb this | exact mis _ hb (by decide) | (simp [Phase.allows, hb] at hq; done)
  | _ =>
    unfold unexpected
    cases hb : t.base <;> dsimp only <;>
      first | exact mis _ hb (by decide) | rfl | (simp [Phase.allows, hb] at hq; done)

theorem range_isSome {u : SubType} {s : Str} {n : Nat} (h : RangeFault u s n) : (errorMessage n).isSome := by
  rcases h with ⟨_, ⟨rfl, _⟩ | ⟨rfl, _⟩⟩ | ⟨_, ⟨rfl, _⟩ | ⟨rfl, _⟩⟩ | ⟨_, rfl, _⟩ <;> decide

theorem fault_isSome {q : Phase} {pre post : List Token} {t : Token} {n : Nat} (h : Fault q pre t post n)
    (hc : q = .climb → (pre ++ [t]).head?.map (·.base) ≠ some .SLASH) : (errorMessage n).isSome := by
  induction h with
  | here hq ht hs => exact unexpected_isSome hq ht hs fun h => by simpa using hc h
  | climb _ _ hh _ ih => exact ih fun _ => hh
  | position _ _ hn | cruisePosition _ _ _ hn => exact range_isSome hn.1
  | resumePosition _ _ _ _ hn => exact range_isSome hn.1
  | ifrPosition _ _ _ _ _ _ hn => exact range_isSome hn.1
  | @slash f s x post hs h1 h2 =>
    obtain ⟨tx, st, sp, b, u⟩ := x
    cases b <;> rfl
  | _ => first | decide | (apply_assumption; simp)

theorem firstFault_isSome {pre post : List Token} {t : Token} {n : Nat} (h : FirstFault pre t post n) :
    (errorMessage n).isSome := by
  cases h with
  | ifr _ _ h | vfr _ h => exact fault_isSome h (by simp)
  | _ => decide

/-- A run that adds errors. -/
theorem rejected_run {frames : Nat} {e : Ers F} (he : e.recs.length = 1) {t : Token} {rest : List Token}
    (hT : ∀ x ∈ t :: rest, Typed x) {e' : Ers F} (h : runL frames e t rest = .ok e') (hl : e.errs.length < e'.errs.length) :
    ∃ pre x pst n l, t :: rest = pre ++ x :: pst ∧ FirstFault pre x pst n ∧ e'.errs = l ++ errRec x n :: e.errs := by
  have hne : e.recs ≠ [] := by intro h; rw [h] at he; cases he
  have fi := fih_exec (F := F) hT frames
  have gi := gih_exec (F := F) hT frames
  have ad := adds_exec (F := F) hT frames
  have mo := mono_of (trace_exec (F := F) hT frames)
  have ke := keeps_of (trace_exec (F := F) hT frames)
  have hi : Inv (t :: rest) e rest := ⟨hne, List.suffix_cons _ _⟩
  have ht : t ∈ t :: rest := by simp
  unfold runL at h
  have first : t.base ≠ .SPEED_ALTITUDE → t.base ≠ .SPEED_VFR →
      (match exec frames (.addErrorAndReSync t 1) (⟨e, rest⟩ : St (List Token) F) with
      | .ok (_, s) => .ok s.ers | .error x => .error x : Except PyErr (Ers F)) = .ok e' →
      ∃ pre x pst n l, t :: rest = pre ++ x :: pst ∧ FirstFault pre x pst n ∧ e'.errs = l ++ errRec x n :: e.errs := by
    intro h1 h2 h
    cases h3 : exec frames (.addErrorAndReSync t 1) (⟨e, rest⟩ : St (List Token) F) with
    | error x => rw [h3] at h; cases h
    | ok p =>
      rw [h3] at h
      cases h
      obtain ⟨l, hl⟩ := ad t 1 _ _ _ hi ⟨ht, by decide⟩ h3
      exact ⟨[], t, rest, 1, l, rfl, .start h1 h2, hl⟩
  cases hb : t.base <;> rw [hb] at h first <;> dsimp only at h
  case SPEED_VFR =>
    cases h1 : exec frames (.assignSpeedVfr t) (⟨e, rest⟩ : St (List Token) F) with
    | error x => rw [h1] at h; cases h
    | ok p =>
      rw [h1] at h
      have i1 := (mo (.assignSpeedVfr t) _ _ _ hi ⟨ht, hb⟩ h1).2
      dsimp only at h
      rw [setFirst_eq _ i1.ne] at h
      cases h
      obtain ⟨pre, x, pst, n, h2, h3, l, h4⟩ := gi (.assignSpeedVfr t) _ _ _ hi ⟨ht, hb⟩ trivial h1 hl
      exact ⟨t :: pre, x, pst, n, l, by rw [h2]; rfl, .vfr hb h3, h4⟩
  case SPEED_ALTITUDE =>
    cases h1 : exec frames (.assignSpeedAltitude t) (⟨e, rest⟩ : St (List Token) F) with
    | error x => rw [h1] at h; cases h
    | ok p =>
      rw [h1] at h
      obtain ⟨m1, i1⟩ := mo (.assignSpeedAltitude t) _ _ _ hi ⟨ht, hb⟩ h1
      dsimp only at h
      by_cases hp : e.errs.length < p.2.ers.errs.length
      · have key : ∃ pre x pst n l, t :: rest = pre ++ x :: pst ∧ FirstFault pre x pst n ∧
            p.2.ers.errs = l ++ errRec x n :: e.errs := by
          rcases gi (.assignSpeedAltitude t) _ _ _ hi ⟨ht, hb⟩ trivial h1 hp with ⟨h2, l, h3⟩ | ⟨h2, h3⟩
          · exact ⟨[], t, rest, 40, l, rfl, .step hb h2, h3⟩
          · rw [if_pos he] at h3
            obtain ⟨pre, x, pst, n, h4, h5, l, h6⟩ := h3
            exact ⟨t :: pre, x, pst, n, l, by rw [h4]; rfl, .ifr hb h2 h5, h6⟩
        by_cases hr : rest = []
        · rw [if_pos hr] at h
          cases h2 : exec frames (.addErrorAndReSync t 49) p.2 with
          | error x => rw [h2] at h; cases h
          | ok q =>
            rw [h2] at h
            cases h
            obtain ⟨l', h3⟩ := ke (.addErrorAndReSync t 49) _ _ _ i1 ⟨ht, by decide⟩ h2
            obtain ⟨pre, x, pst, n, l, h4, h5, h6⟩ := key
            exact ⟨pre, x, pst, n, l' ++ l, h4, h5, by rw [h3, h6, List.append_assoc]⟩
        · rw [if_neg hr] at h
          cases h
          exact key
      · by_cases hr : rest = []
        · subst hr
          rw [if_pos rfl] at h
          obtain ⟨_, as, ⟨b, rfl, hn, _⟩, _⟩ := fi (.assignSpeedAltitude t) _ _ _ hi ⟨ht, hb⟩ trivial h1 (by omega)
          cases h2 : exec frames (.addErrorAndReSync t 49) p.2 with
          | error x => rw [h2] at h; cases h
          | ok q =>
            rw [h2] at h
            cases h
            obtain ⟨l, h3⟩ := ad t 49 _ _ _ i1 ⟨ht, by decide⟩ h2
            have h4 : p.2.ers.errs = e.errs := by
              obtain ⟨l', h5⟩ := ke (.assignSpeedAltitude t) _ _ _ hi ⟨ht, hb⟩ h1
              rw [h5, List.length_append] at hp
              have : l' = [] := List.eq_nil_of_length_eq_zero (by omega)
              rw [h5, this]; rfl
            rw [h4] at h3
            exact ⟨[], t, [], 49, l, rfl, .lone hb ((levelOk_iff (hT _ (by simp)) hb).2 hn), h3⟩
        · rw [if_neg hr] at h
          cases h
          exact absurd hl hp
  all_goals exact first (by simp) (by simp) h

/-- **C47** The first error of a rejected, non-empty field 15 is about the token at which the field first leaves the
grammar, and its message is the one due there. -/
theorem c47_first {frames : Nat} {tokens : Tokens} {b : Bool} {e' : Ers F} {x : Record F} {xs : List (Record F)}
    (hne : typedTokens tokens ≠ []) (h : parseF15 frames Ers.new tokens = .ok (b, e')) (hx : e'.errors = x :: xs) :
    ∃ pre t post n, typedTokens tokens = pre ++ t :: post ∧ FirstFault pre t post n ∧ ErrorIs t n x := by
  rw [parse_eq] at h
  change parseL frames Ers.new (typedTokens tokens) = _ at h
  have hT : ∀ t ∈ typedTokens tokens, Typed t := fun t ht => typed_map ht
  cases hl : typedTokens tokens with
  | nil => exact absurd hl hne
  | cons t rest =>
    rw [hl] at h hT
    have hp := run_trace frames (Ers.new : Ers F) (new_ne (F := F)) t rest hT
    unfold parseL at h
    dsimp only at h
    cases hr : runL frames (Ers.new : Ers F) t rest with
    | error x => rw [hr] at h; cases h
    | ok e1 =>
      rw [hr] at h hp
      obtain ⟨e2, ⟨ts2, hs⟩, rfl⟩ := hp
      have hn : e2.recs ≠ [] := (hs.invs ⟨Act.run_ne _ _ (new_ne (F := F)), List.suffix_cons _ _⟩).ne
      dsimp only at h
      rw [finish_eq _ (post_ne t e2 hn)] at h
      simp only [Except.ok.injEq, Prod.mk.injEq] at h
      obtain ⟨_, rfl⟩ := h
      have hx' : (post t e2).errs.reverse = x :: xs := hx
      obtain ⟨pre, y, pst, n, l, h1, h2, h3⟩ := rejected_run (e := (Ers.new : Ers F)) rfl hT hr
        (by show 0 < _; rw [← List.length_reverse, hx']; simp)
      rw [h3] at hx'
      have : (l ++ errRec y n :: (Ers.new : Ers F).errs).reverse = errRec y n :: l.reverse := by
        show (l ++ [errRec y n]).reverse = _; simp
      rw [this] at hx'
      refine ⟨pre, y, pst, n, h1, h2, ?_⟩
      rw [← (List.cons.inj hx').1]
      exact errRec_is (firstFault_isSome h2)

theorem extendable_nil : Extendable [] := by
  refine ⟨[mkTok (py! "N0450VFR")], fun y hy => by rw [List.mem_singleton.1 hy]; exact mk_typed _, ?_⟩
  exact .vfr mk_vfr (.stop _)

theorem ext_adep {t : Token} (hb : t.base = .SPEED_ALTITUDE) (hl : LevelOk t.text) {p : List Token} :
    Extendable (t :: p) ↔ Ext .adep p := by
  constructor
  · rintro ⟨z, hz, h⟩
    cases h with
    | ifr _ _ _ h => exact ⟨z, hz, h⟩
    | vfr hb' => rw [hb] at hb'; cases hb'
  · rintro ⟨z, hz, h⟩
    by_cases hp : p ++ z = []
    · obtain ⟨rfl, rfl⟩ := List.append_eq_nil_iff.1 hp
      refine ⟨[mkTok (py! "T")], fun y hy => by rw [List.mem_singleton.1 hy]; exact mk_typed _, .ifr hb hl (by simp) ?_⟩
      exact .truncate (by simp [Phase.allows, mk_T]) mk_T
    · exact ⟨z, hz, .ifr hb hl hp h⟩

theorem ext_text {t : Token} (hb : t.base = .SPEED_VFR) {p : List Token} :
    Extendable (t :: p) ↔ Ext (.text (py! "VFR")) p := by
  constructor
  · rintro ⟨z, hz, h⟩
    cases h with
    | ifr hb' => rw [hb] at hb'; cases hb'
    | vfr _ h => exact ⟨z, hz, h⟩
  · rintro ⟨z, hz, h⟩
    exact ⟨z, hz, .vfr hb h⟩

/-- **C47** Where the first fault is, in terms of the grammar alone: what stands before it can be completed to an
acceptable field 15, and either no completion of it with the reported token is possible, or the reported token starts an
unfinished construction at the very end of the field, or it is the point of `IFR point/` followed by something that cannot
stand there. -/
theorem c47_located {pre post : List Token} {t : Token} {n : Nat} (h : FirstFault pre t post n)
    (hT : ∀ y ∈ pre ++ t :: post, assignSyntax y = y) :
    Extendable pre ∧ (¬ Extendable (pre ++ [t]) ∨
      (post.length ≤ 1 ∧ Extendable (pre ++ t :: post) ∧ ¬ Sentence (pre ++ t :: post)) ∨
      (∃ pre' c s l post', pre = pre' ++ [c] ∧ c.sub = .IFR ∧ post = s :: l :: post' ∧ t.base = .POINT ∧ s.base = .SLASH ∧
        Extendable (pre ++ [t, s]) ∧ ¬ Extendable (pre ++ [t, s, l]))) := by
  have lift : ∀ {q : Phase} {t0 : Token} {pre : List Token}, (∀ p, Extendable (t0 :: p) ↔ Ext q p) →
      (∀ p, p ≠ [] → (Sentence (t0 :: p) ↔ Accepts q p)) → Loc q pre t post →
      Extendable (t0 :: pre) ∧ (¬ Extendable (t0 :: pre ++ [t]) ∨
      (post.length ≤ 1 ∧ Extendable (t0 :: pre ++ t :: post) ∧ ¬ Sentence (t0 :: pre ++ t :: post)) ∨
      (∃ pre' c s l post', t0 :: pre = pre' ++ [c] ∧ c.sub = .IFR ∧ post = s :: l :: post' ∧ t.base = .POINT ∧
        s.base = .SLASH ∧ Extendable (t0 :: pre ++ [t, s]) ∧ ¬ Extendable (t0 :: pre ++ [t, s, l]))) := by
    intro q t0 pre he hs ⟨h1, h2⟩
    refine ⟨(he _).2 h1, ?_⟩
    rcases h2 with h2 | ⟨h2, h3, h4⟩ | ⟨pre', c, s, l, post', h2, h3, h4, h5, h6, h7, h8⟩
    · exact .inl fun h => h2 ((he _).1 h)
    · exact .inr (.inl ⟨h2, (he _).2 h3, fun h => h4 ((hs _ (by simp)).1 h)⟩)
    · exact .inr (.inr ⟨t0 :: pre', c, s, l, post', by rw [h2]; rfl, h3, h4, h5, h6, (he _).2 h7, fun h => h8 ((he _).1 h)⟩)
  cases h with
  | start h1 h2 =>
    refine ⟨extendable_nil, .inl ?_⟩
    rintro ⟨z, _, h⟩
    cases h with
    | ifr hb => exact h1 hb
    | vfr hb => exact h2 hb
  | step hb hl =>
    refine ⟨extendable_nil, .inl ?_⟩
    rintro ⟨z, _, h⟩
    cases h with
    | ifr _ hl' => exact hl hl'
    | vfr hb' => rw [hb] at hb'; cases hb'
  | lone hb hl =>
    refine ⟨extendable_nil, .inr (.inl ⟨by simp, (ext_adep hb hl).2 (ext_nil _), ?_⟩)⟩
    intro h
    cases h with
    | ifr _ _ hne _ => exact hne rfl
    | vfr hb' => rw [hb] at hb'; cases hb'
  | @ifr t0 pre _ _ _ hb hl h =>
    refine lift (fun p => ext_adep hb hl) (fun p hp => ⟨fun h => ?_, fun h => .ifr hb hl hp h⟩)
      (fault_loc h fun y hy => hT y (List.mem_cons_of_mem _ hy))
    cases h with
    | ifr _ _ _ h => exact h
    | vfr hb' => rw [hb] at hb'; cases hb'
  | @vfr t0 pre _ _ _ hb h =>
    refine lift (fun p => ext_text hb) (fun p hp => ⟨fun h => ?_, fun h => .vfr hb h⟩)
      (fault_loc h fun y hy => hT y (List.mem_cons_of_mem _ hy))
    cases h with
    | ifr hb' => rw [hb] at hb'; cases hb'
    | vfr _ h => exact h

/-- **C47** Localisation, from the parse itself: what stands before the token of the first error can be completed to an
acceptable field 15; with the token itself it cannot, unless the token starts a construction that is cut off by the end of
the field, or is the point of a malformed `IFR point/`. -/
theorem c47 {frames : Nat} {tokens : Tokens} {b : Bool} {e' : Ers F} {x : Record F} {xs : List (Record F)}
    (hne : typedTokens tokens ≠ []) (h : parseF15 frames Ers.new tokens = .ok (b, e')) (hx : e'.errors = x :: xs) :
    ∃ pre t post n, typedTokens tokens = pre ++ t :: post ∧ ErrorIs t n x ∧ Extendable pre ∧
      (¬ Extendable (pre ++ [t]) ∨
      (post.length ≤ 1 ∧ Extendable (pre ++ t :: post) ∧ ¬ Sentence (pre ++ t :: post)) ∨
      (∃ pre' c s l post', pre = pre' ++ [c] ∧ c.sub = .IFR ∧ post = s :: l :: post' ∧ t.base = .POINT ∧ s.base = .SLASH ∧
        Extendable (pre ++ [t, s]) ∧ ¬ Extendable (pre ++ [t, s, l]))) := by
  obtain ⟨pre, t, pst, n, h1, h2, h3⟩ := c47_first hne h hx
  obtain ⟨h4, h5⟩ := c47_located h2 (by rw [← h1]; exact fun y hy => typed_map hy)
  exact ⟨pre, t, pst, n, h1, h3, h4, h5⟩

/-- A field with a first fault is not acceptable. -/
theorem c47_disjoint {pre post : List Token} {t : Token} {n : Nat} (h : FirstFault pre t post n)
    (hT : ∀ y ∈ pre ++ t :: post, assignSyntax y = y) : ¬ Sentence (pre ++ t :: post) := by
  intro hs
  rcases (c47_located h hT).2 with h1 | ⟨_, _, h1⟩ | ⟨_, _, s, l, post', _, _, rfl, _, _, _, h1⟩
  · exact h1 ⟨post, fun y hy => hT y (by simp [hy]), by simpa using hs⟩
  · exact h1 hs
  · exact h1 ⟨post', fun y hy => hT y (by simp [hy]), by simpa using hs⟩

-- the second ATS route in a row is the first token that does not fit; the second point is not complained about first
example : check (py! "N0450F350 ABC UL9 UL10 DEF//N0450F350 GHI")
    (fun b e => !b && decide (e.errors.map (fun r => (r.name, r.start, r.errorText)) =
      [(py! "UL10", 18, py! "Add crossing point between previous ATS route and 'UL10'"),
       (py! "/", 27, py! "'/' cannot follow a '/'")])) = true := by decide +kernel

-- the hypotheses of `c47` are met
example : ∃ b, ∃ e' : Ers Rat, ∃ x xs, parseText (py! "N0450F350 ABC UL9 UL10 DEF") = .ok (b, e') ∧ e'.errors = x :: xs ∧
    typedTokens ⟨tokenizeList f15Whitespace (py! "N0450F350 ABC UL9 UL10 DEF"), 0⟩ ≠ [] := by
  have h : check (py! "N0450F350 ABC UL9 UL10 DEF") (fun b e => !b && !e.errors.isEmpty) = true := by decide +kernel
  obtain ⟨b, e, h1, h2⟩ := check_ok h
  cases he : e.errors with
  | nil => rw [he] at h2; simp at h2
  | cons x xs => exact ⟨b, e, x, xs, h1, he, by decide +kernel⟩

-- a cut-off construction: the error is about the last token, though the field could be completed
example : check (py! "N0450F350 ABC STAY1/")
    (fun b e => !b && decide (e.errors.map (·.name) = [py! "/"])) = true := by decide +kernel

end F15
