import Verif.Lemmas.Trace
/-!
# `parse_f15` over the list of typed tokens
-/

namespace F15
open Spec

set_option linter.unusedSectionVars false
variable {F : Type} [PyFloat F]

/-- The part of `parse_f15` between the first token and the ADES. -/
def runL (frames : Nat) (e : Ers F) (t : Token) (rest : List Token) : Except PyErr (Ers F) :=
  match t.base with
  | .SPEED_VFR =>
    match exec frames (.assignSpeedVfr t) (⟨e, rest⟩ : St (List Token) F) with
    | .ok (_, s) => setFirstRules s.ers (py! "VFR")
    | .error x => .error x
  | .SPEED_ALTITUDE =>
    match exec frames (.assignSpeedAltitude t) (⟨e, rest⟩ : St (List Token) F) with
    | .ok (_, s) =>
      if rest = [] then
        match exec frames (.addErrorAndReSync t 49) s with
        | .ok (_, s') => .ok s'.ers
        | .error x => .error x
      else .ok s.ers
    | .error x => .error x
  | _ =>
    match exec frames (.addErrorAndReSync t 1) (⟨e, rest⟩ : St (List Token) F) with
    | .ok (_, s) => .ok s.ers
    | .error x => .error x

/-- The error of an empty field 15. -/
def nullErr : Record F := (Record.new (py! "NULL") 0 0 .UNKNOWN .UNKNOWN).appendErrorText
  (replaceBang ((errorMessage 41).getD []) (py! "NULL"))

/-- `parse_f15` as a function of the typed tokens. -/
def parseL (frames : Nat) (e : Ers F) (ts : List Token) : Except PyErr (Bool × Ers F) :=
  match ts with
  | [] => .ok (false, { e with errs := nullErr :: e.errs }.addDummyAdes)
  | t :: rest =>
    match runL frames e t rest with
    | .ok e => finish e
    | .error x => .error x

theorem sim_run (n : Nat) (c : Call) (e : Ers F) (toks : List Token) (i : Int) (hi : 0 ≤ i) (rest : List Token)
    (hr : rest = toks.drop (i.toNat + 1)) :
    RelR toks (exec n c ⟨e, ⟨toks, i⟩⟩) (exec n c (⟨e, rest⟩ : St (List Token) F)) :=
  rel_exec n c _ _ ⟨rfl, hi, hr, rfl⟩

theorem dispatch_eq (frames : Nat) (e : Ers F) (t : Token) (rest : List Token) :
    dispatch frames e ⟨t :: rest, 0⟩ t = runL frames e t rest := by
  have key := fun c => sim_run frames c e (t :: rest) 0 (by decide) rest rfl
  have fin : ∀ c, (exec frames c (⟨e, ⟨t :: rest, 0⟩⟩ : St Tokens F) >>= fun r => pure r.2.ers) =
      (match exec frames c (⟨e, rest⟩ : St (List Token) F) with
      | .ok (_, s) => .ok s.ers
      | .error x => .error x : Except PyErr (Ers F)) := by
    intro c
    have := key c
    cases h1 : exec frames c (⟨e, ⟨t :: rest, 0⟩⟩ : St Tokens F) <;>
      cases h2 : exec frames c (⟨e, rest⟩ : St (List Token) F) <;> rw [h1, h2] at this
    · exact congrArg _ this
    · exact this.elim
    · exact this.elim
    · exact congrArg Except.ok this.2.ers
  unfold dispatch runL
  cases hb : t.base
  case SPEED_VFR =>
    dsimp only
    have := key (.assignSpeedVfr t)
    cases h1 : exec frames (.assignSpeedVfr t) (⟨e, ⟨t :: rest, 0⟩⟩ : St Tokens F) <;>
      cases h2 : exec frames (.assignSpeedVfr t) (⟨e, rest⟩ : St (List Token) F) <;> rw [h1, h2] at this
    · exact congrArg _ this
    · exact this.elim
    · exact this.elim
    · exact congrArg (fun e => setFirstRules e _) this.2.ers
  case SPEED_ALTITUDE =>
    dsimp only
    have := key (.assignSpeedAltitude t)
    cases h1 : exec frames (.assignSpeedAltitude t) (⟨e, ⟨t :: rest, 0⟩⟩ : St Tokens F) <;>
      cases h2 : exec frames (.assignSpeedAltitude t) (⟨e, rest⟩ : St (List Token) F) <;> rw [h1, h2] at this
    · exact congrArg _ this
    · exact this.elim
    · exact this.elim
    · rename_i r r'
      obtain ⟨u, s⟩ := r
      obtain ⟨u', s'⟩ := r'
      have hs : SimR (t :: rest) s s' := this.2
      show (if (⟨t :: rest, 0⟩ : Tokens).getNumberOfTokens = 1 then _ else _) = _
      dsimp only
      have hl : ((⟨t :: rest, 0⟩ : Tokens).getNumberOfTokens = 1) ↔ rest = [] := by
        simp [Tokens.getNumberOfTokens]
      by_cases hr : rest = []
      · rw [if_pos (hl.2 hr), if_pos hr]
        have h3 := rel_exec (F := F) frames (.addErrorAndReSync t 49) s s' hs
        cases h4 : exec frames (.addErrorAndReSync t 49) s <;>
          cases h5 : exec frames (.addErrorAndReSync t 49) s' <;> rw [h4, h5] at h3
        · exact congrArg _ h3
        · exact h3.elim
        · exact h3.elim
        · exact congrArg Except.ok h3.2.ers
      · rw [if_neg (fun h => hr (hl.1 h)), if_neg hr]
        exact congrArg Except.ok hs.ers
  all_goals exact fin _

/-- `parse_f15` depends only on the typed tokens. -/
theorem parse_eq (frames : Nat) (e : Ers F) (tokens : Tokens) :
    parseF15 frames e tokens = parseL frames e (tokens.toks.map assignSyntax) := by
  obtain ⟨toks, cur⟩ := tokens
  unfold parseF15 parseL assignSyntaxDescriptions
  cases toks with
  | nil => rfl
  | cons t rest =>
    show (dispatch frames e ⟨(t :: rest).map assignSyntax, 0⟩ (assignSyntax t) >>= finish) = _
    rw [List.map_cons, dispatch_eq]
    dsimp only
    cases runL frames e (assignSyntax t) (rest.map assignSyntax) <;> rfl

theorem typed_map {l : List Token} {t : Token} (h : t ∈ l.map assignSyntax) : Typed t := by
  obtain ⟨x, _, rfl⟩ := List.mem_map.1 h
  exact typed_assign x

/-- The ADES element. -/
def adesRec (x : Str) : Record F := (Record.new (py! "ADES") 0 0 .POINT .PRP_AERO).setRules x

/-- The first element of a newest-first list. -/
def oldestRules (l : List (Record F)) : Str := (l.getLast?.map (·.rules)).getD []

/-- The final ERS. -/
def finErs (e : Ers F) : Ers F :=
  let rs := adesRec ((e.recs.head?.map (·.rules)).getD []) :: e.recs
  { recs := rs, errs := e.errs, derived := deriveRules (oldestRules e.recs) (rs.reverse.map (·.rules)) }

theorem finish_eq (e : Ers F) (he : e.recs ≠ []) : finish e = .ok (decide (e.errs = []), finErs e) := by
  obtain ⟨recs, errs, d⟩ := e
  cases recs with
  | nil => exact absurd rfl he
  | cons r rs =>
    have h0 : (⟨r :: rs, errs, d⟩ : Ers F).addDummyAdes = ⟨adesRec [] :: r :: rs, errs, d⟩ := rfl
    have h1 : (⟨adesRec [] :: r :: rs, errs, d⟩ : Ers F).getPreviousToLastElement = .ok (some r) := by
      unfold Ers.getPreviousToLastElement Ers.getElementAt
      rw [if_neg (by simp only [Ers.numberOfElements, List.length_cons]; omega)]
      have : (((⟨adesRec [] :: r :: rs, errs, d⟩ : Ers F).numberOfElements : Int) - 2) = (rs.reverse.length : Nat) := by
        simp only [Ers.numberOfElements, List.length_cons, List.length_reverse]; omega
      rw [this]
      have : (⟨adesRec [] :: r :: rs, errs, d⟩ : Ers F).elements = rs.reverse ++ [r, adesRec []] := by
        simp [Ers.elements]
      rw [this, pyGet_map (by simp), List.getElem?_append_right (Nat.le_refl _), Nat.sub_self]; rfl
    have h2 : ∀ x : Record F, (⟨x :: r :: rs, errs, d⟩ : Ers F).getFirstElement = .ok ((r :: rs).getLast?) := by
      intro x
      unfold Ers.getFirstElement Ers.getElementAt
      rw [if_neg (by simp only [Ers.numberOfElements, List.length_cons]; omega)]
      have : (⟨x :: r :: rs, errs, d⟩ : Ers F).elements = (r :: rs).reverse ++ [x] := by simp [Ers.elements]
      rw [this]
      have h3 : ((r :: rs).reverse ++ [x])[0]? = (r :: rs).getLast? := by
        rw [List.getElem?_append_left (by simp), List.getLast?_eq_head?_reverse, List.head?_eq_getElem?]
      rw [show (0 : Int) = ((0 : Nat) : Int) from rfl, pyGet_map (by simp), h3]
    unfold finish
    rw [h0]
    show (_ >>= _) = _
    rw [h1]
    show ((⟨(adesRec []).setRules r.rules :: r :: rs, errs, d⟩ : Ers F).getFirstElement >>= _) = _
    rw [h2]
    have hl : (r :: rs).getLast? = some ((r :: rs).getLast (by simp)) := List.getLast?_eq_some_getLast (by simp)
    have h5 : oldestRules (r :: rs) = ((r :: rs).getLast (by simp)).rules := by
      unfold oldestRules; rw [hl]; rfl
    simp only [bind, Except.bind]
    rw [hl]
    show Except.ok _ = Except.ok _
    unfold finErs
    dsimp only
    rw [h5]
    congr 1
    congr 1
    cases errs <;> simp [Ers.numberOfErrors, Ers.setDerived]

end F15

namespace F15
open Spec
set_option linter.unusedSectionVars false
variable {F : Type} [PyFloat F]

/-- The action performed on the first token. -/
def firstAct (t : Token) : Act :=
  match t.base with
  | .SPEED_VFR => .vfr t
  | .SPEED_ALTITUDE => .level t
  | _ => .err t 1

theorem firstAct_tok (t : Token) : (firstAct t).tok = t := by unfold firstAct; split <;> rfl

/-- Apply `f` to the oldest element. -/
def mapOldest (f : Record F → Record F) (l : List (Record F)) : List (Record F) := (mapHead f l.reverse).reverse

/-- The update of the ADEP after the run. -/
def post (t : Token) (e : Ers F) : Ers F :=
  if t.base = .SPEED_VFR then { e with recs := mapOldest toVfr e.recs } else e

theorem setFirst_eq (e : Ers F) (he : e.recs ≠ []) : setFirstRules e (py! "VFR") = .ok { e with recs := mapOldest toVfr e.recs } := by
  unfold setFirstRules
  have : e.elements ≠ [] := by unfold Ers.elements; simpa using he
  unfold mapOldest
  unfold Ers.elements at *
  cases h : e.recs.reverse with
  | nil => exact absurd h this
  | cons r rs => rfl

theorem mapOldest_ne (f : Record F → Record F) (l : List (Record F)) (h : l ≠ []) : mapOldest f l ≠ [] := by
  unfold mapOldest
  have := mapHead_ne f l.reverse (by simpa using h)
  simpa using this

theorem post_ne (t : Token) (e : Ers F) (h : e.recs ≠ []) : (post t e).recs ≠ [] := by
  unfold post; split
  · exact mapOldest_ne _ _ h
  · exact h

/-- What a normal return of the run means. -/
def RunOk (T : List Token) (e : Ers F) (t : Token) (rest : List Token) (e1 : Ers F) : Prop :=
  ∃ ts1, Star T ⟨(firstAct t).run e, rest, []⟩ ⟨e1, ts1, []⟩

theorem run_trace (frames : Nat) (e : Ers F) (he : e.recs ≠ []) (t : Token) (rest : List Token)
    (hT : ∀ x ∈ t :: rest, Typed x) :
    match runL frames e t rest with
    | .ok e' => ∃ e1, RunOk (t :: rest) e t rest e1 ∧ e' = post t e1
    | .error x => Bad (t :: rest) x := by
  have hi : Inv (t :: rest) e rest := ⟨he, List.suffix_cons _ _⟩
  have ht : t ∈ t :: rest := by simp
  cases frames with
  | zero =>
    unfold runL; cases t.base <;> exact .inl rfl
  | succ n =>
    have ih := trace_exec (F := F) hT n
    have kerr : t.base ≠ .SPEED_VFR → t.base ≠ .SPEED_ALTITUDE →
        match (match exec (n+1) (.addErrorAndReSync t 1) (⟨e, rest⟩ : St (List Token) F) with
          | .ok (_, s) => .ok s.ers
          | .error x => .error x : Except PyErr (Ers F)) with
        | .ok e' => ∃ e1, RunOk (t :: rest) e t rest e1 ∧ e' = post t e1
        | .error x => Bad (t :: rest) x := by
      intro h1 h2
      have g := tr_err' (t := t) (n := 1) (K := []) ih hi (.inl rfl) ht (by decide)
      change G _ (exec (n+1) (.addErrorAndReSync t 1) ⟨e, rest⟩) _ _ at g
      cases h : exec (n+1) (.addErrorAndReSync t 1) (⟨e, rest⟩ : St (List Token) F) with
      | error x => rw [h] at g; exact g
      | ok p =>
        rw [h] at g
        refine ⟨p.2.ers, ⟨p.2.toks, ?_⟩, ?_⟩
        · have : firstAct t = .err t 1 := by unfold firstAct; split <;> simp_all
          rw [this]; exact g
        · unfold post; rw [if_neg h1]
    unfold runL
    cases hb : t.base
    case SPEED_VFR =>
      dsimp only
      have g := tr_vfr' ih hT hi (.inl rfl) ht hb
      change G _ (exec (n+1) (.assignSpeedVfr t) ⟨e, rest⟩) _ _ at g
      cases h : exec (n+1) (.assignSpeedVfr t) (⟨e, rest⟩ : St (List Token) F) with
      | error x => rw [h] at g; exact g
      | ok p =>
        rw [h] at g
        have hne : p.2.ers.recs ≠ [] := (Star.invs g (hi.run _)).ne
        dsimp only
        rw [setFirst_eq _ hne]
        refine ⟨p.2.ers, ⟨p.2.toks, ?_⟩, ?_⟩
        · have : firstAct t = .vfr t := by unfold firstAct; rw [hb]
          rw [this]; exact g
        · unfold post; rw [if_pos hb]
    case SPEED_ALTITUDE =>
      dsimp only
      have g := tr_level' ih hT hi (.inl rfl) ht hb
      change G _ (exec (n+1) (.assignSpeedAltitude t) ⟨e, rest⟩) _ _ at g
      have hp : ∀ e1 : Ers F, post t e1 = e1 := fun e1 => by unfold post; rw [if_neg (by rw [hb]; decide)]
      have hf : firstAct t = .level t := by unfold firstAct; rw [hb]
      cases h : exec (n+1) (.assignSpeedAltitude t) (⟨e, rest⟩ : St (List Token) F) with
      | error x => rw [h] at g; exact g
      | ok p =>
        rw [h] at g
        change Star _ _ _ at g
        have hi' := Star.invs g (hi.run _)
        dsimp only
        by_cases hr : rest = []
        · rw [if_pos hr]
          have g' := trace_exec hT (n+1) (.addErrorAndReSync t 49) p.2.ers p.2.toks [] hi' (.inl rfl) ⟨ht, by decide⟩
          change G _ _ ⟨_, _, []⟩ _ at g'
          cases h5 : exec (n+1) (.addErrorAndReSync t 49) p.2 with
          | error x => rw [h5] at g'; exact g'
          | ok q =>
            rw [h5] at g'
            refine ⟨q.2.ers, ⟨q.2.toks, ?_⟩, (hp _).symm⟩
            rw [hf]; exact g.trans g'
        · rw [if_neg hr]
          refine ⟨p.2.ers, ⟨p.2.toks, ?_⟩, (hp _).symm⟩
          rw [hf]; exact g
    all_goals exact kerr (by rw [hb]; decide) (by rw [hb]; decide)

/-- The run starts by taking the first token. -/
theorem RunOk.start {T : List Token} {e : Ers F} {t : Token} {rest : List Token} {e1 : Ers F}
    (h : RunOk T e t rest e1) (ht : t ∈ T) : ∃ ts1, Star T ⟨e, t :: rest, []⟩ ⟨e1, ts1, []⟩ := by
  obtain ⟨ts1, h⟩ := h
  refine ⟨ts1, .head (.pop e t rest []) ?_⟩
  unfold firstAct at h
  cases hb : t.base <;> rw [hb] at h
  case SPEED_VFR => exact .head (.rcd (.vfr t) e rest [] [] rfl ht hb (.inl rfl)) h
  case SPEED_ALTITUDE =>
    exact .head (.drop e rest [] t []) (.head (.note (.level t) e rest [] rfl ht hb) h)
  all_goals exact .head (.drop e rest [] t []) (.head (.note (.err t 1) e rest [] rfl ht (by show plainErr 1 = true; decide)) h)

/-- `parse_f15` on a non-empty field 15. -/
theorem parse_cons (frames : Nat) (e : Ers F) (he : e.recs ≠ []) (t : Token) (rest : List Token)
    (hT : ∀ x ∈ t :: rest, Typed x) :
    match parseL frames e (t :: rest) with
    | .ok (b, e') => ∃ e1, RunOk (t :: rest) e t rest e1 ∧ e1.recs ≠ [] ∧ b = decide (e1.errs = []) ∧ e' = finErs (post t e1)
    | .error x => Bad (t :: rest) x := by
  have := run_trace frames e he t rest hT
  unfold parseL
  dsimp only
  cases h : runL frames e t rest with
  | error x => rw [h] at this; exact this
  | ok e' =>
    rw [h] at this
    obtain ⟨e1, hr, rfl⟩ := this
    obtain ⟨ts1, hs⟩ := id hr
    have hne : e1.recs ≠ [] := (hs.invs ⟨Act.run_ne _ _ he, List.suffix_cons _ _⟩).ne
    dsimp only
    rw [finish_eq _ (post_ne t e1 hne)]
    refine ⟨e1, hr, hne, ?_, rfl⟩
    unfold post; split <;> rfl

end F15
