import Verif.Lemmas.Parse
/-!
# The trace theorem with places

As `Lemmas/Trace.lean`, but every action that changes the elements is known to happen when its token has just been taken
from the stream and has not been used yet. The exceptions are what happens after error 48, and over-long words of free text.
-/

namespace F15
open Spec

set_option linter.unusedSectionVars false
variable {F : Type} [PyFloat F]

/-- Configurations: state, and whether the token taken last is still unused (ghost). -/
structure PCfg (F : Type) where
  ers : Ers F
  toks : List Token
  unused : Bool

/-- The token `t` has just been taken from the stream and is unused. -/
def AtHand (T : List Token) (e : Ers F) (ts : List Token) (f : Bool) (t : Token) : Prop :=
  t ∈ T ∧ (((t :: ts) <:+ T ∧ f = true) ∨ Has48 T e)

/-- When an action may happen. -/
def Act.Near (T : List Token) (a : Act) (e : Ers F) (ts : List Token) (f : Bool) : Prop :=
  match a with
  | .err _ _ => True
  | .text t => t.base = .TOO_LONG ∨ AtHand T e ts f t
  | a => AtHand T e ts f a.tok

/-- Events. -/
inductive PEv (T : List Token) : PCfg F → PCfg F → Prop
  | pop (e t ts f) : PEv T ⟨e, t :: ts, f⟩ ⟨e, ts, true⟩
  | drop (e ts f) : PEv T ⟨e, ts, f⟩ ⟨e, ts, false⟩
  | act (a : Act) (e ts f) (ht : a.tok ∈ T) (ok : a.Ok T e ts) (near : a.Near T e ts f) : PEv T ⟨e, ts, f⟩ ⟨a.run e, ts, false⟩

/-- Sequences of events. -/
inductive PStar (T : List Token) : PCfg F → PCfg F → Prop
  | refl (c) : PStar T c c
  | head {a b c} (h : PEv T a b) (h' : PStar T b c) : PStar T a c

variable {T : List Token}

theorem PStar.trans {a b c : PCfg F} (h : PStar T a b) (h' : PStar T b c) : PStar T a c := by
  induction h with
  | refl => exact h'
  | head e _ ih => exact .head e (ih h')

theorem PStar.inv {P : PCfg F → Prop} (hs : ∀ a b, PEv T a b → P a → P b) {a b : PCfg F} (h : PStar T a b) (ha : P a) : P b := by
  induction h with
  | refl => exact ha
  | head e _ ih => exact ih (hs _ _ e ha)

theorem PEv.inv {a b : PCfg F} (h : PEv T a b) (hi : Inv T a.ers a.toks) : Inv T b.ers b.toks := by
  cases h with
  | pop e t ts f => exact ⟨hi.1, (List.suffix_cons t ts).trans hi.2⟩
  | drop => exact hi
  | act a e ts f => exact ⟨a.run_ne e hi.1, hi.2⟩

theorem PStar.invs {a b : PCfg F} (h : PStar T a b) (hi : Inv T a.ers a.toks) : Inv T b.ers b.toks :=
  PStar.inv (P := fun c => Inv T c.ers c.toks) (fun _ _ e => e.inv) h hi

theorem PStar.mem_errs {a b : PCfg F} {x : Record F} (h : PStar T a b) (hx : x ∈ a.ers.errs) : x ∈ b.ers.errs := by
  refine PStar.inv (P := fun c => x ∈ c.ers.errs) (fun _ _ e hx => ?_) h hx
  cases e with
  | pop | drop => exact hx
  | act a => rw [run_errs]; exact List.mem_append_right _ hx

theorem PStar.has48 {a b : PCfg F} (h : PStar T a b) (hi : Has48 T a.ers) : Has48 T b.ers := by
  obtain ⟨t, ht, hm⟩ := hi
  exact ⟨t, ht, h.mem_errs hm⟩

/-- The result is reached by events from `c`. -/
def PG (T : List Token) (r : Res F) (c : PCfg F) : Prop :=
  match r with
  | .ok (_, s) => PStar T c ⟨s.ers, s.toks, false⟩
  | .error _ => True

theorem PG.step {r : Res F} {a b : PCfg F} (h : PEv T a b) (g : PG T r b) : PG T r a := by
  cases r with
  | error => trivial
  | ok p => exact .head h g

theorem PG.ret {e : Ers F} {ts : List Token} {f : Bool} : PG T (done e ts) ⟨e, ts, f⟩ := .head (.drop e ts f) (.refl _)

theorem PG.andThen {r : Res F} {k : Ers F → List Token → Res F} {a : PCfg F}
    (h : PG T r a) (hk : ∀ e ts u, r = .ok (u, ⟨e, ts⟩) → PStar T a ⟨e, ts, false⟩ → PG T (k e ts) ⟨e, ts, false⟩) : PG T (andThen r k) a := by
  cases r with
  | error => trivial
  | ok p =>
    have h1 := hk p.2.ers p.2.toks p.1 rfl h
    show PG T (k p.2.ers p.2.toks) a
    cases h2 : k p.2.ers p.2.toks with
    | error => trivial
    | ok q => rw [h2] at h1; exact PStar.trans h h1

theorem PG.pop {r : Res F} {e : Ers F} {t : Token} {ts : List Token} {f : Bool} (g : PG T r ⟨e, ts, true⟩) : PG T r ⟨e, t :: ts, f⟩ :=
  g.step (.pop e t ts f)

theorem PG.act {r : Res F} {a : Act} {e : Ers F} {ts : List Token} {f : Bool} (ht : a.tok ∈ T) (ok : a.Ok T e ts) (near : a.Near T e ts f)
    (g : PG T r ⟨a.run e, ts, false⟩) : PG T r ⟨e, ts, f⟩ := g.step (.act a e ts f ht ok near)

/-- Preconditions of the calls. -/
def PPre (T : List Token) (e : Ers F) (ts : List Token) (f : Bool) : Call → Prop
  | .addErrorAndReSync t n => t ∈ T ∧ plainErr n
  | .assignSpeedAltitude t => AtHand T e ts f t ∧ t.base = .SPEED_ALTITUDE
  | .assignSpeedAltitudeAltitude t => AtHand T e ts f t ∧ t.base = .SPEED_ALTITUDE_ALTITUDE
  | .assignSpeedAltitudePlus t => AtHand T e ts f t ∧ t.base = .SPEED_ALTITUDE_PLUS
  | .assignSpeedVfr t => AtHand T e ts f t ∧ t.base = .SPEED_VFR
  | .breakEnd t => t :: ts <:+ T
  | .breakEndError t | .forwardSlash t | .stay t => t ∈ T
  | .breakTextSave t => AtHand T e ts f t ∧ t :: ts <:+ T
  | .cruiseClimbPoint t | .postAdep t | .postPoint t | .point t => AtHand T e ts f t
  | .breakStart t => AtHand T e ts f t ∧ t.base = .BREAK_START
  | .cruiseClimbC t => AtHand T e ts f t ∧ t.base = .C
  | .dct t => AtHand T e ts f t ∧ t.base = .DCT
  | .route t => AtHand T e ts f t ∧ t.base = .ROUTE
  | .sid t => AtHand T e ts f t ∧ t.base = .SID
  | .sidStar t => AtHand T e ts f t ∧ t.base = .SID_STAR
  | .star t => AtHand T e ts f t ∧ t.base = .STAR
  | .stayTime t => AtHand T e ts f t ∧ t.base = .STAY_TIME
  | .postSid | .reSync | .truncate => True
  | .vToI => ∃ p sl sp rest, ts = p :: sl :: sp :: rest ∧ p.base = .POINT ∧ sl.base = .SLASH ∧ sp.base = .SPEED_ALTITUDE
  | .vToIToV => ∃ p sl sp rest, ts = p :: sl :: sp :: rest ∧ p.base = .POINT ∧ sl.base = .SLASH ∧ sp.base = .SPEED_VFR ∧
      ∃ w, w.sub = .IFR ∧ w :: ts <:+ T

/-- The induction hypothesis: the trace, and that a reported error stays. -/
structure PIH (T : List Token) (call : Call → ML F Unit) : Prop where
  run : ∀ c e ts f, Inv T e ts → PPre T e ts f c → PG T (call c ⟨e, ts⟩) ⟨e, ts, f⟩
  err : ∀ t n e ts u s, Inv T e ts → t ∈ T → plainErr n = true → call (.addErrorAndReSync t n) ⟨e, ts⟩ = .ok (u, s) →
    errRec t n ∈ s.ers.errs

theorem at_of {e : Ers F} {t : Token} {ts : List Token} (h : Inv T e (t :: ts)) : AtHand T e ts true t :=
  ⟨h.mem, .inl ⟨h.suf, rfl⟩⟩

theorem pl_err' {call : Call → ML F Unit} (ih : PIH T call) {e : Ers F} {ts : List Token} (hi : Inv T e ts)
    {t : Token} {n : Nat} (hn : plainErr n = true) :
    PG T (step call (.addErrorAndReSync t n) ⟨e, ts⟩) ⟨(Act.err t n).run e, ts, false⟩ := by
  rw [step_err call t n (plainErr.isSome hn) e ts hi.ne]
  exact ih.run .reSync _ ts false (hi.run _) trivial

theorem pl_err {call : Call → ML F Unit} (ih : PIH T call) {e : Ers F} {ts : List Token} {f : Bool} (hi : Inv T e ts)
    {t : Token} {n : Nat} (ht : t ∈ T) (hn : plainErr n = true) :
    PG T (step call (.addErrorAndReSync t n) ⟨e, ts⟩) ⟨e, ts, f⟩ :=
  PG.act (a := .err t n) ht hn trivial (pl_err' ih hi hn)

section
variable {call : Call → ML F Unit} (ih : PIH T call) (hT : ∀ t ∈ T, Typed t)
variable {e : Ers F} {ts : List Token} {f : Bool} (hi : Inv T e ts)
include ih hi

set_option hygiene false in
local macro "fin" : tactic => `(tactic| (first
  | exact PIH.run ih _ _ _ _ hi (by simp [PPre, *]; try decide)
  | exact PG.ret))

theorem pl_postAdep {t : Token} (ht : AtHand T e ts f t) : PG T (step call (.postAdep t) ⟨e, ts⟩) ⟨e, ts, f⟩ := by
  show PG T (postAdep call t ⟨e, ts⟩) _
  have hm := ht.1
  unfold postAdep
  cases hb : t.base
  all_goals fin

theorem pl_postPoint {t : Token} (ht : AtHand T e ts f t) : PG T (step call (.postPoint t) ⟨e, ts⟩) ⟨e, ts, f⟩ := by
  rw [step_postPoint call t e ts hi.ne]
  have hm := ht.1
  cases hb : t.base
  case ROUTE =>
    dsimp only
    split
    · fin
    · fin
  all_goals fin

theorem pl_breakEndError {t : Token} (ht : t ∈ T) : PG T (step call (.breakEndError t) ⟨e, ts⟩) ⟨e, ts, f⟩ := by
  show PG T (breakEndError call t ⟨e, ts⟩) _
  unfold breakEndError
  split
  · fin
  · split
    · fin
    · split
      · fin
      · exact PG.ret

theorem pl_truncate : PG T (step call .truncate ⟨e, ts⟩) ⟨e, ts, f⟩ := by
  rw [step_truncate]
  cases ts with
  | nil => exact PG.ret
  | cons nt ts =>
    have hm := at_of hi
    have hj := hi.suf
    have hmm := hm.1
    replace hi := hi.tail
    exact PG.pop (by fin)

theorem pl_postSid : PG T (step call .postSid ⟨e, ts⟩) ⟨e, ts, f⟩ := by
  rw [step_postSid]
  cases ts with
  | nil => exact PG.ret
  | cons nt ts =>
    have hm := at_of hi
    have hj := hi.suf
    have hmm := hm.1
    replace hi := hi.tail
    refine PG.pop ?_
    dsimp only
    cases hb : nt.base
    all_goals fin

theorem pl_slash {t : Token} (ht : t ∈ T) : PG T (step call (.forwardSlash t) ⟨e, ts⟩) ⟨e, ts, f⟩ := by
  rw [step_slash]
  cases ts with
  | nil => fin
  | cons nt ts =>
    have hm := at_of hi
    have hj := hi.suf
    have hmm := hm.1
    replace hi := hi.tail
    refine PG.pop ?_
    dsimp only
    cases hb : nt.base
    all_goals fin

theorem pl_reSync : PG T (step call .reSync ⟨e, ts⟩) ⟨e, ts, f⟩ := by
  rw [step_reSync]
  cases ts with
  | nil => exact PG.ret
  | cons t ts =>
    have hm := at_of hi
    have hj := hi.suf
    have hmm := hm.1
    replace hi := hi.tail
    refine PG.pop ?_
    dsimp only
    cases hb : t.base
    case SLASH =>
      dsimp only
      cases ts with
      | nil => fin
      | cons nt ts =>
        have hm2 := at_of hi
        have hmm2 := hm2.1
        replace hi := hi.tail
        refine PG.pop ?_
        dsimp only
        cases hb : nt.base
        all_goals fin
    all_goals fin

theorem pl_stay {t : Token} (ht : t ∈ T) : PG T (step call (.stay t) ⟨e, ts⟩) ⟨e, ts, f⟩ := by
  rw [step_stay]
  cases ts with
  | nil => fin
  | cons nt ts =>
    have hm := at_of hi
    have hj := hi.suf
    have hmm := hm.1
    replace hi := hi.tail
    refine PG.pop ?_
    dsimp only
    split
    · fin
    · cases ts with
      | nil => fin
      | cons nt2 ts =>
        have hm2 := at_of hi
        have hmm2 := hm2.1
        replace hi := hi.tail
        refine PG.pop ?_
        dsimp only
        split
        · fin
        · rename_i h
          exact ih.run _ _ _ _ hi ⟨hm2, Decidable.not_not.1 h⟩

include hT

theorem pl_point {t : Token} (ht : AtHand T e ts f t) : PG T (step call (.point t) ⟨e, ts⟩) ⟨e, ts, f⟩ := by
  rw [step_point call t (hT t ht.1) e ts hi.ne]
  refine PG.act (a := .point t) ht.1 trivial ht ?_
  replace hi := hi.run (.point t)
  cases ts with
  | nil => exact PG.ret
  | cons nt ts =>
    have hm := at_of hi
    have hj := hi.suf
    replace hi := hi.tail
    exact PG.pop (by fin)

theorem pl_route {t : Token} (ht : AtHand T e ts f t) (hb : t.base = .ROUTE) :
    PG T (step call (.route t) ⟨e, ts⟩) ⟨e, ts, f⟩ := by
  rw [step_route call t e ts hi.ne]
  refine PG.act (a := .route t) ht.1 hb ht ?_
  replace hi := hi.run (.route t)
  cases ts with
  | nil => exact PG.ret
  | cons nt ts =>
    have hm := at_of hi
    have hj := hi.suf
    have hmm := hm.1
    replace hi := hi.tail
    refine PG.pop ?_
    dsimp only
    cases hb : nt.base
    case POINT =>
      dsimp only
      split
      · refine PG.andThen (by fin) ?_
        intro e' ts' u heq hs
        have h48 : Has48 T e' := ⟨nt, hmm, ih.err nt 48 _ _ _ _ hi hmm (by decide) heq⟩
        exact ih.run _ _ _ _ (hs.invs hi) ⟨hmm, .inr h48⟩
      · fin
    all_goals fin

theorem pl_dct {t : Token} (ht : AtHand T e ts f t) (hb : t.base = .DCT) :
    PG T (step call (.dct t) ⟨e, ts⟩) ⟨e, ts, f⟩ := by
  rw [step_dct call t e ts hi.ne]
  refine PG.act (a := .plain t) ht.1 (.inl hb) ht ?_
  replace hi := hi.run (.plain t)
  cases ts with
  | nil => exact PG.ret
  | cons nt ts =>
    have hm := at_of hi
    have hj := hi.suf
    have hmm := hm.1
    replace hi := hi.tail
    refine PG.pop ?_
    dsimp only
    cases hb : nt.base
    all_goals fin

theorem pl_sid {t : Token} (ht : AtHand T e ts f t) (hb : t.base = .SID) :
    PG T (step call (.sid t) ⟨e, ts⟩) ⟨e, ts, f⟩ := by
  rw [step_sid call t e ts hi.ne]
  have hm := ht.1
  split
  · rename_i h
    refine PG.act (a := .sid t) ht.1 ⟨.inl hb, h⟩ ht ?_
    replace hi := hi.run (.sid t)
    fin
  · refine PG.act (a := .plain t) ht.1 (.inr (.inr (.inl hb))) ht ?_
    replace hi := hi.run (.plain t)
    fin

theorem pl_sidStar {t : Token} (ht : AtHand T e ts f t) (hb : t.base = .SID_STAR) :
    PG T (step call (.sidStar t) ⟨e, ts⟩) ⟨e, ts, f⟩ := by
  rw [step_sidStar call t e ts hi.ne]
  have hm := ht.1
  split
  · rename_i h
    refine PG.act (a := .sid t) ht.1 ⟨.inr hb, h⟩ ht ?_
    replace hi := hi.run (.sid t)
    fin
  · cases ts with
    | nil => exact PG.act (a := .star t) ht.1 ⟨.inr hb, rfl⟩ ht PG.ret
    | cons pk ts =>
      have hm := hi.mem
      have hj := hi.suf
      refine PG.act (a := .plain t) ht.1 (.inr (.inr (.inr (.inr hb)))) ht ?_
      replace hi := hi.run (.plain t)
      fin

theorem pl_star {t : Token} (ht : AtHand T e ts f t) (hb : t.base = .STAR) :
    PG T (step call (.star t) ⟨e, ts⟩) ⟨e, ts, f⟩ := by
  rw [step_star call t e ts hi.ne]
  cases ts with
  | nil => exact PG.act (a := .star t) ht.1 ⟨.inl hb, rfl⟩ ht PG.ret
  | cons pk ts =>
    have hm := hi.mem
    have hj := hi.suf
    refine PG.act (a := .plain t) ht.1 (.inr (.inr (.inr (.inl hb)))) ht ?_
    replace hi := hi.run (.plain t)
    fin

theorem pl_stayTime {t : Token} (ht : AtHand T e ts f t) (hb : t.base = .STAY_TIME) :
    PG T (step call (.stayTime t) ⟨e, ts⟩) ⟨e, ts, f⟩ := by
  rw [step_stayTime call t (stay_facts (hT t ht.1) hb) e ts hi.ne]
  refine PG.act (a := .stay t) ht.1 hb ht ?_
  replace hi := hi.run (.stay t)
  cases ts with
  | nil => exact PG.ret
  | cons nt ts =>
    have hm := at_of hi
    have hj := hi.suf
    have hmm := hm.1
    replace hi := hi.tail
    refine PG.pop ?_
    dsimp only
    cases hb : nt.base
    all_goals fin

theorem pl_breakStart {t : Token} (ht : AtHand T e ts f t) (hb : t.base = .BREAK_START) :
    PG T (step call (.breakStart t) ⟨e, ts⟩) ⟨e, ts, f⟩ := by
  rw [step_breakStart call t e ts hi.ne]
  refine PG.act (a := .brk t) ht.1 hb ht ?_
  replace hi := hi.run (.brk t)
  cases ts with
  | nil => exact PG.ret
  | cons nt ts =>
    have hm := at_of hi
    have hj := hi.suf
    have hmm := hm.1
    replace hi := hi.tail
    refine PG.pop ?_
    dsimp only
    split <;> fin

theorem pl_textTail : PG T (textTail call e ts) ⟨e, ts, f⟩ := by
  unfold textTail
  cases ts with
  | nil => exact PG.ret
  | cons nt ts =>
    have hm := at_of hi
    have hj := hi.suf
    have hmm := hm.1
    replace hi := hi.tail
    refine PG.pop ?_
    fin

theorem pl_textBody {t : Token} (htT : t ∈ T) (ht : t.base = .TOO_LONG ∨ AtHand T e ts f t)
    (hj : t.base = .TOO_LONG ∨ t :: ts <:+ T) : PG T (textBody call t e ts hi.ne) ⟨e, ts, f⟩ := by
  unfold textBody
  split
  · rename_i hend
    have hj' : t :: ts <:+ T := hj.resolve_left fun hl => by rw [long_no_end (hT t htT) hl] at hend; cases hend
    refine PG.act (a := .text t) htT trivial ht ?_
    have hi' := hi.run (.text t)
    refine PG.andThen (ih.run _ _ _ _ hi' hj') fun e' ts' _ _ hs => ?_
    exact pl_textTail ih hT (hs.invs hi')
  · refine PG.act (a := .text t) htT trivial ht ?_
    exact pl_textTail ih hT (hi.run (.text t))

theorem pl_text {t : Token} (ht : AtHand T e ts f t) (hj : t :: ts <:+ T) : PG T (step call (.breakTextSave t) ⟨e, ts⟩) ⟨e, ts, f⟩ := by
  have hm := ht.1
  by_cases hb : t.base = .TOO_LONG
  · rw [step_text_long call t e ts hb]
    refine PG.andThen (by fin) fun e' ts' _ _ hs => ?_
    have hi' := hs.invs hi
    rw [dif_pos hi'.ne]
    exact pl_textBody ih hT hi' ht.1 (.inl hb) (.inl hb)
  · rw [step_text call t e ts hi.ne hb]
    exact pl_textBody ih hT hi ht.1 (.inr ht) (.inr hj)

theorem pl_C {t : Token} (ht : AtHand T e ts f t) (hb : t.base = .C) :
    PG T (step call (.cruiseClimbC t) ⟨e, ts⟩) ⟨e, ts, f⟩ := by
  rw [step_C call t e ts hi.ne]
  have rc : ∀ (r : Res F), PG T r ⟨(Act.plain t).run e, ts, false⟩ → PG T r ⟨e, ts, f⟩ :=
    fun r g => PG.act (a := .plain t) ht.1 (.inr (.inl hb)) ht g
  have hi' := hi.run (.plain t)
  cases ts with
  | nil => exact rc _ PG.ret
  | cons nt ts =>
    have hm := at_of hi
    have hj := hi.suf
    have hmm := hm.1
    dsimp only
    cases hb' : nt.base
    case UNKNOWN | SPEED_VFR | SPEED_ALTITUDE | BREAK_END | SPEED_ALTITUDE_ALTITUDE | SPEED_ALTITUDE_PLUS | TOO_LONG |
        STAY_TIME =>
      replace hi := hi.tail
      refine PG.pop ?_
      fin
    case SLASH =>
      dsimp only
      cases ts with
      | nil =>
        refine rc _ (PG.pop ?_)
        replace hi := hi'.tail
        fin
      | cons nt2 ts =>
        replace hi := hi.tail
        have hm2 := at_of hi
        have hmm2 := hm2.1
        replace hi := hi.tail
        refine PG.pop (PG.pop ?_)
        fin
    all_goals
      refine rc _ (PG.pop ?_)
      have hm := at_of hi'
      replace hi := hi'.tail
      fin

theorem pl_endTail : PG T (endTail call e ts) ⟨e, ts, f⟩ := by
  unfold endTail
  cases ts with
  | nil => exact PG.ret
  | cons nt ts =>
    have hm := at_of hi
    have hj := hi.suf
    have hmm := hm.1
    replace hi := hi.tail
    refine PG.pop ?_
    fin

theorem pl_breakEnd {t : Token} (hw : t :: ts <:+ T) : PG T (step call (.breakEnd t) ⟨e, ts⟩) ⟨e, ts, f⟩ := by
  rw [step_breakEnd]
  cases ts with
  | nil => exact PG.ret
  | cons p ts' =>
    have hm := hi.mem
    have hj := hi.suf
    dsimp only
    split
    · exact PG.ret
    rename_i hp
    split
    · cases ts' with
      | nil => fin
      | cons sl ts'' =>
        dsimp only
        split
        · exact PG.ret
        rename_i hsl
        cases ts'' with
        | nil => fin
        | cons sp ts3 =>
          dsimp only
          split
          · rename_i hsp
            refine PG.andThen (ih.run _ _ _ _ hi
              ⟨p, sl, sp, ts3, rfl, Decidable.not_not.1 hp, Decidable.not_not.1 hsl, hsp⟩) fun e' ts' _ _ hs => ?_
            exact pl_endTail ih hT (hs.invs hi)
          · split
            · rename_i hsp
              refine PG.andThen (ih.run _ _ _ _ hi
                ⟨p, sl, sp, ts3, rfl, Decidable.not_not.1 hp, Decidable.not_not.1 hsl, hsp, t, by assumption, hw⟩) fun e' ts' _ _ hs => ?_
              exact pl_endTail ih hT (hs.invs hi)
            · fin
    · have hm := at_of hi
      have hj := hi.suf
      have hmm := hm.1
      replace hi := hi.tail
      refine PG.pop ?_
      fin

theorem pl_level' {t : Token} (ht : t ∈ T) (hb : t.base = .SPEED_ALTITUDE) :
    PG T (step call (.assignSpeedAltitude t) ⟨e, ts⟩) ⟨(Act.level t).run e, ts, false⟩ := by
  rw [step_level call t (hT t ht) hb e ts hi.ne]
  replace hi := hi.run (.level t)
  cases ts with
  | nil => exact PG.ret
  | cons nt ts =>
    have hm := at_of hi
    have hj := hi.suf
    have hmm := hm.1
    replace hi := hi.tail
    refine PG.pop ?_
    dsimp only
    split <;> fin

theorem pl_level {t : Token} (ht : AtHand T e ts f t) (hb : t.base = .SPEED_ALTITUDE) :
    PG T (step call (.assignSpeedAltitude t) ⟨e, ts⟩) ⟨e, ts, f⟩ :=
  PG.act (a := .level t) ht.1 hb ht (pl_level' ih hT hi ht.1 hb)

theorem pl_levelsK (a : Act) (ht : a.tok ∈ T) (ok : a.Ok T e ts) (near : a.Near T e ts f) :
    PG T (levelsK call a e ts) ⟨e, ts, f⟩ := by
  refine PG.act ht ok near ?_
  replace hi := hi.run a
  unfold levelsK
  cases ts with
  | nil => exact PG.ret
  | cons nt ts =>
    have hm := at_of hi
    have hj := hi.suf
    have hmm := hm.1
    replace hi := hi.tail
    refine PG.pop ?_
    fin

theorem pl_levels {t : Token} (ht : AtHand T e ts f t) (hb : t.base = .SPEED_ALTITUDE_ALTITUDE) :
    PG T (step call (.assignSpeedAltitudeAltitude t) ⟨e, ts⟩) ⟨e, ts, f⟩ := by
  by_cases hbad : t.sub ∈ ccBad
  · rw [step_levels_bad call t (hT t ht.1) hbad e ts hi.ne]
    trivial
  · rw [step_levels call t (hT t ht.1) hb hbad e ts hi.ne]
    exact pl_levelsK ih hT hi (.levels t) ht.1 ⟨hb, hbad⟩ ht

theorem pl_plus {t : Token} (ht : AtHand T e ts f t) (hb : t.base = .SPEED_ALTITUDE_PLUS) :
    PG T (step call (.assignSpeedAltitudePlus t) ⟨e, ts⟩) ⟨e, ts, f⟩ := by
  rw [step_plus call t (hT t ht.1) hb e ts hi.ne]
  exact pl_levelsK ih hT hi (.plus t) ht.1 hb ht

theorem pl_vfr' {t : Token} (ht : t ∈ T) (hb : t.base = .SPEED_VFR) :
    PG T (step call (.assignSpeedVfr t) ⟨e, ts⟩) ⟨(Act.vfr t).run e, ts, false⟩ := by
  rw [step_vfr call t (hT t ht) hb e ts hi.ne]
  replace hi := hi.run (.vfr t)
  cases ts with
  | nil => exact PG.ret
  | cons nt ts =>
    have hm := at_of hi
    have hj := hi.suf
    have hmm := hm.1
    replace hi := hi.tail
    refine PG.pop ?_
    fin

theorem pl_vfr {t : Token} (ht : AtHand T e ts f t) (hb : t.base = .SPEED_VFR) :
    PG T (step call (.assignSpeedVfr t) ⟨e, ts⟩) ⟨e, ts, f⟩ :=
  PG.act (a := .vfr t) ht.1 hb ht (pl_vfr' ih hT hi ht.1 hb)

theorem pl_ccPoint {t : Token} (ht : AtHand T e ts f t) :
    PG T (step call (.cruiseClimbPoint t) ⟨e, ts⟩) ⟨e, ts, f⟩ := by
  rw [step_ccPoint call t (hT t ht.1) e ts hi.ne]
  refine PG.act (a := .ccPoint t) ht.1 trivial ht ?_
  replace hi := hi.run (.ccPoint t)
  have htm := ht.1
  have kk : ∀ (e : Ers F) ts f, Inv T e ts → PG T (match ts with
        | [] => call (.addErrorAndReSync t 28) ⟨e, []⟩
        | nt2 :: ts => andThen ((if nt2.base = .SPEED_ALTITUDE_ALTITUDE then call (.assignSpeedAltitudeAltitude nt2)
            else if nt2.base = .SPEED_ALTITUDE_PLUS then call (.assignSpeedAltitudePlus nt2)
            else call (.addErrorAndReSync nt2 29)) ⟨e, ts⟩) (endTail call)) ⟨e, ts, f⟩ := by
    intro e ts f hi
    cases ts with
    | nil => fin
    | cons nt2 ts =>
      have hm := at_of hi
      have hj := hi.suf
      have hmm := hm.1
      replace hi := hi.tail
      refine PG.pop ?_
      dsimp only
      refine PG.andThen ?_ fun e' ts' _ _ hs => pl_endTail ih hT (hs.invs hi)
      split
      · fin
      · split
        · fin
        · fin
  dsimp only
  cases ts with
  | nil => fin
  | cons nt ts =>
    have hm := at_of hi
    have hj := hi.suf
    have hmm := hm.1
    replace hi := hi.tail
    refine PG.pop ?_
    dsimp only
    split
    · refine PG.andThen (by fin) fun e' ts' _ _ hs => kk _ _ _ (hs.invs hi)
    · exact kk _ _ _ hi

theorem pl_vToI {p sl sp : Token} (hts : ∃ rest, ts = p :: sl :: sp :: rest) (hp : p.base = .POINT)
    (hsp : sp.base = .SPEED_ALTITUDE) : PG T (step call .vToI ⟨e, ts⟩) ⟨e, ts, f⟩ := by
  obtain ⟨rest, rfl⟩ := hts
  rw [step_vToI call p sl sp (hT p hi.mem) e rest hi.ne]
  refine PG.pop (PG.act (a := .vToI p) hi.mem hp (at_of hi) (PG.pop (PG.pop ?_)))
  replace hi := hi.tail.tail.run (.vToI p)
  have hm := at_of hi
  have hj := hi.suf
  replace hi := hi.tail
  fin

theorem pl_vToIToV {p sl sp : Token} (hts : ∃ rest, ts = p :: sl :: sp :: rest) (hp : p.base = .POINT)
    (hsl : sl.base = .SLASH) (hsp : sp.base = .SPEED_VFR) (hw : ∃ w, w.sub = .IFR ∧ w :: ts <:+ T) : PG T (step call .vToIToV ⟨e, ts⟩) ⟨e, ts, f⟩ := by
  obtain ⟨rest, rfl⟩ := hts
  rw [step_vToIToV call p sl sp e rest hi.ne]
  obtain ⟨w, hw, pre, hpre⟩ := hw
  refine PG.pop (PG.act (a := .vToIToV p) hi.mem ⟨hp, pre, w, sl, sp, rest, hpre.symm, hw, hsl, hsp⟩ (at_of hi)
    (PG.pop (PG.pop ?_)))
  replace hi := hi.tail.tail.run (.vToIToV p)
  have hm := at_of hi
  have hj := hi.suf
  replace hi := hi.tail
  fin

end

/-- The trace theorem. -/
theorem place_exec (hT : ∀ t ∈ T, Typed t) (n : Nat) : PIH (F := F) T (exec n) := by
  induction n with
  | zero => exact ⟨fun _ _ _ _ _ _ => trivial, fun _ _ _ _ _ _ _ _ _ h => nomatch h⟩
  | succ n ih =>
    constructor
    · intro c e ts f hi hp
      show PG T (step (exec n) c ⟨e, ts⟩) _
      cases c with
      | addErrorAndReSync t m => exact pl_err ih hi hp.1 hp.2
      | assignSpeedAltitude t => exact pl_level ih hT hi hp.1 hp.2
      | assignSpeedAltitudeAltitude t => exact pl_levels ih hT hi hp.1 hp.2
      | assignSpeedAltitudePlus t => exact pl_plus ih hT hi hp.1 hp.2
      | assignSpeedVfr t => exact pl_vfr ih hT hi hp.1 hp.2
      | breakEnd t => exact pl_breakEnd ih hT hi hp
      | breakEndError t => exact pl_breakEndError ih hi hp
      | breakStart t => exact pl_breakStart ih hT hi hp.1 hp.2
      | breakTextSave t => exact pl_text ih hT hi hp.1 hp.2
      | cruiseClimbC t => exact pl_C ih hT hi hp.1 hp.2
      | cruiseClimbPoint t => exact pl_ccPoint ih hT hi hp
      | dct t => exact pl_dct ih hT hi hp.1 hp.2
      | forwardSlash t => exact pl_slash ih hi hp
      | postAdep t => exact pl_postAdep ih hi hp
      | postPoint t => exact pl_postPoint ih hi hp
      | postSid => exact pl_postSid ih hi
      | point t => exact pl_point ih hT hi hp
      | reSync => exact pl_reSync ih hi
      | route t => exact pl_route ih hT hi hp.1 hp.2
      | sid t => exact pl_sid ih hT hi hp.1 hp.2
      | sidStar t => exact pl_sidStar ih hT hi hp.1 hp.2
      | star t => exact pl_star ih hT hi hp.1 hp.2
      | stay t => exact pl_stay ih hi hp
      | stayTime t => exact pl_stayTime ih hT hi hp.1 hp.2
      | truncate => exact pl_truncate ih hi
      | vToI =>
        obtain ⟨p, sl, sp, rest, h1, h2, h3, h4⟩ := hp
        exact pl_vToI ih hT hi ⟨rest, h1⟩ h2 h4
      | vToIToV =>
        obtain ⟨p, sl, sp, rest, h1, h2, h3, h4⟩ := hp
        exact pl_vToIToV ih hT hi ⟨rest, h1⟩ h2 h3 h4.1 h4.2
    · intro t m e ts u s hi ht hn h
      have g := pl_err' (t := t) (ts := ts) ih hi hn
      change PG T (exec (n + 1) (.addErrorAndReSync t m) ⟨e, ts⟩) _ at g
      rw [h] at g
      refine PStar.mem_errs g ?_
      show _ ∈ ((Act.err t m).run e).errs
      rw [run_errs]
      simp [Act.nums, Act.tok]

/-- The run of `parse_f15`: the first token is taken, then the first action happens. -/
theorem run_place {frames : Nat} {e : Ers F} (he : e.recs ≠ []) {t : Token} {rest : List Token}
    (hT : ∀ x ∈ t :: rest, Typed x) {e' : Ers F} (h : runL frames e t rest = .ok e') :
    ∃ e1 ts1, PStar (t :: rest) ⟨e, t :: rest, false⟩ ⟨e1, ts1, false⟩ ∧ e' = post t e1 := by
  have hi : Inv (t :: rest) e rest := ⟨he, List.suffix_cons _ _⟩
  have ha : AtHand (t :: rest) e rest true t := ⟨by simp, .inl ⟨List.suffix_refl _, rfl⟩⟩
  have ih := place_exec (F := F) hT frames
  unfold runL at h
  by_cases hv : t.base = .SPEED_VFR
  · simp only [hv] at h
    have g := ih.run (.assignSpeedVfr t) e rest true hi ⟨ha, hv⟩
    cases h1 : exec frames (.assignSpeedVfr t) (⟨e, rest⟩ : St (List Token) F) with
    | error x => rw [h1] at h; simp at h
    | ok p =>
      rw [h1] at g h
      have hne : p.2.ers.recs ≠ [] := (PStar.invs g hi).ne
      dsimp only at h
      rw [setFirst_eq _ hne] at h
      refine ⟨p.2.ers, p.2.toks, .head (.pop _ _ _ _) g, ?_⟩
      unfold post; rw [if_pos hv]; exact (Except.ok.inj h).symm
  · by_cases hl : t.base = .SPEED_ALTITUDE
    · simp only [hl] at h
      have g := ih.run (.assignSpeedAltitude t) e rest true hi ⟨ha, hl⟩
      cases h1 : exec frames (.assignSpeedAltitude t) (⟨e, rest⟩ : St (List Token) F) with
      | error x => rw [h1] at h; simp at h
      | ok p =>
        rw [h1] at g h
        change PStar _ _ _ at g
        dsimp only at h
        have hi' := PStar.invs g hi
        have hp : ∀ e1 : Ers F, e1 = post t e1 := fun e1 => by unfold post; rw [if_neg hv]
        split at h
        · have g' := ih.run (.addErrorAndReSync t 49) p.2.ers p.2.toks false hi' ⟨by simp, by decide⟩
          change PG _ (exec frames (.addErrorAndReSync t 49) p.2) _ at g'
          cases h2 : exec frames (.addErrorAndReSync t 49) p.2 with
          | error x => rw [h2] at h; simp at h
          | ok q =>
            rw [h2] at g' h
            exact ⟨q.2.ers, q.2.toks, (PStar.head (.pop _ _ _ _) g).trans g', by rw [← hp]; exact (Except.ok.inj h).symm⟩
        · exact ⟨p.2.ers, p.2.toks, .head (.pop _ _ _ _) g, by rw [← hp]; exact (Except.ok.inj h).symm⟩
    · have g := ih.run (.addErrorAndReSync t 1) e rest true hi ⟨by simp, by decide⟩
      have hp : ∀ e1 : Ers F, e1 = post t e1 := fun e1 => by unfold post; rw [if_neg hv]
      have h : (match exec frames (.addErrorAndReSync t 1) (⟨e, rest⟩ : St (List Token) F) with
          | .ok (_, s) => .ok s.ers
          | .error x => .error x : Except PyErr (Ers F)) = .ok e' := by
        cases hb : t.base <;> rw [hb] at h hv hl <;> first | exact absurd rfl hv | exact absurd rfl hl | exact h
      cases h1 : exec frames (.addErrorAndReSync t 1) (⟨e, rest⟩ : St (List Token) F) with
      | error x => rw [h1] at h; simp at h
      | ok p =>
        rw [h1] at g h
        exact ⟨p.2.ers, p.2.toks, .head (.pop _ _ _ _) g, by rw [← hp]; exact (Except.ok.inj h).symm⟩

end F15
