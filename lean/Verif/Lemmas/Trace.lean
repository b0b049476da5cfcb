import Verif.Spec.Wording
import Verif.Lemmas.BadCruise
/-!
# The trace theorem

Every execution of a method is a sequence of events: taking a token from the stream into the hand, dropping a
token from the hand, performing an action that adds no element, or performing an action that adds one element
for a token of the hand. Holding a token while later tokens are recorded only happens after error 48.
-/

namespace F15
open Spec

set_option linter.unusedSectionVars false
variable {F : Type} [PyFloat F]

/-- Does the action add an element? -/
def Act.records : Act → Bool
  | .point _ | .vToI _ | .vToIToV _ | .route _ | .plain _ | .brk _ | .sid _ | .star _ | .ccPoint _ | .vfr _ => true
  | _ => false

/-- Configurations: state and the tokens taken from the stream but not yet used (ghost). -/
structure Cfg (F : Type) where
  ers : Ers F
  toks : List Token
  hand : List Token

/-- Error 48 has been reported. -/
def Has48 (T : List Token) (e : Ers F) : Prop := ∃ t ∈ T, errRec t 48 ∈ e.errs

/-- A message of the catalogue that is used, and is not about the range of a number. -/
def plainErr (n : Nat) : Bool := [1, 3, 4, 5, 6, 7, 8, 9, 10, 11, 12, 13, 14, 15, 16, 19, 20, 21, 22, 23, 24, 25, 26, 27, 28, 29, 30, 31, 32, 34, 35, 36,
  37, 38, 39, 47, 48, 49, 50, 52, 53, 54, 55].contains n

theorem plainErr.isSome {n : Nat} (h : plainErr n = true) : (errorMessage n).isSome = true := by
  have : ∀ m ∈ [1, 3, 4, 5, 6, 7, 8, 9, 10, 11, 12, 13, 14, 15, 16, 19, 20, 21, 22, 23, 24, 25, 26, 27, 28, 29, 30, 31, 32, 34, 35, 36,
      37, 38, 39, 47, 48, 49, 50, 52, 53, 54, 55], (errorMessage m).isSome = true := by decide +kernel
  exact this n (List.contains_iff_mem.1 h)

theorem plainErr.reportable {n : Nat} (h : plainErr n = true) : n ∈ Spec.reportable := by
  have : ∀ m ∈ [1, 3, 4, 5, 6, 7, 8, 9, 10, 11, 12, 13, 14, 15, 16, 19, 20, 21, 22, 23, 24, 25, 26, 27, 28, 29, 30, 31, 32, 34, 35, 36,
      37, 38, 39, 47, 48, 49, 50, 52, 53, 54, 55], m ∈ Spec.reportable := by decide +kernel
  exact this n (List.contains_iff_mem.1 h)

theorem reportable_isSome {n : Nat} (h : n ∈ Spec.reportable) : (errorMessage n).isSome = true := by
  have : ∀ m ∈ Spec.reportable, (errorMessage m).isSome = true := by decide +kernel
  exact this n h

/-- The circumstances under which an action happens. -/
def Act.Ok (T : List Token) (a : Act) (e : Ers F) (ts : List Token) : Prop :=
  match a with
  | .err _ n => plainErr n
  | .level t => t.base = .SPEED_ALTITUDE
  | .levels t => t.base = .SPEED_ALTITUDE_ALTITUDE ∧ t.sub ∉ ccBad
  | .plus t => t.base = .SPEED_ALTITUDE_PLUS
  | .vfr t => t.base = .SPEED_VFR
  | .stay t => t.base = .STAY_TIME
  | .brk t => t.base = .BREAK_START
  | .route t => t.base = .ROUTE
  | .plain t => t.base = .DCT ∨ t.base = .C ∨ t.base = .SID ∨ t.base = .STAR ∨ t.base = .SID_STAR
  | .sid t => (t.base = .SID ∨ t.base = .SID_STAR) ∧ e.recs.length = 1
  | .star t => (t.base = .STAR ∨ t.base = .SID_STAR) ∧ ts = []
  | .vToI t => t.base = .POINT
  | .vToIToV t => t.base = .POINT ∧ ∃ pre w sl sp rest, T = pre ++ w :: t :: sl :: sp :: rest ∧ w.sub = .IFR ∧ sl.base = .SLASH ∧
      sp.base = .SPEED_VFR
  | _ => True

/-- Events. -/
inductive Ev (T : List Token) : Cfg F → Cfg F → Prop
  | pop (e t ts h) : Ev T ⟨e, t :: ts, h⟩ ⟨e, ts, h ++ [t]⟩
  | drop (e ts h1 t h2) : Ev T ⟨e, ts, h1 ++ t :: h2⟩ ⟨e, ts, h1 ++ h2⟩
  | note (a e ts h) (hr : Act.records a = false) (ht : a.tok ∈ T) (ok : a.Ok T e ts) : Ev T ⟨e, ts, h⟩ ⟨a.run e, ts, h⟩
  | rcd (a e ts h1 h2) (hr : Act.records a = true) (ht : a.tok ∈ T) (ok : a.Ok T e ts) (h48 : h1 = [] ∨ Has48 T e) :
      Ev T ⟨e, ts, h1 ++ a.tok :: h2⟩ ⟨a.run e, ts, h1 ++ h2⟩

/-- Sequences of events. -/
inductive Star (T : List Token) : Cfg F → Cfg F → Prop
  | refl (c) : Star T c c
  | head {a b c} (h : Ev T a b) (h' : Star T b c) : Star T a c

theorem Star.trans {T : List Token} {a b c : Cfg F} (h : Star T a b) (h' : Star T b c) : Star T a c := by
  induction h with
  | refl => exact h'
  | head e _ ih => exact .head e (ih h')

/-- Induction principle: an invariant of events is an invariant of executions. -/
theorem Star.inv {T : List Token} {P : Cfg F → Prop} (hs : ∀ a b, Ev T a b → P a → P b) {a b : Cfg F}
    (h : Star T a b) (ha : P a) : P b := by
  induction h with
  | refl => exact ha
  | head e _ ih => exact ih (hs _ _ e ha)

variable {T : List Token}

/-- The standing assumptions. -/
structure Inv (T : List Token) (e : Ers F) (ts : List Token) : Prop where
  ne : e.recs ≠ []
  suf : ts <:+ T

theorem Ev.inv {a b : Cfg F} (h : Ev T a b) (hi : Inv T a.ers a.toks) : Inv T b.ers b.toks := by
  cases h with
  | pop e t ts h => exact ⟨hi.1, (List.suffix_cons t ts).trans hi.2⟩
  | drop => exact hi
  | note a e ts h => exact ⟨a.run_ne e hi.1, hi.2⟩
  | rcd a e ts h1 h2 => exact ⟨a.run_ne e hi.1, hi.2⟩

theorem run_errs (a : Act) (e : Ers F) : (a.run e).errs = ((a.nums.map (errRec a.tok)).reverse) ++ e.errs := rfl

theorem Ev.has48 {a b : Cfg F} (h : Ev T a b) (hi : Has48 T a.ers) : Has48 T b.ers := by
  obtain ⟨t, ht, hm⟩ := hi
  cases h with
  | pop | drop => exact ⟨t, ht, hm⟩
  | note a | rcd a => exact ⟨t, ht, by rw [run_errs]; exact List.mem_append_right _ hm⟩

theorem Star.invs {a b : Cfg F} (h : Star T a b) (hi : Inv T a.ers a.toks) : Inv T b.ers b.toks :=
  Star.inv (P := fun c => Inv T c.ers c.toks) (fun _ _ e => e.inv) h hi

theorem Star.has48 {a b : Cfg F} (h : Star T a b) (hi : Has48 T a.ers) : Has48 T b.ers :=
  Star.inv (P := fun c => Has48 T c.ers) (fun _ _ e => e.has48) h hi

theorem Star.dropAll (e : Ers F) (ts K : List Token) (h : List Token) : Star T ⟨e, ts, K ++ h⟩ ⟨e, ts, K⟩ := by
  induction h with
  | nil => rw [List.append_nil]; exact .refl _
  | cons t h ih => exact .head (.drop e ts K t h) ih

/-- Exceptions an execution may raise. -/
def Bad (T : List Token) (x : PyErr) : Prop := x = .recursionError ∨ (x = .valueError ∧ ∃ t ∈ T, t.sub ∈ ccBad)

/-- The result is reached by events from `c`, with hand `K` left. -/
def G (T : List Token) (r : Res F) (c : Cfg F) (K : List Token) : Prop :=
  match r with
  | .ok (_, s) => Star T c ⟨s.ers, s.toks, K⟩
  | .error x => Bad T x

theorem G.steps {r : Res F} {a b : Cfg F} {K : List Token} (h : Star T a b) (g : G T r b K) : G T r a K := by
  cases r with
  | error => exact g
  | ok p => exact h.trans g

theorem G.step {r : Res F} {a b : Cfg F} {K : List Token} (h : Ev T a b) (g : G T r b K) : G T r a K :=
  g.steps (.head h (.refl _))

theorem G.ret {e : Ers F} {ts : List Token} {K h : List Token} : G T (done e ts) ⟨e, ts, K ++ h⟩ K :=
  Star.dropAll e ts K h

theorem G.andThen {r : Res F} {k : Ers F → List Token → Res F} {a : Cfg F} {K' K : List Token}
    (h : G T r a K') (hk : ∀ e ts, Star T a ⟨e, ts, K'⟩ → G T (k e ts) ⟨e, ts, K'⟩ K) : G T (andThen r k) a K := by
  cases r with
  | error => exact h
  | ok p => exact (hk _ _ h).steps h

/-- The token of a call that may still become an element. -/
def handOf : Call → List Token
  | .point t | .route t | .dct t | .cruiseClimbC t | .sid t | .sidStar t | .star t | .breakStart t
  | .cruiseClimbPoint t | .assignSpeedVfr t | .postAdep t | .postPoint t => [t]
  | _ => []

/-- Preconditions of the calls. -/
def Pre (T : List Token) (ts : List Token) : Call → Prop
  | .addErrorAndReSync t n => t ∈ T ∧ plainErr n
  | .assignSpeedAltitude t => t ∈ T ∧ t.base = .SPEED_ALTITUDE
  | .assignSpeedAltitudeAltitude t => t ∈ T ∧ t.base = .SPEED_ALTITUDE_ALTITUDE
  | .assignSpeedAltitudePlus t => t ∈ T ∧ t.base = .SPEED_ALTITUDE_PLUS
  | .assignSpeedVfr t => t ∈ T ∧ t.base = .SPEED_VFR
  | .breakEnd t | .breakTextSave t => t :: ts <:+ T
  | .breakEndError t | .cruiseClimbPoint t | .forwardSlash t | .postAdep t
  | .postPoint t | .point t | .stay t => t ∈ T
  | .breakStart t => t ∈ T ∧ t.base = .BREAK_START
  | .cruiseClimbC t => t ∈ T ∧ t.base = .C
  | .dct t => t ∈ T ∧ t.base = .DCT
  | .route t => t ∈ T ∧ t.base = .ROUTE
  | .sid t => t ∈ T ∧ t.base = .SID
  | .sidStar t => t ∈ T ∧ t.base = .SID_STAR
  | .star t => t ∈ T ∧ t.base = .STAR
  | .stayTime t => t ∈ T ∧ t.base = .STAY_TIME
  | .postSid | .reSync | .truncate => True
  | .vToI => ∃ p sl sp rest, ts = p :: sl :: sp :: rest ∧ p.base = .POINT ∧ sl.base = .SLASH ∧ sp.base = .SPEED_ALTITUDE
  | .vToIToV => ∃ p sl sp rest, ts = p :: sl :: sp :: rest ∧ p.base = .POINT ∧ sl.base = .SLASH ∧
      sp.base = .SPEED_VFR ∧ ∃ w, w.sub = .IFR ∧ w :: ts <:+ T

/-- The induction hypothesis. -/
def IH (T : List Token) (call : Call → ML F Unit) : Prop :=
  ∀ c e ts K, Inv T e ts → (K = [] ∨ Has48 T e ∨ ∃ t, c = .addErrorAndReSync t 48) → Pre T ts c → G T (call c ⟨e, ts⟩) ⟨e, ts, K ++ handOf c⟩ K

theorem IH.call {call : Call → ML F Unit} (ih : IH T call) {c : Call} {e : Ers F} {ts K h : List Token}
    (hi : Inv T e ts) (hk : K = [] ∨ Has48 T e) (hp : Pre T ts c) (hh : handOf c = h ∨ handOf c = []) :
    G T (call c ⟨e, ts⟩) ⟨e, ts, K ++ h⟩ K := by
  have g := ih c e ts K hi (hk.imp id .inl) hp
  rcases hh with hh | hh
  · rw [hh] at g; exact g
  · rw [hh, List.append_nil] at g
    exact g.steps (Star.dropAll e ts K h)

theorem HK.run {K : List Token} {e : Ers F} (a : Act) (h : K = [] ∨ Has48 T e) : K = [] ∨ Has48 T (a.run e) := by
  rcases h with h | ⟨t, ht, hm⟩
  · exact .inl h
  · exact .inr ⟨t, ht, by rw [run_errs]; exact List.mem_append_right _ hm⟩

theorem Inv.run {e : Ers F} {ts : List Token} (a : Act) (h : Inv T e ts) : Inv T (a.run e) ts := ⟨a.run_ne e h.1, h.2⟩

theorem Inv.tail {e : Ers F} {t : Token} {ts : List Token} (h : Inv T e (t :: ts)) : Inv T e ts :=
  ⟨h.1, (List.suffix_cons t ts).trans h.2⟩

theorem Inv.mem {e : Ers F} {t : Token} {ts : List Token} (h : Inv T e (t :: ts)) : t ∈ T := h.2.subset (by simp)

/-- Record the token in hand. -/
theorem G.rcd {r : Res F} {a : Act} {e : Ers F} {ts K : List Token} (hr : a.records = true) (ht : a.tok ∈ T)
    (ok : a.Ok T e ts) (hk : K = [] ∨ Has48 T e) (g : G T r ⟨a.run e, ts, K⟩ K) : G T r ⟨e, ts, K ++ [a.tok]⟩ K := by
  refine G.step (.rcd a e ts K [] hr ht ok hk) ?_
  rw [List.append_nil]; exact g

theorem G.note {r : Res F} {a : Act} {e : Ers F} {ts K : List Token} (hr : a.records = false) (ht : a.tok ∈ T)
    (ok : a.Ok T e ts) (g : G T r ⟨a.run e, ts, K⟩ K) : G T r ⟨e, ts, K⟩ K :=
  G.step (.note a e ts K hr ht ok) g

theorem G.pop {r : Res F} {e : Ers F} {t : Token} {ts h K : List Token} (g : G T r ⟨e, ts, h ++ [t]⟩ K) :
    G T r ⟨e, t :: ts, h⟩ K := G.step (.pop e t ts h) g

theorem G.ret0 {e : Ers F} {ts : List Token} {K : List Token} : G T (done e ts) ⟨e, ts, K⟩ K := Star.refl _

theorem G.drop1 {r : Res F} {e : Ers F} {t : Token} {ts h K : List Token} (g : G T r ⟨e, ts, h⟩ K) :
    G T r ⟨e, ts, h ++ [t]⟩ K := g.steps (Star.dropAll e ts h [t])

theorem tr_err' {call : Call → ML F Unit} (ih : IH T call) {e : Ers F} {ts K : List Token} (hi : Inv T e ts)
    {t : Token} {n : Nat} (hk : K = [] ∨ Has48 T e ∨ ∃ t', Call.addErrorAndReSync t n = .addErrorAndReSync t' 48)
    (ht : t ∈ T) (hn : plainErr n = true) :
    G T (step call (.addErrorAndReSync t n) ⟨e, ts⟩) ⟨(Act.err t n).run e, ts, K⟩ K := by
  rw [step_err call t n (plainErr.isSome hn) e ts hi.ne]
  have hk' : K = [] ∨ Has48 T ((Act.err t n).run e) := by
    rcases hk with h | h | ⟨t', h⟩
    · exact .inl h
    · exact HK.run _ (.inr h)
    · refine .inr ⟨t, ht, ?_⟩
      rw [run_errs]
      simp only [Call.addErrorAndReSync.injEq] at h
      rw [h.2]
      simp [Act.nums, Act.tok]
  have g := ih .reSync ((Act.err t n).run e) ts K (hi.run _) (hk'.imp id .inl) trivial
  rw [show handOf .reSync = [] from rfl, List.append_nil] at g
  exact g

theorem tr_err {call : Call → ML F Unit} (ih : IH T call) {e : Ers F} {ts K : List Token} (hi : Inv T e ts)
    {t : Token} {n : Nat} (hk : K = [] ∨ Has48 T e ∨ ∃ t', Call.addErrorAndReSync t n = .addErrorAndReSync t' 48)
    (ht : t ∈ T) (hn : plainErr n = true) :
    G T (step call (.addErrorAndReSync t n) ⟨e, ts⟩) ⟨e, ts, K⟩ K :=
  G.note (a := .err t n) rfl ht hn (tr_err' ih hi hk ht hn)

section
variable {call : Call → ML F Unit} (ih : IH T call) (hT : ∀ t ∈ T, Typed t)
variable {e : Ers F} {ts K : List Token} (hi : Inv T e ts) (hk : K = [] ∨ Has48 T e)
include ih hi hk

set_option hygiene false in
local macro "fin" : tactic => `(tactic| (first
  | exact IH.call ih hi hk (by simp [Pre, *]; try decide) (by simp [handOf])
  | exact G.ret))

theorem tr_postAdep {t : Token} (ht : t ∈ T) : G T (step call (.postAdep t) ⟨e, ts⟩) ⟨e, ts, K ++ [t]⟩ K := by
  show G T (postAdep call t ⟨e, ts⟩) _ _
  unfold postAdep
  cases hb : t.base
  all_goals fin

theorem tr_postPoint {t : Token} (ht : t ∈ T) : G T (step call (.postPoint t) ⟨e, ts⟩) ⟨e, ts, K ++ [t]⟩ K := by
  rw [step_postPoint call t e ts hi.ne]
  cases hb : t.base
  case ROUTE =>
    dsimp only
    split
    · fin
    · fin
  all_goals fin

theorem tr_breakEndError {t : Token} (ht : t ∈ T) : G T (step call (.breakEndError t) ⟨e, ts⟩) ⟨e, ts, K⟩ K := by
  show G T (breakEndError call t ⟨e, ts⟩) _ _
  unfold breakEndError
  have := fun (c : Call) (hp : Pre T ts c) (hh : handOf c = []) => IH.call (h := []) ih hi hk hp (.inl hh)
  simp only [List.append_nil] at this
  split
  · exact this _ ⟨ht, by decide⟩ rfl
  · split
    · exact this _ ⟨ht, by decide⟩ rfl
    · split
      · exact this _ ⟨ht, by decide⟩ rfl
      · exact G.ret0

theorem IH.call0 {c : Call} (hp : Pre T ts c) (hh : handOf c = []) : G T (call c ⟨e, ts⟩) ⟨e, ts, K⟩ K := by
  have := ih c e ts K hi (hk.imp id .inl) hp
  rw [hh, List.append_nil] at this; exact this

set_option hygiene false in
local macro "fin0" : tactic => `(tactic| (first
  | exact IH.call0 ih hi hk (by simp [Pre, *]; try decide) (by simp [handOf])
  | exact G.ret0))

theorem tr_truncate : G T (step call .truncate ⟨e, ts⟩) ⟨e, ts, K⟩ K := by
  rw [step_truncate]
  cases ts with
  | nil => exact G.ret0
  | cons nt ts =>
    have hm := hi.mem
    have hj := hi.suf
    replace hi := hi.tail
    exact G.pop (by fin)

theorem tr_postSid : G T (step call .postSid ⟨e, ts⟩) ⟨e, ts, K⟩ K := by
  rw [step_postSid]
  cases ts with
  | nil => exact G.ret0
  | cons nt ts =>
    have hm := hi.mem
    have hj := hi.suf
    replace hi := hi.tail
    refine G.pop ?_
    dsimp only
    cases hb : nt.base
    all_goals fin

theorem tr_slash {t : Token} (ht : t ∈ T) : G T (step call (.forwardSlash t) ⟨e, ts⟩) ⟨e, ts, K⟩ K := by
  rw [step_slash]
  cases ts with
  | nil => fin0
  | cons nt ts =>
    have hm := hi.mem
    have hj := hi.suf
    replace hi := hi.tail
    refine G.pop ?_
    dsimp only
    cases hb : nt.base
    all_goals fin

theorem tr_reSync : G T (step call .reSync ⟨e, ts⟩) ⟨e, ts, K⟩ K := by
  rw [step_reSync]
  cases ts with
  | nil => exact G.ret0
  | cons t ts =>
    have hm := hi.mem
    have hj := hi.suf
    replace hi := hi.tail
    refine G.pop ?_
    dsimp only
    cases hb : t.base
    case SLASH =>
      dsimp only
      refine G.drop1 ?_
      cases ts with
      | nil => fin0
      | cons nt ts =>
        have hm2 := hi.mem
        replace hi := hi.tail
        refine G.pop ?_
        dsimp only
        cases hb : nt.base
        all_goals fin
    all_goals fin

theorem tr_stay {t : Token} (ht : t ∈ T) : G T (step call (.stay t) ⟨e, ts⟩) ⟨e, ts, K⟩ K := by
  rw [step_stay]
  cases ts with
  | nil => fin0
  | cons nt ts =>
    have hm := hi.mem
    have hj := hi.suf
    replace hi := hi.tail
    refine G.pop ?_
    dsimp only
    split
    · fin
    · refine G.drop1 ?_
      cases ts with
      | nil => fin0
      | cons nt2 ts =>
        have hm2 := hi.mem
        replace hi := hi.tail
        refine G.pop ?_
        dsimp only
        split
        · fin
        · rename_i h
          exact IH.call ih hi hk ⟨hm2, Decidable.not_not.1 h⟩ (.inr rfl)

include hT

theorem tr_point {t : Token} (ht : t ∈ T) : G T (step call (.point t) ⟨e, ts⟩) ⟨e, ts, K ++ [t]⟩ K := by
  rw [step_point call t (hT t ht) e ts hi.ne]
  refine G.rcd (a := .point t) rfl ht trivial hk ?_
  replace hi := hi.run (.point t)
  replace hk := HK.run (.point t) hk
  cases ts with
  | nil => exact G.ret0
  | cons nt ts =>
    have hm := hi.mem
    have hj := hi.suf
    replace hi := hi.tail
    exact G.pop (by fin)

theorem tr_route {t : Token} (ht : t ∈ T) (hb : t.base = .ROUTE) :
    G T (step call (.route t) ⟨e, ts⟩) ⟨e, ts, K ++ [t]⟩ K := by
  rw [step_route call t e ts hi.ne]
  refine G.rcd (a := .route t) rfl ht hb hk ?_
  replace hi := hi.run (.route t)
  replace hk := HK.run (.route t) hk
  cases ts with
  | nil => exact G.ret0
  | cons nt ts =>
    have hm := hi.mem
    have hj := hi.suf
    replace hi := hi.tail
    refine G.pop ?_
    dsimp only
    cases hb : nt.base
    case POINT =>
      dsimp only
      split
      · refine G.andThen (K' := K ++ [nt]) ?_ ?_
        · have g := ih (.addErrorAndReSync nt 48) _ ts (K ++ [nt]) hi (.inr (.inr ⟨nt, rfl⟩)) ⟨hm, by decide⟩
          simpa [handOf] using g
        · intro e' ts' hs
          exact IH.call ih (hs.invs hi) (hk.imp id hs.has48) hm (.inl rfl)
      · fin
    all_goals fin

theorem tr_dct {t : Token} (ht : t ∈ T) (hb : t.base = .DCT) :
    G T (step call (.dct t) ⟨e, ts⟩) ⟨e, ts, K ++ [t]⟩ K := by
  rw [step_dct call t e ts hi.ne]
  refine G.rcd (a := .plain t) rfl ht (.inl hb) hk ?_
  replace hi := hi.run (.plain t)
  replace hk := HK.run (.plain t) hk
  cases ts with
  | nil => exact G.ret0
  | cons nt ts =>
    have hm := hi.mem
    have hj := hi.suf
    replace hi := hi.tail
    refine G.pop ?_
    dsimp only
    cases hb : nt.base
    all_goals fin

theorem tr_sid {t : Token} (ht : t ∈ T) (hb : t.base = .SID) :
    G T (step call (.sid t) ⟨e, ts⟩) ⟨e, ts, K ++ [t]⟩ K := by
  rw [step_sid call t e ts hi.ne]
  split
  · rename_i h
    refine G.rcd (a := .sid t) rfl ht ⟨.inl hb, h⟩ hk ?_
    replace hi := hi.run (.sid t)
    replace hk := HK.run (.sid t) hk
    fin0
  · refine G.rcd (a := .plain t) rfl ht (.inr (.inr (.inl hb))) hk ?_
    replace hi := hi.run (.plain t)
    replace hk := HK.run (.plain t) hk
    fin0

theorem tr_sidStar {t : Token} (ht : t ∈ T) (hb : t.base = .SID_STAR) :
    G T (step call (.sidStar t) ⟨e, ts⟩) ⟨e, ts, K ++ [t]⟩ K := by
  rw [step_sidStar call t e ts hi.ne]
  split
  · rename_i h
    refine G.rcd (a := .sid t) rfl ht ⟨.inr hb, h⟩ hk ?_
    replace hi := hi.run (.sid t)
    replace hk := HK.run (.sid t) hk
    fin0
  · cases ts with
    | nil => exact G.rcd (a := .star t) rfl ht ⟨.inr hb, rfl⟩ hk G.ret0
    | cons pk ts =>
      have hm := hi.mem
      have hj := hi.suf
      refine G.rcd (a := .plain t) rfl ht (.inr (.inr (.inr (.inr hb)))) hk ?_
      replace hi := hi.run (.plain t)
      replace hk := HK.run (.plain t) hk
      fin0

theorem tr_star {t : Token} (ht : t ∈ T) (hb : t.base = .STAR) :
    G T (step call (.star t) ⟨e, ts⟩) ⟨e, ts, K ++ [t]⟩ K := by
  rw [step_star call t e ts hi.ne]
  cases ts with
  | nil => exact G.rcd (a := .star t) rfl ht ⟨.inl hb, rfl⟩ hk G.ret0
  | cons pk ts =>
    have hm := hi.mem
    have hj := hi.suf
    refine G.rcd (a := .plain t) rfl ht (.inr (.inr (.inr (.inl hb)))) hk ?_
    replace hi := hi.run (.plain t)
    replace hk := HK.run (.plain t) hk
    fin0

theorem tr_stayTime {t : Token} (ht : t ∈ T) (hb : t.base = .STAY_TIME) :
    G T (step call (.stayTime t) ⟨e, ts⟩) ⟨e, ts, K⟩ K := by
  rw [step_stayTime call t (stay_facts (hT t ht) hb) e ts hi.ne]
  refine G.note (a := .stay t) rfl ht hb ?_
  replace hi := hi.run (.stay t)
  replace hk := HK.run (.stay t) hk
  cases ts with
  | nil => exact G.ret0
  | cons nt ts =>
    have hm := hi.mem
    have hj := hi.suf
    replace hi := hi.tail
    refine G.pop ?_
    dsimp only
    cases hb : nt.base
    all_goals fin

theorem tr_breakStart {t : Token} (ht : t ∈ T) (hb : t.base = .BREAK_START) :
    G T (step call (.breakStart t) ⟨e, ts⟩) ⟨e, ts, K ++ [t]⟩ K := by
  rw [step_breakStart call t e ts hi.ne]
  refine G.rcd (a := .brk t) rfl ht hb hk ?_
  replace hi := hi.run (.brk t)
  replace hk := HK.run (.brk t) hk
  cases ts with
  | nil => exact G.ret0
  | cons nt ts =>
    have hm := hi.mem
    have hj := hi.suf
    replace hi := hi.tail
    refine G.pop ?_
    dsimp only
    split <;> fin

omit ih hT hi hk in
theorem long_no_end {t : Token} (ht : Typed t) (hb : t.base = .TOO_LONG) (r : Str) : endsBreak t.sub r = false := by
  rcases typed_pair ht with ⟨h, _⟩ | ⟨_, h⟩ | ⟨r', hr, h, _⟩
  · rw [hb] at h; cases h
  · unfold endsBreak; rw [h]; simp
  · have := List.all_eq_true.1 table_no_unknown r' hr
    simp only [Bool.and_eq_true, decide_eq_true_eq] at this
    exact absurd (h.symm.trans hb) this.1.2

theorem tr_textTail : G T (textTail call e ts) ⟨e, ts, K⟩ K := by
  unfold textTail
  cases ts with
  | nil => exact G.ret0
  | cons nt ts =>
    have hm := hi.mem
    have hj := hi.suf
    replace hi := hi.tail
    refine G.pop ?_
    fin

theorem tr_textBody {t : Token} (ht : t ∈ T) (hj : t.base = .TOO_LONG ∨ t :: ts <:+ T) : G T (textBody call t e ts hi.ne) ⟨e, ts, K⟩ K := by
  unfold textBody
  split
  · rename_i hend
    have hj' : t :: ts <:+ T := hj.resolve_left fun hl => by rw [long_no_end (hT t ht) hl] at hend; cases hend
    refine G.note (a := .text t) rfl ht trivial ?_
    have hi' := hi.run (.text t)
    have hk' := HK.run (.text t) hk
    refine G.andThen (K' := K) (IH.call0 ih hi' hk' hj' rfl) fun e' ts' hs => ?_
    exact tr_textTail ih hT (hs.invs hi') (hk'.imp id hs.has48)
  · refine G.note (a := .text t) rfl ht trivial ?_
    exact tr_textTail ih hT (hi.run (.text t)) (HK.run (.text t) hk)

theorem tr_text {t : Token} (hj : t :: ts <:+ T) : G T (step call (.breakTextSave t) ⟨e, ts⟩) ⟨e, ts, K⟩ K := by
  have ht : t ∈ T := hj.subset (by simp)
  by_cases hb : t.base = .TOO_LONG
  · rw [step_text_long call t e ts hb]
    refine G.andThen (K' := K) (by fin0) fun e' ts' hs => ?_
    have hi' := hs.invs hi
    rw [dif_pos hi'.ne]
    exact tr_textBody ih hT hi' (hk.imp id hs.has48) ht (.inl hb)
  · rw [step_text call t e ts hi.ne hb]
    exact tr_textBody ih hT hi hk ht (.inr hj)

theorem tr_C {t : Token} (ht : t ∈ T) (hb : t.base = .C) :
    G T (step call (.cruiseClimbC t) ⟨e, ts⟩) ⟨e, ts, K ++ [t]⟩ K := by
  rw [step_C call t e ts hi.ne]
  have rc : ∀ (r : Res F) ts, G T r ⟨(Act.plain t).run e, ts, K⟩ K → G T r ⟨e, ts, K ++ [t]⟩ K :=
    fun r ts g => G.rcd (a := .plain t) rfl ht (.inr (.inl hb)) hk g
  have hi' := hi.run (.plain t)
  have hk' := HK.run (.plain t) hk
  cases ts with
  | nil => exact rc _ _ G.ret0
  | cons nt ts =>
    have hm := hi.mem
    have hj := hi.suf
    dsimp only
    cases hb' : nt.base
    case UNKNOWN | SPEED_VFR | SPEED_ALTITUDE | BREAK_END | SPEED_ALTITUDE_ALTITUDE | SPEED_ALTITUDE_PLUS | TOO_LONG |
        STAY_TIME =>
      replace hi := hi.tail
      refine G.drop1 (G.pop ?_)
      fin
    case SLASH =>
      dsimp only
      cases ts with
      | nil =>
        refine rc _ _ (G.pop (G.drop1 ?_))
        replace hi := hi'.tail
        replace hk := hk'
        fin0
      | cons nt2 ts =>
        replace hi := hi.tail
        have hm2 := hi.mem
        replace hi := hi.tail
        refine G.drop1 (G.pop (G.drop1 (G.pop ?_)))
        fin
    all_goals
      refine rc _ _ (G.pop ?_)
      replace hi := hi'.tail
      replace hk := hk'
      fin

theorem tr_endTail : G T (endTail call e ts) ⟨e, ts, K⟩ K := by
  unfold endTail
  cases ts with
  | nil => exact G.ret0
  | cons nt ts =>
    have hm := hi.mem
    have hj := hi.suf
    replace hi := hi.tail
    refine G.pop ?_
    fin

theorem tr_breakEnd {t : Token} (hj : t :: ts <:+ T) : G T (step call (.breakEnd t) ⟨e, ts⟩) ⟨e, ts, K⟩ K := by
  rw [step_breakEnd]
  cases ts with
  | nil => exact G.ret0
  | cons p ts' =>
    have hm := hi.mem
    have hj' := hi.suf
    dsimp only
    split
    · exact G.ret0
    rename_i hp
    split
    · cases ts' with
      | nil => fin0
      | cons sl ts'' =>
        dsimp only
        split
        · exact G.ret0
        rename_i hsl
        cases ts'' with
        | nil => fin0
        | cons sp ts3 =>
          dsimp only
          split
          · rename_i hsp
            refine G.andThen (K' := K) (IH.call0 ih hi hk
              ⟨p, sl, sp, ts3, rfl, Decidable.not_not.1 hp, Decidable.not_not.1 hsl, hsp⟩ rfl) fun e' ts' hs => ?_
            exact tr_endTail ih hT (hs.invs hi) (hk.imp id hs.has48)
          · split
            · rename_i hsp
              refine G.andThen (K' := K) (IH.call0 ih hi hk
                ⟨p, sl, sp, ts3, rfl, Decidable.not_not.1 hp, Decidable.not_not.1 hsl, hsp, t, by assumption, hj⟩ rfl) fun e' ts' hs => ?_
              exact tr_endTail ih hT (hs.invs hi) (hk.imp id hs.has48)
            · fin0
    · replace hi := hi.tail
      refine G.pop ?_
      fin

theorem tr_level' {t : Token} (ht : t ∈ T) (hb : t.base = .SPEED_ALTITUDE) :
    G T (step call (.assignSpeedAltitude t) ⟨e, ts⟩) ⟨(Act.level t).run e, ts, K⟩ K := by
  rw [step_level call t (hT t ht) hb e ts hi.ne]
  replace hi := hi.run (.level t)
  replace hk := HK.run (.level t) hk
  cases ts with
  | nil => exact G.ret0
  | cons nt ts =>
    have hm := hi.mem
    have hj := hi.suf
    replace hi := hi.tail
    refine G.pop ?_
    dsimp only
    split <;> fin

theorem tr_level {t : Token} (ht : t ∈ T) (hb : t.base = .SPEED_ALTITUDE) :
    G T (step call (.assignSpeedAltitude t) ⟨e, ts⟩) ⟨e, ts, K⟩ K :=
  G.note (a := .level t) rfl ht hb (tr_level' ih hT hi hk ht hb)

theorem tr_levelsK (a : Act) (ha : a.records = false) (ht : a.tok ∈ T) (ok : a.Ok T e ts) :
    G T (levelsK call a e ts) ⟨e, ts, K⟩ K := by
  refine G.note ha ht ok ?_
  replace hi := hi.run a
  replace hk := HK.run a hk
  unfold levelsK
  cases ts with
  | nil => exact G.ret0
  | cons nt ts =>
    have hm := hi.mem
    have hj := hi.suf
    replace hi := hi.tail
    refine G.pop ?_
    fin

theorem tr_levels {t : Token} (ht : t ∈ T) (hb : t.base = .SPEED_ALTITUDE_ALTITUDE) :
    G T (step call (.assignSpeedAltitudeAltitude t) ⟨e, ts⟩) ⟨e, ts, K⟩ K := by
  by_cases hbad : t.sub ∈ ccBad
  · rw [step_levels_bad call t (hT t ht) hbad e ts hi.ne]
    exact .inr ⟨rfl, t, ht, hbad⟩
  · rw [step_levels call t (hT t ht) hb hbad e ts hi.ne]
    exact tr_levelsK ih hT hi hk (.levels t) rfl ht ⟨hb, hbad⟩

theorem tr_plus {t : Token} (ht : t ∈ T) (hb : t.base = .SPEED_ALTITUDE_PLUS) :
    G T (step call (.assignSpeedAltitudePlus t) ⟨e, ts⟩) ⟨e, ts, K⟩ K := by
  rw [step_plus call t (hT t ht) hb e ts hi.ne]
  exact tr_levelsK ih hT hi hk (.plus t) rfl ht hb

theorem tr_vfr' {t : Token} (ht : t ∈ T) (hb : t.base = .SPEED_VFR) :
    G T (step call (.assignSpeedVfr t) ⟨e, ts⟩) ⟨(Act.vfr t).run e, ts, K⟩ K := by
  rw [step_vfr call t (hT t ht) hb e ts hi.ne]
  replace hi := hi.run (.vfr t)
  replace hk := HK.run (.vfr t) hk
  cases ts with
  | nil => exact G.ret0
  | cons nt ts =>
    have hm := hi.mem
    have hj := hi.suf
    replace hi := hi.tail
    refine G.pop ?_
    fin

theorem tr_vfr {t : Token} (ht : t ∈ T) (hb : t.base = .SPEED_VFR) :
    G T (step call (.assignSpeedVfr t) ⟨e, ts⟩) ⟨e, ts, K ++ [t]⟩ K :=
  G.rcd (a := .vfr t) rfl ht hb hk (tr_vfr' ih hT hi hk ht hb)

theorem tr_ccPoint {t : Token} (ht : t ∈ T) :
    G T (step call (.cruiseClimbPoint t) ⟨e, ts⟩) ⟨e, ts, K ++ [t]⟩ K := by
  rw [step_ccPoint call t (hT t ht) e ts hi.ne]
  refine G.rcd (a := .ccPoint t) rfl ht trivial hk ?_
  replace hi := hi.run (.ccPoint t)
  replace hk := HK.run (.ccPoint t) hk
  have kk : ∀ (e : Ers F) ts, Inv T e ts → (K = [] ∨ Has48 T e) → G T (match ts with
        | [] => call (.addErrorAndReSync t 28) ⟨e, []⟩
        | nt2 :: ts => andThen ((if nt2.base = .SPEED_ALTITUDE_ALTITUDE then call (.assignSpeedAltitudeAltitude nt2)
            else if nt2.base = .SPEED_ALTITUDE_PLUS then call (.assignSpeedAltitudePlus nt2)
            else call (.addErrorAndReSync nt2 29)) ⟨e, ts⟩) (endTail call)) ⟨e, ts, K⟩ K := by
    intro e ts hi hk
    cases ts with
    | nil => fin0
    | cons nt2 ts =>
      have hm := hi.mem
      have hj := hi.suf
      replace hi := hi.tail
      refine G.pop (G.drop1 ?_)
      dsimp only
      refine G.andThen (K' := K) ?_ fun e' ts' hs => tr_endTail ih hT (hs.invs hi) (hk.imp id hs.has48)
      split
      · fin0
      · split
        · fin0
        · fin0
  dsimp only
  cases ts with
  | nil => fin0
  | cons nt ts =>
    have hm := hi.mem
    have hj := hi.suf
    replace hi := hi.tail
    refine G.pop (G.drop1 ?_)
    dsimp only
    split
    · refine G.andThen (K' := K) (by fin0) fun e' ts' hs => kk _ _ (hs.invs hi) (hk.imp id hs.has48)
    · exact kk _ _ hi hk

theorem tr_vToI {p sl sp : Token} (hts : ∃ rest, ts = p :: sl :: sp :: rest) (hp : p.base = .POINT)
    (hsp : sp.base = .SPEED_ALTITUDE) : G T (step call .vToI ⟨e, ts⟩) ⟨e, ts, K⟩ K := by
  obtain ⟨rest, rfl⟩ := hts
  rw [step_vToI call p sl sp (hT p hi.mem) e rest hi.ne]
  refine G.pop (G.rcd (a := .vToI p) rfl hi.mem hp hk (G.pop (G.drop1 (G.pop (G.drop1 ?_)))))
  have hm := hi.tail.tail.mem
  replace hi := hi.tail.tail.tail.run (.vToI p)
  replace hk := HK.run (.vToI p) hk
  fin0

theorem tr_vToIToV {p sl sp : Token} (hts : ∃ rest, ts = p :: sl :: sp :: rest) (hp : p.base = .POINT)
    (hsl : sl.base = .SLASH) (hsp : sp.base = .SPEED_VFR) (hw : ∃ w, w.sub = .IFR ∧ w :: ts <:+ T) : G T (step call .vToIToV ⟨e, ts⟩) ⟨e, ts, K⟩ K := by
  obtain ⟨rest, rfl⟩ := hts
  rw [step_vToIToV call p sl sp e rest hi.ne]
  obtain ⟨w, hw, pre, hpre⟩ := hw
  refine G.pop (G.rcd (a := .vToIToV p) rfl hi.mem ⟨hp, pre, w, sl, sp, rest, hpre.symm, hw, hsl, hsp⟩ hk
    (G.pop (G.drop1 (G.pop ?_))))
  have hm := hi.tail.tail.mem
  replace hi := hi.tail.tail.tail.run (.vToIToV p)
  replace hk := HK.run (.vToIToV p) hk
  fin

end

/-- The trace theorem. -/
theorem trace_exec (hT : ∀ t ∈ T, Typed t) (n : Nat) : IH (F := F) T (exec n) := by
  induction n with
  | zero => exact fun _ _ _ _ _ _ _ => .inl rfl
  | succ n ih =>
    intro c e ts K hi hk hp
    show G T (step (exec n) c ⟨e, ts⟩) _ _
    by_cases hc : ∃ t m, c = .addErrorAndReSync t m
    · obtain ⟨t, m, rfl⟩ := hc
      have := tr_err ih hi hk hp.1 hp.2
      simpa [handOf] using this
    replace hk : K = [] ∨ Has48 T e := by
      rcases hk with h | h | ⟨t, h⟩
      · exact .inl h
      · exact .inr h
      · exact absurd ⟨t, 48, h⟩ hc
    cases c with
    | addErrorAndReSync t m => exact absurd ⟨t, m, rfl⟩ hc
    | assignSpeedAltitude t => simpa [handOf] using tr_level ih hT hi hk hp.1 hp.2
    | assignSpeedAltitudeAltitude t => simpa [handOf] using tr_levels ih hT hi hk hp.1 hp.2
    | assignSpeedAltitudePlus t => simpa [handOf] using tr_plus ih hT hi hk hp.1 hp.2
    | assignSpeedVfr t => exact tr_vfr ih hT hi hk hp.1 hp.2
    | breakEnd t => simpa [handOf] using tr_breakEnd ih hT hi hk hp
    | breakEndError t => simpa [handOf] using tr_breakEndError ih hi hk hp
    | breakStart t => exact tr_breakStart ih hT hi hk hp.1 hp.2
    | breakTextSave t => simpa [handOf] using tr_text ih hT hi hk hp
    | cruiseClimbC t => exact tr_C ih hT hi hk hp.1 hp.2
    | cruiseClimbPoint t => exact tr_ccPoint ih hT hi hk hp
    | dct t => exact tr_dct ih hT hi hk hp.1 hp.2
    | forwardSlash t => simpa [handOf] using tr_slash ih hi hk hp
    | postAdep t => exact tr_postAdep ih hi hk hp
    | postPoint t => exact tr_postPoint ih hi hk hp
    | postSid => simpa [handOf] using tr_postSid ih hi hk
    | point t => exact tr_point ih hT hi hk hp
    | reSync => simpa [handOf] using tr_reSync ih hi hk
    | route t => exact tr_route ih hT hi hk hp.1 hp.2
    | sid t => exact tr_sid ih hT hi hk hp.1 hp.2
    | sidStar t => exact tr_sidStar ih hT hi hk hp.1 hp.2
    | star t => exact tr_star ih hT hi hk hp.1 hp.2
    | stay t => simpa [handOf] using tr_stay ih hi hk hp
    | stayTime t => simpa [handOf] using tr_stayTime ih hT hi hk hp.1 hp.2
    | truncate => simpa [handOf] using tr_truncate ih hi hk
    | vToI =>
      obtain ⟨p, sl, sp, rest, h1, h2, h3, h4⟩ := hp
      simpa [handOf] using tr_vToI ih hT hi hk ⟨rest, h1⟩ h2 h4
    | vToIToV =>
      obtain ⟨p, sl, sp, rest, h1, h2, h3, h4⟩ := hp
      simpa [handOf] using tr_vToIToV ih hT hi hk ⟨rest, h1⟩ h2 h3 h4.1 h4.2

end F15
