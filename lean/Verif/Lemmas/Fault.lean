import Verif.Props.Ranges
import Verif.Spec.Faults
/-!
# The first new error of an execution is the first fault

The companion of `Accept.lean` for executions that add errors.
-/

namespace F15
open Spec

set_option linter.unusedSectionVars false
variable {F : Type} [PyFloat F] {T : List Token}

/-- The range errors of a point come in ascending order. -/
theorem posNums_sorted (t : Token) : (posNums t).Pairwise (· < ·) ∧ (∀ n ∈ posNums t, n ∈ [42, 43, 44, 45, 46]) ∧ (posNums t).length ≤ 3 := by
  have d : ∀ s, degErr s ∈ [[], [42], [44], [42, 44]] := by
    intro s; unfold degErr; split <;> split <;> simp
  have m : ∀ s, minErr s ∈ [[], [43], [45], [43, 45]] := by
    intro s; unfold minErr; split <;> split <;> simp
  have b : ∀ s, brgErr s ∈ [[], [46]] := by
    intro s; unfold brgErr; split <;> simp
  have key : ∀ x ∈ [[], [42], [44], [42, 44], [43], [45], [43, 45]], ∀ y ∈ [[], [46]],
      (x ++ y : List Nat).Pairwise (· < ·) ∧ (∀ n ∈ x ++ y, n ∈ [42, 43, 44, 45, 46]) ∧ (x ++ y).length ≤ 3 := by decide
  have sd : ∀ s, degErr s ∈ [[], [42], [44], [42, 44], [43], [45], [43, 45]] := by
    intro s
    have := d s
    simp only [List.mem_cons, List.not_mem_nil, or_false] at this ⊢
    rcases this with h | h | h | h <;> simp [h]
  have sm : ∀ s, minErr s ∈ [[], [42], [44], [42, 44], [43], [45], [43, 45]] := by
    intro s
    have := m s
    simp only [List.mem_cons, List.not_mem_nil, or_false] at this ⊢
    rcases this with h | h | h | h <;> simp [h]
  unfold posNums
  split
  · simpa using key [] (by simp) _ (b t.text)
  · simpa using key _ (sd t.text) [] (by simp)
  · simpa using key _ (sm t.text) [] (by simp)
  · exact key _ (sd t.text) _ (b t.text)
  · exact key _ (sm t.text) _ (b t.text)
  · simp

theorem posNums_cases (t : Token) :
    (posNums t).Pairwise (· ≠ ·) ∧ (∀ n ∈ posNums t, n ∈ [42, 43, 44, 45, 46]) ∧ (posNums t).length ≤ 3 :=
  ⟨(posNums_sorted t).1.imp fun h => Nat.ne_of_lt h, (posNums_sorted t).2⟩

/-- The first range error. -/
theorem first_range {t : Token} (ht : Typed t) {n : Nat} (h : (posNums t).head? = some n) :
    FirstRangeFault t.sub t.text n := by
  have hs := (posNums_sorted t).1
  refine ⟨(range_iff ht n).1 (List.mem_of_mem_head? h), fun m hm => ?_⟩
  have hm := (range_iff ht m).2 hm
  cases hp : posNums t with
  | nil => rw [hp] at h; cases h
  | cons a l =>
    rw [hp] at h hs hm
    cases h
    rcases List.mem_cons.1 hm with rfl | hm
    · exact Nat.le_refl _
    · exact Nat.le_of_lt ((List.pairwise_cons.1 hs).1 m hm)

/-- The first error added to `l0` is `n` about `x`. -/
def FirstErr (l0 : List (Record F)) (s : St (List Token) F) (x : Token) (n : Nat) : Prop :=
  ∃ l, s.ers.errs = l ++ errRec x n :: l0

/-- In phase `q`, the first fault of the tokens `tl` is the first error. -/
def BadAt (l0 : List (Record F)) (s : St (List Token) F) (q : Phase) (tl : List Token) : Prop :=
  ∃ pre x post n, tl = pre ++ x :: post ∧ Fault q pre x post n ∧ FirstErr l0 s x n

/-- What a call that adds errors does. -/
def Falls (e : Ers F) (ts : List Token) (c : Call) (s : St (List Token) F) : Prop :=
  match c with
  | .point t => t.base = .POINT → ∀ q : Phase, q.allows t = true → BadAt e.errs s q (t :: ts)
  | .stay t => t.base = .STAY → ∀ q : Phase, q.allows t = true → BadAt e.errs s q (t :: ts)
  | .route t | .dct t | .breakStart t | .cruiseClimbC t | .star t =>
    ∀ q : Phase, q.allows t = true → BadAt e.errs s q (t :: ts)
  | .truncate => ∀ (q : Phase) (t : Token), t.base = .TRUNCATE → q.allows t = true → BadAt e.errs s q (t :: ts)
  | .sid t => (e.recs.length = 1 → BadAt e.errs s .adep (t :: ts)) ∧ (e.recs.length ≠ 1 → FirstErr e.errs s t 30)
  | .sidStar t => (e.recs.length = 1 → BadAt e.errs s .adep (t :: ts)) ∧
      (e.recs.length ≠ 1 → ∀ q : Phase, q ≠ .adep → q.allows t = true → BadAt e.errs s q (t :: ts))
  | .stayTime _ => BadAt e.errs s .stay ts
  | .cruiseClimbPoint p => ∀ (q : Phase) (t s0 : Token), t.base = .C → q.allows t = true → s0.base = .SLASH →
      BadAt e.errs s q (t :: s0 :: p :: ts)
  | .assignSpeedAltitudeAltitude l =>
      (¬ ClimbOk l.text ∧ FirstErr e.errs s l 40) ∨ (ClimbLevels l ∧ BadAt e.errs s (.point (isLlOrBd (headSub e))) ts)
  | .assignSpeedAltitudePlus l =>
      (¬ PlusOk l.text ∧ FirstErr e.errs s l 40) ∨ (ClimbLevels l ∧ BadAt e.errs s (.point (isLlOrBd (headSub e))) ts)
  | .assignSpeedAltitude l => (¬ LevelOk l.text ∧ FirstErr e.errs s l 40) ∨
      (LevelOk l.text ∧ BadAt e.errs s (if e.recs.length = 1 then .adep else .point (isLlOrBd (headSub e))) ts)
  | .assignSpeedVfr _ => BadAt e.errs s (.text (py! "VFR")) ts
  | .forwardSlash t => t.base = .SLASH → BadAt e.errs s (.point (isLlOrBd (headSub e))) (t :: ts)
  | .postAdep t => BadAt e.errs s .adep (t :: ts)
  | .postPoint t => BadAt e.errs s (.point (isLlOrBd (headSub e))) (t :: ts)
  | .postSid => BadAt e.errs s .sid ts
  | .breakTextSave t => BadAt e.errs s (.text (headRules e)) (t :: ts)
  | .breakEnd t => ∀ r, closes t r → t.base ≠ .TOO_LONG → BadAt e.errs s (.text r) (t :: ts)
  | .vToI | .vToIToV => ∀ r t, closes t r → t.sub = .IFR → t.base ≠ .TOO_LONG → BadAt e.errs s (.text r) (t :: ts)
  | .addErrorAndReSync t n => FirstErr e.errs s t n
  | .breakEndError t => FirstErr e.errs s t (misplaced t)
  | .reSync => True

/-- The induction hypothesis. -/
def GIH (T : List Token) (call : Call → ML F Unit) : Prop :=
  ∀ c e ts s, Inv T e ts → Pre T ts c → Need e c → call c ⟨e, ts⟩ = .ok ((), s) → e.errs.length < s.ers.errs.length →
    Falls e ts c s

/-- An error call adds its error first. -/
def Adds (T : List Token) (call : Call → ML F Unit) : Prop :=
  ∀ t n e ts s, Inv T e ts → t ∈ T ∧ plainErr n → call (.addErrorAndReSync t n) ⟨e, ts⟩ = .ok ((), s) → FirstErr e.errs s t n

/-- Errors are kept. -/
def Keeps (T : List Token) (call : Call → ML F Unit) : Prop :=
  ∀ c e ts s, Inv T e ts → Pre T ts c → call c ⟨e, ts⟩ = .ok ((), s) → ∃ l, s.ers.errs = l ++ e.errs

theorem Star.keeps {a b : Cfg F} (h : Star T a b) : ∃ l, b.ers.errs = l ++ a.ers.errs := by
  induction h with
  | refl => exact ⟨[], rfl⟩
  | head ev _ ih =>
    obtain ⟨l, hl⟩ := ih
    cases ev with
    | pop | drop => exact ⟨l, hl⟩
    | note a e | rcd a e => exact ⟨l ++ (a.nums.map (errRec a.tok)).reverse, by rw [hl]; show _ ++ (a.run e).errs = _; rw [run_errs, List.append_assoc]⟩

theorem keeps_of {call : Call → ML F Unit} (ih : IH T call) : Keeps T call := by
  intro c e ts s hi hp h
  have g := ih c e ts [] hi (.inl rfl) hp
  rw [h] at g
  have g : Star T _ _ := g
  exact g.keeps

theorem FirstErr.trans {l0 : List (Record F)} {s s' : St (List Token) F} {x : Token} {n : Nat} (h : FirstErr l0 s x n)
    (hs : ∃ l, s'.ers.errs = l ++ s.ers.errs) : FirstErr l0 s' x n := by
  obtain ⟨l, h⟩ := h
  obtain ⟨l', hs⟩ := hs
  exact ⟨l' ++ l, by rw [hs, h, List.append_assoc]⟩

theorem BadAt.trans {l0 : List (Record F)} {s s' : St (List Token) F} {q : Phase} {tl : List Token} (h : BadAt l0 s q tl)
    (hs : ∃ l, s'.ers.errs = l ++ s.ers.errs) : BadAt l0 s' q tl := by
  obtain ⟨pre, x, post, n, h1, h2, h3⟩ := h
  exact ⟨pre, x, post, n, h1, h2, h3.trans hs⟩

/-- A fault after some tokens. -/
theorem BadAt.map {l0 : List (Record F)} {s : St (List Token) F} {q q' : Phase} {tl : List Token} (w : List Token)
    (h : BadAt l0 s q' tl) (hf : ∀ pre x post n, tl = pre ++ x :: post → Fault q' pre x post n → Fault q (w ++ pre) x post n) :
    BadAt l0 s q (w ++ tl) := by
  obtain ⟨pre, x, post, n, rfl, h2, h3⟩ := h
  exact ⟨w ++ pre, x, post, n, by simp, hf pre x post n rfl h2, h3⟩

theorem BadAt.here {l0 : List (Record F)} {s : St (List Token) F} {q : Phase} {t : Token} {ts : List Token} {n : Nat}
    (h : FirstErr l0 s t n) (hf : Fault q [] t ts n) : BadAt l0 s q (t :: ts) := ⟨[], t, ts, n, rfl, hf, h⟩

theorem nums_errs {a : Act} (h : a.nums = []) (e : Ers F) : (a.run e).errs = e.errs := by
  rw [run_errs, h]; rfl

section
variable {call : Call → ML F Unit} (bi : GIH T call) (ke : Keeps T call) (hT : ∀ t ∈ T, Typed t)
variable {e : Ers F} {ts : List Token} {s : St (List Token) F} (hi : Inv T e ts)
include bi ke hi

/-- A call after an action. -/
theorem aft {a : Act} {c : Call} (hp : Pre T ts c) (hn : Need (a.run e) c)
    (h : call c ⟨a.run e, ts⟩ = .ok ((), s)) (hl : e.errs.length < s.ers.errs.length) :
    (∃ n, a.nums.head? = some n ∧ FirstErr e.errs s a.tok n) ∨ (a.nums = [] ∧ (a.run e).errs = e.errs ∧ Falls (a.run e) ts c s) := by
  obtain ⟨l, h1⟩ := ke c _ _ _ (hi.run a) hp h
  cases hn0 : a.nums with
  | cons n ns =>
    refine .inl ⟨n, by simp, ?_⟩
    rw [run_errs, hn0] at h1
    exact ⟨l ++ (ns.map (errRec a.tok)).reverse, by rw [h1]; simp⟩
  | nil =>
    have h2 := nums_errs hn0 e
    exact .inr ⟨rfl, h2, bi c _ _ _ (hi.run a) hp hn h (by rw [h2]; exact hl)⟩

theorem aft' {a : Act} {c : Call} (hp : Pre T ts c) (hn : Need (a.run e) c) (ha : a.nums = [])
    (h : call c ⟨a.run e, ts⟩ = .ok ((), s)) (hl : e.errs.length < s.ers.errs.length) :
    (a.run e).errs = e.errs ∧ Falls (a.run e) ts c s := by
  rcases aft bi ke hi hp hn h hl with ⟨n, h1, _⟩ | ⟨_, h2⟩
  · rw [ha] at h1; cases h1
  · exact h2

omit ke in
/-- An error after an action without errors of its own. -/
theorem aft_err (ad : Adds T call) {a : Act} {t : Token} {n : Nat} (hp : t ∈ T ∧ plainErr n) (ha : a.nums = [])
    (h : call (.addErrorAndReSync t n) ⟨a.run e, ts⟩ = .ok ((), s)) : FirstErr e.errs s t n := by
  rw [← nums_errs ha e]
  exact ad t n _ _ _ (hi.run a) hp h

theorem aft_bee {a : Act} {t : Token} (hp : t ∈ T) (hb : t.base = .BREAK_END) (ha : a.nums = [])
    (h : call (.breakEndError t) ⟨a.run e, ts⟩ = .ok ((), s)) (hl : e.errs.length < s.ers.errs.length) :
    FirstErr e.errs s t (misplaced t) := by
  obtain ⟨h1, h2⟩ := aft' bi ke hi (c := .breakEndError t) hp hb ha h hl
  rw [← h1]; exact h2

end

/-- A return after an action. -/
theorem ret_bad {a : Act} {e : Ers F} {ts : List Token} {s : St (List Token) F} (h : done (a.run e) ts = .ok ((), s))
    (hl : e.errs.length < s.ers.errs.length) : ∃ n, a.nums.head? = some n ∧ FirstErr e.errs s a.tok n := by
  obtain rfl := done_inj h
  cases hn0 : a.nums with
  | cons n ns =>
    refine ⟨n, by simp, (ns.map (errRec a.tok)).reverse, ?_⟩
    show (a.run e).errs = _
    rw [run_errs, hn0]; simp
  | nil => rw [nums_errs hn0] at hl; omega

theorem ret_bad' {a : Act} {e : Ers F} {ts : List Token} {s : St (List Token) F} (h : done (a.run e) ts = .ok ((), s))
    (ha : a.nums = []) (hl : e.errs.length < s.ers.errs.length) : False := by
  obtain ⟨n, h1, _⟩ := ret_bad h hl
  rw [ha] at h1; cases h1

theorem BadAt.unexp {l0 : List (Record F)} {s : St (List Token) F} {q : Phase} {t : Token} {ts : List Token} {n : Nat}
    (h : FirstErr l0 s t n) (hn : unexpected q t = n) (hq : q.allows t = false) (ht : ∀ r, q ≠ .text r)
    (hs : ∀ f, q = .point f → t.base ≠ .SLASH) : BadAt l0 s q (t :: ts) := .here h (hn ▸ Fault.here hq ht hs)

set_option hygiene false in
/-- close a case of an error at `nt` after an action -/
local macro "hereA" : tactic => `(tactic| exact BadAt.unexp (aft_err bi (Inv.tail hi) ad ⟨Inv.mem hi, by decide⟩ rfl h)
  (by simp [unexpected, misplaced, hb]) (by simp [Phase.allows, hb]) (by simp) (by simp [hb]))
set_option hygiene false in
/-- close a case of an error at `nt` -/
local macro "hereN" : tactic => `(tactic| exact BadAt.unexp (ad nt _ _ _ _ (Inv.tail hi) ⟨Inv.mem hi, by decide⟩ h)
  (by simp [unexpected, misplaced, hb]) (by simp [Phase.allows, hb]) (by simp) (by simp [hb]))
set_option hygiene false in
/-- close a case of an error at `t` -/
local macro "hereT" : tactic => `(tactic| exact BadAt.unexp (ad t _ _ _ _ hi ⟨ht, by decide⟩ h)
  (by simp [unexpected, misplaced, hb]) (by simp [Phase.allows, hb]) (by simp) (by simp [hb]))
set_option hygiene false in
/-- the break end error after an action -/
local macro "beeA" : tactic => `(tactic| exact BadAt.unexp (aft_bee bi ke (Inv.tail hi) (Inv.mem hi) hb rfl h hl)
  (by simp [unexpected, hb]) (by simp [Phase.allows, hb]) (by simp) (by simp [hb]))
set_option hygiene false in
/-- an item after an action -/
local macro "itemA" c:term:max n:term:max p:term:max x:term:max : tactic => `(tactic| (
  obtain ⟨h1, h3⟩ := aft' bi ke (Inv.tail hi) (c := $c) $p $n rfl h hl
  rw [← h1]; exact $x h3))
set_option hygiene false in
/-- an item -/
local macro "itemN" c:term:max n:term:max p:term:max x:term:max : tactic => `(tactic|
  exact $x (bi $c _ _ _ (Inv.tail hi) $p $n h hl))
set_option hygiene false in
/-- an item at `t` -/
local macro "itemT" c:term:max n:term:max p:term:max x:term:max : tactic => `(tactic|
  exact $x (bi $c _ _ _ hi $p $n h hl))

section
variable {call : Call → ML F Unit} (bi : GIH T call) (ke : Keeps T call) (ad : Adds T call) (fi : FIH T call)
variable (mo : Mono T call) (hT : ∀ t ∈ T, Typed t)
variable {e : Ers F} {ts : List Token} {s : St (List Token) F} (hi : Inv T e ts)
variable {t : Token} (ht : t ∈ T)
variable (hl : e.errs.length < s.ers.errs.length)
include bi ke ad fi mo hT hi ht hl

theorem g_point (h : step call (.point t) ⟨e, ts⟩ = .ok ((), s)) : Falls e ts (.point t) s := by
  intro hb q hq
  rw [step_point call t (hT t ht) e ts hi.ne] at h
  cases ts with
  | nil =>
    obtain ⟨n, h1, h2⟩ := ret_bad h hl
    exact .here h2 (.position hq hb (first_range (hT t ht) h1))
  | cons nt ts =>
    rcases aft bi ke hi.tail (a := .point t) (c := .postPoint nt) hi.mem (two_push rfl hi.ne) h hl with ⟨n, h1, h2⟩ | ⟨h1, h2, h3⟩
    · exact .here h2 (.position hq hb (first_range (hT t ht) h1))
    · have h3 : BadAt _ s (.point (isLlOrBd (headSub _))) (nt :: ts) := h3
      rw [headSub_push (.inl rfl) hi.ne, ← isFixed_eq, h2] at h3
      exact h3.map [t] fun pre x post n _ hf => .point hq hb ((pos_iff (hT t ht)).2 h1) hf

theorem g_route (hr : t.base = .ROUTE) (h : step call (.route t) ⟨e, ts⟩ = .ok ((), s)) : Falls e ts (.route t) s := by
  intro q hq
  rw [step_route call t e ts hi.ne] at h
  cases ts with
  | nil => exact (ret_bad' h rfl hl).elim
  | cons nt ts =>
    have h2 := two_push (a := .route t) rfl hi.ne
    suffices hs : BadAt e.errs s .route (nt :: ts) from hs.map [t] fun pre x post n _ hf => .route hq hr hf
    dsimp only at h
    cases hb : nt.base <;> rw [hb] at h <;> dsimp only at h
    case BREAK_END => beeA
    case TRUNCATE => itemA .truncate trivial trivial (· .route nt hb (by simp [Phase.allows, hb]))
    case C => itemA (.cruiseClimbC nt) h2 ⟨hi.mem, hb⟩ (· .route (by simp [Phase.allows, hb]))
    case POINT =>
      by_cases hf : isLlOrBd nt.sub = true
      · rw [if_pos hf] at h
        obtain ⟨s1, h4, h⟩ := andThen_ok h
        have m1 := (mo (.addErrorAndReSync nt 48) _ _ _ (hi.tail.run (.route t)) ⟨hi.mem, by decide⟩ h4).2
        exact .unexp ((aft_err bi hi.tail ad ⟨hi.mem, by decide⟩ rfl h4).trans (ke (.point nt) _ _ _ m1 hi.mem h))
          (by simp [unexpected, hb]) (by simp [Phase.allows, hb, isFixed_eq, hf]) (by simp) (by simp)
      · rw [if_neg hf] at h
        itemA (.point nt) trivial hi.mem (· hb .route (by simp [Phase.allows, hb, isFixed_eq, hf]))
    all_goals hereA

theorem g_dct (hr : t.base = .DCT) (h : step call (.dct t) ⟨e, ts⟩ = .ok ((), s)) : Falls e ts (.dct t) s := by
  intro q hq
  rw [step_dct call t e ts hi.ne] at h
  cases ts with
  | nil => exact (ret_bad' h rfl hl).elim
  | cons nt ts =>
    have h2 := two_push (a := .plain t) rfl hi.ne
    suffices hs : BadAt e.errs s .dct (nt :: ts) from hs.map [t] fun pre x post n _ hf => .dct hq hr hf
    dsimp only at h
    cases hb : nt.base <;> rw [hb] at h <;> dsimp only at h
    case TRUNCATE => itemA .truncate trivial trivial (· .dct nt hb (by simp [Phase.allows, hb]))
    case C => itemA (.cruiseClimbC nt) h2 ⟨hi.mem, hb⟩ (· .dct (by simp [Phase.allows, hb]))
    case POINT => itemA (.point nt) trivial hi.mem (· hb .dct (by simp [Phase.allows, hb]))
    all_goals hereA

theorem g_sid (hr : t.base = .SID) (h : step call (.sid t) ⟨e, ts⟩ = .ok ((), s)) : Falls e ts (.sid t) s := by
  rw [step_sid call t e ts hi.ne] at h
  split at h
  · rename_i h1
    refine ⟨fun _ => ?_, fun h2 => absurd h1 h2⟩
    obtain ⟨h3, h4⟩ := aft' bi ke hi (a := .sid t) (c := .postSid) trivial (two_push rfl hi.ne) rfl h hl
    have h4 : BadAt _ s .sid ts := h4
    rw [h3] at h4
    exact h4.map [t] fun pre x post n _ hf => .sid (.inl hr) hf
  · rename_i h1
    exact ⟨fun h2 => absurd h2 h1, fun _ => aft_err bi hi ad ⟨ht, by decide⟩ rfl h⟩

theorem g_sidStar (hr : t.base = .SID_STAR) (h : step call (.sidStar t) ⟨e, ts⟩ = .ok ((), s)) : Falls e ts (.sidStar t) s := by
  rw [step_sidStar call t e ts hi.ne] at h
  split at h
  · rename_i h1
    refine ⟨fun _ => ?_, fun h2 => absurd h1 h2⟩
    obtain ⟨h3, h4⟩ := aft' bi ke hi (a := .sid t) (c := .postSid) trivial (two_push rfl hi.ne) rfl h hl
    have h4 : BadAt _ s .sid ts := h4
    rw [h3] at h4
    exact h4.map [t] fun pre x post n _ hf => .sid (.inr hr) hf
  · rename_i h1
    refine ⟨fun h2 => absurd h2 h1, fun _ q hne hq => ?_⟩
    cases ts with
    | nil => exact (ret_bad' h rfl hl).elim
    | cons pk ts =>
      exact ⟨[t], pk, ts, 34, rfl, .star hq (.inr ⟨hr, hne⟩), aft_err bi hi ad ⟨hi.mem, by decide⟩ rfl h⟩

theorem g_star (hr : t.base = .STAR) (h : step call (.star t) ⟨e, ts⟩ = .ok ((), s)) : Falls e ts (.star t) s := by
  intro q hq
  rw [step_star call t e ts hi.ne] at h
  cases ts with
  | nil => exact (ret_bad' h rfl hl).elim
  | cons pk ts => exact ⟨[t], pk, ts, 34, rfl, .star hq (.inl hr), aft_err bi hi ad ⟨hi.mem, by decide⟩ rfl h⟩

theorem g_stay (h2 : 2 ≤ e.recs.length) (h : step call (.stay t) ⟨e, ts⟩ = .ok ((), s)) : Falls e ts (.stay t) s := by
  intro hb q hq
  rw [step_stay call t e ts] at h
  cases ts with
  | nil => exact .here (ad _ _ _ _ _ hi ⟨ht, by decide⟩ h) (.stayEnd hq hb)
  | cons nt ts =>
    dsimp only at h
    split at h
    · exact ⟨[t], nt, ts, 36, rfl, .staySlash hq hb (by assumption), ad _ _ _ _ _ hi.tail ⟨hi.mem, by decide⟩ h⟩
    · rename_i hs
      have hs : nt.base = .SLASH := Decidable.byContradiction hs
      cases ts with
      | nil => exact ⟨[t], nt, [], 37, rfl, .stayTimeEnd hq hb hs, ad _ _ _ _ _ hi.tail ⟨hi.mem, by decide⟩ h⟩
      | cons m ts =>
        dsimp only at h
        split at h
        · exact ⟨[t, nt], m, ts, 38, rfl, .stayTime hq hb hs (by assumption), ad _ _ _ _ _ hi.tail.tail ⟨hi.tail.mem, by decide⟩ h⟩
        · rename_i hm
          have hm : m.base = .STAY_TIME := Decidable.byContradiction hm
          have h4 := bi (.stayTime m) _ _ _ hi.tail.tail ⟨hi.tail.mem, hm⟩ h2 h hl
          exact BadAt.map (q' := .stay) [t, nt, m] h4 fun pre x post n _ hf => .stay hq hb hs hm hf

theorem g_stayTime (h2 : 2 ≤ e.recs.length) (hm : t.base = .STAY_TIME) (h : step call (.stayTime t) ⟨e, ts⟩ = .ok ((), s)) :
    Falls e ts (.stayTime t) s := by
  show BadAt _ _ _ _
  rw [step_stayTime call t (stay_facts (hT t ht) hm) e ts hi.ne] at h
  cases ts with
  | nil => exact (ret_bad' h rfl hl).elim
  | cons nt ts =>
    have h2 := two_note (a := .stay t) rfl hi.ne h2
    dsimp only at h
    cases hb : nt.base <;> rw [hb] at h <;> dsimp only at h
    case BREAK_END => beeA
    case BREAK_START => itemA (.breakStart nt) h2 ⟨hi.mem, hb⟩ (· .stay (by simp [Phase.allows, hb]))
    case DCT => itemA (.dct nt) trivial ⟨hi.mem, hb⟩ (· .stay (by simp [Phase.allows, hb]))
    case TRUNCATE => itemA .truncate trivial trivial (· .stay nt hb (by simp [Phase.allows, hb]))
    case C => itemA (.cruiseClimbC nt) h2 ⟨hi.mem, hb⟩ (· .stay (by simp [Phase.allows, hb]))
    case POINT => itemA (.point nt) trivial hi.mem (· hb .stay (by simp [Phase.allows, hb]))
    case ROUTE => itemA (.route nt) h2 ⟨hi.mem, hb⟩ (· .stay (by simp [Phase.allows, hb]))
    case SID_STAR =>
      itemA (.sidStar nt) trivial ⟨hi.mem, hb⟩ (fun h3 => h3.2 (by omega) .stay (by simp) (by simp [Phase.allows, hb]))
    case STAR => itemA (.star nt) trivial ⟨hi.mem, hb⟩ (· .stay (by simp [Phase.allows, hb]))
    case SID =>
      obtain ⟨h1, h3⟩ := aft' bi ke hi.tail (c := .sid nt) ⟨hi.mem, hb⟩ trivial rfl h hl
      have h3 := h3.2 (by omega)
      rw [h1] at h3
      exact .unexp h3 (by simp [unexpected, misplaced, hb]) (by simp [Phase.allows, hb]) (by simp) (by simp)
    all_goals hereA

end

section
variable {call : Call → ML F Unit} (bi : GIH T call) (ke : Keeps T call) (ad : Adds T call) (fi : FIH T call)
variable (mo : Mono T call) (hT : ∀ t ∈ T, Typed t)
variable {e : Ers F} {ts : List Token} {s : St (List Token) F} (hi : Inv T e ts)
variable (hl : e.errs.length < s.ers.errs.length)
include bi ke ad fi mo hT hi hl

theorem g_truncate (h : step call .truncate ⟨e, ts⟩ = .ok ((), s)) : Falls e ts .truncate s := by
  intro q t hb hq
  rw [step_truncate call e ts] at h
  cases ts with
  | nil => obtain rfl := done_inj h; exact absurd hl (Nat.lt_irrefl _)
  | cons nt ts => exact ⟨[t], nt, ts, 19, rfl, .truncate hq hb, ad _ _ _ _ _ hi.tail ⟨hi.mem, by decide⟩ h⟩

theorem g_postSid (h2 : 2 ≤ e.recs.length) (h : step call .postSid ⟨e, ts⟩ = .ok ((), s)) : Falls e ts .postSid s := by
  show BadAt _ _ _ _
  rw [step_postSid call e ts] at h
  cases ts with
  | nil => obtain rfl := done_inj h; exact absurd hl (Nat.lt_irrefl _)
  | cons nt ts =>
    dsimp only at h
    cases hb : nt.base <;> rw [hb] at h <;> dsimp only at h
    case TRUNCATE => itemN .truncate trivial trivial (· .sid nt hb (by simp [Phase.allows, hb]))
    case POINT => itemN (.point nt) trivial hi.mem (· hb .sid (by simp [Phase.allows, hb]))
    case ROUTE => itemN (.route nt) h2 ⟨hi.mem, hb⟩ (· .sid (by simp [Phase.allows, hb]))
    case SID_STAR =>
      itemN (.sidStar nt) trivial ⟨hi.mem, hb⟩ (fun h3 => h3.2 (by omega) .sid (by simp) (by simp [Phase.allows, hb]))
    case STAR => itemN (.star nt) trivial ⟨hi.mem, hb⟩ (· .sid (by simp [Phase.allows, hb]))
    all_goals hereN

variable {t : Token} (ht : t ∈ T)
include ht

theorem g_postPoint (h2 : 2 ≤ e.recs.length) (h : step call (.postPoint t) ⟨e, ts⟩ = .ok ((), s)) :
    Falls e ts (.postPoint t) s := by
  show BadAt _ _ _ _
  rw [step_postPoint call t e ts hi.ne, headSub_eq hi.ne] at h
  cases hb : t.base <;> rw [hb] at h <;> dsimp only at h
  case BREAK_END =>
    exact .unexp (bi (.breakEndError t) _ _ _ hi ht hb h hl)
      (by simp [unexpected, hb]) (by simp [Phase.allows, hb]) (by simp) (by simp [hb])
  case SLASH => itemT (.forwardSlash t) h2 ht (· hb)
  case BREAK_START => itemT (.breakStart t) h2 ⟨ht, hb⟩ (· (.point _) (by simp [Phase.allows, hb]))
  case DCT => itemT (.dct t) trivial ⟨ht, hb⟩ (· (.point _) (by simp [Phase.allows, hb]))
  case STAY => itemT (.stay t) h2 ht (· hb (.point _) (by simp [Phase.allows, hb]))
  case TRUNCATE => itemT .truncate trivial trivial (· (.point _) t hb (by simp [Phase.allows, hb]))
  case C => itemT (.cruiseClimbC t) h2 ⟨ht, hb⟩ (· (.point _) (by simp [Phase.allows, hb]))
  case POINT => itemT (.point t) trivial ht (· hb (.point _) (by simp [Phase.allows, hb]))
  case ROUTE =>
    split at h
    · rename_i hf
      exact .unexp (ad _ _ _ _ _ hi ⟨ht, by decide⟩ h) (by simp [unexpected, hb]) (by simp [Phase.allows, hb, hf]) (by simp)
        (by simp [hb])
    · rename_i hf
      itemT (.route t) h2 ⟨ht, hb⟩ (· (.point _) (by simp [Phase.allows, hb, hf]))
  case SID_STAR =>
    itemT (.sidStar t) trivial ⟨ht, hb⟩ (fun h3 => h3.2 (by omega) (.point _) (by simp) (by simp [Phase.allows, hb]))
  case STAR => itemT (.star t) trivial ⟨ht, hb⟩ (· (.point _) (by simp [Phase.allows, hb]))
  case SID =>
    exact .unexp ((bi (.sid t) _ _ _ hi ⟨ht, hb⟩ trivial h hl).2 (by omega))
      (by simp [unexpected, misplaced, hb]) (by simp [Phase.allows, hb]) (by simp) (by simp [hb])
  all_goals hereT

theorem g_postAdep (h1 : e.recs.length = 1) (h : step call (.postAdep t) ⟨e, ts⟩ = .ok ((), s)) :
    Falls e ts (.postAdep t) s := by
  show BadAt _ _ _ _
  change postAdep call t ⟨e, ts⟩ = _ at h
  unfold postAdep at h
  cases hb : t.base <;> rw [hb] at h <;> dsimp only at h
  case DCT => itemT (.dct t) trivial ⟨ht, hb⟩ (· .adep (by simp [Phase.allows, hb]))
  case TRUNCATE => itemT .truncate trivial trivial (· .adep t hb (by simp [Phase.allows, hb]))
  case POINT => itemT (.point t) trivial ht (· hb .adep (by simp [Phase.allows, hb]))
  case SID_STAR => itemT (.sidStar t) trivial ⟨ht, hb⟩ (fun h3 => h3.1 h1)
  case SID => itemT (.sid t) trivial ⟨ht, hb⟩ (fun h3 => h3.1 h1)
  case STAR => itemT (.star t) trivial ⟨ht, hb⟩ (· .adep (by simp [Phase.allows, hb]))
  all_goals hereT

theorem g_slash (h2 : 2 ≤ e.recs.length) (h : step call (.forwardSlash t) ⟨e, ts⟩ = .ok ((), s)) :
    Falls e ts (.forwardSlash t) s := by
  intro hs
  rw [step_slash call t e ts] at h
  cases ts with
  | nil => exact .here (ad _ _ _ _ _ hi ⟨ht, by decide⟩ h) (.slashEnd hs)
  | cons nt ts =>
    dsimp only at h
    cases hb : nt.base <;> rw [hb] at h <;> dsimp only at h
    case SPEED_VFR =>
      exact BadAt.map (q' := .text _) [t, nt] (bi (.assignSpeedVfr nt) _ _ _ hi.tail ⟨hi.mem, hb⟩ trivial h hl)
        fun pre x post n _ hf => .vfr hs hb hf
    case SPEED_ALTITUDE =>
      rcases bi (.assignSpeedAltitude nt) _ _ _ hi.tail ⟨hi.mem, hb⟩ trivial h hl with ⟨h3, h4⟩ | ⟨h3, h4⟩
      · exact ⟨[t], nt, ts, 40, rfl, .levelStep hs hb h3, h4⟩
      · rw [if_neg (by omega)] at h4
        exact BadAt.map [t, nt] h4 fun pre x post n _ hf => .level hs hb h3 hf
    all_goals
      refine ⟨[t], nt, ts, _, rfl, .slash hs (by simp [hb]) (by simp [hb]), ?_⟩
      have := ad _ _ _ _ _ hi.tail ⟨hi.mem, by decide⟩ h
      simpa [afterSlash, hb] using this

theorem g_level (hb : t.base = .SPEED_ALTITUDE) (h : step call (.assignSpeedAltitude t) ⟨e, ts⟩ = .ok ((), s)) :
    Falls e ts (.assignSpeedAltitude t) s := by
  show _ ∨ _
  rw [step_level call t (hT t ht) hb e ts hi.ne] at h
  have num : ∀ {n}, n ∈ (Act.level t).nums → n = 40 ∧ ¬ LevelOk t.text := by
    intro n hn
    constructor
    · have hn : n ∈ granErr _ := hn
      unfold granErr at hn
      split at hn
      · simpa using hn
      · cases hn
    · rw [levelOk_iff (hT t ht) hb]; intro h0; rw [h0] at hn; cases hn
  cases ts with
  | nil =>
    obtain ⟨n, h1, h2⟩ := ret_bad h hl
    obtain ⟨rfl, h3⟩ := num (List.mem_of_mem_head? h1)
    exact .inl ⟨h3, h2⟩
  | cons nt ts =>
    dsimp only at h
    have hlen := (run_note (a := .level t) rfl hi.ne).1
    split at h
    · rename_i h1
      rcases aft bi ke hi.tail (a := .level t) (c := .postAdep nt) hi.mem (hlen.trans h1) h hl with ⟨n, h2, h3⟩ | ⟨h2, h3, h4⟩
      · obtain ⟨rfl, h5⟩ := num (List.mem_of_mem_head? h2)
        exact .inl ⟨h5, h3⟩
      · refine .inr ⟨(levelOk_iff (hT t ht) hb).2 h2, ?_⟩
        rw [if_pos h1, ← h3]; exact h4
    · rename_i h1
      have : 2 ≤ ((Act.level t).run e).recs.length := by
        rw [hlen]; have := List.length_pos_iff.2 hi.ne; omega
      rcases aft bi ke hi.tail (a := .level t) (c := .postPoint nt) hi.mem this h hl with ⟨n, h2, h3⟩ | ⟨h2, h3, h4⟩
      · obtain ⟨rfl, h5⟩ := num (List.mem_of_mem_head? h2)
        exact .inl ⟨h5, h3⟩
      · refine .inr ⟨(levelOk_iff (hT t ht) hb).2 h2, ?_⟩
        have h4 : BadAt _ s (.point (isLlOrBd (headSub _))) (nt :: ts) := h4
        rw [headSub_note rfl hi.ne] at h4
        rw [if_neg h1, ← h3]; exact h4

omit bi ke ad fi mo hT hi hl ht in
theorem gran40 {lv : Str} {n : Nat} (hn : n ∈ granErr lv) : n = 40 := by
  unfold granErr at hn
  split at hn
  · simpa using hn
  · cases hn

theorem g_levelsK {a : Act} (h2 : 2 ≤ e.recs.length) (hr : a.records = false) (htk : a.tok = t)
    (h40 : ∀ n ∈ a.nums, n = 40) (h : levelsK call a e ts = .ok ((), s)) :
    (a.nums ≠ [] ∧ FirstErr e.errs s t 40) ∨ (a.nums = [] ∧ BadAt e.errs s (.point (isLlOrBd (headSub e))) ts) := by
  unfold levelsK at h
  cases ts with
  | nil =>
    obtain ⟨n, h1, h3⟩ := ret_bad h hl
    rw [h40 n (List.mem_of_mem_head? h1), htk] at h3
    exact .inl ⟨(by intro h; rw [h] at h1; cases h1), h3⟩
  | cons nt ts =>
    rcases aft bi ke hi.tail (a := a) (c := .postPoint nt) hi.mem (two_note hr hi.ne h2) h hl with ⟨n, h1, h3⟩ | ⟨h1, h3, h4⟩
    · rw [h40 n (List.mem_of_mem_head? h1), htk] at h3
      exact .inl ⟨(by intro h; rw [h] at h1; cases h1), h3⟩
    · refine .inr ⟨h1, ?_⟩
      have h4 : BadAt _ s (.point (isLlOrBd (headSub _))) (nt :: ts) := h4
      rw [headSub_note hr hi.ne] at h4
      rw [← h3]; exact h4

theorem g_levels (h2 : 2 ≤ e.recs.length) (hb : t.base = .SPEED_ALTITUDE_ALTITUDE)
    (h : step call (.assignSpeedAltitudeAltitude t) ⟨e, ts⟩ = .ok ((), s)) :
    Falls e ts (.assignSpeedAltitudeAltitude t) s := by
  by_cases hbad : t.sub ∈ ccBad
  · rw [step_levels_bad call t (hT t ht) hbad e ts hi.ne] at h; cases h
  · rw [step_levels call t (hT t ht) hb hbad e ts hi.ne] at h
    have h40 : ∀ n ∈ (Act.levels t).nums, n = 40 := fun n hn => by
      rcases List.mem_append.1 hn with hn | hn <;> exact gran40 hn
    rcases g_levelsK bi ke ad fi mo hT hi hl ht (a := .levels t) h2 rfl rfl h40 h with ⟨h3, h4⟩ | ⟨h3, h4⟩
    · exact .inl ⟨fun hc => h3 ((climbOk_iff (hT t ht) hb hbad).1 hc), h4⟩
    · exact .inr ⟨(climb_iff (hT t ht)).2 ⟨_, .inl ⟨hb, hbad, rfl, fun _ => h3⟩⟩, h4⟩

theorem g_plus (h2 : 2 ≤ e.recs.length) (hb : t.base = .SPEED_ALTITUDE_PLUS)
    (h : step call (.assignSpeedAltitudePlus t) ⟨e, ts⟩ = .ok ((), s)) :
    Falls e ts (.assignSpeedAltitudePlus t) s := by
  rw [step_plus call t (hT t ht) hb e ts hi.ne] at h
  have h40 : ∀ n ∈ (Act.plus t).nums, n = 40 := fun n hn => gran40 hn
  rcases g_levelsK bi ke ad fi mo hT hi hl ht (a := .plus t) h2 rfl rfl h40 h with ⟨h3, h4⟩ | ⟨h3, h4⟩
  · exact .inl ⟨fun hc => h3 ((plusOk_iff (hT t ht) hb).1 hc), h4⟩
  · exact .inr ⟨(climb_iff (hT t ht)).2 ⟨_, .inr ⟨hb, rfl, fun _ => h3⟩⟩, h4⟩

theorem g_vfr (hb : t.base = .SPEED_VFR) (h : step call (.assignSpeedVfr t) ⟨e, ts⟩ = .ok ((), s)) :
    Falls e ts (.assignSpeedVfr t) s := by
  show BadAt _ _ _ _
  rw [step_vfr call t (hT t ht) hb e ts hi.ne] at h
  cases ts with
  | nil => exact (ret_bad' h rfl hl).elim
  | cons nt ts =>
    obtain ⟨h1, h2⟩ := aft' bi ke hi.tail (a := .vfr t) (c := .breakTextSave nt) hi.suf (two_push rfl hi.ne) rfl h hl
    have h2 : BadAt _ s (.text (headRules _)) (nt :: ts) := h2
    rw [headRules_vfr hi.ne, h1] at h2
    exact h2

theorem g_breakStart (hb : t.base = .BREAK_START) (h : step call (.breakStart t) ⟨e, ts⟩ = .ok ((), s)) :
    Falls e ts (.breakStart t) s := by
  intro q hq
  rw [step_breakStart call t e ts hi.ne] at h
  cases ts with
  | nil => exact (ret_bad' h rfl hl).elim
  | cons nt ts =>
    suffices hs : BadAt e.errs s (.text (rulesOfBreak t.sub)) (nt :: ts) from
      hs.map [t] fun pre x post n _ hf => .break_ hq hb hf
    dsimp only at h
    split at h
    · rename_i htl
      exact .here (aft_err bi hi.tail ad ⟨hi.mem, by decide⟩ rfl h) (.tooLong htl)
    · obtain ⟨h1, h2⟩ := aft' bi ke hi.tail (a := .brk t) (c := .breakTextSave nt) hi.suf (two_push rfl hi.ne) rfl h hl
      have h2 : BadAt _ s (.text (headRules _)) (nt :: ts) := h2
      rw [headRules_brk (hT t ht) hb hi.ne, h1] at h2
      exact h2

end
end F15
