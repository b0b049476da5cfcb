import Verif.Lemmas.Fault
import Verif.Lemmas.Causal
import Verif.Lemmas.Messages
/-!
# No complaint is made twice

While the tokens are read, the errors noted so far are all different (except that error 40 may be noted twice about a word with two levels),
and there are at most four for each token read.
-/

namespace F15
open Spec

set_option linter.unusedSectionVars false
variable {F : Type} [PyFloat F]

/-- Two errors are not the same complaint, unless that about the levels of a SPEED/LEVEL/LEVEL. -/
def Differ (b a : Record F) : Prop :=
  (b.start ≠ a.start ∨ b.errorText ≠ a.errorText) ∨ ∃ t, b = errRec t 40 ∧ t.base = .SPEED_ALTITUDE_ALTITUDE

/-- The complaint has not been made about the token. -/
def Unsaid (e : Ers F) (t : Token) (n : Nat) : Prop :=
  ∀ r ∈ e.errs, r.start ≠ t.start ∨ r.errorText ≠ (errRec t n : Record F).errorText

/-- The errors differ and the tokens are in order. -/
structure Core (e : Ers F) (ts : List Token) : Prop where
  errs : e.errs.Pairwise Differ
  toks : ts.Pairwise fun t u => t.start < u.start
  ne : e.recs ≠ []

/-- Nothing has been said about the tokens still to come. -/
structure InOnce (e : Ers F) (ts : List Token) : Prop extends Core e ts where
  ahead : ∀ a ∈ e.errs, ∀ u ∈ ts, a.start < u.start

/-- The same, but the next token may have been complained about when it was seen ahead. -/
structure WeakOnce (e : Ers F) (ts : List Token) : Prop extends Core e ts where
  ahead : ∀ a ∈ e.errs, ∀ u ∈ ts, a.start < u.start ∨ ((∃ r, ts = u :: r) ∧ (a = errRec u 22 ∨ a = errRec u 34))

/-- The token that has just been read. -/
structure JustRead (e : Ers F) (ts : List Token) (t : Token) : Prop where
  toks : ∀ u ∈ ts, t.start < u.start
  errs : ∀ r ∈ e.errs, r.start = t.start → r = errRec t 22 ∨ r = errRec t 34 ∨ r = errRec t 48

theorem InOnce.weak {e : Ers F} {ts : List Token} (h : InOnce e ts) : WeakOnce e ts :=
  ⟨h.toCore, fun a ha u hu => .inl (h.ahead a ha u hu)⟩

theorem InOnce.tail {e : Ers F} {t : Token} {ts : List Token} (h : InOnce e (t :: ts)) : InOnce e ts :=
  ⟨⟨h.errs, (List.pairwise_cons.1 h.toks).2, h.ne⟩, fun a ha u hu => h.ahead a ha u (by simp [hu])⟩

theorem InOnce.fresh {e : Ers F} {t : Token} {ts : List Token} (h : InOnce e (t :: ts)) : JustRead e ts t :=
  ⟨(List.pairwise_cons.1 h.toks).1, fun a ha hs => absurd hs (by have := h.ahead a ha t (by simp); omega)⟩

theorem WeakOnce.tail {e : Ers F} {t : Token} {ts : List Token} (h : WeakOnce e (t :: ts)) : InOnce e ts := by
  refine ⟨⟨h.errs, (List.pairwise_cons.1 h.toks).2, h.ne⟩, fun a ha u hu => ?_⟩
  rcases h.ahead a ha u (by simp [hu]) with k | ⟨⟨r, hr⟩, _⟩
  · exact k
  · have : t = u := (List.cons.inj hr).1
    subst this
    have := (List.pairwise_cons.1 h.toks).1 _ hu
    omega

theorem WeakOnce.fresh {e : Ers F} {t : Token} {ts : List Token} (h : WeakOnce e (t :: ts)) : JustRead e ts t := by
  refine ⟨(List.pairwise_cons.1 h.toks).1, fun a ha hs => ?_⟩
  rcases h.ahead a ha t (by simp) with k | ⟨_, k | k⟩
  · omega
  · exact .inl k
  · exact .inr (.inl k)

/-- A consumed token has not been complained about in this way. -/
theorem JustRead.not_mem {e : Ers F} {ts : List Token} {t : Token} (h : JustRead e ts t) {n : Nat} (hn : numOk n = true)
    (h22 : n ≠ 22 ∧ n ≠ 34 ∧ n ≠ 48) : Unsaid e t n := by
  intro r hm
  by_cases hst : r.start = t.start
  · refine .inr fun hc => ?_
    rcases h.errs _ hm hst with rfl | rfl | rfl
    · exact h22.1 (errText_inj (by decide) hn hc).symm
    · exact h22.2.1 (errText_inj (by decide) hn hc).symm
    · exact h22.2.2 (errText_inj (by decide) hn hc).symm
  · exact .inl hst

/-- The messages of an action are different. -/
def Fine (b : BaseType) (ns : List Nat) : Prop := ns.Pairwise (fun n m => n ≠ m ∨ (n = 40 ∧ b = .SPEED_ALTITUDE_ALTITUDE)) ∧ ∀ n ∈ ns, numOk n = true

theorem core_run {e : Ers F} {ts : List Token} (h : Core e ts) (a : Act) (hf : Fine a.tok.base a.nums)
    (hn : ∀ n ∈ a.nums, Unsaid e a.tok n) : Core (a.run e) ts := by
  refine ⟨?_, h.toks, a.run_ne e h.ne⟩
  rw [run_errs, List.pairwise_append]
  refine ⟨?_, h.errs, ?_⟩
  · rw [List.pairwise_reverse, List.pairwise_map]
    refine List.Pairwise.imp_of_mem ?_ hf.1
    intro n m hn hm hnm
    by_cases hmn : m = n
    · subst hmn
      rcases hnm with k | ⟨k, k'⟩
      · exact absurd rfl k
      · subst k
        exact .inr ⟨_, rfl, k'⟩
    · exact .inl (.inr fun hc => hmn (errText_inj (hf.2 m hm) (hf.2 n hn) hc))
  · intro x hx y hy
    rw [List.mem_reverse, List.mem_map] at hx
    obtain ⟨n, hm, rfl⟩ := hx
    exact .inl ((hn n hm y hy).imp (fun h => h ∘ Eq.symm) fun h => h ∘ Eq.symm)

theorem InOnce.run {e : Ers F} {ts : List Token} (h : InOnce e ts) (a : Act) (hf : Fine a.tok.base a.nums)
    (hn : ∀ n ∈ a.nums, Unsaid e a.tok n) (ht : a.nums = [] ∨ ∀ u ∈ ts, a.tok.start < u.start) : InOnce (a.run e) ts := by
  refine ⟨core_run h.toCore a hf hn, fun r hr u hu => ?_⟩
  rw [run_errs, List.mem_append, List.mem_reverse, List.mem_map] at hr
  rcases hr with ⟨n, hm, rfl⟩ | hr
  · rcases ht with ht | ht
    · rw [ht] at hm; cases hm
    · exact ht u hu
  · exact h.ahead r hr u hu

theorem granErr_cases (s : Str) : granErr s = [] ∨ granErr s = [40] := by
  unfold granErr; split <;> simp

/-- The actions that are not the reports of errors. -/
def Act.mild : Act → Prop
  | .err .. => False
  | .levels t => t.base = .SPEED_ALTITUDE_ALTITUDE
  | _ => True

theorem mild_nums {a : Act} (h : a.mild) : Fine a.tok.base a.nums ∧ (∀ n ∈ a.nums, n ≠ 22 ∧ n ≠ 34 ∧ n ≠ 48) ∧ a.nums.length ≤ 3 := by
  have pos : ∀ t, Fine t.base (posNums t) ∧ (∀ n ∈ posNums t, n ≠ 22 ∧ n ≠ 34 ∧ n ≠ 48) ∧ (posNums t).length ≤ 3 := by
    intro t
    obtain ⟨h1, h2, h3⟩ := posNums_cases t
    refine ⟨⟨h1.imp fun h => .inl h, fun n hn => ?_⟩, fun n hn => ?_, h3⟩
    · exact (by decide : ∀ n ∈ [42, 43, 44, 45, 46], numOk n = true) n (h2 n hn)
    · exact (by decide : ∀ n ∈ [42, 43, 44, 45, 46], n ≠ 22 ∧ n ≠ 34 ∧ n ≠ 48) n (h2 n hn)
  have sm : ∀ b, ∀ l ∈ [[], [40]], Fine b l ∧ (∀ n ∈ l, n ≠ 22 ∧ n ≠ 34 ∧ n ≠ 48) ∧ l.length ≤ 3 := by
    intro b l hl
    simp only [List.mem_cons, List.not_mem_nil, or_false] at hl
    rcases hl with rfl | rfl <;> simp [Fine] <;> decide
  have sl : ∀ l ∈ [[], [40], [40, 40]], Fine .SPEED_ALTITUDE_ALTITUDE l ∧ (∀ n ∈ l, n ≠ 22 ∧ n ≠ 34 ∧ n ≠ 48) ∧ l.length ≤ 3 := by
    intro l hl
    simp only [List.mem_cons, List.not_mem_nil, or_false] at hl
    rcases hl with rfl | rfl | rfl <;> simp [Fine] <;> decide
  cases a with
  | err t n => cases h
  | point t | vToI t | ccPoint t => exact pos t
  | level t => exact sm _ _ (by rcases granErr_cases (restOf t.text) with h | h <;> simp [Act.nums, h])
  | plus t => exact sm _ _ (by rcases granErr_cases (lv1Of t.text) with h | h <;> simp [Act.nums, h])
  | levels t =>
    rw [show (Act.levels t).tok.base = .SPEED_ALTITUDE_ALTITUDE from h]
    exact sl _ (by
      rcases granErr_cases (lv1Of t.text) with h | h <;> rcases granErr_cases (lv2Of t.text) with h' | h' <;>
        simp [Act.nums, h, h'])
  | _ => exact sm _ _ (by simp [Act.nums])

theorem InOnce.act {e : Ers F} {ts : List Token} (h : InOnce e ts) (a : Act) (ha : a.mild) (ht : JustRead e ts a.tok) :
    InOnce (a.run e) ts := by
  obtain ⟨h1, h2, _⟩ := mild_nums ha
  exact h.run a h1 (fun n hn => ht.not_mem (h1.2 n hn) (h2 n hn)) (.inr ht.toks)

/-- What a run may leave: the errors are of `P`, the remaining tokens are the end of `U`, and there is a bound. -/
def KeepsOnce (P : Record F → Prop) (U : List Token) (N : Nat) (r : Res F) : Prop :=
  ∀ e1 ts1, r = done e1 ts1 → InOnce e1 ts1 ∧ (∀ x ∈ e1.errs, P x) ∧ ts1 <:+ U ∧ e1.errs.length + 4 * ts1.length ≤ N

/-- The same for the present state, with `k` to spare. -/
structure Room (P : Record F → Prop) (U : List Token) (N : Nat) (e : Ers F) (ts : List Token) (k : Nat) : Prop where
  errs : ∀ x ∈ e.errs, P x
  toks : ∀ u ∈ ts, ∀ x : Record F, x.start = u.start → P x
  suf : ts <:+ U
  len : e.errs.length + 4 * ts.length + k ≤ N

section
variable {P : Record F → Prop} {U : List Token} {N : Nat} {e : Ers F} {ts : List Token} {k : Nat}

theorem Room.tail {t : Token} (h : Room P U N e (t :: ts) k) : Room P U N e ts (k + 4) :=
  ⟨h.errs, fun u hu => h.toks u (by simp [hu]), (List.suffix_cons _ _).trans h.suf, by have := h.len; simp only [List.length_cons] at this; omega⟩

theorem Room.head {t : Token} (h : Room P U N e (t :: ts) k) : ∀ x : Record F, x.start = t.start → P x := h.toks t (by simp)

theorem Room.run (a : Act) (h : Room P U N e ts k) (hq : ∀ x : Record F, x.start = a.tok.start → P x) (hk : a.nums.length ≤ k) :
    Room P U N (a.run e) ts (k - a.nums.length) := by
  refine ⟨fun x hx => ?_, h.toks, h.suf, ?_⟩
  · rw [run_errs, List.mem_append, List.mem_reverse, List.mem_map] at hx
    rcases hx with ⟨n, _, rfl⟩ | hx
    · exact hq _ rfl
    · exact h.errs x hx
  · have := h.len
    rw [run_errs_len]
    omega

theorem Room.less {j : Nat} (h : Room P U N e ts k) (hj : j ≤ k) : Room P U N e ts j :=
  ⟨h.errs, h.toks, h.suf, by have := h.len; omega⟩

theorem Room.here (h : Room P U N e ts k) : Room P ts N e ts k := ⟨h.errs, h.toks, List.suffix_refl _, h.len⟩

theorem Room.after {j : Nat} {e1 : Ers F} {ts1 : List Token} (h : Room P U N e ts k) (h2 : ∀ x ∈ e1.errs, P x) (h3 : ts1 <:+ ts)
    (h4 : e1.errs.length + 4 * ts1.length + j ≤ N) : Room P U N e1 ts1 j :=
  ⟨h2, fun u hu => h.toks u (h3.subset hu), h3.trans h.suf, h4⟩

theorem KeepsOnce.ret (ho : InOnce e ts) (hr : Room P U N e ts k) : KeepsOnce P U N (done e ts) := by
  intro e1 ts1 h1; cases h1
  exact ⟨ho, hr.errs, hr.suf, by have := hr.len; omega⟩

theorem KeepsOnce.andThen {P' : Record F → Prop} {U' : List Token} {N' : Nat} {r : Res F} {K : Ers F → List Token → Res F}
    (h : KeepsOnce P' U' N' r)
    (hk : ∀ e1 ts1, InOnce e1 ts1 → (∀ x ∈ e1.errs, P' x) → ts1 <:+ U' → e1.errs.length + 4 * ts1.length ≤ N' → r = done e1 ts1 →
      KeepsOnce P U N (K e1 ts1)) : KeepsOnce P U N (andThen r K) := by
  intro e2 ts2 h2
  cases r with
  | error x => cases h2
  | ok q =>
    obtain ⟨u, e1, ts1⟩ := q
    obtain ⟨h3, h4, h5, h6⟩ := h e1 ts1 rfl
    exact hk e1 ts1 h3 h4 h5 h6 rfl e2 ts2 h2

end

/-- How many errors a method may add, counting four for each token that remains. -/
def costOf : Call → List Token → Nat
  | .addErrorAndReSync .., [] => 1
  | .addErrorAndReSync .., _ :: r => 4 + 4 * r.length
  | .reSync, [] => 0
  | .reSync, _ :: r => 3 + 4 * r.length
  | .cruiseClimbPoint _, ts => 4 + 4 * ts.length
  | c, ts => 3 * (argOf c).length + 4 * ts.length

/-- When a method may be called. -/
def PreOnce (e : Ers F) (ts : List Token) : Call → Prop
  | .addErrorAndReSync t n => InOnce e ts ∧ n ≠ 56 ∧ Unsaid e t n ∧
      ((∀ u ∈ ts, t.start < u.start) ∨ ((n = 22 ∨ n = 34) ∧ ∃ r, ts = t :: r))
  | .reSync => WeakOnce e ts
  | c => InOnce e ts ∧ ∀ t ∈ argOf c, JustRead e ts t

/-- The induction hypothesis. -/
def OnceIH (T : List Token) (call : Call → ML F Unit) : Prop :=
  ∀ P U N c e ts, PreOnce e ts c → ts <:+ T → Pre T ts c → (∀ x ∈ e.errs, P x) → (∀ u ∈ argOf c ++ ts, ∀ x : Record F, x.start = u.start → P x) →
    ts <:+ U → e.errs.length + costOf c ts ≤ N → KeepsOnce P U N (call c ⟨e, ts⟩)

/-- The errors after an error about `t` are that and those about the rest. -/
def OnceErr (T : List Token) (call : Call → ML F Unit) : Prop :=
  ∀ t n e ts e1 ts1, PreOnce e ts (.addErrorAndReSync t n) → ts <:+ T → t ∈ T ∧ plainErr n = true → call (.addErrorAndReSync t n) ⟨e, ts⟩ = done e1 ts1 →
    ∀ x ∈ e1.errs, x ∈ e.errs ∨ x = errRec t n ∨ ∃ u ∈ ts, x.start = u.start

section
variable {T : List Token} {call : Call → ML F Unit} (ih : OnceIH T call) (ihE : OnceErr T call) (hT : ∀ t ∈ T, Typed t)
variable {P : Record F → Prop} {U : List Token} {N k : Nat} {e : Ers F} {ts : List Token} (ho : InOnce e ts) (hs : ts <:+ T) (hr : Room P U N e ts k)
include ih ho hs hr

theorem OnceIH.err {t : Token} {n : Nat} (ht : t ∈ T) (hq : ∀ x : Record F, x.start = t.start → P x) (hl : ∀ u ∈ ts, t.start < u.start)
    (hp : plainErr n = true) (h56 : n ≠ 56) (hn : Unsaid e t n) (hk : 1 ≤ k) : KeepsOnce P U N (call (.addErrorAndReSync t n) ⟨e, ts⟩) := by
  refine ih P U N _ e ts ⟨ho, h56, hn, .inl hl⟩ hs ⟨ht, hp⟩ hr.errs ?_ hr.suf ?_
  · intro u hu
    rcases List.mem_append.1 hu with hu | hu
    · rw [show u = t by simpa [argOf] using hu]; exact hq
    · exact hr.toks u hu
  · have := hr.len
    cases ts <;> simp only [costOf, List.length_cons, List.length_nil] at * <;> omega

theorem OnceIH.fresh {t : Token} {n : Nat} (ht : t ∈ T) (hq : ∀ x : Record F, x.start = t.start → P x) (hf : JustRead e ts t)
    (hp : plainErr n = true) (hn : n ≠ 22 ∧ n ≠ 34 ∧ n ≠ 48 ∧ n ≠ 56) (hk : 1 ≤ k) : KeepsOnce P U N (call (.addErrorAndReSync t n) ⟨e, ts⟩) :=
  OnceIH.err ih ho hs hr ht hq hf.toks hp hn.2.2.2
    (hf.not_mem (by simp [numOk, plainErr.isSome hp, hn.2.2.2]) ⟨hn.1, hn.2.1, hn.2.2.1⟩) hk

theorem OnceIH.one {c : Call} {t : Token} (ha : argOf c = [t]) (ht : t ∈ T) (hq : ∀ x : Record F, x.start = t.start → P x)
    (hf : JustRead e ts t) (hpo : InOnce e ts → (∀ t ∈ argOf c, JustRead e ts t) → PreOnce e ts c) (hp : Pre T ts c)
    (hc : costOf c ts ≤ 4 * ts.length + k) : KeepsOnce P U N (call c ⟨e, ts⟩) := by
  refine ih P U N c e ts (hpo ho fun u hu => ?_) hs hp hr.errs ?_ hr.suf (by have := hr.len; omega)
  · rw [ha, List.mem_singleton] at hu; subst hu; exact hf
  · intro u hu
    rcases List.mem_append.1 hu with hu | hu
    · rw [ha, List.mem_singleton] at hu; subst hu; exact hq
    · exact hr.toks u hu

theorem OnceIH.none {c : Call} (ha : argOf c = []) (hpo : PreOnce e ts c) (hp : Pre T ts c) (hc : costOf c ts ≤ 4 * ts.length) :
    KeepsOnce P U N (call c ⟨e, ts⟩) := by
  refine ih P U N c e ts hpo hs hp hr.errs ?_ hr.suf (by have := hr.len; omega)
  intro u hu
  rw [ha] at hu
  exact hr.toks u hu

/-- An error about a token seen ahead. -/
theorem OnceIH.peek {p : Token} {ts' : List Token} (hts : ts = p :: ts') {n : Nat} (hn : n = 22 ∨ n = 34) :
    KeepsOnce P U N (call (.addErrorAndReSync p n) ⟨e, ts⟩) := by
  have hp : plainErr n = true := by rcases hn with rfl | rfl <;> decide
  refine ih P U N _ e ts ⟨ho, by rcases hn with rfl | rfl <;> decide, ?_, .inr ⟨hn, _, hts⟩⟩ hs ⟨hs.subset (by simp [hts]), hp⟩ hr.errs ?_ hr.suf ?_
  · intro r hm
    have := ho.ahead _ hm p (by simp [hts])
    exact .inl (by omega)
  · intro u hu
    rcases List.mem_append.1 hu with hu | hu
    · rw [show u = p by simpa [argOf] using hu]; exact hr.toks p (by simp [hts])
    · exact hr.toks u hu
  · have := hr.len
    subst hts
    simp only [costOf, List.length_cons] at *
    omega

set_option hygiene false in
local macro "fin" : tactic => `(tactic| (first
  | exact OnceIH.fresh ih ho hs hr hm hq hf (by decide) (by decide) (by omega)
  | exact OnceIH.one ih ho hs hr (by rfl) hm hq hf (fun h1 h2 => ⟨h1, h2⟩) (by simp [Pre, *]) (by simp [costOf, argOf]; try omega)
  | exact OnceIH.none ih ho hs hr (by rfl) ho.weak (by simp [Pre]) (by cases ‹List Token› <;> simp [costOf] <;> try omega)
  | exact OnceIH.none ih ho hs hr (by rfl) ⟨ho, fun _ h => nomatch h⟩ (by simp [Pre]) (by simp [costOf, argOf])
  | exact KeepsOnce.ret ho hr))

set_option hygiene false in
/-- Take the next token. -/
local macro "pop" : tactic => `(tactic| (
  have hm := hs.subset (List.mem_cons_self ..)
  have hj := hs
  have hf := ho.fresh
  have hq := hr.head
  replace ho := ho.tail
  replace hr := hr.tail
  replace hs := (List.suffix_cons _ _).trans hs
  try dsimp only))

theorem on_postAdep {t : Token} (hm : t ∈ T) (hq : ∀ x : Record F, x.start = t.start → P x) (hf : JustRead e ts t) (hk : 3 ≤ k) :
    KeepsOnce P U N (step call (.postAdep t) ⟨e, ts⟩) := by
  show KeepsOnce P U N (postAdep call t ⟨e, ts⟩)
  unfold postAdep
  cases hb : t.base
  all_goals fin

theorem on_postPoint {t : Token} (hm : t ∈ T) (hq : ∀ x : Record F, x.start = t.start → P x) (hf : JustRead e ts t) (hk : 3 ≤ k) :
    KeepsOnce P U N (step call (.postPoint t) ⟨e, ts⟩) := by
  rw [step_postPoint call t e ts ho.ne]
  cases hb : t.base
  case ROUTE =>
    dsimp only
    split
    · fin
    · fin
  all_goals fin

theorem on_breakEndError {t : Token} (hm : t ∈ T) (hq : ∀ x : Record F, x.start = t.start → P x) (hf : JustRead e ts t) (hk : 3 ≤ k) :
    KeepsOnce P U N (step call (.breakEndError t) ⟨e, ts⟩) := by
  show KeepsOnce P U N (breakEndError call t ⟨e, ts⟩)
  unfold breakEndError
  split
  · fin
  · split
    · fin
    · split
      · fin
      · fin

theorem on_truncate : KeepsOnce P U N (step call .truncate ⟨e, ts⟩) := by
  rw [step_truncate]
  cases ts with
  | nil => fin
  | cons nt ts => pop; fin

theorem on_postSid : KeepsOnce P U N (step call .postSid ⟨e, ts⟩) := by
  rw [step_postSid]
  cases ts with
  | nil => fin
  | cons nt ts =>
    pop
    cases hb : nt.base
    all_goals fin

theorem on_slash {t : Token} (hm : t ∈ T) (hq : ∀ x : Record F, x.start = t.start → P x) (hf : JustRead e ts t) (hk : 3 ≤ k) :
    KeepsOnce P U N (step call (.forwardSlash t) ⟨e, ts⟩) := by
  rw [step_slash]
  cases ts with
  | nil => fin
  | cons nt ts =>
    clear hm hf hq
    pop
    cases hb : nt.base
    all_goals fin

theorem on_stay {t : Token} (hm : t ∈ T) (hq : ∀ x : Record F, x.start = t.start → P x) (hf : JustRead e ts t) (hk : 3 ≤ k) :
    KeepsOnce P U N (step call (.stay t) ⟨e, ts⟩) := by
  rw [step_stay]
  cases ts with
  | nil => fin
  | cons nt ts =>
    clear hm hf hq
    pop
    split
    · fin
    · cases ts with
      | nil => fin
      | cons nt2 ts =>
        clear hm hf hq
        pop
        split
        · fin
        · rename_i h
          have hb := Decidable.not_not.1 h
          fin

theorem on_textTail : KeepsOnce P U N (textTail call e ts) := by
  unfold textTail
  cases ts with
  | nil => fin
  | cons nt ts => pop; fin

theorem on_endTail : KeepsOnce P U N (endTail call e ts) := by
  unfold endTail
  cases ts with
  | nil => fin
  | cons nt ts => pop; fin

include hT

set_option hygiene false in
/-- Perform an action on the token read. -/
local macro "act" a:term : tactic => `(tactic| (
  have hlen := (mild_nums (a := $a) trivial).2.2
  replace ho := ho.act $a trivial hf
  replace hr := hr.run $a hq (by omega)))

theorem on_point {t : Token} (hm : t ∈ T) (hq : ∀ x : Record F, x.start = t.start → P x) (hf : JustRead e ts t) (hk : 3 ≤ k) :
    KeepsOnce P U N (step call (.point t) ⟨e, ts⟩) := by
  rw [step_point call t (hT t hm) e ts ho.ne]
  act (.point t)
  cases ts with
  | nil => fin
  | cons nt ts => clear hm hf hq; pop; fin

theorem on_dct {t : Token} (hm : t ∈ T) (hq : ∀ x : Record F, x.start = t.start → P x) (hf : JustRead e ts t) (hk : 3 ≤ k) :
    KeepsOnce P U N (step call (.dct t) ⟨e, ts⟩) := by
  rw [step_dct call t e ts ho.ne]
  act (.plain t)
  cases ts with
  | nil => fin
  | cons nt ts =>
    clear hm hf hq
    pop
    cases hb : nt.base
    all_goals fin

theorem on_sid {t : Token} (hm : t ∈ T) (hq : ∀ x : Record F, x.start = t.start → P x) (hf : JustRead e ts t) (hk : 3 ≤ k) :
    KeepsOnce P U N (step call (.sid t) ⟨e, ts⟩) := by
  rw [step_sid call t e ts ho.ne]
  split
  · act (.sid t)
    fin
  · act (.plain t)
    have hf' : JustRead ((Act.plain t).run e) ts t := ⟨hf.toks, hf.errs⟩
    exact OnceIH.fresh ih ho hs hr hm hq hf' (by decide) (by decide) (by simp [Act.nums]; omega)

theorem on_sidStar {t : Token} (hm : t ∈ T) (hq : ∀ x : Record F, x.start = t.start → P x) (hf : JustRead e ts t) (hk : 3 ≤ k) :
    KeepsOnce P U N (step call (.sidStar t) ⟨e, ts⟩) := by
  rw [step_sidStar call t e ts ho.ne]
  split
  · act (.sid t)
    fin
  · cases ts with
    | nil => act (.star t); fin
    | cons pk ts =>
      act (.plain t)
      exact OnceIH.peek ih ho hs hr rfl (.inr rfl)

theorem on_star {t : Token} (hm : t ∈ T) (hq : ∀ x : Record F, x.start = t.start → P x) (hf : JustRead e ts t) (hk : 3 ≤ k) :
    KeepsOnce P U N (step call (.star t) ⟨e, ts⟩) := by
  rw [step_star call t e ts ho.ne]
  cases ts with
  | nil => act (.star t); fin
  | cons pk ts =>
    act (.plain t)
    exact OnceIH.peek ih ho hs hr rfl (.inr rfl)

theorem on_stayTime {t : Token} (hm : t ∈ T) (hq : ∀ x : Record F, x.start = t.start → P x) (hf : JustRead e ts t) (hk : 3 ≤ k)
    (hb : t.base = .STAY_TIME) : KeepsOnce P U N (step call (.stayTime t) ⟨e, ts⟩) := by
  rw [step_stayTime call t (stay_facts (hT t hm) hb) e ts ho.ne]
  act (.stay t)
  cases ts with
  | nil => fin
  | cons nt ts =>
    clear hm hf hq
    pop
    cases hb : nt.base
    all_goals fin

theorem on_breakStart {t : Token} (hm : t ∈ T) (hq : ∀ x : Record F, x.start = t.start → P x) (hf : JustRead e ts t) (hk : 3 ≤ k) :
    KeepsOnce P U N (step call (.breakStart t) ⟨e, ts⟩) := by
  rw [step_breakStart call t e ts ho.ne]
  act (.brk t)
  cases ts with
  | nil => fin
  | cons nt ts =>
    clear hm hf hq
    pop
    split <;> fin

theorem on_textBody {t : Token} (hm : t ∈ T) (hq : ∀ x : Record F, x.start = t.start → P x)
    (hf : (JustRead e ts t ∧ 3 ≤ k) ∨ t.base = .TOO_LONG) (hj : t.base = .TOO_LONG ∨ t :: ts <:+ T) : KeepsOnce P U N (textBody call t e ts ho.ne) := by
  have ho' := ho.run (.text t) ⟨by simp [Act.nums], by simp [Act.nums]⟩ (by simp [Act.nums]) (.inl rfl)
  have hr' := hr.run (.text t) hq (by simp [Act.nums])
  unfold textBody
  split
  · rename_i hb
    have hj' : t :: ts <:+ T := hj.resolve_left fun hl => by rw [long_no_end (hT t hm) hl] at hb; cases hb
    have hf : JustRead e ts t ∧ 3 ≤ k := by
      rcases hf with hf | hf
      · exact hf
      · rw [too_long_sub (hT t hm) hf] at hb; simp [endsBreak] at hb
    have hf' : JustRead ((Act.text t).run e) ts t := ⟨hf.1.toks, hf.1.errs⟩
    refine KeepsOnce.andThen (OnceIH.one (c := .breakEnd t) (P := P) (U := ts) (N := N) ih ho' hs hr'.here rfl hm hq hf' (fun h1 h2 => ⟨h1, h2⟩) hj'
      (by simp [costOf, argOf, Act.nums]; omega)) fun e1 ts1 h1 h2 h3 h4 h5 => ?_
    exact on_textTail ih h1 (h3.trans hs) (hr.after (j := 0) h2 h3 h4)
  · exact on_textTail ih ho' hs hr'

theorem on_text {t : Token} (hj : t :: ts <:+ T) (hm : t ∈ T) (hq : ∀ x : Record F, x.start = t.start → P x) (hf : JustRead e ts t) (hk : 3 ≤ k) :
    KeepsOnce P U N (step call (.breakTextSave t) ⟨e, ts⟩) := by
  by_cases hb : t.base = .TOO_LONG
  · rw [step_text_long call t e ts hb]
    refine KeepsOnce.andThen (OnceIH.fresh (P := P) (U := ts) (N := N) ih ho hs hr.here hm hq hf (by decide) (by decide) (by omega))
      fun e1 ts1 h1 h2 h3 h4 _ => ?_
    rw [dif_pos h1.ne]
    exact on_textBody ih hT h1 (h3.trans hs) (hr.after (j := 0) h2 h3 h4) hm hq (.inr hb) (.inl hb)
  · rw [step_text call t e ts ho.ne hb]
    exact on_textBody ih hT ho hs hr hm hq (.inl ⟨hf, hk⟩) (.inr hj)

theorem on_C {t : Token} (hm : t ∈ T) (hq : ∀ x : Record F, x.start = t.start → P x) (hf : JustRead e ts t) (hk : 3 ≤ k) :
    KeepsOnce P U N (step call (.cruiseClimbC t) ⟨e, ts⟩) := by
  rw [step_C call t e ts ho.ne]
  have ho' := ho.act (.plain t) trivial hf
  have hr' := hr.run (.plain t) hq (by simp [Act.nums])
  cases ts with
  | nil => exact KeepsOnce.ret ho' hr'
  | cons nt ts =>
    clear hm hf hq
    dsimp only
    cases hb' : nt.base
    case UNKNOWN | SPEED_VFR | SPEED_ALTITUDE | BREAK_END | SPEED_ALTITUDE_ALTITUDE | SPEED_ALTITUDE_PLUS | TOO_LONG |
        STAY_TIME =>
      pop
      fin
    case SLASH =>
      dsimp only
      cases ts with
      | nil =>
        replace ho := ho'
        replace hr := hr'
        pop
        fin
      | cons nt2 ts =>
        pop
        clear hm hf hq
        pop
        fin
    all_goals
      replace ho := ho'
      replace hr := hr'
      pop
      fin

theorem on_breakEnd {t : Token} (hw : t :: ts <:+ T) : KeepsOnce P U N (step call (.breakEnd t) ⟨e, ts⟩) := by
  rw [step_breakEnd]
  cases ts with
  | nil => fin
  | cons p ts' =>
    dsimp only
    split
    · fin
    rename_i hp
    split
    · cases ts' with
      | nil => exact OnceIH.peek ih ho hs hr rfl (.inl rfl)
      | cons sl ts'' =>
        dsimp only
        split
        · fin
        rename_i hsl
        cases ts'' with
        | nil => exact OnceIH.peek ih ho hs hr rfl (.inl rfl)
        | cons sp ts3 =>
          dsimp only
          split
          · rename_i hsp
            refine KeepsOnce.andThen (OnceIH.none (c := .vToI) ih ho hs hr.here rfl ⟨ho, fun _ h => nomatch h⟩
              ⟨p, sl, sp, ts3, rfl, Decidable.not_not.1 hp, Decidable.not_not.1 hsl, hsp⟩ (by simp [costOf, argOf]))
                fun e1 ts1 h1 h2 h3 h4 _ => ?_
            exact on_endTail ih h1 (h3.trans hs) (hr.after (j := 0) h2 h3 h4)
          · split
            · rename_i hsp
              refine KeepsOnce.andThen (OnceIH.none (c := .vToIToV) ih ho hs hr.here rfl ⟨ho, fun _ h => nomatch h⟩
                ⟨p, sl, sp, ts3, rfl, Decidable.not_not.1 hp, Decidable.not_not.1 hsl, hsp, t, by assumption, hw⟩ (by simp [costOf, argOf]))
                  fun e1 ts1 h1 h2 h3 h4 _ => ?_
              exact on_endTail ih h1 (h3.trans hs) (hr.after (j := 0) h2 h3 h4)
            · exact OnceIH.peek ih ho hs hr rfl (.inl rfl)
    · pop
      fin

theorem on_level {t : Token} (hm : t ∈ T) (hq : ∀ x : Record F, x.start = t.start → P x) (hf : JustRead e ts t) (hk : 3 ≤ k)
    (hb : t.base = .SPEED_ALTITUDE) : KeepsOnce P U N (step call (.assignSpeedAltitude t) ⟨e, ts⟩) := by
  rw [step_level call t (hT t hm) hb e ts ho.ne]
  act (.level t)
  cases ts with
  | nil => fin
  | cons nt ts =>
    clear hm hf hq
    pop
    split <;> fin

theorem on_levelsK (a : Act) (ha : a.mild) (hq : ∀ x : Record F, x.start = a.tok.start → P x) (hf : JustRead e ts a.tok) (hk : 3 ≤ k) :
    KeepsOnce P U N (levelsK call a e ts) := by
  have hlen := (mild_nums ha).2.2
  replace ho := ho.act a ha hf
  replace hr := hr.run a hq (by omega)
  unfold levelsK
  cases ts with
  | nil => fin
  | cons nt ts => clear hf hq; pop; fin

theorem on_levels {t : Token} (hm : t ∈ T) (hq : ∀ x : Record F, x.start = t.start → P x) (hf : JustRead e ts t) (hk : 3 ≤ k)
    (hb : t.base = .SPEED_ALTITUDE_ALTITUDE) : KeepsOnce P U N (step call (.assignSpeedAltitudeAltitude t) ⟨e, ts⟩) := by
  by_cases hbad : t.sub ∈ ccBad
  · rw [step_levels_bad call t (hT t hm) hbad e ts ho.ne]
    intro e1 ts1 h; cases h
  · rw [step_levels call t (hT t hm) hb hbad e ts ho.ne]
    exact on_levelsK ih hT ho hs hr (.levels t) hb hq hf hk

theorem on_plus {t : Token} (hm : t ∈ T) (hq : ∀ x : Record F, x.start = t.start → P x) (hf : JustRead e ts t) (hk : 3 ≤ k)
    (hb : t.base = .SPEED_ALTITUDE_PLUS) : KeepsOnce P U N (step call (.assignSpeedAltitudePlus t) ⟨e, ts⟩) := by
  rw [step_plus call t (hT t hm) hb e ts ho.ne]
  exact on_levelsK ih hT ho hs hr (.plus t) trivial hq hf hk

theorem on_vfr {t : Token} (hm : t ∈ T) (hq : ∀ x : Record F, x.start = t.start → P x) (hf : JustRead e ts t) (hk : 3 ≤ k)
    (hb : t.base = .SPEED_VFR) : KeepsOnce P U N (step call (.assignSpeedVfr t) ⟨e, ts⟩) := by
  rw [step_vfr call t (hT t hm) hb e ts ho.ne]
  act (.vfr t)
  cases ts with
  | nil => fin
  | cons nt ts => clear hm hf hq; pop; fin

theorem on_vToI {p sl sp : Token} (hts : ∃ rest, ts = p :: sl :: sp :: rest) (hsp : sp.base = .SPEED_ALTITUDE) :
    KeepsOnce P U N (step call .vToI ⟨e, ts⟩) := by
  obtain ⟨rest, rfl⟩ := hts
  have hp : p ∈ T := hs.subset (by simp)
  rw [step_vToI call p sl sp (hT p hp) e rest ho.ne]
  pop
  clear hm
  act (.vToI p)
  clear hf hq
  pop
  clear hm hf hq
  pop
  fin

theorem on_vToIToV {p sl sp : Token} (hts : ∃ rest, ts = p :: sl :: sp :: rest) (hsp : sp.base = .SPEED_VFR) :
    KeepsOnce P U N (step call .vToIToV ⟨e, ts⟩) := by
  obtain ⟨rest, rfl⟩ := hts
  rw [step_vToIToV call p sl sp e rest ho.ne]
  pop
  clear hm
  act (.vToIToV p)
  clear hf hq
  pop
  clear hm hf hq
  pop
  fin

include ihE

theorem on_route {t : Token} (hm : t ∈ T) (hq : ∀ x : Record F, x.start = t.start → P x) (hf : JustRead e ts t) (hk : 3 ≤ k) :
    KeepsOnce P U N (step call (.route t) ⟨e, ts⟩) := by
  rw [step_route call t e ts ho.ne]
  act (.route t)
  cases ts with
  | nil => fin
  | cons nt ts =>
    clear hm hf hq
    have hno : ∀ x ∈ ((Act.route t).run e).errs, x.start ≠ nt.start := fun x hx hs => by
      have := ho.ahead x hx nt (by simp)
      omega
    pop
    cases hb : nt.base
    case POINT =>
      dsimp only
      split
      · have hnm : Unsaid ((Act.route t).run e) nt 48 := fun r h => .inl (hno r h)
        have hr1 : Room P ts (N - 3) ((Act.route t).run e) ts 1 := ⟨hr.errs, hr.toks, List.suffix_refl _, by have := hr.len; omega⟩
        refine KeepsOnce.andThen (OnceIH.err ih ho hs hr1 hm hq hf.toks (by decide) (by decide) hnm (by omega)) fun e1 ts1 h1 h2 h3 h4 h5 => ?_
        have hx := ihE nt 48 _ ts e1 ts1 ⟨ho, by decide, hnm, .inl hf.toks⟩ hs ⟨hm, by decide⟩ h5
        have hf1 : JustRead e1 ts1 nt := by
          refine ⟨fun u hu => hf.toks u (h3.subset hu), fun r hr hst => ?_⟩
          rcases hx r hr with k | k | ⟨u, hu, k⟩
          · exact absurd hst (hno r k)
          · exact .inr (.inr k)
          · have := hf.toks u hu; omega
        have hr2 := hr.after (j := 3) h2 h3 (by have := hr.len; omega)
        exact OnceIH.one ih h1 (h3.trans hs) hr2 rfl hm hq hf1 (fun h1 h2 => ⟨h1, h2⟩) hm (by simp [costOf, argOf]; omega)
      · fin
    all_goals fin

theorem on_climbTail (t : Token) (hm : t ∈ T) (hq : ∀ x : Record F, x.start = t.start → P x) (hn : Unsaid e t 28) (hk : 1 ≤ k) :
    KeepsOnce P U N (climbTail call t e ts) := by
  unfold climbTail
  cases ts with
  | nil => exact OnceIH.err ih ho hs hr hm hq (fun _ h => nomatch h) (by decide) (by decide) hn hk
  | cons nt2 ts =>
    clear hm hq
    pop
    refine KeepsOnce.andThen (P' := P) (U' := ts) (N' := N) ?_ fun e1 ts1 h1 h2 h3 h4 _ => on_endTail ih h1 (h3.trans hs) (hr.after (j := 0) h2 h3 h4)
    replace hr := hr.here
    split
    · fin
    · split
      · fin
      · fin

theorem on_ccPoint {t : Token} (hm : t ∈ T) (hq : ∀ x : Record F, x.start = t.start → P x) (hf : JustRead e ts t) (hk : 4 ≤ k) :
    KeepsOnce P U N (step call (.cruiseClimbPoint t) ⟨e, ts⟩) := by
  rw [step_ccPoint call t (hT t hm) e ts ho.ne]
  have hno : ∀ n, n = 27 ∨ n = 28 → Unsaid ((Act.ccPoint t).run e) t n := by
    intro n hn r h
    have hok : numOk n = true := by rcases hn with rfl | rfl <;> decide
    rw [run_errs, List.mem_append, List.mem_reverse, List.mem_map] at h
    rcases h with ⟨m, hm, rfl⟩ | h
    · have hm' := (posNums_cases t).2.1 m hm
      refine .inr fun h => ?_
      have := errText_inj ((by decide : ∀ n ∈ [42, 43, 44, 45, 46], numOk n = true) m hm') hok h
      subst this
      revert hm'
      rcases hn with rfl | rfl <;> decide
    · exact hf.not_mem hok (by rcases hn with rfl | rfl <;> decide) r h
  act (.ccPoint t)
  have ht := hm
  have hqt := hq
  have hft := hf.toks
  clear hm hf hq
  have kk := fun (P : Record F → Prop) (U N k e1 ts1) (h1 : InOnce e1 ts1) (h2 : ts1 <:+ T) (h3 : Room P U N e1 ts1 k) =>
    on_climbTail (e := e1) (ts := ts1) ih ihE hT h1 h2 h3 t ht
  unfold climbTail at kk
  dsimp only
  cases ts with
  | nil => exact OnceIH.err ih ho hs hr ht hqt (fun _ h => nomatch h) (by decide) (by decide) (hno 27 (.inl rfl)) (by omega)
  | cons nt ts =>
    have hlt := hft nt (by simp)
    pop
    split
    · have hnm : Unsaid ((Act.ccPoint t).run e) nt 26 := hf.not_mem (by decide) (by decide)
      have hr1 : Room P ts (N - 1) ((Act.ccPoint t).run e) ts 1 := ⟨hr.errs, hr.toks, List.suffix_refl _, by have := hr.len; omega⟩
      refine KeepsOnce.andThen (OnceIH.err ih ho hs hr1 hm hq hf.toks (by decide) (by decide) hnm (by omega)) fun e1 ts1 h1 h2 h3 h4 h5 => ?_
      have hx := ihE nt 26 _ ts e1 ts1 ⟨ho, by decide, hnm, .inl hf.toks⟩ hs ⟨hm, by decide⟩ h5
      refine kk P U N 1 e1 ts1 h1 (h3.trans hs) (hr.after h2 h3 (by have := hr.len; omega)) hqt (fun r h => ?_) (by omega)
      rcases hx _ h with k | rfl | ⟨u, hu, k⟩
      · exact hno 28 (.inr rfl) r k
      · exact .inl (by rw [errRec_start]; omega)
      · have := hf.toks u hu
        exact .inl (by omega)
    · exact kk P U N _ _ _ ho hs hr hqt (hno 28 (.inr rfl)) (by omega)

end

section
variable {T : List Token} {call : Call → ML F Unit} (ih : OnceIH T call)
variable {P : Record F → Prop} {U : List Token} {N : Nat} {e : Ers F} {ts : List Token}
include ih

set_option hygiene false in
local macro "fin" : tactic => `(tactic| (first
  | exact OnceIH.fresh ih ho hs hr hm hq hf (by decide) (by decide) (by omega)
  | exact OnceIH.one ih ho hs hr (by rfl) hm hq hf (fun h1 h2 => ⟨h1, h2⟩) (by simp [Pre, *]) (by simp [costOf, argOf]; try omega)
  | exact OnceIH.none ih ho hs hr (by rfl) ⟨ho, fun _ h => nomatch h⟩ (by simp [Pre]) (by simp [costOf, argOf])))

theorem on_reSync (hw : WeakOnce e ts) (hs : ts <:+ T) (hP : ∀ x ∈ e.errs, P x) (hts : ∀ u ∈ ts, ∀ x : Record F, x.start = u.start → P x)
    (hU : ts <:+ U) (hN : e.errs.length + costOf .reSync ts ≤ N) : KeepsOnce P U N (step call .reSync ⟨e, ts⟩) := by
  rw [step_reSync]
  cases ts with
  | nil => exact KeepsOnce.ret (k := 0) ⟨hw.toCore, fun _ _ _ h => nomatch h⟩ ⟨hP, hts, hU, hN⟩
  | cons t ts =>
    have hm := hs.subset (List.mem_cons_self ..)
    have hj := hs
    have hf := hw.fresh
    have ho := hw.tail
    have hq := hts t (by simp)
    have hr : Room P U N e ts 3 := ⟨hP, fun u hu => hts u (by simp [hu]), (List.suffix_cons _ _).trans hU, by simp only [costOf] at hN; omega⟩
    replace hs := (List.suffix_cons _ _).trans hs
    clear hw hts hU hN
    dsimp only
    cases hb : t.base
    case SLASH =>
      dsimp only
      cases ts with
      | nil => fin
      | cons nt ts =>
        clear hm hf hq
        have hm := hs.subset (List.mem_cons_self ..)
        have hj := hs
        have hf := ho.fresh
        have hq := hr.head
        replace ho := ho.tail
        replace hr := hr.tail
        replace hs := (List.suffix_cons _ _).trans hs
        dsimp only
        cases hb : nt.base
        all_goals fin
    all_goals fin

theorem on_err {t : Token} {n : Nat} (hpo : PreOnce e ts (.addErrorAndReSync t n)) (hs : ts <:+ T) (hp : plainErr n = true) (hP : ∀ x ∈ e.errs, P x)
    (hq : P (errRec t n)) (hts : ∀ u ∈ ts, ∀ x : Record F, x.start = u.start → P x) (hU : ts <:+ U)
    (hN : e.errs.length + costOf (.addErrorAndReSync t n) ts ≤ N) : KeepsOnce P U N (step call (.addErrorAndReSync t n) ⟨e, ts⟩) := by
  obtain ⟨ho, h56, hnm, hor⟩ := hpo
  rw [step_err call t n (plainErr.isSome hp) e ts ho.ne]
  have herr : ((Act.err t n).run e).errs = errRec t n :: e.errs := by rw [run_errs]; rfl
  have hok : numOk n = true := by simp [numOk, plainErr.isSome hp, h56]
  have hc := core_run ho.toCore (.err t n) ⟨by simp [Act.nums], by simp [Act.nums, hok]⟩ (by simpa [Act.nums, Act.tok] using hnm)
  have hw : WeakOnce ((Act.err t n).run e) ts := by
    refine ⟨hc, fun a ha u hu => ?_⟩
    rw [herr, List.mem_cons] at ha
    rcases ha with rfl | ha
    · rcases hor with hl | ⟨hn, r, rfl⟩
      · exact .inl (hl u hu)
      · rcases List.mem_cons.1 hu with rfl | hu
        · exact .inr ⟨⟨_, rfl⟩, hn.imp (fun h => by rw [h]) (fun h => by rw [h])⟩
        · exact .inl (ho.fresh.toks u hu)
    · exact .inl (ho.ahead a ha u hu)
  refine ih P U N .reSync _ ts hw hs trivial ?_ hts hU ?_
  · rw [herr]
    intro x hx
    rcases List.mem_cons.1 hx with rfl | hx
    · exact hq
    · exact hP x hx
  · rw [herr]
    cases ts <;> simp only [costOf, List.length_cons] at * <;> omega

end

/-- Every method keeps the errors different, and few. -/
theorem once_exec {T : List Token} (hT : ∀ t ∈ T, Typed t) (n : Nat) : OnceIH (F := F) T (exec n) ∧ OnceErr (F := F) T (exec n) := by
  induction n with
  | zero =>
    constructor
    · intro P U N c e ts _ _ _ _ _ _ _ e1 ts1 h; exact absurd h (by simp [exec])
    · intro t n e ts e1 ts1 _ _ _ h; exact absurd h (by simp [exec])
  | succ n hn =>
    obtain ⟨ih, ihE⟩ := hn
    constructor
    · intro P U N c e ts hpo hs hp hP hts hU hN
      show KeepsOnce P U N (step (exec n) c ⟨e, ts⟩)
      have ht : ∀ u ∈ ts, ∀ x : Record F, x.start = u.start → P x := fun u hu => hts u (List.mem_append_right _ hu)
      have hq : ∀ u ∈ argOf c, ∀ x : Record F, x.start = u.start → P x := fun u hu => hts u (List.mem_append_left _ hu)
      have rm : ∀ k, costOf c ts = k + 4 * ts.length → Room P U N e ts k := fun k hk => ⟨hP, ht, hU, by omega⟩
      cases c with
      | addErrorAndReSync t m => exact on_err ih hpo hs hp.2 hP (hq t (by simp [argOf]) _ rfl) ht hU hN
      | reSync => exact on_reSync ih hpo hs hP ht hU hN
      | assignSpeedAltitude t => exact on_level ih hT hpo.1 hs (rm 3 rfl) hp.1 (hq t (by simp [argOf])) (hpo.2 t (by simp [argOf])) (by decide) hp.2
      | assignSpeedAltitudeAltitude t => exact on_levels ih hT hpo.1 hs (rm 3 rfl) hp.1 (hq t (by simp [argOf])) (hpo.2 t (by simp [argOf])) (by decide) hp.2
      | assignSpeedAltitudePlus t => exact on_plus ih hT hpo.1 hs (rm 3 rfl) hp.1 (hq t (by simp [argOf])) (hpo.2 t (by simp [argOf])) (by decide) hp.2
      | assignSpeedVfr t => exact on_vfr ih hT hpo.1 hs (rm 3 rfl) hp.1 (hq t (by simp [argOf])) (hpo.2 t (by simp [argOf])) (by decide) hp.2
      | stayTime t => exact on_stayTime ih hT hpo.1 hs (rm 3 rfl) hp.1 (hq t (by simp [argOf])) (hpo.2 t (by simp [argOf])) (by decide) hp.2
      | breakEnd t => exact on_breakEnd ih hT hpo.1 hs (rm 3 rfl) hp
      | breakEndError t => exact on_breakEndError ih hpo.1 hs (rm 3 rfl) hp (hq t (by simp [argOf])) (hpo.2 t (by simp [argOf])) (by decide)
      | forwardSlash t => exact on_slash ih hpo.1 hs (rm 3 rfl) hp (hq t (by simp [argOf])) (hpo.2 t (by simp [argOf])) (by decide)
      | postAdep t => exact on_postAdep ih hpo.1 hs (rm 3 rfl) hp (hq t (by simp [argOf])) (hpo.2 t (by simp [argOf])) (by decide)
      | postPoint t => exact on_postPoint ih hpo.1 hs (rm 3 rfl) hp (hq t (by simp [argOf])) (hpo.2 t (by simp [argOf])) (by decide)
      | stay t => exact on_stay ih hpo.1 hs (rm 3 rfl) hp (hq t (by simp [argOf])) (hpo.2 t (by simp [argOf])) (by decide)
      | point t => exact on_point ih hT hpo.1 hs (rm 3 rfl) hp (hq t (by simp [argOf])) (hpo.2 t (by simp [argOf])) (by decide)
      | breakTextSave t => exact on_text ih hT hpo.1 hs (rm 3 rfl) hp (hp.subset (by simp)) (hq t (by simp [argOf])) (hpo.2 t (by simp [argOf])) (by decide)
      | breakStart t => exact on_breakStart ih hT hpo.1 hs (rm 3 rfl) hp.1 (hq t (by simp [argOf])) (hpo.2 t (by simp [argOf])) (by decide)
      | cruiseClimbC t => exact on_C ih hT hpo.1 hs (rm 3 rfl) hp.1 (hq t (by simp [argOf])) (hpo.2 t (by simp [argOf])) (by decide)
      | dct t => exact on_dct ih hT hpo.1 hs (rm 3 rfl) hp.1 (hq t (by simp [argOf])) (hpo.2 t (by simp [argOf])) (by decide)
      | sid t => exact on_sid ih hT hpo.1 hs (rm 3 rfl) hp.1 (hq t (by simp [argOf])) (hpo.2 t (by simp [argOf])) (by decide)
      | sidStar t => exact on_sidStar ih hT hpo.1 hs (rm 3 rfl) hp.1 (hq t (by simp [argOf])) (hpo.2 t (by simp [argOf])) (by decide)
      | star t => exact on_star ih hT hpo.1 hs (rm 3 rfl) hp.1 (hq t (by simp [argOf])) (hpo.2 t (by simp [argOf])) (by decide)
      | route t => exact on_route ih ihE hT hpo.1 hs (rm 3 rfl) hp.1 (hq t (by simp [argOf])) (hpo.2 t (by simp [argOf])) (by decide)
      | cruiseClimbPoint t => exact on_ccPoint ih ihE hT hpo.1 hs (rm 4 rfl) hp (hq t (by simp [argOf])) (hpo.2 t (by simp [argOf])) (by decide)
      | postSid => exact on_postSid ih hpo.1 hs (rm 0 rfl)
      | truncate => exact on_truncate ih hpo.1 hs (rm 0 rfl)
      | vToI =>
        obtain ⟨p, sl, sp, rest, h1, h2, h3, h4⟩ := hp
        exact on_vToI ih hT hpo.1 hs (rm 0 rfl) ⟨rest, h1⟩ h4
      | vToIToV =>
        obtain ⟨p, sl, sp, rest, h1, h2, h3, h4⟩ := hp
        exact on_vToIToV ih hT hpo.1 hs (rm 0 rfl) ⟨rest, h1⟩ h4.1
    · intro t m e ts e1 ts1 hpo hs hp h x hx
      have g := on_err (P := fun x => x ∈ e.errs ∨ x = errRec t m ∨ ∃ u ∈ ts, x.start = u.start) (U := ts) ih hpo hs hp.2 (fun x hx => .inl hx)
        (.inr (.inl rfl)) (fun u hu x hx => .inr (.inr ⟨u, hu, hx⟩)) (List.suffix_refl _) (Nat.le_refl _)
      exact (g e1 ts1 h).2.1 x hx

end F15
