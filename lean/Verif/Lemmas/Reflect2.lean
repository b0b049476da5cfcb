import Verif.Lemmas.Reflect
/-!
# No token is lost: the induction
-/

namespace F15
open Spec

set_option linter.unusedSectionVars false
variable {F : Type} [PyFloat F] {T : List Token}

/-- The token of a call whose fate the call decides. -/
def own : Call → List Token
  | .addErrorAndReSync t _ | .assignSpeedAltitude t | .assignSpeedAltitudeAltitude t | .assignSpeedAltitudePlus t
  | .assignSpeedVfr t | .breakEnd t | .breakEndError t | .breakTextSave t | .cruiseClimbPoint t | .forwardSlash t
  | .postAdep t | .postPoint t | .point t | .stay t | .breakStart t | .cruiseClimbC t | .dct t | .route t | .sid t
  | .sidStar t | .star t | .stayTime t => [t]
  | .postSid | .reSync | .truncate | .vToI | .vToIToV => []

def isBreakEnd : Call → Bool
  | .breakEnd _ => true
  | _ => false

/-- The remaining tokens follow a word that ends a break. -/
def PrevEnd (T r : List Token) : Prop := ∃ b, b.base = .BREAK_END ∧ (b :: r) <:+ T

/-- Everything that was read is accounted for. -/
def Lf (T : List Token) (q : Bool) (w ts : List Token) (s : St (List Token) F) : Prop :=
  ∃ read, ts = read ++ s.toks ∧ (∀ x ∈ w ++ read, Acc x s.ers) ∧
    (s.toks = [] ∨ PrevEnd T s.toks ∧ (q = true ∨ s.ers.errs ≠ []))

/-- Preconditions. -/
def LPre (T : List Token) (e : Ers F) (ts : List Token) : Call → Prop
  | .breakTextSave t => t.base ≠ .TOO_LONG → (t :: ts) <:+ T
  | .breakEnd t => t.base = .BREAK_END ∧ (t :: ts) <:+ T
  | .breakEndError t => t.base = .BREAK_END
  | .forwardSlash t => t.base = .SLASH
  | .stay t => t.base = .STAY
  | .reSync => e.errs ≠ []
  | _ => True

/-- The induction hypothesis. -/
def LIH (T : List Token) (call : Call → ML F Unit) : Prop :=
  ∀ c e ts s, Inv T e ts → Pre T ts c → LPre T e ts c → call c ⟨e, ts⟩ = .ok ((), s) → Lf T (isBreakEnd c) (own c) ts s

/-- Tokens stay accounted for. -/
def Keep' (T : List Token) (call : Call → ML F Unit) : Prop :=
  ∀ c e ts s, Inv T e ts → Pre T ts c → call c ⟨e, ts⟩ = .ok ((), s) → ∀ x ∈ T, Acc x e → Acc x s.ers

theorem keep_of (hN : ∀ t ∈ T, t.text ≠ []) {call : Call → ML F Unit} (ih : IH T call) : Keep' T call := by
  intro c e ts s hi hp h x hx ha
  have g := ih c e ts [] hi (.inl rfl) hp
  rw [h] at g
  have g : Star T _ _ := g
  exact g.acc (hN x hx) hi ha

theorem Lf.shift {q : Bool} {w mid ts : List Token} {s : St (List Token) F} (h : Lf T q (w ++ mid) ts s) : Lf T q w (mid ++ ts) s := by
  obtain ⟨read, rfl, h2, h3⟩ := h
  exact ⟨mid ++ read, by simp, by simpa using h2, h3⟩

theorem Lf.weak {q : Bool} {w ts : List Token} {s : St (List Token) F} (h : Lf T false w ts s) : Lf T q w ts s := by
  obtain ⟨read, h1, h2, h3⟩ := h
  exact ⟨read, h1, h2, h3.imp id fun h => ⟨h.1, h.2.elim (by simp) .inr⟩⟩

theorem Lf.ret {q : Bool} {w : List Token} {e : Ers F} {s : St (List Token) F} (h : done e [] = .ok ((), s)) (hw : ∀ x ∈ w, Acc x e) :
    Lf T q w [] s := by
  obtain rfl := done_inj h
  exact ⟨[], rfl, by simpa using hw, .inl rfl⟩

theorem Lf.drop {q : Bool} {w ts : List Token} {s : St (List Token) F} (h : Lf T q w ts s) : Lf T q [] ts s := by
  obtain ⟨read, h1, h2, h3⟩ := h
  exact ⟨read, h1, fun x hx => h2 x (List.mem_append_right _ (by simpa using hx)), h3⟩

/-- One execution after the other. -/
theorem Lf.seq {q q' : Bool} {w ts : List Token} {s1 s : St (List Token) F} (h1 : Lf T q w ts s1)
    (hk : ∀ x ∈ T, Acc x s1.ers → Acc x s.ers) (hw : ∀ x ∈ w, x ∈ T) (hs : ts <:+ T) (h2 : Lf T q' [] s1.toks s) :
    Lf T q' w ts s := by
  obtain ⟨r1, hr1, ha1, _⟩ := h1
  obtain ⟨r2, hr2, ha2, h3⟩ := h2
  refine ⟨r1 ++ r2, by rw [hr1, hr2]; simp, ?_, h3⟩
  intro x hx
  rw [← List.append_assoc] at hx
  rcases List.mem_append.1 hx with hx | hx
  · refine hk x ?_ (ha1 x hx)
    rcases List.mem_append.1 hx with hx | hx
    · exact hw x hx
    · exact hs.subset (by rw [hr1]; simp [hx])
  · exact ha2 x (by simpa using hx)

section
variable {call : Call → ML F Unit} (li : LIH T call) (ka : Keep' T call)
variable {e : Ers F} {ts : List Token} {s : St (List Token) F}
include li ka

theorem leaf {c : Call} {w : List Token} (hi : Inv T e ts) (h : call c ⟨e, ts⟩ = .ok ((), s)) (hp : Pre T ts c) (hl : LPre T e ts c)
    (hw : ∀ x ∈ w, x ∈ T ∧ (x ∈ own c ∨ Acc x e)) : Lf T (isBreakEnd c) w ts s := by
  obtain ⟨read, h1, h2, h3⟩ := li c e ts s hi hp hl h
  refine ⟨read, h1, ?_, h3⟩
  intro x hx
  rcases List.mem_append.1 hx with hx | hx
  · rcases (hw x hx).2 with h4 | h4
    · exact h2 x (List.mem_append_left _ h4)
    · exact ka c e ts s hi hp h x (hw x hx).1 h4
  · exact h2 x (List.mem_append_right _ hx)

/-- Two tokens, then a call. -/
theorem leaf2 {c : Call} {t nt : Token} (hi : Inv T e (nt :: ts)) {e' : Ers F} (hi' : Inv T e' ts)
    (h : call c ⟨e', ts⟩ = .ok ((), s)) (hp : Pre T ts c) (hl : LPre T e' ts c) (hq : isBreakEnd c = false) (ht : t ∈ T)
    (h1 : t ∈ own c ∨ Acc t e') (h2 : nt ∈ own c ∨ Acc nt e') : Lf T false [t] (nt :: ts) s := by
  refine Lf.shift (w := [t]) (mid := [nt]) (hq ▸ leaf li ka hi' h hp hl ?_)
  intro x hx
  simp only [List.singleton_append, List.mem_cons, List.not_mem_nil, or_false] at hx
  rcases hx with rfl | rfl
  · exact ⟨ht, h1⟩
  · exact ⟨hi.mem, h2⟩

/-- One token, then a call. -/
theorem leaf1 {c : Call} {nt : Token} (hi : Inv T e (nt :: ts)) {e' : Ers F} (hi' : Inv T e' ts)
    (h : call c ⟨e', ts⟩ = .ok ((), s)) (hp : Pre T ts c) (hl : LPre T e' ts c) (hq : isBreakEnd c = false)
    (h2 : nt ∈ own c ∨ Acc nt e') : Lf T false [] (nt :: ts) s := by
  refine Lf.shift (w := []) (mid := [nt]) (hq ▸ leaf li ka hi' h hp hl ?_)
  intro x hx
  simp only [List.nil_append, List.mem_cons, List.not_mem_nil, or_false] at hx
  subst hx
  exact ⟨hi.mem, h2⟩

/-- The token of the method itself. -/
theorem leaf0 {c : Call} {t : Token} {e' : Ers F} (hi' : Inv T e' ts)
    (h : call c ⟨e', ts⟩ = .ok ((), s)) (hp : Pre T ts c) (hl : LPre T e' ts c) (hq : isBreakEnd c = false) (ht : t ∈ T)
    (h1 : t ∈ own c ∨ Acc t e') : Lf T false [t] ts s := by
  refine hq ▸ leaf li ka hi' h hp hl ?_
  intro x hx
  simp only [List.mem_cons, List.not_mem_nil, or_false] at hx
  subst hx
  exact ⟨ht, h1⟩

end

set_option hygiene false in
/-- why a token is accounted for -/
macro "why" : tactic => `(tactic| first
  | exact .inr acc
  | exact .inl (List.mem_singleton.2 rfl)
  | (refine .inr (.inl ?_); simp [auxiliary, *]; done))
set_option hygiene false in
macro "pre" : tactic => `(tactic| first
  | trivial
  | exact ⟨Inv.mem hi, by decide⟩
  | exact ⟨ht, by decide⟩
  | exact Inv.mem hi
  | exact Inv.suf hi
  | exact ⟨Inv.mem hi, hb⟩
  | exact ht
  | exact ⟨ht, hb⟩)
set_option hygiene false in
macro "lpre" : tactic => `(tactic| first
  | trivial
  | exact hb
  | exact fun _ => hi.suf
  | exact ⟨hb, hi.suf⟩)
set_option hygiene false in
macro "l2" : tactic => `(tactic| exact leaf2 li ka hi (Inv.run _ (Inv.tail hi)) h (by pre) (by lpre) rfl ht (by why) (by why))
set_option hygiene false in
macro "l2n" : tactic => `(tactic| exact leaf2 li ka hi (Inv.tail hi) h (by pre) (by lpre) rfl ht (by why) (by why))
set_option hygiene false in
macro "l1" : tactic => `(tactic| exact leaf1 li ka hi (Inv.tail hi) h (by pre) (by lpre) rfl (by why))
set_option hygiene false in
macro "l0" : tactic => `(tactic| exact leaf0 li ka hi h (by pre) (by lpre) rfl ht (by why))

theorem sub_breakEnd {t : Token} (ht : Typed t) (hs : t.sub = .IFR ∨ t.sub = .GAT ∨ t.sub = .IFPSTART) : t.base = .BREAK_END := by
  rcases typed_pair ht with ⟨_, h⟩ | ⟨_, h⟩ | ⟨r, hr, h1, h2⟩
  · rw [h] at hs; simp at hs
  · rw [h] at hs; simp at hs
  · have : (table.all fun r => !(r.sub = .IFR || r.sub = .GAT || r.sub = .IFPSTART) || decide (r.base = .BREAK_END)) = true := by
      decide +kernel
    have := List.all_eq_true.1 this r hr
    rw [h1]
    rw [h2] at hs
    rcases hs with hs | hs | hs <;> simpa [hs] using this

theorem too_long_sub {t : Token} (ht : Typed t) (hb : t.base = .TOO_LONG) : t.sub = .UNKNOWN := by
  rcases typed_pair ht with ⟨_, h⟩ | ⟨_, h⟩ | ⟨r, hr, h1, h2⟩
  · exact h
  · exact h
  · have : (table.all fun r => decide (r.base ≠ .TOO_LONG)) = true := by decide +kernel
    have := List.all_eq_true.1 this r hr
    rw [← h1, hb] at this
    simp at this

section
variable {call : Call → ML F Unit} (li : LIH T call) (ka : Keep' T call) (hT : ∀ t ∈ T, Typed t) (mo : Mono T call)
  (ke : Keeps T call) (hN : ∀ t ∈ T, t.text ≠ [])
variable {e : Ers F} {ts : List Token} {s : St (List Token) F} {t : Token} (hi : Inv T e ts)
include li ka hT mo ke hN hi

theorem l_point (ht : t ∈ T) (h : step call (.point t) ⟨e, ts⟩ = .ok ((), s)) : Lf T false [t] ts s := by
  have acc : Acc t ((Act.point t).run e) := Acc.rcd (T := T) (a := .point t) (ts := ts) hi.ne rfl trivial
  rw [step_point call t (hT t ht) e ts hi.ne] at h
  cases ts with
  | nil => exact Lf.ret h (by simpa using acc)
  | cons nt ts => dsimp only at h; l2

theorem l_route (ht : t ∈ T) (hr : t.base = .ROUTE) (h : step call (.route t) ⟨e, ts⟩ = .ok ((), s)) : Lf T false [t] ts s := by
  have acc : Acc t ((Act.route t).run e) := Acc.rcd (T := T) (a := .route t) (ts := ts) hi.ne rfl hr
  rw [step_route call t e ts hi.ne] at h
  cases ts with
  | nil => exact Lf.ret h (by simpa using acc)
  | cons nt ts =>
    dsimp only at h
    cases hb : nt.base <;> rw [hb] at h <;> dsimp only at h
    case POINT =>
      split at h
      · obtain ⟨s1, h1, h2⟩ := andThen_ok h
        have i1 := (mo (.addErrorAndReSync nt 48) _ _ _ (hi.tail.run _) ⟨hi.mem, by decide⟩ h1).2
        have l := leaf2 li ka hi (Inv.run (.route t) hi.tail) h1 ⟨hi.mem, by decide⟩ trivial rfl ht (by why) (by why)
        exact Lf.seq l (ka (.point nt) _ _ _ i1 hi.mem h2) (by simpa using ht) hi.suf
          (leaf0 li ka i1 h2 hi.mem trivial rfl hi.mem (.inl (by simp [own]))).drop
      · l2
    all_goals l2

theorem l_dct (ht : t ∈ T) (hr : t.base = .DCT) (h : step call (.dct t) ⟨e, ts⟩ = .ok ((), s)) : Lf T false [t] ts s := by
  have acc : Acc t ((Act.plain t).run e) := Acc.rcd (T := T) (a := .plain t) (ts := ts) hi.ne rfl (.inl hr)
  rw [step_dct call t e ts hi.ne] at h
  cases ts with
  | nil => exact Lf.ret h (by simpa using acc)
  | cons nt ts =>
    dsimp only at h
    cases hb : nt.base <;> rw [hb] at h <;> dsimp only at h
    all_goals l2

theorem l_sid (ht : t ∈ T) (hr : t.base = .SID) (h : step call (.sid t) ⟨e, ts⟩ = .ok ((), s)) : Lf T false [t] ts s := by
  rw [step_sid call t e ts hi.ne] at h
  split at h
  · rename_i h1
    have acc : Acc t ((Act.sid t).run e) := Acc.rcd (T := T) (a := .sid t) (ts := ts) hi.ne rfl ⟨.inl hr, h1⟩
    exact leaf0 li ka (hi.run _) h (by pre) (by lpre) rfl ht (by why)
  · exact leaf0 li ka (hi.run _) h (by pre) (by lpre) rfl ht (.inl (by simp [own]))

theorem l_sidStar (ht : t ∈ T) (hr : t.base = .SID_STAR) (h : step call (.sidStar t) ⟨e, ts⟩ = .ok ((), s)) :
    Lf T false [t] ts s := by
  rw [step_sidStar call t e ts hi.ne] at h
  split at h
  · rename_i h1
    have acc : Acc t ((Act.sid t).run e) := Acc.rcd (T := T) (a := .sid t) (ts := ts) hi.ne rfl ⟨.inr hr, h1⟩
    exact leaf0 li ka (hi.run _) h (by pre) (by lpre) rfl ht (by why)
  · cases ts with
    | nil =>
      have acc : Acc t ((Act.star t).run e) := Acc.rcd (T := T) (a := .star t) (ts := []) hi.ne rfl ⟨.inr hr, rfl⟩
      exact Lf.ret h (by simpa using acc)
    | cons nt ts =>
      have acc : Acc t ((Act.plain t).run e) := Acc.rcd (T := T) (a := .plain t) (ts := ts) hi.ne rfl (by simp [Act.Ok, hr])
      exact leaf0 li ka (hi.run _) h (by pre) (by lpre) rfl ht (by why)

theorem l_star (ht : t ∈ T) (hr : t.base = .STAR) (h : step call (.star t) ⟨e, ts⟩ = .ok ((), s)) :
    Lf T false [t] ts s := by
  rw [step_star call t e ts hi.ne] at h
  cases ts with
  | nil =>
    have acc : Acc t ((Act.star t).run e) := Acc.rcd (T := T) (a := .star t) (ts := []) hi.ne rfl ⟨.inl hr, rfl⟩
    exact Lf.ret h (by simpa using acc)
  | cons nt ts =>
    have acc : Acc t ((Act.plain t).run e) := Acc.rcd (T := T) (a := .plain t) (ts := ts) hi.ne rfl (by simp [Act.Ok, hr])
    exact leaf0 li ka (hi.run _) h (by pre) (by lpre) rfl ht (by why)

theorem l_stay (ht : t ∈ T) (hs : t.base = .STAY) (h : step call (.stay t) ⟨e, ts⟩ = .ok ((), s)) : Lf T false [t] ts s := by
  have acc : Acc t e := .inl (by simp [auxiliary, hs])
  rw [step_stay call t e ts] at h
  cases ts with
  | nil => l0
  | cons nt ts =>
    dsimp only at h
    split at h
    · l2n
    · rename_i hb
      have hb : nt.base = .SLASH := Decidable.byContradiction hb
      cases ts with
      | nil => l2n
      | cons nt2 ts =>
        dsimp only at h
        refine Lf.shift (w := [t]) (mid := [nt]) (Lf.shift (w := [t, nt]) (mid := [nt2]) ?_)
        have w : ∀ c, nt2 ∈ own c → ∀ x ∈ [t, nt] ++ [nt2], x ∈ T ∧ (x ∈ own c ∨ Acc x e) := by
          intro c hc x hx
          simp only [List.cons_append, List.nil_append, List.mem_cons, List.not_mem_nil, or_false] at hx
          rcases hx with rfl | rfl | rfl
          · exact ⟨ht, .inr acc⟩
          · exact ⟨hi.mem, .inr (.inl (by simp [auxiliary, hb]))⟩
          · exact ⟨hi.tail.mem, .inl hc⟩
        split at h
        · exact leaf (c := .addErrorAndReSync nt2 38) li ka hi.tail.tail h ⟨hi.tail.mem, by decide⟩ trivial (w _ (by simp [own]))
        · rename_i hb2
          exact leaf (c := .stayTime nt2) li ka hi.tail.tail h ⟨hi.tail.mem, Decidable.byContradiction hb2⟩ trivial (w _ (by simp [own]))

theorem l_stayTime (ht : t ∈ T) (hs : t.base = .STAY_TIME) (h : step call (.stayTime t) ⟨e, ts⟩ = .ok ((), s)) :
    Lf T false [t] ts s := by
  have acc : Acc t ((Act.stay t).run e) := .inl (by simp [auxiliary, hs])
  rw [step_stayTime call t (stay_facts (hT t ht) hs) e ts hi.ne] at h
  cases ts with
  | nil => exact Lf.ret h (by simpa using acc)
  | cons nt ts =>
    dsimp only at h
    cases hb : nt.base <;> rw [hb] at h <;> dsimp only at h
    all_goals l2

theorem l_breakStart (ht : t ∈ T) (hs : t.base = .BREAK_START) (h : step call (.breakStart t) ⟨e, ts⟩ = .ok ((), s)) :
    Lf T false [t] ts s := by
  have acc : Acc t ((Act.brk t).run e) := Acc.rcd (T := T) (a := .brk t) (ts := ts) hi.ne rfl hs
  rw [step_breakStart call t e ts hi.ne] at h
  cases ts with
  | nil => exact Lf.ret h (by simpa using acc)
  | cons nt ts =>
    dsimp only at h
    split at h
    · l2
    · l2

theorem l_textTail (ht : t ∈ T) (h : textTail call e ts = .ok ((), s)) (acc : Acc t e) : Lf T false [t] ts s := by
  cases ts with
  | nil => exact Lf.ret h (by simpa using acc)
  | cons nt ts => exact leaf2 (c := .breakTextSave nt) li ka hi hi.tail h (by pre) (by lpre) rfl ht (by why) (by why)

theorem textTail_keep (h : textTail call e ts = .ok ((), s)) : ∀ x ∈ T, Acc x e → Acc x s.ers := by
  intro x hx ha
  cases ts with
  | nil => obtain rfl := done_inj h; exact ha
  | cons nt ts => exact ka (.breakTextSave nt) _ _ _ hi.tail hi.suf h x hx ha

theorem l_text (ht : t ∈ T) (hp : t.base ≠ .TOO_LONG → (t :: ts) <:+ T) (h : step call (.breakTextSave t) ⟨e, ts⟩ = .ok ((), s)) :
    Lf T false [t] ts s := by
  by_cases hb : t.base = .TOO_LONG
  · rw [step_text_long call t e ts hb] at h
    obtain ⟨s1, h1, h3⟩ := andThen_ok h
    have i1 := (mo (.addErrorAndReSync t 4) _ _ _ hi ⟨ht, by decide⟩ h1).2
    rw [dif_pos i1.ne] at h3
    unfold textBody at h3
    have hsub : t.sub = .UNKNOWN := too_long_sub (hT t ht) hb
    rw [if_neg (by rw [headRules_eq i1.ne, endsBreak_iff]; simp [closes, hsub])] at h3
    refine Lf.seq (leaf0 (c := .addErrorAndReSync t 4) li ka hi h1 ⟨ht, by decide⟩ trivial rfl ht (.inl (by simp [own]))) ?_
      (by simpa using ht) hi.suf (l_textTail li ka hT mo ke hN (i1.run _) ht h3 (Acc.text i1.ne)).drop
    exact fun x hx ha => textTail_keep li ka hT mo ke hN (i1.run _) h3 x hx (ha.run (hN x hx) i1.ne (.text t))
  · rw [step_text call t e ts hi.ne hb] at h
    unfold textBody at h
    rw [headRules_eq hi.ne] at h
    have acc : Acc t ((Act.text t).run e) := Acc.text hi.ne
    split at h
    · rename_i hc
      rw [endsBreak_iff] at hc
      have hbe : t.base = .BREAK_END := sub_breakEnd (hT t ht) (by
        rcases hc with ⟨h, _⟩ | ⟨h, _⟩ | ⟨h, _⟩ <;> simp [h])
      obtain ⟨s1, h1, h3⟩ := andThen_ok h
      have i1 := (mo (.breakEnd t) _ _ _ (hi.run (.text t)) (hp hb) h1).2
      have l := leaf (c := .breakEnd t) li ka (hi.run (.text t)) h1 (hp hb) ⟨hbe, hp hb⟩ (w := [t]) (by simp [ht, acc])
      exact Lf.seq l (textTail_keep li ka hT mo ke hN i1 h3) (by simpa using ht) hi.suf
        (l_textTail li ka hT mo ke hN i1 ht h3 (.inl (by simp [auxiliary, hbe]))).drop
    · exact l_textTail li ka hT mo ke hN (hi.run _) ht h acc

end
end F15
