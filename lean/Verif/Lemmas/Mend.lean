import Verif.Lemmas.Causal
import Verif.Lemmas.BadCruise
import Verif.Props.Ranges
import Verif.Props.Depth
import Verif.Spec.Mend
/-!
# Malformed words and their twins

The parser on a field with malformed cruise climb words (`NddddAddddSdddd`, `NddddAddddMdddd`), in lockstep with the parser on the field
in which each of them is replaced by a well-formed word of the same kind.
-/

namespace F15
open Spec

set_option linter.unusedSectionVars false
set_option linter.unusedSimpArgs false
variable {F : Type} [PyFloat F]

/-! ### Errors are never removed -/

section
variable {σ : Type} [TokStream σ]

/-- The method removes no error. -/
structure Grows {α : Type} (m : M σ F α) : Prop where
  out : ∀ s a s', m s = .ok (a, s') → ∀ x ∈ s.ers.errs, x ∈ s'.ers.errs

theorem Grows.bind {α β : Type} {m : M σ F α} {f : α → M σ F β} (h : Grows m) (k : ∀ a, Grows (f a)) : Grows (m >>= f) := by
  refine ⟨fun s b s' hb x hx => ?_⟩
  change (m s >>= fun p => f p.1 p.2) = _ at hb
  cases hm : m s with
  | error e => rw [hm] at hb; cases hb
  | ok p =>
    rw [hm] at hb
    exact (k p.1).out p.2 b s' hb x (h.out s p.1 p.2 hm x hx)

theorem Grows.ok {α : Type} {m : M σ F α} (h : ∀ s a s', m s = .ok (a, s') → s'.ers.errs = s.ers.errs) : Grows m :=
  ⟨fun s a s' hm x hx => by rw [h s a s' hm]; exact hx⟩

theorem Grows.pure {α : Type} (a : α) : Grows (Pure.pure a : M σ F α) := .ok fun s a s' h => by cases h; rfl

theorem Grows.throw {α : Type} (x : PyErr) : Grows (MonadExcept.throw x : M σ F α) := .ok fun s a s' h => by cases h

theorem Grows.next : Grows (nextToken : M σ F (Option Token)) := .ok fun s a s' h => by
  unfold nextToken at h; dsimp only at h; split at h <;> cases h; rfl

theorem Grows.peek (k : Nat) : Grows (peekToken k : M σ F (Option Token)) := .ok fun s a s' h => by
  unfold peekToken at h; split at h <;> cases h; rfl

theorem Grows.last : Grows (lastElement : M σ F (Option (Record F))) := .ok fun s a s' h => by
  unfold lastElement at h; split at h <;> cases h; rfl

theorem Grows.num : Grows (numElements : M σ F Nat) := .ok fun s a s' h => by cases h; rfl

theorem Grows.modLast (f : Record F → Record F) : Grows (F15.modLast f : M σ F Unit) := .ok fun s a s' h => by
  unfold F15.modLast at h; split at h <;> cases h; rfl

theorem Grows.modPrev (f : Record F → Record F) : Grows (F15.modPrev f : M σ F Unit) := .ok fun s a s' h => by
  unfold F15.modPrev at h; split at h <;> cases h; rfl

theorem Grows.getLast : Grows (F15.getLast : M σ F (Record F)) := .ok fun s a s' h => by
  unfold F15.getLast at h; split at h <;> cases h; rfl

theorem Grows.liftE {α : Type} (y : Except PyErr α) : Grows (F15.liftE y : M σ F α) := .ok fun s a s' h => by
  unfold F15.liftE at h; split at h <;> cases h; rfl

theorem Grows.record (t : Token) : Grows (addRecord t : M σ F Unit) := .ok fun s a s' h => by
  unfold addRecord at h; split at h <;> cases h; rfl

theorem Grows.azimuth : Grows (assignAzimuth : M σ F Unit) := .ok fun s a s' h => by cases h; rfl

theorem Grows.error (t : Token) (n : Nat) : Grows (addErrorNoReSync t n : M σ F Unit) := by
  refine ⟨fun s a s' h x hx => ?_⟩
  unfold addErrorNoReSync at h
  split at h <;> cases h
  exact List.mem_cons_of_mem _ hx

theorem Grows.when {c : Bool} {m : M σ F Unit} (h : Grows m) : Grows (whenM c m) := by
  unfold whenM; split
  · exact h
  · exact .pure _

/-- Go through a method. -/
macro "grow1" : tactic => `(tactic| first
  | assumption
  | exact Grows.pure _
  | exact Grows.throw _
  | exact Grows.next
  | exact Grows.peek _
  | exact Grows.last
  | exact Grows.num
  | exact Grows.modLast _
  | exact Grows.modPrev _
  | exact Grows.getLast
  | exact Grows.liftE _
  | exact Grows.record _
  | exact Grows.azimuth
  | exact Grows.error _ _
  | apply Grows.when
  | apply Grows.bind
  | intro _
  | split)

theorem Grows.altitude (t : Token) (s : Str) (c : Bool) : Grows (assignAltitude t s c : M σ F Unit) := by unfold assignAltitude; repeat' grow1
theorem Grows.speed (s : Str) : Grows (assignSpeed s : M σ F Unit) := by unfold assignSpeed; repeat' grow1
theorem Grows.latitude (s : Str) : Grows (assignLatitude s : M σ F Unit) := by unfold assignLatitude; repeat' grow1
theorem Grows.longitude (s : Str) : Grows (assignLongitude s : M σ F Unit) := by unfold assignLongitude; repeat' grow1

theorem Grows.llDeg (t : Token) (s : Str) : Grows (assignLlDeg t s : M σ F Unit) := by
  unfold assignLlDeg
  refine .bind (.latitude _) fun _ => .bind (.longitude _) fun _ => .bind (.liftE _) fun _ => .bind (.when (.error _ _)) fun _ => ?_
  exact .bind (.liftE _) fun _ => .bind (.when (.error _ _)) fun _ => .bind (.modLast _) fun _ => .azimuth

theorem Grows.llDegMin (t : Token) (s : Str) : Grows (assignLlDegMin t s : M σ F Unit) := by
  unfold assignLlDegMin
  refine .bind (.latitude _) fun _ => .bind (.longitude _) fun _ => .bind (.liftE _) fun _ => .bind (.when (.error _ _)) fun _ => ?_
  exact .bind (.liftE _) fun _ => .bind (.when (.error _ _)) fun _ => .bind (.modLast _) fun _ => .azimuth

theorem Grows.bd (t : Token) (s : Str) : Grows (assignBearingDistance t s : M σ F Unit) := by
  unfold assignBearingDistance resolveRealBdPoint; repeat' grow1

theorem Grows.ll (t : Token) : Grows (assignLatLongBearingDistance t : M σ F Unit) := by
  unfold assignLatLongBearingDistance
  split
  · repeat' grow1
  · exact .llDeg _ _
  · exact .llDegMin _ _
  · exact .bind (.llDeg _ _) fun _ => .bd _ _
  · exact .bind (.llDegMin _ _) fun _ => .bd _ _
  · exact .pure _

theorem Grows.position (t : Token) : Grows (checkPosition t : M σ F Unit) := .when (.ll t)

set_option maxHeartbeats 4000000 in
/-- No method removes an error. -/
theorem Grows.step {call : Call → M σ F Unit} (hc : ∀ c, Grows (call c)) (c : Call) : Grows (F15.step call c) := by
  have ha := Grows.altitude (σ := σ) (F := F)
  have hs := Grows.speed (σ := σ) (F := F)
  have hl := Grows.ll (σ := σ) (F := F)
  have hp := Grows.position (σ := σ) (F := F)
  cases c <;> simp only [F15.step, saveStayTime, addErrorAndReSync, assignSpeedAltitude, assignSpeedAltitudeAltitude, assignSpeedAltitudePlus, assignSpeedVfr,
    levelSpeed, levelLevelSpeed, levelPlusSpeed, rulesThenPostPoint, vfrSpeedRules, breakEndTail,
    breakEnd, breakEndError, breakStart, breakTextSave, cruiseClimbC, cruiseClimbPoint, dct, forwardSlash, postAdep, postPoint, postSid,
    point, reSync, route, sid, sidStar, star, stay, stayTime, truncate, vToI, vToIToV, markSid, markStar] <;>
  repeat' first | exact hc _ | exact ha _ _ _ | exact hs _ | exact hl _ | exact hp _ | grow1

end

theorem Grows.exec {σ : Type} [TokStream σ] (n : Nat) (c : Call) : Grows (F15.exec (σ := σ) (F := F) n c) := by
  induction n generalizing c with
  | zero => exact ⟨fun s a s' h => by cases h⟩
  | succ n ih => exact .step ih c

/-! ### Twins -/

/-- The twin of a malformed token. -/
def twin (t : Token) : Token := ⟨twinText, t.start, t.stop, .SPEED_ALTITUDE_ALTITUDE, .SPEED_ALTITUDE_NFF⟩

theorem twin_typed (t : Token) : Typed (twin t) := by
  unfold Typed
  have : getTokenType twinText = (.SPEED_ALTITUDE_ALTITUDE, .SPEED_ALTITUDE_NFF) := by decide +kernel
  rw [assignSyntax_eq]
  simp only [twin, this]
  rw [if_neg (by decide)]

theorem bad_base {t : Token} (h : Typed t) (hb : t.sub ∈ ccBad) : t.base = .SPEED_ALTITUDE_ALTITUDE := by
  have := typed_word h (fun b u => ccBad.contains u && b != .SPEED_ALTITUDE_ALTITUDE) (fun _ => false) (by decide +kernel)
  by_cases hh : t.base = .SPEED_ALTITUDE_ALTITUDE
  · exact hh
  · obtain ⟨w, hw, _⟩ := this (by simp [hb, hh]) (by decide) (by decide)
    cases hw

/-- The pairs of facing tokens: the same token twice, or a malformed token and its twin. -/
structure Twins (Z : List (Token × Token)) : Prop where
  fst : ∀ z ∈ Z, Typed z.1
  pair : ∀ z ∈ Z, z.1.sub ∉ ccBad ∧ z.2 = z.1 ∨ z.1.sub ∈ ccBad ∧ z.2 = twin z.1
  apart : ∀ z ∈ Z, ∀ w ∈ Z, z.1.start = w.1.start → z = w

abbrev olds (Z : List (Token × Token)) : List Token := Z.map (·.1)
abbrev news (Z : List (Token × Token)) : List Token := Z.map (·.2)

theorem Twins.snd {Z : List (Token × Token)} (hz : Twins Z) (z : Token × Token) (h : z ∈ Z) : Typed z.2 := by
  rcases hz.pair z h with ⟨_, h2⟩ | ⟨_, h2⟩ <;> rw [h2]
  · exact hz.fst z h
  · exact twin_typed _

theorem Twins.base {Z : List (Token × Token)} (hz : Twins Z) {z : Token × Token} (h : z ∈ Z) : z.1.base = z.2.base := by
  rcases hz.pair z h with ⟨_, h2⟩ | ⟨h1, h2⟩ <;> rw [h2]
  exact bad_base (hz.fst z h) h1

theorem Twins.sub {Z : List (Token × Token)} (hz : Twins Z) {z : Token × Token} (h : z ∈ Z) : z.1.sub = z.2.sub ∨
    (z.1.sub = .SPEED_ALTITUDE_NAS ∨ z.1.sub = .SPEED_ALTITUDE_NAM) ∧ z.2.sub = .SPEED_ALTITUDE_NFF := by
  rcases hz.pair z h with ⟨_, h2⟩ | ⟨h1, h2⟩ <;> rw [h2]
  · exact .inl rfl
  · exact .inr ⟨by simpa [ccBad] using h1, rfl⟩

theorem Twins.ask {Z : List (Token × Token)} (hz : Twins Z) {z : Token × Token} (h : z ∈ Z) {α : Type} (f : SubType → α)
    (h1 : f .SPEED_ALTITUDE_NAS = f .SPEED_ALTITUDE_NFF) (h2 : f .SPEED_ALTITUDE_NAM = f .SPEED_ALTITUDE_NFF) : f z.1.sub = f z.2.sub := by
  rcases hz.sub h with h | ⟨h | h, h'⟩
  · rw [h]
  · rw [h, h', h1]
  · rw [h, h', h2]

/-- The error about the level of a twin. -/
def Mark (Z : List (Token × Token)) (x : Record F) : Prop := ∃ z ∈ Z, z.1.sub ∈ ccBad ∧ x = errRec z.2 40

/-- Elements that the parser cannot tell apart. -/
def Same (r s : Record F) : Prop := r.rules = s.rules ∧ isLlOrBd r.sub = isLlOrBd s.sub

/-- States that the parser cannot tell apart. -/
structure Twin (Z : List (Token × Token)) (e f : Ers F) : Prop where
  recs : All2 Same e.recs f.recs
  errs : ∀ x ∈ f.errs, ¬ Mark Z x
  ne : e.recs ≠ []

theorem All2.lens {α β : Type} {R : α → β → Prop} {l : List α} {l' : List β} (h : All2 R l l') : l.length = l'.length := by
  induction h with
  | nil => rfl
  | cons _ _ ih => simp [ih]

theorem Twin.ne' {Z : List (Token × Token)} {e f : Ers F} (h : Twin Z e f) : f.recs ≠ [] := by
  intro h0
  have := h.recs.lens
  rw [h0] at this
  exact h.ne (List.length_eq_zero_iff.1 this)

theorem Twin.head {Z : List (Token × Token)} {e f : Ers F} (h : Twin Z e f) :
    Same (e.recs.head h.ne) (f.recs.head h.ne') := by
  obtain ⟨h1, h2, h3⟩ := h
  obtain ⟨er, ee, ed⟩ := e
  obtain ⟨fr, fe, fd⟩ := f
  cases h1 with
  | nil => exact absurd rfl h3
  | cons h _ => exact h

/-- The action with the tokens paired. -/
inductive TwinAct (Z : List (Token × Token)) : Act → Act → Prop
  | err {z} (n) : z ∈ Z → n ≠ 40 → (errorMessage n).isSome = true → TwinAct Z (.err z.1 n) (.err z.2 n)
  | point {z} : z ∈ Z → TwinAct Z (.point z.1) (.point z.2)
  | vToI {z} : z ∈ Z → TwinAct Z (.vToI z.1) (.vToI z.2)
  | vToIToV {z} : z ∈ Z → TwinAct Z (.vToIToV z.1) (.vToIToV z.2)
  | route {z} : z ∈ Z → TwinAct Z (.route z.1) (.route z.2)
  | plain {z} : z ∈ Z → TwinAct Z (.plain z.1) (.plain z.2)
  | brk {z} : z ∈ Z → TwinAct Z (.brk z.1) (.brk z.2)
  | sid {z} : z ∈ Z → TwinAct Z (.sid z.1) (.sid z.2)
  | star {z} : z ∈ Z → TwinAct Z (.star z.1) (.star z.2)
  | ccPoint {z} : z ∈ Z → TwinAct Z (.ccPoint z.1) (.ccPoint z.2)
  | vfr {z} : z ∈ Z → z.1.base ≠ .SPEED_ALTITUDE_ALTITUDE → TwinAct Z (.vfr z.1) (.vfr z.2)
  | level {z} : z ∈ Z → z.1.base ≠ .SPEED_ALTITUDE_ALTITUDE → TwinAct Z (.level z.1) (.level z.2)
  | levels {z} : z ∈ Z → z.1.sub ∉ ccBad → TwinAct Z (.levels z.1) (.levels z.2)
  | plus {z} : z ∈ Z → z.1.base ≠ .SPEED_ALTITUDE_ALTITUDE → TwinAct Z (.plus z.1) (.plus z.2)
  | text {z} : z ∈ Z → TwinAct Z (.text z.1) (.text z.2)
  | stay {z} : z ∈ Z → TwinAct Z (.stay z.1) (.stay z.2)

theorem TwinAct.tok {Z : List (Token × Token)} {a b : Act} (h : TwinAct Z a b) : (a.tok, b.tok) ∈ Z := by
  cases h <;> assumption

theorem keep_twin {r r' s s' : Record F} (h : Same r s) (k1 : Keep r r') (k2 : Keep s s') : Same r' s' := by
  unfold Keep at k1 k2
  rw [k1, k2]
  exact h

theorem keeps_twin {a a' b b' : List (Record F)} (h : All2 Same a b) (k1 : All2 Keep a a') (k2 : All2 Keep b b') :
    All2 Same a' b' := by
  induction h generalizing a' b' with
  | nil => cases k1; cases k2; exact .nil
  | cons h _ ih =>
    cases k1 with
    | cons k1 l1 => cases k2 with
      | cons k2 l2 => exact .cons (keep_twin h k1 k2) (ih l1 l2)

theorem posHead_rs (t : Token) (r : Record F) : (posHead t r).rules = r.rules ∧ (posHead t r).sub = r.sub := by
  unfold posHead
  split <;> exact ⟨rfl, rfl⟩

theorem fresh_rs (p : Record F) (t : Token) : (fresh p t).rules = p.rules ∧ (fresh p t).sub = t.sub := ⟨rfl, rfl⟩

/-- New elements. -/
theorem twin_newRec {Z : List (Token × Token)} (hz : Twins Z) {a b : Act} (h : TwinAct Z a b) (hr : a.records = true) {p q : Record F}
    (hp : p.rules = q.rules) : Same (a.newRec p) (b.newRec q) := by
  cases h with
  | err | level | levels | plus | text | stay => cases hr
  | point h =>
    refine ⟨?_, ?_⟩
    · simp only [Act.newRec, posHead_rs]; rfl
    · simp only [Act.newRec, posHead_rs]; exact hz.ask h isLlOrBd rfl rfl
  | vToI h =>
    refine ⟨rfl, ?_⟩
    show isLlOrBd (posHead _ _).sub = isLlOrBd (posHead _ _).sub
    simp only [posHead_rs]; exact hz.ask h isLlOrBd rfl rfl
  | vToIToV h | route h => exact ⟨rfl, hz.ask h isLlOrBd rfl rfl⟩
  | plain h => exact ⟨hp, hz.ask h isLlOrBd rfl rfl⟩
  | ccPoint h =>
    refine ⟨?_, ?_⟩
    · simp only [Act.newRec, posHead_rs]; exact hp
    · simp only [Act.newRec, posHead_rs]; exact hz.ask h isLlOrBd rfl rfl
  | @brk z h =>
    have e1 : ∀ (u : SubType) (r : Record F), (brkRules u r).sub = r.sub := by intro u r; unfold brkRules; split <;> rfl
    have e2 : ∀ (u : SubType) (r : Record F), (brkRules u r).rules = match u with
        | .OAT => ruleO | .VFR => ruleV | .IFPSTOP => ruleS | _ => r.rules := by
      intro u r; unfold brkRules; split <;> first | rfl | (split <;> simp_all)
    refine ⟨?_, ?_⟩
    · simp only [Act.newRec, e2]
      show (match z.1.sub with | .OAT => ruleO | .VFR => ruleV | .IFPSTOP => ruleS | _ => p.rules) =
        (match z.2.sub with | .OAT => ruleO | .VFR => ruleV | .IFPSTOP => ruleS | _ => q.rules)
      rw [hp]
      exact hz.ask h (fun u => match u with | .OAT => ruleO | .VFR => ruleV | .IFPSTOP => ruleS | _ => q.rules) rfl rfl
    · simp only [Act.newRec, e1]; exact hz.ask h isLlOrBd rfl rfl
  | @sid z h =>
    refine ⟨hp, ?_⟩
    show isLlOrBd (if z.1.text = py! "SID" then .SID_LITERAL else .SID) = isLlOrBd (if z.2.text = py! "SID" then .SID_LITERAL else .SID)
    split <;> split <;> rfl
  | @star z h =>
    refine ⟨hp, ?_⟩
    show isLlOrBd (if z.1.text = py! "STAR" then .STAR_LITERAL else .STAR) = isLlOrBd (if z.2.text = py! "STAR" then .STAR_LITERAL else .STAR)
    split <;> split <;> rfl
  | vfr h => exact ⟨rfl, hz.ask h isLlOrBd rfl rfl⟩

theorem twin_tweak_sub (a : Act) (r : Record F) : (a.tweak r).sub = r.sub := by
  cases a <;> first
    | rfl
    | (simp only [Act.tweak]; unfold Record.appendBreakText; split <;> rfl)

theorem errRec_text_eq (t : Token) (n : Nat) : (errRec t n : Record F).errorText = replaceBang ((errorMessage n).getD []) t.text := rfl

theorem twin_text_inj : ∀ m ∈ errorMessages, m.1 ≠ 40 → replaceBang m.2 twinText ≠ replaceBang ((errorMessage 40).getD []) twinText := by
  decide +kernel

theorem twin_start {Z : List (Token × Token)} (hz : Twins Z) {z : Token × Token} (h : z ∈ Z) : z.2.start = z.1.start := by
  rcases hz.pair z h with ⟨_, h2⟩ | ⟨_, h2⟩ <;> rw [h2]; rfl

/-- Actions do not mark. -/
theorem no_mark {Z : List (Token × Token)} (hz : Twins Z) {a b : Act} (h : TwinAct Z a b) {n : Nat} (hn : n ∈ b.nums) :
    ¬ Mark Z (errRec (F := F) b.tok n) := by
  rintro ⟨w, hw, hbad, hx⟩
  have ht := h.tok
  have hst : b.tok.start = w.2.start := congrArg Record.start hx
  rw [twin_start hz hw] at hst
  have e1 := twin_start hz ht
  dsimp only at e1
  have := hz.apart _ ht _ hw (by dsimp only; rw [← e1, hst])
  subst this
  dsimp only at hbad hx
  have hb2 : b.tok = twin a.tok := by
    rcases hz.pair _ ht with ⟨h1, _⟩ | ⟨_, h2⟩
    · exact absurd hbad h1
    · exact h2
  have hbase := bad_base (hz.fst _ ht) hbad
  have pn : posNums (twin a.tok) = [] := rfl
  cases h with
  | err m hz' hm hs =>
    simp only [Act.nums, List.mem_singleton] at hn
    subst hn
    have := congrArg Record.errorText hx
    rw [errRec_text_eq, errRec_text_eq, hb2] at this
    obtain ⟨msg, hmsg⟩ := Option.isSome_iff_exists.1 hs
    rw [hmsg] at this
    have hmem : (n, msg) ∈ errorMessages := by
      have : ∀ (l : List (Nat × Str)), l.lookup n = some msg → (n, msg) ∈ l := by
        intro l hl
        induction l with
        | nil => simp at hl
        | cons p l ih =>
          obtain ⟨i, m⟩ := p
          rw [List.lookup_cons] at hl
          split at hl
          · rename_i he
            simp only [beq_iff_eq] at he
            cases hl; subst he; simp
          · exact List.mem_cons_of_mem _ (ih hl)
      exact this _ hmsg
    exact twin_text_inj _ hmem hm this
  | point | vToI | ccPoint =>
    change n ∈ posNums _ at hn
    simp only [Act.tok] at hb2
    rw [hb2] at hn
    cases hn
  | level _ hb => exact hb hbase
  | plus _ hb => exact hb hbase
  | levels _ hb => exact hb hbad
  | _ => cases hn

/-- Actions keep states alike. -/
theorem Twin.act {Z : List (Token × Token)} (hz : Twins Z) {a b : Act} (h : TwinAct Z a b) {e f : Ers F} (k : Twin Z e f) :
    Twin Z (a.run e) (b.run f) := by
  have hrr : a.records = b.records := by cases h <;> rfl
  refine ⟨?_, ?_, a.run_ne e k.ne⟩
  · obtain ⟨k1, _, k3⟩ := k
    obtain ⟨er, ee, ed⟩ := e
    obtain ⟨fr, fe, fd⟩ := f
    change All2 _ (a.recs er) (b.recs fr)
    cases k1 with
    | nil => exact absurd rfl k3
    | @cons p q rs rs' hpq hl =>
      cases hr : a.records
      · rw [note_shape a hr, note_shape b (by rw [← hrr, hr])]
        refine .cons ⟨?_, ?_⟩ hl
        · cases h with
          | level | levels | plus | err | stay => first | rfl | exact hpq.1
          | text h => show (p.appendBreakText _).rules = (q.appendBreakText _).rules; rw [appendBreakText_rules, appendBreakText_rules, hpq.1]
          | _ => cases hr
        · rw [twin_tweak_sub, twin_tweak_sub]; exact hpq.2
      · obtain ⟨l1, hl1, k1⟩ := push_shape a hr p rs
        obtain ⟨l2, hl2, k2⟩ := push_shape b (by rw [← hrr, hr]) q rs'
        rw [hl1, hl2]
        exact .cons (twin_newRec hz h hr hpq.1) (keeps_twin (.cons hpq hl) k1 k2)
  · intro x hx
    rw [run_errs] at hx
    rcases List.mem_append.1 hx with hx | hx
    · rw [List.mem_reverse, List.mem_map] at hx
      obtain ⟨n, hn, rfl⟩ := hx
      exact no_mark hz h hn
    · exact k.errs x hx

end F15
