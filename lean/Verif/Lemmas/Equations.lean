import Verif.Lemmas.Eval
/-!
# Evaluation equations: one per method, over the list stream

Each equation describes the body of a method by actions on the ERS and by the calls it makes.
-/

namespace F15
open Spec

set_option linter.unusedSectionVars false
variable {F : Type} [PyFloat F]

/-- Results of methods. -/
abbrev Res (F : Type) := Except PyErr (Unit × St (List Token) F)

/-- Normal return. -/
abbrev done (e : Ers F) (ts : List Token) : Res F := .ok ((), ⟨e, ts⟩)

/-- Sequencing of results. -/
def andThen (r : Res F) (k : Ers F → List Token → Res F) : Res F :=
  match r with
  | .ok (_, s) => k s.ers s.toks
  | .error x => .error x

theorem bd {m : ML F Unit} {f : Unit → ML F Unit} {t : Token} {ns : List Nat} {g : List (Record F) → List (Record F)}
    (h : Does m t ns g) {e : Ers F} {ts : List Token} (he : e.recs ≠ []) :
    (m >>= f) ⟨e, ts⟩ = f () ⟨upd t ns g e, ts⟩ := by
  show (m ⟨e, ts⟩ >>= fun p => f p.1 p.2) = _
  rw [h.run e ts he]; rfl

theorem bind_nil {f : Option Token → ML F Unit} {e : Ers F} : (nextToken >>= f) ⟨e, []⟩ = f none ⟨e, []⟩ := rfl
theorem bind_cons {f : Option Token → ML F Unit} {e : Ers F} {t : Token} {ts : List Token} :
    (nextToken >>= f) ⟨e, t :: ts⟩ = f (some t) ⟨e, ts⟩ := rfl
theorem bind_peek {k : Nat} {f : Option Token → ML F Unit} {e : Ers F} {ts : List Token} :
    (peekToken k >>= f) ⟨e, ts⟩ = f ts[k - 1]? ⟨e, ts⟩ := rfl
theorem bind_last {f : Option (Record F) → ML F Unit} {e : Ers F} {ts : List Token} :
    (lastElement >>= f) ⟨e, ts⟩ = f e.recs.head? ⟨e, ts⟩ := by
  show ((match e.getLastElement with
    | .ok a => .ok (a, ⟨e, ts⟩)
    | .error e => .error e : Except PyErr (Option (Record F) × St (List Token) F)) >>= fun p => f p.1 p.2) = _
  rw [getLastElement_ok]; rfl
theorem bind_num {f : Nat → ML F Unit} {e : Ers F} {ts : List Token} :
    (numElements >>= f) ⟨e, ts⟩ = f e.recs.length ⟨e, ts⟩ := rfl
theorem bind_call {m : ML F Unit} {f : Unit → ML F Unit} {s : St (List Token) F} :
    (m >>= f) s = andThen (m s) (fun e ts => f () ⟨e, ts⟩) := by
  show (m s >>= fun p => f p.1 p.2) = _
  cases m s <;> rfl
theorem bind_getLast {f : Record F → ML F Unit} {e : Ers F} {ts : List Token} (he : e.recs ≠ []) :
    (getLast >>= f) ⟨e, ts⟩ = f (e.recs.head he) ⟨e, ts⟩ := by
  obtain ⟨recs, errs, d⟩ := e
  cases recs with
  | nil => exact absurd rfl he
  | cons r rs => rfl

variable (call : Call → ML F Unit)

theorem upd_ne {t : Token} {ns : List Nat} {g : List (Record F) → List (Record F)} {e : Ers F}
    (h : ∀ l, l ≠ [] → g l ≠ []) (he : e.recs ≠ []) : (upd t ns g e).recs ≠ [] := h _ he

theorem step_err (t : Token) (n : Nat) (hn : (errorMessage n).isSome) (e : Ers F) (ts : List Token) (he : e.recs ≠ []) :
    step call (.addErrorAndReSync t n) ⟨e, ts⟩ = call .reSync ⟨(Act.err t n).run e, ts⟩ := by
  show (addErrorNoReSync t n >>= fun _ => call .reSync) ⟨e, ts⟩ = _
  rw [bd (does_err t n hn) he]; rfl

theorem step_point (t : Token) (ht : Typed t) (e : Ers F) (ts : List Token) (he : e.recs ≠ []) :
    step call (.point t) ⟨e, ts⟩ = match ts with
      | [] => done ((Act.point t).run e) []
      | nt :: ts => call (.postPoint nt) ⟨(Act.point t).run e, ts⟩ := by
  have h1 := does_addRecord (F := F) t t
  have h2 := does_modLast (F := F) t toIfr
  have h3 := does_checkPosition (F := F) t ht
  have hr : upd t (posNums t) (posRecs t) (upd t [] (mapHead toIfr) (upd t [] (pushRec t) e)) =
    (Act.point t).run e := by simp only [upd_upd]; rfl
  show (addRecord t >>= fun _ => modLast toIfr >>= fun _ => checkPosition t >>= fun _ => nextToken >>= _) _ = _
  rw [bd h1 he, bd h2 (upd_ne h1.ne he), bd h3 (upd_ne h2.ne (upd_ne h1.ne he)), hr]
  cases ts <;> rfl

theorem step_route (t : Token) (e : Ers F) (ts : List Token) (he : e.recs ≠ []) :
    step call (.route t) ⟨e, ts⟩ = match ts with
      | [] => done ((Act.route t).run e) []
      | nt :: ts => (match nt.base with
        | .UNKNOWN => call (.addErrorAndReSync nt 3)
        | .SLASH => call (.addErrorAndReSync nt 12)
        | .BREAK_START => call (.addErrorAndReSync nt 13)
        | .SPEED_VFR => call (.addErrorAndReSync nt 13)
        | .SPEED_ALTITUDE => call (.addErrorAndReSync nt 55)
        | .BREAK_END => call (.breakEndError nt)
        | .DCT => call (.addErrorAndReSync nt 14)
        | .STAY => call (.addErrorAndReSync nt 15)
        | .TRUNCATE => call .truncate
        | .C => call (.cruiseClimbC nt)
        | .POINT => fun s => if isLlOrBd nt.sub then
            andThen (call (.addErrorAndReSync nt 48) s) (fun e ts => call (.point nt) ⟨e, ts⟩)
            else call (.point nt) s
        | .ROUTE => call (.addErrorAndReSync nt 53)
        | .SID_STAR | .STAR => call (.addErrorAndReSync nt 54)
        | .SPEED_ALTITUDE_ALTITUDE | .SPEED_ALTITUDE_PLUS => call (.addErrorAndReSync nt 9)
        | .TOO_LONG => call (.addErrorAndReSync nt 4)
        | .STAY_TIME => call (.addErrorAndReSync nt 10)
        | .SID => call (.addErrorAndReSync nt 30)) ⟨(Act.route t).run e, ts⟩ := by
  have h1 := does_addRecord (F := F) t t
  have h2 := does_modLast (F := F) t toIfr
  have hr : upd t [] (mapHead toIfr) (upd t [] (pushRec t) e) = (Act.route t).run e := by
    simp only [upd_upd]; rfl
  show (addRecord t >>= fun _ => modLast toIfr >>= fun _ => nextToken >>= _) _ = _
  rw [bd h1 he, bd h2 (upd_ne h1.ne he), hr]
  cases ts with
  | nil => rfl
  | cons nt ts =>
    rw [bind_cons]
    dsimp only
    cases nt.base <;> try rfl
    show (whenM (isLlOrBd nt.sub) (call (.addErrorAndReSync nt 48)) >>= fun _ => call (.point nt)) _ = _
    cases isLlOrBd nt.sub
    · rfl
    · rw [bind_call]; rfl

theorem run_plain (t : Token) (e : Ers F) (t' : Token) : upd t' [] (pushRec t) e = (Act.plain t).run e := rfl

theorem step_dct (t : Token) (e : Ers F) (ts : List Token) (he : e.recs ≠ []) :
    step call (.dct t) ⟨e, ts⟩ = match ts with
      | [] => done ((Act.plain t).run e) []
      | nt :: ts => (match nt.base with
        | .TRUNCATE => call .truncate
        | .POINT => call (.point nt)
        | .C => call (.cruiseClimbC nt)
        | _ => call (.addErrorAndReSync nt 21)) ⟨(Act.plain t).run e, ts⟩ := by
  have h1 := does_addRecord (F := F) t t
  show (addRecord t >>= fun _ => nextToken >>= _) _ = _
  rw [bd h1 he, run_plain]
  cases ts with
  | nil => rfl
  | cons nt ts =>
    rw [bind_cons]
    dsimp only
    cases nt.base <;> rfl

theorem step_sid (t : Token) (e : Ers F) (ts : List Token) (he : e.recs ≠ []) :
    step call (.sid t) ⟨e, ts⟩ = if e.recs.length = 1 then call .postSid ⟨(Act.sid t).run e, ts⟩
      else call (.addErrorAndReSync t 30) ⟨(Act.plain t).run e, ts⟩ := by
  have h1 := does_addRecord (F := F) t t
  have h2 := does_modLast (F := F) t (asSid t.text)
  have hr : upd t [] (mapHead (asSid t.text)) (upd t [] (pushRec t) e) = (Act.sid t).run e := by
    simp only [upd_upd]; rfl
  have hl : ((Act.plain t).run e).recs.length = e.recs.length + 1 := by
    obtain ⟨recs, errs, d⟩ := e
    cases recs with
    | nil => exact absurd rfl he
    | cons r rs => rfl
  show (addRecord t >>= fun _ => numElements >>= _) _ = _
  rw [bd h1 he, run_plain, bind_num, hl]
  by_cases h : e.recs.length = 1
  · rw [if_pos h, h]
    show (modLast (asSid t.text) >>= fun _ => call .postSid) _ = _
    rw [bd h2 (Act.run_ne (.plain t) e he)]
    exact congrArg (fun e => call .postSid ⟨e, ts⟩) hr
  · rw [if_neg h]
    show (if e.recs.length + 1 = 2 then _ else _ : ML F Unit) _ = _
    rw [if_neg (by omega)]

theorem step_sidStar (t : Token) (e : Ers F) (ts : List Token) (he : e.recs ≠ []) :
    step call (.sidStar t) ⟨e, ts⟩ = if e.recs.length = 1 then call .postSid ⟨(Act.sid t).run e, ts⟩
      else match ts with
        | [] => done ((Act.star t).run e) []
        | pk :: ts => call (.addErrorAndReSync pk 34) ⟨(Act.plain t).run e, pk :: ts⟩ := by
  have h1 := does_addRecord (F := F) t t
  have h2 := does_modLast (F := F) t (asSid t.text)
  have h3 := does_modLast (F := F) t (asStar t.text)
  have hr : upd t [] (mapHead (asSid t.text)) (upd t [] (pushRec t) e) = (Act.sid t).run e := by
    simp only [upd_upd]; rfl
  have hr' : upd t [] (mapHead (asStar t.text)) (upd t [] (pushRec t) e) = (Act.star t).run e := by
    simp only [upd_upd]; rfl
  have hl : ((Act.plain t).run e).recs.length = e.recs.length + 1 := by
    obtain ⟨recs, errs, d⟩ := e
    cases recs with
    | nil => exact absurd rfl he
    | cons r rs => rfl
  show (addRecord t >>= fun _ => numElements >>= _) _ = _
  rw [bd h1 he, run_plain, bind_num, hl]
  by_cases h : e.recs.length = 1
  · rw [if_pos h, h]
    show (modLast (asSid t.text) >>= fun _ => call .postSid) _ = _
    rw [bd h2 (Act.run_ne (.plain t) e he)]
    exact congrArg (fun e => call .postSid ⟨e, ts⟩) hr
  · rw [if_neg h]
    show (if e.recs.length + 1 = 2 then _ else (peekToken 1 >>= _) : ML F Unit) _ = _
    rw [if_neg (by omega), bind_peek]
    cases ts with
    | nil =>
      show modLast (asStar t.text) _ = _
      rw [h3.run _ _ (Act.run_ne (.plain t) e he)]
      exact congrArg (fun e => done e []) hr'
    | cons pk ts => rfl

theorem step_star (t : Token) (e : Ers F) (ts : List Token) (he : e.recs ≠ []) :
    step call (.star t) ⟨e, ts⟩ = match ts with
        | [] => done ((Act.star t).run e) []
        | pk :: ts => call (.addErrorAndReSync pk 34) ⟨(Act.plain t).run e, pk :: ts⟩ := by
  have h1 := does_addRecord (F := F) t t
  have h3 := does_modLast (F := F) t (asStar t.text)
  have hr' : upd t [] (mapHead (asStar t.text)) (upd t [] (pushRec t) e) = (Act.star t).run e := by
    simp only [upd_upd]; rfl
  show (addRecord t >>= fun _ => peekToken 1 >>= _) _ = _
  rw [bd h1 he, run_plain, bind_peek]
  cases ts with
  | nil =>
    show modLast (asStar t.text) _ = _
    rw [h3.run _ _ (Act.run_ne (.plain t) e he)]
    exact congrArg (fun e => done e []) hr'
  | cons pk ts => rfl

theorem step_stay (t : Token) (e : Ers F) (ts : List Token) :
    step call (.stay t) ⟨e, ts⟩ = match ts with
      | [] => call (.addErrorAndReSync t 35) ⟨e, []⟩
      | nt :: ts => if nt.base ≠ .SLASH then call (.addErrorAndReSync nt 36) ⟨e, ts⟩
        else match ts with
          | [] => call (.addErrorAndReSync nt 37) ⟨e, []⟩
          | nt2 :: ts => if nt2.base ≠ .STAY_TIME then call (.addErrorAndReSync nt2 38) ⟨e, ts⟩
            else call (.stayTime nt2) ⟨e, ts⟩ := by
  show (nextToken >>= _) _ = _
  cases ts with
  | nil => rfl
  | cons nt ts =>
    rw [bind_cons]
    dsimp only
    split
    · rfl
    · show (nextToken >>= _) _ = _
      cases ts with
      | nil => rfl
      | cons nt2 ts =>
        rw [bind_cons]
        dsimp only
        split <;> rfl

theorem timeOfDay_val {s : Str} (h : TimeOfDay s) (r : Record F) :
    r.setStayTime s = .ok { r with stayTime := stayVal s } := by
  obtain ⟨a, b, c, d, rfl, ha, hb, hc, hd, _, _⟩ := h
  have e1 : slice [a, b, c, d] 0 2 = [a, b] := slice_nat [a, b, c, d] 0 2
  have e2 : sliceFrom [a, b, c, d] 2 = [c, d] := sliceFrom_nat [a, b, c, d] 2
  unfold Record.setStayTime
  rw [e1, e2, pyInt_digits (ds2 ha hb), pyInt_digits (ds2 hc hd)]
  show Except.ok _ = _
  congr 1

theorem does_saveStay (t : Token) (h : TimeOfDay t.text) :
    Does (F := F) (saveStayTime t.text) t [] (mapHead (setStay t.text)) := by
  refine ⟨fun e ts he => ?_, mapHead_ne _⟩
  unfold saveStayTime
  rw [bind_getLast he, timeOfDay_val h]
  show modLast _ _ = _
  obtain ⟨recs, errs, d⟩ := e
  cases recs with
  | nil => exact absurd rfl he
  | cons r rs => rfl

theorem step_stayTime (t : Token) (h : TimeOfDay t.text) (e : Ers F) (ts : List Token) (he : e.recs ≠ []) :
    step call (.stayTime t) ⟨e, ts⟩ = match ts with
      | [] => done ((Act.stay t).run e) []
      | nt :: ts => (match nt.base with
        | .UNKNOWN => call (.addErrorAndReSync nt 3)
        | .BREAK_START => call (.breakStart nt)
        | .BREAK_END => call (.breakEndError nt)
        | .DCT => call (.dct nt)
        | .TRUNCATE => call .truncate
        | .C => call (.cruiseClimbC nt)
        | .POINT => call (.point nt)
        | .ROUTE => call (.route nt)
        | .SID_STAR => call (.sidStar nt)
        | .TOO_LONG => call (.addErrorAndReSync nt 4)
        | .SID => call (.sid nt)
        | .STAR => call (.star nt)
        | _ => call (.addErrorAndReSync nt 39)) ⟨(Act.stay t).run e, ts⟩ := by
  show (saveStayTime t.text >>= fun _ => nextToken >>= _) _ = _
  rw [bd (does_saveStay t h) he]
  cases ts with
  | nil => rfl
  | cons nt ts =>
    rw [bind_cons]
    dsimp only
    cases nt.base <;> rfl

theorem step_breakStart (t : Token) (e : Ers F) (ts : List Token) (he : e.recs ≠ []) :
    step call (.breakStart t) ⟨e, ts⟩ = match ts with
      | [] => done ((Act.brk t).run e) []
      | nt :: ts => if nt.base = .TOO_LONG then call (.addErrorAndReSync nt 4) ⟨(Act.brk t).run e, ts⟩
        else call (.breakTextSave nt) ⟨(Act.brk t).run e, ts⟩ := by
  have h1 := does_addRecord (F := F) t t
  have h2 := does_modLast (F := F) t (brkRules t.sub)
  have hr : upd t [] (mapHead (brkRules t.sub)) (upd t [] (pushRec t) e) = (Act.brk t).run e := by
    simp only [upd_upd]; rfl
  show (addRecord t >>= fun _ => modLast (brkRules t.sub) >>= fun _ => nextToken >>= _) _ = _
  rw [bd h1 he, bd h2 (upd_ne h1.ne he), hr]
  cases ts with
  | nil => rfl
  | cons nt ts =>
    rw [bind_cons]
    dsimp only
    split <;> rfl

/-- The end of `break_text_save`. -/
def textTail (call : Call → ML F Unit) (e : Ers F) (ts : List Token) : Res F :=
  match ts with
  | [] => done e []
  | nt :: ts => call (.breakTextSave nt) ⟨e, ts⟩

/-- `break_text_save` after the TOO_LONG check. -/
def textBody (call : Call → ML F Unit) (t : Token) (e : Ers F) (ts : List Token) (he : e.recs ≠ []) : Res F :=
  if endsBreak t.sub (e.recs.head he).rules then
    andThen (call (.breakEnd t) ⟨(Act.text t).run e, ts⟩) (textTail call)
  else textTail call ((Act.text t).run e) ts

theorem textTail_eq (e : Ers F) (ts : List Token) :
    (nextToken >>= fun (x : Option Token) => match x with
      | none => pure () | some nt => call (.breakTextSave nt)) ⟨e, ts⟩ = textTail call e ts := by
  cases ts <;> rfl

theorem appendBreakText_rules (r : Record F) (s : Str) : (r.appendBreakText s).rules = r.rules := by
  unfold Record.appendBreakText; split <;> rfl

theorem textBody_eq (t : Token) (e : Ers F) (ts : List Token) (he : e.recs ≠ []) :
    (modLast (fun r => r.appendBreakText t.text) >>= fun _ => getLast >>= fun last =>
      whenM (endsBreak t.sub last.rules) (call (.breakEnd t)) >>= fun _ =>
      nextToken >>= fun (x : Option Token) => match x with
        | none => pure () | some nt => call (.breakTextSave nt)) ⟨e, ts⟩ = textBody call t e ts he := by
  have h1 := does_modLast (F := F) t (fun r => r.appendBreakText t.text)
  rw [bd h1 he, bind_getLast (upd_ne h1.ne he)]
  have hh : ((upd t [] (mapHead fun r => r.appendBreakText t.text) e).recs.head (upd_ne h1.ne he)).rules =
      (e.recs.head he).rules := by
    obtain ⟨recs, errs, d⟩ := e
    cases recs with
    | nil => exact absurd rfl he
    | cons r rs => exact appendBreakText_rules r t.text
  rw [hh]
  unfold textBody
  cases hb : endsBreak t.sub (e.recs.head he).rules
  · exact textTail_eq call _ _
  · show (call (.breakEnd t) >>= _) _ = _
    rw [bind_call]
    have : ∀ r : Res F, andThen r (fun e ts => (nextToken >>= fun (x : Option Token) => match x with
      | none => pure () | some nt => call (.breakTextSave nt)) ⟨e, ts⟩) = andThen r (textTail call) := by
      intro r
      cases r with
      | error => rfl
      | ok p => exact textTail_eq call _ _
    exact this _

theorem step_text (t : Token) (e : Ers F) (ts : List Token) (he : e.recs ≠ []) (ht : t.base ≠ .TOO_LONG) :
    step call (.breakTextSave t) ⟨e, ts⟩ = textBody call t e ts he := by
  show (whenM (t.base = .TOO_LONG) (call (.addErrorAndReSync t 4)) >>= _) _ = _
  have : decide (t.base = .TOO_LONG) = false := decide_eq_false ht
  rw [this]
  exact textBody_eq call t e ts he

theorem step_text_long (t : Token) (e : Ers F) (ts : List Token) (ht : t.base = .TOO_LONG) :
    step call (.breakTextSave t) ⟨e, ts⟩ =
      andThen (call (.addErrorAndReSync t 4) ⟨e, ts⟩) fun e ts => if he : e.recs ≠ [] then textBody call t e ts he
        else .error .attributeError := by
  show (whenM (t.base = .TOO_LONG) (call (.addErrorAndReSync t 4)) >>= _) _ = _
  have : decide (t.base = .TOO_LONG) = true := decide_eq_true ht
  rw [this]
  show (call (.addErrorAndReSync t 4) >>= _) _ = _
  rw [bind_call]
  generalize call (.addErrorAndReSync t 4) ⟨e, ts⟩ = r
  cases r with
  | error => rfl
  | ok p =>
    obtain ⟨_, e, ts⟩ := p
    simp only [andThen]
    by_cases he : e.recs = []
    · rw [dif_neg (fun h => h he)]
      obtain ⟨recs, errs, d⟩ := e
      subst he
      rfl
    · rw [dif_pos he]
      exact textBody_eq call t e ts he

theorem step_C (t : Token) (e : Ers F) (ts : List Token) (he : e.recs ≠ []) :
    step call (.cruiseClimbC t) ⟨e, ts⟩ = match ts with
      | [] => done ((Act.plain t).run e) []
      | nt :: ts => match nt.base with
        | .UNKNOWN => call (.addErrorAndReSync nt 3) ⟨e, ts⟩
        | .SLASH => match ts with
          | [] => call (.addErrorAndReSync nt 52) ⟨(Act.plain t).run e, []⟩
          | nt2 :: ts => call (.cruiseClimbPoint nt2) ⟨e, ts⟩
        | .BREAK_START => call (.breakStart nt) ⟨(Act.plain t).run e, ts⟩
        | .SPEED_VFR | .SPEED_ALTITUDE => call (.addErrorAndReSync nt 5) ⟨e, ts⟩
        | .BREAK_END => call (.breakEndError nt) ⟨e, ts⟩
        | .DCT => call (.dct nt) ⟨(Act.plain t).run e, ts⟩
        | .STAY => call (.stay nt) ⟨(Act.plain t).run e, ts⟩
        | .TRUNCATE => call .truncate ⟨(Act.plain t).run e, ts⟩
        | .C => call (.cruiseClimbC nt) ⟨(Act.plain t).run e, ts⟩
        | .POINT => call (.point nt) ⟨(Act.plain t).run e, ts⟩
        | .ROUTE => call (.route nt) ⟨(Act.plain t).run e, ts⟩
        | .SID_STAR => call (.sidStar nt) ⟨(Act.plain t).run e, ts⟩
        | .SPEED_ALTITUDE_ALTITUDE | .SPEED_ALTITUDE_PLUS => call (.addErrorAndReSync nt 9) ⟨e, ts⟩
        | .TOO_LONG => call (.addErrorAndReSync nt 4) ⟨e, ts⟩
        | .STAY_TIME => call (.addErrorAndReSync nt 10) ⟨e, ts⟩
        | .SID => call (.sid nt) ⟨(Act.plain t).run e, ts⟩
        | .STAR => call (.star nt) ⟨(Act.plain t).run e, ts⟩ := by
  have h1 := does_addRecord (F := F) t t
  show (nextToken >>= _) _ = _
  cases ts with
  | nil => exact h1.run e [] he
  | cons nt ts =>
    rw [bind_cons]
    dsimp only
    cases nt.base <;> first | rfl | exact bd h1 he | skip
    show (nextToken >>= _) _ = _
    cases ts with
    | nil =>
      show (addRecord t >>= fun _ => call (.addErrorAndReSync nt 52)) _ = _
      exact bd h1 he
    | cons nt2 ts => rfl

theorem step_truncate (e : Ers F) (ts : List Token) :
    step call .truncate ⟨e, ts⟩ = match ts with
      | [] => done e []
      | nt :: ts => call (.addErrorAndReSync nt 19) ⟨e, ts⟩ := by
  show (nextToken >>= _) _ = _
  cases ts <;> rfl

theorem step_postSid (e : Ers F) (ts : List Token) :
    step call .postSid ⟨e, ts⟩ = match ts with
      | [] => done e []
      | nt :: ts => (match nt.base with
        | .TRUNCATE => call .truncate
        | .POINT => call (.point nt)
        | .ROUTE => call (.route nt)
        | .SID_STAR => call (.sidStar nt)
        | .TOO_LONG => call (.addErrorAndReSync nt 4)
        | .SID => call (.addErrorAndReSync nt 32)
        | .STAR => call (.star nt)
        | _ => call (.addErrorAndReSync nt 31)) ⟨e, ts⟩ := by
  show (nextToken >>= _) _ = _
  cases ts with
  | nil => rfl
  | cons nt ts =>
    rw [bind_cons]
    dsimp only
    cases nt.base <;> rfl

theorem step_slash (t : Token) (e : Ers F) (ts : List Token) :
    step call (.forwardSlash t) ⟨e, ts⟩ = match ts with
      | [] => call (.addErrorAndReSync t 20) ⟨e, []⟩
      | nt :: ts => (match nt.base with
        | .UNKNOWN => call (.addErrorAndReSync nt 3)
        | .SLASH => call (.addErrorAndReSync nt 16)
        | .SPEED_VFR => call (.assignSpeedVfr nt)
        | .SPEED_ALTITUDE => call (.assignSpeedAltitude nt)
        | .TOO_LONG => call (.addErrorAndReSync nt 4)
        | _ => call (.addErrorAndReSync nt 50)) ⟨e, ts⟩ := by
  show (nextToken >>= _) _ = _
  cases ts with
  | nil => rfl
  | cons nt ts =>
    rw [bind_cons]
    dsimp only
    cases nt.base <;> rfl

theorem step_postPoint (t : Token) (e : Ers F) (ts : List Token) (he : e.recs ≠ []) :
    step call (.postPoint t) ⟨e, ts⟩ = (match t.base with
      | .UNKNOWN => call (.addErrorAndReSync t 3)
      | .SLASH => call (.forwardSlash t)
      | .BREAK_START => call (.breakStart t)
      | .SPEED_VFR | .SPEED_ALTITUDE => call (.addErrorAndReSync t 5)
      | .BREAK_END => call (.breakEndError t)
      | .DCT => call (.dct t)
      | .STAY => call (.stay t)
      | .TRUNCATE => call .truncate
      | .C => call (.cruiseClimbC t)
      | .POINT => call (.point t)
      | .ROUTE => if isLlOrBd (e.recs.head he).sub then call (.addErrorAndReSync t 47) else call (.route t)
      | .SID_STAR => call (.sidStar t)
      | .SPEED_ALTITUDE_ALTITUDE | .SPEED_ALTITUDE_PLUS => call (.addErrorAndReSync t 9)
      | .TOO_LONG => call (.addErrorAndReSync t 4)
      | .STAY_TIME => call (.addErrorAndReSync t 10)
      | .SID => call (.sid t)
      | .STAR => call (.star t)) ⟨e, ts⟩ := by
  show postPoint call t _ = _
  unfold postPoint
  cases t.base <;> try rfl
  exact bind_getLast he

theorem step_reSync (e : Ers F) (ts : List Token) :
    step call .reSync ⟨e, ts⟩ = match ts with
      | [] => done e []
      | t :: ts => match t.base with
        | .UNKNOWN => call (.addErrorAndReSync t 3) ⟨e, ts⟩
        | .SLASH => match ts with
          | [] => call (.addErrorAndReSync t 25) ⟨e, []⟩
          | nt :: ts => (match nt.base with
            | .SPEED_VFR => call (.assignSpeedVfr nt)
            | .POINT => call (.point nt)
            | .SPEED_ALTITUDE => call (.assignSpeedAltitude nt)
            | .SPEED_ALTITUDE_ALTITUDE => call (.assignSpeedAltitudeAltitude nt)
            | .SPEED_ALTITUDE_PLUS => call (.assignSpeedAltitudePlus nt)
            | _ => call (.addErrorAndReSync nt 11)) ⟨e, ts⟩
        | .BREAK_START => call (.breakStart t) ⟨e, ts⟩
        | .SPEED_VFR => call (.assignSpeedVfr t) ⟨e, ts⟩
        | .BREAK_END => call (.breakEnd t) ⟨e, ts⟩
        | .DCT => call (.dct t) ⟨e, ts⟩
        | .STAY => call (.stay t) ⟨e, ts⟩
        | .TRUNCATE => call .truncate ⟨e, ts⟩
        | .C => call (.cruiseClimbC t) ⟨e, ts⟩
        | .POINT => call (.point t) ⟨e, ts⟩
        | .ROUTE => call (.route t) ⟨e, ts⟩
        | .SID_STAR => call (.sidStar t) ⟨e, ts⟩
        | .SPEED_ALTITUDE => call (.assignSpeedAltitude t) ⟨e, ts⟩
        | .SPEED_ALTITUDE_ALTITUDE => call (.assignSpeedAltitudeAltitude t) ⟨e, ts⟩
        | .SPEED_ALTITUDE_PLUS => call (.assignSpeedAltitudePlus t) ⟨e, ts⟩
        | .TOO_LONG => call (.addErrorAndReSync t 4) ⟨e, ts⟩
        | .STAY_TIME => call (.addErrorAndReSync t 10) ⟨e, ts⟩
        | .SID => call (.sid t) ⟨e, ts⟩
        | .STAR => call (.star t) ⟨e, ts⟩ := by
  show (nextToken >>= _) _ = _
  cases ts with
  | nil => rfl
  | cons t ts =>
    rw [bind_cons]
    dsimp only
    cases t.base <;> try rfl
    show (nextToken >>= _) _ = _
    cases ts with
    | nil => rfl
    | cons nt ts =>
      rw [bind_cons]
      dsimp only
      cases nt.base <;> rfl

/-- After the rule change: the next token is taken as a point. -/
def endTail (call : Call → ML F Unit) (e : Ers F) (ts : List Token) : Res F :=
  match ts with
  | [] => done e []
  | nt :: ts => call (.point nt) ⟨e, ts⟩

theorem endTail_eq (e : Ers F) (ts : List Token) : breakEndTail call ⟨e, ts⟩ = endTail call e ts := by
  cases ts <;> rfl

theorem andThen_congr {r : Res F} {k k' : Ers F → List Token → Res F} (h : ∀ e ts, k e ts = k' e ts) :
    andThen r k = andThen r k' := by
  cases r with
  | error => rfl
  | ok p => exact h _ _

theorem step_breakEnd (t : Token) (e : Ers F) (ts : List Token) :
    step call (.breakEnd t) ⟨e, ts⟩ = match ts with
      | [] => done e []
      | p :: ts' => if p.base ≠ .POINT then done e ts
        else if t.sub = .IFR then match ts' with
          | [] => call (.addErrorAndReSync p 22) ⟨e, ts⟩
          | sl :: ts'' => if sl.base ≠ .SLASH then done e ts
            else match ts'' with
              | [] => call (.addErrorAndReSync p 22) ⟨e, ts⟩
              | sp :: _ =>
                if sp.base = .SPEED_ALTITUDE then andThen (call .vToI ⟨e, ts⟩) (endTail call)
                else if sp.base = .SPEED_VFR then andThen (call .vToIToV ⟨e, ts⟩) (endTail call)
                else call (.addErrorAndReSync p 22) ⟨e, ts⟩
        else call (.point p) ⟨e, ts'⟩ := by
  show (peekToken 1 >>= _) _ = _
  rw [bind_peek]
  cases ts with
  | nil => rfl
  | cons p ts' =>
    show (if p.base ≠ .POINT then pure () else if t.sub = .IFR then (peekToken 2 >>= _) else breakEndTail call : ML F Unit) _ = _
    dsimp only
    by_cases h1 : p.base ≠ .POINT
    · rw [if_pos h1, if_pos h1]; rfl
    rw [if_neg h1, if_neg h1]
    by_cases h2 : t.sub = .IFR
    · rw [if_pos h2, if_pos h2, bind_peek]
      cases ts' with
      | nil => rfl
      | cons sl ts'' =>
        show (if sl.base ≠ .SLASH then pure () else (peekToken 3 >>= _) : ML F Unit) _ = _
        dsimp only
        by_cases h3 : sl.base ≠ .SLASH
        · rw [if_pos h3, if_pos h3]; rfl
        rw [if_neg h3, if_neg h3, bind_peek]
        cases ts'' with
        | nil => rfl
        | cons sp ts3 =>
          show (if sp.base ≠ .SPEED_ALTITUDE ∧ sp.base ≠ .SPEED_VFR then call (.addErrorAndReSync p 22)
            else if sp.base = .SPEED_ALTITUDE then (call .vToI >>= fun _ => breakEndTail call)
            else if sp.base = .SPEED_VFR then (call .vToIToV >>= fun _ => breakEndTail call)
            else breakEndTail call : ML F Unit) _ = _
          dsimp only
          by_cases h4 : sp.base = .SPEED_ALTITUDE
          · rw [if_neg (fun h => h.1 h4), if_pos h4, if_pos h4, bind_call]
            exact andThen_congr (endTail_eq call)
          · by_cases h5 : sp.base = .SPEED_VFR
            · rw [if_neg (fun h => h.2 h5), if_neg h4, if_pos h5, if_neg h4, if_pos h5, bind_call]
              exact andThen_congr (endTail_eq call)
            · rw [if_pos ⟨h4, h5⟩, if_neg h4, if_neg h5]
    · rw [if_neg h2, if_neg h2]
      exact endTail_eq call e (p :: ts')

end F15
