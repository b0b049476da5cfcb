import Verif.Lemmas.Noise
import Verif.Lemmas.Local
/-!
# Free text: words are only collected
-/

namespace F15
open Spec

set_option linter.unusedSectionVars false
variable {F : Type} [PyFloat F]

theorem last_cons {x o : Token} {u : List Token} (h : (x :: u).getLast? = some o) : (u = [] ∧ x = o) ∨ u.getLast? = some o := by
  cases u with
  | nil => exact .inl ⟨rfl, by simpa using h⟩
  | cons y ys => rw [List.getLast?_cons_cons] at h; exact .inr h

/-- VFR, OAT, IFPSTOP or SPEED/VFR. -/
def OpensText (t : Token) : Prop := t.base = .BREAK_START ∨ t.base = .SPEED_VFR

theorem OpensText.ne {t : Token} (h : OpensText t) {b : BaseType} (hb : t.base = b) (hn : b ≠ .BREAK_START ∧ b ≠ .SPEED_VFR) :
    False := by
  rcases h with h | h
  · exact hn.1 (hb.symm.trans h)
  · exact hn.2 (hb.symm.trans h)

/-- After such a word free text is read. -/
theorem opens_text {q : Phase} {u : List Token} {as : List Act} {z : Option Phase} (h : RunTo q u as z) {o : Token}
    (hl : u.getLast? = some o) (ho : OpensText o) : ∃ r, z = some (.text r) := by
  have no : ∀ {b : BaseType} {t : Token}, t = o → t.base = b → b ≠ .BREAK_START ∧ b ≠ .SPEED_VFR → False := by
    intro b t ht hb hn; subst ht; exact ho.ne hb hn
  induction h with
  | here q => cases hl
  | truncate hq hb => exact (no (by simpa using hl) hb (by decide)).elim
  | star hq hb =>
    rcases hb with hb | ⟨hb, _⟩
    · exact (no (by simpa using hl) hb (by decide)).elim
    · exact (no (by simpa using hl) hb (by decide)).elim
  | sid hb h ih =>
    rcases last_cons hl with ⟨rfl, e⟩ | hl
    · rcases hb with hb | hb
      · exact (no e hb (by decide)).elim
      · exact (no e hb (by decide)).elim
    · exact ih hl
  | dct hq hb h ih | route hq hb h ih | climb hq hb h ih =>
    rcases last_cons hl with ⟨rfl, e⟩ | hl
    · exact (no e hb (by decide)).elim
    · exact ih hl
  | point hq hb hn h ih =>
    rcases last_cons hl with ⟨rfl, e⟩ | hl
    · exact (no e hb (by decide)).elim
    · exact ih hl
  | cruise hq hb hs hp hs' hla h ih =>
    rw [List.getLast?_cons_cons, List.getLast?_cons_cons, List.getLast?_cons_cons, List.getLast?_cons_cons] at hl
    rcases last_cons hl with ⟨rfl, e⟩ | hl
    · rcases hla with ⟨hb, _⟩ | ⟨hb, _⟩
      · exact (no e hb (by decide)).elim
      · exact (no e hb (by decide)).elim
    · exact ih hl
  | stay hq hb hs hm h ih =>
    rw [List.getLast?_cons_cons, List.getLast?_cons_cons] at hl
    rcases last_cons hl with ⟨rfl, e⟩ | hl
    · exact (no e hm (by decide)).elim
    · exact ih hl
  | break_ hq hb h ih =>
    rcases last_cons hl with ⟨rfl, e⟩ | hl
    · cases h; exact ⟨_, rfl⟩
    · exact ih hl
  | level hs hb hn h ih =>
    rw [List.getLast?_cons_cons] at hl
    rcases last_cons hl with ⟨rfl, e⟩ | hl
    · exact (no e hb (by decide)).elim
    · exact ih hl
  | vfr hs hb h ih =>
    rw [List.getLast?_cons_cons] at hl
    rcases last_cons hl with ⟨rfl, e⟩ | hl
    · cases h; exact ⟨_, rfl⟩
    · exact ih hl
  | word hb hc h ih =>
    rcases last_cons hl with ⟨rfl, e⟩ | hl
    · cases h; exact ⟨_, rfl⟩
    · exact ih hl
  | resume hc hi hb hp hn h ih =>
    rw [List.getLast?_cons_cons] at hl
    rcases last_cons hl with ⟨rfl, e⟩ | hl
    · exact (no e hp (by decide)).elim
    · exact ih hl
  | resumeIfr hc hi hb hp hn hs hll hk h ih =>
    rw [List.getLast?_cons_cons, List.getLast?_cons_cons, List.getLast?_cons_cons] at hl
    rcases last_cons hl with ⟨rfl, e⟩ | hl
    · exact (no e hll (by decide)).elim
    · exact ih hl
  | resumeVfr hc hi hb hp hs hll h ih =>
    rw [List.getLast?_cons_cons, List.getLast?_cons_cons, List.getLast?_cons_cons] at hl
    rcases last_cons hl with ⟨rfl, e⟩ | hl
    · cases h; exact ⟨_, rfl⟩
    · exact ih hl

/-- Readings can be put together. -/
theorem RunToG.append {q : Phase} {u : List Token} {as : List Act} {z : Option Phase} (h : RunTo q u as z) (hz : Firm u z)
    {p : Phase} (hp : z = some p) {v : List Token} {cs : List Act} (h' : Run p v cs) : Run q (u ++ v) (as ++ cs) := by
  induction h with
  | here q => cases hp; exact h'
  | truncate | star => cases hp
  | sid hb _ ih => exact .sid hb (ih hz.tail hp)
  | dct hq hb _ ih => exact .dct hq hb (ih hz.tail hp)
  | route hq hb _ ih => exact .route hq hb (ih hz.tail hp)
  | point hq hb hn _ ih => exact .point hq hb hn (ih hz.tail hp)
  | climb hq hb _ ih => exact .climb hq hb (ih hz.tail hp)
  | cruise hq hb hs hp' hs' hl _ ih => exact .cruise hq hb hs hp' hs' hl (ih hz.tail.tail.tail.tail.tail hp)
  | stay hq hb hs hm _ ih => exact .stay hq hb hs hm (ih hz.tail.tail.tail hp)
  | break_ hq hb _ ih => exact .break_ hq hb (ih hz.tail hp)
  | level hs hb hl _ ih => exact .level hs hb hl (ih hz.tail.tail hp)
  | vfr hs hb _ ih => exact .vfr hs hb (ih hz.tail.tail hp)
  | word hb hc h ih =>
    rename_i r t ts as z
    refine .word hb (fun hcl => ?_) (ih hz.tail hp)
    cases ts with
    | nil =>
      cases h
      rcases hz with hz | hz
      · exact hz.elim
      · exact absurd hcl ((hz _ rfl).2 _)
    | cons x xs =>
      rcases hc hcl with h | ⟨h1, s, r', rfl, h2⟩
      · exact .inl h
      · exact .inr ⟨h1, s, r' ++ v, rfl, h2⟩
  | resume hc hi hb hp' hn _ ih => exact .resume hc hi hb hp' hn (ih hz.tail.tail hp)
  | resumeIfr hc hi hb hp' hn hs hl hk _ ih => exact .resumeIfr hc hi hb hp' hn hs hl hk (ih hz.tail.tail.tail.tail hp)
  | resumeVfr hc hi hb hp' hs hl _ ih => exact .resumeVfr hc hi hb hp' hs hl (ih hz.tail.tail.tail.tail hp)

/-- Words that end no free text are only collected. -/
theorem words_run {r : Str} {v : List Token} {ws : List Token} (hw : ∀ t ∈ ws, t.base ≠ .TOO_LONG ∧ ¬ closes t r)
    {cs : List Act} (h : Run (.text r) v cs) : Run (.text r) (ws ++ v) (ws.map .text ++ cs) := by
  induction ws with
  | nil => exact h
  | cons t ws ih =>
    exact .word (hw t (by simp)).1 (fun hc => absurd hc (hw t (by simp)).2) (ih fun x hx => hw x (by simp [hx]))

theorem run_words {r : Str} {v : List Token} {ws : List Token} (hw : ∀ t ∈ ws, ¬ closes t r) :
    ∀ {cs : List Act}, Run (.text r) (ws ++ v) cs → ∃ ds, cs = ws.map .text ++ ds ∧ Run (.text r) v ds := by
  induction ws with
  | nil => intro cs h; exact ⟨cs, rfl, h⟩
  | cons t ws ih =>
    intro cs h
    have hn := hw t (by simp)
    obtain ⟨w, hw'⟩ : ∃ w, w = t :: ws ++ v := ⟨_, rfl⟩
    rw [← hw'] at h
    cases h
    case word hb hc h =>
      simp only [List.cons_append, List.cons.injEq] at hw'
      obtain ⟨rfl, rfl⟩ := hw'
      obtain ⟨ds, rfl, h2⟩ := ih (fun x hx => hw x (by simp [hx])) h
      exact ⟨ds, rfl, h2⟩
    all_goals exfalso; clear ih hw; simp_all [Phase.allows]

/-- A word that ends free text is IFR, GAT or IFPSTART. -/
theorem closes_is_end {t : Token} (ht : Typed t) {r : Str} (h : closes t r) : t.base = .BREAK_END := by
  have hs : t.sub = .IFR ∨ t.sub = .GAT ∨ t.sub = .IFPSTART := by
    rcases h with ⟨h, _⟩ | ⟨h, _⟩ | ⟨h, _⟩
    · exact .inl h
    · exact .inr (.inl h)
    · exact .inr (.inr h)
  have hk : ∀ r ∈ table, r.sub = .IFR ∨ r.sub = .GAT ∨ r.sub = .IFPSTART → r.base = .BREAK_END := by decide +kernel
  rcases typed_pair ht with ⟨_, h2⟩ | ⟨_, h2⟩ | ⟨r, hr, h1, h2⟩
  · rw [h2] at hs; simp at hs
  · rw [h2] at hs; simp at hs
  · rw [h1]; exact hk r hr (by rwa [h2] at hs)

/-! ### The elements -/

/-- Without break text. -/
def noText (r : Record F) : Record F := { r with breakText := [] }

/-- The result, break texts aside, depends on the elements, break texts aside. -/
def Blind (g : List (Record F) → List (Record F)) : Prop := ∀ l, (g l).map noText = (g (l.map noText)).map noText

theorem Blind.comp {g h : List (Record F) → List (Record F)} (hg : Blind g) (hh : Blind h) : Blind (g ∘ h) := by
  intro l
  show (g (h l)).map noText = (g (h (l.map noText))).map noText
  rw [hg, hh, ← hg]

theorem blind_head {f : Record F → Record F} (hf : ∀ r, noText (f r) = noText (f (noText r))) : Blind (mapHead f) := by
  intro l
  cases l with
  | nil => rfl
  | cons r rs =>
    show noText (f r) :: _ = noText (f (noText r)) :: _
    rw [← hf r]
    exact congrArg _ (by simp [noText])

theorem blind_push (t : Token) : Blind (F := F) (pushRec t) := by
  intro l
  cases l with
  | nil => rfl
  | cons r rs => simp [pushRec, noText, carry]

theorem noText_idem (r : Record F) : noText (noText r) = noText r := rfl

theorem map_idem (l : List (Record F)) : (l.map noText).map noText = l.map noText := by
  simp [noText]

theorem blind_azimuth : Blind (F := F) azimuthList := by
  intro l
  have hz : ∀ p q : Record F, noText (setAzimuthAndDistance p q) = noText (setAzimuthAndDistance (noText p) (noText q)) := fun _ _ => rfl
  match l with
  | [] => rfl
  | [x] => rfl
  | [x, y] =>
    show (azimuthList [x, y]).map noText = (azimuthList [noText x, noText y]).map noText
    unfold azimuthList
    show List.map noText (if x.latLongValid then _ else _) = List.map noText (if x.latLongValid then (if y.latLongValid then _ else _) else _)
    cases x.latLongValid <;> cases y.latLongValid <;> simp [← hz, noText_idem]
  | x :: y :: w :: rs =>
    show (azimuthList (x :: y :: w :: rs)).map noText = (azimuthList (noText x :: noText y :: noText w :: rs.map noText)).map noText
    unfold azimuthList
    show List.map noText (if x.latLongValid then (if y.latLongValid then _ else (if w.latLongValid then _ else _)) else _) =
      List.map noText (if x.latLongValid then (if y.latLongValid then _ else (if w.latLongValid then _ else _)) else _)
    cases x.latLongValid <;> cases y.latLongValid <;> cases w.latLongValid <;>
      simp only [← hz, noText_idem, map_idem, List.map_cons, if_true, if_false, Bool.false_eq_true]

theorem blind_pos (t : Token) : Blind (F := F) (posRecs t) := by
  have h1 : ∀ x y, Blind (F := F) (azimuthList ∘ mapHead (setPos x y)) := fun x y =>
    blind_azimuth.comp (blind_head fun _ => rfl)
  have h2 : Blind (F := F) (azimuthList ∘ mapHead (project t.text)) := blind_azimuth.comp (blind_head fun _ => rfl)
  unfold posRecs
  cases t.sub
  case LL_DEG | LL_MIN => exact h1 _ _
  case LLBD_DEG | LLBD_MIN => exact h2.comp (h1 _ _)
  all_goals intro l; exact (map_idem l).symm

theorem blind_copy : Blind (F := F) copyPrev := by
  intro l
  match l with
  | [] => rfl
  | [x] => rfl
  | x :: y :: rs => simp [copyPrev, noText]

theorem blind_act (a : Act) : Blind (F := F) a.recs := by
  have hm : ∀ (f : Record F → Record F) (t : Token), (∀ r, noText (f r) = noText (f (noText r))) →
      Blind (F := F) (mapHead f ∘ pushRec t) := fun f t hf => (blind_head hf).comp (blind_push t)
  cases a with
  | err t n => intro l; exact (map_idem l).symm
  | point t => exact (blind_pos t).comp (hm toIfr t fun _ => rfl)
  | vToI t => exact (blind_head (f := toIfr) fun _ => rfl).comp ((blind_pos t).comp (blind_push t))
  | vToIToV t => exact hm toIfr t fun _ => rfl
  | route t => exact hm toIfr t fun _ => rfl
  | plain t => exact blind_push t
  | brk t =>
    refine hm (brkRules t.sub) t fun r => ?_
    unfold brkRules; cases t.sub <;> rfl
  | sid t => exact hm (asSid t.text) t fun _ => rfl
  | star t => exact hm (asStar t.text) t fun _ => rfl
  | ccPoint t => exact (blind_pos t).comp (blind_push t)
  | vfr t => exact blind_copy.comp (hm _ _ fun _ => rfl)
  | level t => exact blind_head fun _ => rfl
  | levels t => exact blind_head fun _ => rfl
  | plus t => exact blind_head fun _ => rfl
  | text t =>
    refine blind_head fun r => ?_
    unfold Record.appendBreakText
    split <;> split <;> rfl
  | stay t => exact blind_head fun _ => rfl

theorem blind_runs (as : List Act) : ∀ {e e' : Ers F}, e.recs.map noText = e'.recs.map noText →
    (runs as e).recs.map noText = (runs as e').recs.map noText := by
  induction as with
  | nil => intro e e' h; exact h
  | cons a as ih =>
    intro e e' h
    apply ih
    show (a.recs e.recs).map noText = (a.recs e'.recs).map noText
    rw [blind_act a, blind_act a e'.recs, h]

/-- Append words to a break text. -/
def addWords (b : Str) (ws : List Token) : Str := ws.foldl (fun b t => if b = [] then t.text else b ++ ' ' :: t.text) b

theorem addWords_append (b : Str) (u v : List Token) : addWords b (u ++ v) = addWords (addWords b u) v :=
  List.foldl_append

/-- The break texts of the elements. -/
def breaks (e : Ers F) : List Str := e.recs.map (·.breakText)

theorem breaks_note {a : Act} (hr : a.records = false) (hw : ∀ t, a ≠ .text t) {e : Ers F} (he : e.recs ≠ []) :
    breaks (a.run e) = breaks e := by
  obtain ⟨recs, errs, d⟩ := e
  cases recs with
  | nil => exact absurd rfl he
  | cons p rs =>
    have h : (a.run ⟨p :: rs, errs, d⟩).recs = a.tweak p :: rs := note_shape a hr p rs
    unfold breaks
    rw [h, List.map_cons, List.map_cons]
    congr 1
    cases a with
    | text t => exact absurd rfl (hw t)
    | err | level | levels | plus | stay => rfl
    | _ => cases hr

theorem breaks_text (t : Token) (e : Ers F) {b : Str} {bs : List Str} (h : breaks e = b :: bs) :
    breaks ((Act.text t).run e) = addWords b [t] :: bs := by
  obtain ⟨recs, errs, d⟩ := e
  cases recs with
  | nil => cases h
  | cons p rs =>
    have h1 : ((Act.text t).run ⟨p :: rs, errs, d⟩ : Ers F).recs = p.appendBreakText t.text :: rs := rfl
    unfold breaks at h ⊢
    rw [h1]
    simp only [List.map_cons, List.cons.injEq] at h
    obtain ⟨rfl, rfl⟩ := h
    simp only [List.map_cons, List.cons.injEq, and_true]
    unfold Record.appendBreakText addWords
    simp only [List.foldl_cons, List.foldl_nil]
    split <;> rfl

theorem newRec_break (a : Act) (p : Record F) : (a.newRec p).breakText = [] := by
  have hp : ∀ (t : Token) (r : Record F), (posHead t r).breakText = r.breakText := by
    intro t r; unfold posHead; split <;> rfl
  cases a with
  | point t | vToI t | ccPoint t => first | exact hp _ _ | exact (hp _ _)
  | brk t => show (brkRules t.sub _).breakText = []; unfold brkRules; cases t.sub <;> rfl
  | _ => rfl

theorem breaks_push {a : Act} (hr : a.records = true) {e : Ers F} (he : e.recs ≠ []) :
    breaks (a.run e) = [] :: breaks e := by
  obtain ⟨recs, errs, d⟩ := e
  cases recs with
  | nil => exact absurd rfl he
  | cons p rs =>
    obtain ⟨l', h0, k⟩ := push_shape (F := F) a hr p rs
    have h : (a.run ⟨p :: rs, errs, d⟩).recs = a.newRec p :: l' := h0
    unfold breaks
    rw [h, List.map_cons]
    have h2 : (a.newRec p).breakText = [] := newRec_break a p
    rw [h2]
    congr 1
    clear h h0 h2
    obtain ⟨l, hl⟩ : ∃ l, l = p :: rs := ⟨_, rfl⟩
    rw [← hl] at k ⊢
    clear hl
    induction k with
    | nil => rfl
    | cons hk _ ih =>
      rw [List.map_cons, List.map_cons, ih]
      unfold Keep at hk
      congr 1
      exact congrArg (·.breakText) hk

/-- The effect on the break texts. -/
def btStep (l : List Str) (a : Act) : List Str :=
  if a.records = true then [] :: l else
  match a, l with
  | .text t, b :: bs => addWords b [t] :: bs
  | _, l => l

theorem breaks_ne {e : Ers F} : breaks e ≠ [] ↔ e.recs ≠ [] := by unfold breaks; simp

theorem breaks_run (a : Act) {e : Ers F} (he : e.recs ≠ []) : breaks (a.run e) = btStep (breaks e) a := by
  unfold btStep
  by_cases hr : a.records = true
  · rw [if_pos hr]; exact breaks_push hr he
  · rw [if_neg hr]
    have hr : a.records = false := by simpa using hr
    cases a with
    | text t =>
      cases h : breaks e with
      | nil => exact absurd h (breaks_ne.2 he)
      | cons b bs => exact breaks_text t e h
    | _ => exact breaks_note hr (by intro t h; cases h) he

theorem breaks_runs (as : List Act) : ∀ {e : Ers F}, e.recs ≠ [] → breaks (runs as e) = as.foldl btStep (breaks e) := by
  induction as with
  | nil => intro e _; rfl
  | cons a as ih =>
    intro e he
    rw [runs_cons, ih (a.run_ne e he), breaks_run a he]; rfl

theorem fold_tail (as : List Act) : ∀ (b : Str) (l bs : List Str),
    as.foldl btStep (b :: l ++ bs) = as.foldl btStep (b :: l) ++ bs := by
  induction as with
  | nil => intro b l bs; rfl
  | cons a as ih =>
    intro b l bs
    have : ∃ b' l', btStep (b :: l) a = b' :: l' ∧ btStep (b :: l ++ bs) a = b' :: l' ++ bs := by
      unfold btStep
      by_cases hr : a.records = true
      · rw [if_pos hr, if_pos hr]; exact ⟨_, _, rfl, rfl⟩
      · rw [if_neg hr, if_neg hr]
        cases a <;> exact ⟨_, _, rfl, rfl⟩
    obtain ⟨b', l', h1, h2⟩ := this
    rw [List.foldl_cons, List.foldl_cons, h1, h2, ih]

theorem fold_words (ws : List Token) : ∀ (b : Str) (bs : List Str),
    (ws.map Act.text).foldl btStep (b :: bs) = addWords b ws :: bs := by
  induction ws with
  | nil => intro b bs; rfl
  | cons t ws ih =>
    intro b bs
    rw [List.map_cons, List.foldl_cons]
    show (ws.map Act.text).foldl btStep (addWords b [t] :: bs) = _
    rw [ih]; rfl

/-- Free text is read up to the next element. -/
theorem text_prefix {q : Phase} {v : List Token} {cs : List Act} (h : Run q v cs) : ∀ r, q = .text r →
    ∃ (Z : List Token) (rest : List Act), cs = Z.map .text ++ rest ∧ Z <+: v ∧
      (rest = [] ∨ ∃ a as, rest = a :: as ∧ a.records = true) := by
  induction h with
  | stop q => intro r hr; exact ⟨[], [], rfl, ⟨[], rfl⟩, .inl rfl⟩
  | truncate hq hb => intro r hr; subst hr; simp [Phase.allows] at hq
  | star hq hb => intro r hr; subst hr; simp [Phase.allows] at hq
  | sid hb _ ih => intro r hr; cases hr
  | dct hq | route hq | point hq | climb hq | cruise hq | stay hq | break_ hq =>
    intro r hr; subst hr; simp [Phase.allows] at hq
  | level | vfr => intro r hr; cases hr
  | word hb hc _ ih =>
    rename_i r0 t ts as h0
    intro r hr
    obtain ⟨Z, rest, rfl, ⟨y, hy⟩, h⟩ := ih r0 rfl
    exact ⟨t :: Z, rest, rfl, ⟨y, by rw [← hy]; rfl⟩, h⟩
  | resume hc hi hb hp hn h0 ih =>
    rename_i r0 t p ts as
    intro r hr
    exact ⟨[t], _, rfl, ⟨p :: ts, rfl⟩, .inr ⟨_, _, rfl, rfl⟩⟩
  | resumeIfr hc hi hb hp hn hs hl hk h0 ih =>
    rename_i r0 t p s l ts as
    intro r hr
    exact ⟨[t], _, rfl, ⟨_, rfl⟩, .inr ⟨_, _, rfl, rfl⟩⟩
  | resumeVfr hc hi hb hp hs hl h0 ih =>
    rename_i r0 t p s l ts as
    intro r hr
    exact ⟨[t], _, rfl, ⟨_, rfl⟩, .inr ⟨_, _, rfl, rfl⟩⟩

/-- The break texts after a reading of free text. -/
theorem breaks_free {r : Str} {v : List Token} {cs : List Act} (h : Run (.text r) v cs) :
    ∃ (ns : List Str) (Z : List Token), Z <+: v ∧ ∀ (b : Str) (bs : List Str), cs.foldl btStep (b :: bs) = ns ++ addWords b Z :: bs := by
  obtain ⟨Z, rest, rfl, hZ, hr⟩ := text_prefix h r rfl
  rcases hr with rfl | ⟨a, as, rfl, ha⟩
  · exact ⟨[], Z, hZ, fun b bs => by rw [List.append_nil, fold_words]; rfl⟩
  · refine ⟨as.foldl btStep [[]], Z, hZ, fun b bs => ?_⟩
    rw [List.foldl_append, fold_words, List.foldl_cons]
    have : btStep (addWords b Z :: bs) a = [] :: [] ++ (addWords b Z :: bs) := by unfold btStep; rw [if_pos ha]; rfl
    rw [this, fold_tail]

theorem addWords_eq {b : Str} (ws : List Token) : ∀ {A : List Token}, (∀ t ∈ A, t.text ≠ []) → (∀ t ∈ ws, t.text ≠ []) → b = spaced A →
    addWords b ws = spaced (A ++ ws) := by
  induction ws generalizing b with
  | nil => intro A _ _ h; rw [List.append_nil]; exact h
  | cons t ws ih =>
    intro A hA hw h
    show addWords (if b = [] then t.text else b ++ ' ' :: t.text) ws = _
    have : A ++ t :: ws = (A ++ [t]) ++ ws := by simp
    rw [this]
    refine ih ?_ (fun x hx => hw x (by simp [hx])) ?_
    · intro x hx
      rcases List.mem_append.1 hx with hx | hx
      · exact hA x hx
      · simp only [List.mem_singleton] at hx; subst hx; exact hw x (by simp)
    · rw [spaced_snoc]
      by_cases hn : A = []
      · subst hn
        rw [if_pos rfl, if_pos (by rw [h]; rfl)]
      · rw [if_neg hn, if_neg (fun hb => hn (spaced_eq_nil hA (h.symm.trans hb))), h]

/-- The last element and the words collected for it. -/
theorem text_end {q : Phase} {u : List Token} {as : List Act} {z : Option Phase} (h : RunTo q u as z) :
    ∀ {r : Str}, z = some (.text r) → (∃ r0, q = .text r0 ∧ as = u.map .text) ∨
      ∃ pre a A, as = pre ++ a :: A.map .text ∧ a.records = true ∧ A <:+ u := by
  have ext : ∀ {as : List Act} {u : List Token} (xs : List Act) (vs : List Token),
      (∃ pre a A, as = pre ++ a :: A.map Act.text ∧ a.records = true ∧ A <:+ u) →
      ∃ pre a A, xs ++ as = pre ++ a :: A.map Act.text ∧ a.records = true ∧ A <:+ vs ++ u := by
    rintro as u xs vs ⟨pre, a, A, rfl, ha, hA⟩
    exact ⟨xs ++ pre, a, A, by rw [List.append_assoc], ha, hA.trans (List.suffix_append vs u)⟩
  induction h with
  | here q => intro r h; cases h; exact .inl ⟨_, rfl, rfl⟩
  | truncate | star => intro r h; cases h
  | sid hb _ ih | dct hq hb _ ih | route hq hb _ ih | climb hq hb _ ih =>
    rename_i t ts as z _
    intro r hz
    rcases ih hz with ⟨_, h, _⟩ | h
    · cases h
    · exact .inr (ext [_] [_] h)
  | point hq hb hn _ ih =>
    intro r hz
    rcases ih hz with ⟨_, h, _⟩ | h
    · cases h
    · exact .inr (ext [_] [_] h)
  | cruise hq hb hs hp hs' hl _ ih =>
    intro r hz
    rcases ih hz with ⟨_, h, _⟩ | h
    · cases h
    · exact .inr (ext [_, _] [_, _, _, _, _] h)
  | stay hq hb hs hm _ ih =>
    intro r hz
    rcases ih hz with ⟨_, h, _⟩ | h
    · cases h
    · exact .inr (ext [_] [_, _, _] h)
  | break_ hq hb _ ih =>
    intro r hz
    rcases ih hz with ⟨_, _, h⟩ | h
    · exact .inr ⟨[], _, _, by rw [h]; rfl, rfl, List.suffix_cons _ _⟩
    · exact .inr (ext [_] [_] h)
  | level hs hb hl _ ih =>
    intro r hz
    rcases ih hz with ⟨_, h, _⟩ | h
    · cases h
    · exact .inr (ext [_] [_, _] h)
  | vfr hs hb _ ih =>
    intro r hz
    rcases ih hz with ⟨_, _, h⟩ | h
    · exact .inr ⟨[], _, _, by rw [h]; rfl, rfl, (List.suffix_cons _ _).trans (List.suffix_cons _ _)⟩
    · exact .inr (ext [_] [_, _] h)
  | word hb hc _ ih =>
    intro r hz
    rcases ih hz with ⟨_, _, h⟩ | h
    · exact .inl ⟨_, rfl, by rw [h]; rfl⟩
    · exact .inr (ext [_] [_] h)
  | resume hc hi hb hp hn _ ih =>
    intro r hz
    rcases ih hz with ⟨_, h, _⟩ | h
    · cases h
    · exact .inr (ext [_, _] [_, _] h)
  | resumeIfr hc hi hb hp hn hs hl hk _ ih =>
    intro r hz
    rcases ih hz with ⟨_, h, _⟩ | h
    · cases h
    · exact .inr (ext [_, _, _] [_, _, _, _] h)
  | resumeVfr hc hi hb hp hs hl _ ih =>
    rename_i r0 t p s l ts as z h0
    intro r hz
    rcases ih hz with ⟨_, _, h⟩ | h
    · exact .inr ⟨[_, _], _, _, by rw [h]; rfl, rfl, List.suffix_append [t, p, s, l] ts⟩
    · exact .inr (ext [_, _, _] [_, _, _, _] h)

/-! ### The end of the parse -/

theorem blind_oldest : Blind (F := F) (mapOldest toVfr) := by
  intro l
  have h := blind_head (F := F) (f := toVfr) (fun _ => rfl) l.reverse
  unfold mapOldest
  rw [List.map_reverse, h, ← List.map_reverse, ← List.map_reverse]

theorem breaks_post (t : Token) (e : Ers F) : breaks (post t e) = breaks e := by
  unfold post breaks
  split
  · show (mapOldest toVfr e.recs).map _ = _
    unfold mapOldest
    rw [List.map_reverse]
    have : ∀ l : List (Record F), (mapHead toVfr l).map (·.breakText) = l.map (·.breakText) := by
      intro l; cases l <;> rfl
    rw [this, List.map_reverse, List.reverse_reverse]
  · rfl

theorem blind_post (t : Token) {e e' : Ers F} (h : e.recs.map noText = e'.recs.map noText) :
    (post t e).recs.map noText = (post t e').recs.map noText := by
  unfold post
  split
  · show (mapOldest toVfr e.recs).map noText = (mapOldest toVfr e'.recs).map noText
    rw [blind_oldest, blind_oldest e'.recs, h]
  · exact h

theorem rules_of_noText {l l' : List (Record F)} (h : l.map noText = l'.map noText) : l.map (·.rules) = l'.map (·.rules) := by
  have := congrArg (List.map (·.rules)) h
  rwa [List.map_map, List.map_map] at this

theorem fin_noText {e e' : Ers F} (h : e.recs.map noText = e'.recs.map noText) :
    (finErs e).elements.map noText = (finErs e').elements.map noText ∧ (finErs e).derived = (finErs e').derived := by
  have hr := rules_of_noText h
  have hh : (e.recs.head?.map (·.rules)).getD [] = (e'.recs.head?.map (·.rules)).getD [] := by
    have := congrArg (·.head?) hr
    simp only [List.head?_map] at this
    rw [this]
  have hrs : (adesRec ((e.recs.head?.map (·.rules)).getD []) :: e.recs).map noText =
      (adesRec ((e'.recs.head?.map (·.rules)).getD []) :: e'.recs).map noText := by
    rw [List.map_cons, List.map_cons, hh, h]
  constructor
  · show (List.reverse _).map noText = (List.reverse _).map noText
    rw [List.map_reverse, List.map_reverse]
    exact congrArg _ hrs
  · show deriveRules (oldestRules e.recs) _ = deriveRules (oldestRules e'.recs) _
    rw [List.map_reverse, List.map_reverse, rules_of_noText hrs]
    congr 1
    unfold oldestRules
    rw [← List.getLast?_map, ← List.getLast?_map, hr]

theorem fin_breaks (e : Ers F) : (finErs e).elements.map (·.breakText) = (breaks e).reverse ++ [[]] := by
  show (List.reverse (adesRec _ :: e.recs)).map _ = _
  rw [List.map_reverse, List.map_cons, List.reverse_cons]
  rfl

end F15
