import Verif.Spec.Reports
import Verif.Spec.Kinds
import Verif.Props.Meaning
import Verif.Props.Ranges
import Verif.Lemmas.Fault
/-!
# The messages of a field 15 that is right in form
-/

namespace F15
open Spec

set_option linter.unusedSectionVars false
variable {F : Type} [PyFloat F]

/-! ### Actions and their messages -/

/-- The records of the messages of an action. -/
def Act.msgs (a : Act) : List (Record F) := a.nums.map (errRec a.tok)

theorem runs_errors (as : List Act) : ∀ (e : Ers F), (runs as e).errors = e.errors ++ as.flatMap Act.msgs := by
  induction as with
  | nil => intro e; simp [runs]
  | cons a as ih =>
    intro e
    rw [runs_cons, ih, List.flatMap_cons, ← List.append_assoc]
    congr 1
    unfold Ers.errors
    rw [run_errs, List.reverse_append, List.reverse_reverse]; rfl

theorem messages_of {t : Token} {l : List Nat} (h : ∀ n ∈ l, (errorMessage n).isSome) : Messages t l (l.map (errRec (F := F) t)) := by
  induction l with
  | nil => exact .nil
  | cons n l ih => exact .cons (errRec_is (h n (by simp))) (ih fun x hx => h x (by simp [hx]))

theorem Spec.Reported.word {before : List (Token × Role)} {m : Token × Role} {after : List (Token × Role)} {l : List Nat} {ys : List (Record F)}
    (hw : WordReports before m after l) (hn : ∀ n ∈ l, n ∈ [40, 42, 43, 44, 45, 46]) (h : Reported (before ++ [m]) after ys) :
    Reported before (m :: after) (l.map (errRec m.1) ++ ys) :=
  .cons hw (messages_of fun n hx => (by decide : ∀ n ∈ [40, 42, 43, 44, 45, 46], (errorMessage n).isSome) n (hn n hx)) h

theorem Spec.Reported.skip {before : List (Token × Role)} {m : Token × Role} {after : List (Token × Role)} {ys : List (Record F)}
    (hw : WordReports before m after []) (h : Reported (before ++ [m]) after ys) : Reported before (m :: after) ys :=
  Reported.word (l := []) hw (by simp) h

/-! ### The words -/

theorem gran_reports (s : Str) : LevelReports s (granErr s) := by
  by_cases h : FiveStep s
  · exact .inl ⟨h, gran_iff.2 h⟩
  · refine .inr ⟨h, ?_⟩
    have h' : granErr s ≠ [] := fun hc => h (gran_iff.1 hc)
    revert h'
    unfold granErr
    split <;> simp

theorem gran_mem {s : Str} : ∀ n ∈ granErr s, n ∈ [40, 42, 43, 44, 45, 46] := by
  unfold granErr; split <;> simp

theorem pos_mem {t : Token} : ∀ n ∈ posNums t, n ∈ [40, 42, 43, 44, 45, 46] := fun n h => by
  have := (posNums_sorted t).2.1 n h
  exact List.mem_cons_of_mem _ this

theorem pos_reports {t : Token} (ht : Typed t) : RangeReports t (posNums t) := ⟨(posNums_sorted t).1, range_iff ht⟩

theorem level_reports {before after : List (Token × Role)} {t : Token} (ht : Typed t) (hb : t.base = .SPEED_ALTITUDE) :
    WordReports before (t, .note) after (granErr (restOf t.text)) := by
  obtain ⟨h1, h2, h3⟩ := level_facts ht hb
  unfold WordReports
  simp only [hb]
  exact ⟨_, _, h1, h2, h3, gran_reports _⟩

/-- The messages about the levels of a cruise climb. -/
theorem climb_reports {before after : List (Token × Role)} {t : Token} {a : Act} {k : Prop} (ht : Typed t) (h : ClimbActG k t a) :
    a.tok = t ∧ WordReports before (t, .note) after a.nums ∧ ∀ n ∈ a.nums, n ∈ [40, 42, 43, 44, 45, 46] := by
  rcases h with ⟨hb, hbad, rfl, _⟩ | ⟨hb, rfl, _⟩
  · obtain ⟨f1, f2, f3, _, f4⟩ := levels_facts ht hb hbad
    have f4' : t.text = spOf t.text ++ lv1Of t.text ++ tailOf t.text := by rw [List.append_assoc]; exact f4
    have hx := (level_split f4' f1 f2).2.2
    have hlen : (UnitDigits ['K', 'N'] 4 (spOf t.text) ∧ UnitDigits ['F', 'A'] 3 (lv1Of t.text)) ↔
        ((spOf t.text).length = 5 ∧ (lv1Of t.text).length = 4) := by
      constructor
      · rintro ⟨⟨u, d, _, h1, h2, _⟩, ⟨u', d', _, h3, h4, _⟩⟩
        rw [h1, h3]; simp [h2, h4]
      · rintro ⟨a1, a2⟩
        constructor
        · rcases f1 with ⟨u, d, _, h1, h2, _⟩ | f1
          · rw [h1] at a1; simp [h2] at a1
          · exact f1
        · rcases f2 with f2 | ⟨u, d, _, h1, h2, _⟩
          · exact f2
          · rw [h1] at a2; simp [h2] at a2
    refine ⟨rfl, ?_, ?_⟩
    · unfold WordReports
      simp only [hb]
      refine ⟨_, _, _, f1, f2, f3, f4', granErr (lv1Of t.text), granErr (lv2Of t.text), rfl, gran_reports _, ?_⟩
      unfold lv2Of
      by_cases hc : (spOf t.text).length = 5 ∧ (lv1Of t.text).length = 4
      · rw [if_pos hc, if_pos (hx.2 (hlen.2 hc))]; exact gran_reports _
      · rw [if_neg hc, if_neg (fun h => hc (hlen.1 (hx.1 h)))]
        obtain ⟨u, d, h1, h2⟩ : ∃ u d, tailOf t.text = u :: d ∧ ∀ c ∈ d, Digit c := by
          rcases f3 with ⟨u, d, _, h1, _, h2⟩ | ⟨u, d, _, h1, _, h2⟩ <;> exact ⟨u, d, h1, h2⟩
        rw [h1, List.drop_one, List.tail_cons]
        refine gran_iff.2 ?_
        rintro d' rfl
        exact absurd (h2 _ (List.mem_cons_self ..)) (by unfold Digit; decide)
    · intro n hn
      rcases List.mem_append.1 hn with h | h <;> exact gran_mem n h
  · obtain ⟨f1, f2, f3, f4⟩ := plus_facts ht hb
    refine ⟨rfl, ?_, gran_mem⟩
    unfold WordReports
    simp only [hb]
    exact ⟨_, _, f1, f2, by rw [List.append_assoc, ← f3]; exact f4, gran_reports _⟩

theorem quiet_note {before after : List (Token × Role)} {t : Token} (hb : t.base ≠ .SPEED_ALTITUDE) (hb1 : t.base ≠ .SPEED_ALTITUDE_PLUS)
    (hb2 : t.base ≠ .SPEED_ALTITUDE_ALTITUDE) : WordReports before (t, .note) after [] := by
  unfold WordReports
  dsimp only
  split
  · exact absurd ‹_› hb
  · exact absurd ‹_› hb1
  · exact absurd ‹_› hb2
  · rfl

theorem quiet_head {before after : List (Token × Role)} {t : Token} (hb : t.base ≠ .POINT) : WordReports before (t, .head) after [] := by
  unfold WordReports; simp [hb]

theorem point_reports {before after : List (Token × Role)} {t : Token} (ht : Typed t) (hb : t.base = .POINT) (ho : ¬ Overlooked before after) :
    WordReports before (t, .head) after (posNums t) := by
  unfold WordReports
  dsimp only
  rw [if_pos hb]
  exact .inr ⟨ho, pos_reports ht⟩

theorem not_overlooked {before after : List (Token × Role)} (h : ifrWord before.getLast? = false ∨ nextVfr after = false) :
    ¬ Overlooked before after := by
  intro hc
  have := overlooked_iff.2 hc
  rcases h with h | h <;> simp [h] at this

/-! ### The run -/

theorem run_reported {q : Phase} {ts : List Token} {as : List Act} {k : Prop} (h : RunG k q ts as) : (∀ t ∈ ts, Typed t) →
    ∀ before : List (Token × Role), ReadAs q before.getLast? → Reported (F := F) before (mark (modeOf q) ts) (as.flatMap Act.msgs) := by
  have last : ∀ (b : List (Token × Role)) (m : Token × Role), (b ++ [m]).getLast? = some m := by intro b m; simp
  induction h with
  | stop q => intro _ before _; rw [mark_nil]; exact .nil
  | @truncate q t hq hb =>
    intro _ before _
    rw [mark_plain hq (not_cruise (by simp [hb])), mark_nil, show roleOf (decide (q = .adep)) t = .note by simp [roleOf, hb]]
    exact .skip (quiet_note (by simp [hb]) (by simp [hb]) (by simp [hb])) .nil
  | @star q t hq hb =>
    intro _ before _
    rw [mark_plain hq (not_cruise (by rcases hb with hb | ⟨hb, _⟩ <;> simp [hb])), mark_nil,
      show roleOf (decide (q = .adep)) t = .star by rcases hb with hb | ⟨hb, h⟩ <;> simp [roleOf, *]]
    exact .skip rfl .nil
  | @sid t ts as hb h ih =>
    intro hT before _
    show Reported before (mark (.route true) (t :: ts)) _
    rw [mark_route (by rcases hb with hb | hb <;> simp [hb]),
      show roleOf true t = .sid by rcases hb with hb | hb <;> simp [roleOf, hb],
      show modeAfter t = .route false by rcases hb with hb | hb <;> simp [modeAfter, hb]]
    exact .skip rfl (ih (fun x hx => hT x (by simp [hx])) _ (by rw [last]; exact .inr rfl))
  | @dct q t ts as hq hb h ih | @route q t ts as hq hb h ih =>
    intro hT before _
    rw [mark_plain hq (not_cruise (by simp [hb])), show roleOf (decide (q = .adep)) t = .head by simp [roleOf, hb],
      show modeAfter t = .route false by simp [modeAfter, hb]]
    exact .skip (quiet_head (by simp [hb])) (ih (fun x hx => hT x (by simp [hx])) _ (by rw [last]; exact fine_head))
  | @point q t ts as hq hb hn h ih =>
    intro hT before hr
    rw [mark_plain hq (not_cruise (by simp [hb])), show roleOf (decide (q = .adep)) t = .head by simp [roleOf, hb],
      show modeAfter t = .route false by simp [modeAfter, hb]]
    exact .word (point_reports (hT t (by simp)) hb (not_overlooked (.inl (hr.not hq)))) pos_mem
      (ih (fun x hx => hT x (by simp [hx])) _ (by rw [last]; exact fine_head))
  | @climb q t ts as hq hb h ih =>
    intro hT before _
    rw [mark_plain hq (climb_next h), show roleOf (decide (q = .adep)) t = .head by simp [roleOf, hb],
      show modeAfter t = .route false by simp [modeAfter, hb]]
    exact .skip (quiet_head (by simp [hb])) (ih (fun x hx => hT x (by simp [hx])) _ (by rw [last]; exact fine_head))
  | @cruise q t s p s' l a ts as hq hb hs hp hs' hl h ih =>
    intro hT before _
    rw [mark_cruise hq hb hs hs' hl.base]
    have hTl : Typed l := hT l (by simp)
    refine .skip (quiet_note (by simp [hb]) (by simp [hb]) (by simp [hb])) (.skip (quiet_note (by simp [hs]) (by simp [hs]) (by simp [hs])) ?_)
    rw [List.flatMap_cons, List.flatMap_cons]
    refine .word (l := posNums p) (pos_reports (hT p (by simp))) pos_mem
      (.skip (quiet_note (by simp [hs']) (by simp [hs']) (by simp [hs'])) ?_)
    obtain ⟨e1, e2, e3⟩ := climb_reports (before := before ++ [(t, .note)] ++ [(s, .note)] ++ [(p, .slot)] ++ [(s', .note)])
      (after := mark (.route false) ts) hTl hl
    have : (a.msgs : List (Record F)) = a.nums.map (errRec l) := by unfold Act.msgs; rw [e1]
    rw [this]
    exact .word e2 e3 (ih (fun x hx => hT x (by simp [hx])) _ (by rw [last]; exact fine_note))
  | @stay q t s m ts as hq hb hs hm h ih =>
    intro hT before _
    rw [mark_plain hq (not_cruise (by simp [hb])), show roleOf (decide (q = .adep)) t = .note by simp [roleOf, hb],
      show modeAfter t = .route false by simp [modeAfter, hb], mark_route (by simp [hs]), show roleOf false s = .note by simp [roleOf, hs],
      show modeAfter s = .route false by simp [modeAfter, hs], mark_route (by simp [hm]), show roleOf false m = .note by simp [roleOf, hm],
      show modeAfter m = .route false by simp [modeAfter, hm]]
    exact .skip (quiet_note (by simp [hb]) (by simp [hb]) (by simp [hb])) (.skip (quiet_note (by simp [hs]) (by simp [hs]) (by simp [hs]))
      (.skip (quiet_note (by simp [hm]) (by simp [hm]) (by simp [hm])) (ih (fun x hx => hT x (by simp [hx])) _ (by rw [last]; exact fine_note))))
  | @break_ q t ts as hq hb h ih =>
    intro hT before _
    rw [mark_plain hq (not_cruise (by simp [hb])), show roleOf (decide (q = .adep)) t = .head by simp [roleOf, hb],
      show modeAfter t = .text (rulesOfBreak t.sub) by simp [modeAfter, hb]]
    exact .skip (quiet_head (by simp [hb])) (ih (fun x hx => hT x (by simp [hx])) _ fine_text)
  | @level f s l ts as hs hb hl h ih =>
    intro hT before _
    show Reported before (mark (.route false) (s :: l :: ts)) _
    rw [mark_route (by simp [hs]), show roleOf false s = .note by simp [roleOf, hs],
      show modeAfter s = .route false by simp [modeAfter, hs], mark_route (by simp [hb]), show roleOf false l = .note by simp [roleOf, hb],
      show modeAfter l = .route false by simp [modeAfter, hb]]
    exact .skip (quiet_note (by simp [hs]) (by simp [hs]) (by simp [hs])) (.word (level_reports (hT l (by simp)) hb) gran_mem
      (ih (fun x hx => hT x (by simp [hx])) _ (by rw [last]; exact fine_note)))
  | @vfr f s l ts as hs hb h ih =>
    intro hT before _
    show Reported before (mark (.route false) (s :: l :: ts)) _
    rw [mark_route (by simp [hs]), show roleOf false s = .note by simp [roleOf, hs],
      show modeAfter s = .route false by simp [modeAfter, hs], mark_route (by simp [hb]), show roleOf false l = .head by simp [roleOf, hb],
      show modeAfter l = .text (py! "VFR") by simp [modeAfter, hb]]
    exact .skip (quiet_note (by simp [hs]) (by simp [hs]) (by simp [hs])) (.skip (quiet_head (by simp [hb]))
      (ih (fun x hx => hT x (by simp [hx])) _ fine_text))
  | @word r t ts as hb hc h ih =>
    intro hT before _
    show Reported before (mark (.text r) (t :: ts)) _
    rw [mark_word hc]
    exact .skip rfl (ih (fun x hx => hT x (by simp [hx])) _ fine_text)
  | @resume r t p ts as hc hi hb hp hn h ih =>
    intro hT before _
    show Reported before (mark (.text r) (t :: p :: ts)) _
    rw [mark_close hc (not_readOn hp (.inl hi)), mark_route (by simp [hp]), show roleOf false p = .head by simp [roleOf, hp],
      show modeAfter p = .route false by simp [modeAfter, hp]]
    exact .skip rfl (.word (l := posNums p) (point_reports (hT p (by simp)) hp (not_overlooked (.inl (by rw [last]; simp [ifrWord, hi])))) pos_mem
      (ih (fun x hx => hT x (by simp [hx])) _ (by rw [last]; exact fine_head)))
  | @resumeIfr r t p s l ts as hc hi hb hp hn hs hl hk h ih =>
    intro hT before _
    show Reported before (mark (.text r) (t :: p :: s :: l :: ts)) _
    rw [mark_close hc (not_readOn hp (.inr (by simp [hs]))), mark_route (by simp [hp]), show roleOf false p = .head by simp [roleOf, hp],
      show modeAfter p = .route false by simp [modeAfter, hp], mark_route (by simp [hs]), show roleOf false s = .note by simp [roleOf, hs],
      show modeAfter s = .route false by simp [modeAfter, hs], mark_route (by simp [hl]), show roleOf false l = .note by simp [roleOf, hl],
      show modeAfter l = .route false by simp [modeAfter, hl]]
    exact .skip rfl (.word (l := posNums p) (point_reports (hT p (by simp)) hp (not_overlooked (.inr (by simp [nextVfr, hl])))) pos_mem
      (.skip (quiet_note (by simp [hs]) (by simp [hs]) (by simp [hs])) (.word (level_reports (hT l (by simp)) hl) gran_mem
        (ih (fun x hx => hT x (by simp [hx])) _ (by rw [last]; exact fine_note)))))
  | @resumeVfr r t p s l ts as hc hi hb hp hs hl h ih =>
    intro hT before _
    show Reported before (mark (.text r) (t :: p :: s :: l :: ts)) _
    rw [mark_close hc (not_readOn hp (.inr (by simp [hs]))), mark_route (by simp [hp]), show roleOf false p = .head by simp [roleOf, hp],
      show modeAfter p = .route false by simp [modeAfter, hp], mark_route (by simp [hs]), show roleOf false s = .note by simp [roleOf, hs],
      show modeAfter s = .route false by simp [modeAfter, hs], mark_route (by simp [hl]), show roleOf false l = .head by simp [roleOf, hl],
      show modeAfter l = .text (py! "VFR") by simp [modeAfter, hl]]
    refine .skip rfl (.skip ?_ (.skip (quiet_note (by simp [hs]) (by simp [hs]) (by simp [hs])) (.skip (quiet_head (by simp [hl]))
      (ih (fun x hx => hT x (by simp [hx])) _ fine_text))))
    unfold WordReports
    dsimp only
    rw [if_pos hp]
    exact .inl ⟨overlooked_iff.1 (by rw [last]; simp [ifrWord, nextVfr, hi, hs, hl]), rfl⟩

theorem sent_reported {t : Token} {ts : List Token} {as : List Act} {k : Prop} (h : SentRunG k (t :: ts) as) (hT : ∀ x ∈ t :: ts, Typed x) :
    Reported (F := F) [] (roles (t :: ts)) (as.flatMap Act.msgs) := by
  cases h with
  | ifr hb hl hne h =>
    unfold roles
    dsimp only
    rw [if_neg (by simp [hb])]
    exact .word (level_reports (hT t (by simp)) hb) gran_mem (run_reported h (fun x hx => hT x (by simp [hx])) _ fine_note)
  | vfr hb h =>
    unfold roles
    dsimp only
    rw [if_pos hb]
    exact .skip (quiet_head (by simp [hb])) (run_reported h (fun x hx => hT x (by simp [hx])) _ fine_text)

/-! ### Words of the same kinds -/

/-- The kinds of words. -/
def kindsOf (l : List Token) : List (BaseType × SubType) := l.map fun t => (t.base, t.sub)

theorem kinds_cons {t : Token} {ts U : List Token} (h : kindsOf (t :: ts) = kindsOf U) :
    ∃ u us, U = u :: us ∧ u.base = t.base ∧ u.sub = t.sub ∧ kindsOf ts = kindsOf us := by
  cases U with
  | nil => cases h
  | cons u us =>
    simp only [kindsOf, List.map_cons, List.cons.injEq, Prod.mk.injEq] at h
    exact ⟨u, us, rfl, h.1.1.symm, h.1.2.symm, h.2⟩

theorem kinds_nil {U : List Token} (h : kindsOf [] = kindsOf U) : U = [] := by
  cases U with
  | nil => rfl
  | cons u us => cases h

theorem kinds_allows {q : Phase} {t u : Token} (hb : u.base = t.base) (hs : u.sub = t.sub) (h : q.allows t = true) : q.allows u = true := by
  cases q <;> simp only [Phase.allows, isFixed, hb, hs] at h ⊢ <;> exact h

theorem kinds_readOn {t u : Token} {ts us : List Token} (hs : u.sub = t.sub) (h : kindsOf ts = kindsOf us) (hr : readOn t ts) : readOn u us := by
  cases ts with
  | nil => rw [kinds_nil h]; trivial
  | cons p rest =>
    obtain ⟨p', us, rfl, hb, _, h⟩ := kinds_cons h
    rcases hr with hr | ⟨h1, s, r', rfl, h2⟩
    · exact .inl (by rw [hb]; exact hr)
    · obtain ⟨s', us, rfl, hb', _, h⟩ := kinds_cons h
      exact .inr ⟨by rw [hs]; exact h1, s', us, rfl, by rw [hb']; exact h2⟩

theorem kinds_fixed {t u : Token} (hs : u.sub = t.sub) : isFixed u = isFixed t := by unfold isFixed; rw [hs]

theorem kinds_run {q : Phase} {ts : List Token} {as : List Act} {k : Prop} (h : RunG k q ts as) :
    ∀ U, kindsOf ts = kindsOf U → ∃ bs, RunG False q U bs := by
  induction h with
  | stop q => intro U hu; rw [kinds_nil hu]; exact ⟨_, .stop q⟩
  | truncate hq hb =>
    intro U hu
    obtain ⟨t', U, rfl, b1, s1, hu⟩ := kinds_cons hu
    rw [kinds_nil hu]
    exact ⟨_, .truncate (kinds_allows b1 s1 hq) (by rw [b1, hb])⟩
  | star hq hb =>
    intro U hu
    obtain ⟨t', U, rfl, b1, s1, hu⟩ := kinds_cons hu
    rw [kinds_nil hu]
    exact ⟨_, .star (kinds_allows b1 s1 hq) (by rw [b1]; exact hb)⟩
  | sid hb _ ih =>
    intro U hu
    obtain ⟨t', U, rfl, b1, s1, hu⟩ := kinds_cons hu
    obtain ⟨bs, hr⟩ := ih U hu
    exact ⟨_, .sid (by rw [b1]; exact hb) hr⟩
  | dct hq hb _ ih =>
    intro U hu
    obtain ⟨t', U, rfl, b1, s1, hu⟩ := kinds_cons hu
    obtain ⟨bs, hr⟩ := ih U hu
    exact ⟨_, .dct (kinds_allows b1 s1 hq) (by rw [b1]; exact hb) hr⟩
  | route hq hb _ ih =>
    intro U hu
    obtain ⟨t', U, rfl, b1, s1, hu⟩ := kinds_cons hu
    obtain ⟨bs, hr⟩ := ih U hu
    exact ⟨_, .route (kinds_allows b1 s1 hq) (by rw [b1]; exact hb) hr⟩
  | point hq hb _ _ ih =>
    intro U hu
    obtain ⟨t', U, rfl, b1, s1, hu⟩ := kinds_cons hu
    obtain ⟨bs, hr⟩ := ih U hu
    rw [← kinds_fixed s1] at hr
    exact ⟨_, .point (kinds_allows b1 s1 hq) (by rw [b1]; exact hb) (fun h => h.elim) hr⟩
  | climb hq hb _ ih =>
    intro U hu
    obtain ⟨t', U, rfl, b1, s1, hu⟩ := kinds_cons hu
    obtain ⟨bs, hr⟩ := ih U hu
    exact ⟨_, .climb (kinds_allows b1 s1 hq) (by rw [b1]; exact hb) hr⟩
  | cruise hq hb hs _ hs' hl _ ih =>
    intro U hu
    obtain ⟨t', U, rfl, b1, s1, hu⟩ := kinds_cons hu
    obtain ⟨a1, U, rfl, b2, s2, hu⟩ := kinds_cons hu
    obtain ⟨a2, U, rfl, b3, s3, hu⟩ := kinds_cons hu
    obtain ⟨a3, U, rfl, b4, s4, hu⟩ := kinds_cons hu
    obtain ⟨a4, U, rfl, b5, s5, hu⟩ := kinds_cons hu
    obtain ⟨bs, hr⟩ := ih U hu
    rw [← kinds_fixed s3] at hr
    have : ∃ b, ClimbActG False a4 b := by
      rcases hl with ⟨h1, h2, _, _⟩ | ⟨h1, _, _⟩
      · exact ⟨_, .inl ⟨by rw [b5]; exact h1, by rw [s5]; exact h2, rfl, fun h => h.elim⟩⟩
      · exact ⟨_, .inr ⟨by rw [b5]; exact h1, rfl, fun h => h.elim⟩⟩
    obtain ⟨b, hb'⟩ := this
    exact ⟨_, .cruise (kinds_allows b1 s1 hq) (by rw [b1]; exact hb) (by rw [b2]; exact hs) (fun h => h.elim) (by rw [b4]; exact hs') hb' hr⟩
  | stay hq hb hs hm _ ih =>
    intro U hu
    obtain ⟨t', U, rfl, b1, s1, hu⟩ := kinds_cons hu
    obtain ⟨a1, U, rfl, b2, s2, hu⟩ := kinds_cons hu
    obtain ⟨a2, U, rfl, b3, s3, hu⟩ := kinds_cons hu
    obtain ⟨bs, hr⟩ := ih U hu
    exact ⟨_, .stay (kinds_allows b1 s1 hq) (by rw [b1]; exact hb) (by rw [b2]; exact hs) (by rw [b3]; exact hm) hr⟩
  | break_ hq hb _ ih =>
    intro U hu
    obtain ⟨t', U, rfl, b1, s1, hu⟩ := kinds_cons hu
    obtain ⟨bs, hr⟩ := ih U hu
    rw [← s1] at hr
    exact ⟨_, .break_ (kinds_allows b1 s1 hq) (by rw [b1]; exact hb) hr⟩
  | level hs hb _ _ ih =>
    intro U hu
    obtain ⟨t', U, rfl, b1, s1, hu⟩ := kinds_cons hu
    obtain ⟨a1, U, rfl, b2, s2, hu⟩ := kinds_cons hu
    obtain ⟨bs, hr⟩ := ih U hu
    exact ⟨_, .level (by rw [b1]; exact hs) (by rw [b2]; exact hb) (fun h => h.elim) hr⟩
  | vfr hs hb _ ih =>
    intro U hu
    obtain ⟨t', U, rfl, b1, s1, hu⟩ := kinds_cons hu
    obtain ⟨a1, U, rfl, b2, s2, hu⟩ := kinds_cons hu
    obtain ⟨bs, hr⟩ := ih U hu
    exact ⟨_, .vfr (by rw [b1]; exact hs) (by rw [b2]; exact hb) hr⟩
  | word hb hc _ ih =>
    intro U hu
    obtain ⟨t', U, rfl, b1, s1, hu⟩ := kinds_cons hu
    obtain ⟨bs, hr⟩ := ih U hu
    refine ⟨_, .word (by rw [b1]; exact hb) (fun h => kinds_readOn s1 hu (hc ?_)) hr⟩
    unfold closes at h ⊢; rw [s1] at h; exact h
  | resume hc hi hb hp _ _ ih =>
    intro U hu
    obtain ⟨t', U, rfl, b1, s1, hu⟩ := kinds_cons hu
    obtain ⟨a1, U, rfl, b2, s2, hu⟩ := kinds_cons hu
    obtain ⟨bs, hr⟩ := ih U hu
    rw [← kinds_fixed s2] at hr
    refine ⟨_, .resume ?_ (by rw [s1]; exact hi) (by rw [b1]; exact hb) (by rw [b2]; exact hp) (fun h => h.elim) hr⟩
    unfold closes at hc ⊢; rw [s1]; exact hc
  | resumeIfr hc hi hb hp _ hs hl _ _ ih =>
    intro U hu
    obtain ⟨t', U, rfl, b1, s1, hu⟩ := kinds_cons hu
    obtain ⟨a1, U, rfl, b2, s2, hu⟩ := kinds_cons hu
    obtain ⟨a2, U, rfl, b3, s3, hu⟩ := kinds_cons hu
    obtain ⟨a3, U, rfl, b4, s4, hu⟩ := kinds_cons hu
    obtain ⟨bs, hr⟩ := ih U hu
    rw [← kinds_fixed s2] at hr
    refine ⟨_, .resumeIfr ?_ (by rw [s1]; exact hi) (by rw [b1]; exact hb) (by rw [b2]; exact hp) (fun h => h.elim) (by rw [b3]; exact hs)
      (by rw [b4]; exact hl) (fun h => h.elim) hr⟩
    unfold closes at hc ⊢; rw [s1]; exact hc
  | resumeVfr hc hi hb hp hs hl _ ih =>
    intro U hu
    obtain ⟨t', U, rfl, b1, s1, hu⟩ := kinds_cons hu
    obtain ⟨a1, U, rfl, b2, s2, hu⟩ := kinds_cons hu
    obtain ⟨a2, U, rfl, b3, s3, hu⟩ := kinds_cons hu
    obtain ⟨a3, U, rfl, b4, s4, hu⟩ := kinds_cons hu
    obtain ⟨bs, hr⟩ := ih U hu
    refine ⟨_, .resumeVfr ?_ (by rw [s1]; exact hi) (by rw [b1]; exact hb) (by rw [b2]; exact hp) (by rw [b3]; exact hs)
      (by rw [b4]; exact hl) hr⟩
    unfold closes at hc ⊢; rw [s1]; exact hc

theorem kinds_sent {ts U : List Token} {as : List Act} {k : Prop} (h : SentRunG k ts as) (hu : kindsOf ts = kindsOf U) :
    ∃ bs, SentRunG False U bs := by
  cases h with
  | ifr hb hl hne h =>
    obtain ⟨t', U, rfl, b1, s1, hu⟩ := kinds_cons hu
    obtain ⟨bs, hr⟩ := kinds_run h U hu
    refine ⟨_, .ifr (by rw [b1]; exact hb) (fun h => h.elim) ?_ hr⟩
    rintro rfl
    exact hne (List.map_eq_nil_iff.1 hu)
  | vfr hb h =>
    obtain ⟨t', U, rfl, b1, s1, hu⟩ := kinds_cons hu
    obtain ⟨bs, hr⟩ := kinds_run h U hu
    exact ⟨_, .vfr (by rw [b1]; exact hb) hr⟩

end F15
