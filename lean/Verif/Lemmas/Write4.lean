import Verif.Lemmas.Write3
/-!
# Reading what is written from the elements: the induction
-/

namespace F15
open Spec

set_option linter.unusedSectionVars false
variable {F : Type} [PyFloat F]

theorem waits_refl (q : Phase) (p : Record F) : Waits q p p := by cases q <;> rfl

theorem put_note {a : Act} (hr : a.records = false) (p : Record F) (rs : List (Record F)) : puts [a] (p :: rs) = a.tweak p :: rs := by
  show (if a.records then _ else _) = _
  rw [hr]; rfl

theorem stay_allows {q : Phase} (hq : q = .climb ∨ ∃ f, q = .point f) {w : Token} (h : Phase.stay.allows w = true)
    (hn : q = .point true → w.base ≠ .ROUTE) : q.allows w = true := by
  obtain ⟨x, s, e, b, u⟩ := w
  rcases hq with rfl | ⟨f, rfl⟩
  · cases b <;> first | rfl | exact absurd (show false = true from h) Bool.false_ne_true
  · cases f with
    | false => cases b <;> first | rfl | exact absurd (show false = true from h) Bool.false_ne_true
    | true => cases b <;> first | rfl | exact absurd (show false = true from h) Bool.false_ne_true | exact absurd rfl (hn rfl)

theorem from_stay {W : List Token} {as : List Act} (h : Run .stay W as) {q : Phase} (hq : q = .climb ∨ ∃ f, q = .point f)
    (hn : ∀ w rest, W = w :: rest → q = .point true → w.base ≠ .ROUTE) : Run q W as := by
  have al : ∀ w rest, W = w :: rest → Phase.stay.allows w = true → q.allows w = true := fun w rest hw ha => stay_allows hq ha (hn w rest hw)
  have na : q ≠ .adep := by rcases hq with rfl | ⟨f, rfl⟩ <;> intro h <;> cases h
  clear hn
  generalize hstay : Phase.stay = q0 at h al
  cases h with
  | stop => exact .stop _
  | truncate h1 h2 => exact .truncate (al _ _ rfl h1) h2
  | star h1 h2 => exact .star (al _ _ rfl h1) (h2.imp id fun h => ⟨h.1, na⟩)
  | sid => cases hstay
  | dct h1 h2 h3 => exact .dct (al _ _ rfl h1) h2 h3
  | route h1 h2 h3 => exact .route (al _ _ rfl h1) h2 h3
  | point h1 h2 h3 h4 => exact .point (al _ _ rfl h1) h2 h3 h4
  | climb h1 h2 h3 => exact .climb (al _ _ rfl h1) h2 h3
  | cruise h1 h2 h3 h4 h5 h6 h7 => exact .cruise (al _ _ rfl h1) h2 h3 h4 h5 h6 h7
  | stay h1 h2 => subst hstay; simp [Phase.allows, h2] at h1
  | break_ h1 h2 h3 => exact .break_ (al _ _ rfl h1) h2 h3
  | level | vfr | word | resume | resumeIfr | resumeVfr => cases hstay

theorem levels_shape (t : Token) (r : Record F) : ∃ x1 x2 x3 x4, (Act.levels t).tweak r = { r with
    speed := x1, speedSi := x2, altitude := x3, altitudeSi := x4, rules := ruleI, cruiseTo := lv2Of t.text, cruiseToSi := levelSi F (lv2Of t.text) } :=
  ⟨_, _, _, _, rfl⟩

theorem plus_shape (t : Token) {r : Record F} (h : r.cruiseToSi = 0) : ∃ x1 x2 x3 x4, (Act.plus t).tweak r = { r with
    speed := x1, speedSi := x2, altitude := x3, altitudeSi := x4, rules := ruleI, cruiseTo := py! "PLUS", cruiseToSi := 0 } := by
  have : ∃ x1 x2 x3 x4, (Act.plus t).tweak r = { r with
    speed := x1, speedSi := x2, altitude := x3, altitudeSi := x4, rules := ruleI, cruiseTo := py! "PLUS", cruiseToSi := r.cruiseToSi } := ⟨_, _, _, _, rfl⟩
  rw [h] at this; exact this

theorem put_stay (t : Token) (p : Record F) (rs : List (Record F)) : (Act.stay t).put (p :: rs) = setStay t.text p :: rs := rfl

theorem ends_base {t : Token} {r : Str} (ht : Typed t) (hc : closes t r) : t.base = .BREAK_END := by
  have hs : t.sub ∈ [SubType.IFR, .GAT, .IFPSTART] := by
    rcases hc with ⟨h, _⟩ | ⟨h, _⟩ | ⟨h, _⟩ <;> rw [h] <;> decide
  rcases typed_pair ht with ⟨_, h1⟩ | ⟨_, h1⟩ | ⟨x, hx, h1, h2⟩
  · rw [h1] at hs; exact absurd hs (by decide)
  · rw [h1] at hs; exact absurd hs (by decide)
  · have h := List.all_eq_true.1 (show (table.all fun r => !([SubType.IFR, .GAT, .IFPSTART].contains r.sub) || decide (r.base = .BREAK_END)) = true by decide +kernel) x hx
    rw [Bool.or_eq_true] at h
    rcases h with h | h
    · rw [h2] at hs
      rw [List.contains_iff_mem.2 hs] at h; cases h
    · rw [h1]; simpa using h

/-- Behind a word that ends free text. -/
theorem says_end {r : Str} {t : Token} {ts0 : List Token} {as as' : List Act} {p p1 : Record F} {N : List (Record F)} {W : List Str} (ht : Typed t) (hf : TextOk t.text)
    (hc : closes t r) (hg : Flown p) (h1 : ∀ rs, puts as (p.appendBreakText t.text :: rs) = (p1 :: N).reverse ++ p.appendBreakText t.text :: rs)
    (hw : routeWords (p1 :: N) = W) (hfw : ∀ w ∈ W, TextOk w)
    (hr : Run (.text r) (t.re :: W.map tk) (.text t.re :: as')) (h2 : ∀ rs, puts as' (p.appendBreakText t.text :: rs) = (p1 :: N).reverse ++ p.appendBreakText t.text :: rs) :
    CanSay (.text r) (t :: ts0) (.text t :: as) p := by
  have hre := tk_re ht
  have ho : out (.text r) [t.text] (p.appendBreakText t.text) (p1 :: N) = t.text :: W := by
    show [t.text] ++ routeWords (p1 :: N) = _
    rw [hw]; rfl
  refine ⟨[t.text], p.appendBreakText t.text, p1 :: N, h1, rfl, ?_, ?_, (fun h => by rcases h with h | h <;> cases h), ⟨.text t.re :: as', ?_, ?_⟩, ?_⟩
  · have := appends_eq [t.text] p
    have e : p.appendBreakText t.text = { p with breakText := (p.appendBreakText t.text).breakText } := this
    rw [e]; exact hg.congr rfl rfl rfl rfl
  · rw [ho]
    intro w h
    rcases List.mem_cons.1 h with rfl | h
    · exact hf
    · exact hfw w h
  · rw [ho]
    show Run (.text r) (tk t.text :: W.map tk) _
    rw [hre]; exact hr
  · intro p' rs hp
    rw [show p' = p from hp]
    exact h2 rs
  · intro _ _
    rw [ho]
    show some (tk t.text).base = some t.base ∧ ∀ u u' : Token, u'.sub = u.sub → readOn u (t :: ts0) → readOn u' (tk t.text :: W.map tk)
    rw [hre]
    refine ⟨rfl, fun u u' _ _ => .inl ?_⟩
    show t.base ≠ .POINT
    rw [ends_base ht hc]; decide

/-- A point behind free text, and its words. -/
theorem point_words {f : Bool} {t : Token} {ts : List Token} {as : List Act} {r0 p1 : Record F} {ws : List Str} {N : List (Record F)} (b1 : r0.cruiseTo = [])
    (b2 : r0.base = .POINT) (b3 : r0.name = t.text)
    (S : Says (.point f) ts as r0 ws p1 N) : routeWords (p1 :: N) = t.text :: out (.point f) ws p1 N := by
  have e : p1 = { r0 with speed := p1.speed, speedSi := p1.speedSi, altitude := p1.altitude, altitudeSi := p1.altitudeSi, stayTime := p1.stayTime } := S.changes
  have e1 : p1.cruiseTo = [] := by rw [e]; exact b1
  have e2 : p1.base = .POINT := by rw [e]; exact b2
  have e3 : p1.name = t.text := by rw [e]; exact b3
  show ownWords p1 ++ aboutWords p1 N.head? ++ routeWords N = _
  rw [own_point e1 e2, e3]; rfl

theorem put_text (t : Token) (p : Record F) (rs : List (Record F)) : (Act.text t).put (p :: rs) = p.appendBreakText t.text :: rs := rfl

theorem put_level (t : Token) (p : Record F) (rs : List (Record F)) : (Act.level t).put (p :: rs) = (Act.level t).tweak p :: rs := rfl

theorem level_tweak (t : Token) (p : Record F) : ∃ x1 x2 x3 x4, (Act.level t).tweak p =
    { p with speed := x1, speedSi := x2, altitude := x3, altitudeSi := x4, rules := ruleI } := ⟨_, _, _, _, rfl⟩

theorem append_flown {p : Record F} (hg : Flown p) (w : Str) : Flown (p.appendBreakText w) := by
  have e : p.appendBreakText w = { p with breakText := (p.appendBreakText w).breakText } := appends_eq [w] p
  rw [e]; exact hg.congr rfl rfl rfl rfl

/-- The slash behind a point whose speed and level are written. -/
theorem out_slash {f : Bool} {ts : List Token} {as : List Act} {r0 p1 : Record F} {ws : List Str} {N : List (Record F)}
    (S : Says (.point f) ts as r0 ws p1 N) : ∃ w W, out (.point f) ws p1 N = py! "/" :: w :: W ∧ (p1.latLongValid = true → w = p1.speed ++ p1.altitude) := by
  show ∃ w W, levelWords p1 N.head? ++ stayWords p1 N.head? ++ routeWords N = _ ∧ _
  unfold levelWords
  cases hv : isVfr N.head? with
  | false => exact ⟨_, _, rfl, fun _ => rfl⟩
  | true =>
    rw [if_pos rfl]
    cases hl : p1.latLongValid with
    | true => exact ⟨_, _, rfl, fun _ => rfl⟩
    | false =>
      cases N with
      | nil => cases hv
      | cons v N =>
        have hs : stayWords p1 (some v) = [] ∨ ∃ a b, stayWords p1 (some v) = a :: b := by
          cases stayWords p1 (some v) with
          | nil => exact .inl rfl
          | cons a b => exact .inr ⟨a, b, rfl⟩
        rcases hs with hs | ⟨a, b, hs⟩
        · have ho : ∃ a b, ownWords v = a :: b := by
            unfold ownWords
            split
            · exact ⟨_, _, rfl⟩
            · split
              · exact ⟨_, _, rfl⟩
              · split <;> exact ⟨_, _, rfl⟩
          obtain ⟨a, b, ho⟩ := ho
          refine ⟨a, b ++ aboutWords v N.head? ++ routeWords N, ?_, fun h => by cases h⟩
          show _ ++ stayWords p1 (some v) ++ (ownWords v ++ aboutWords v N.head? ++ routeWords N) = _
          rw [hs, ho]; simp
        · refine ⟨a, b ++ routeWords (v :: N), ?_, fun h => by cases h⟩
          show _ ++ stayWords p1 (some v) ++ _ = _
          rw [hs]; simp

/-- A single recorded token. -/
theorem says_one {q q' : Phase} {ts ts' : List Token} {as : List Act} {a : Act} {t : Token} {p p1 : Record F} {ws : List Str} {N : List (Record F)}
    (ht : Typed t) (hf : TextOk t.text) (hq : q.allows t) (hg : Flown p) (he : Enters q p) (har : a.records = true) (hab : ∀ p : Record F, a.before p = p)
    (hw : Waits q' (bare (a.newRec p)) (bare (a.newRec p)))
    (S : Says q' ts' as (bare (a.newRec p)) ws p1 N) (own : ∀ x, ownWords p1 ++ aboutWords p1 x = t.text :: about q' ws p1 x)
    (hv : isVfr (some p1) = false) (hat : q = .point true → isAts (some p1) = false) (hh : t.base = .ROUTE → isAts (some p1) = true)
    (hc : ∀ W as', Run q' W as' → Run q (t.re :: W) (a.re :: as')) : CanSay q ts (a :: as) p := by
  have hr := tk_re ht
  refine says_item (a := [a]) (b := [a.re]) (hs := [t.text]) (no_text hq) hg he (put_push har hab p) (put_push_re har hab p) hw S own hv hat (by simp) ?_ ?_ ?_
  · intro w hw hb
    cases hw
    rw [hr] at hb
    exact hh hb
  · intro w hw; rw [List.mem_singleton.1 hw]; exact hf
  · intro W as' h
    show Run q (tk t.text :: W) _
    rw [hr]; exact hc W as' h

theorem inv_level {f : Bool} {s l : Token} {rest : List Token} {as : List Act} (h : Run (.point f) (s :: l :: rest) as) (hs : s.base = .SLASH) :
    (l.base = .SPEED_ALTITUDE ∧ (Act.level l).nums = [] ∧ ∃ as2, as = .level l :: as2 ∧ Run (.point f) rest as2) ∨
    (l.base = .SPEED_VFR ∧ ∃ as2, as = .vfr l :: as2 ∧ Run (.text (py! "VFR")) rest as2) := by
  generalize hq : Phase.point f = q at h
  cases h with
  | dct _ hb | route _ hb | climb _ hb | cruise _ hb | stay _ hb | break_ _ hb | point _ hb => rw [hs] at hb; cases hb
  | sid hb => cases hq
  | word | resume | resumeIfr | resumeVfr => cases hq
  | level h1 h2 h3 h4 => cases hq; exact .inl ⟨h2, h3 trivial, _, rfl, h4⟩
  | vfr h1 h2 h3 => exact .inr ⟨h2, _, rfl, h3⟩

/-- The SPEED/VFR element. -/
theorem vfr_new (l : Token) (p : Record F) : (Act.vfr l).newRec p = { Record.new (py! "VFR") l.start l.stop l.base l.sub with
    altitude := py! "F050", altitudeSi := levelSi F (py! "F050"), speed := spOf l.text, speedSi := speedSi F (spOf l.text) (levelSi F (py! "F050")),
    rules := ruleV } := rfl

theorem vfr_put (l : Token) (p : Record F) (rs : List (Record F)) : puts [.vfr l] (p :: rs) = bare ((Act.vfr l).newRec p) :: (Act.vfr l).before p :: rs := rfl

theorem vfr_text {l : Token} (ht : Typed l) (hb : l.base = .SPEED_VFR) : Speed (spOf l.text) ∧ spOf l.text ++ py! "VFR" = l.text := by
  obtain ⟨_, h1, h2⟩ := vfr_facts ht hb
  refine ⟨h1, ?_⟩
  rw [← h2]
  unfold spOf restOf
  split <;> exact List.take_append_drop _ _

theorem vfr_flown {l : Token} (ht : Typed l) (hb : l.base = .SPEED_VFR) (p : Record F) :
    Flown (bare ((Act.vfr l).newRec p)) ∧ Flown ((Act.vfr l).before p) := by
  have lv5 : Level (py! "F050") := .inl ⟨'F', _, by simp, rfl, rfl, by
    intro c hc
    simp only [List.mem_cons, List.not_mem_nil, or_false] at hc
    rcases hc with rfl | rfl | rfl <;> exact ⟨by decide, by decide⟩⟩
  have f5 : FiveStep (py! "F050") := gran_iff.1 (by decide)
  have hsp := (vfr_text ht hb).1
  exact ⟨⟨hsp, lv5, f5, rfl, rfl⟩, ⟨hsp, lv5, f5, rfl, rfl⟩⟩

/-- A SPEED/VFR and what follows it. -/
theorem says_vfr {l : Token} {ts : List Token} {as : List Act} {p : Record F} (ht : Typed l) (hb : l.base = .SPEED_VFR)
    (hS : CanSay (.text (py! "VFR")) ts as (bare ((Act.vfr l).newRec p))) :
    Flown ((Act.vfr l).before p) ∧ ∃ v N as', isVfr (some v) = true ∧ (∀ rs, puts as (bare ((Act.vfr l).newRec p) :: rs) = N.reverse ++ v :: rs) ∧
      (∀ w ∈ routeWords (v :: N), TextOk w) ∧ ∃ W, routeWords (v :: N) = l.text :: W ∧ Run (.text (py! "VFR")) (W.map tk) as' ∧
      ∀ rs, puts as' (bare ((Act.vfr l).newRec p) :: rs) = N.reverse ++ v :: rs := by
  obtain ⟨hsp, htx⟩ := vfr_text ht hb
  obtain ⟨ws, v, N, S⟩ := hS
  have hv : v = ws.foldl Record.appendBreakText (bare ((Act.vfr l).newRec p)) := S.changes
  have hv' := hv.trans (appends_eq ws _)
  have hws : ∀ w ∈ ws, TextOk w := fun w hw => S.fine w (List.mem_append.2 (.inl hw))
  have hbr : textWords v.breakText = ws := by rw [hv, appends_words ws hws]; rfl
  have hc : v.cruiseTo = [] := by rw [hv']; rfl
  have hb' : v.base = .SPEED_VFR := by rw [hv']; exact hb
  have hs' : v.speed = spOf l.text := by rw [hv']; rfl
  have hw : routeWords (v :: N) = l.text :: out (.text (py! "VFR")) ws v N := by
    show ownWords v ++ aboutWords v N.head? ++ routeWords N = _
    rw [own_vfr hc hb', hbr, hs', htx]; rfl
  obtain ⟨as', r1, r2⟩ := S.run
  refine ⟨(vfr_flown ht hb p).2, v, N, as', vfr_yes hb' hc, S.puts_eq, ?_, _, hw, r1, fun rs => r2 _ rs rfl⟩
  rw [hw]
  intro w hx
  rcases List.mem_cons.1 hx with rfl | hx
  · rw [← htx]; exact level_fine hsp (by decide)
  · exact S.fine w hx

set_option maxHeartbeats 1000000 in
theorem says {q : Phase} {ts : List Token} {as : List Act} (h : Run q ts as) (hT : ∀ t ∈ ts, Typed t) (hF : ∀ t ∈ ts, TextOk t.text) :
    ∀ p : Record F, Flown p → Enters q p → CanSay q ts as p := by
  induction h with
  | stop q =>
    intro p hg he
    by_cases hq : ∃ r, q = .text r
    · obtain ⟨r, rfl⟩ := hq; exact says_text_last hg
    · exact says_last (fun r h => hq ⟨r, h⟩) hg he
  | truncate hq hb => intro p hg he; exact says_last (no_text hq) hg he
  | star hq hb => intro p hg he; exact says_star (hT _ (by simp)) (hF _ (by simp)) hg he hq hb
  | @sid t ts as hb h ih =>
    intro p hg he
    have b : Flown (bare ((Act.sid t).newRec p)) := hg.congr rfl rfl rfl rfl
    obtain ⟨ws, p1, N, S⟩ := ih (fun x hx => hT x (by simp [hx])) (fun x hx => hF x (by simp [hx])) _ b trivial
    have e : p1 = bare ((Act.sid t).newRec p) := S.changes
    subst e
    refine says_one (a := .sid t) (hT t (by simp)) (hF t (by simp)) (q := .adep) ?_ hg he rfl (fun _ => rfl) (waits_refl _ _) S (fun x => ?_) ?_ ?_ ?_ ?_
    · rcases hb with hb | hb <;> simp [Phase.allows, hb]
    · rw [own_alone (by rfl) (by exact fun h => by cases h) (by exact fun h => by cases h) (by exact fun h => by cases h) (by exact fun h => by cases h)]; rfl
    · exact vfr_no (.inl fun h => by cases h)
    · intro h; cases h
    · intro h; rcases hb with hb | hb <;> rw [hb] at h <;> cases h
    · intro W as' h; exact .sid hb h
  | @dct q t ts as hq hb h ih =>
    intro p hg he
    have b := born_plain t p
    obtain ⟨ws, p1, N, S⟩ := ih (fun x hx => hT x (by simp [hx])) (fun x hx => hF x (by simp [hx])) _ (b.flown hg) trivial
    have e : p1 = bare ((Act.plain t).newRec p) := S.changes
    subst e
    refine says_one (a := .plain t) (hT t (by simp)) (hF t (by simp)) hq hg he rfl (fun _ => rfl) (waits_refl _ _) S (fun x => ?_) ?_ ?_ ?_ ?_
    · rw [own_alone b.cruise (by simp [b.base, hb]) (by simp [b.base, hb]) (by simp [b.base, hb]) (by simp [b.base, hb])]; rfl
    · exact vfr_no (.inl (by simp [b.base, hb]))
    · exact fun _ => ats_no (.inl (by simp [b.base, hb]))
    · intro h; rw [hb] at h; cases h
    · intro W as' h; exact .dct (by rw [allows_re]; exact hq) hb h
  | @route q t ts as hq hb h ih =>
    intro p hg he
    have b := born_route t p
    obtain ⟨ws, p1, N, S⟩ := ih (fun x hx => hT x (by simp [hx])) (fun x hx => hF x (by simp [hx])) _ (b.flown hg) trivial
    have e : p1 = bare ((Act.route t).newRec p) := S.changes
    subst e
    refine says_one (a := .route t) (hT t (by simp)) (hF t (by simp)) hq hg he rfl (fun _ => rfl) (waits_refl _ _) S (fun x => ?_) ?_ ?_ ?_ ?_
    · rw [own_alone b.cruise (by simp [b.base, hb]) (by simp [b.base, hb]) (by simp [b.base, hb]) (by simp [b.base, hb])]; rfl
    · exact vfr_no (.inl (by simp [b.base, hb]))
    · rintro rfl
      simp [Phase.allows, hb] at hq
    · intro _; exact ats_yes (by rw [b.base, hb]) b.cruise
    · intro W as' h; exact .route (by rw [allows_re]; exact hq) hb h
  | @climb q t ts as hq hb h ih =>
    intro p hg he
    have b := born_plain t p
    have hsub : isPlaced (bare ((Act.plain t).newRec p)) = false := by
      unfold isPlaced
      rw [b.sub]
      have := typed_in (hT t (by simp)) _ hb [.C] (by decide) (by decide +kernel)
      rw [List.mem_singleton.1 this]; decide
    obtain ⟨ws, p1, N, S⟩ := ih (fun x hx => hT x (by simp [hx])) (fun x hx => hF x (by simp [hx])) _ (b.flown hg) ⟨b.stay, hsub⟩
    have e : p1 = { bare ((Act.plain t).newRec p) with stayTime := p1.stayTime } := S.changes
    have e1 : p1.cruiseTo = [] := by rw [e]; rfl
    have e2 : p1.base = .C := by rw [e]; exact hb
    have e3 : p1.name = t.text := by rw [e]; rfl
    refine says_one (a := .plain t) (hT t (by simp)) (hF t (by simp)) hq hg he rfl (fun _ => rfl) (waits_refl _ _) S (fun x => ?_) ?_ ?_ ?_ ?_
    · rw [own_c e1 e2, e3]; rfl
    · exact vfr_no (.inl (by simp [e2]))
    · exact fun _ => ats_no (.inl (by simp [e2]))
    · intro h; rw [hb] at h; cases h
    · intro W as' h; exact .climb (by rw [allows_re]; exact hq) hb h
  | @point q t ts as hq hb hn h ih =>
    intro p hg he
    have b := born_point t p
    have hpl : isPlaced (bare ((Act.point t).newRec p)) = isFixed t := by unfold isPlaced isFixed; rw [b.sub]
    obtain ⟨ws, p1, N, S⟩ := ih (fun x hx => hT x (by simp [hx])) (fun x hx => hF x (by simp [hx])) _ (b.flown hg) ⟨rules_point t p, b.stay, hpl⟩
    have e : p1 = { bare ((Act.point t).newRec p) with speed := p1.speed, speedSi := p1.speedSi, altitude := p1.altitude, altitudeSi := p1.altitudeSi, stayTime := p1.stayTime } := S.changes
    have e1 : p1.cruiseTo = [] := by rw [e]; exact b.cruise
    have e2 : p1.base = .POINT := by rw [e]; exact b.base.trans hb
    have e3 : p1.name = t.text := by rw [e]; exact b.name
    refine says_one (a := .point t) (hT t (by simp)) (hF t (by simp)) hq hg he rfl (fun _ => rfl) (waits_refl _ _) S (fun x => ?_) ?_ ?_ ?_ ?_
    · rw [own_point e1 e2, e3]; rfl
    · exact vfr_no (.inl (by simp [e2]))
    · exact fun _ => ats_no (.inl (by simp [e2]))
    · intro h; rw [hb] at h; cases h
    · intro W as' h; exact .point (t := t.re) (by rw [allows_re]; exact hq) hb hn h
  | @cruise q t s c s' l a ts as hq hb hs hp hs' hl h ih =>
    intro p hg he
    have b := born_cc c p
    have hTt := hT t (by simp); have hTc := hT c (by simp); have hTl := hT l (by simp)
    have hb0 := b.flown hg
    have htext : t.text = py! "C" := by
      have h := tk_re hTt
      have hb' : (tk t.text).base = .C := by rw [h]; exact hb
      by_cases hu : (getTokenType t.text).1 = .UNKNOWN
      · exfalso
        unfold tk at hb'
        rw [assignSyntax_eq] at hb'
        split at hb'
        · cases hb'
        · have : (getTokenType t.text).1 = .C := hb'
          rw [hu] at this; cases this
      · rw [(tk_known hu).1] at hb'
        exact (c10_keywords _).2.2.2.1.1 hb'
    -- the climb
    have key : ∃ (to : Str) (si : Int) (b' : Act), (Reaches to ∨ to = py! "PLUS") ∧ to ≠ [] ∧ ClimbAct (tk (climbWord to)) b' ∧ a.records = false ∧ b'.records = false ∧
        Flown (a.tweak (bare ((Act.ccPoint c).newRec p))) ∧
        (∃ x1 x2 x3 x4, a.tweak (bare ((Act.ccPoint c).newRec p)) = { bare ((Act.ccPoint c).newRec p) with
          speed := x1, speedSi := x2, altitude := x3, altitudeSi := x4, rules := ruleI, cruiseTo := to, cruiseToSi := si }) ∧
        (∃ x1 x2 x3 x4, b'.tweak (bare ((Act.ccPoint c).newRec p)) = { bare ((Act.ccPoint c).newRec p) with
          speed := x1, speedSi := x2, altitude := x3, altitudeSi := x4, rules := ruleI, cruiseTo := to, cruiseToSi := si }) := by
      rcases hl with ⟨k1, k2, rfl, k4⟩ | ⟨k1, rfl, k3⟩
      · have hr := reaches_level hTl k1 k2 (k4 trivial)
        obtain ⟨c1, c2, c3, _⟩ := climb_level hr
        obtain ⟨f1, f2, _⟩ := levels_facts hTl k1 k2
        have hg1 : FiveStep (lv1Of l.text) := gran_iff.1 (List.append_eq_nil_iff.1 (show granErr (lv1Of l.text) ++ granErr (lv2Of l.text) = [] from k4 trivial)).1
        have hx := levels_shape (F := F) (tk (climbWord (lv2Of l.text))) (bare ((Act.ccPoint c).newRec p))
        rw [c2] at hx
        exact ⟨lv2Of l.text, levelSi F (lv2Of l.text), _, .inl hr, c3, c1, rfl, rfl, ⟨f1, f2, hg1, rfl, rfl⟩, levels_shape _ _, hx⟩
      · obtain ⟨f1, f2, _⟩ := plus_facts hTl k1
        have hg1 : FiveStep (lv1Of l.text) := gran_iff.1 (k3 trivial)
        have h0 : (bare ((Act.ccPoint c).newRec p)).cruiseToSi = 0 := by
          obtain ⟨la, lo, v, e⟩ := posHead_shape c (fresh p c)
          show (bare (posHead c (fresh p c))).cruiseToSi = 0
          rw [e]; rfl
        exact ⟨py! "PLUS", 0, _, .inr rfl, by decide, climb_plus, rfl, rfl, ⟨f1, f2, hg1, rfl, rfl⟩, plus_shape _ h0, plus_shape _ h0⟩
    obtain ⟨to, si, b', k1, k2, k3, ka, kb, k5, ⟨x1, x2, x3, x4, k6⟩, ⟨y1, y2, y3, y4, k7⟩⟩ := key
    have hpl : isPlaced (a.tweak (bare ((Act.ccPoint c).newRec p))) = isFixed c := by rw [k6]; unfold isPlaced isFixed; dsimp only; rw [b.sub]
    obtain ⟨ws, p1, N, S⟩ := ih (fun x hx => hT x (by simp [hx])) (fun x hx => hF x (by simp [hx])) _ k5 ⟨by rw [k6], by rw [k6]; exact b.stay, hpl⟩
    have e : p1 = { a.tweak (bare ((Act.ccPoint c).newRec p)) with speed := p1.speed, speedSi := p1.speedSi, altitude := p1.altitude, altitudeSi := p1.altitudeSi, stayTime := p1.stayTime } := S.changes
    have e1 : p1.cruiseTo = to := by rw [e, k6]
    have e3 : p1.name = c.text := by rw [e, k6]; exact b.name
    refine says_item (a := [.ccPoint c, a]) (b := [.ccPoint c.re, b']) (r0' := b'.tweak (bare ((Act.ccPoint c).newRec p)))
      (hs := [py! "C", py! "/", c.text, py! "/", climbWord to]) (no_text hq) hg he (r0 := a.tweak (bare ((Act.ccPoint c).newRec p))) ?_ ?_ ?_ S ?_ ?_ ?_ (by simp) ?_ ?_ ?_
    · intro rs
      rw [puts_cons, show (Act.ccPoint c).put (p :: rs) = bare ((Act.ccPoint c).newRec p) :: p :: rs from rfl]
      exact put_note ka _ _
    · intro rs
      rw [puts_cons, show (Act.ccPoint c.re).put (p :: rs) = bare ((Act.ccPoint c).newRec p) :: p :: rs from put_push_re (a := .ccPoint c) rfl (fun _ => rfl) p rs]
      exact put_note kb _ _
    · rw [k6, k7]; rfl
    · intro x; rw [own_cruise (by rw [e1]; exact k2), e1, e3]; rfl
    · exact vfr_no (.inr (by rw [e1]; exact k2))
    · exact fun _ => ats_no (.inr (by rw [e1]; exact k2))
    · intro w hw hr
      cases hw
      rw [c_base] at hr; cases hr
    · intro w hw
      simp only [List.mem_cons, List.not_mem_nil, or_false] at hw
      rcases hw with rfl | rfl | rfl | rfl | rfl
      · exact c_fine
      · exact slash_fine
      · exact hF c (by simp)
      · exact slash_fine
      · exact climb_fine k1
    · intro W as' h
      show Run q (tk (py! "C") :: tk (py! "/") :: tk c.text :: tk (py! "/") :: tk (climbWord to) :: W) _
      rw [tk_re hTc]
      have hc : tk (py! "C") = t.re := by rw [← htext]; exact tk_re hTt
      exact .cruise (by rw [hc, allows_re]; exact hq) c_base slash_base hp slash_base k3 h
  | @stay q t s m ts as hq hb hs hm h ih =>
    intro p hg he
    have hTm := hT m (by simp)
    have htm := stay_typed hTm hm
    obtain ⟨ws, p1, N, S⟩ := ih (fun x hx => hT x (by simp [hx])) (fun x hx => hF x (by simp [hx])) (setStay m.text p) (hg.congr rfl rfl rfl rfl) trivial
    have e : p1 = setStay m.text p := S.changes
    subst e
    obtain ⟨hv, hh⟩ := S.heads (.inl rfl)
    obtain ⟨as', r1, r2⟩ := S.run
    have r1 : Run .stay ((routeWords N).map tk) as' := r1
    have r2 : ∀ rs, puts as' (setStay m.text p :: rs) = N.reverse ++ setStay m.text p :: rs := fun rs => r2 _ rs rfl
    have hfin : ∀ w ∈ routeWords N, TextOk w := S.fine
    obtain ⟨v1, v2⟩ := stay_word htm
    have hst : (setStay m.text p).stayTime = stayVal m.text := rfl
    have hq' : q = .climb ∨ ∃ f, q = .point f := by
      cases q with
      | climb => exact .inl rfl
      | point f => exact .inr ⟨f, rfl⟩
      | _ => simp [Phase.allows, hb] at hq
    have hp0 : p.stayTime = 0 := by
      rcases hq' with rfl | ⟨f, rfl⟩
      · exact he.1
      · exact he.2.1
    -- behind the speed and level
    have mid : ∃ as2, Run q ((stayWords (setStay m.text p) N.head? ++ routeWords N).map tk) as2 ∧
        (∀ rs, puts as2 (p :: rs) = N.reverse ++ setStay m.text p :: rs) ∧ ∀ w ∈ stayWords (setStay m.text p) N.head?, TextOk w := by
      unfold stayWords
      rw [hst]
      split
      · refine ⟨.stay (tk (hoursMinutes (stayVal m.text))) :: as', ?_, ?_, ?_⟩
        · refine .stay ?_ stay_base slash_base (tk_stay v1) r1
          have : (tk (py! "STAY1")).base = t.base := by rw [stay_base, hb]
          rcases hq' with rfl | ⟨f, rfl⟩
          · simp [Phase.allows, stay_base]
          · simp [Phase.allows, stay_base]
        · intro rs
          have e : setStay (tk (hoursMinutes (stayVal m.text))).text p = setStay m.text p := by
            rw [tk_text]; unfold setStay; rw [v2]
          rw [puts_cons, put_stay, e, r2]
        · intro w hw
          simp only [List.mem_cons, List.not_mem_nil, or_false] at hw
          rcases hw with rfl | rfl | rfl
          · exact stay_fine
          · exact slash_fine
          · exact time_fine v1
      · rename_i hx
        have h0 : stayVal m.text = 0 := Decidable.byContradiction fun h => hx (.inl h)
        have same : setStay m.text p = p := by unfold setStay; rw [h0, ← hp0]
        refine ⟨as', ?_, ?_, (fun w hw => by cases hw)⟩
        · show Run q ((routeWords N).map tk) as'
          have base : ∀ w rest, (routeWords N).map tk = w :: rest → w.base = .ROUTE → isAts N.head? = true := by
            intro w rest hw hbr
            cases hrw : routeWords N with
            | nil => rw [hrw] at hw; cases hw
            | cons x y => rw [hrw] at hw; cases hw; exact hh x (by rw [hrw]; rfl) hbr
          refine from_stay r1 hq' fun w rest hw hf hbr => ?_
          have : isPlaced (setStay m.text p) = true := by subst hf; exact he.2.2
          exact hx (.inr ⟨this, base w rest hw hbr⟩)
        · intro rs
          have := r2 rs
          rw [same] at this ⊢; exact this
    obtain ⟨as2, m1, m2, m3⟩ := mid
    have pe : ∀ rs, puts (.stay m :: as) (p :: rs) = N.reverse ++ setStay m.text p :: rs := fun rs => S.puts_eq rs
    rcases hq' with rfl | ⟨f, rfl⟩
    · refine ⟨[], setStay m.text p, N, pe, rfl, hg.congr rfl rfl rfl rfl, ?_, (fun h => by rcases h with h | h <;> cases h), ⟨as2, m1, fun p' rs hw => ?_⟩, (fun r h => by cases h)⟩
      · intro w hw
        rcases List.mem_append.1 hw with hw | hw
        · exact m3 w hw
        · exact hfin w hw
      · rw [show p' = p from hw]; exact m2 rs
    · have ho : out (.point f) [] (setStay m.text p) N = py! "/" :: (p.speed ++ p.altitude) :: (stayWords (setStay m.text p) N.head? ++ routeWords N) := by
        show levelWords (setStay m.text p) _ ++ _ ++ _ = _
        unfold levelWords
        rw [hv, if_neg (by decide), List.append_assoc]; rfl
      obtain ⟨n1, n2⟩ := said_level hg he.1 m1
      refine ⟨[], setStay m.text p, N, pe, rfl, hg.congr rfl rfl rfl rfl, ?_, (fun h => by rcases h with h | h <;> cases h), ⟨_, by rw [ho]; exact n1, fun p' rs hw => ?_⟩, (fun r h => by cases h)⟩
      · rw [ho]
        intro w hw
        rcases List.mem_cons.1 hw with rfl | hw
        · exact slash_fine
        · rcases List.mem_cons.1 hw with rfl | hw
          · exact level_fine hg.sp (level_ge hg.lv)
          · rcases List.mem_append.1 hw with hw | hw
            · exact m3 w hw
            · exact hfin w hw
      · rw [n2 p' rs hw]; exact m2 rs
  | @break_ q t ts as hq hb h ih =>
    intro p hg he
    have b := born_brk t p
    obtain ⟨ws, p1, N, S⟩ := ih (fun x hx => hT x (by simp [hx])) (fun x hx => hF x (by simp [hx])) _ (b.flown hg) trivial
    have e0 : p1 = ws.foldl Record.appendBreakText (bare ((Act.brk t).newRec p)) := S.changes
    have e := e0.trans (appends_eq ws _)
    have hws : ∀ w ∈ ws, TextOk w := fun w hw => S.fine w (List.mem_append.2 (.inl hw))
    have hbr : textWords p1.breakText = ws := by rw [e0, appends_words ws hws, b.text]; rfl
    have e1 : p1.cruiseTo = [] := by rw [e]; exact b.cruise
    have e2 : p1.base = .BREAK_START := by rw [e]; exact b.base.trans hb
    have e3 : p1.name = t.text := by rw [e]; exact b.name
    refine says_one (a := .brk t) (hT t (by simp)) (hF t (by simp)) hq hg he rfl (fun _ => rfl) (waits_refl _ _) S (fun x => ?_) ?_ ?_ ?_ ?_
    · rw [own_brk e1 e2, e3, hbr]; rfl
    · exact vfr_no (.inl (by simp [e2]))
    · exact fun _ => ats_no (.inl (by simp [e2]))
    · intro h; rw [hb] at h; cases h
    · intro W as' h; exact .break_ (t := t.re) (by rw [allows_re]; exact hq) hb h
  | @level f s l ts as hs hb hl h ih =>
    intro p hg he
    obtain ⟨f1, f2, _⟩ := level_facts (hT l (by simp)) hb
    have hg2 : Flown ((Act.level l).tweak p) := ⟨f1, f2, gran_iff.1 (hl trivial), rfl, rfl⟩
    obtain ⟨x1, x2, x3, x4, ex⟩ := level_tweak l p
    have ex' : (Act.level l).tweak p = { p with speed := x1, speedSi := x2, altitude := x3, altitudeSi := x4 } := by rw [ex, ← he.1]
    have he2 : Enters (.point f) ((Act.level l).tweak p) := by rw [ex']; exact he
    obtain ⟨ws, p1, N, S⟩ := ih (fun x hx => hT x (by simp [hx])) (fun x hx => hF x (by simp [hx])) _ hg2 he2
    obtain ⟨as', r1, r2⟩ := S.run
    refine ⟨ws, p1, N, fun rs => S.puts_eq rs, ?_, S.flown, S.fine, (fun h => by rcases h with h | h <;> cases h), ⟨as', r1, fun p' rs hw => r2 p' rs ?_⟩, (fun r h => by cases h)⟩
    · have e : p1 = { (Act.level l).tweak p with speed := p1.speed, speedSi := p1.speedSi, altitude := p1.altitude, altitudeSi := p1.altitudeSi, stayTime := p1.stayTime } := S.changes
      rw [ex'] at e; exact e
    · have hw : p = { p' with speed := p.speed, speedSi := p.speedSi, altitude := p.altitude, altitudeSi := p.altitudeSi } := hw
      rw [ex', hw]; rfl
  | @vfr f s l ts as hs hb h ih =>
    intro p hg he
    have hTl := hT l (by simp)
    obtain ⟨hg1, v, N, as', hv, h1, hfin, W, hW, r1, r2⟩ := says_vfr (p := p) hTl hb
      (ih (fun x hx => hT x (by simp [hx])) (fun x hx => hF x (by simp [hx])) _ (vfr_flown hTl hb p).1 trivial)
    have hats : isAts (some v) = false := by
      unfold isVfr at hv
      have : v.base = .SPEED_VFR := by simp at hv; exact hv.1
      exact ats_no (.inl (by simp [this]))
    have hst : stayWords ((Act.vfr l).before p) (some v) = [] := by
      unfold stayWords
      rw [hats, if_neg]
      rintro (h | ⟨_, h⟩)
      · exact h he.2.1
      · cases h
    have run1 : Run (.point f) (tk (py! "/") :: l.re :: W.map tk) (.vfr l.re :: as') := .vfr (l := l.re) slash_base hb r1
    have put1 : ∀ (p' : Record F) rs, Waits (.point f) p p' → puts (.vfr l.re :: as') (p' :: rs) = (v :: N).reverse ++ (Act.vfr l).before p :: rs := by
      intro p' rs hw
      have hw : p = { p' with speed := p.speed, speedSi := p.speedSi, altitude := p.altitude, altitudeSi := p.altitudeSi } := hw
      have : (Act.vfr l.re).put (p' :: rs) = bare ((Act.vfr l).newRec p) :: (Act.vfr l).before p :: rs := by rw [hw]; rfl
      rw [puts_cons, this, r2]; simp
    have ho : out (.point f) [] ((Act.vfr l).before p) (v :: N) =
        (if p.latLongValid then [py! "/", ((Act.vfr l).before p).speed ++ ((Act.vfr l).before p).altitude] else []) ++ py! "/" :: l.text :: W := by
      show levelWords _ (some v) ++ stayWords _ (some v) ++ routeWords (v :: N) = _
      rw [hst, hW]
      unfold levelWords
      rw [hv, if_pos rfl]
      show (if p.latLongValid then _ else _) ++ _ ++ _ ++ _ = _
      simp
    have hfw : ∀ w ∈ l.text :: W, TextOk w := by rw [← hW]; exact hfin
    refine ⟨[], (Act.vfr l).before p, v :: N, ?_, rfl, hg1, ?_, (fun h => by rcases h with h | h <;> cases h), ?_, (fun r h => by cases h)⟩
    · intro rs
      rw [puts_cons, show (Act.vfr l).put (p :: rs) = bare ((Act.vfr l).newRec p) :: (Act.vfr l).before p :: rs from rfl, h1]; simp
    · rw [ho]
      intro w hw
      rcases List.mem_append.1 hw with hw | hw
      · cases hl : p.latLongValid with
        | false => rw [hl] at hw; cases hw
        | true =>
          rw [hl] at hw
          simp only [if_true, List.mem_cons, List.not_mem_nil, or_false] at hw
          rcases hw with rfl | rfl
          · exact slash_fine
          · exact level_fine hg1.sp (level_ge hg1.lv)
      · rcases List.mem_cons.1 hw with rfl | hw
        · exact slash_fine
        · exact hfw w hw
    · cases hl : p.latLongValid with
      | false =>
        rw [ho, hl]
        refine ⟨_, ?_, put1⟩
        show Run (.point f) (tk (py! "/") :: tk l.text :: W.map tk) _
        rw [tk_re hTl]; exact run1
      | true =>
        rw [ho, hl]
        obtain ⟨n1, n2⟩ := said_level hg1 (show ((Act.vfr l).before p).rules = ruleI from he.1) run1
        refine ⟨_, (?_ : Run _ _ (.level (tk (((Act.vfr l).before p).speed ++ ((Act.vfr l).before p).altitude)) :: .vfr l.re :: as')), fun p' rs hw => ?_⟩
        · show Run (.point f) (tk (py! "/") :: tk (((Act.vfr l).before p).speed ++ ((Act.vfr l).before p).altitude) :: tk (py! "/") :: tk l.text :: W.map tk) _
          rw [tk_re hTl]; exact n1
        · have hw' : p = { p' with speed := p.speed, speedSi := p.speedSi, altitude := p.altitude, altitudeSi := p.altitudeSi } := hw
          rw [n2 p' rs (by
            rw [hw']; rfl)]
          exact put1 _ rs rfl
  | @word r t ts as hb hc h ih =>
    intro p hg he
    have hTt := hT t (by simp)
    have hre := tk_re hTt
    obtain ⟨ws, p1, N, S⟩ := ih (fun x hx => hT x (by simp [hx])) (fun x hx => hF x (by simp [hx])) _ (append_flown hg t.text) trivial
    obtain ⟨as', r1, r2⟩ := S.run
    obtain ⟨x1, x2⟩ := S.text r rfl
    have ho : out (.text r) (t.text :: ws) p1 N = t.text :: out (.text r) ws p1 N := rfl
    refine ⟨t.text :: ws, p1, N, fun rs => S.puts_eq rs, S.changes, S.flown, ?_, (fun h => by rcases h with h | h <;> cases h), ⟨.text t.re :: as', ?_, ?_⟩, ?_⟩
    · rw [ho]
      intro w hw
      rcases List.mem_cons.1 hw with rfl | hw
      · exact hF t (by simp)
      · exact S.fine w hw
    · rw [ho]
      show Run (.text r) (tk t.text :: _) _
      rw [hre]
      exact .word (t := t.re) hb (fun hcl => x2 t t.re rfl (hc hcl)) r1
    · intro p' rs hw
      rw [show p' = p from hw]
      exact r2 _ rs rfl
    · intro _ _
      rw [ho]
      show some (tk t.text).base = some t.base ∧ ∀ u u' : Token, u'.sub = u.sub → readOn u (t :: ts) → readOn u' (tk t.text :: (out (.text r) ws p1 N).map tk)
      rw [hre]
      refine ⟨rfl, fun u u' hu hro => ?_⟩
      rcases hro with h | ⟨h, s, rest, hs, hsb⟩
      · exact .inl h
      · refine .inr ⟨hu.trans h, ?_⟩
        subst hs
        cases hl : (out (.text r) ws p1 N).map tk with
        | nil => rw [hl] at x1; cases x1
        | cons y z =>
          rw [hl] at x1
          have : some y.base = some s.base := x1
          exact ⟨y, z, rfl, by rw [Option.some.inj this]; exact hsb⟩
  | @resume r t c ts as hc hi hb hp hn h ih =>
    intro p hg he
    have hTt := hT t (by simp); have hTc := hT c (by simp)
    have b := born_point c (p.appendBreakText t.text)
    have hpl : isPlaced (bare ((Act.point c).newRec (p.appendBreakText t.text))) = isFixed c := by unfold isPlaced isFixed; rw [b.sub]
    obtain ⟨ws, p1, N, S⟩ := ih (fun x hx => hT x (by simp [hx])) (fun x hx => hF x (by simp [hx])) _ (b.flown (append_flown hg t.text)) ⟨rules_point c _, b.stay, hpl⟩
    obtain ⟨as', r1, r2⟩ := S.run
    refine says_end (as' := .point c.re :: as') hTt (hF t (by simp)) hc hg ?_ (point_words b.cruise (b.base.trans hp) b.name S) ?_ ?_ ?_
    · intro rs
      rw [puts_cons, show (Act.point c).put (p.appendBreakText t.text :: rs) = _ from put_push (a := .point c) rfl (fun _ => rfl) _ rs, S.puts_eq]; simp
    · intro w hw
      rcases List.mem_cons.1 hw with rfl | hw
      · exact hF c (by simp)
      · exact S.fine w hw
    · show Run (.text r) (t.re :: tk c.text :: _) _
      rw [tk_re hTc]
      exact .resume (t := t.re) (p := c.re) hc hi hb hp hn r1
    · intro rs
      rw [puts_cons, show (Act.point c.re).put (p.appendBreakText t.text :: rs) = _ from put_push_re (a := .point c) rfl (fun _ => rfl) _ rs, r2 _ _ (waits_refl _ _)]; simp
  | @resumeIfr r t c s l ts as hc hi hb hp hn hs hl hk h ih =>
    intro p hg he
    have hTt := hT t (by simp); have hTc := hT c (by simp); have hTl := hT l (by simp)
    have b := born_vToI c (p.appendBreakText t.text)
    obtain ⟨f1, f2, _⟩ := level_facts hTl hl
    generalize hr1 : bare ((Act.vToI c).newRec (p.appendBreakText t.text)) = r1 at b
    have hrule : r1.rules = ruleI := by rw [← hr1]; rfl
    have hg2 : Flown ((Act.level l).tweak r1) := ⟨f1, f2, gran_iff.1 (hk trivial), rfl, rfl⟩
    obtain ⟨x1, x2, x3, x4, ex⟩ := level_tweak l r1
    have ex' : (Act.level l).tweak r1 = { r1 with speed := x1, speedSi := x2, altitude := x3, altitudeSi := x4 } := by rw [ex, ← hrule]
    have he2 : Enters (.point (isFixed c)) ((Act.level l).tweak r1) := by
      rw [ex']; exact ⟨hrule, b.stay, by unfold isPlaced isFixed; dsimp only; rw [b.sub]⟩
    obtain ⟨ws, p1, N, S⟩ := ih (fun x hx => hT x (by simp [hx])) (fun x hx => hF x (by simp [hx])) _ hg2 he2
    have hwait : Waits (.point (isFixed c)) ((Act.level l).tweak r1) r1 := by rw [ex']; rfl
    have hpw := point_words (t := c) (by rw [ex']; exact b.cruise) (by rw [ex']; exact b.base.trans hp) (by rw [ex']; exact b.name) S
    have hfin : ∀ w ∈ c.text :: out (.point (isFixed c)) ws p1 N, TextOk w := by
      intro w hw
      rcases List.mem_cons.1 hw with rfl | hw
      · exact hF c (by simp)
      · exact S.fine w hw
    have push : ∀ rs, (Act.vToI c).put (p.appendBreakText t.text :: rs) = r1 :: p.appendBreakText t.text :: rs := by
      intro rs; rw [← hr1]; exact put_push (a := .vToI c) rfl (fun _ => rfl) _ rs
    have hputs : ∀ rs, puts (.vToI c :: .level l :: as) (p.appendBreakText t.text :: rs) = (p1 :: N).reverse ++ p.appendBreakText t.text :: rs := by
      intro rs
      rw [puts_cons, push, puts_cons, put_level, S.puts_eq]; simp
    obtain ⟨as', q1, q2⟩ := S.run
    obtain ⟨w, W, ho, hlat⟩ := out_slash S
    have q1' : Run (.point (isFixed c)) (tk (py! "/") :: tk w :: W.map tk) as' := by rw [ho] at q1; exact q1
    rcases inv_level q1' slash_base with ⟨i1, i2, as2, rfl, i3⟩ | ⟨i1, as2, rfl, i3⟩
    · refine says_end (as' := .vToI c.re :: .level (tk w) :: as2) hTt (hF t (by simp)) hc hg hputs hpw hfin ?_ ?_
      · rw [ho]
        show Run (.text r) (t.re :: tk c.text :: tk (py! "/") :: tk w :: W.map tk) _
        rw [tk_re hTc]
        exact .resumeIfr (t := t.re) (p := c.re) hc hi hb hp hn slash_base i1 (fun _ => i2) i3
      · intro rs
        rw [puts_cons, show (Act.vToI c.re).put (p.appendBreakText t.text :: rs) = _ from (re_put (.vToI c) _).trans (push rs), q2 _ _ hwait]; simp
    · have hval : r1.latLongValid = false := by
        have e : p1 = { (Act.level l).tweak r1 with speed := p1.speed, speedSi := p1.speedSi, altitude := p1.altitude, altitudeSi := p1.altitudeSi, stayTime := p1.stayTime } := S.changes
        have : p1.latLongValid = r1.latLongValid := by rw [e, ex']
        cases hv : r1.latLongValid with
        | false => rfl
        | true =>
          rw [hv] at this
          have hw := hlat this
          rw [hw, (tk_level S.flown.sp S.flown.lv S.flown.five).1] at i1
          cases i1
      have same : bare ((Act.vToIToV c).newRec (p.appendBreakText t.text)) = r1 := by
        have : (posHead c (fresh (p.appendBreakText t.text) c)).latLongValid = false := by rw [← hval, ← hr1]; rfl
        rw [← hr1]
        show bare (toIfr (fresh (p.appendBreakText t.text) c)) = bare (toIfr (posHead c (fresh (p.appendBreakText t.text) c)))
        rw [posHead_id this]
      refine says_end (as' := .vToIToV c.re :: .vfr (tk w) :: as2) hTt (hF t (by simp)) hc hg hputs hpw hfin ?_ ?_
      · rw [ho]
        show Run (.text r) (t.re :: tk c.text :: tk (py! "/") :: tk w :: W.map tk) _
        rw [tk_re hTc]
        exact .resumeVfr (t := t.re) (p := c.re) hc hi hb hp slash_base i1 i3
      · intro rs
        rw [puts_cons, show (Act.vToIToV c.re).put (p.appendBreakText t.text :: rs) = _ from put_push_re (a := .vToIToV c) rfl (fun _ => rfl) _ rs, same, q2 _ _ hwait]; simp
  | @resumeVfr r t c s l ts as hc hi hb hp hs hl h ih =>
    intro p hg he
    have hTt := hT t (by simp); have hTc := hT c (by simp); have hTl := hT l (by simp)
    generalize hr1 : bare ((Act.vToIToV c).newRec (p.appendBreakText t.text)) = r1
    obtain ⟨hg1, v, N, as', hv, h1, hfin, W, hW, q1, q2⟩ := says_vfr (p := r1) hTl hl
      (ih (fun x hx => hT x (by simp [hx])) (fun x hx => hF x (by simp [hx])) _ (vfr_flown hTl hl r1).1 trivial)
    have hats : isAts (some v) = false := by
      unfold isVfr at hv
      have : v.base = .SPEED_VFR := by simp at hv; exact hv.1
      exact ats_no (.inl (by simp [this]))
    have hpw : routeWords ((Act.vfr l).before r1 :: v :: N) = c.text :: py! "/" :: l.text :: W := by
      show ownWords _ ++ aboutWords _ (some v) ++ routeWords (v :: N) = _
      rw [own_point (by rw [← hr1]; rfl) (by rw [← hr1]; exact hp), hW]
      unfold levelWords stayWords
      rw [hv, hats, if_pos rfl, if_neg (by rw [← hr1]; show ¬ (false = true); decide),
        if_neg (by rw [← hr1]; show ¬ (_ ∨ _); rintro (h | ⟨_, h⟩); exact h rfl; cases h)]
      rw [show ((Act.vfr l).before r1).name = c.text by rw [← hr1]; rfl]
      rfl
    have put1 : ∀ rs, puts [.vToIToV c] (p.appendBreakText t.text :: rs) = r1 :: p.appendBreakText t.text :: rs := by
      intro rs; rw [← hr1]; exact put_push rfl (fun _ => rfl) _ rs
    refine says_end (as' := .vToIToV c.re :: .vfr l.re :: as') hTt (hF t (by simp)) hc hg ?_ hpw ?_ ?_ ?_
    · intro rs
      rw [puts_cons, show (Act.vToIToV c).put (p.appendBreakText t.text :: rs) = _ from put1 rs, puts_cons,
        show (Act.vfr l).put (r1 :: p.appendBreakText t.text :: rs) = bare ((Act.vfr l).newRec r1) :: (Act.vfr l).before r1 :: p.appendBreakText t.text :: rs from rfl, h1]; simp
    · intro w hw
      rcases List.mem_cons.1 hw with rfl | hw
      · exact hF c (by simp)
      · rcases List.mem_cons.1 hw with rfl | hw
        · exact slash_fine
        · exact hfin w (by rw [hW]; exact hw)
    · show Run (.text r) (t.re :: tk c.text :: tk (py! "/") :: tk l.text :: W.map tk) _
      rw [tk_re hTc, tk_re hTl]
      exact .resumeVfr (t := t.re) (p := c.re) (l := l.re) hc hi hb hp slash_base hl q1
    · intro rs
      rw [puts_cons, show (Act.vToIToV c.re).put (p.appendBreakText t.text :: rs) = _ from (re_put (.vToIToV c) _).trans (put1 rs), puts_cons,
        show (Act.vfr l.re).put (r1 :: p.appendBreakText t.text :: rs) = bare ((Act.vfr l).newRec r1) :: (Act.vfr l).before r1 :: p.appendBreakText t.text :: rs from rfl, q2]; simp

end F15
