import Verif.Lemmas.Fault2
/-!
# The first fault is where the text stops being extendable
-/

namespace F15
open Spec

set_option linter.unusedSectionVars false

/-! ### What the grammar accepts, by the first tokens -/

theorem accepts_allows {q : Phase} {t : Token} {ts : List Token} (h : Accepts q (t :: ts)) :
    q.allows t = true ∨ (∃ f, q = .point f ∧ t.base = .SLASH) ∨ ∃ r, q = .text r := by
  cases h with
  | sid hb h => left; rcases hb with hb | hb <;> simp [Phase.allows, hb]
  | level hs => exact .inr (.inl ⟨_, rfl, hs⟩)
  | vfr hs => exact .inr (.inl ⟨_, rfl, hs⟩)
  | word | resume | resumeIfr | resumeVfr => exact .inr (.inr ⟨_, rfl⟩)
  | _ => left; assumption

theorem no_climb_slash {s : Token} {ts : List Token} (hs : s.base = .SLASH) : ¬ Accepts .climb (s :: ts) := by
  intro h
  rcases accepts_allows h with h | ⟨_, h, _⟩ | ⟨_, h⟩
  · simp [Phase.allows, hs] at h
  · cases h
  · cases h

section
variable {q : Phase} {t : Token} {ts : List Token} (hq : q.allows t = true)
include hq

theorem inv_dct (hb : t.base = .DCT) : Accepts q (t :: ts) ↔ Accepts .dct ts := by
  refine ⟨fun h => ?_, .dct hq hb⟩
  cases h <;> simp_all [Phase.allows]

theorem inv_route (hb : t.base = .ROUTE) : Accepts q (t :: ts) ↔ Accepts .route ts := by
  refine ⟨fun h => ?_, .route hq hb⟩
  cases h <;> simp_all [Phase.allows]

theorem inv_point (hb : t.base = .POINT) : Accepts q (t :: ts) ↔ PositionOk t ∧ Accepts (.point (isFixed t)) ts := by
  refine ⟨fun h => ?_, fun h => .point hq hb h.1 h.2⟩
  cases h <;> simp_all [Phase.allows]

theorem inv_break (hb : t.base = .BREAK_START) : Accepts q (t :: ts) ↔ Accepts (.text (rulesOfBreak t.sub)) ts := by
  refine ⟨fun h => ?_, .break_ hq hb⟩
  cases h <;> simp_all [Phase.allows]

theorem inv_truncate (hb : t.base = .TRUNCATE) : Accepts q (t :: ts) ↔ ts = [] := by
  refine ⟨fun h => ?_, fun h => h ▸ .truncate hq hb⟩
  cases h <;> simp_all [Phase.allows]

theorem inv_star (hb : t.base = .STAR ∨ (t.base = .SID_STAR ∧ q ≠ .adep)) : Accepts q (t :: ts) ↔ ts = [] := by
  refine ⟨fun h => ?_, fun h => h ▸ .star hq hb⟩
  cases h <;> simp_all [Phase.allows]

theorem inv_climb (hb : t.base = .C) (hh : ts.head?.map (·.base) ≠ some .SLASH) : Accepts q (t :: ts) ↔ Accepts .climb ts := by
  refine ⟨fun h => ?_, .climb hq hb⟩
  cases h <;> simp_all [Phase.allows]

theorem inv_cruise {s : Token} (hb : t.base = .C) (hs : s.base = .SLASH) : Accepts q (t :: s :: ts) ↔
    ∃ p s' l ts', ts = p :: s' :: l :: ts' ∧ PositionOk p ∧ s'.base = .SLASH ∧ ClimbLevels l ∧ Accepts (.point (isFixed p)) ts' := by
  constructor
  · intro h
    cases h with
    | climb _ _ h => exact absurd h (no_climb_slash hs)
    | cruise _ _ _ hp hs' hl h => exact ⟨_, _, _, _, rfl, hp, hs', hl, h⟩
    | _ => simp_all [Phase.allows]
  · rintro ⟨p, s', l, ts', rfl, hp, hs', hl, h⟩
    exact .cruise hq hb hs hp hs' hl h

theorem inv_stay (hb : t.base = .STAY) : Accepts q (t :: ts) ↔
    ∃ s m ts', ts = s :: m :: ts' ∧ s.base = .SLASH ∧ m.base = .STAY_TIME ∧ Accepts .stay ts' := by
  constructor
  · intro h
    cases h with
    | stay _ _ hs hm h => exact ⟨_, _, _, rfl, hs, hm, h⟩
    | _ => simp_all [Phase.allows]
  · rintro ⟨s, m, ts', rfl, hs, hm, h⟩
    exact .stay hq hb hs hm h

end

theorem inv_sid {t : Token} {ts : List Token} (hb : t.base = .SID ∨ t.base = .SID_STAR) :
    Accepts .adep (t :: ts) ↔ Accepts .sid ts := by
  refine ⟨fun h => ?_, .sid hb⟩
  cases h <;> simp_all [Phase.allows]

theorem inv_slash {f : Bool} {s : Token} {ts : List Token} (hs : s.base = .SLASH) : Accepts (.point f) (s :: ts) ↔
    ∃ l ts', ts = l :: ts' ∧ ((l.base = .SPEED_ALTITUDE ∧ LevelOk l.text ∧ Accepts (.point f) ts') ∨
      (l.base = .SPEED_VFR ∧ Accepts (.text (py! "VFR")) ts')) := by
  constructor
  · intro h
    cases h with
    | level _ hb hl h => exact ⟨_, _, rfl, .inl ⟨hb, hl, h⟩⟩
    | vfr _ hb h => exact ⟨_, _, rfl, .inr ⟨hb, h⟩⟩
    | _ => simp_all [Phase.allows]
  · rintro ⟨l, ts', rfl, ⟨hb, hl, h⟩ | ⟨hb, h⟩⟩
    · exact .level hs hb hl h
    · exact .vfr hs hb h

theorem inv_text {r : Str} {t : Token} {ts : List Token} : Accepts (.text r) (t :: ts) ↔ t.base ≠ .TOO_LONG ∧
    (((closes t r → readOn t ts) ∧ Accepts (.text r) ts) ∨
     (closes t r ∧ t.sub ≠ .IFR ∧ ∃ p ts', ts = p :: ts' ∧ p.base = .POINT ∧ PositionOk p ∧ Accepts (.point (isFixed p)) ts') ∨
     (closes t r ∧ t.sub = .IFR ∧ ∃ p s l ts', ts = p :: s :: l :: ts' ∧ p.base = .POINT ∧ s.base = .SLASH ∧
       ((l.base = .SPEED_ALTITUDE ∧ PositionOk p ∧ LevelOk l.text ∧ Accepts (.point (isFixed p)) ts') ∨
        (l.base = .SPEED_VFR ∧ Accepts (.text (py! "VFR")) ts')))) := by
  constructor
  · intro h
    cases h with
    | word hb hc h => exact ⟨hb, .inl ⟨hc, h⟩⟩
    | resume hc hi hb hp hn h => exact ⟨hb, .inr (.inl ⟨hc, hi, _, _, rfl, hp, hn, h⟩)⟩
    | resumeIfr hc hi hb hp hn hs hl hk h => exact ⟨hb, .inr (.inr ⟨hc, hi, _, _, _, _, rfl, hp, hs, .inl ⟨hl, hn, hk, h⟩⟩)⟩
    | resumeVfr hc hi hb hp hs hl h => exact ⟨hb, .inr (.inr ⟨hc, hi, _, _, _, _, rfl, hp, hs, .inr ⟨hl, h⟩⟩)⟩
    | _ => simp_all [Phase.allows]
  · rintro ⟨hb, ⟨hc, h⟩ | ⟨hc, hi, p, ts', rfl, hp, hn, h⟩ | ⟨hc, hi, p, s, l, ts', rfl, hp, hs, ⟨hl, hn, hk, h⟩ | ⟨hl, h⟩⟩⟩
    · exact .word hb hc h
    · exact .resume hc hi hb hp hn h
    · exact .resumeIfr hc hi hb hp hn hs hl hk h
    · exact .resumeVfr hc hi hb hp hs hl h

/-! ### Completions -/

/-- A classified token of the given text. -/
def mkTok (s : Str) : Token := assignSyntax ⟨s, 0, 0, .UNKNOWN, .UNKNOWN⟩

theorem mk_typed (s : Str) : Typed (mkTok s) := typed_assign _

theorem mk_T : (mkTok (py! "T")).base = .TRUNCATE := by decide +kernel
theorem mk_slash : (mkTok (py! "/")).base = .SLASH := by decide +kernel
theorem mk_time : (mkTok (py! "0130")).base = .STAY_TIME := by decide +kernel
theorem mk_vfr : (mkTok (py! "N0450VFR")).base = .SPEED_VFR := by decide +kernel
theorem mk_level : (mkTok (py! "N0450F350")).base = .SPEED_ALTITUDE := by decide +kernel
theorem mk_level_ok : LevelOk (mkTok (py! "N0450F350")).text :=
  (levelOk_iff (mk_typed _) mk_level).2 (by decide +kernel)
theorem mk_pnt : (mkTok (py! "ABC")).base = .POINT := by decide +kernel
theorem mk_pnt_ok : PositionOk (mkTok (py! "ABC")) := (pos_iff (mk_typed _)).2 (by decide +kernel)
theorem mk_levels : ClimbLevels (mkTok (py! "N0450F350F370")) :=
  (climb_iff (mk_typed _)).2 ⟨.levels (mkTok (py! "N0450F350F370")), .inl ⟨by decide +kernel, by decide +kernel, rfl, by decide +kernel⟩⟩

/-- The tokens can be completed. -/
def Ext (q : Phase) (p : List Token) : Prop := ∃ z, (∀ t ∈ z, Typed t) ∧ Accepts q (p ++ z)

/-- Where the first fault is. -/
def Loc (q : Phase) (pre : List Token) (t : Token) (post : List Token) : Prop :=
  Ext q pre ∧ (¬ Ext q (pre ++ [t]) ∨
    (post.length ≤ 1 ∧ Ext q (pre ++ t :: post) ∧ ¬ Accepts q (pre ++ t :: post)) ∨
    (∃ pre' c s l post', pre = pre' ++ [c] ∧ c.sub = .IFR ∧ post = s :: l :: post' ∧ t.base = .POINT ∧ s.base = .SLASH ∧
      Ext q (pre ++ [t, s]) ∧ ¬ Ext q (pre ++ [t, s, l])))

theorem ext_nil (q : Phase) : Ext q [] := ⟨[], by simp, .stop q⟩

theorem ext_of {q : Phase} {p : List Token} (h : Accepts q p) : Ext q p := ⟨[], by simp, by simpa using h⟩

theorem lift_ext {q q' : Phase} {w p : List Token} {P : Token → Prop}
    (hw : ∀ ts, (∀ y ∈ ts.head?, P y) → (Accepts q (w ++ ts) ↔ Accepts q' ts)) (hp : ∀ y ∈ p.head?, P y) (hne : p ≠ []) :
    Ext q (w ++ p) ↔ Ext q' p := by
  have hh : ∀ z, (∀ y ∈ (p ++ z).head?, P y) := by
    intro z
    cases p with
    | nil => exact absurd rfl hne
    | cons a p => simpa using hp
  constructor
  · rintro ⟨z, hz, h⟩
    rw [List.append_assoc, hw _ (hh z)] at h
    exact ⟨z, hz, h⟩
  · rintro ⟨z, hz, h⟩
    exact ⟨z, hz, by rw [List.append_assoc, hw _ (hh z)]; exact h⟩

/-- Faults after the tokens `w`. -/
theorem Loc.lift {q q' : Phase} {w pre post : List Token} {t : Token} (P : Token → Prop)
    (hw : ∀ ts, (∀ y ∈ ts.head?, P y) → (Accepts q (w ++ ts) ↔ Accepts q' ts)) (hp : ∀ y ∈ (pre ++ [t]).head?, P y)
    (h : Loc q' pre t post) : Loc q (w ++ pre) t post := by
  have hp' : ∀ x, ∀ y ∈ (pre ++ t :: x).head?, P y := by
    intro x
    cases pre <;> simpa using hp
  have e1 : ∀ x, Ext q (w ++ (pre ++ t :: x)) ↔ Ext q' (pre ++ t :: x) := fun x => lift_ext hw (hp' x) (by simp)
  obtain ⟨h1, h2⟩ := h
  refine ⟨?_, ?_⟩
  · cases pre with
    | nil =>
      refine ⟨[], by simp, ?_⟩
      rw [List.append_nil, hw [] (by simp)]; exact .stop _
    | cons a pre => exact (lift_ext hw (by simpa using hp) (by simp)).2 h1
  · rcases h2 with h2 | ⟨h2, h3, h4⟩ | ⟨pre', c, s, l, post', rfl, hc, rfl, ht, hs, h2, h3⟩
    · left; rwa [List.append_assoc, e1 []]
    · right; left
      rw [List.append_assoc]
      exact ⟨h2, (e1 _).2 h3, by rw [hw _ (hp' _)]; exact h4⟩
    · right; right
      refine ⟨w ++ pre', c, s, l, post', by simp, hc, rfl, ht, hs, ?_, ?_⟩
      · rw [List.append_assoc, e1 [s]]; exact h2
      · rw [List.append_assoc, e1 [s, l]]; exact h3

/-- The same, without a condition on what follows. -/
theorem Loc.lift' {q q' : Phase} (w : List Token) {pre post : List Token} {t : Token}
    (hw : ∀ ts, Accepts q (w ++ ts) ↔ Accepts q' ts) (h : Loc q' pre t post) : Loc q (w ++ pre) t post :=
  Loc.lift (fun _ => True) (fun ts _ => hw ts) (fun _ _ => trivial) h

theorem not_range {t : Token} (ht : Typed t) {n : Nat} (h : RangeFault t.sub t.text n) : ¬ PositionOk t := by
  intro hp
  have := (range_iff ht n).2 h
  rw [(pos_iff ht).1 hp] at this
  cases this

theorem point_not_ifr {p : Token} (ht : Typed p) (hp : p.base = .POINT) (r : Str) : ¬ closes p r := by
  have : p.sub ≠ .IFR ∧ p.sub ≠ .GAT ∧ p.sub ≠ .IFPSTART := by
    rcases typed_pair ht with ⟨h, _⟩ | ⟨h, _⟩ | ⟨w, hw, h1, h2⟩
    · rw [h] at hp; cases hp
    · rw [h] at hp; cases hp
    · have : (table.all fun r => decide (r.base ≠ .POINT) || ![SubType.IFR, .GAT, .IFPSTART].contains r.sub) = true := by
        decide +kernel
      have := List.all_eq_true.1 this w hw
      rw [hp] at h1
      rw [h2]
      simpa [← h1] using this
  rintro (⟨h, _⟩ | ⟨h, _⟩ | ⟨h, _⟩)
  · exact this.1 h
  · exact this.2.1 h
  · exact this.2.2 h

/-! ### Free text -/

theorem text_T (r : Str) : Accepts (.text r) [mkTok (py! "T")] :=
  .word (by rw [mk_T]; simp) (fun _ => trivial) (.stop _)

theorem inv_word {r : Str} {t : Token} {ts : List Token} (hb : t.base ≠ .TOO_LONG) (hc : closes t r → readOn t ts) :
    Accepts (.text r) (t :: ts) ↔ Accepts (.text r) ts := by
  rw [inv_text]
  constructor
  · rintro ⟨_, ⟨_, h⟩ | ⟨h1, h2, p, ts', rfl, hp, _⟩ | ⟨h1, h2, p, s, l, ts', rfl, hp, hs, _⟩⟩
    · exact h
    · rcases hc h1 with h | ⟨h, _⟩
      · exact absurd hp h
      · exact absurd h h2
    · rcases hc h1 with h | ⟨_, s', _, he, h⟩
      · exact absurd hp h
      · cases he; exact absurd hs h
  · exact fun h => ⟨hb, .inl ⟨hc, h⟩⟩

theorem fault_text_nil {r : Str} {x : Token} {post : List Token} {n : Nat} (h : Fault (.text r) [] x post n) :
    x.base = .TOO_LONG := by
  cases h with
  | here _ ht => exact absurd rfl (ht r)
  | position hq => simp [Phase.allows] at hq
  | stayEnd hq => simp [Phase.allows] at hq
  | tooLong hb => exact hb

theorem fault_text_cons {r : Str} {p x : Token} {pre post : List Token} {n : Nat} (h : Fault (.text r) (p :: pre) x post n) :
    p.base ≠ .TOO_LONG := by
  cases h with
  | word hb | resume _ _ hb | resumeIfr _ _ hb | resumeVfr _ _ hb | resumePosition _ _ hb | ifrEnd _ _ hb | ifrSlashEnd _ _ hb
  | ifrSlash _ _ hb | ifrPosition _ _ hb | ifrStep _ _ hb => exact hb
  | _ => simp_all [Phase.allows]

theorem readOn_first {t x : Token} {pre post : List Token} (h : readOn t (pre ++ x :: post)) (hx : pre = [] → x.base ≠ .POINT)
    (z : List Token) : readOn t (pre ++ x :: z) := by
  cases pre with
  | nil => exact .inl (hx rfl)
  | cons a pre =>
    rcases h with h | ⟨h, s, r, he, hs⟩
    · exact .inl h
    · refine .inr ⟨h, ?_⟩
      cases pre with
      | nil => exact ⟨x, z, rfl, (List.cons.inj he).1 ▸ hs⟩
      | cons b pre => exact ⟨b, _, rfl, (List.cons.inj he).1 ▸ hs⟩

theorem Loc.word {r : Str} {t x : Token} {pre post : List Token} {n : Nat} (hb : t.base ≠ .TOO_LONG)
    (hc : closes t r → readOn t (pre ++ x :: post)) (hT : ∀ y ∈ pre, Typed y) (hf : Fault (.text r) pre x post n)
    (h : Loc (.text r) pre x post) : Loc (.text r) (t :: pre) x post := by
  have hx : pre = [] → x.base ≠ .POINT := by
    intro he; subst he; rw [fault_text_nil hf]; simp
  have iff1 : ∀ z, Accepts (.text r) (t :: (pre ++ x :: z)) ↔ Accepts (.text r) (pre ++ x :: z) :=
    fun z => inv_word hb fun h => readOn_first (hc h) hx z
  have ext1 : ∀ y, Ext (.text r) (t :: (pre ++ x :: y)) ↔ Ext (.text r) (pre ++ x :: y) := by
    intro y
    constructor
    · rintro ⟨z, hz, h⟩
      exact ⟨z, hz, by have := iff1 (y ++ z); simp only [List.append_assoc, List.cons_append] at this h ⊢; exact this.1 h⟩
    · rintro ⟨z, hz, h⟩
      exact ⟨z, hz, by have := iff1 (y ++ z); simp only [List.append_assoc, List.cons_append] at this h ⊢; exact this.2 h⟩
  obtain ⟨h1, h2⟩ := h
  refine ⟨?_, ?_⟩
  · match pre, hc, hf, h1, hT with
    | [], hc, hf, h1, _ => exact ext_of (.word hb (fun _ => trivial) (.stop _))
    | [p], hc, hf, h1, hT =>
      refine ⟨[mkTok (py! "T")], by simp [mk_typed], ?_⟩
      have hp : Accepts (.text r) [p, mkTok (py! "T")] :=
        .word (fault_text_cons hf) (fun _ => .inl (by rw [mk_T]; simp)) (text_T r)
      refine (inv_word hb fun h => ?_).2 hp
      rcases hc h with h' | ⟨h', _⟩
      · exact .inl h'
      · exact .inr ⟨h', _, _, rfl, by rw [mk_T]; simp⟩
    | p :: p2 :: pre, hc, hf, h1, hT =>
      obtain ⟨z, hz, h1⟩ := h1
      refine ⟨z, hz, (inv_word hb fun h => ?_).2 h1⟩
      rcases hc h with h' | ⟨h', s, r, he, hs⟩
      · exact .inl h'
      · exact .inr ⟨h', p2, _, rfl, (List.cons.inj he).1 ▸ hs⟩
  · rcases h2 with h2 | ⟨h2, h3, h4⟩ | ⟨pre', c, s, l, post', he, hcs, rfl, ht, hs, h2, h3⟩
    · left; exact fun h => h2 ((ext1 []).1 h)
    · right; left
      exact ⟨h2, (ext1 _).2 h3, fun h => h4 ((iff1 _).1 h)⟩
    · right; right
      refine ⟨t :: pre', c, s, l, post', by simp [he], hcs, rfl, ht, hs, (ext1 [s]).2 h2, fun h => h3 ((ext1 [s, l]).1 h)⟩

/-! ### The theorem -/

section
variable {q : Phase} {t s p s' : Token} (hq : q.allows t = true)
include hq

theorem ext_cruise2 (hb : t.base = .C) (hs : s.base = .SLASH) : Ext q [t, s] :=
  ⟨[mkTok (py! "ABC"), mkTok (py! "/"), mkTok (py! "N0450F350F370")], by simp [mk_typed],
    .cruise hq hb hs mk_pnt_ok mk_slash mk_levels (.stop _)⟩

theorem ext_cruise3 (hb : t.base = .C) (hs : s.base = .SLASH) (hp : PositionOk p) : Ext q [t, s, p] :=
  ⟨[mkTok (py! "/"), mkTok (py! "N0450F350F370")], by simp [mk_typed], .cruise hq hb hs hp mk_slash mk_levels (.stop _)⟩

theorem ext_cruise4 (hb : t.base = .C) (hs : s.base = .SLASH) (hp : PositionOk p) (hs' : s'.base = .SLASH) :
    Ext q [t, s, p, s'] :=
  ⟨[mkTok (py! "N0450F350F370")], by simp [mk_typed], .cruise hq hb hs hp hs' mk_levels (.stop _)⟩

theorem ext_stay1 (hb : t.base = .STAY) : Ext q [t] :=
  ⟨[mkTok (py! "/"), mkTok (py! "0130")], by simp [mk_typed], .stay hq hb mk_slash mk_time (.stop _)⟩

theorem ext_stay2 (hb : t.base = .STAY) (hs : s.base = .SLASH) : Ext q [t, s] :=
  ⟨[mkTok (py! "0130")], by simp [mk_typed], .stay hq hb hs mk_time (.stop _)⟩

end

theorem ext_slash {f : Bool} {s : Token} (hs : s.base = .SLASH) : Ext (.point f) [s] :=
  ⟨[mkTok (py! "N0450F350")], by simp [mk_typed], .level hs mk_level mk_level_ok (.stop _)⟩

theorem ext_ifr2 {r : Str} {t p : Token} (hc : closes t r) (hi : t.sub = .IFR) (hb : t.base ≠ .TOO_LONG) (hp : p.base = .POINT) :
    Ext (.text r) [t, p] :=
  ⟨[mkTok (py! "/"), mkTok (py! "N0450VFR")], by simp [mk_typed], .resumeVfr hc hi hb hp mk_slash mk_vfr (.stop _)⟩

theorem ext_ifr3 {r : Str} {t p s : Token} (hc : closes t r) (hi : t.sub = .IFR) (hb : t.base ≠ .TOO_LONG) (hp : p.base = .POINT)
    (hs : s.base = .SLASH) : Ext (.text r) [t, p, s] :=
  ⟨[mkTok (py! "N0450VFR")], by simp [mk_typed], .resumeVfr hc hi hb hp hs mk_vfr (.stop _)⟩

theorem ext_word {r : Str} {t : Token} (hb : t.base ≠ .TOO_LONG) : Ext (.text r) [t] :=
  ext_of (.word hb (fun _ => trivial) (.stop _))

/-- After IFR and a point and `/`, only SPEED/LEVEL or SPEED/VFR. -/
theorem inv_ifr {r : Str} {t p s : Token} {ts : List Token} (hc : closes t r) (hi : t.sub = .IFR) (hb : t.base ≠ .TOO_LONG)
    (hp : p.base = .POINT) (hs : s.base = .SLASH) : Accepts (.text r) (t :: p :: s :: ts) ↔ ∃ l ts', ts = l :: ts' ∧
      ((l.base = .SPEED_ALTITUDE ∧ PositionOk p ∧ LevelOk l.text ∧ Accepts (.point (isFixed p)) ts') ∨
        (l.base = .SPEED_VFR ∧ Accepts (.text (py! "VFR")) ts')) := by
  rw [inv_text]
  constructor
  · rintro ⟨_, ⟨h, _⟩ | ⟨_, h, _⟩ | ⟨_, _, p', s', l, ts', he, _, _, h⟩⟩
    · rcases h hc with h | ⟨_, s', _, he, h⟩
      · exact absurd hp h
      · cases he; exact absurd hs h
    · exact absurd hi h
    · simp only [List.cons.injEq] at he
      obtain ⟨rfl, rfl, rfl⟩ := he
      exact ⟨l, ts', rfl, h⟩
  · rintro ⟨l, ts', rfl, h⟩
    exact ⟨hb, .inr (.inr ⟨hc, hi, p, s, l, ts', rfl, hp, hs, h⟩)⟩

/-- After GAT or IFPSTART and a point, the route goes on. -/
theorem inv_resume {r : Str} {t p : Token} {ts : List Token} (hc : closes t r) (hi : t.sub ≠ .IFR) (hb : t.base ≠ .TOO_LONG)
    (hp : p.base = .POINT) : Accepts (.text r) (t :: p :: ts) ↔ PositionOk p ∧ Accepts (.point (isFixed p)) ts := by
  rw [inv_text]
  constructor
  · rintro ⟨_, ⟨h, _⟩ | ⟨_, _, p', ts', he, _, h⟩ | ⟨_, h, _⟩⟩
    · rcases h hc with h | ⟨h, _⟩
      · exact absurd hp h
      · exact absurd h hi
    · simp only [List.cons.injEq] at he
      obtain ⟨rfl, rfl⟩ := he
      exact h
    · exact absurd h hi
  · rintro ⟨h1, h2⟩
    exact ⟨hb, .inr (.inl ⟨hc, hi, p, ts, rfl, hp, h1, h2⟩)⟩

theorem fault_loc {q : Phase} {pre post : List Token} {t : Token} {n : Nat} (h : Fault q pre t post n) :
    (∀ y ∈ pre ++ t :: post, Typed y) → Loc q pre t post := by
  induction h with
  | @here q t post hq ht hs =>
    intro _
    refine ⟨ext_nil q, .inl ?_⟩
    rintro ⟨z, _, h⟩
    rcases accepts_allows h with h | ⟨f, h1, h2⟩ | ⟨r, h⟩
    · rw [hq] at h; cases h
    · exact hs f h1 h2
    · exact ht r h
  | @position q t post n hq hb hn =>
    intro hT
    refine ⟨ext_nil q, .inl ?_⟩
    rintro ⟨z, _, h⟩
    exact not_range (hT t (by simp)) hn.1 ((inv_point hq hb).1 h).1
  | @truncate q t x post hq hb =>
    intro _
    refine ⟨ext_of ((inv_truncate hq hb).2 rfl), .inl ?_⟩
    rintro ⟨z, _, h⟩
    cases (inv_truncate hq hb).1 h
  | @star q t x post hq hb =>
    intro _
    refine ⟨ext_of ((inv_star hq hb).2 rfl), .inl ?_⟩
    rintro ⟨z, _, h⟩
    cases (inv_star hq hb).1 h
  | @sid t pre x post n hb h ih =>
    intro hT
    exact Loc.lift' [t] (fun ts => inv_sid hb) (ih fun y hy => hT y (List.mem_cons_of_mem _ hy))
  | @dct q t pre x post n hq hb h ih =>
    intro hT
    exact Loc.lift' [t] (fun ts => inv_dct hq hb) (ih fun y hy => hT y (List.mem_cons_of_mem _ hy))
  | @route q t pre x post n hq hb h ih =>
    intro hT
    exact Loc.lift' [t] (fun ts => inv_route hq hb) (ih fun y hy => hT y (List.mem_cons_of_mem _ hy))
  | @point q t pre x post n hq hb hn h ih =>
    intro hT
    exact Loc.lift' [t] (fun ts => (inv_point hq hb).trans ⟨And.right, fun h => ⟨hn, h⟩⟩)
      (ih fun y hy => hT y (List.mem_cons_of_mem _ hy))
  | @break_ q t pre x post n hq hb h ih =>
    intro hT
    exact Loc.lift' [t] (fun ts => inv_break hq hb) (ih fun y hy => hT y (List.mem_cons_of_mem _ hy))
  | @climb q t pre x post n hq hb hh h ih =>
    intro hT
    refine Loc.lift (w := [t]) (fun y => y.base ≠ .SLASH) (fun ts hy => inv_climb hq hb ?_) ?_
      (ih fun y hy => hT y (List.mem_cons_of_mem _ hy))
    · cases ts <;> simp_all
    · intro y hy
      cases he : pre ++ [x] with
      | nil => simp at he
      | cons a l => rw [he] at hy hh; simp_all
  | @climbEnd q t s hq hb hs =>
    intro _
    refine ⟨ext_of (.climb hq hb (.stop _)), .inr (.inl ⟨by simp, ext_cruise2 hq hb hs, ?_⟩)⟩
    intro h
    obtain ⟨_, _, _, _, he, _⟩ := (inv_cruise hq hb hs).1 h
    cases he
  | @cruisePosition q t s p post n hq hb hs hn =>
    intro hT
    refine ⟨ext_cruise2 hq hb hs, .inl ?_⟩
    rintro ⟨z, _, h⟩
    obtain ⟨p', _, _, _, he, h2, _⟩ := (inv_cruise hq hb hs).1 h
    cases he
    exact not_range (hT p (by simp)) hn.1 h2
  | @cruiseEnd q t s p hq hb hs hp =>
    intro hT
    refine ⟨ext_cruise2 hq hb hs, .inr (.inl ⟨by simp, ext_cruise3 hq hb hs hp, ?_⟩)⟩
    intro h
    obtain ⟨_, _, _, _, he, _⟩ := (inv_cruise hq hb hs).1 h
    cases he
  | @cruiseSlash q t s p x post hq hb hs hp hx =>
    intro hT
    refine ⟨ext_cruise3 hq hb hs hp, .inl ?_⟩
    rintro ⟨z, _, h⟩
    obtain ⟨_, _, _, _, he, _, h2, _⟩ := (inv_cruise hq hb hs).1 h
    cases he
    exact hx h2
  | @cruiseLevelsEnd q t s p s' hq hb hs hp hs' =>
    intro hT
    refine ⟨ext_cruise2 hq hb hs, .inr (.inl ⟨by simp, ext_cruise4 hq hb hs hp hs', ?_⟩)⟩
    intro h
    obtain ⟨_, _, _, _, he, _⟩ := (inv_cruise hq hb hs).1 h
    cases he
  | @cruiseLevels q t s p s' l post hq hb hs hp hs' h1 h2 =>
    intro hT
    refine ⟨ext_cruise4 hq hb hs hp hs', .inl ?_⟩
    rintro ⟨z, _, h⟩
    obtain ⟨_, _, _, _, he, _, _, h3, _⟩ := (inv_cruise hq hb hs).1 h
    cases he
    rcases h3 with ⟨h3, _⟩ | ⟨h3, _⟩
    · exact h1 h3
    · exact h2 h3
  | @cruiseStep q t s p s' l post hq hb hs hp hs' hl =>
    intro hT
    refine ⟨ext_cruise4 hq hb hs hp hs', .inl ?_⟩
    rintro ⟨z, _, h⟩
    obtain ⟨_, _, _, _, he, _, _, h3, _⟩ := (inv_cruise hq hb hs).1 h
    cases he
    rcases h3 with ⟨h3, _, _, h4⟩ | ⟨h3, h4⟩ <;> rcases hl with ⟨h5, h6⟩ | ⟨h5, h6⟩
    · exact h6 h4
    · rw [h3] at h5; cases h5
    · rw [h3] at h5; cases h5
    · exact h6 h4
  | @cruise q t s p s' l pre x post n hq hb hs hp hs' hl h ih =>
    intro hT
    refine Loc.lift' [t, s, p, s', l] (fun ts => (inv_cruise hq hb hs).trans ⟨?_, fun h => ⟨p, s', l, ts, rfl, hp, hs', hl, h⟩⟩)
      (ih fun y hy => hT y (by simp only [List.cons_append, List.mem_cons]; simp only [hy, or_true]))
    rintro ⟨_, _, _, _, he, _, _, _, h⟩
    cases he
    exact h
  | @stayEnd q t hq hb =>
    intro _
    refine ⟨ext_nil q, .inr (.inl ⟨by simp, ext_stay1 hq hb, ?_⟩)⟩
    intro h
    obtain ⟨_, _, _, he, _⟩ := (inv_stay hq hb).1 h
    cases he
  | @staySlash q t x post hq hb hx =>
    intro _
    refine ⟨ext_stay1 hq hb, .inl ?_⟩
    rintro ⟨z, _, h⟩
    obtain ⟨_, _, _, he, h', _⟩ := (inv_stay hq hb).1 h
    cases he
    exact hx h'
  | @stayTimeEnd q t s hq hb hs =>
    intro _
    refine ⟨ext_stay1 hq hb, .inr (.inl ⟨by simp, ext_stay2 hq hb hs, ?_⟩)⟩
    intro h
    obtain ⟨_, _, _, he, _⟩ := (inv_stay hq hb).1 h
    cases he
  | @stayTime q t s x post hq hb hs hx =>
    intro _
    refine ⟨ext_stay2 hq hb hs, .inl ?_⟩
    rintro ⟨z, _, h⟩
    obtain ⟨_, _, _, he, _, h', _⟩ := (inv_stay hq hb).1 h
    cases he
    exact hx h'
  | @stay q t s m pre x post n hq hb hs hm h ih =>
    intro hT
    refine Loc.lift' [t, s, m] (fun ts => (inv_stay hq hb).trans ⟨?_, fun h => ⟨s, m, ts, rfl, hs, hm, h⟩⟩)
      (ih fun y hy => hT y (by simp only [List.cons_append, List.mem_cons]; simp only [hy, or_true]))
    rintro ⟨_, _, _, he, _, _, h⟩
    cases he
    exact h
  | @slashEnd f s hs =>
    intro _
    refine ⟨ext_nil _, .inr (.inl ⟨by simp, ext_slash hs, ?_⟩)⟩
    intro h
    obtain ⟨_, _, he, _⟩ := (inv_slash hs).1 h
    cases he
  | @slash f s x post hs h1 h2 =>
    intro _
    refine ⟨ext_slash hs, .inl ?_⟩
    rintro ⟨z, _, h⟩
    obtain ⟨_, _, he, ⟨h, _⟩ | ⟨h, _⟩⟩ := (inv_slash hs).1 h <;> cases he
    · exact h1 h
    · exact h2 h
  | @levelStep f s l post hs hb hl =>
    intro _
    refine ⟨ext_slash hs, .inl ?_⟩
    rintro ⟨z, _, h⟩
    obtain ⟨_, _, he, ⟨_, h, _⟩ | ⟨h, _⟩⟩ := (inv_slash hs).1 h <;> cases he
    · exact hl h
    · rw [hb] at h; cases h
  | @level f s l pre x post n hs hb hl h ih =>
    intro hT
    refine Loc.lift' [s, l] (fun ts => (inv_slash hs).trans ⟨?_, fun h => ⟨l, ts, rfl, .inl ⟨hb, hl, h⟩⟩⟩)
      (ih fun y hy => hT y (by simp only [List.cons_append, List.mem_cons]; simp only [hy, or_true]))
    rintro ⟨_, _, he, ⟨_, _, h⟩ | ⟨h, _⟩⟩ <;> cases he
    · exact h
    · rw [hb] at h; cases h
  | @vfr f s l pre x post n hs hb h ih =>
    intro hT
    refine Loc.lift' [s, l] (fun ts => (inv_slash hs).trans ⟨?_, fun h => ⟨l, ts, rfl, .inr ⟨hb, h⟩⟩⟩)
      (ih fun y hy => hT y (by simp only [List.cons_append, List.mem_cons]; simp only [hy, or_true]))
    rintro ⟨_, _, he, ⟨h, _⟩ | ⟨_, h⟩⟩ <;> cases he
    · rw [hb] at h; cases h
    · exact h
  | @tooLong r t post hb =>
    intro _
    refine ⟨ext_nil _, .inl ?_⟩
    rintro ⟨z, _, h⟩
    exact (inv_text.1 h).1 hb
  | @word r t pre x post n hb hc h ih =>
    intro hT
    exact Loc.word hb hc (fun y hy => hT y (by simp [hy])) h (ih fun y hy => hT y (List.mem_cons_of_mem _ hy))
  | @resumePosition r t p post n hc hi hb hp hn =>
    intro hT
    refine ⟨ext_word hb, .inl ?_⟩
    rintro ⟨z, _, h⟩
    exact not_range (hT p (by simp)) hn.1 ((inv_resume hc hi hb hp).1 h).1
  | @resume r t p pre x post n hc hi hb hp hn h ih =>
    intro hT
    exact Loc.lift' [t, p] (fun ts => (inv_resume hc hi hb hp).trans ⟨And.right, fun h => ⟨hn, h⟩⟩)
      (ih fun y hy => hT y (by simp only [List.cons_append, List.mem_cons]; simp only [hy, or_true]))
  | @ifrEnd r t p hc hi hb hp =>
    intro hT
    refine ⟨ext_word hb, .inr (.inl ⟨by simp, ext_ifr2 hc hi hb hp, ?_⟩)⟩
    intro h
    rcases inv_text.1 h with ⟨_, ⟨h, _⟩ | ⟨_, h, _⟩ | ⟨_, _, _, _, _, _, he, _⟩⟩
    · rcases h hc with h | ⟨_, _, _, he, _⟩
      · exact h hp
      · cases he
    · exact h hi
    · cases he
  | @ifrSlashEnd r t p s hc hi hb hp hs =>
    intro hT
    refine ⟨ext_word hb, .inr (.inl ⟨by simp, ext_ifr3 hc hi hb hp hs, ?_⟩)⟩
    intro h
    obtain ⟨_, _, he, _⟩ := (inv_ifr hc hi hb hp hs).1 h
    cases he
  | @ifrSlash r t p s x post hc hi hb hp hs h1 h2 =>
    intro hT
    refine ⟨ext_word hb, .inr (.inr ⟨[], t, s, x, post, rfl, hi, rfl, hp, hs, ext_ifr3 hc hi hb hp hs, ?_⟩)⟩
    rintro ⟨z, _, h⟩
    obtain ⟨_, _, he, ⟨h, _⟩ | ⟨h, _⟩⟩ := (inv_ifr hc hi hb hp hs).1 h <;> cases he
    · exact h1 h
    · exact h2 h
  | @ifrPosition r t p s l post n hc hi hb hp hs hl hn =>
    intro hT
    refine ⟨ext_word hb, .inr (.inr ⟨[], t, s, l, post, rfl, hi, rfl, hp, hs, ext_ifr3 hc hi hb hp hs, ?_⟩)⟩
    rintro ⟨z, _, h⟩
    obtain ⟨_, _, he, ⟨_, h, _⟩ | ⟨h, _⟩⟩ := (inv_ifr hc hi hb hp hs).1 h <;> cases he
    · exact not_range (hT p (by simp)) hn.1 h
    · rw [hl] at h; cases h
  | @ifrStep r t p s l post hc hi hb hp hn hs hl hk =>
    intro hT
    refine ⟨ext_ifr3 hc hi hb hp hs, .inl ?_⟩
    rintro ⟨z, _, h⟩
    obtain ⟨_, _, he, ⟨_, _, h, _⟩ | ⟨h, _⟩⟩ := (inv_ifr hc hi hb hp hs).1 h <;> cases he
    · exact hk h
    · rw [hl] at h; cases h
  | @resumeIfr r t p s l pre x post n hc hi hb hp hn hs hl hk h ih =>
    intro hT
    refine Loc.lift' [t, p, s, l] (fun ts => (inv_ifr hc hi hb hp hs).trans ⟨?_, fun h => ⟨l, ts, rfl, .inl ⟨hl, hn, hk, h⟩⟩⟩)
      (ih fun y hy => hT y (by simp only [List.cons_append, List.mem_cons]; simp only [hy, or_true]))
    rintro ⟨_, _, he, ⟨_, _, _, h⟩ | ⟨h, _⟩⟩ <;> cases he
    · exact h
    · rw [hl] at h; cases h
  | @resumeVfr r t p s l pre x post n hc hi hb hp hs hl h ih =>
    intro hT
    refine Loc.lift' [t, p, s, l] (fun ts => (inv_ifr hc hi hb hp hs).trans ⟨?_, fun h => ⟨l, ts, rfl, .inr ⟨hl, h⟩⟩⟩)
      (ih fun y hy => hT y (by simp only [List.cons_append, List.mem_cons]; simp only [hy, or_true]))
    rintro ⟨_, _, he, ⟨h, _⟩ | ⟨_, h⟩⟩ <;> cases he
    · rw [hl] at h; cases h
    · exact h

end F15
