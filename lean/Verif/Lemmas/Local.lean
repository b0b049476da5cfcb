import Verif.Lemmas.Place
import Verif.Lemmas.Fold
import Verif.Props.Elements
/-!
# Every change of an element happens in its stretch
-/

namespace F15
open Spec

set_option linter.unusedSectionVars false
variable {F : Type} [PyFloat F]

/-- Only bearing and distance differ. -/
def KeepPos (r r' : Record F) : Prop := r' = { r with bearing := r'.bearing, distance := r'.distance }

theorem KeepPos.refl (r : Record F) : KeepPos r r := rfl

theorem KeepPos.trans {a b c : Record F} (h : KeepPos a b) (h' : KeepPos b c) : KeepPos a c := by
  unfold KeepPos at *; rw [h', h]

theorem keepPos_az (p q : Record F) : KeepPos p (setAzimuthAndDistance p q) := rfl

theorem azimuth_keepPos (x : Record F) (l : List (Record F)) : ∃ l', azimuthList (x :: l) = x :: l' ∧ All2 KeepPos l l' := by
  unfold azimuthList
  cases l with
  | nil => exact ⟨[], rfl, .nil⟩
  | cons p rs =>
    have hr := All2.refl (R := KeepPos (F := F)) KeepPos.refl
    dsimp only
    split
    · split
      · exact ⟨_, rfl, .cons (keepPos_az _ _) (hr _)⟩
      · cases rs with
        | nil => exact ⟨_, rfl, hr _⟩
        | cons t rs =>
          dsimp only
          split
          · exact ⟨_, rfl, .cons (KeepPos.refl _) (.cons (keepPos_az _ _) (hr _))⟩
          · exact ⟨_, rfl, hr _⟩
    · exact ⟨_, rfl, hr _⟩

theorem posRecs_keepPos (t : Token) (x : Record F) (l : List (Record F)) :
    ∃ l', posRecs t (x :: l) = posHead t x :: l' ∧ All2 KeepPos l l' := by
  have two : ∀ y : Record F, ∃ l', azimuthList (mapHead (project t.text) (azimuthList (y :: l))) = project t.text y :: l' ∧
      All2 KeepPos l l' := by
    intro y
    obtain ⟨l1, h1, k1⟩ := azimuth_keepPos y l
    rw [h1]
    obtain ⟨l2, h2, k2⟩ := azimuth_keepPos (project t.text y) l1
    exact ⟨l2, h2, All2.comp (R := KeepPos) (S := KeepPos) (Q := KeepPos) (fun _ _ _ h h' => KeepPos.trans h h') k1 k2⟩
  unfold posRecs posHead
  cases t.sub
  case LL_DEG | LL_MIN => exact azimuth_keepPos _ _
  case LLBD_DEG | LLBD_MIN => exact two _
  all_goals exact ⟨l, rfl, All2.refl KeepPos.refl l⟩

/-- The element before a new one: SPEED/VFR changes its speed and level. -/
def Act.before (a : Act) (p : Record F) : Record F :=
  match a with
  | .vfr _ => { p with speed := (a.newRec p).speed, speedSi := (a.newRec p).speedSi,
                       altitude := (a.newRec p).altitude, altitudeSi := (a.newRec p).altitudeSi }
  | _ => p

theorem push_shape' (a : Act) (hr : a.records = true) (p : Record F) (rs : List (Record F)) :
    ∃ l', a.recs (p :: rs) = a.newRec p :: l' ∧ All2 KeepPos (a.before p :: rs) l' := by
  have hrf := All2.refl (R := KeepPos (F := F)) KeepPos.refl (p :: rs)
  have pk := fun t => posRecs_keepPos (F := F) t
  cases a with
  | point t => exact pk t _ _
  | vToI t =>
    obtain ⟨l', h, k⟩ := pk t (fresh p t) (p :: rs)
    refine ⟨l', ?_, k⟩
    show mapHead toIfr (posRecs t (fresh p t :: p :: rs)) = _
    rw [h]; rfl
  | ccPoint t => exact pk t _ _
  | vfr t => exact ⟨_, rfl, .cons rfl (All2.refl KeepPos.refl rs)⟩
  | vToIToV t | route t | plain t | brk t | sid t | star t => exact ⟨_, rfl, hrf⟩
  | _ => simp [Act.records] at hr

/-! ### Stretches, newest first -/

variable {T X : List Token}

/-- The rules of the departure aerodrome while the field 15 is read. -/
def EarlyRules (r : Record F) : Prop := r.rules = [] ∨ r.rules = py! "IFR"

/-- `Divides`, newest element first. `n` is the token of the next element. -/
inductive Rows (T X : List Token) : Option Token → List Token → List (Record F) → Prop
  | one {n g r} : Local T X none none g n r → EarlyRules r → Rows T X n g [r]
  | snoc {n dn t g p rs r} : Rows T X (some t) dn (p :: rs) → ElementOf t r → Local T X (some p) (some t) g n r →
      Rows T X n (dn ++ t :: g) (r :: p :: rs)

theorem Spec.Local.grow {prev : Option (Record F)} {own : Option Token} {g : List Token} {r : Record F} (h : Local T X prev own g none r)
    (n : Option Token) (x : List Token) : Local T X prev own (g ++ x) n r where
  adep := h.adep
  speedLevel := by
    rcases h.speedLevel with h | ⟨t, h1, h2⟩
    · exact .inl h
    · refine .inr ⟨t, ?_, h2⟩
      rcases h1 with h1 | h1 | h1
      · exact .inl (List.mem_append_left _ h1)
      · exact .inr (.inl h1)
      · exact nomatch h1.1
  stay := by
    rcases h.stay with h | ⟨t, h1, h2⟩
    · exact .inl h
    · exact .inr ⟨t, List.mem_append_left _ h1, h2⟩
  climb := by
    rcases h.climb with h | ⟨t, h1, h2⟩
    · exact .inl h
    · exact .inr ⟨t, List.mem_append_left _ h1, h2⟩
  text := by
    obtain ⟨ws, h1, h2, h3⟩ := h.text
    exact ⟨ws, h1, h2, h3.trans (List.sublist_append_left _ _)⟩
  rules := h.rules

theorem Rows.grow {dn : List Token} {l : List (Record F)} (h : Rows T X none dn l) (n : Option Token) (x : List Token) :
    Rows T X n (dn ++ x) l := by
  cases h with
  | one hl he => exact .one (hl.grow n x) he
  | snoc hr he hl =>
    rw [List.append_assoc, List.cons_append]
    exact .snoc hr he (hl.grow n x)

theorem KeepPos.fields {r r' : Record F} (h : KeepPos r r') : r'.name = r.name ∧ r'.start = r.start ∧ r'.stop = r.stop ∧
    r'.base = r.base ∧ r'.sub = r.sub ∧ r'.speed = r.speed ∧ r'.speedSi = r.speedSi ∧ r'.altitude = r.altitude ∧
    r'.altitudeSi = r.altitudeSi ∧ r'.stayTime = r.stayTime ∧ r'.cruiseTo = r.cruiseTo ∧ r'.cruiseToSi = r.cruiseToSi ∧
    r'.breakText = r.breakText ∧ r'.rules = r.rules := by
  unfold KeepPos at h; rw [h]; exact ⟨rfl, rfl, rfl, rfl, rfl, rfl, rfl, rfl, rfl, rfl, rfl, rfl, rfl, rfl⟩

theorem Spec.Local.keep_self {prev : Option (Record F)} {own : Option Token} {g : List Token} {n : Option Token} {r r' : Record F}
    (h : Local T X prev own g n r) (k : KeepPos r r') : Local T X prev own g n r' := by
  unfold KeepPos at k
  rw [k]
  exact ⟨h.adep, h.speedLevel, h.stay, h.climb, h.text, h.rules⟩

theorem Spec.Local.keep_prev {own : Option Token} {g : List Token} {n : Option Token} {p p' r : Record F}
    (h : Local T X (some p) own g n r) (k : KeepPos p p') : Local T X (some p') own g n r := by
  unfold KeepPos at k
  rw [k]
  refine ⟨h.adep, ?_, h.stay, h.climb, h.text, ?_⟩
  · rcases h.speedLevel with ⟨h1, _⟩ | h1
    · exact .inl ⟨fun _ e => by cases e; exact h1 p rfl, fun e => nomatch e⟩
    · exact .inr h1
  · intro t q h1 h2
    cases h2
    exact h.rules t p h1 rfl

theorem ElementOf.keep {t : Token} {r r' : Record F} (h : ElementOf t r) (k : KeepPos r r') : ElementOf t r' := by
  unfold KeepPos at k
  rw [k]; exact h

theorem Rows.keep {n : Option Token} {dn : List Token} {l l' : List (Record F)} (h : Rows T X n dn l) (k : All2 KeepPos l l') :
    Rows T X n dn l' := by
  induction h generalizing l' with
  | one hl he =>
    cases k with
    | cons k k' =>
      cases k'
      refine .one (hl.keep_self k) ?_
      have := k.fields
      unfold EarlyRules; rw [this.2.2.2.2.2.2.2.2.2.2.2.2.2]; exact he
  | snoc _ he hl ih =>
    cases k with
    | cons k k' =>
      have k'' := k'
      cases k' with
      | cons k1 k2 => exact .snoc (ih k'') (ElementOf.keep he k) ((hl.keep_self k).keep_prev k1)

/-! ### Free text -/

theorem spaced_nil : spaced [] = [] := rfl

theorem spaced_snoc (ws : List Token) (t : Token) : spaced (ws ++ [t]) = if ws = [] then t.text else spaced ws ++ ' ' :: t.text := by
  induction ws with
  | nil => simp [spaced]
  | cons w ws ih =>
    cases ws with
    | nil => simp [spaced]
    | cons v ws =>
      simp only [List.cons_ne_nil, if_false] at ih ⊢
      show w.text ++ ' ' :: spaced (v :: ws ++ [t]) = (w.text ++ ' ' :: spaced (v :: ws)) ++ ' ' :: t.text
      rw [ih]; simp

theorem spaced_eq_nil {ws : List Token} (h : ∀ w ∈ ws, w.text ≠ []) (he : spaced ws = []) : ws = [] := by
  cases ws with
  | nil => rfl
  | cons w ws =>
    exfalso
    cases ws with
    | nil => exact h w (by simp) (by simpa [spaced] using he)
    | cons v ws =>
      have : spaced (w :: v :: ws) = w.text ++ ' ' :: spaced (v :: ws) := rfl
      rw [this] at he; simp at he

/-! ### Notes -/

theorem Spec.Local.note {prev : Option (Record F)} {own : Option Token} {g : List Token} {r : Record F} (h : Local T X prev own g none r)
    (hT : ∀ t ∈ T, Typed t) (hx : ∀ t ∈ T, t.text ≠ []) {a : Act} (hr : a.records = false) {e : Ers F} {ts : List Token}
    (ok : a.Ok T e ts) (ht : a.tok ∈ T) {g' : List Token} (hg : g.Sublist g')
    (hin : (∃ t n, a = .err t n) ∨ (∃ t, a = .text t ∧ t ∈ X) ∨ (g ++ [a.tok]).Sublist g') :
    Local T X prev own g' none (a.tweak r) := by
  have mono : Local T X prev own g' none r := by
    refine ⟨h.adep, ?_, ?_, ?_, ?_, h.rules⟩
    · rcases h.speedLevel with h | ⟨t, h1, h2⟩
      · exact .inl h
      · refine .inr ⟨t, ?_, h2⟩
        rcases h1 with h1 | h1 | h1
        · exact .inl (hg.subset h1)
        · exact .inr (.inl h1)
        · exact nomatch h1.1
    · rcases h.stay with h | ⟨t, h1, h2⟩
      · exact .inl h
      · exact .inr ⟨t, hg.subset h1, h2⟩
    · rcases h.climb with h | ⟨t, h1, h2⟩
      · exact .inl h
      · exact .inr ⟨t, hg.subset h1, h2⟩
    · obtain ⟨ws, h1, h2, h3⟩ := h.text
      exact ⟨ws, h1, h2, h3.trans hg⟩
  have mem : (∀ t n, a ≠ .err t n) → (∀ t, a ≠ .text t) → a.tok ∈ g' := by
    intro h1 h2
    rcases hin with ⟨t, n, h⟩ | ⟨t, h, _⟩ | h
    · exact absurd h (h1 t n)
    · exact absurd h (h2 t)
    · exact h.subset (by simp)
  cases a with
  | err t n => exact mono
  | level t =>
    have hm := mem (by intros; intro h; cases h) (by intros; intro h; cases h)
    obtain ⟨f1, f2, f3⟩ := level_facts (hT t ht) ok
    refine ⟨mono.adep, .inr ⟨t, .inl hm, f1, ?_⟩, mono.stay, mono.climb, mono.text, fun _ _ _ _ => .inl rfl⟩
    have ok : t.base = .SPEED_ALTITUDE := ok
    rw [ok]; exact ⟨f2, f3⟩
  | levels t =>
    have hm := mem (by intros; intro h; cases h) (by intros; intro h; cases h)
    have ok : t.base = .SPEED_ALTITUDE_ALTITUDE ∧ t.sub ∉ ccBad := ok
    obtain ⟨f1, f2, f3, _, f4⟩ := levels_facts (hT t ht) ok.1 ok.2
    refine ⟨mono.adep, .inr ⟨t, .inl hm, f1, ?_⟩, mono.stay, .inr ⟨t, hm, .inl ok.1, ?_⟩, mono.text, fun _ _ _ _ => .inl rfl⟩
    · rw [ok.1]; exact ⟨f2, _, f3, by rw [List.append_assoc]; exact f4⟩
    · show lv2Of t.text <:+ t.text
      have s1 : tailOf t.text <:+ t.text := by
        conv => rhs; rw [f4]
        rw [← List.append_assoc]; exact List.suffix_append _ _
      unfold lv2Of
      split
      · exact s1
      · exact (List.drop_suffix _ _).trans s1
  | plus t =>
    have hm := mem (by intros; intro h; cases h) (by intros; intro h; cases h)
    have ok : t.base = .SPEED_ALTITUDE_PLUS := ok
    obtain ⟨f1, f2, f3, f4⟩ := plus_facts (hT t ht) ok
    refine ⟨mono.adep, .inr ⟨t, .inl hm, f1, ?_⟩, mono.stay, .inr ⟨t, hm, .inr ok, ?_⟩, mono.text, fun _ _ _ _ => .inl rfl⟩
    · rw [ok]; refine ⟨f2, ?_⟩
      rw [List.append_assoc]; rw [f3] at f4; exact f4
    · show py! "PLUS" <:+ t.text
      rw [f4, f3, ← List.append_assoc]; exact List.suffix_append _ _
  | stay t =>
    have hm := mem (by intros; intro h; cases h) (by intros; intro h; cases h)
    exact ⟨mono.adep, mono.speedLevel, .inr ⟨t, hm, ok, stay_minutes (hT t ht) ok⟩, mono.climb, mono.text, mono.rules⟩
  | text t =>
    have hb : ((Act.text t).tweak r) = { r with breakText := ((Act.text t).tweak r).breakText } := by
      show r.appendBreakText t.text = _
      unfold Act.tweak Record.appendBreakText; split <;> rfl
    rw [hb]
    refine ⟨mono.adep, mono.speedLevel, mono.stay, mono.climb, ?_, mono.rules⟩
    obtain ⟨ws, h1, h2, h3⟩ := h.text
    refine ⟨ws ++ [t], ?_, ?_, ?_⟩
    · show (r.appendBreakText t.text).breakText = _
      rw [spaced_snoc]
      unfold Record.appendBreakText
      rw [h1]
      by_cases hw : ws = []
      · subst hw; rw [if_pos spaced_nil, if_pos rfl]
      · rw [if_neg hw, if_neg fun he => hw (spaced_eq_nil (fun w hw => hx w (h2 w hw)) he)]
    · intro w hw
      rcases List.mem_append.1 hw with hw | hw
      · exact h2 w hw
      · rw [List.mem_singleton.1 hw]; exact ht
    · rw [List.filter_append]
      rcases hin with ⟨_, _, h⟩ | ⟨t', h, ht'⟩ | hin
      · cases h
      · cases h; simp only [ht', List.filter_cons]; simp; simpa using h3.trans hg
      · refine (h3.append (?_ : (List.filter _ [t]).Sublist [t])).trans hin
        exact List.filter_sublist
  | _ => simp [Act.records] at hr

theorem EarlyRules.note {r : Record F} (h : EarlyRules r) (a : Act) : EarlyRules (a.tweak r) := by
  cases a with
  | level | levels | plus => exact .inr rfl
  | text t => unfold EarlyRules Act.tweak; rw [appendBreakText_rules]; exact h
  | _ => exact h

theorem elementOf_tweak {t : Token} {r r' : Record F} (h : ElementOf t r) (k : Tweak r r') : ElementOf t r' := by
  unfold Tweak at k
  rw [k]; exact h

theorem Rows.note {dn : List Token} {p : Record F} {rs : List (Record F)} (h : Rows T X none dn (p :: rs))
    (hT : ∀ t ∈ T, Typed t) (hx : ∀ t ∈ T, t.text ≠ []) {a : Act} (hr : a.records = false) {e : Ers F} {ts : List Token}
    (ok : a.Ok T e ts) (ht : a.tok ∈ T) :
    ((∃ t n, a = .err t n) ∨ (∃ t, a = .text t ∧ t ∈ X) → Rows T X none dn (a.tweak p :: rs)) ∧
    Rows T X none (dn ++ [a.tok]) (a.tweak p :: rs) := by
  cases h with
  | one hl he =>
    refine ⟨fun hin => .one (hl.note hT hx hr ok ht (List.Sublist.refl _) ?_) (he.note a),
      .one (hl.note hT hx hr ok ht (List.sublist_append_left _ _) (.inr (.inr (List.Sublist.refl _)))) (he.note a)⟩
    rcases hin with h | h
    · exact .inl h
    · exact .inr (.inl h)
  | snoc hR he hl =>
    refine ⟨fun hin => .snoc hR (elementOf_tweak he (tweak_ok a p)) (hl.note hT hx hr ok ht (List.Sublist.refl _) ?_), ?_⟩
    · rcases hin with h | h
      · exact .inl h
      · exact .inr (.inl h)
    · rw [List.append_assoc, List.cons_append]
      exact .snoc hR (elementOf_tweak he (tweak_ok a p))
        (hl.note hT hx hr ok ht (List.sublist_append_left _ _) (.inr (.inr (List.Sublist.refl _))))

/-! ### New elements -/

theorem vfr_gives {t : Token} (hT : Typed t) (hb : t.base = .SPEED_VFR) : Gives t (spOf t.text) (py! "F050") := by
  obtain ⟨_, h1, h2⟩ := vfr_facts hT hb
  refine ⟨h1, ?_⟩
  rw [hb]
  refine ⟨rfl, ?_⟩
  rw [← h2]
  unfold spOf restOf
  split <;> exact (List.take_append_drop _ _).symm

theorem posHead_same (t : Token) (r : Record F) : posHead t r =
    { r with latitude := (posHead t r).latitude, longitude := (posHead t r).longitude, latLongValid := (posHead t r).latLongValid } := by
  unfold posHead
  cases t.sub <;> rfl

theorem Spec.Local.new {p : Record F} (hT : ∀ t ∈ T, Typed t) {a : Act} (hr : a.records = true) {e : Ers F}
    {ts : List Token} (ok : a.Ok T e ts) (ht : a.tok ∈ T) : Local T X (some (a.before p)) (some a.tok) [] none (a.newRec p) := by
  have ini : ∀ r : Record F, SameSpeedLevel p r → r.stayTime = 0 → r.cruiseTo = [] → r.cruiseToSi = 0 → r.breakText = [] →
      (r.rules = py! "IFR" ∨ a.tok.base = .BREAK_START ∧ r.rules = rulesOfBreak a.tok.sub ∨
        a.tok.base = .SPEED_VFR ∧ r.rules = py! "VFR" ∨ r.rules = p.rules) → Local T X (some p) (some a.tok) [] none r := by
    intro r h1 h2 h3 h4 h5 h6
    refine ⟨fun h => (nomatch h), .inl ⟨fun q hq => by cases hq; exact h1, fun h => (nomatch h)⟩, .inl h2, .inl ⟨h3, h4⟩,
      ⟨[], h5, by simp, by simp⟩, fun t q h h' => ?_⟩
    cases h; cases h'
    rcases h6 with h | h | h | h
    · exact .inl h
    · exact .inr (.inl h)
    · exact .inr (.inr (.inl h))
    · exact .inr (.inr (.inr (.inl h)))
  cases a with
  | point t =>
    show Local T X (some p) (some t) [] none (posHead t (toIfr (fresh p t)))
    rw [posHead_same]; exact ini _ ⟨rfl, rfl, rfl, rfl⟩ rfl rfl rfl rfl (.inl rfl)
  | vToI t =>
    show Local T X (some p) (some t) [] none (toIfr (posHead t (fresh p t)))
    rw [posHead_same]; exact ini _ ⟨rfl, rfl, rfl, rfl⟩ rfl rfl rfl rfl (.inl rfl)
  | ccPoint t =>
    show Local T X (some p) (some t) [] none (posHead t (fresh p t))
    rw [posHead_same]; exact ini _ ⟨rfl, rfl, rfl, rfl⟩ rfl rfl rfl rfl (.inr (.inr (.inr rfl)))
  | vToIToV t | route t => exact ini _ ⟨rfl, rfl, rfl, rfl⟩ rfl rfl rfl rfl (.inl rfl)
  | plain t | sid t | star t => exact ini _ ⟨rfl, rfl, rfl, rfl⟩ rfl rfl rfl rfl (.inr (.inr (.inr rfl)))
  | brk t =>
    have ok : t.base = .BREAK_START := ok
    show Local T X (some p) (some t) [] none (brkRules t.sub (fresh p t))
    have hb : brkRules t.sub (fresh p t) = { fresh p t with rules := (brkRules t.sub (fresh p t)).rules } := by
      unfold brkRules; split <;> rfl
    rw [hb]
    refine ini _ ⟨rfl, rfl, rfl, rfl⟩ rfl rfl rfl rfl ?_
    show (brkRules t.sub (fresh p t)).rules = _ ∨ _ ∧ (brkRules t.sub (fresh p t)).rules = _ ∨ _ ∧ (brkRules t.sub (fresh p t)).rules = _ ∨
      (brkRules t.sub (fresh p t)).rules = _
    rcases break_sub (hT t ht) ok with h | h | h
    all_goals exact .inr (.inl ⟨ok, by show _ = rulesOfBreak t.sub; rw [h]; rfl⟩)
  | vfr t =>
    have ok : t.base = .SPEED_VFR := ok
    refine ⟨fun h => (nomatch h), .inr ⟨t, .inr (.inl ⟨rfl, ok⟩), vfr_gives (hT t ht) ok⟩, .inl rfl, .inl ⟨rfl, rfl⟩,
      ⟨[], rfl, by simp, by simp⟩, fun t q h h' => ?_⟩
    cases h
    exact .inr (.inr (.inl ⟨ok, rfl⟩))
  | _ => simp [Act.records] at hr

theorem Spec.Local.before {prev : Option (Record F)} {own : Option Token} {g : List Token} {p : Record F} (h : Local T X prev own g none p)
    (hT : ∀ t ∈ T, Typed t) {a : Act} {e : Ers F} {ts : List Token} (ok : a.Ok T e ts) (ht : a.tok ∈ T) :
    Local T X prev own g (some a.tok) (a.before p) := by
  have h' : Local T X prev own g (some a.tok) p := by simpa using h.grow (some a.tok) []
  cases a with
  | vfr t =>
    have ok : t.base = .SPEED_VFR := ok
    exact ⟨h'.adep, .inr ⟨t, .inr (.inr ⟨rfl, ok⟩), vfr_gives (hT t ht) ok⟩, h'.stay, h'.climb, h'.text, h'.rules⟩
  | _ => exact h'

theorem early_before {p : Record F} (h : EarlyRules p) (a : Act) : EarlyRules (a.before p) := by
  cases a <;> exact h

theorem elementOf_before {t : Token} {p : Record F} (h : ElementOf t p) (a : Act) : ElementOf t (a.before p) := by
  cases a <;> exact h

theorem Rows.push {dn : List Token} {p : Record F} {rs : List (Record F)} (h : Rows T X none dn (p :: rs))
    (hT : ∀ t ∈ T, Typed t) {a : Act} (hr : a.records = true) {e : Ers F} {ts : List Token}
    (ok : a.Ok T e ts) (ht : a.tok ∈ T) : Rows T X none (dn ++ [a.tok]) (a.recs (p :: rs)) := by
  obtain ⟨l', h1, h2⟩ := push_shape' a hr p rs
  have hR : Rows T X (some a.tok) dn (a.before p :: rs) := by
    cases h with
    | one hl he => exact .one (hl.before hT ok ht) (early_before he a)
    | snoc hR he hl => exact .snoc hR (elementOf_before he a) (hl.before hT ok ht)
  have hS := Rows.snoc hR (elementOf_core hr ok.kind (core_newRec a p)) (Spec.Local.new (p := p) hT hr ok ht)
  rw [h1]
  exact hS.keep (.cons (KeepPos.refl _) h2)

/-! ### The run -/

/-- The tokens taken are divided among the elements. -/
def Divided (T : List Token) (c : PCfg F) : Prop :=
  Has48 T c.ers ∨ ∃ dn, (c.unused = false ∧ T = dn ++ c.toks ∨ c.unused = true ∧ ∃ t, T = dn ++ t :: c.toks) ∧ Rows T (overlong T) none dn c.ers.recs

theorem suffix_head {α : Type} {t t' : α} {ts dn T : List α} (h : (t :: ts) <:+ T) (h' : T = dn ++ t' :: ts) : t = t' := by
  obtain ⟨a, ha⟩ := h
  rw [h'] at ha
  have := List.append_inj' ha rfl
  simpa using this.2

theorem near_text {a : Act} (hr : a.records = false) (ht : a.tok ∈ T) (e : Ers F) (ts : List Token) (f : Bool) (h : a.Near T e ts f) :
    ((∃ t n, a = .err t n) ∨ (∃ t, a = .text t ∧ t ∈ overlong T)) ∨ AtHand T e ts f a.tok := by
  cases a with
  | err t n => exact .inl (.inl ⟨t, n, rfl⟩)
  | text t =>
    rcases h with h | h
    · exact .inl (.inr ⟨t, rfl, List.mem_filter.2 ⟨ht, by simpa using h⟩⟩)
    · exact .inr h
  | level | levels | plus | stay => exact .inr h
  | _ => simp [Act.records] at hr

theorem near_push {a : Act} (hr : a.records = true) (e : Ers F) (ts : List Token) (f : Bool) (h : a.Near T e ts f) :
    AtHand T e ts f a.tok := by
  cases a with
  | err | text | level | levels | plus | stay => simp [Act.records] at hr
  | _ => exact h

theorem has48_run (a : Act) {e : Ers F} (h : Has48 T e) : Has48 T (a.run e) := by
  obtain ⟨t, ht, hm⟩ := h
  exact ⟨t, ht, by rw [run_errs]; exact List.mem_append_right _ hm⟩

theorem Divided.ev (hT : ∀ t ∈ T, Typed t) (hx : ∀ t ∈ T, t.text ≠ []) {a b : PCfg F} (ev : PEv T a b)
    (hne : a.ers.recs ≠ []) (h : Divided T a) : Divided T b := by
  cases ev with
  | pop e t ts f =>
    rcases h with h | ⟨dn, h1, h2⟩
    · exact .inl h
    · right
      rcases h1 with ⟨_, h1⟩ | ⟨_, t', h1⟩
      · exact ⟨dn, .inr ⟨rfl, t, h1⟩, h2⟩
      · exact ⟨dn ++ [t'], .inr ⟨rfl, t, by simpa using h1⟩, h2.grow none [t']⟩
  | drop e ts f =>
    rcases h with h | ⟨dn, h1, h2⟩
    · exact .inl h
    · right
      rcases h1 with ⟨_, h1⟩ | ⟨_, t', h1⟩
      · exact ⟨dn, .inl ⟨rfl, h1⟩, h2⟩
      · exact ⟨dn ++ [t'], .inl ⟨rfl, by simpa using h1⟩, h2.grow none [t']⟩
  | act a e ts f ht ok near =>
    rcases h with h | ⟨dn, h1, h2⟩
    · exact .inl (has48_run a h)
    · obtain ⟨p, rs, hp⟩ : ∃ p rs, e.recs = p :: rs := by
        cases h : e.recs with
        | nil => exact absurd h hne
        | cons p rs => exact ⟨p, rs, rfl⟩
      replace h2 : Rows T (overlong T) none dn e.recs := h2
      replace h1 : f = false ∧ T = dn ++ ts ∨ f = true ∧ ∃ t, T = dn ++ t :: ts := h1
      rw [hp] at h2
      have hrun : (a.run e).recs = a.recs (p :: rs) := by show a.recs e.recs = _; rw [hp]
      have athand : AtHand T e ts f a.tok → Rows T (overlong T) none (dn ++ [a.tok]) (a.recs (p :: rs)) → Divided T ⟨a.run e, ts, false⟩ := by
        intro hs hn
        rcases hs.2 with ⟨hs, hf⟩ | hs
        · right
          rcases h1 with ⟨hf', _⟩ | ⟨_, t', h1⟩
          · rw [hf] at hf'; cases hf'
          · have := suffix_head hs h1
            subst this
            exact ⟨dn ++ [a.tok], .inl ⟨rfl, by simpa using h1⟩, by show Rows T (overlong T) none _ (a.run e).recs; rw [hrun]; exact hn⟩
        · exact .inl (has48_run a hs)
      cases hr : a.records with
      | false =>
        have hn := h2.note hT hx hr ok ht
        rw [← note_shape a hr] at hn
        rcases near_text hr ht e ts f near with hs | hs
        · right
          rcases h1 with ⟨_, h1⟩ | ⟨_, t', h1⟩
          · exact ⟨dn, .inl ⟨rfl, h1⟩, by show Rows T (overlong T) none _ (a.run e).recs; rw [hrun]; exact hn.1 hs⟩
          · exact ⟨dn ++ [t'], .inl ⟨rfl, by simpa using h1⟩, by
              show Rows T (overlong T) none _ (a.run e).recs; rw [hrun]; exact (hn.1 hs).grow none [t']⟩
        · exact athand hs hn.2
      | true => exact athand (near_push hr e ts f near) (h2.push hT hr ok ht)

theorem Divided.star (hT : ∀ t ∈ T, Typed t) (hx : ∀ t ∈ T, t.text ≠ []) {a b : PCfg F} (s : PStar T a b)
    (hne : a.ers.recs ≠ []) (h : Divided T a) : Divided T b := by
  refine (PStar.inv (P := fun c => c.ers.recs ≠ [] ∧ Divided T c) ?_ s ⟨hne, h⟩).2
  intro a b ev h
  refine ⟨?_, h.2.ev hT hx ev h.1⟩
  cases ev with
  | pop | drop => exact h.1
  | act a e => exact a.run_ne e h.1

theorem Divided.start : Divided T (⟨Ers.new, T, false⟩ : PCfg F) := by
  refine .inr ⟨[], .inl ⟨rfl, rfl⟩, .one ?_ (.inl rfl)⟩
  exact ⟨fun _ => ⟨rfl, rfl, rfl, rfl, rfl⟩, .inl ⟨fun _ h => (nomatch h), fun _ => ⟨rfl, rfl, rfl, rfl⟩⟩, .inl rfl, .inl ⟨rfl, rfl⟩,
    ⟨[], rfl, by simp, by simp⟩, fun _ _ h => (nomatch h)⟩

/-! ### Oldest first -/

/-- `Rows` after the rules of the departure aerodrome have been set. -/
inductive Rows2 (T X : List Token) : Option Token → List Token → List (Record F) → Prop
  | one {n g r} : Local T X none none g n r → Rows2 T X n g [r]
  | snoc {n dn t g p rs r} : Rows2 T X (some t) dn (p :: rs) → ElementOf t r → Local T X (some p) (some t) g n r →
      Rows2 T X n (dn ++ t :: g) (r :: p :: rs)

theorem mapOldest_one (f : Record F → Record F) (r : Record F) : mapOldest f [r] = [f r] := rfl

theorem mapOldest_cons (f : Record F → Record F) (r p : Record F) (rs : List (Record F)) :
    mapOldest f (r :: p :: rs) = r :: mapOldest f (p :: rs) := by
  obtain ⟨a, x, h⟩ := split_last (p :: rs) (by simp)
  rw [h, ← List.cons_append, mapOldest_append, mapOldest_append]; rfl

theorem Spec.Local.toVfr {g : List Token} {n : Option Token} {r : Record F} (h : Local T X none none g n r) :
    Local T X none none g n (toVfr r) :=
  ⟨h.adep, h.speedLevel, h.stay, h.climb, h.text, fun _ _ h => (nomatch h)⟩

theorem Rows.vfr {n : Option Token} {dn : List Token} {l : List (Record F)} (h : Rows T X n dn l) :
    ∃ p rs p' rs', l = p :: rs ∧ mapOldest F15.toVfr l = p' :: rs' ∧ Rows2 T X n dn (p' :: rs') ∧
      (p' = p ∨ p' = F15.toVfr p ∧ Placeholder (py! "ADEP") p ∧ EarlyRules p) := by
  induction h with
  | one hl he => exact ⟨_, _, _, _, rfl, mapOldest_one _ _, .one hl.toVfr, .inr ⟨rfl, hl.adep rfl, he⟩⟩
  | @snoc n dn t g p rs r hR he hl ih =>
    obtain ⟨q, qs, p', rs', h1, h2, h3, h4⟩ := ih
    cases h1
    refine ⟨r, p :: rs, r, p' :: rs', rfl, by rw [mapOldest_cons, h2], .snoc h3 he ?_, .inl rfl⟩
    rcases h4 with rfl | ⟨rfl, ha, hE⟩
    · exact hl
    · refine ⟨fun h => (nomatch h), ?_, hl.stay, hl.climb, hl.text, ?_⟩
      · rcases hl.speedLevel with ⟨h, _⟩ | h
        · exact .inl ⟨fun q hq => by cases hq; exact h p rfl, fun h => (nomatch h)⟩
        · exact .inr h
      · intro x q hx hq
        cases hq
        rcases hl.rules x p hx rfl with h | h | h | h | h
        · exact .inl h
        · exact .inr (.inl h)
        · exact .inr (.inr (.inl h))
        · rcases hE with hE | hE
          · exact .inr (.inr (.inr (.inr ⟨ha, h.trans hE⟩)))
          · exact .inl (h.trans hE)
        · exact .inr (.inr (.inr (.inr h)))

theorem Rows.rows2 {n : Option Token} {dn : List Token} {l : List (Record F)} (h : Rows T X n dn l) : Rows2 T X n dn l := by
  induction h with
  | one hl _ => exact .one hl
  | snoc _ he hl ih => exact .snoc ih he hl

theorem Rows2.divides {n : Option Token} {dn : List Token} {l : List (Record F)} (h : Rows2 T X n dn l) {r : Record F}
    {rs : List (Record F)} (hl : l = r :: rs) (Z : List Token) (Y : List (Record F))
    (k : ∀ prev own g, Local T X prev own g n r → Divides T X prev own (g ++ Z) (r :: Y)) :
    Divides T X none none (dn ++ Z) (l.reverse ++ Y) := by
  induction h generalizing r rs Z Y with
  | one hl' =>
    cases hl
    exact k _ _ _ hl'
  | @snoc n dn t g p rs' r' hR he hL ih =>
    cases hl
    have := ih rfl (t :: (g ++ Z)) (r' :: Y) fun prev own g1 h1 => .next h1 he (k _ _ _ hL)
    simpa using this

theorem Rows2.all {dn : List Token} {l : List (Record F)} (h : Rows2 T X none dn l) : Divides T X none none dn l.reverse := by
  cases l with
  | nil => cases h
  | cons r rs =>
    have := h.divides rfl [] [] fun prev own g h => by rw [List.append_nil]; exact .last h
    simpa using this

end F15
