import Verif.Lemmas.Parse
/-!
# How actions change the elements

Every action either adds exactly one element, changing only speed, level, bearing and distance of the others,
or adds none and changes only some attributes of the newest element.
-/

namespace F15
open Spec

set_option linter.unusedSectionVars false
variable {F : Type} [PyFloat F]

/-- Only speed, level, bearing and distance differ. -/
def Keep (r r' : Record F) : Prop :=
  r' = { r with speed := r'.speed, speedSi := r'.speedSi, altitude := r'.altitude, altitudeSi := r'.altitudeSi,
                bearing := r'.bearing, distance := r'.distance }

/-- Only speed, levels, rules, break text and stay time differ. -/
def Tweak (r r' : Record F) : Prop :=
  r' = { r with speed := r'.speed, speedSi := r'.speedSi, altitude := r'.altitude, altitudeSi := r'.altitudeSi,
                cruiseTo := r'.cruiseTo, cruiseToSi := r'.cruiseToSi, rules := r'.rules,
                breakText := r'.breakText, stayTime := r'.stayTime }

theorem Keep.refl (r : Record F) : Keep r r := rfl
theorem Tweak.refl (r : Record F) : Tweak r r := rfl

/-- Pointwise relation of lists. -/
inductive All2 {α β : Type} (R : α → β → Prop) : List α → List β → Prop
  | nil : All2 R [] []
  | cons {a b l l'} : R a b → All2 R l l' → All2 R (a :: l) (b :: l')

namespace All2
variable {α β γ : Type}

theorem refl {R : α → α → Prop} (h : ∀ a, R a a) : ∀ l, All2 R l l
  | [] => .nil
  | a :: l => .cons (h a) (refl h l)

theorem mono {R S : α → β → Prop} (h : ∀ a b, R a b → S a b) {l : List α} {l' : List β} (x : All2 R l l') : All2 S l l' := by
  induction x with
  | nil => exact .nil
  | cons r _ ih => exact .cons (h _ _ r) ih

theorem comp {R : α → β → Prop} {S : β → γ → Prop} {Q : α → γ → Prop} (h : ∀ a b c, R a b → S b c → Q a c)
    {l : List α} {l' : List β} {l'' : List γ} (x : All2 R l l') (y : All2 S l' l'') : All2 Q l l'' := by
  induction x generalizing l'' with
  | nil => cases y; exact .nil
  | cons r _ ih => cases y with | cons s y => exact .cons (h _ _ _ r s) (ih y)

theorem length {R : α → β → Prop} {l : List α} {l' : List β} (x : All2 R l l') : l.length = l'.length := by
  induction x with
  | nil => rfl
  | cons _ _ ih => simp [ih]

theorem append {R : α → β → Prop} {l m : List α} {l' m' : List β} (x : All2 R l l') (y : All2 R m m') :
    All2 R (l ++ m) (l' ++ m') := by
  induction x with
  | nil => exact y
  | cons r _ ih => exact .cons r ih

theorem reverse {R : α → β → Prop} {l : List α} {l' : List β} (x : All2 R l l') : All2 R l.reverse l'.reverse := by
  induction x with
  | nil => exact .nil
  | cons r _ ih => simp only [List.reverse_cons]; exact append ih (.cons r .nil)

theorem append_left {R : α → β → Prop} {a b : List α} {l' : List β} (x : All2 R (a ++ b) l') :
    ∃ a' b', l' = a' ++ b' ∧ All2 R a a' ∧ All2 R b b' := by
  induction a generalizing l' with
  | nil => exact ⟨[], l', rfl, .nil, x⟩
  | cons c a ih =>
    cases x with
    | cons r x =>
      obtain ⟨a', b', rfl, h1, h2⟩ := ih x
      exact ⟨_ :: a', b', rfl, .cons r h1, h2⟩

theorem mem_left {R : α → β → Prop} {l : List α} {l' : List β} (x : All2 R l l') {a : α} (h : a ∈ l) :
    ∃ b ∈ l', R a b := by
  induction x with
  | nil => simp at h
  | cons r _ ih =>
    rcases List.mem_cons.1 h with rfl | h
    · exact ⟨_, by simp, r⟩
    · obtain ⟨b, hb, hr⟩ := ih h; exact ⟨b, by simp [hb], hr⟩

theorem mem_right {R : α → β → Prop} {l : List α} {l' : List β} (x : All2 R l l') {b : β} (h : b ∈ l') :
    ∃ a ∈ l, R a b := by
  induction x with
  | nil => simp at h
  | cons r _ ih =>
    rcases List.mem_cons.1 h with rfl | h
    · exact ⟨_, by simp, r⟩
    · obtain ⟨b, hb, hr⟩ := ih h; exact ⟨b, by simp [hb], hr⟩

end All2

theorem Keep.trans {a b c : Record F} (h : Keep a b) (h' : Keep b c) : Keep a c := by
  unfold Keep at *; rw [h', h]

theorem mapHead_keep (f : Record F → Record F) (hf : ∀ r, Keep r (f r)) (l : List (Record F)) : All2 Keep l (mapHead f l) := by
  cases l with
  | nil => exact .nil
  | cons r l => exact .cons (hf r) (All2.refl Keep.refl l)

theorem keep_az (p q : Record F) : Keep p (setAzimuthAndDistance p q) := rfl

/-- `azimuthList` leaves the head alone and only touches bearing/distance of the next two. -/
theorem azimuth_keep (x : Record F) (l : List (Record F)) : ∃ l', azimuthList (x :: l) = x :: l' ∧ All2 Keep l l' := by
  unfold azimuthList
  cases l with
  | nil => exact ⟨[], rfl, .nil⟩
  | cons p rs =>
    have hr := All2.refl (R := Keep (F := F)) Keep.refl
    dsimp only
    split
    · split
      · exact ⟨_, rfl, .cons (keep_az _ _) (hr _)⟩
      · cases rs with
        | nil => exact ⟨_, rfl, hr _⟩
        | cons t rs =>
          dsimp only
          split
          · exact ⟨_, rfl, .cons (Keep.refl _) (.cons (keep_az _ _) (hr _))⟩
          · exact ⟨_, rfl, hr _⟩
    · exact ⟨_, rfl, hr _⟩

/-- The value of the new element after the position has been assigned. -/
def posHead (t : Token) (r : Record F) : Record F :=
  match t.sub with
  | .LL_DEG => setPos (latD t.text) (lonD t.text) r
  | .LL_MIN => setPos (latM t.text) (lonM t.text) r
  | .LLBD_DEG => project t.text (setPos (latD t.text) (lonD t.text) r)
  | .LLBD_MIN => project t.text (setPos (latM t.text) (lonM t.text) r)
  | _ => r

theorem posRecs_keep (t : Token) (x : Record F) (l : List (Record F)) :
    ∃ l', posRecs t (x :: l) = posHead t x :: l' ∧ All2 Keep l l' := by
  have two : ∀ y : Record F, ∃ l', azimuthList (mapHead (project t.text) (azimuthList (y :: l))) = project t.text y :: l' ∧
      All2 Keep l l' := by
    intro y
    obtain ⟨l1, h1, k1⟩ := azimuth_keep y l
    rw [h1]
    obtain ⟨l2, h2, k2⟩ := azimuth_keep (project t.text y) l1
    exact ⟨l2, h2, All2.comp (R := Keep) (S := Keep) (Q := Keep) (fun _ _ _ h h' => Keep.trans h h') k1 k2⟩
  unfold posRecs posHead
  cases t.sub
  case LL_DEG | LL_MIN => exact azimuth_keep _ _
  case LLBD_DEG | LLBD_MIN => exact two _
  all_goals exact ⟨l, rfl, All2.refl Keep.refl l⟩

/-- The element just created for `t`: nothing but identity and the carried attributes. -/
def fresh (p : Record F) (t : Token) : Record F := carry p (Record.new t.text t.start t.stop t.base t.sub)

/-- The new element of a recording action when the newest element was `p`. -/
def Act.newRec (a : Act) (p : Record F) : Record F :=
  match a with
  | .point t => posHead t (toIfr (fresh p t))
  | .vToI t => toIfr (posHead t (fresh p t))
  | .vToIToV t | .route t => toIfr (fresh p t)
  | .plain t => fresh p t
  | .brk t => brkRules t.sub (fresh p t)
  | .sid t => asSid t.text (fresh p t)
  | .star t => asStar t.text (fresh p t)
  | .ccPoint t => posHead t (fresh p t)
  | .vfr t => toVfr (setSpeed (spOf t.text) (setLevel (py! "F050") (fresh p { t with text := py! "VFR" })))
  | a => fresh p a.tok

theorem push_shape (a : Act) (hr : a.records = true) (p : Record F) (rs : List (Record F)) :
    ∃ l', a.recs (p :: rs) = a.newRec p :: l' ∧ All2 Keep (p :: rs) l' := by
  have hrf := All2.refl (R := Keep (F := F)) Keep.refl (p :: rs)
  have pk := fun t => posRecs_keep (F := F) t
  cases a with
  | point t => exact pk t _ _
  | vToI t =>
    obtain ⟨l', h, k⟩ := pk t (fresh p t) (p :: rs)
    refine ⟨l', ?_, k⟩
    show mapHead toIfr (posRecs t (fresh p t :: p :: rs)) = _
    rw [h]; rfl
  | ccPoint t => exact pk t _ _
  | vfr t => exact ⟨_, rfl, .cons rfl (All2.refl Keep.refl rs)⟩
  | vToIToV t | route t | plain t | brk t | sid t | star t => exact ⟨_, rfl, hrf⟩
  | _ => simp [Act.records] at hr

theorem setSpeed_tweak (s : Str) (r : Record F) : Tweak r (setSpeed s r) := rfl
theorem setLevel_tweak (s : Str) (r : Record F) : Tweak r (setLevel s r) := rfl

/-- The change of the newest element by a non-recording action. -/
def Act.tweak (a : Act) (r : Record F) : Record F :=
  match a with
  | .level t => toIfr (setSpeed (spOf t.text) (setLevel (restOf t.text) r))
  | .levels t => toIfr (setSpeed (spOf t.text) (setCruise (lv2Of t.text) (setLevel (lv1Of t.text) r)))
  | .plus t => toIfr (setSpeed (spOf t.text) (setPlus (py! "PLUS") (setLevel (lv1Of t.text) r)))
  | .text t => r.appendBreakText t.text
  | .stay t => setStay t.text r
  | _ => r

theorem note_shape (a : Act) (hr : a.records = false) (p : Record F) (rs : List (Record F)) :
    a.recs (p :: rs) = a.tweak p :: rs := by
  cases a with
  | err | level | levels | plus | text | stay => rfl
  | _ => simp [Act.records] at hr

theorem tweak_ok (a : Act) (r : Record F) : Tweak r (a.tweak r) := by
  cases a with
  | text t =>
    show Tweak r (r.appendBreakText t.text)
    unfold Record.appendBreakText; split <;> rfl
  | _ => rfl

end F15
