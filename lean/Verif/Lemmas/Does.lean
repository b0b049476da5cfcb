import Verif.Lemmas.Sim
import Verif.Lemmas.PyInt
import Verif.Props.Classify
/-!
# Functional descriptions of the straight-line parts of the methods

`Does m t ns g`: the program part `m` never fails (on a non-empty ERS), adds the error messages `ns` for
token `t` and transforms the (newest first) list of elements by `g`.
-/

namespace F15
open Spec

set_option linter.unusedSectionVars false
variable {F : Type} [PyFloat F]

/-- Parser programs over the list stream. -/
abbrev ML (F α : Type) := M (List Token) F α

/-- The error record of message `n` on token `t`. -/
def errRec (t : Token) (n : Nat) : Record F :=
  (Record.new t.text t.start t.stop t.base t.sub).appendErrorText
    (replaceBang ((errorMessage n).getD []) t.text)

/-- Add the messages `ns` for `t` and transform the elements by `g`. -/
def upd (t : Token) (ns : List Nat) (g : List (Record F) → List (Record F)) (e : Ers F) : Ers F :=
  { recs := g e.recs, errs := (ns.map (errRec t)).reverse ++ e.errs, derived := e.derived }

/-- Transform the newest element. -/
def mapHead (f : Record F → Record F) : List (Record F) → List (Record F)
  | [] => []
  | r :: rs => f r :: rs

theorem upd_upd (t : Token) (ns ns' : List Nat) (g g' : List (Record F) → List (Record F)) (e : Ers F) :
    upd t ns' g' (upd t ns g e) = upd t (ns ++ ns') (g' ∘ g) e := by
  simp [upd, List.append_assoc]

structure Does (m : ML F Unit) (t : Token) (ns : List Nat) (g : List (Record F) → List (Record F)) : Prop where
  run : ∀ e ts, e.recs ≠ [] → m ⟨e, ts⟩ = .ok ((), ⟨upd t ns g e, ts⟩)
  ne : ∀ l, l ≠ [] → g l ≠ []

theorem Does.bind {m m' : ML F Unit} {t : Token} {ns ns' : List Nat} {g g' : List (Record F) → List (Record F)}
    (h : Does m t ns g) (h' : Does m' t ns' g') : Does (m >>= fun _ => m') t (ns ++ ns') (g' ∘ g) := by
  refine ⟨fun e ts he => ?_, fun l hl => h'.ne _ (h.ne _ hl)⟩
  show (m ⟨e, ts⟩ >>= fun p => m' p.2) = _
  rw [h.run e ts he]
  show m' ⟨upd t ns g e, ts⟩ = _
  rw [h'.run _ ts (h.ne _ he), upd_upd]

theorem Does.lift {α : Type} {x : Except PyErr α} {a : α} {f : α → ML F Unit} {t : Token} {ns : List Nat}
    {g : List (Record F) → List (Record F)} (hx : x = .ok a) (h : Does (f a) t ns g) :
    Does (liftE x >>= f) t ns g := by
  subst hx; exact ⟨h.run, h.ne⟩

theorem Does.congr {m : ML F Unit} {t : Token} {ns ns' : List Nat} {g g' : List (Record F) → List (Record F)}
    (h : Does m t ns g) (hn : ns = ns') (hg : ∀ l, g l = g' l) : Does m t ns' g' := by
  obtain rfl : g = g' := funext hg
  subst hn; exact h

theorem mapHead_ne (f : Record F → Record F) (l : List (Record F)) (h : l ≠ []) : mapHead f l ≠ [] := by
  cases l with
  | nil => exact absurd rfl h
  | cons => simp [mapHead]

theorem mapHead_mapHead (f g : Record F → Record F) (l : List (Record F)) :
    mapHead g (mapHead f l) = mapHead (g ∘ f) l := by cases l <;> rfl

theorem does_pure (t : Token) : Does (F := F) (pure ()) t [] id := ⟨fun _ _ _ => rfl, fun _ h => h⟩

theorem does_modLast (t : Token) (f : Record F → Record F) : Does (modLast f) t [] (mapHead f) := by
  refine ⟨fun e ts he => ?_, mapHead_ne f⟩
  obtain ⟨recs, errs, d⟩ := e
  cases recs with
  | nil => exact absurd rfl he
  | cons r rs => rfl

theorem does_err (t : Token) (n : Nat) (hn : (errorMessage n).isSome) :
    Does (F := F) (addErrorNoReSync t n) t [n] id := by
  refine ⟨fun e ts _ => ?_, fun _ h => h⟩
  obtain ⟨m, hm⟩ := Option.isSome_iff_exists.1 hn
  unfold addErrorNoReSync
  rw [hm]
  simp [upd, errRec, Ers.addError, hm]

theorem does_errIf (t : Token) (n : Nat) (hn : (errorMessage n).isSome) (b : Bool) :
    Does (F := F) (whenM b (addErrorNoReSync t n)) t (if b then [n] else []) id := by
  cases b
  · exact does_pure t
  · exact does_err t n hn

theorem azimuthList_ne (l : List (Record F)) (h : l ≠ []) : azimuthList l ≠ [] := by
  unfold azimuthList
  split
  · split
    · split
      · simp
      · split
        · split <;> simp
        · simp
    · simp
  · exact h

theorem does_azimuth (t : Token) : Does (F := F) assignAzimuth t [] azimuthList :=
  ⟨fun _ _ _ => rfl, azimuthList_ne⟩

/-- The new element appended by `add_record`. -/
def pushRec (t : Token) : List (Record F) → List (Record F)
  | [] => []
  | prev :: rs => carry prev (Record.new t.text t.start t.stop t.base t.sub) :: prev :: rs

theorem does_addRecord (t t' : Token) : Does (F := F) (addRecord t) t' [] (pushRec t) := by
  refine ⟨fun e ts he => ?_, fun l hl => ?_⟩
  · obtain ⟨recs, errs, d⟩ := e
    cases recs with
    | nil => exact absurd rfl he
    | cons r rs => rfl
  · cases l with
    | nil => exact absurd rfl hl
    | cons => simp [pushRec]

/-! ### Levels and speeds -/

/-- A unit character followed by digits. -/
def Unit1 (s : Str) : Prop := ∃ u ds, s = u :: ds ∧ DigitStr ds

/-- The numeric part of a level or speed. -/
def qty (s : Str) : Nat := numVal (s.drop 1)

/-- Message 40 for a flight level not divisible by five. -/
def granErr (lv : Str) : List Nat := if lv.take 1 = py! "F" ∧ qty lv % 5 ≠ 0 then [40] else []

/-- Metres of a level. -/
def levelSi (F : Type) [PyFloat F] (lv : Str) : Int := altitudeToSi (F := F) (lv.take 1) (qty lv)

/-- Metres per second of a speed at an altitude. -/
def speedSi (F : Type) [PyFloat F] (sp : Str) (alt : Int) : Int := speedToSi (F := F) (sp.take 1) (qty sp) alt

def setLevel (lv : Str) (r : Record F) : Record F := { r with altitude := lv, altitudeSi := levelSi F lv }
def setCruise (lv : Str) (r : Record F) : Record F := { r with cruiseTo := lv, cruiseToSi := levelSi F lv }
def setSpeed (sp : Str) (r : Record F) : Record F := { r with speed := sp, speedSi := speedSi F sp r.altitudeSi }

theorem does_assignAltitude (t : Token) (lv : Str) (h : Unit1 lv) :
    Does (F := F) (assignAltitude t lv false) t (granErr lv) (mapHead (setLevel lv)) := by
  obtain ⟨u, ds, rfl, hd⟩ := h
  have e1 : sliceFrom (u :: ds) 1 = ds := by
    simp only [sliceFrom, pyIdx, List.length_cons]
    rw [if_neg (by decide), show min (1 : Int).toNat (ds.length + 1) = 1 by simp]; rfl
  have e2 : slice (u :: ds) 0 1 = [u] := by
    simp only [slice, pyIdx, List.length_cons]
    rw [if_neg (by decide), if_neg (by decide), show min (1 : Int).toNat (ds.length + 1) = 1 by simp,
      show min (0 : Int).toNat (ds.length + 1) = 0 by simp]; rfl
  unfold assignAltitude
  rw [e1, e2]
  refine Does.congr ((does_modLast t _).bind (Does.lift (pyInt_digits hd)
    ((does_errIf t 40 (by decide) _).bind (does_modLast t _)))) ?_ ?_
  · simp only [granErr, qty, List.take_succ_cons, List.take_zero, List.drop_succ_cons, List.drop_zero,
      List.nil_append, List.append_nil]
    by_cases h : [u] = py! "F" ∧ numVal ds % 5 ≠ 0
    · rw [if_pos h, if_pos]
      have : ((numVal ds : Int) % 5 ≠ 0) := by have := h.2; omega
      simpa using ⟨by simpa using h.1, this⟩
    · rw [if_neg h, if_neg]
      intro hh
      apply h
      simp only [decide_eq_true_eq] at hh
      exact ⟨hh.1, by have := hh.2; omega⟩
  · intro l
    cases l with
    | nil => rfl
    | cons r rs => rfl

theorem does_assignCruise (t : Token) (lv : Str) (h : Unit1 lv) :
    Does (F := F) (assignAltitude t lv true) t (granErr lv) (mapHead (setCruise lv)) := by
  obtain ⟨u, ds, rfl, hd⟩ := h
  have e1 : sliceFrom (u :: ds) 1 = ds := by
    simp only [sliceFrom, pyIdx, List.length_cons]
    rw [if_neg (by decide), show min (1 : Int).toNat (ds.length + 1) = 1 by simp]; rfl
  have e2 : slice (u :: ds) 0 1 = [u] := by
    simp only [slice, pyIdx, List.length_cons]
    rw [if_neg (by decide), if_neg (by decide), show min (1 : Int).toNat (ds.length + 1) = 1 by simp,
      show min (0 : Int).toNat (ds.length + 1) = 0 by simp]; rfl
  unfold assignAltitude
  rw [e1, e2]
  refine Does.congr ((does_modLast t _).bind (Does.lift (pyInt_digits hd)
    ((does_errIf t 40 (by decide) _).bind (does_modLast t _)))) ?_ ?_
  · simp only [granErr, qty, List.take_succ_cons, List.take_zero, List.drop_succ_cons, List.drop_zero,
      List.nil_append, List.append_nil]
    by_cases h : [u] = py! "F" ∧ numVal ds % 5 ≠ 0
    · rw [if_pos h, if_pos]
      have : ((numVal ds : Int) % 5 ≠ 0) := by have := h.2; omega
      simpa using ⟨by simpa using h.1, this⟩
    · rw [if_neg h, if_neg]
      intro hh
      apply h
      simp only [decide_eq_true_eq] at hh
      exact ⟨hh.1, by have := hh.2; omega⟩
  · intro l
    cases l with
    | nil => rfl
    | cons r rs => rfl

theorem does_assignSpeed (t : Token) (sp : Str) (h : Unit1 sp) :
    Does (F := F) (assignSpeed sp) t [] (mapHead (setSpeed sp)) := by
  obtain ⟨u, ds, rfl, hd⟩ := h
  have e1 : sliceFrom (u :: ds) 1 = ds := by
    simp only [sliceFrom, pyIdx, List.length_cons]
    rw [if_neg (by decide), show min (1 : Int).toNat (ds.length + 1) = 1 by simp]; rfl
  have e2 : slice (u :: ds) 0 1 = [u] := by
    simp only [slice, pyIdx, List.length_cons]
    rw [if_neg (by decide), if_neg (by decide), show min (1 : Int).toNat (ds.length + 1) = 1 by simp,
      show min (0 : Int).toNat (ds.length + 1) = 0 by simp]; rfl
  refine ⟨fun e ts he => ?_, mapHead_ne _⟩
  obtain ⟨recs, errs, d⟩ := e
  cases recs with
  | nil => exact absurd rfl he
  | cons r rs =>
    unfold assignSpeed
    rw [e1, e2, pyInt_digits hd]
    rfl

/-- The three digit-string facts about a matching class word. -/
theorem digitStr_of_wm {w : List Cls} {s : Str} (h : (!w.isEmpty && w.all fun k => decide (k = kD)) = true)
    (hs : wm w s = true) : DigitStr s := by
  rw [Bool.and_eq_true] at h
  have hw : w = List.replicate w.length kD := by
    apply List.eq_replicate_iff.2
    exact ⟨rfl, fun k hk => by simpa using List.all_eq_true.1 h.2 k hk⟩
  rw [hw] at hs
  obtain ⟨hl, hd⟩ := (digits_iff _ _).2 hs
  refine ⟨fun hn => ?_, hd⟩
  subst hn
  have : w.length = 0 := by simpa using hl.symm
  have : w = [] := List.length_eq_zero_iff.1 this
  simp [this] at h

theorem unit1_of_wm {w : List Cls} {s : Str}
    (h : (!w.isEmpty && !(w.drop 1).isEmpty && (w.drop 1).all fun k => decide (k = kD)) = true)
    (hs : wm w s = true) : Unit1 s := by
  cases w with
  | nil => simp at h
  | cons k w =>
    obtain ⟨c, t, rfl, _, ht⟩ := (wm_cons k w s).1 hs
    exact ⟨c, t, rfl, digitStr_of_wm (by simpa using h) ht⟩

/-! ### Tokens with types from the table -/

/-- The types of the token are those assigned from its text. -/
def Typed (t : Token) : Prop := assignSyntax t = t

theorem typed_assign (t : Token) : Typed (assignSyntax t) := by
  unfold Typed
  rw [assignSyntax_eq (assignSyntax t), assignSyntax_eq t]
  split <;> rename_i h
  · rfl
  · rfl

/-- A recognised token has the table's types and at most 25 characters. -/
theorem typed_types {t : Token} (h : Typed t) (hb : t.base ≠ .TOO_LONG) : getTokenType t.text = (t.base, t.sub) := by
  unfold Typed at h
  rw [assignSyntax_eq] at h
  split at h
  · rw [← h] at hb; exact absurd rfl hb
  · conv => rhs; rw [← h]

/-- If every table row with a property has only words with some decidable property, so has each token. -/
theorem typed_word {t : Token} (h : Typed t) (p : BaseType → SubType → Bool) (chk : List Cls → Bool)
    (hk : (table.all fun r => !p r.base r.sub || r.words.all chk) = true)
    (hp : p t.base t.sub = true) (hu : p .UNKNOWN .UNKNOWN = false) (hl : p .TOO_LONG .UNKNOWN = false) :
    ∃ w, chk w = true ∧ wm w t.text = true := by
  by_cases hb : t.base = .TOO_LONG
  · have : t.sub = .UNKNOWN := by
      unfold Typed at h
      rw [assignSyntax_eq] at h
      split at h
      · rw [← h]
      · rename_i hlen
        exact absurd ((c08_too_long t).1 (by rw [assignSyntax_eq, if_neg hlen, h]; exact hb)) hlen
    rw [hb, this] at hp; simp [hl] at hp
  · have ht := typed_types h hb
    rcases type_row t.text with h1 | ⟨r, hr, he, w, hw, hs⟩
    · rw [h1] at ht
      obtain ⟨h2, h3⟩ := Prod.mk.inj ht
      rw [← h2, ← h3] at hp; simp [hu] at hp
    · rw [ht] at he
      obtain ⟨h2, h3⟩ := Prod.mk.inj he
      have := List.all_eq_true.1 hk r hr
      rw [← h2, ← h3, hp] at this
      simp only [Bool.not_true, Bool.false_or] at this
      exact ⟨w, List.all_eq_true.1 this w hw, hs⟩

/-- Base/subtype pairs of the table. -/
theorem typed_pair {t : Token} (h : Typed t) : (t.base = .UNKNOWN ∧ t.sub = .UNKNOWN) ∨
    (t.base = .TOO_LONG ∧ t.sub = .UNKNOWN) ∨ ∃ r ∈ table, t.base = r.base ∧ t.sub = r.sub := by
  by_cases hb : t.base = .TOO_LONG
  · right; left
    refine ⟨hb, ?_⟩
    unfold Typed at h
    rw [assignSyntax_eq] at h
    split at h
    · rw [← h]
    · rename_i hlen
      exact absurd ((c08_too_long t).1 (by rw [assignSyntax_eq, if_neg hlen, h]; exact hb)) hlen
  · have ht := typed_types h hb
    rcases type_row t.text with h1 | ⟨r, hr, he, _⟩
    · left
      rw [h1] at ht
      obtain ⟨h2, h3⟩ := Prod.mk.inj ht
      exact ⟨h2.symm, h3.symm⟩
    · right; right
      rw [ht] at he
      obtain ⟨h2, h3⟩ := Prod.mk.inj he
      exact ⟨r, hr, h2, h3⟩

theorem unit1_speed {s : Str} (h : Speed s) : Unit1 s := by
  rcases h with ⟨u, d, _, rfl, hl, hd⟩ | ⟨u, d, _, rfl, hl, hd⟩
  all_goals exact ⟨u, d, rfl, by intro h; subst h; simp at hl, hd⟩

theorem unit1_level {s : Str} (h : Level s) : Unit1 s := by
  rcases h with ⟨u, d, _, rfl, hl, hd⟩ | ⟨u, d, _, rfl, hl, hd⟩
  all_goals exact ⟨u, d, rfl, by intro h; subst h; simp at hl, hd⟩

end F15
