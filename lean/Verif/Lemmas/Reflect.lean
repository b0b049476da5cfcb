import Verif.Lemmas.Fault2
import Verif.Spec.Reflected
/-!
# No token is lost
-/

namespace F15
open Spec

set_option linter.unusedSectionVars false
variable {F : Type} [PyFloat F] {T : List Token}

/-- Accounted for. -/
def Acc (t : Token) (e : Ers F) : Prop := auxiliary t = true ∨ Visible t e.recs e.errs

theorem word_append {t : Token} (ht : t.text ≠ []) {r : Record F} (h : WordOf t r) (s : Str) :
    WordOf t (r.appendBreakText s) := by
  obtain ⟨u, v, h1, h2, h3⟩ := h
  have hne : r.breakText ≠ [] := by rw [h1]; simp [ht]
  unfold Record.appendBreakText
  rw [if_neg hne]
  refine ⟨u, v ++ ' ' :: s, by simp [h1], h2, .inr ?_⟩
  rcases h3 with rfl | h3
  · rfl
  · cases v with
    | nil => cases h3
    | cons c v => exact h3

theorem word_new (t : Token) (r : Record F) : WordOf t (r.appendBreakText t.text) := by
  unfold Record.appendBreakText
  split
  · exact ⟨[], [], by simp, .inl rfl, .inl rfl⟩
  · exact ⟨r.breakText ++ [' '], [], by simp, .inr (by simp), .inl rfl⟩

/-- What an element of the old list still is. -/
theorem elem_core {t : Token} {r r' : Record F} (h : core r' = core r) (he : ElementOf t r) : ElementOf t r' := by
  have h1 : r'.start = r.start := by have := congrArg Record.start h; exact this
  have h2 : r'.stop = r.stop := by have := congrArg Record.stop h; exact this
  have h3 : r'.name = r.name := by have := congrArg Record.name h; exact this
  have h4 : r'.base = r.base := by have := congrArg Record.base h; exact this
  have h5 : r'.sub = r.sub := by have := congrArg Record.sub h; exact this
  unfold ElementOf
  rw [h1, h2, h3, h4, h5]; exact he

theorem word_same {t : Token} {r r' : Record F} (h : r'.breakText = r.breakText) (he : WordOf t r) : WordOf t r' := by
  unfold WordOf; rw [h]; exact he

theorem tweak_word {t : Token} (ht : t.text ≠ []) (a : Act) {r : Record F} (h : WordOf t r) : WordOf t (a.tweak r) := by
  cases a with
  | text x => exact word_append ht h x.text
  | _ => exact h

theorem Acc.run {t : Token} (ht : t.text ≠ []) {e : Ers F} (hne : e.recs ≠ []) (a : Act) (h : Acc t e) : Acc t (a.run e) := by
  rcases h with h | h
  · exact .inl h
  have herr : ∀ x, x ∈ e.errs → x ∈ (a.run e).errs := fun x hx => by rw [run_errs]; exact List.mem_append_right _ hx
  have hrec : (a.run e).recs = a.recs e.recs := rfl
  right
  cases hr : e.recs with
  | nil => exact absurd hr hne
  | cons p rs =>
  unfold Visible at h ⊢
  rw [hrec, hr]
  rw [hr] at h
  cases hb : a.records with
  | true =>
    obtain ⟨l', h1, h2⟩ := push_shape a hb p rs
    rw [h1]
    rcases h with ⟨r, h, h3⟩ | ⟨r, h, h3⟩ | ⟨n, x, h, h3⟩
    · obtain ⟨r', h4, h5⟩ := h2.mem_left h
      exact .inl ⟨r', List.mem_cons_of_mem _ h4, elem_core (core_keep h5) h3⟩
    · obtain ⟨r', h4, h5⟩ := h2.mem_left h
      refine .inr (.inl ⟨r', List.mem_cons_of_mem _ h4, word_same ?_ h3⟩)
      unfold Keep at h5; rw [h5]
    · exact .inr (.inr ⟨n, x, herr x h, h3⟩)
  | false =>
    rw [note_shape a hb]
    rcases h with ⟨r, h, h3⟩ | ⟨r, h, h3⟩ | ⟨n, x, h, h3⟩
    · rcases List.mem_cons.1 h with rfl | h
      · exact .inl ⟨_, by simp, elem_core (core_tweak (tweak_ok a _)) h3⟩
      · exact .inl ⟨r, by simp [h], h3⟩
    · rcases List.mem_cons.1 h with rfl | h
      · exact .inr (.inl ⟨_, by simp, tweak_word ht a h3⟩)
      · exact .inr (.inl ⟨r, by simp [h], h3⟩)
    · exact .inr (.inr ⟨n, x, herr x h, h3⟩)

theorem Star.acc {t : Token} (ht : t.text ≠ []) {a b : Cfg F} (s : Star T a b) (hi : Inv T a.ers a.toks) (h : Acc t a.ers) :
    Acc t b.ers := by
  induction s with
  | refl => exact h
  | head ev _ ih =>
    refine ih (ev.inv hi) ?_
    cases ev with
    | pop | drop => exact h
    | note a | rcd a => exact h.run ht hi.ne a

/-- What a recording action makes of its token. -/
theorem newRec_elem {a : Act} {e : Ers F} {ts : List Token} (hr : a.records = true) (ok : a.Ok T e ts) (p : Record F) :
    ElementOf a.tok (a.newRec p) := by
  have pos : ∀ (t : Token) (r : Record F), ElementOf t r → ElementOf t (posHead t r) := by
    intro t r h
    unfold posHead
    split <;> exact h
  have fr : ∀ t : Token, ElementOf t (fresh p t) := fun t => ⟨rfl, rfl, .inl rfl, .inl ⟨rfl, rfl⟩⟩
  cases a with
  | point t => exact pos _ _ (fr t)
  | vToI t => exact pos _ _ (fr t)
  | ccPoint t => exact pos _ _ (fr t)
  | vToIToV t | route t | plain t => exact fr t
  | brk t =>
    show ElementOf t (brkRules t.sub _)
    unfold brkRules; split <;> exact fr t
  | sid t => exact ⟨rfl, rfl, .inl rfl, .inr (.inl ⟨ok.1, rfl, rfl⟩)⟩
  | star t => exact ⟨rfl, rfl, .inl rfl, .inr (.inr ⟨ok.1, rfl, rfl⟩)⟩
  | vfr t => exact ⟨rfl, rfl, .inr ⟨ok, rfl⟩, .inl ⟨rfl, rfl⟩⟩
  | _ => simp [Act.records] at hr

theorem Acc.rcd {a : Act} {e : Ers F} {ts : List Token} (hne : e.recs ≠ []) (hr : a.records = true) (ok : a.Ok T e ts) :
    Acc a.tok (a.run e) := by
  right; left
  cases h : e.recs with
  | nil => exact absurd h hne
  | cons p rs =>
    obtain ⟨l', h1, _⟩ := push_shape a hr p rs
    refine ⟨a.newRec p, ?_, newRec_elem hr ok p⟩
    show _ ∈ a.recs e.recs
    rw [h, h1]; simp

theorem Acc.err {t : Token} {n : Nat} (hn : plainErr n = true) (e : Ers F) : Acc t ((Act.err t n).run e) :=
  .inr (.inr (.inr ⟨n, errRec t n, by rw [run_errs]; simp [Act.nums, Act.tok], errRec_is (plainErr.isSome hn)⟩))

theorem Acc.text {t : Token} {e : Ers F} (hne : e.recs ≠ []) : Acc t ((Act.text t).run e) := by
  right; right; left
  cases h : e.recs with
  | nil => exact absurd h hne
  | cons p rs =>
    refine ⟨p.appendBreakText t.text, ?_, word_new t p⟩
    show _ ∈ Act.recs (.text t) e.recs
    rw [h]; simp [Act.recs, mapHead]

end F15
