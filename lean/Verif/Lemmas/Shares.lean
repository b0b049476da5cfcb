import Verif.Lemmas.Spend
import Verif.Lemmas.Local
/-!
# The words are shared out among the elements
-/

namespace F15
open Spec

set_option linter.unusedSectionVars false
variable {F : Type} [PyFloat F] {T : List Token}

/-- The run of `parse_f15`: the first token is taken, then it is used. -/
theorem run_spend {frames : Nat} {e : Ers F} (he : e.recs ≠ []) {t : Token} {rest : List Token}
    (hT : ∀ x ∈ t :: rest, Typed x) {e' : Ers F} (h : runL frames e t rest = .ok e') :
    ∃ e1 ts1, Spend.Star (t :: rest) ⟨e, t :: rest, []⟩ ⟨e1, ts1, []⟩ ∧ e' = post t e1 := by
  have hi : Inv (t :: rest) e rest := ⟨he, List.suffix_cons _ _⟩
  have ih := Spend.trace_exec (F := F) hT frames
  unfold runL at h
  by_cases hv : t.base = .SPEED_VFR
  · simp only [hv] at h
    have g := ih (.assignSpeedVfr t) e rest [] hi ⟨by simp, hv⟩
    cases h1 : exec frames (.assignSpeedVfr t) (⟨e, rest⟩ : St (List Token) F) with
    | error x => rw [h1] at h; simp at h
    | ok p =>
      rw [h1] at g h
      have hne : p.2.ers.recs ≠ [] := (Spend.Star.invs g hi).ne
      dsimp only at h
      rw [setFirst_eq _ hne] at h
      refine ⟨p.2.ers, p.2.toks, .head (.pop _ _ _ _) g, ?_⟩
      unfold post; rw [if_pos hv]; exact (Except.ok.inj h).symm
  · by_cases hl : t.base = .SPEED_ALTITUDE
    · simp only [hl] at h
      have g := ih (.assignSpeedAltitude t) e rest [] hi ⟨by simp, hl⟩
      cases h1 : exec frames (.assignSpeedAltitude t) (⟨e, rest⟩ : St (List Token) F) with
      | error x => rw [h1] at h; simp at h
      | ok p =>
        rw [h1] at g h
        change Spend.Star _ _ _ at g
        dsimp only at h
        have hi' := Spend.Star.invs g hi
        have hp : ∀ e1 : Ers F, e1 = post t e1 := fun e1 => by unfold post; rw [if_neg hv]
        split at h
        · have g' := ih (.addErrorAndReSync t 49) p.2.ers p.2.toks [] hi' ⟨by simp, by decide⟩
          change Spend.G _ (exec frames (.addErrorAndReSync t 49) p.2) ⟨_, _, []⟩ _ at g'
          cases h2 : exec frames (.addErrorAndReSync t 49) p.2 with
          | error x => rw [h2] at h; simp at h
          | ok q =>
            rw [h2] at g' h
            exact ⟨q.2.ers, q.2.toks, (Spend.Star.head (.pop _ _ _ _) g).trans g', by rw [← hp]; exact (Except.ok.inj h).symm⟩
        · exact ⟨p.2.ers, p.2.toks, .head (.pop _ _ _ _) g, by rw [← hp]; exact (Except.ok.inj h).symm⟩
    · have g := ih (.addErrorAndReSync t 1) e rest [] hi ⟨by simp, by decide⟩
      have hp : ∀ e1 : Ers F, e1 = post t e1 := fun e1 => by unfold post; rw [if_neg hv]
      have h : (match exec frames (.addErrorAndReSync t 1) (⟨e, rest⟩ : St (List Token) F) with
          | .ok (_, s) => .ok s.ers
          | .error x => .error x : Except PyErr (Ers F)) = .ok e' := by
        cases hb : t.base <;> rw [hb] at h hv hl <;> first | exact absurd rfl hv | exact absurd rfl hl | exact h
      cases h1 : exec frames (.addErrorAndReSync t 1) (⟨e, rest⟩ : St (List Token) F) with
      | error x => rw [h1] at h; simp at h
      | ok p =>
        rw [h1] at g h
        exact ⟨p.2.ers, p.2.toks, .head (.pop _ _ _ _) (.head (.drop e rest [] t []) g), by rw [← hp]; exact (Except.ok.inj h).symm⟩

/-- The words used are shared out among the elements, the others are in hand, still to be read, or lost. -/
def Shared (T : List Token) (c : Cfg F) : Prop :=
  ∃ dn lost, Rows T [] none dn c.ers.recs ∧ (dn ++ (c.hand ++ (c.toks ++ lost))).Perm T

theorem Shared.start : Shared T (⟨Ers.new, T, []⟩ : Cfg F) := by
  refine ⟨[], [], .one ?_ (.inl rfl), by simp⟩
  exact ⟨fun _ => ⟨rfl, rfl, rfl, rfl, rfl⟩, .inl ⟨fun _ h => (nomatch h), fun _ => ⟨rfl, rfl, rfl, rfl⟩⟩, .inl rfl, .inl ⟨rfl, rfl⟩,
    ⟨[], rfl, by simp, by simp⟩, fun _ _ h => (nomatch h)⟩

theorem Shared.ev (hT : ∀ t ∈ T, Typed t) (hx : ∀ t ∈ T, t.text ≠ []) {a b : Cfg F} (ev : Spend.Ev T a b)
    (hne : a.ers.recs ≠ []) (h : Shared T a) : Shared T b := by
  obtain ⟨dn, lost, hR, hP⟩ := h
  cases ev with
  | pop e t ts h => exact ⟨dn, lost, hR, by simpa using hP⟩
  | drop e ts h1 t h2 =>
    refine ⟨dn, t :: lost, hR, List.Perm.trans ?_ hP⟩
    refine List.Perm.append_left _ ?_
    dsimp only
    rw [List.append_assoc, List.append_assoc]
    refine List.Perm.append_left _ ?_
    rw [List.cons_append, ← List.append_assoc, ← List.append_assoc]
    exact List.perm_middle
  | err t n e ts h =>
    refine ⟨dn, lost, ?_, hP⟩
    exact hR
  | use a e ts h1 h2 hs ht ok =>
    refine ⟨dn ++ [a.tok], lost, ?_, List.Perm.trans ?_ hP⟩
    · obtain ⟨p, rs, hp⟩ : ∃ p rs, e.recs = p :: rs := by
        cases h : e.recs with
        | nil => exact absurd h hne
        | cons p rs => exact ⟨p, rs, rfl⟩
      show Rows T [] none _ (a.recs e.recs)
      replace hR : Rows T [] none dn e.recs := hR
      rw [hp] at hR ⊢
      cases hr : a.records with
      | false =>
        have hn := hR.note hT hx hr ok ht
        rw [← note_shape a hr] at hn
        exact hn.2
      | true => exact hR.push hT hr ok ht
    · dsimp only
      rw [List.append_assoc]
      refine List.Perm.append_left _ ?_
      rw [List.append_assoc, List.append_assoc, List.cons_append, List.nil_append, List.cons_append]
      exact List.perm_middle.symm

theorem Shared.star (hT : ∀ t ∈ T, Typed t) (hx : ∀ t ∈ T, t.text ≠ []) {a b : Cfg F} (s : Spend.Star T a b)
    (hi : Inv T a.ers a.toks) (h : Shared T a) : Shared T b :=
  (Spend.Star.inv (P := fun c => Inv T c.ers c.toks ∧ Shared T c)
    (fun _ _ ev h => ⟨ev.inv h.1, h.2.ev hT hx ev h.1.ne⟩) s ⟨hi, h⟩).2

end F15
