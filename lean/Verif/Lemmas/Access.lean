import Verif.Model.Token
import Verif.Model.Ers
/-!
# List access never raises behind its guards
-/

namespace F15

theorem pyGet_lt {α : Type} {l : List α} {i : Nat} (h : i < l.length) : pyGet l i = .ok l[i] := by
  unfold pyGet
  simp only [show ¬ ((i : Int) < 0) by omega, if_false, Int.toNat_natCast, List.getElem?_eq_getElem h]

theorem pyGet_ge {α : Type} {l : List α} {i : Nat} (h : l.length ≤ i) : pyGet l i = .error .indexError := by
  unfold pyGet
  simp only [show ¬ ((i : Int) < 0) by omega, if_false, Int.toNat_natCast, List.getElem?_eq_none h]

theorem pyGet_map {α : Type} {l : List α} {i : Nat} (h : i < l.length) : (pyGet l i).map some = .ok l[i]? := by
  rw [pyGet_lt h, List.getElem?_eq_getElem h]; rfl

/-- `get_token_at` does not raise. -/
theorem getTokenAt_ok (t : Tokens) (i : Int) :
    t.getTokenAt i = .ok (if i < 0 ∨ i ≥ t.toks.length then none else t.toks[i.toNat]?) := by
  unfold Tokens.getTokenAt
  split
  · rfl
  · rename_i h
    have h1 : i = (i.toNat : Int) := by omega
    rw [h1, pyGet_map (by omega), Int.toNat_natCast]

/-- `get_last_element` does not raise. -/
theorem getLastElement_ok {F : Type} [PyFloat F] (e : Ers F) : e.getLastElement = .ok e.recs.head? := by
  unfold Ers.getLastElement Ers.getElementAt Ers.numberOfElements
  split
  · rename_i h
    rw [if_neg (by omega)]
    have h1 : ((e.recs.length : Int) - 1) = ((e.recs.length - 1 : Nat) : Int) := by omega
    rw [h1, pyGet_map (by unfold Ers.elements; rw [List.length_reverse]; omega), Ers.elements, List.getElem?_reverse (by omega)]
    congr 1
    cases he : e.recs with
    | nil => rw [he] at h; simp at h
    | cons a l => simp
  · rename_i h
    have : e.recs = [] := List.length_eq_zero_iff.1 (by omega)
    rw [this]; rfl

end F15
