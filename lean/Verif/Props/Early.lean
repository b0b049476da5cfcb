import Verif.Props.Unique
import Verif.Props.Causal
import Verif.Props.WrongNumbers
/-!
# C82: an error shows as soon as it is made, and stays

A user types a field 15 word by word. When what has been typed can no longer be completed to an acceptable field 15, the parser says so, and the
first error is about one of the words typed; as long as it can be completed, the first error, if any, is about one of the last two words (it may still
go away) or about what follows. And a first error with two more words behind it remains the first error, whatever else is typed.
-/

namespace F15
open Spec

set_option linter.unusedSectionVars false
variable {F : Type} [PyFloat F]

theorem take2_nil {l : List Token} (h : ([] : List Token).take 2 = l.take 2) : l = [] := by
  cases l with
  | nil => rfl
  | cons _ _ => cases h

theorem take2_one {l : List Token} {s : Token} (h : [s].take 2 = l.take 2) : l = [s] := by
  match l with
  | [] => cases h
  | [_] => simpa using h.symm
  | _ :: _ :: _ => cases h

theorem take2_two {l r : List Token} {s x : Token} (h : (s :: x :: r).take 2 = l.take 2) : ∃ r', l = s :: x :: r' := by
  match l with
  | [] => cases h
  | [_] => cases h
  | a :: b :: r' => simp only [List.take_succ_cons, List.take_zero, List.cons.injEq] at h; exact ⟨r', by rw [h.1, h.2.1]⟩

theorem readOn_ahead {t x : Token} {pre post post' : List Token} (h2 : post.take 2 = post'.take 2) (h : readOn t (pre ++ x :: post)) :
    readOn t (pre ++ x :: post') := by
  match pre with
  | [] =>
    simp only [List.nil_append, readOn] at h ⊢
    rcases h with h | ⟨hi, s, r, hr, hs⟩
    · exact .inl h
    · subst hr
      refine .inr ⟨hi, ?_⟩
      match post' with
      | [] => cases r <;> cases h2
      | [a] => cases r with
        | nil => simp at h2; exact ⟨a, [], rfl, h2 ▸ hs⟩
        | cons _ _ => cases h2
      | a :: b :: r' => cases r with
        | nil => cases h2
        | cons _ _ => simp at h2; exact ⟨a, _, rfl, h2.1 ▸ hs⟩
  | [p] =>
    simp only [List.cons_append, List.nil_append, readOn] at h ⊢
    rcases h with h | ⟨hi, s, r, hr, hs⟩
    · exact .inl h
    · cases hr; exact .inr ⟨hi, _, _, rfl, hs⟩
  | p :: p' :: ps =>
    simp only [List.cons_append, readOn] at h ⊢
    rcases h with h | ⟨hi, s, r, hr, hs⟩
    · exact .inl h
    · cases hr; exact .inr ⟨hi, _, _, rfl, hs⟩

/-- Whether there is a fault at a word, and its message, depends on the two words behind it only. -/
theorem fault_ahead {q : Phase} {pre post post' : List Token} {t : Token} {n : Nat} (h : Fault q pre t post n) (h2 : post.take 2 = post'.take 2) :
    Fault q pre t post' n := by
  induction h with
  | here hq ht hs => exact .here hq ht hs
  | position hq hb hn => exact .position hq hb hn
  | truncate hq hb => exact .truncate hq hb
  | star hq hb => exact .star hq hb
  | sid hb _ ih => exact .sid hb (ih h2)
  | dct hq hb _ ih => exact .dct hq hb (ih h2)
  | route hq hb _ ih => exact .route hq hb (ih h2)
  | point hq hb hn _ ih => exact .point hq hb hn (ih h2)
  | break_ hq hb _ ih => exact .break_ hq hb (ih h2)
  | climb hq hb hh _ ih => exact .climb hq hb hh (ih h2)
  | climbEnd hq hb hs => rw [take2_nil h2]; exact .climbEnd hq hb hs
  | cruisePosition hq hb hs hn => exact .cruisePosition hq hb hs hn
  | cruiseEnd hq hb hs hp => rw [take2_nil h2]; exact .cruiseEnd hq hb hs hp
  | cruiseSlash hq hb hs hp hx => exact .cruiseSlash hq hb hs hp hx
  | cruiseLevelsEnd hq hb hs hp hs' => rw [take2_one h2]; exact .cruiseLevelsEnd hq hb hs hp hs'
  | cruiseLevels hq hb hs hp hs' g1 g2 => exact .cruiseLevels hq hb hs hp hs' g1 g2
  | cruiseStep hq hb hs hp hs' hl => exact .cruiseStep hq hb hs hp hs' hl
  | cruise hq hb hs hp hs' hl _ ih => exact .cruise hq hb hs hp hs' hl (ih h2)
  | stayEnd hq hb => rw [take2_nil h2]; exact .stayEnd hq hb
  | staySlash hq hb hx => exact .staySlash hq hb hx
  | stayTimeEnd hq hb hs => rw [take2_nil h2]; exact .stayTimeEnd hq hb hs
  | stayTime hq hb hs hx => exact .stayTime hq hb hs hx
  | stay hq hb hs hm _ ih => exact .stay hq hb hs hm (ih h2)
  | slashEnd hs => rw [take2_nil h2]; exact .slashEnd hs
  | slash hs g1 g2 => exact .slash hs g1 g2
  | levelStep hs hb hl => exact .levelStep hs hb hl
  | level hs hb hl _ ih => exact .level hs hb hl (ih h2)
  | vfr hs hb _ ih => exact .vfr hs hb (ih h2)
  | tooLong hb => exact .tooLong hb
  | word hb hc _ ih => exact .word hb (fun h => readOn_ahead h2 (hc h)) (ih h2)
  | resumePosition hc hi hb hp hn => exact .resumePosition hc hi hb hp hn
  | resume hc hi hb hp hn _ ih => exact .resume hc hi hb hp hn (ih h2)
  | ifrEnd hc hi hb hp => rw [take2_nil h2]; exact .ifrEnd hc hi hb hp
  | ifrSlashEnd hc hi hb hp hs => rw [take2_one h2]; exact .ifrSlashEnd hc hi hb hp hs
  | ifrSlash hc hi hb hp hs g1 g2 => obtain ⟨r', rfl⟩ := take2_two h2; exact .ifrSlash hc hi hb hp hs g1 g2
  | ifrPosition hc hi hb hp hs hl hn => obtain ⟨r', rfl⟩ := take2_two h2; exact .ifrPosition hc hi hb hp hs hl hn
  | ifrStep hc hi hb hp hn hs hl hk => exact .ifrStep hc hi hb hp hn hs hl hk
  | resumeIfr hc hi hb hp hn hs hl hk _ ih => exact .resumeIfr hc hi hb hp hn hs hl hk (ih h2)
  | resumeVfr hc hi hb hp hs hl _ ih => exact .resumeVfr hc hi hb hp hs hl (ih h2)

theorem firstFault_ahead {pre post post' : List Token} {t : Token} {n : Nat} (h : FirstFault pre t post n) (h2 : post.take 2 = post'.take 2) :
    FirstFault pre t post' n := by
  cases h with
  | start h1 h3 => exact .start h1 h3
  | step hb hl => exact .step hb hl
  | lone hb hl => rw [take2_nil h2]; exact .lone hb hl
  | ifr hb hl h => exact .ifr hb hl (fault_ahead h h2)
  | vfr hb h => exact .vfr hb (fault_ahead h h2)

theorem extendable_begin {q r : List Token} (hr : ∀ t ∈ r, assignSyntax t = t) (h : Extendable (q ++ r)) : Extendable q := by
  obtain ⟨z, hz, hs⟩ := h
  refine ⟨r ++ z, fun t ht => ?_, by rw [← List.append_assoc]; exact hs⟩
  rcases List.mem_append.1 ht with ht | ht
  · exact hr t ht
  · exact hz t ht

/-- **C82 (as soon as it is made)** A non-empty field 15 begins with the words `q`. If they can be completed to an acceptable one, then the first error,
if there is any, is about one of the last two words of `q` or a later word. If they can not, then the field 15 is rejected, and the first error is about
one of the words of `q`. -/
theorem c82 {frames : Nat} {tokens : Tokens} {b : Bool} {e : Ers F} {q rest : List Token} (hq : typedTokens tokens = q ++ rest)
    (hne : typedTokens tokens ≠ []) (h : parseF15 frames Ers.new tokens = .ok (b, e)) :
    (Extendable q → ∀ x xs, e.errors = x :: xs →
      ∃ pre t post n, typedTokens tokens = pre ++ t :: post ∧ ErrorIs t n x ∧ q.length ≤ pre.length + 2) ∧
    (¬ Extendable q → b = false ∧ ∃ x xs, e.errors = x :: xs ∧
      ∃ pre t post n, typedTokens tokens = pre ++ t :: post ∧ ErrorIs t n x ∧ pre.length < q.length) := by
  have hT : ∀ y ∈ q ++ rest, assignSyntax y = y := by rw [← hq]; exact fun y hy => typed_map hy
  have split : ∀ {pre post : List Token} {t : Token}, q ++ rest = pre ++ t :: post → pre.length < q.length → ∃ m, q = pre ++ t :: m := by
    intro pre post t hs hl
    rcases List.append_eq_append_iff.1 hs with ⟨a, rfl, h2⟩ | ⟨a, rfl, h2⟩
    · simp at hl; omega
    · cases a with
      | nil => simp at hl
      | cons u m => simp only [List.cons_append, List.cons.injEq] at h2; exact ⟨m, by rw [h2.1]⟩
  constructor
  · intro he x xs hx
    obtain ⟨pre, t, post, n, h1, h2, h3, h4⟩ := c47 hne h hx
    refine ⟨pre, t, post, n, h1, h2, ?_⟩
    rw [hq] at h1
    refine Classical.byContradiction fun hc => ?_
    obtain ⟨m, hm⟩ := split h1 (by omega)
    have hmt : ∀ u ∈ m, assignSyntax u = u := fun u hu => hT u (by rw [hm]; simp [hu])
    have hml : 2 ≤ m.length := by
      have : q.length = pre.length + (m.length + 1) := by rw [hm]; simp
      omega
    have hpost : post = m ++ rest := by
      rw [hm] at h1
      simpa using h1.symm
    rcases h4 with h4 | ⟨h4, _⟩ | ⟨_, _, s, l, post', _, _, h5, _, _, _, h6⟩
    · exact h4 (extendable_begin (r := m) hmt (by rw [List.append_assoc, List.singleton_append, ← hm]; exact he))
    · rw [hpost, List.length_append] at h4; omega
    · match m, hml with
      | a :: b' :: m', _ =>
        rw [hpost] at h5
        simp only [List.cons_append, List.cons.injEq] at h5
        refine h6 (extendable_begin (r := m') (fun u hu => hmt u (by simp [hu])) ?_)
        rw [← h5.1, ← h5.2.1]
        simpa [hm] using he
  · intro he
    have hb : b = false := by
      cases b with
      | false => rfl
      | true =>
        exact absurd ⟨rest, fun t ht => hT t (by simp [ht]), by rw [← hq]; exact c22_sound tokens h⟩ he
    refine ⟨hb, ?_⟩
    have hne' := c13 (by simp [Ers.elements, Ers.new, Ers.addDummyAdepAdes, Ers.createAppendElement, Ers.appendElement]) h
    cases hx : e.errors with
    | nil => subst hb; simp [hx] at hne'
    | cons x xs =>
      obtain ⟨pre, t, post, n, h1, h2, h3, _⟩ := c47 hne h hx
      refine ⟨x, xs, rfl, pre, t, post, n, h1, h2, ?_⟩
      rw [hq] at h1
      refine Classical.byContradiction fun hc => he ?_
      rcases List.append_eq_append_iff.1 h1 with ⟨a, h5, h6⟩ | ⟨a, h5, h6⟩
      · rw [h5] at h3
        exact extendable_begin (fun u hu => hT u (by rw [h6]; simp [hu])) h3
      · have : a = [] := by
          cases a with
          | nil => rfl
          | cons _ _ => rw [h5] at hc; simp at hc
        rw [h5, this, List.append_nil]
        exact h3

/-- **C82 (and stays)** Two field 15s begin with the same words `q`. If the first error of the one is about a word of `q`, and not one of the last two,
then the other one is rejected with the same first error. -/
theorem c82_stays {frames frames' : Nat} {tokens tokens' : Tokens} {b b' : Bool} {e e' : Ers F} {q rest rest' : List Token}
    (hq : typedTokens tokens = q ++ rest) (hq' : typedTokens tokens' = q ++ rest') (hne : typedTokens tokens ≠ [])
    (h : parseF15 frames Ers.new tokens = .ok (b, e)) (h' : parseF15 frames' Ers.new tokens' = .ok (b', e'))
    {x : Record F} {xs : List (Record F)} (hx : e.errors = x :: xs) :
    ∃ pre t post n, typedTokens tokens = pre ++ t :: post ∧ ErrorIs t n x ∧
      (q.length ≤ pre.length + 2 ∨ (b' = false ∧ e'.errors.head? = some x)) := by
  obtain ⟨pre, t, post, n, h1, h2, h3⟩ := c47_first hne h hx
  refine ⟨pre, t, post, n, h1, h3, ?_⟩
  by_cases hl : q.length ≤ pre.length + 2
  · exact .inl hl
  refine .inr ?_
  rw [hq] at h1
  obtain ⟨m, hm⟩ : ∃ m, q = pre ++ t :: m := by
    rcases List.append_eq_append_iff.1 h1 with ⟨a, h5, h6⟩ | ⟨a, h5, h6⟩
    · rw [h5] at hl; simp at hl; omega
    · cases a with
      | nil => rw [h5] at hl; simp at hl
      | cons u m => simp only [List.cons_append, List.cons.injEq] at h6; exact ⟨m, by rw [h5, h6.1]⟩
  have hml : 2 ≤ m.length := by
    have : q.length = pre.length + (m.length + 1) := by rw [hm]; simp
    omega
  have hpost : post = m ++ rest := by
    rw [hm] at h1
    simpa using h1.symm
  have h4 : FirstFault pre t (m ++ rest') n := firstFault_ahead h2 (by
    rw [hpost, List.take_append_of_le_length hml, List.take_append_of_le_length hml])
  obtain ⟨k1, y, ys, k2, k3⟩ := c47_fault (by rw [hq', hm]; simp) h4 h'
  exact ⟨k1, by rw [k2, errorIs_unique h3 k3]; rfl⟩

/-- **C82** On texts: whatever is typed behind `s` and a separator, a first error before the last two words of `s` is the first error. -/
theorem c82_text {frames frames' : Nat} (ws s : Str) {c c' : Char} (hc : c ∈ ws) (hc' : c' ∈ ws) (rest rest' : Str)
    (hs : tokenizeList ws s ≠ []) {b b' : Bool} {e e' : Ers F}
    (h : parseF15 frames Ers.new ⟨tokenizeList ws (s ++ c :: rest), 0⟩ = .ok (b, e))
    (h' : parseF15 frames' Ers.new ⟨tokenizeList ws (s ++ c' :: rest'), 0⟩ = .ok (b', e')) {x : Record F} {xs : List (Record F)}
    (hx : e.errors = x :: xs) (hl : ∀ t ∈ (tokenizeList ws s).drop ((tokenizeList ws s).length - 2), x.start < t.start) :
    b' = false ∧ e'.errors.head? = some x := by
  obtain ⟨u, hu⟩ := tokens_begin ws s hc rest
  obtain ⟨u', hu'⟩ := tokens_begin ws s hc' rest'
  have hq : typedTokens ⟨tokenizeList ws (s ++ c :: rest), 0⟩ = (tokenizeList ws s).map assignSyntax ++ u.map assignSyntax := by
    unfold typedTokens; rw [hu]; simp
  have hq' : typedTokens ⟨tokenizeList ws (s ++ c' :: rest'), 0⟩ = (tokenizeList ws s).map assignSyntax ++ u'.map assignSyntax := by
    unfold typedTokens; rw [hu']; simp
  obtain ⟨pre, t, post, n, h1, h2, h3⟩ := c82_stays hq hq' (by rw [hq]; simpa using fun h => absurd h hs) h h' hx
  refine h3.resolve_left fun hle => ?_
  rw [List.length_map] at hle
  have hst : x.start = t.start := by obtain ⟨_, _, rfl⟩ := h2; rfl
  have hget : (tokenizeList ws s ++ u)[pre.length]?.map assignSyntax = some t := by
    rw [← List.getElem?_map, List.map_append, ← hq, h1]; simp
  obtain ⟨w, hw, rfl⟩ := Option.map_eq_some_iff.1 hget
  have as : ∀ u : Token, (assignSyntax u).start = u.start := by
    intro u; unfold assignSyntax; dsimp only; split <;> rfl
  rw [as] at hst
  by_cases hi : pre.length < (tokenizeList ws s).length
  · rw [List.getElem?_append_left hi] at hw
    have : w ∈ (tokenizeList ws s).drop ((tokenizeList ws s).length - 2) := by
      refine List.mem_of_getElem? (i := pre.length - ((tokenizeList ws s).length - 2)) ?_
      rw [List.getElem?_drop, show (tokenizeList ws s).length - 2 + (pre.length - ((tokenizeList ws s).length - 2)) = pre.length by omega]
      exact hw
    exact absurd (hl w this) (by omega)
  · rw [List.getElem?_append_right (by omega)] at hw
    have hpw := c02_disjoint ws (s ++ c :: rest)
    rw [hu, List.pairwise_append] at hpw
    have hmem : (tokenizeList ws s).getLast hs ∈ (tokenizeList ws s).drop ((tokenizeList ws s).length - 2) := by
      have hp := List.length_pos_iff.2 hs
      refine List.mem_of_getElem? (i := (tokenizeList ws s).length - 1 - ((tokenizeList ws s).length - 2)) ?_
      rw [List.getElem?_drop, show (tokenizeList ws s).length - 2 + ((tokenizeList ws s).length - 1 - ((tokenizeList ws s).length - 2)) =
        (tokenizeList ws s).length - 1 by omega, ← List.getLast?_eq_getElem?, List.getLast?_eq_some_getLast hs]
    have := hpw.2.2 _ (List.getLast_mem hs) w (List.mem_of_getElem? hw)
    have := hl _ hmem
    omega

/-- A field 15 that can not be completed any more, in two versions, with the same first error; and one that still can. -/
example :
    check (py! "N0450F350 DCT DCT PNT UL9") (fun b e => !b && (e.errors.head?.map (fun r => (r.name, r.start)) = some (py! "DCT", 14))) = true ∧
    check (py! "N0450F350 DCT DCT PNT C ???") (fun b e => !b && (e.errors.head?.map (fun r => (r.name, r.start)) = some (py! "DCT", 14))) = true ∧
    check (py! "N0450F350 PNT STAY1 /") (fun b e => !b && (e.errors.head?.map (fun r => (r.name, r.start)) = some (py! "/", 20))) = true ∧
    check (py! "N0450F350 PNT STAY1 / 0100") (fun b e => b && (e.errors.isEmpty)) = true := by
  refine ⟨by decide +kernel, by decide +kernel, by decide +kernel, by decide +kernel⟩

end F15
