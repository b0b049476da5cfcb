import Verif.Lemmas.Shares
import Verif.Spec.Example
import Verif.Props.Tokenizer
/-!
# Every word is used at most once (C89)
-/

namespace F15
open Spec

set_option linter.unusedSectionVars false
variable {F : Type} [PyFloat F]

/-- **C89** Whenever `parse_f15` returns on a fresh sequence, be the field 15 accepted or not and whatever the errors: a part of its
words, each taken at most once, can be laid out so that every element has a share of its own: its token, then the words that are
said about it. Stay time, cruise climb, a change of speed and level and every word of free text of an element come from its own
share. -/
theorem c89 {frames : Nat} {tokens : Tokens} {b : Bool} {e' : Ers F} (h : parseF15 frames Ers.new tokens = .ok (b, e'))
    (hne : ∀ t ∈ tokens.toks, t.text ≠ []) :
    ∃ l ades used, e'.elements = l ++ [ades] ∧ Placeholder (py! "ADES") ades ∧ ades.breakText = [] ∧
      OccurIn used (typedTokens tokens) ∧ Divides (typedTokens tokens) [] none none used l := by
  rw [parse_eq] at h
  unfold typedTokens
  have htx : ∀ t ∈ tokens.toks.map assignSyntax, t.text ≠ [] := by
    intro t ht
    obtain ⟨x, hx, rfl⟩ := List.mem_map.1 ht
    rw [assignSyntax_eq]; split <;> exact hne x hx
  cases hl : tokens.toks.map assignSyntax with
  | nil =>
    rw [hl] at h
    have h' : (false, ({ (Ers.new : Ers F) with errs := nullErr :: (Ers.new : Ers F).errs } : Ers F).addDummyAdes) = (b, e') :=
      Except.ok.inj h
    simp only [Prod.mk.injEq] at h'
    rw [← h'.2]
    refine ⟨[_], _, [], rfl, ⟨rfl, rfl, rfl, rfl, rfl⟩, rfl, ⟨[], by simp⟩, .last ?_⟩
    exact ⟨fun _ => ⟨rfl, rfl, rfl, rfl, rfl⟩, .inl ⟨fun _ h => (nomatch h), fun _ => ⟨rfl, rfl, rfl, rfl⟩⟩, .inl rfl,
      .inl ⟨rfl, rfl⟩, ⟨[], rfl, by simp, by simp⟩, fun _ _ h => (nomatch h)⟩
  | cons t rest =>
    rw [hl] at h htx
    have hT : ∀ x ∈ t :: rest, Typed x := fun x hx => typed_map (hl ▸ hx)
    replace h : (match runL frames (Ers.new : Ers F) t rest with
      | .ok (e : Ers F) => finish e
      | .error x => .error x) = .ok (b, e') := h
    cases hr : runL frames (Ers.new : Ers F) t rest with
    | error x => rw [hr] at h; cases h
    | ok e2 =>
      rw [hr] at h
      replace h : finish e2 = .ok (b, e') := h
      obtain ⟨e1, ts1, hs, rfl⟩ := run_spend new_ne hT hr
      have hi0 : Inv (t :: rest) (Ers.new : Ers F) (t :: rest) := ⟨new_ne, List.suffix_refl _⟩
      have hi := hs.invs hi0
      have hfin : e' = finErs (post t e1) := by
        rw [finish_eq _ (post_ne t e1 hi.ne)] at h
        cases h; rfl
      subst hfin
      rw [fin_elements]
      obtain ⟨dn, lost, h2, h1⟩ := Shared.start.star hT htx hs hi0
      refine ⟨_, _, dn, rfl, ⟨rfl, rfl, rfl, rfl, rfl⟩, rfl, ⟨_, h1⟩, ?_⟩
      show Divides _ _ _ _ _ (post t e1).recs.reverse
      unfold post
      split
      · obtain ⟨p, rs, p', rs', _, g2, g3, _⟩ := h2.vfr
        show Divides _ _ _ _ _ (mapOldest toVfr e1.recs).reverse
        rw [g2]; exact g3.all
      · exact h2.rows2.all

theorem occur_sub {a b c : List Token} (h : OccurIn a b) (h' : OccurIn b c) : OccurIn a c := by
  obtain ⟨o, h⟩ := h
  obtain ⟨o', h'⟩ := h'
  exact ⟨o ++ o', by rw [← List.append_assoc]; exact (h.append_right o').trans h'⟩

theorem occur_sublist {a b : List Token} (h : a.Sublist b) : OccurIn a b := by
  induction h with
  | slnil => exact ⟨[], .refl _⟩
  | cons t _ ih =>
    obtain ⟨o, ih⟩ := ih
    exact ⟨t :: o, List.perm_middle.trans (ih.cons t)⟩
  | cons_cons t _ ih =>
    obtain ⟨o, ih⟩ := ih
    exact ⟨o, ih.cons t⟩

theorem occur_append {a b c d : List Token} (h : OccurIn a b) (h' : OccurIn c d) : OccurIn (a ++ c) (b ++ d) := by
  obtain ⟨o, h⟩ := h
  obtain ⟨o', h'⟩ := h'
  refine ⟨o ++ o', List.Perm.trans ?_ (h.append h')⟩
  rw [List.append_assoc, List.append_assoc]
  refine List.Perm.append_left _ ?_
  rw [← List.append_assoc, ← List.append_assoc]
  exact List.perm_append_comm.append_right _

theorem occur_perm {a b c : List Token} (h : a.Perm b) (h' : OccurIn b c) : OccurIn a c := by
  obtain ⟨o, h'⟩ := h'
  exact ⟨o, (h.append_right o).trans h'⟩

theorem Spec.Local.words {T : List Token} {prev : Option (Record F)} {own : Option Token} {g : List Token} {n : Option Token} {r : Record F}
    (h : Local T [] prev own g n r) : ∃ ws, r.breakText = spaced ws ∧ OccurIn ws g := by
  obtain ⟨ws, h1, _, h3⟩ := h.text
  have : ws.filter (· ∉ ([] : List Token)) = ws := by simp
  rw [this] at h3
  exact ⟨ws, h1, occur_sublist h3⟩

theorem divides_words {T : List Token} {prev : Option (Record F)} {own : Option Token} {ts : List Token} {l : List (Record F)}
    (h : Divides T [] prev own ts l) : ∃ (own : List Token) (texts : List (List Token)), ElementsOf own l.tail ∧ l.map (·.breakText) = texts.map spaced ∧
      OccurIn (own ++ texts.flatten) ts := by
  induction h with
  | last hl =>
    obtain ⟨ws, h1, h2⟩ := hl.words
    exact ⟨[], [ws], .nil, by simp [h1], by simpa using h2⟩
  | @next prev own g t ts r r' rs hl he _ ih =>
    obtain ⟨ws, h1, h2⟩ := hl.words
    obtain ⟨own, texts, h3, h4, h5⟩ := ih
    refine ⟨t :: own, ws :: texts, .cons he h3, by rw [List.map_cons, h4, h1, List.map_cons], ?_⟩
    refine occur_perm ?_ (occur_append h2 (occur_append (a := [t]) (b := [t]) ⟨[], .refl _⟩ h5))
    rw [List.cons_append, List.flatten_cons, List.singleton_append]
    refine List.Perm.trans ?_ List.perm_middle.symm
    refine List.Perm.cons _ ?_
    rw [← List.append_assoc, ← List.append_assoc]
    exact List.perm_append_comm.append_right _

/-- **C89 (words)** In the extracted sequence of any field 15 no word appears twice: the elements between ADEP and ADES are those of
some tokens, the free texts consist of some tokens, and all these occur in the field 15 at different places. -/
theorem c89_words {frames : Nat} {tokens : Tokens} {b : Bool} {e' : Ers F} (h : parseF15 frames Ers.new tokens = .ok (b, e'))
    (hne : ∀ t ∈ tokens.toks, t.text ≠ []) :
    ∃ adep mid ades, ∃ (own : List Token) (texts : List (List Token)), e'.elements = adep :: (mid ++ [ades]) ∧ ElementsOf own mid ∧
      e'.elements.map (·.breakText) = texts.map spaced ∧ OccurIn (own ++ texts.flatten) (typedTokens tokens) := by
  obtain ⟨l, ades, used, he, _, hb, ho, hd⟩ := c89 h hne
  obtain ⟨own, texts, h1, h2, h3⟩ := divides_words hd
  obtain ⟨adep, mid, rfl⟩ : ∃ a m, l = a :: m := by cases hd <;> exact ⟨_, _, rfl⟩
  refine ⟨adep, mid, ades, own, texts ++ [[]], he, h1, ?_, ?_⟩
  · rw [he, List.map_append, h2, List.map_append, List.map_singleton, List.map_singleton, hb]; rfl
  · simpa using occur_sub h3 ho

/-! ### The size of the result -/

/-- The length of the words, each with one blank. -/
def Spec.cost (ts : List Token) : Nat := (ts.map fun t => t.text.length + 1).sum

theorem cost_append (a b : List Token) : cost (a ++ b) = cost a + cost b := by simp [cost]
theorem cost_cons (t : Token) (b : List Token) : cost (t :: b) = t.text.length + 1 + cost b := by simp [cost]

theorem cost_sublist {a b : List Token} (h : a.Sublist b) : cost a ≤ cost b := by
  induction h with
  | slnil => simp
  | cons t _ ih => rw [cost_cons]; omega
  | cons_cons t _ ih => rw [cost_cons, cost_cons]; omega

theorem cost_perm {a b : List Token} (h : a.Perm b) : cost a = cost b := by
  unfold cost; exact (h.map _).sum_nat

theorem cost_occur {a b : List Token} (h : OccurIn a b) : cost a ≤ cost b := by
  obtain ⟨o, h⟩ := h
  rw [← cost_perm h, cost_append]; omega

theorem spaced_cost (ws : List Token) : (spaced ws).length ≤ cost ws := by
  unfold spaced
  induction ws with
  | nil => simp
  | cons t ws ih =>
    rw [cost_cons]
    cases ws with
    | nil => simp [cost]
    | cons u ws => simp at ih ⊢; omega

theorem Spec.Local.text_cost {T : List Token} {prev : Option (Record F)} {own : Option Token} {g : List Token} {n : Option Token} {r : Record F}
    (h : Local T [] prev own g n r) : r.breakText.length ≤ cost g := by
  obtain ⟨ws, h1, _, h3⟩ := h.text
  have : ws.filter (· ∉ ([] : List Token)) = ws := by simp
  rw [this] at h3
  rw [h1]
  exact Nat.le_trans (spaced_cost ws) (cost_sublist h3)

theorem name_cost {t : Token} {r : Record F} (h : ElementOf t r) (hT : Typed t) : r.name.length ≤ t.text.length := by
  rcases h.2.2.1 with h | ⟨hb, h⟩
  · rw [h]; exact Nat.le_refl _
  · have := (vfr_facts hT hb).2.2
    have hl : (restOf t.text).length ≤ t.text.length := by
      unfold restOf; split <;> simp
    rw [this] at hl
    rw [h]; exact hl

theorem divides_cost {T : List Token} {prev : Option (Record F)} {own : Option Token} {ts : List Token} {l : List (Record F)}
    (h : Divides T [] prev own ts l) (hT : ∀ t ∈ ts, Typed t) :
    (l.map (·.breakText.length)).sum + (l.tail.map (·.name.length)).sum ≤ cost ts := by
  induction h with
  | last hl => simpa using hl.text_cost
  | @next prev own g t ts r r' rs hl he _ ih =>
    have h1 := hl.text_cost
    have h2 := name_cost he (hT t (by simp))
    have h3 := ih fun x hx => hT x (by simp [hx])
    rw [cost_append, cost_cons]
    simp only [List.map_cons, List.sum_cons, List.tail_cons] at h3 ⊢
    omega

/-- Disjoint stretches are together no longer than the whole. -/
theorem disjoint_sum {l : List Token} {n k : Nat} (hd : l.Pairwise fun a b => a.start < a.stop ∧ a.stop ≤ b.start ∧ b.start < b.stop)
    (hl : ∀ t ∈ l, k ≤ t.start ∧ t.start < t.stop ∧ t.stop ≤ n ∧ t.text.length = t.stop - t.start) : cost l ≤ 2 * (n - k) := by
  induction l generalizing k with
  | nil => simp [cost]
  | cons t l ih =>
    have h1 := hl t (by simp)
    have h2 := ih (k := t.stop) (List.pairwise_cons.1 hd).2 fun u hu => by
      have := hl u (by simp [hu])
      have := (List.pairwise_cons.1 hd).1 u hu
      omega
    rw [cost_cons]; omega

theorem cost_typed (l : List Token) : cost (l.map assignSyntax) = cost l := by
  unfold cost
  rw [List.map_map]
  congr 1
  apply List.map_congr_left
  intro t _
  show (assignSyntax t).text.length + 1 = _
  rw [assignSyntax_eq]; split <;> rfl

/-- **C89 (size)** Whatever is written in field 15, the names and the free text of all elements, with the ADEP and the ADES, have
together at most eight characters more than twice the length of the field. -/
theorem c89_size {frames : Nat} {s : Str} {b : Bool} {e' : Ers F}
    (h : parseF15 frames Ers.new ⟨tokenizeList f15Whitespace s, 0⟩ = .ok (b, e')) :
    (e'.elements.map fun r => r.name.length + r.breakText.length).sum ≤ 2 * s.length + 8 := by
  have hne : ∀ t ∈ (⟨tokenizeList f15Whitespace s, 0⟩ : Tokens).toks, t.text ≠ [] := by
    intro t ht h0
    have := c01_locations f15Whitespace s t ht
    rw [h0] at this
    simp at this; omega
  obtain ⟨l, ades, used, he, ⟨hn, _⟩, hb, ho, hd⟩ := c89 h hne
  have hT : ∀ t ∈ used, Typed t := by
    intro t ht
    obtain ⟨o, hp⟩ := ho
    exact typed_map (hp.subset (List.mem_append_left _ ht))
  have h1 := divides_cost hd hT
  have h2 := cost_occur ho
  have h3 : cost (typedTokens ⟨tokenizeList f15Whitespace s, 0⟩) ≤ 2 * s.length := by
    unfold typedTokens
    rw [cost_typed]
    exact disjoint_sum (k := 0) (c02_disjoint _ _) fun t ht => by
      have := c01_locations f15Whitespace s t ht
      exact ⟨Nat.zero_le _, this.1, this.2.1, this.2.2.2⟩
  have h4 : (l.map (·.name.length)).sum ≤ (l.tail.map (·.name.length)).sum + 4 := by
    have key : ∀ r : Record F, Placeholder (py! "ADEP") r → r.name.length ≤ 4 := fun r hr => by rw [hr.1]; decide
    cases hd with
    | last hl => have := key _ (hl.adep rfl); simp; omega
    | next hl _ _ => have := key _ (hl.adep rfl); simp; omega
  have h5 : ∀ m : List (Record F), (m.map fun r => r.name.length + r.breakText.length).sum =
      (m.map (·.name.length)).sum + (m.map (·.breakText.length)).sum := by
    intro m
    induction m with
    | nil => rfl
    | cons r m ih => simp only [List.map_cons, List.sum_cons, ih]; omega
  have h6 : ades.name.length = 4 := by rw [hn]; decide
  rw [he, h5]
  simp [hb]
  omega

/-- Not only for accepted fields: two errors, among them error 48, and an over-long word that is put into the free text of the
last element when everything else has been read. -/
example : check (py! "N0450F350 PNT B9 50N010E XYZ VFR AAA ABCDEFGHIJKLMNOPQRSTUVWXYZABCDEFGHIJ BBB") (fun b e => !b &&
    decide (e.elements.map (fun r => (r.name, r.breakText)) = [(py! "ADEP", []), (py! "PNT", []), (py! "B9", []), (py! "XYZ", []),
      (py! "VFR", py! "AAA"), (py! "BBB", py! "ABCDEFGHIJKLMNOPQRSTUVWXYZABCDEFGHIJ"), (py! "50N010E", []), (py! "ADES", [])])) = true := by
  decide +kernel

end F15
