import Verif.Lemmas.Kinds2
import Verif.Props.Sequence
import Verif.Spec.Example
/-!
# C61: only the kinds of the words matter

Two field 15s whose words are of the same kinds, word by word, are read in the same way: the same exception, or elements of the same
shape and the same messages about the same words. Only the errors about the numbers in a word (level, degrees, minutes, bearing)
depend on what the words say.
-/

namespace F15
open Spec

set_option linter.unusedSectionVars false
variable {F : Type} [PyFloat F]

theorem new_kin (Z : List (Token × Token)) : Kin (F := F) Z Ers.new Ers.new :=
  ⟨.cons ⟨rfl, rfl, rfl, rfl, .inr ⟨rfl, rfl, rfl, rfl, rfl⟩⟩ .nil, .nil, new_ne, .cons ⟨fun _ => ⟨rfl, rfl, rfl, rfl, rfl, rfl⟩, fun _ => ⟨rfl, rfl, rfl, rfl, rfl⟩, fun _ => rfl, rfl⟩ .nil, .nil⟩

theorem mapOldest_same {T U : List Token} {a b : List (Record F)} (h : All2 (SameShape T U) a b) :
    All2 (SameShape T U) (mapOldest toVfr a) (mapOldest toVfr b) := by
  induction h with
  | nil => exact .nil
  | @cons r s a b h1 h2 ih =>
    cases h2 with
    | nil =>
      exact .cons ⟨h1.1, h1.2.1, rfl, h1.2.2.2.1, h1.2.2.2.2⟩ .nil
    | @cons r2 s2 a b h3 h4 =>
      have e1 : ∀ (x : Record F) (l : List (Record F)), l ≠ [] → mapOldest toVfr (x :: l) = x :: mapOldest toVfr l := by
        intro x l hl
        obtain ⟨m, o, rfl⟩ := split_last l hl
        rw [← List.cons_append, mapOldest_append, mapOldest_append, List.cons_append]
      rw [e1 r _ (by simp), e1 s _ (by simp)]
      exact .cons h1 ih

theorem mapOldest_vals {T U : List Token} {a b : List (Record F)} (h : All2 (SameFrom T U) a b) :
    All2 (SameFrom T U) (mapOldest toVfr a) (mapOldest toVfr b) := by
  induction h with
  | nil => exact .nil
  | @cons r s a b h1 h2 ih =>
    cases h2 with
    | nil =>
      exact .cons ⟨h1.1, h1.2, h1.3, h1.4⟩ .nil
    | @cons r2 s2 a b h3 h4 =>
      have e1 : ∀ (x : Record F) (l : List (Record F)), l ≠ [] → mapOldest toVfr (x :: l) = x :: mapOldest toVfr l := by
        intro x l hl
        obtain ⟨m, o, rfl⟩ := split_last l hl
        rw [← List.cons_append, mapOldest_append, mapOldest_append, List.cons_append]
      rw [e1 r _ (by simp), e1 s _ (by simp)]
      exact .cons h1 ih

/-- Runs of the same shape. -/
def KinRun (Z : List (Token × Token)) (r r' : Except PyErr (Ers F)) : Prop :=
  match r, r' with
  | .ok e, .ok f => Kin Z e f
  | .error x, .error y => x = y
  | _, _ => False

theorem run_kin {z : Token × Token} {zs : List (Token × Token)} (hz : Pairs (z :: zs)) (n : Nat) :
    KinRun (F := F) (z :: zs) (runL n Ers.new z.1 (lefts zs)) (runL n Ers.new z.2 (rights zs)) := by
  have ih : KIH (F := F) (z :: zs) (exec n) := kin_exec hz n
  have k0 := new_kin (F := F) (z :: zs)
  have hm : z ∈ z :: zs := by simp
  have hs : zs <:+ z :: zs := ⟨[z], rfl⟩
  have hb := (hz.alike z hm).1
  have hnil : lefts zs = [] ↔ rights zs = [] := by cases zs <;> simp [lefts, rights]
  unfold runL
  rw [← hb]
  cases h : z.1.base
  case SPEED_VFR =>
    dsimp only
    have g := ih.apply (.vfr hm h) hs k0
    generalize exec n (.assignSpeedVfr z.1) (⟨Ers.new, lefts zs⟩ : St (List Token) F) = r at g ⊢
    generalize exec n (.assignSpeedVfr z.2) (⟨Ers.new, rights zs⟩ : St (List Token) F) = s at g ⊢
    cases r <;> cases s
    · exact g
    · exact g.elim
    · exact g.elim
    · dsimp only
      rw [setFirst_eq _ g.1.ne, setFirst_eq _ g.1.ne']
      exact ⟨mapOldest_same g.1.recs, g.1.errs, mapOldest_ne _ _ g.1.ne, mapOldest_vals g.1.vals, g.1.msgs⟩
  case SPEED_ALTITUDE =>
    dsimp only
    have g := ih.apply (.level hm h) hs k0
    generalize exec n (.assignSpeedAltitude z.1) (⟨Ers.new, lefts zs⟩ : St (List Token) F) = r at g ⊢
    generalize exec n (.assignSpeedAltitude z.2) (⟨Ers.new, rights zs⟩ : St (List Token) F) = s at g ⊢
    cases r <;> cases s
    · exact g
    · exact g.elim
    · exact g.elim
    · rename_i r s
      obtain ⟨u, e1, t1⟩ := r
      obtain ⟨v, e2, t2⟩ := s
      obtain ⟨g1, ws, g2, g3, g4⟩ := g
      dsimp only at g1 g3 g4 ⊢
      by_cases hn : lefts zs = []
      · rw [if_pos hn, if_pos (hnil.1 hn), g3, g4]
        have g := ih.apply (.err hm (n := 49) rfl) g2 g1
        generalize exec n (.addErrorAndReSync z.1 49) (⟨e1, lefts ws⟩ : St (List Token) F) = r at g ⊢
        generalize exec n (.addErrorAndReSync z.2 49) (⟨e2, rights ws⟩ : St (List Token) F) = s at g ⊢
        cases r <;> cases s
        · exact g
        · exact g.elim
        · exact g.elim
        · exact g.1
      · rw [if_neg hn, if_neg (fun h => hn (hnil.2 h))]
        exact g1
  all_goals
    dsimp only
    have g := ih.apply (.err hm (n := 1) rfl) hs k0
    generalize exec n (.addErrorAndReSync z.1 1) (⟨Ers.new, lefts zs⟩ : St (List Token) F) = r at g ⊢
    generalize exec n (.addErrorAndReSync z.2 1) (⟨Ers.new, rights zs⟩ : St (List Token) F) = s at g ⊢
    cases r <;> cases s
    · exact g
    · exact g.elim
    · exact g.elim
    · exact g.1

theorem same_rules {T U : List Token} {a b : List (Record F)} (h : All2 (SameShape T U) a b) : a.map (·.rules) = b.map (·.rules) := by
  induction h with
  | nil => rfl
  | cons h _ ih => rw [List.map_cons, List.map_cons, ih, h.2.2.1]

theorem all2_reverse {α β : Type} {R : α → β → Prop} {a : List α} {b : List β} (h : All2 R a b) : All2 R a.reverse b.reverse := by
  have app : ∀ {a : List α} {b : List β} {x y}, All2 R a b → R x y → All2 R (a ++ [x]) (b ++ [y]) := by
    intro a b x y h1 h2
    induction h1 with
    | nil => exact .cons h2 .nil
    | cons h _ ih => exact .cons h ih
  induction h with
  | nil => exact .nil
  | cons h _ ih => rw [List.reverse_cons, List.reverse_cons]; exact app ih h

/-- Two field 15s with words of the same kinds (C61, C79). -/
theorem kinds_alike {n : Nat} {T U : Tokens} (hk : (typedTokens T).map (fun t => (t.base, t.sub)) = (typedTokens U).map fun t => (t.base, t.sub))
    (hne : typedTokens T ≠ []) :
    (∃ b e c f, parseF15 (F := F) n Ers.new T = .ok (b, e) ∧ parseF15 (F := F) n Ers.new U = .ok (c, f) ∧
      All2 (SameShape (typedTokens T) (typedTokens U)) e.elements f.elements ∧
      SameErrors (typedTokens T) (typedTokens U) e.errors f.errors ∧ e.derived = f.derived ∧
      All2 (SameFrom (typedTokens T) (typedTokens U)) e.elements f.elements ∧
      SameErrorsBut (Free (typedTokens T) (typedTokens U)) (typedTokens T) (typedTokens U) e.errors f.errors) ∨
    ∃ x, parseF15 (F := F) n Ers.new T = .error x ∧ parseF15 (F := F) n Ers.new U = .error x := by
  have hT : ∀ u ∈ typedTokens T, Typed u := fun u hu => typed_map hu
  have hU : ∀ u ∈ typedTokens U, Typed u := fun u hu => typed_map hu
  rw [parse_eq, parse_eq]
  change (∃ b e c f, parseL n _ (typedTokens T) = _ ∧ parseL n _ (typedTokens U) = _ ∧ _) ∨
    ∃ x, parseL n _ (typedTokens T) = _ ∧ parseL n _ (typedTokens U) = _
  generalize typedTokens T = A at *
  generalize typedTokens U = B at *
  have hl : A.length = B.length := by simpa using congrArg List.length hk
  obtain ⟨Z, rfl, rfl⟩ : ∃ Z : List (Token × Token), A = lefts Z ∧ B = rights Z :=
    ⟨A.zip B, (List.map_fst_zip (by omega)).symm, (List.map_snd_zip (by omega)).symm⟩
  have hp : Pairs Z := by
    refine ⟨fun z h => hT _ (List.mem_map_of_mem h), fun z h => hU _ (List.mem_map_of_mem h), fun z h => ?_⟩
    obtain ⟨i, hi, rfl⟩ := List.getElem_of_mem h
    have := congrArg (·[i]?) hk
    simp [hi] at this
    exact this
  cases Z with
  | nil => exact absurd rfl hne
  | cons z zs =>
    have g := run_kin (F := F) hp n
    have pl : ∀ t l, parseL n (Ers.new (F := F)) (t :: l) = (match runL n Ers.new t l with
      | .ok e => finish e
      | .error x => .error x) := fun _ _ => rfl
    have e1 := pl z.1 (lefts zs)
    have e2 := pl z.2 (rights zs)
    rw [← lefts_cons] at e1
    rw [← rights_cons] at e2
    rw [e1, e2]
    generalize runL n (Ers.new (F := F)) z.1 (lefts zs) = r at g ⊢
    generalize runL n (Ers.new (F := F)) z.2 (rights zs) = s at g ⊢
    cases r <;> cases s
    · rename_i x y
      cases (show x = y from g)
      exact .inr ⟨x, rfl, rfl⟩
    · exact g.elim
    · exact g.elim
    · rename_i e f
      replace g : Kin (z :: zs) e f := g
      dsimp only
      refine .inl ⟨_, _, _, _, finish_eq e g.ne, finish_eq f g.ne', ?_, g.errs.reverse, ?_, all2_reverse (.cons ?_ g.vals), g.msgs.reverse⟩
      · refine all2_reverse (.cons ?_ g.recs)
        have hr : (e.recs.head?.map (·.rules)).getD [] = (f.recs.head?.map (·.rules)).getD [] := by
          have := congrArg List.head? (same_rules g.recs)
          rw [List.head?_map, List.head?_map] at this
          rw [this]
        rw [hr]
        exact ⟨rfl, rfl, rfl, rfl, .inr ⟨rfl, rfl, rfl, rfl, rfl⟩⟩
      · have hr := same_rules g.recs
        have ho : oldestRules e.recs = oldestRules f.recs := by
          have := congrArg List.getLast? hr
          rw [List.getLast?_map, List.getLast?_map] at this
          unfold oldestRules
          rw [this]
        have hh : (e.recs.head?.map (·.rules)).getD [] = (f.recs.head?.map (·.rules)).getD [] := by
          have := congrArg List.head? hr
          rw [List.head?_map, List.head?_map] at this
          rw [this]
        show deriveRules _ _ = deriveRules _ _
        rw [ho, hh, List.map_reverse, List.map_reverse, List.map_cons, List.map_cons, hr]
      · have := congrArg List.head? (same_rules g.recs)
        rw [List.head?_map, List.head?_map] at this
        rw [this]
        exact ⟨fun _ => ⟨rfl, rfl, rfl, rfl, rfl, rfl⟩, fun _ => ⟨rfl, rfl, rfl, rfl, rfl⟩, fun _ => rfl, rfl⟩

/-- **C61** If the words of two field 15s are of the same kinds, word by word, then the parser leaves both with the same exception, or
returns for both elements of the same shape, the same derived flight rules and, errors about numbers aside, the same messages about the
same words. -/
theorem c61 {n : Nat} {T U : Tokens} (hk : (typedTokens T).map (fun t => (t.base, t.sub)) = (typedTokens U).map fun t => (t.base, t.sub))
    (hne : typedTokens T ≠ []) :
    (∃ b e c f, parseF15 (F := F) n Ers.new T = .ok (b, e) ∧ parseF15 (F := F) n Ers.new U = .ok (c, f) ∧
      All2 (SameShape (typedTokens T) (typedTokens U)) e.elements f.elements ∧
      SameErrors (typedTokens T) (typedTokens U) e.errors f.errors ∧ e.derived = f.derived) ∨
    ∃ x, parseF15 (F := F) n Ers.new T = .error x ∧ parseF15 (F := F) n Ers.new U = .error x := by
  rcases kinds_alike (F := F) (n := n) hk hne with ⟨b, e, c, f, h1, h2, h3, h4, h5, _⟩ | h
  · exact .inl ⟨b, e, c, f, h1, h2, h3, h4, h5⟩
  · exact .inr h

/-- Texts without a word are read alike, of course. -/
theorem c61_empty {n : Nat} {T U : Tokens} (hT : typedTokens T = []) (hU : typedTokens U = []) :
    parseF15 (F := F) n Ers.new T = parseF15 n Ers.new U := by
  rw [parse_eq, parse_eq]
  change parseL n _ (typedTokens T) = parseL n _ (typedTokens U)
  rw [hT, hU]

theorem same_nil {T U : List Token} {xs ys : List (Record F)} (h : SameErrors T U xs ys) (hx : xs = []) : ∀ y ∈ ys, NumberError U y := by
  induction h with
  | nil => intro y hy; cases hy
  | same => cases hx
  | left => cases hx
  | right h1 _ ih =>
    intro y hy
    rcases List.mem_cons.1 hy with rfl | hy
    · exact h1
    · exact ih hx y hy

/-- **C61** If one of two such field 15s is accepted, the other has no error but those about numbers. -/
theorem c61_accepted {n : Nat} {T U : Tokens}
    (hk : (typedTokens T).map (fun t => (t.base, t.sub)) = (typedTokens U).map fun t => (t.base, t.sub)) {b c : Bool} {e f : Ers F}
    (h1 : parseF15 n Ers.new T = .ok (b, e)) (he : e.errors = []) (h2 : parseF15 n Ers.new U = .ok (c, f)) :
    ∀ y ∈ f.errors, NumberError (typedTokens U) y := by
  by_cases hne : typedTokens T = []
  · have hU : typedTokens U = [] := by
      rw [hne] at hk
      exact List.map_eq_nil_iff.1 hk.symm
    rw [c61_empty hne hU, h2] at h1
    cases h1
    rw [he]; intro y hy; cases hy
  · rcases c61 (F := F) (n := n) hk hne with ⟨b', e', c', f', g1, g2, _, g4, _⟩ | ⟨x, g, _⟩
    · rw [h1] at g1; rw [h2] at g2
      cases g1; cases g2
      exact same_nil g4 he
    · rw [h1] at g; cases g

/-- Two field 15s whose words are of the same kinds. The first is accepted; in the second the level of the first word and both angles
of the third are impossible, and that is all that is said against it. -/
example :
    (typedTokens ⟨tokenizeList f15Whitespace (py! "N0450F350 DCT 5030N01020W DCT PNT UL9 ABC STAR"), 0⟩).map (fun t => (t.base, t.sub)) =
      (typedTokens ⟨tokenizeList f15Whitespace (py! " N0001F999 DCT 9999S18099E  DCT XYZ B999 RTT STAR"), 0⟩).map (fun t => (t.base, t.sub)) ∧
    (typedTokens ⟨tokenizeList f15Whitespace (py! "N0450F350 DCT 5030N01020W DCT PNT UL9 ABC STAR"), 0⟩) ≠ [] ∧
    check (py! "N0450F350 DCT 5030N01020W DCT PNT UL9 ABC STAR") (fun b e => b && e.errors.isEmpty) = true ∧
    check (py! " N0001F999 DCT 9999S18099E  DCT XYZ B999 RTT STAR") (fun b e => !b && (e.errors.map (·.start) = [1, 15, 15])) = true := by
  refine ⟨by decide +kernel, by decide +kernel, by decide +kernel, by decide +kernel⟩

end F15
