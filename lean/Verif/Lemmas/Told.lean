import Verif.Lemmas.Well
import Verif.Spec.Sequence
/-!
# The elements of an accepted field 15, one by one
-/

namespace F15
open Spec

set_option linter.unusedSectionVars false
variable {F : Type} [PyFloat F]

/-- The new ADEP. -/
def newAdep : Record F := Record.new (py! "ADEP") 0 0 .POINT .PRP_AERO

/-- The elements of an accepted field 15. -/
structure Told (ts : List Token) (e : Ers F) : Prop where
  typed : ∀ t ∈ ts, Typed t
  well : WellAll (roles ts)
  len : e.elements.length = elementCount (roles ts) + 2
  adep : ∃ t r, ts.head? = some t ∧ e.elements[0]? = some r ∧
    unplace r = (if t.base = .SPEED_VFR then toVfr else id) (finalRec (cur newAdep (about (roles ts))) (roles ts))
  elem : ∀ pre m after, roles ts = pre ++ m :: after → m.2.isElement = true →
    ∃ r, e.elements[elementCount pre + 1]? = some r ∧ unplace r = finalRec (cur newAdep (pre ++ m :: about after)) after
  ades : ∃ r l, e.elements[elementCount (roles ts) + 1]? = some r ∧ e.elements[elementCount (roles ts)]? = some l ∧
    r = adesRec l.rules

theorem mapHead_len (f : Record F → Record F) (l : List (Record F)) : (mapHead f l).length = l.length := by
  cases l <;> rfl

/-- `e` is the outcome for tokens whose kinds are those of an accepted field 15, whatever their numbers are. -/
def Lawful (tokens : Tokens) (e : Ers F) : Prop :=
  (∃ frames b, parseF15 frames Ers.new tokens = .ok (b, e)) ∧
  ∃ k t rest as, typedTokens tokens = t :: rest ∧ SentRunG k (t :: rest) as ∧ e = finErs (post t (runs as Ers.new))

/-- Accepted field 15s are. -/
theorem lawful {frames : Nat} {tokens : Tokens} {e : Ers F} (h : parseF15 frames Ers.new tokens = .ok (true, e)) : Lawful tokens e := by
  refine ⟨⟨frames, true, h⟩, ?_⟩
  have hT : ∀ x ∈ tokens.toks.map assignSyntax, Typed x := fun x hx => typed_map hx
  rw [parse_eq] at h
  obtain ⟨t, rest, as, hts, hs, he⟩ := accepted (F := F) rfl rfl hT h
  rw [hts] at hs
  exact ⟨True, t, rest, as, hts, hs, he⟩

theorem told {tokens : Tokens} {e : Ers F} (h : Lawful tokens e) : Told (typedTokens tokens) e := by
  have hT : ∀ x ∈ tokens.toks.map assignSyntax, Typed x := fun x hx => typed_map hx
  obtain ⟨_, k, t, rest, as, hts, hs, rfl⟩ := h
  have hts' : typedTokens tokens = t :: rest := hts
  rw [hts'] 
  rw [show tokens.toks.map assignSyntax = t :: rest from hts] at hT
  have hstory := sent_story hs (newAdep (F := F))
  have hrecs : (runs as (Ers.new : Ers F)).recs = runsL as [newAdep] := runs_recs _ _
  -- the elements before the post-processing
  have helems : ∃ l : List (Record F), runsL as [newAdep] = l.reverse ∧ l.map unplace = build newAdep (roles (t :: rest)) := by
    refine ⟨(runsL as [newAdep]).reverse, by simp, ?_⟩
    rw [List.map_reverse, hstory, List.reverse_reverse]; rfl
  obtain ⟨l, hl, hb⟩ := helems
  have hlen : l.length = elementCount (roles (t :: rest)) + 1 := by
    rw [← build_length (newAdep (F := F)), ← hb, List.length_map]
  have hpost : ∃ l' : List (Record F), (post t (runs as (Ers.new : Ers F))).recs = l'.reverse ∧
      l' = mapHead (if t.base = .SPEED_VFR then toVfr else id) l := by
    unfold post
    split
    · refine ⟨_, ?_, rfl⟩
      show mapOldest toVfr (runs as Ers.new).recs = _
      rw [hrecs, hl]; unfold mapOldest; rw [List.reverse_reverse]
    · refine ⟨l, by rw [hrecs, hl], ?_⟩
      cases l <;> rfl
  obtain ⟨l', hl', hm⟩ := hpost
  have hfin : (finErs (post t (runs as (Ers.new : Ers F)))).elements =
      l' ++ [adesRec (((post t (runs as (Ers.new : Ers F))).recs.head?.map (·.rules)).getD [])] := by
    unfold Ers.elements finErs
    rw [List.reverse_cons, hl', List.reverse_reverse]
  have hlen' : l'.length = elementCount (roles (t :: rest)) + 1 := by rw [hm, mapHead_len, hlen]
  have hold : ∀ k, k + 1 < l'.length → l'[k + 1]? = l[k + 1]? := by
    intro k _
    rw [hm]
    cases l <;> rfl
  have hget : ∀ (k : Nat) (r : Record F), (build newAdep (roles (t :: rest)))[k]? = some r → ∃ x, l[k]? = some x ∧ unplace x = r := by
    intro k r h
    rw [← hb, List.getElem?_map] at h
    cases hx : l[k]? with
    | none => rw [hx] at h; cases h
    | some x => rw [hx] at h; exact ⟨x, rfl, by simpa using h⟩
  refine ⟨hT, sent_well hs, by rw [hfin]; simp [hlen'], ?_, ?_, ?_⟩
  · obtain ⟨x, h1, h2⟩ := hget 0 _ (build_zero _ _)
    refine ⟨t, (if t.base = .SPEED_VFR then toVfr else id) x, rfl, ?_, ?_⟩
    · rw [hfin, List.getElem?_append_left (by omega), hm]
      cases l with
      | nil => cases h1
      | cons y l => cases h1; rfl
    · rw [← h2]; split <;> rfl
  · intro pre m after hr he
    obtain ⟨x, h1, h2⟩ := hget (elementCount pre + 1) _ (by rw [hr]; exact build_at _ pre m after he)
    refine ⟨x, ?_, h2⟩
    have : elementCount pre + 1 < l.length := (List.getElem?_eq_some_iff.1 h1).1
    rw [hfin, List.getElem?_append_left (by omega), hold _ (by omega), h1]
  · have hne : l' ≠ [] := by intro h; rw [h] at hlen'; simp at hlen'
    refine ⟨_, l'.getLast hne, ?_, ?_, rfl⟩
    · rw [hfin, ← hlen', List.getElem?_concat_length, hl', List.head?_reverse, List.getLast?_eq_some_getLast hne]
      rfl
    · rw [hfin, List.getElem?_append_left (by omega)]
      rw [List.getLast_eq_getElem]
      rw [List.getElem?_eq_getElem (by omega)]
      simp [hlen']

/-- A field of a stripped record. -/
theorem unplace_fields (r : Record F) : (unplace r).name = r.name ∧ (unplace r).start = r.start ∧ (unplace r).stop = r.stop ∧
    (unplace r).base = r.base ∧ (unplace r).sub = r.sub ∧ (unplace r).speed = r.speed ∧ (unplace r).altitude = r.altitude ∧
    (unplace r).rules = r.rules ∧ (unplace r).breakText = r.breakText ∧ (unplace r).stayTime = r.stayTime ∧
    (unplace r).cruiseTo = r.cruiseTo ∧ (unplace r).cruiseToSi = r.cruiseToSi :=
  ⟨rfl, rfl, rfl, rfl, rfl, rfl, rfl, rfl, rfl, rfl, rfl, rfl⟩

/-! ### Positions in the list of roles -/

/-- What comes after a token that has been read. -/
def nextSpot (p : Spot) (m : Token × Role) : Spot :=
  match m.2 with
  | .word => p
  | .slot => .slash
  | .note => if p = .slash then .levels else .route
  | .head => if m.1.base = .BREAK_START ∨ m.1.base = .SPEED_VFR then .text else .route
  | _ => .route

theorem Well.tail {p : Spot} {m : Token × Role} {l : List (Token × Role)} (h : Well p (m :: l)) : Well (nextSpot p m) l := by
  cases h with
  | word h => exact h
  | note hp hb ht h =>
    have : p ≠ .slash := by rcases hp with rfl | rfl <;> simp
    simpa [nextSpot, this] using h
  | sid hb h => exact h
  | star => exact .nil (.inl (.inr rfl))
  | slot hp h => exact h
  | slash hb h => exact h
  | levels hb h => exact h
  | point hp hb h => simp only [nextSpot, hb]; exact h
  | @plain _ t _ hp hb h =>
    have : nextSpot p (t, Role.head) = .route := by rcases hb with h | h | h <;> simp [nextSpot, h]
    rw [this]; exact h
  | @brk _ t _ hp hb h =>
    have : nextSpot p (t, Role.head) = .text := by rcases hb with h | h <;> simp [nextSpot, h]
    rw [this]; exact h

/-- The reader's place after reading `l`. -/
def spotAfter (p : Spot) (l : List (Token × Role)) : Spot := l.foldl nextSpot p

theorem Well.drop {p : Spot} {a b : List (Token × Role)} (h : Well p (a ++ b)) : Well (spotAfter p a) b := by
  induction a generalizing p with
  | nil => exact h
  | cons m a ih => exact ih h.tail

theorem start_only {p : Spot} {m : Token × Role} : nextSpot p m = .start → p = .start ∧ m.2 = .word := by
  unfold nextSpot
  split
  · exact fun h => ⟨h, by assumption⟩
  · intro h; cases h
  · split <;> intro h <;> cases h
  · split <;> intro h <;> cases h
  · intro h; cases h

theorem spot_start {p : Spot} {a b : List (Token × Role)} (h : Well p (a ++ b)) (hs : spotAfter p a = .start) : a = [] := by
  induction a generalizing p with
  | nil => rfl
  | cons m a ih =>
    have := ih h.tail hs
    subst this
    obtain ⟨rfl, h2⟩ := start_only (show nextSpot p m = .start from hs)
    exfalso
    cases h <;> simp at h2

end F15
