import Verif.Lemmas.Told
import Verif.Spec.Meaning
/-!
# Which elements of an accepted field 15 have a position
-/

namespace F15
open Spec

set_option linter.unusedSectionVars false
variable {F : Type} [PyFloat F]

/-- Has a position? If not, also what stands in its place. -/
def here (r : Record F) : Bool × F × F := if r.latLongValid then (true, fzero, fzero) else (false, r.latitude, r.longitude)

/-- A given-up position. -/
def at_ (b : Bool) : Bool × F × F := (b, fzero, fzero)

theorem here_congr {r r' : Record F} (h1 : r'.latLongValid = r.latLongValid) (h2 : r'.latitude = r.latitude)
    (h3 : r'.longitude = r.longitude) : here r' = here r := by
  unfold here; rw [h1, h2, h3]

theorem here_keep {r r' : Record F} (h : Keep r r') : here r' = here r := by
  rw [h]; rfl

theorem here_tweak {r r' : Record F} (h : Tweak r r') : here r' = here r := by
  rw [h]; rfl

theorem here_all {l l' : List (Record F)} (h : All2 Keep l l') : l'.map here = l.map here := by
  induction h with
  | nil => rfl
  | cons h _ ih => rw [List.map_cons, List.map_cons, here_keep h, ih]

/-- Latitude and longitude given? -/
def llSub (s : SubType) : Bool := [SubType.LL_DEG, .LL_MIN, .LLBD_DEG, .LLBD_MIN].contains s

/-- Read directly after `IFR` in free text. -/
def ifrWord : Option (Token × Role) → Bool
  | some (w, .word) => decide (w.sub = .IFR)
  | _ => false

/-- Followed by `/` SPEED/VFR. -/
def nextVfr : List (Token × Role) → Bool
  | s :: l :: _ => decide (s.1.base = .SLASH) && decide (l.1.base = .SPEED_VFR)
  | _ => false

/-- Does the element get a position? -/
def placed (prev : Option (Token × Role)) (m : Token × Role) (after : List (Token × Role)) : Bool :=
  llSub m.1.sub && (decide (m.2 = .slot) || decide (m.2 = .head) && decide (m.1.base = .POINT)) &&
    !(ifrWord prev && nextVfr after)

/-- Which elements get a position. -/
def heres (F : Type) [PyFloat F] (prev : Option (Token × Role)) : List (Token × Role) → List (Bool × F × F)
  | [] => []
  | m :: l => if m.2.isElement then at_ (placed prev m l) :: heres F (some m) l else heres F (some m) l

/-- What the rest of the run contributes. -/
def Spots (as : List Act) (l : List (Bool × F × F)) : Prop :=
  ∀ (r : Record F) rs, (runsL as (r :: rs)).map here = l.reverse ++ (r :: rs).map here

theorem spots_nil : Spots (F := F) [] [] := fun _ _ => rfl

theorem spots_el {a : Act} {as : List Act} {prev : Option (Token × Role)} {m : Token × Role} {l : List (Token × Role)}
    (he : m.2.isElement = true) (hr : a.records = true) (hn : ∀ r : Record F, here (a.newRec r) = at_ (placed prev m l))
    (ih : Spots as (heres F (some m) l)) : Spots (a :: as) (heres F prev (m :: l)) := by
  intro r rs
  obtain ⟨l', h1, h2⟩ := push_shape a hr r rs
  show (runsL as (a.recs (r :: rs))).map here = _
  rw [h1, ih, List.map_cons, here_all h2, hn]
  conv => rhs; unfold heres
  simp [he]

theorem spots_note {a : Act} {as : List Act} {prev : Option (Token × Role)} {m : Token × Role} {l : List (Token × Role)}
    (he : m.2.isElement = false) (hr : a.records = false)
    (ih : Spots as (heres F (some m) l)) : Spots (a :: as) (heres F prev (m :: l)) := by
  intro r rs
  show (runsL as (a.recs (r :: rs))).map here = _
  rw [note_shape a hr, ih, List.map_cons, here_tweak (tweak_ok a r)]
  conv => rhs; unfold heres
  simp [he]

theorem spots_skip {as : List Act} {prev : Option (Token × Role)} {m : Token × Role} {l : List (Token × Role)}
    (he : m.2.isElement = false) (ih : Spots as (heres F (some m) l)) : Spots as (heres F prev (m :: l)) := by
  intro r rs
  rw [ih]
  conv => rhs; unfold heres
  simp [he]

/-! ### The elements one by one -/

theorem here_new (p : Record F) (t : Token) : here (fresh p t) = at_ false := rfl

theorem here_pos (t : Token) {r : Record F} (h : here r = at_ false) : here (posHead t r) = at_ (llSub t.sub) := by
  unfold posHead
  cases t.sub
  case LL_DEG | LL_MIN | LLBD_DEG | LLBD_MIN => rfl
  all_goals exact h

theorem placed_not {prev : Option (Token × Role)} {m : Token × Role} {l : List (Token × Role)} (h1 : m.2 ≠ .slot)
    (h2 : ¬ (m.2 = .head ∧ m.1.base = .POINT)) : placed prev m l = false := by
  unfold placed
  have : (decide (m.2 = .slot) || decide (m.2 = .head) && decide (m.1.base = .POINT)) = false := by
    simp [h1]; exact fun h => fun hh => h2 ⟨h, hh⟩
  rw [this]; simp

theorem placed_is {prev : Option (Token × Role)} {m : Token × Role} {l : List (Token × Role)}
    (h : m.2 = .slot ∨ (m.2 = .head ∧ m.1.base = .POINT)) (ho : ifrWord prev = false ∨ nextVfr l = false) :
    placed prev m l = llSub m.1.sub := by
  unfold placed
  have : (decide (m.2 = .slot) || decide (m.2 = .head) && decide (m.1.base = .POINT)) = true := by
    rcases h with h | ⟨h, hb⟩ <;> simp [h]; exact hb
  rw [this]
  rcases ho with h | h <;> simp [h]

theorem at_brk (u : SubType) (r : Record F) : here (brkRules u r) = here r := by unfold brkRules; split <;> rfl

/-- A phase in which the next token is a word, or not after `IFR`. -/
def ReadAs (q : Phase) (prev : Option (Token × Role)) : Prop := (∃ r, q = .text r) ∨ ifrWord prev = false

theorem fine_note {q : Phase} {t : Token} : ReadAs q (some (t, .note)) := .inr rfl
theorem fine_head {q : Phase} {t : Token} : ReadAs q (some (t, .head)) := .inr rfl
theorem fine_text {r : Str} {prev : Option (Token × Role)} : ReadAs (.text r) prev := .inl ⟨r, rfl⟩
theorem ReadAs.not {q : Phase} {prev : Option (Token × Role)} (h : ReadAs q prev) {t : Token} (hq : q.allows t = true) : ifrWord prev = false := by
  rcases h with ⟨r, rfl⟩ | h
  · simp [Phase.allows] at hq
  · exact h

theorem run_spots {q : Phase} {ts : List Token} {as : List Act} {k : Prop} (h : RunG k q ts as) :
    ∀ prev, ReadAs q prev → Spots (F := F) as (heres F prev (mark (modeOf q) ts)) := by
  induction h with
  | stop q => intro _ _; rw [mark_nil]; exact spots_nil
  | @truncate q t hq hb =>
    intro prev hf
    rw [mark_plain hq (not_cruise (by simp [hb])), mark_nil, show roleOf (decide (q = .adep)) t = .note by simp [roleOf, hb]]
    exact spots_skip rfl spots_nil
  | @star q t hq hb =>
    intro prev hf
    rw [mark_plain hq (not_cruise (by rcases hb with hb | ⟨hb, _⟩ <;> simp [hb])), mark_nil,
      show roleOf (decide (q = .adep)) t = .star by rcases hb with hb | ⟨hb, h⟩ <;> simp [roleOf, *]]
    exact spots_el rfl rfl (fun r => by rw [placed_not (by simp) (by simp)]; rfl) spots_nil
  | @sid t ts as hb h ih =>
    intro prev hf
    show Spots _ (heres F prev (mark (.route true) (t :: ts)))
    rw [mark_route (by rcases hb with hb | hb <;> simp [hb]),
      show roleOf true t = .sid by rcases hb with hb | hb <;> simp [roleOf, hb],
      show modeAfter t = .route false by rcases hb with hb | hb <;> simp [modeAfter, hb]]
    exact spots_el rfl rfl (fun r => by rw [placed_not (by simp) (by simp)]; rfl) (ih _ (.inr rfl))
  | @dct q t ts as hq hb h ih =>
    intro prev hf
    rw [mark_plain hq (not_cruise (by simp [hb])), show roleOf (decide (q = .adep)) t = .head by simp [roleOf, hb],
      show modeAfter t = .route false by simp [modeAfter, hb]]
    exact spots_el rfl rfl (fun r => by rw [placed_not (by simp) (by simp [hb])]; rfl) (ih _ fine_head)
  | @route q t ts as hq hb h ih =>
    intro prev hf
    rw [mark_plain hq (not_cruise (by simp [hb])), show roleOf (decide (q = .adep)) t = .head by simp [roleOf, hb],
      show modeAfter t = .route false by simp [modeAfter, hb]]
    exact spots_el rfl rfl (fun r => by rw [placed_not (by simp) (by simp [hb])]; rfl) (ih _ fine_head)
  | @point q t ts as hq hb hn h ih =>
    intro prev hf
    rw [mark_plain hq (not_cruise (by simp [hb])), show roleOf (decide (q = .adep)) t = .head by simp [roleOf, hb],
      show modeAfter t = .route false by simp [modeAfter, hb]]
    exact spots_el rfl rfl (fun r => by rw [placed_is (.inr ⟨rfl, hb⟩) (.inl (hf.not hq))]; exact here_pos t rfl) (ih _ fine_head)
  | @climb q t ts as hq hb h ih =>
    intro prev hf
    rw [mark_plain hq (climb_next h), show roleOf (decide (q = .adep)) t = .head by simp [roleOf, hb],
      show modeAfter t = .route false by simp [modeAfter, hb]]
    exact spots_el rfl rfl (fun r => by rw [placed_not (by simp) (by simp [hb])]; rfl) (ih _ fine_head)
  | @cruise q t s p s' l a ts as hq hb hs hp hs' hl h ih =>
    intro prev hf
    rw [mark_cruise hq hb hs hs' hl.base]
    refine spots_skip rfl (spots_skip rfl ?_)
    refine spots_el rfl rfl (fun r => by rw [placed_is (.inl rfl) (.inl rfl)]; exact here_pos p rfl) ?_
    refine spots_skip rfl (spots_note rfl ?_ (ih _ fine_note))
    rcases hl with ⟨_, _, rfl, _⟩ | ⟨_, rfl, _⟩ <;> rfl
  | @stay q t s m ts as hq hb hs hm h ih =>
    intro prev hf
    rw [mark_plain hq (not_cruise (by simp [hb])), show roleOf (decide (q = .adep)) t = .note by simp [roleOf, hb],
      show modeAfter t = .route false by simp [modeAfter, hb], mark_route (by simp [hs]),
      show roleOf false s = .note by simp [roleOf, hs],
      show modeAfter s = .route false by simp [modeAfter, hs], mark_route (by simp [hm]),
      show roleOf false m = .note by simp [roleOf, hm],
      show modeAfter m = .route false by simp [modeAfter, hm]]
    exact spots_skip rfl (spots_skip rfl (spots_note rfl rfl (ih _ fine_note)))
  | @break_ q t ts as hq hb h ih =>
    intro prev hf
    rw [mark_plain hq (not_cruise (by simp [hb])), show roleOf (decide (q = .adep)) t = .head by simp [roleOf, hb],
      show modeAfter t = .text (rulesOfBreak t.sub) by simp [modeAfter, hb]]
    exact spots_el rfl rfl (fun r => by rw [placed_not (by simp) (by simp [hb])]; exact at_brk _ _) (ih _ fine_head)
  | @level f s l ts as hs hb hl h ih =>
    intro prev hf
    show Spots _ (heres F prev (mark (.route false) (s :: l :: ts)))
    rw [mark_route (by simp [hs]), show roleOf false s = .note by simp [roleOf, hs],
      show modeAfter s = .route false by simp [modeAfter, hs], mark_route (by simp [hb]),
      show roleOf false l = .note by simp [roleOf, hb],
      show modeAfter l = .route false by simp [modeAfter, hb]]
    exact spots_skip rfl (spots_note rfl rfl (ih _ fine_note))
  | @vfr f s l ts as hs hb h ih =>
    intro prev hf
    show Spots _ (heres F prev (mark (.route false) (s :: l :: ts)))
    rw [mark_route (by simp [hs]), show roleOf false s = .note by simp [roleOf, hs],
      show modeAfter s = .route false by simp [modeAfter, hs], mark_route (by simp [hb]),
      show roleOf false l = .head by simp [roleOf, hb],
      show modeAfter l = .text (py! "VFR") by simp [modeAfter, hb]]
    exact spots_skip rfl (spots_el rfl rfl (fun r => by rw [placed_not (by simp) (by simp [hb])]; rfl) (ih _ fine_head))
  | @word r t ts as hb hc h ih =>
    intro prev hf
    show Spots _ (heres F prev (mark (.text r) (t :: ts)))
    rw [mark_word hc]
    exact spots_note rfl rfl (ih _ fine_text)
  | @resume r t p ts as hc hi hb hp hn h ih =>
    intro prev hf
    show Spots _ (heres F prev (mark (.text r) (t :: p :: ts)))
    rw [mark_close hc (not_readOn hp (.inl hi)), mark_route (by simp [hp]), show roleOf false p = .head by simp [roleOf, hp],
      show modeAfter p = .route false by simp [modeAfter, hp]]
    exact spots_note rfl rfl (spots_el rfl rfl
      (fun r => by rw [placed_is (.inr ⟨rfl, hp⟩) (.inl (by simp [ifrWord, hi]))]; exact here_pos p rfl) (ih _ fine_head))
  | @resumeIfr r t p s l ts as hc hi hb hp hn hs hl hk h ih =>
    intro prev hf
    show Spots _ (heres F prev (mark (.text r) (t :: p :: s :: l :: ts)))
    rw [mark_close hc (not_readOn hp (.inr (by simp [hs]))), mark_route (by simp [hp]), show roleOf false p = .head by simp [roleOf, hp],
      show modeAfter p = .route false by simp [modeAfter, hp], mark_route (by simp [hs]),
      show roleOf false s = .note by simp [roleOf, hs],
      show modeAfter s = .route false by simp [modeAfter, hs], mark_route (by simp [hl]),
      show roleOf false l = .note by simp [roleOf, hl],
      show modeAfter l = .route false by simp [modeAfter, hl]]
    exact spots_note rfl rfl (spots_el rfl rfl
      (fun r => by rw [placed_is (.inr ⟨rfl, hp⟩) (.inr (by simp [nextVfr, hl]))]; exact here_pos p rfl)
      (spots_skip rfl (spots_note rfl rfl (ih _ fine_note))))
  | @resumeVfr r t p s l ts as hc hi hb hp hs hl h ih =>
    intro prev hf
    show Spots _ (heres F prev (mark (.text r) (t :: p :: s :: l :: ts)))
    rw [mark_close hc (not_readOn hp (.inr (by simp [hs]))), mark_route (by simp [hp]), show roleOf false p = .head by simp [roleOf, hp],
      show modeAfter p = .route false by simp [modeAfter, hp], mark_route (by simp [hs]),
      show roleOf false s = .note by simp [roleOf, hs],
      show modeAfter s = .route false by simp [modeAfter, hs], mark_route (by simp [hl]),
      show roleOf false l = .head by simp [roleOf, hl],
      show modeAfter l = .text (py! "VFR") by simp [modeAfter, hl]]
    exact spots_note rfl rfl (spots_el rfl rfl (fun r => by unfold placed; simp [ifrWord, nextVfr, hi, hs, hl]; rfl)
      (spots_skip rfl (spots_el rfl rfl (fun r => by rw [placed_not (by simp) (by simp [hl])]; rfl) (ih _ fine_head))))

theorem sent_spots {t : Token} {ts : List Token} {as : List Act} {k : Prop} (h : SentRunG k (t :: ts) as) :
    Spots (F := F) as (heres F none (roles (t :: ts))) := by
  cases h with
  | ifr hb hl hne h =>
    unfold roles
    dsimp only
    rw [if_neg (by simp [hb])]
    exact spots_note rfl rfl (run_spots h _ fine_note)
  | vfr hb h =>
    unfold roles
    dsimp only
    rw [if_pos hb]
    exact spots_el rfl rfl (fun r => by rw [placed_not (by simp) (by simp [hb])]; rfl) (run_spots h _ fine_head)

theorem heres_at {prev : Option (Token × Role)} {pre : List (Token × Role)} {m : Token × Role} {after : List (Token × Role)}
    (he : m.2.isElement = true) :
    (heres F prev (pre ++ m :: after))[elementCount pre]? = some (at_ (placed ((pre.getLast?).or prev) m after)) := by
  induction pre generalizing prev with
  | nil => unfold heres; simp [he, elementCount]
  | cons x pre ih =>
    rw [List.cons_append]
    unfold heres
    have hl : ((x :: pre).getLast?).or prev = pre.getLast?.or (some x) := by
      cases pre with
      | nil => rfl
      | cons y pre =>
        rw [List.getLast?_cons_cons, List.getLast?_eq_some_getLast (List.cons_ne_nil y pre)]
        rfl
    rw [hl, ← ih (prev := some x)]
    split
    · rename_i hx
      have : elementCount (x :: pre) = elementCount pre + 1 := by simp [elementCount, hx]
      rw [this, List.getElem?_cons_succ]
    · rename_i hx
      have : elementCount (x :: pre) = elementCount pre := by simp [elementCount, hx]
      rw [this]

/-- The places of the elements of an accepted field 15. -/
theorem told_here {tokens : Tokens} {e : Ers F} (h : Lawful tokens e) :
    (∃ r, e.elements[0]? = some r ∧ here r = at_ false) ∧
    ∀ pre m after, roles (typedTokens tokens) = pre ++ m :: after → m.2.isElement = true →
      ∃ r, e.elements[elementCount pre + 1]? = some r ∧ here r = at_ (placed pre.getLast? m after) := by
  have htold := told h
  obtain ⟨_, k, t, rest, as, hts, hs, rfl⟩ := h
  have hts' : typedTokens tokens = t :: rest := hts
  rw [hts'] at htold ⊢
  have hsp := sent_spots (F := F) hs newAdep []
  have hrecs : (runs as (Ers.new : Ers F)).recs = runsL as [newAdep] := runs_recs _ _
  have hpost : (post t (runs as (Ers.new : Ers F))).recs.map here = (runsL as [newAdep]).map here := by
    unfold post
    split
    · show (mapOldest toVfr (runs as Ers.new).recs).map here = _
      rw [hrecs]
      unfold mapOldest
      rw [List.map_reverse]
      have : ∀ l : List (Record F), (mapHead toVfr l).map here = l.map here := by intro l; cases l <;> rfl
      rw [this, ← List.map_reverse, List.reverse_reverse]
    · rw [hrecs]
  have hall : ∀ k < elementCount (roles (t :: rest)) + 1,
      ((finErs (post t (runs as (Ers.new : Ers F)))).elements[k]?).map here = (at_ false :: heres F none (roles (t :: rest)))[k]? := by
    intro k hk
    have hel : (finErs (post t (runs as (Ers.new : Ers F)))).elements = (post t (runs as (Ers.new : Ers F))).recs.reverse ++
        [adesRec (((post t (runs as (Ers.new : Ers F))).recs.head?.map (·.rules)).getD [])] := by
      unfold Ers.elements finErs; rw [List.reverse_cons]
    have hlen := htold.len
    rw [hel] at hlen ⊢
    simp only [List.length_append, List.length_reverse, List.length_cons, List.length_nil] at hlen
    rw [List.getElem?_append_left (by rw [List.length_reverse]; omega), ← List.getElem?_map, List.map_reverse, hpost, hsp]
    simp only [List.reverse_append, List.reverse_reverse, List.map_cons, List.map_nil, List.reverse_cons, List.reverse_nil,
      List.nil_append, List.cons_append]
    rfl
  refine ⟨?_, fun pre m after hr he => ?_⟩
  · have := hall 0 (by omega)
    cases hx : (finErs (post t (runs as (Ers.new : Ers F)))).elements[0]? with
    | none => rw [hx] at this; cases this
    | some r => rw [hx] at this; exact ⟨r, rfl, by simpa using this⟩
  · have hk : elementCount pre + 1 < elementCount (roles (t :: rest)) + 1 := by
      rw [hr]; simp [elementCount, List.filter_append, he]
    have := hall _ hk
    rw [List.getElem?_cons_succ, hr, heres_at he, Option.or_none] at this
    cases hx : (finErs (post t (runs as (Ers.new : Ers F)))).elements[elementCount pre + 1]? with
    | none => rw [hx] at this; cases this
    | some r => rw [hx] at this; exact ⟨r, rfl, by simpa using this⟩

end F15
