import Verif.Lemmas.NumVal
import Verif.Lemmas.Course
import Verif.Props.Errors
/-!
# C27, C28, C31, C32: positions, bearings and distances
-/

namespace F15
open Spec

set_option linter.unusedSectionVars false
variable {F : Type} [PyFloat F]

/-! ### C27 -/

theorem hemi_lat {c : Char} (h : c ∈ ['N', 'S']) (x : F) : signed (decide ([c] = py! "S")) x = hemi c x := by
  simp only [List.mem_cons, List.not_mem_nil, or_false] at h
  rcases h with rfl | rfl <;> rfl

theorem hemi_lon {c : Char} (h : c ∈ ['E', 'W']) (x : F) : signed (decide ([c] = py! "W")) x = hemi c x := by
  simp only [List.mem_cons, List.not_mem_nil, or_false] at h
  rcases h with rfl | rfl <;> rfl


theorem deg_decoded {u : Str} (h : LatLon 2 3 u) (v : Str) : DegPosition u (latD (F := F) (u ++ v), lonD (F := F) (u ++ v)) := by
  obtain ⟨a, b, x, c, d, e, k, rfl, h1, h2, h3, h4, h5, hh, hk⟩ := latLon23 h
  refine ⟨a, b, x, c, d, e, k, rfl, by simp [h1, h2, h3, h4, h5], hh, hk, ?_⟩
  rw [← hemi_lat hh, ← hemi_lon hk, ← numVal2, ← numVal3]
  have e1 : slice ([a, b, x, c, d, e, k] ++ v) 2 3 = [x] := (slice_nat _ 2 3).trans rfl
  have e2 : slice ([a, b, x, c, d, e, k] ++ v) 0 2 = [a, b] := (slice_nat _ 0 2).trans rfl
  have e3 : slice ([a, b, x, c, d, e, k] ++ v) 6 7 = [k] := (slice_nat _ 6 7).trans rfl
  have e4 : slice ([a, b, x, c, d, e, k] ++ v) 3 6 = [c, d, e] := (slice_nat _ 3 6).trans rfl
  unfold latD lonD
  rw [e1, e2, e3, e4]; rfl

theorem min_decoded {u : Str} (h : LatLon 4 5 u) (v : Str) : MinPosition u (latM (F := F) (u ++ v), lonM (F := F) (u ++ v)) := by
  obtain ⟨a, b, c, d, x, e, f, g, i, j, k, rfl, h1, h2, h3, h4, h5, h6, h7, h8, h9, hh, hk⟩ := latLon45 h
  refine ⟨a, b, c, d, x, e, f, g, i, j, k, rfl, by simp [h1, h2, h3, h4, h5, h6, h7, h8, h9], hh, hk, ?_⟩
  rw [← hemi_lat hh, ← hemi_lon hk, ← numVal2, ← numVal3, ← numVal2, ← numVal2]
  have e1 : slice ([a, b, c, d, x, e, f, g, i, j, k] ++ v) 4 5 = [x] := (slice_nat _ 4 5).trans rfl
  have e2 : slice ([a, b, c, d, x, e, f, g, i, j, k] ++ v) 0 2 = [a, b] := (slice_nat _ 0 2).trans rfl
  have e3 : slice ([a, b, c, d, x, e, f, g, i, j, k] ++ v) 10 11 = [k] := (slice_nat _ 10 11).trans rfl
  have e4 : slice ([a, b, c, d, x, e, f, g, i, j, k] ++ v) 5 8 = [e, f, g] := (slice_nat _ 5 8).trans rfl
  have e5 : slice ([a, b, c, d, x, e, f, g, i, j, k] ++ v) 2 4 = [c, d] := (slice_nat _ 2 4).trans rfl
  have e6 : slice ([a, b, c, d, x, e, f, g, i, j, k] ++ v) 8 10 = [i, j] := (slice_nat _ 8 10).trans rfl
  unfold latM lonM
  rw [e1, e2, e3, e4, e5, e6]; rfl

theorem offset_decoded {v : Str} (h : Digits 6 v) (u : Str) (r : Record F) :
    OffsetPosition v (r.latitude, r.longitude) ((project (u ++ v) r).latitude, (project (u ++ v) r).longitude) := by
  obtain ⟨a, b, c, d, e, f, rfl⟩ : ∃ a b c d e f, v = [a, b, c, d, e, f] := by
    have := h.1
    match v, this with
    | [a, b, c, d, e, f], _ => exact ⟨a, b, c, d, e, f, rfl⟩
  refine ⟨a, b, c, d, e, f, rfl, h.2, ?_⟩
  have e1 : slice (u ++ [a, b, c, d, e, f]) (-6) (-3) = [a, b, c] := by
    unfold slice pyIdx
    simp
    have h1 : ((u.length : Int) + 6 - 6).toNat = u.length := by omega
    have h2 : ((u.length : Int) + 6 - 3).toNat = u.length + 3 := by omega
    have h3 : ((-6 : Int) + (↑u.length + 6)).toNat = u.length := by omega
    have h4 : ((-3 : Int) + (↑u.length + 6)).toNat = u.length + 3 := by omega
    simp_all
    rw [List.take_append, List.take_of_length_le (by omega), List.drop_append, List.drop_of_length_le (Nat.le_refl _)]
    simp
  have e2 : sliceFrom (u ++ [a, b, c, d, e, f]) (-3) = [d, e, f] := by
    unfold sliceFrom pyIdx
    simp
    have h2 : ((u.length : Int) + 6 - 3).toNat = u.length + 3 := by omega
    have h4 : ((-3 : Int) + (↑u.length + 6)).toNat = u.length + 3 := by omega
    simp_all
  unfold project
  rw [e1, e2, numVal3, numVal3]

/-- Where the position of an element comes from. -/
theorem posHead_cases {t : Token} (ht : Typed t) {p : Record F} (hv : p.latLongValid = false) (hn : p.name = t.text)
    (hs : p.sub = t.sub) (hb : p.base = t.base) :
    (isLatLong t.sub ↔ (posHead t p).latLongValid = true) ∧
    ((posHead t p).latLongValid = true → (posHead t p).base = .POINT ∧ DecodedPosition (posHead t p)) := by
  have hsub := c10_point_subtypes t.text
  have key : ∀ u, t.sub = u → u ≠ .UNKNOWN → PointShape t.text → t.base = .POINT := by
    intro u hu hne hp
    have : t.base ≠ .TOO_LONG := by
      intro h
      rcases typed_pair ht with ⟨h1, h2⟩ | ⟨h1, h2⟩ | ⟨r, hr, h1, h2⟩
      · exact hne (hu ▸ h2)
      · exact hne (hu ▸ h2)
      · have := List.all_eq_true.1 table_no_unknown r hr
        rw [h1] at h
        simp [h] at this
    have h2 := (c10_point t.text).2 hp
    rwa [typed_types ht this] at h2
  unfold posHead DecodedPosition isLatLong
  cases hu : t.sub
  case LL_DEG =>
    have h := hsub.1.1 (by rw [typed_sub ht (by rw [hu]; decide), hu])
    refine ⟨by simp [setPos], fun _ => ⟨hb.trans (key _ hu (by decide) (.inr (.inr (.inl h)))), .inl ⟨hs.trans hu, ?_⟩⟩⟩
    have := deg_decoded (F := F) h []
    rw [List.append_nil] at this
    show DegPosition p.name _
    rw [hn]; exact this
  case LL_MIN =>
    have h := hsub.2.1.1 (by rw [typed_sub ht (by rw [hu]; decide), hu])
    refine ⟨by simp [setPos], fun _ => ⟨hb.trans (key _ hu (by decide) (.inr (.inr (.inr (.inl h))))), .inr (.inl ⟨hs.trans hu, ?_⟩)⟩⟩
    have := min_decoded (F := F) h []
    rw [List.append_nil] at this
    show MinPosition p.name _
    rw [hn]; exact this
  case LLBD_DEG =>
    have h := hsub.2.2.1.1 (by rw [typed_sub ht (by rw [hu]; decide), hu])
    refine ⟨by simp [setPos, project], fun _ => ⟨hb.trans (key _ hu (by decide) (.inr (.inr (.inr (.inr (.inl h)))))),
      .inr (.inr (.inl ⟨hs.trans hu, ?_⟩))⟩⟩
    obtain ⟨u, v, he, h1, h2⟩ := h
    refine ⟨u, v, _, hn.trans he, deg_decoded (F := F) h1 v, ?_⟩
    rw [he]
    exact offset_decoded h2 u (setPos (latD (u ++ v)) (lonD (u ++ v)) p)
  case LLBD_MIN =>
    have h := hsub.2.2.2.1.1 (by rw [typed_sub ht (by rw [hu]; decide), hu])
    refine ⟨by simp [setPos, project], fun _ => ⟨hb.trans (key _ hu (by decide) (.inr (.inr (.inr (.inr (.inr h)))))),
      .inr (.inr (.inr ⟨hs.trans hu, ?_⟩))⟩⟩
    obtain ⟨u, v, he, h1, h2⟩ := h
    refine ⟨u, v, _, hn.trans he, min_decoded (F := F) h1 v, ?_⟩
    rw [he]
    exact offset_decoded h2 u (setPos (latM (u ++ v)) (lonM (u ++ v)) p)
  all_goals simp [hv]

/-- A token with a lat/long subtype is a point. -/
theorem latLong_point {t : Token} (ht : Typed t) (h : isLatLong t.sub) : t.base = .POINT := by
  have := posHead_cases (F := Rat) (p := fresh (Record.new [] 0 0 .UNKNOWN .UNKNOWN) t) ht rfl rfl rfl rfl
  have h2 := (this.2 (this.1.1 h)).1
  have : (posHead t (fresh (Record.new [] 0 0 .UNKNOWN .UNKNOWN : Record Rat) t)).base = t.base := by
    unfold posHead; cases t.sub <;> rfl
  rw [← this]; exact h2

/-- What is known about an element recorded by an action. -/
def Placed (T : List Token) (r : Record F) : Prop :=
  (r.latLongValid = true → r.base = .POINT ∧ DecodedPosition r) ∧
  (isLatLong r.sub → r.latLongValid = true ∨
    ∃ pre w t sl sp rest, T = pre ++ w :: t :: sl :: sp :: rest ∧ w.sub = .IFR ∧ r.start = t.start ∧ r.stop = t.stop ∧ r.name = t.text ∧
      sl.base = .SLASH ∧ sp.base = .SPEED_VFR)

theorem placed_core {T : List Token} {r r' : Record F} (h : core r = core r') (hp : Placed T r') : Placed T r := by
  obtain ⟨e4, e7, e8, e2, e3, e1, e5, e6⟩ := core_same h
  unfold Placed DecodedPosition
  rw [e1, e2, e3, e4, e5, e6, e7, e8]
  exact hp

theorem placed_act {T : List Token} (hT : ∀ t ∈ T, Typed t) {a : Act} (hr : a.records = true) (ha : a.tok ∈ T) (hk : a.Kind T)
    (p : Record F) : Placed T (a.newRec p) := by
  have pos : ∀ t ∈ T, ∀ q : Record F, q.latLongValid = false → q.name = t.text → q.sub = t.sub → q.base = t.base →
      Placed T (posHead t q) := by
    intro t ht q h1 h2 h3 h4
    obtain ⟨h5, h6⟩ := posHead_cases (hT t ht) h1 h2 h3 h4
    refine ⟨h6, fun h => .inl (h5.1 ?_)⟩
    have : (posHead t q).sub = q.sub := by unfold posHead; cases t.sub <;> rfl
    rwa [this, h3] at h
  have other : ∀ t ∈ T, t.base ≠ .POINT → ∀ q : Record F, q.latLongValid = false → q.sub = t.sub → Placed T q := by
    intro t ht hb q h1 h2
    exact ⟨by simp [h1], fun h => absurd (latLong_point (hT t ht) (h2 ▸ h)) hb⟩
  cases a with
  | point t => exact pos t ha _ rfl rfl rfl rfl
  | vToI t => exact placed_core (r' := posHead t (fresh p t)) rfl (pos t ha _ rfl rfl rfl rfl)
  | ccPoint t => exact pos t ha _ rfl rfl rfl rfl
  | vToIToV t =>
    obtain ⟨h1, pre, w, sl, sp, rest, h2, hw, h3, h4⟩ := hk
    refine ⟨by simp [Act.newRec, toIfr, fresh, carry, Record.new, Record.setRules], fun _ => .inr ⟨pre, w, t, sl, sp, rest, h2, hw, rfl, rfl, rfl, h3, h4⟩⟩
  | route t => exact other t ha (by rw [hk]; decide) _ rfl rfl
  | plain t => exact other t ha (by intro h; rcases hk with h' | h' | h' | h' | h' <;> rw [h'] at h <;> cases h) _ rfl rfl
  | brk t =>
    have hb : ∀ q : Record F, (brkRules t.sub q).latLongValid = q.latLongValid ∧ (brkRules t.sub q).sub = q.sub := by
      intro q; unfold brkRules; cases t.sub <;> exact ⟨rfl, rfl⟩
    exact other t ha (by rw [hk]; decide) _ (hb _).1 (hb _).2
  | sid t => refine ⟨by simp [Act.newRec, asSid, fresh, carry, Record.new], fun h => ?_⟩; simp [Act.newRec, asSid, isLatLong] at h; split at h <;> simp at h
  | star t => refine ⟨by simp [Act.newRec, asStar, fresh, carry, Record.new], fun h => ?_⟩; simp [Act.newRec, asStar, isLatLong] at h; split at h <;> simp at h
  | vfr t => exact other t ha (by rw [hk]; decide) _ rfl rfl
  | _ => simp [Act.records] at hr

/-- Every element of the final sequence is `Placed`. -/
theorem elements_placed {frames : Nat} {tokens : Tokens} {b : Bool} {e' : Ers F}
    (h : parseF15 frames Ers.new tokens = .ok (b, e')) : ∀ r ∈ e'.elements, Placed (typedTokens tokens) r := by
  have dummy : ∀ (T : List Token) (r : Record F), core r = core (adepRec F) → Placed T r := by
    intro T r h
    exact placed_core h ⟨by simp [adepRec, Record.new], by simp [adepRec, Record.new, isLatLong]⟩
  have dades : ∀ (T : List Token) (x : Str), Placed T (adesRec (F := F) x) := by
    intro T r
    exact ⟨by simp [adesRec, Record.new, Record.setRules], by simp [adesRec, Record.new, isLatLong, Record.setRules]⟩
  rcases parse_cases new_ne h with ⟨_, _, rfl⟩ | ⟨t, rest, e1, htt, hr, _, _, rfl⟩
  · intro r hr
    have hr' : r ∈ [adepRec F, adesRec []] := hr
    have : r = adepRec F ∨ r = adesRec (F := F) [] := by simpa using hr'
    rcases this with rfl | rfl
    · exact dummy _ _ rfl
    · exact dades _ _
  · obtain ⟨as, new, o, h1, h2, h3, h4, _⟩ := run_fresh hr
    obtain ⟨x, h5⟩ := final_elements (t := t) h1
    rw [h5, htt]
    have hT : ∀ t' ∈ t :: rest, Typed t' := by rw [← htt]; exact fun _ h => typed_map h
    intro r hr
    rcases List.mem_cons.1 hr with rfl | hr
    · refine dummy _ _ (Eq.trans ?_ h2); split <;> rfl
    · rcases List.mem_append.1 hr with hr | hr
      · obtain ⟨a, ha, hc⟩ := h3.mem_right (List.mem_reverse.1 hr)
        obtain ⟨k1, k2, k3⟩ := h4 a ha
        exact placed_core (hc.trans (core_newRec a (adepRec F)).symm) (placed_act hT k1 k2 k3 _)
      · rw [List.mem_singleton.1 hr]; exact dades _ _

/-- **C27** The position of every element that has one is what its text says. -/
theorem c27 {frames : Nat} {tokens : Tokens} {b : Bool} {e' : Ers F} (h : parseF15 frames Ers.new tokens = .ok (b, e'))
    {r : Record F} (hr : r ∈ e'.elements) (hv : r.latLongValid = true) : DecodedPosition r :=
  ((elements_placed h r hr).1 hv).2

/-- The four forms of a position occur and are decoded. -/
example : check (py! "N0450F350 50N010W 5030S01015E 50N010E090060 5030N01015W180120")
    (fun b e => b && decide (e.elements.map (fun r => (r.name, r.latLongValid, r.latitude, r.longitude)) =
      [(py! "ADEP", false, 0, 0), (py! "50N010W", true, 50, -10), (py! "5030S01015E", true, -(101 / 2), 41 / 4),
       (py! "50N010E090060", true, 51, 100), (py! "5030N01015W180120", true, 105 / 2, 679 / 4),
       (py! "ADES", false, 0, 0)])) = true := by decide +kernel

/-! ### C28 -/

/-- **C28 (only if)** An element with a position is a point written as latitude and longitude. -/
theorem c28_only_latlong {frames : Nat} {tokens : Tokens} {b : Bool} {e' : Ers F}
    (h : parseF15 frames Ers.new tokens = .ok (b, e')) {r : Record F} (hr : r ∈ e'.elements) (hv : r.latLongValid = true) :
    r.base = .POINT ∧ isLatLong r.sub := by
  obtain ⟨h1, h2⟩ := (elements_placed h r hr).1 hv
  refine ⟨h1, ?_⟩
  unfold DecodedPosition at h2
  unfold isLatLong
  rcases h2 with ⟨h, _⟩ | ⟨h, _⟩ | ⟨h, _⟩ | ⟨h, _⟩
  · exact .inl h
  · exact .inr (.inl h)
  · exact .inr (.inr (.inl h))
  · exact .inr (.inr (.inr h))

/-- **C28 (if, partial)** Every lat/long element has a position, unless its token comes directly after a word IFR and is
directly followed by `/` and a SPEED/VFR. What is missing: the lat/long point at which IFR is joined and left again at once (`c28_false`). -/
theorem c28_partial {frames : Nat} {tokens : Tokens} {b : Bool} {e' : Ers F}
    (h : parseF15 frames Ers.new tokens = .ok (b, e')) {r : Record F} (hr : r ∈ e'.elements) (hl : isLatLong r.sub)
    (hn : ¬ ∃ pre w t sl sp rest, typedTokens tokens = pre ++ w :: t :: sl :: sp :: rest ∧ w.sub = .IFR ∧ r.start = t.start ∧ r.stop = t.stop ∧
      r.name = t.text ∧ sl.base = .SLASH ∧ sp.base = .SPEED_VFR) : r.latLongValid = true := by
  rcases (elements_placed h r hr).2 hl with h | h
  · exact h
  · exact absurd h hn

/-- **C28 (refutation)** In `N0120VFR ABC IFR 50N010E/N0120VFR`, which is accepted, the lat/long element `50N010E` has
no position. -/
theorem c28_false : ∃ s : Str, ∃ e', parseText s = .ok (true, e') ∧
    ∃ r ∈ e'.elements, isLatLong r.sub ∧ r.latLongValid = false := by
  refine ⟨py! "N0120VFR ABC IFR 50N010E/N0120VFR", ?_⟩
  obtain ⟨b, e', h1, h2⟩ := check_ok (s := py! "N0120VFR ABC IFR 50N010E/N0120VFR")
    (p := fun b e => b && e.elements.any fun r => decide (r.sub = .LL_DEG) && !r.latLongValid) (by decide +kernel)
  simp only [Bool.and_eq_true, List.any_eq_true, decide_eq_true_eq, Bool.not_eq_true'] at h2
  obtain ⟨rfl, r, hr, h3, h4⟩ := h2
  exact ⟨e', h1, r, hr, .inl h3, h4⟩

/-! ### C31 -/

/-- **C31** In the final sequence the bearing and distance of every element are those to the next element if both
have a position, otherwise to the one after it if both have a position, and zero otherwise. -/
theorem c31 {frames : Nat} {tokens : Tokens} {b : Bool} {e' : Ers F} (h : parseF15 frames Ers.new tokens = .ok (b, e'))
    {before following : List (Record F)} {r : Record F} (hr : e'.elements = before ++ r :: following) :
    (r.bearing, r.distance) = courseOf r following := by
  have good : Good [] e'.recs := by
    rcases parse_cases new_ne h with ⟨_, _, rfl⟩ | ⟨t, rest, e1, htt, hrun, hne, _, rfl⟩
    · exact Good.push (l := [adepRec F]) rfl rfl (Good.push (l := []) rfl rfl trivial)
    · obtain ⟨ts1, hs⟩ := hrun.start (by simp)
      have g1 : Good [] e1.recs := hs.good new_ne (Good.push (r := adepRec F) (l := []) rfl rfl trivial)
      have g2 : Good [] (post t e1).recs := by
        obtain ⟨l, o, h1⟩ := split_last _ hne
        rw [post_recs t e1 l o h1]
        rw [h1] at g1
        refine Good.congr (n := []) (All2.append (all2_refl l) (.cons ?_ .nil)) .nil g1
        split <;> exact ⟨rfl, rfl, rfl, rfl, rfl⟩
      exact Good.push (r := adesRec _) rfl rfl g2
  have h1 : e'.recs = following.reverse ++ r :: before.reverse := by
    have := congrArg List.reverse hr
    simpa [Ers.elements] using this
  rw [h1] at good
  have := good.at
  simpa using this

/-- Both cases of `courseOf` occur: to the next element, and over the DCT. -/
example : check (py! "N0450F350 50N010E 51N011E DCT 53N013E")
    (fun b e => b && decide (e.elements.map (fun r => (r.name, r.bearing, r.distance)) =
      [(py! "ADEP", 0, 0), (py! "50N010E", 1, 111120), (py! "51N011E", 2, 222240), (py! "DCT", 0, 0),
       (py! "53N013E", 0, 0), (py! "ADES", 0, 0)])) = true := by decide +kernel

/-! ### C32 -/

/-- **C32 (partial)** An element with a bearing or distance has a position, and the bearing and distance are those to
the next element with a position, which is the next element or the one after it. What is missing: that the skipped
element is not itself a point (`c32_false`). -/
theorem c32_partial {frames : Nat} {tokens : Tokens} {b : Bool} {e' : Ers F} (h : parseF15 frames Ers.new tokens = .ok (b, e'))
    {before following : List (Record F)} {r : Record F} (hr : e'.elements = before ++ r :: following)
    (hb : (r.bearing, r.distance) ≠ (fzero, fzero)) :
    r.latLongValid = true ∧ ∃ skipped q rest, following = skipped ++ q :: rest ∧ q.latLongValid = true ∧
      (r.bearing, r.distance) = course r q ∧ skipped.length ≤ 1 ∧ ∀ s ∈ skipped, s.latLongValid = false := by
  have hc := c31 h hr
  have ht : r.latLongValid = true := by
    cases hv : r.latLongValid
    · rw [hc] at hb; unfold courseOf at hb; simp [hv] at hb
    · rfl
  refine ⟨ht, ?_⟩
  cases following with
  | nil => rw [hc] at hb; unfold courseOf at hb; simp at hb
  | cons q rest =>
    cases hq : q.latLongValid with
    | true =>
      refine ⟨[], q, rest, rfl, hq, ?_, by simp, by simp⟩
      rw [hc]; unfold courseOf; simp [ht, hq]
    | false =>
      cases rest with
      | nil => rw [hc] at hb; unfold courseOf at hb; simp [hq] at hb
      | cons q' rest =>
        cases hq' : q'.latLongValid with
        | false => rw [hc] at hb; unfold courseOf at hb; simp [hq, hq'] at hb
        | true =>
          refine ⟨[q], q', rest, rfl, hq', ?_, by simp, by simpa using hq⟩
          rw [hc]; unfold courseOf; simp [ht, hq, hq']

/-- **C32 (refutation)** In `N0450F350 51N010E PNT 52N010E`, which is accepted, the element `51N010E` is followed by the
point `PNT` without coordinates and yet has the bearing and distance to `52N010E`. -/
theorem c32_false : ∃ s : Str, ∃ e', parseText s = .ok (true, e') ∧
    ∃ before r q p rest, e'.elements = before ++ r :: q :: p :: rest ∧ q.base = .POINT ∧ q.latLongValid = false ∧
      (r.bearing, r.distance) = course r p ∧ r.distance ≠ 0 := by
  refine ⟨py! "N0450F350 51N010E PNT 52N010E", ?_⟩
  obtain ⟨b, e', h1, h2⟩ := check_ok (s := py! "N0450F350 51N010E PNT 52N010E")
    (p := fun b e => b && match e.elements with
      | [_, r, q, p, _] => decide (q.base = .POINT) && !q.latLongValid &&
          decide ((r.bearing, r.distance) = course r p) && decide (r.distance ≠ 0)
      | _ => false) (by decide +kernel)
  simp only [Bool.and_eq_true] at h2
  obtain ⟨rfl, h2⟩ := h2
  split at h2
  · rename_i a r q p c he
    simp only [Bool.and_eq_true, decide_eq_true_eq, Bool.not_eq_true'] at h2
    exact ⟨e', h1, [a], r, q, p, [c], he, h2.1.1.1, h2.1.1.2, h2.1.2, h2.2⟩
  · cases h2

end F15
