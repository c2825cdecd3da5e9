import Verif.Theorems.C45
import Verif.Theorems.C87
/-!
# C88: GPX files settle

Saving routes as GPX, loading the file, saving the loaded routes, and so on. Every decoded route is one that a client can
build through the API. The routes loaded from the second file are those loaded from every later one, hence the third
file and all later ones are equal. The second file may still differ from the third: the text `-0.0` is read as a
number, written as `-0`, read as an integer and written as `0`.

Any number type, any text form of floats that reads what it writes, any change of coordinates by gpxgo that does nothing
the second time. That this is so for ten decimals and IEEE doubles is in `C88Double`.
-/

namespace GpsGen
variable {F : Type}

namespace C88
open C21 (ApiTrack ApiRoute GoMap)
open C44 (contents)
open C45

/-! ## Specification -/

/-- What is used of the text forms: coordinates change only once, a float is read as it was written, no text is no float. -/
structure Settling (T : GpxText F) : Prop where
  coord : ∀ x, T.coord (T.coord x) = T.coord x
  float : ∀ x, T.parseFloat (T.showFloat x) = some x
  empty : T.parseFloat "" = none

/-- Saving the routes and loading the file. -/
def reload [GoMath F] (T : GpxText F) (gen : Nat → Nat → String × String) (rs : List (Route F)) : Option (List (Route F)) :=
  match gpxEncode T rs with
  | .error _ => none
  | .ok d => match gpxDecode T gen d with
    | .ok (.ok rs') => some rs'
    | _ => none

/-- The routes after `n` saves and loads. -/
def after [GoMath F] (T : GpxText F) (gen : Nat → Nat → String × String) (rs : List (Route F)) : Nat → Option (List (Route F))
  | 0 => some rs
  | n + 1 => (after T gen rs n).bind (reload T gen)

/-- File number `n`, counting from 0. -/
def file [GoMath F] (T : GpxText F) (gen : Nat → Nat → String × String) (rs : List (Route F)) (n : Nat) : Option (GpxDoc F) :=
  (after T gen rs n).bind fun rs => (gpxEncode T rs).toOption

/-! ## Decoded routes -/

theorem keys_fold {α : Type} (g : α → String × PVal F) (l : List α) (m : PMap F) (h : GoMap m) :
    GoMap (l.foldl (fun m e => m.set (g e).1 (g e).2) m) := by
  induction l generalizing m with
  | nil => exact h
  | cons e l ih => exact ih _ (C87.keys_set _ _ _ h)

theorem keys_makeProps (T : GpxText F) (attrs : Attrs) : GoMap (makeProps T attrs) :=
  keys_fold (fun e : String × String => (e.1, T.value e.2)) attrs PMap.make List.nodup_nil

theorem keys_reset (m : PMap F) (h : GoMap m) : GoMap (gpxResetProps m) := by
  rw [gpxReset_eq]
  exact List.Nodup.sublist ((List.filter_sublist).map _) h

theorem keys_merge (m m' : PMap F) (h : GoMap m) : GoMap (m.merge m') := keys_fold (fun e => e) m' m h

theorem restoreTrack_api [GoMath F] (T : GpxText F) (info : GpxTrackNode) (pts : List (LatLon F)) (t : Track F)
    (h : gpxRestoreTrack T info pts = .ok t) : ApiTrack t := by
  unfold gpxRestoreTrack at h
  obtain ⟨t0, h0, h⟩ := bind_eq_ok h
  have ha := ApiTrack.restore h0
  have hk : GoMap t0.propsOf.2 := by
    have := C21.api_track_keys ha
    unfold Track.propsOf
    cases hp : t0.props with
    | none => exact List.nodup_nil
    | some m => exact this m hp
  have hp := ApiTrack.props _ (keys_merge _ (gpxResetProps (makeProps T info.attrs)) hk) ha
  have h := Except.ok.inj h
  rw [← h]
  split
  · exact .name _ hp
  · exact hp

theorem restoreTracks_api [GoMath F] (T : GpxText F) (root : List GpxRouteNode) (i j : Nat) (segs : List (List (LatLon F)))
    (r r' : Route F) (hr : ApiRoute r) (h : gpxRestoreTracks T root i j segs r = .ok (.ok r')) : ApiRoute r' := by
  induction segs generalizing j r with
  | nil => cases h; exact hr
  | cons pts rest ih =>
    unfold gpxRestoreTracks at h
    obtain ⟨node, -, h⟩ := bind_eq_ok h
    obtain ⟨info, -, h⟩ := bind_eq_ok h
    cases ht : gpxRestoreTrack T info pts with
    | error e => rw [ht] at h; cases h
    | ok t =>
      rw [ht] at h
      exact ih _ _ (.addTrack hr (restoreTrack_api T info pts t ht)) h

theorem restoreRoute_api [GoMath F] (T : GpxText F) (attrs : Attrs) (r : Route F)
    (h : gpxRestoreRoute T attrs = .ok r) : ApiRoute r := by
  unfold gpxRestoreRoute at h
  have hk : GoMap (gpxResetProps (makeProps T attrs)) := keys_reset _ (keys_makeProps T attrs)
  simp only at h
  split at h
  · cases h
  · have h := Except.ok.inj h
    rw [← h]
    have hb := fun id color => ApiRoute.restore id color (some (gpxResetProps (makeProps T attrs)))
      (fun m hm => by cases hm; exact hk)
    split
    · exact .name _ (hb _ _)
    · exact hb _ _

theorem restoreRoutes_api [GoMath F] (T : GpxText F) (root : List GpxRouteNode) (i : Nat)
    (ts : List (List (List (LatLon F)))) (rs : List (Route F)) (h : gpxRestoreRoutes T root i ts = .ok (.ok rs)) :
    ∀ r ∈ rs, ApiRoute r := by
  induction ts generalizing i rs with
  | nil => cases h; simp
  | cons segs rest ih =>
    unfold gpxRestoreRoutes at h
    split at h
    · exact ih _ _ h
    · obtain ⟨info, -, h⟩ := bind_eq_ok h
      cases h1 : gpxRestoreRoute T info.attrs with
      | error e => rw [h1] at h; cases h
      | ok r1 =>
        rw [h1] at h
        obtain ⟨x, h2, h⟩ := bind_eq_ok h
        cases x with
        | error e => cases h
        | ok r2 =>
          obtain ⟨y, h3, h⟩ := bind_eq_ok h
          cases y with
          | error e => cases h
          | ok rs' =>
            cases h
            intro r hr
            rcases List.mem_cons.mp hr with rfl | hr
            · exact restoreTracks_api T root i 0 segs r1 _ (restoreRoute_api T _ _ h1) h2
            · exact ih _ _ h3 r hr

theorem addNew_api [GoMath F] (gen : Nat → String × String) (r r' : Route F) (pts : List (LatLon F)) (hr : ApiRoute r)
    (h : addNewTrack gen r pts = .ok r') : ApiRoute r' := by
  unfold addNewTrack at h
  obtain ⟨t, ht, h⟩ := bind_eq_ok h
  cases h
  exact .addTrack hr (.new ht)

theorem addNews_api [GoMath F] (gen : Nat → String × String) (r r' : Route F) (ls : List (List (LatLon F))) (hr : ApiRoute r)
    (h : addNewTracks gen r ls = .ok r') : ApiRoute r' := by
  induction ls generalizing r with
  | nil => cases h; exact hr
  | cons p ps ih =>
    unfold addNewTracks at h
    obtain ⟨q, hq, h⟩ := bind_eq_ok h
    exact ih q (addNew_api gen r q p hr hq) h

theorem newRoutes_api [GoMath F] (gen : Nat → Nat → String × String) (i : Nat) (ts : List (List (List (LatLon F))))
    (rs : List (Route F)) (h : gpxNewRoutes gen i ts = .ok rs) : ∀ r ∈ rs, ApiRoute r := by
  induction ts generalizing i rs with
  | nil => cases h; simp
  | cons segs rest ih =>
    unfold gpxNewRoutes at h
    obtain ⟨r, h1, h⟩ := bind_eq_ok h
    obtain ⟨rs', h2, h⟩ := bind_eq_ok h
    cases h
    intro q hq
    rcases List.mem_cons.mp hq with rfl | hq
    · exact addNews_api _ _ _ _ (.new _ _) h1
    · exact ih _ _ h2 q hq

/-- **C88, decoded routes.** Whatever the document, every decoded route is one that can be built through the API. -/
theorem decoded_api [GoMath F] (T : GpxText F) (gen : Nat → Nat → String × String) (d : GpxDoc F) (rs : List (Route F))
    (h : gpxDecode T gen d = .ok (.ok rs)) : ∀ r ∈ rs, ApiRoute r := by
  unfold gpxDecode at h
  split at h
  · obtain ⟨x, -, h⟩ := bind_eq_ok h
    cases x with
    | error e => cases h
    | ok u =>
      obtain ⟨root, -, h⟩ := bind_eq_ok h
      exact restoreRoutes_api T _ _ _ _ h
  · have h := Except.ok.inj h
    unfold gpxForeign at h
    obtain ⟨r1, h1, h⟩ := bind_eq_ok h
    obtain ⟨r2, h2, h⟩ := bind_eq_ok h
    have k1 := newRoutes_api gen 0 _ _ h1
    have k2 : ∀ r ∈ r2, ApiRoute r := by
      split at h2
      · exact newRoutes_api gen 0 _ _ h2
      · cases h2; exact k1
    split at h
    · exact newRoutes_api gen 0 _ _ h
    · cases h; exact k2

/-! ## Values and texts -/

/-- A value after it was written and read. -/
def again (T : GpxText F) (v : PVal F) : PVal F := T.value (T.print v)

theorem parse_range {s : String} {i : Int} (h : parseInt64 s = some i) :
    -9223372036854775808 ≤ i ∧ i ≤ 9223372036854775807 := by
  unfold parseInt64 at h
  simp only [Option.bind_eq_some_iff] at h
  obtain ⟨j, -, h⟩ := h
  split at h
  · cases h; assumption
  · cases h

theorem value_cases (T : GpxText F) (s : String) :
    (∃ i, T.value s = .int64 i ∧ parseInt64 s = some i) ∨ (∃ b, T.value s = .bool b) ∨
      (∃ f, T.value s = .float f ∧ T.parseFloat s = some f) ∨ T.value s = .str s := by
  unfold GpxText.value
  cases h1 : parseInt64 s with
  | some i => exact Or.inl ⟨i, rfl, rfl⟩
  | none => cases h2 : parseBool s with
    | some b => exact Or.inr (Or.inl ⟨b, rfl⟩)
    | none => cases h3 : T.parseFloat s with
      | some f => exact Or.inr (Or.inr (Or.inl ⟨f, rfl, rfl⟩))
      | none => exact Or.inr (Or.inr (Or.inr rfl))

/-- A value that was read stays as it is, or is a float. -/
theorem again_value (T : GpxText F) (s : String) : again T (T.value s) = T.value s ∨ ∃ f, T.value s = .float f := by
  rcases value_cases T s with ⟨i, h, hi⟩ | ⟨b, h⟩ | ⟨f, h, -⟩ | h
  · left
    obtain ⟨l, u⟩ := parse_range hi
    rw [h]
    exact int64_stable T i l u
  · left
    rw [h]
    exact bool_stable T b
  · exact Or.inr ⟨f, h⟩
  · left
    rw [h]
    exact h

/-- Values are stable after the second time. -/
theorem again_twice (T : GpxText F) (hT : Settling T) (v : PVal F) :
    again T (again T (again T v)) = again T (again T v) := by
  have h1 : again T v = T.value (T.print v) := rfl
  rcases again_value T (T.print v) with h | ⟨f, h⟩
  · rw [h1, h, h]
  · rw [h1, h]
    have h2 : again T (.float f) = T.value (T.showFloat f) := rfl
    rcases again_value T (T.showFloat f) with h3 | ⟨g, h3⟩
    · rw [h2, h3]
    · have h4 : g = f := by
        rcases value_cases T (T.showFloat f) with ⟨i, e, -⟩ | ⟨b, e⟩ | ⟨k, e, hk⟩ | e
        · rw [h3] at e; cases e
        · rw [h3] at e; cases e
        · rw [h3] at e
          cases e
          rw [hT.float] at hk
          exact (Option.some.inj hk).symm
        · rw [h3] at e; cases e
      rw [h2, h3, h4, h2, h3, h4]

theorem asText_empty (T : GpxText F) (hT : Settling T) : asText T "" = "" := by
  have h1 : parseInt64 "" = none := by decide
  have h2 : parseBool "" = none := by decide
  simp [asText, GpxText.value, h1, h2, hT.empty]

theorem asText_again (T : GpxText F) (hT : Settling T) (s : String) : asText T (asText T s) = asText T s := by
  rcases asText_cases T s with h | h
  · rw [h, h]
  · rw [h, asText_empty T hT]

/-! ## Tracks and routes -/

theorem points_back [GoMath F] (T : GpxText F) (hT : Settling T) (t : Track F) (ht : FromPoints t) :
    gpxPoints T (backVia T t) = gpxPoints T t := by
  have h := points_make _ _ _ (rebuilt_eq T t ht)
  have h2 : Track.points (backVia T t).segments = gpxPoints T t := h
  rw [gpxPoints, h2]
  simp [gpxPoints, hT.coord]

theorem track_settles [GoMath F] (T : GpxText F) (hT : Settling T) (t : Track F) (ht : FromPoints t) :
    backVia T (backVia T t) = backVia T t := by
  have hp := points_back T hT t ht
  have hr : rebuilt T (backVia T t) = rebuilt T t := by unfold rebuilt; rw [hp]
  have hn : asText T (backVia T t).name = asText T t.name := asText_again T hT _
  have hc : asText T (backVia T t).color = asText T t.color := asText_again T hT _
  show ({ back T (backVia T t) with
    segments := (rebuilt T (backVia T t)).1, dist := (rebuilt T (backVia T t)).2,
    isClosed := isClosedPts (gpxPoints T (backVia T t)) } : Track F) = _
  rw [hr, hp]
  unfold back
  rw [hn, hc]
  rfl

theorem whole_fields [GoMath F] (T : GpxText F) (r : Route F) (hn : NameOk r.name) :
    (whole T r).id = r.id ∧ (whole T r).color = asText T r.color ∧ (whole T r).name = asText T r.name ∧
      contents (whole T r).props = (contents r.props).map (fun e => (e.1, again T e.2)) ∧
      (whole T r).tracks = r.tracks.map (backVia T) := by
  obtain ⟨q1, q2, q3, q4, q5⟩ := bare_fields T r hn
  obtain ⟨a1, a2, a3, a4, a5⟩ := C44.add_tracks (backVia T) r.tracks (bare T r)
  refine ⟨a1.trans q1, a2.trans q2, a3.trans q3, ?_, ?_⟩
  · have : (whole T r).props = _ := a4.trans q4
    rw [this]
    rfl
  · refine a5.trans ?_
    rw [q5, List.nil_append]

theorem bare_eq [GoMath F] (T : GpxText F) (r r' : Route F) (h1 : r'.id = r.id) (h2 : asText T r'.color = asText T r.color)
    (h3 : asText T r'.name = asText T r.name)
    (h4 : (contents r'.props).map (fun e => (e.1, again T e.2)) = (contents r.props).map (fun e => (e.1, again T e.2))) :
    bare T r' = bare T r := by
  have h4' : (contents r'.props).map (fun e => (e.1, T.value (T.print e.2))) =
      (contents r.props).map (fun e => (e.1, T.value (T.print e.2))) := h4
  unfold bare
  rw [h1, h2, h3, h4']

/-- A route is stable after the second time. -/
theorem route_settles [GoMath F] (T : GpxText F) (hT : Settling T) (r : Route F) (hr : ApiRoute r) :
    whole T (whole T (whole T r)) = whole T (whole T r) := by
  have hn := (C21.api_route hr).1
  obtain ⟨a1, a2, a3, a4, a5⟩ := whole_fields T r hn
  have hn1 : NameOk (whole T r).name := by rw [a3]; exact nameOk_asText T _ hn
  obtain ⟨b1, b2, b3, b4, b5⟩ := whole_fields T (whole T r) hn1
  have hb : bare T (whole T (whole T r)) = bare T (whole T r) := by
    refine bare_eq T _ _ b1 (by rw [b2, asText_again T hT]) (by rw [b3, asText_again T hT]) ?_
    rw [b4, a4]
    simp only [List.map_map]
    apply List.map_congr_left
    intro e _
    simp only [Function.comp, again_twice T hT]
  have hts : (whole T (whole T r)).tracks = (whole T r).tracks := by
    rw [b5, a5, List.map_map]
    apply List.map_congr_left
    intro t ht
    exact track_settles T hT t (api_from_points (C44.api_tracks hr t ht))
  show (whole T (whole T r)).tracks.foldl _ (bare T (whole T (whole T r))) = _
  rw [hb, hts]
  rfl

theorem filter_all {α : Type} (p : α → Bool) (l : List α) (h : ∀ a ∈ l, p a = true) : l.filter p = l :=
  List.filter_eq_self.mpr h

/-- Routes that can be saved and loaded. -/
def Fine [GoMath F] (T : GpxText F) (r : Route F) : Prop := ApiRoute r ∧ Plain T r ∧ r.tracks ≠ []

theorem reload_eq [GoMath F] (T : GpxText F) (gen : Nat → Nat → String × String) (rs : List (Route F)) (hne : rs ≠ [])
    (hr : ∀ r ∈ rs, ApiRoute r ∧ Plain T r) :
    reload T gen rs = some ((rs.filter fun r => !r.tracks.isEmpty).map (whole T)) := by
  obtain ⟨d, h1, h2⟩ := decode_encode T gen rs hne hr
  simp only [reload, h1, h2]

theorem whole_fine [GoMath F] (T : GpxText F) (gen : Nat → Nat → String × String) (r : Route F) (h : Fine T r) :
    Fine T (whole T r) := by
  obtain ⟨ha, hp, ht⟩ := h
  obtain ⟨a1, a2, a3, a4, a5⟩ := whole_fields T r (C21.api_route ha).1
  refine ⟨?_, ⟨?_, ?_, ?_⟩, ?_⟩
  · obtain ⟨d, h1, h2⟩ := decode_encode T gen [r] (by simp) (by simpa using ⟨ha, hp⟩)
    refine decoded_api T gen d _ h2 _ ?_
    rw [List.filter_cons_of_pos (by simpa using ht)]
    simp
  · unfold TextStable
    rw [a1]
    exact hp.id
  · rw [a4]
    intro e he
    obtain ⟨x, hx, rfl⟩ := List.mem_map.mp he
    exact hp.reserved x hx
  · rw [a5]
    intro t ht'
    obtain ⟨x, hx, rfl⟩ := List.mem_map.mp ht'
    exact hp.tracks x hx
  · rw [a5]
    simpa using ht

/-- After the first time, loading is a function of every route. -/
theorem reload_map [GoMath F] (T : GpxText F) (gen : Nat → Nat → String × String) (rs : List (Route F)) (hne : rs ≠ [])
    (hr : ∀ r ∈ rs, Fine T r) : reload T gen rs = some (rs.map (whole T)) := by
  rw [reload_eq T gen rs hne fun r h => ⟨(hr r h).1, (hr r h).2.1⟩, filter_all]
  intro r h
  simpa using (hr r h).2.2

theorem after_two [GoMath F] (T : GpxText F) (hT : Settling T) (gen : Nat → Nat → String × String) (rs : List (Route F))
    (hne : ∃ r ∈ rs, r.tracks ≠ []) (hr : ∀ r ∈ rs, ApiRoute r ∧ Plain T r) (n : Nat) :
    after T gen rs (n + 2) = some ((rs.filter fun r => !r.tracks.isEmpty).map fun r => whole T (whole T r)) := by
  obtain ⟨r0, hr0, ht0⟩ := hne
  have h0 : rs ≠ [] := by rintro rfl; cases hr0
  have hmem : ∀ r ∈ rs.filter (fun r => !r.tracks.isEmpty), Fine T r := fun r h =>
    ⟨(hr r (List.mem_filter.mp h).1).1, (hr r (List.mem_filter.mp h).1).2, by simpa using (List.mem_filter.mp h).2⟩
  have hl : (rs.filter fun r => !r.tracks.isEmpty) ≠ [] :=
    List.ne_nil_of_mem (List.mem_filter.mpr ⟨hr0, by simpa using ht0⟩)
  have h1 : after T gen rs 1 = some ((rs.filter fun r => !r.tracks.isEmpty).map (whole T)) :=
    (reload_eq T gen rs h0 hr)
  have hf1 : ∀ r ∈ (rs.filter fun r => !r.tracks.isEmpty).map (whole T), Fine T r := by
    intro r h
    obtain ⟨x, hx, rfl⟩ := List.mem_map.mp h
    exact whole_fine T gen x (hmem x hx)
  have hf2 : ∀ r ∈ (rs.filter fun r => !r.tracks.isEmpty).map (fun r => whole T (whole T r)), Fine T r := by
    intro r h
    obtain ⟨x, hx, rfl⟩ := List.mem_map.mp h
    exact whole_fine T gen _ (whole_fine T gen x (hmem x hx))
  induction n with
  | zero =>
    show (after T gen rs 1).bind (reload T gen) = _
    rw [h1, Option.bind_some, reload_map T gen _ (by simpa using hl) hf1, List.map_map]
    rfl
  | succ n ih =>
    show (after T gen rs (n + 2)).bind (reload T gen) = _
    rw [ih, Option.bind_some, reload_map T gen _ (by simpa using hl) hf2, List.map_map]
    congr 1
    apply List.map_congr_left
    intro r h
    exact route_settles T hT r (hmem r h).1

/-- **C88, routes.** Saving and loading twice gives routes that saving and loading leaves as they are. -/
theorem routes_settle [GoMath F] (T : GpxText F) (hT : Settling T) (gen : Nat → Nat → String × String) (rs : List (Route F))
    (hne : ∃ r ∈ rs, r.tracks ≠ []) (hr : ∀ r ∈ rs, ApiRoute r ∧ Plain T r) :
    ∃ rs', rs' ≠ [] ∧ ∀ n ≥ 2, after T gen rs n = some rs' := by
  refine ⟨(rs.filter fun r => !r.tracks.isEmpty).map fun r => whole T (whole T r), ?_, fun n hn => ?_⟩
  · obtain ⟨r0, hr0, ht0⟩ := hne
    exact List.ne_nil_of_mem (List.mem_map_of_mem (List.mem_filter.mpr ⟨hr0, by simpa using ht0⟩))
  · obtain ⟨k, rfl⟩ : ∃ k, n = k + 2 := ⟨n - 2, by omega⟩
    exact after_two T hT gen rs hne hr k

theorem encode_some (T : GpxText F) (rs : List (Route F)) (h : rs ≠ []) : ∃ d, gpxEncode T rs = .ok d := by
  have hl : ¬ rs.length = 0 := fun hc => h (List.length_eq_zero_iff.mp hc)
  simp only [gpxEncode, if_neg hl]
  exact ⟨_, rfl⟩

/-- **C88, files.** The third file and all later ones are equal. -/
theorem files_settle [GoMath F] (T : GpxText F) (hT : Settling T) (gen : Nat → Nat → String × String) (rs : List (Route F))
    (hne : ∃ r ∈ rs, r.tracks ≠ []) (hr : ∀ r ∈ rs, ApiRoute r ∧ Plain T r) :
    ∃ d, ∀ n ≥ 2, file T gen rs n = some d := by
  obtain ⟨rs', h0, h⟩ := routes_settle T hT gen rs hne hr
  obtain ⟨d, hd⟩ := encode_some T rs' h0
  refine ⟨d, fun n hn => ?_⟩
  rw [file, h n hn, Option.bind_some, hd]
  rfl

/-! ## The second file -/

theorem add_dist [GoFloat F] (f : Track F → Track F) (ts : List (Track F)) (r : Route F)
    (h : r.dist = r.tracks.foldl (fun d t => d +. t.dist) (lit 0)) :
    let r' := ts.foldl (fun r t => r.addTrack (some (f t))) r
    r'.dist = r'.tracks.foldl (fun d t => d +. t.dist) (lit 0) := by
  induction ts generalizing r with
  | nil => exact h
  | cons t ts ih => exact ih _ rfl

theorem whole_dist [GoMath F] (T : GpxText F) (r : Route F) :
    (whole T r).dist = (whole T r).tracks.foldl (fun d t => d +. t.dist) (lit 0) := by
  refine add_dist (backVia T) r.tracks (bare T r) ?_
  unfold bare
  simp only
  split
  · unfold Route.changeName
    split <;> rfl
  · rfl

theorem node_settles [GoMath F] (T : GpxText F) (hT : Settling T) (r : Route F) (hr : ApiRoute r)
    (hv : ∀ e ∈ contents r.props, T.print (again T (again T e.2)) = T.print (again T e.2)) :
    gpxRouteNode T (whole T (whole T r)) = gpxRouteNode T (whole T r) ∧
      (whole T (whole T r)).tracks = (whole T r).tracks := by
  have hn := (C21.api_route hr).1
  obtain ⟨a1, a2, a3, a4, a5⟩ := whole_fields T r hn
  have hn1 : NameOk (whole T r).name := by rw [a3]; exact nameOk_asText T _ hn
  obtain ⟨b1, b2, b3, b4, b5⟩ := whole_fields T (whole T r) hn1
  have hts : (whole T (whole T r)).tracks = (whole T r).tracks := by
    rw [b5, a5, List.map_map]
    apply List.map_congr_left
    intro t ht
    exact track_settles T hT t (api_from_points (C44.api_tracks hr t ht))
  refine ⟨?_, hts⟩
  have hd : (whole T (whole T r)).dist = (whole T r).dist := by rw [whole_dist, hts, ← whole_dist]
  have hp : makeAttrs T (whole T (whole T r)).propsOf.2 = makeAttrs T (whole T r).propsOf.2 := by
    rw [C44.contents_route, C44.contents_route, b4, a4]
    simp only [makeAttrs, List.map_map]
    apply List.map_congr_left
    intro e he
    simp only [Function.comp, hv e he]
  unfold gpxRouteNode
  rw [hts, hd, hp, b1, b2, b3, a2, a3, asText_again T hT, asText_again T hT]

/-- The full claim about the second file: it equals the third. -/
def Claim [GoMath F] (T : GpxText F) : Prop := ∀ (gen : Nat → Nat → String × String) (rs : List (Route F)),
  (∃ r ∈ rs, r.tracks ≠ []) → (∀ r ∈ rs, ApiRoute r ∧ Plain T r) → file T gen rs 1 = file T gen rs 2

/-- **C88, second file.** The second file equals the third if the text of every route property is stable after the first
time. -/
theorem second_file_partial [GoMath F] (T : GpxText F) (hT : Settling T) (gen : Nat → Nat → String × String)
    (rs : List (Route F)) (hne : ∃ r ∈ rs, r.tracks ≠ []) (hr : ∀ r ∈ rs, ApiRoute r ∧ Plain T r)
    (hv : ∀ r ∈ rs, ∀ e ∈ contents r.props, T.print (again T (again T e.2)) = T.print (again T e.2)) :
    file T gen rs 1 = file T gen rs 2 := by
  have h2 := after_two T hT gen rs hne hr 0
  obtain ⟨r0, hr0, ht0⟩ := hne
  have h0 : rs ≠ [] := by rintro rfl; cases hr0
  have hl : (rs.filter fun r => !r.tracks.isEmpty) ≠ [] :=
    List.ne_nil_of_mem (List.mem_filter.mpr ⟨hr0, by simpa using ht0⟩)
  have h1 : after T gen rs 1 = some ((rs.filter fun r => !r.tracks.isEmpty).map (whole T)) :=
    (reload_eq T gen rs h0 hr)
  rw [file, file, h1, h2, Option.bind_some, Option.bind_some]
  have hmem : ∀ r ∈ rs.filter (fun r => !r.tracks.isEmpty), gpxRouteNode T (whole T (whole T r)) = gpxRouteNode T (whole T r) ∧
      (whole T (whole T r)).tracks = (whole T r).tracks := fun r h =>
    node_settles T hT r (hr r (List.mem_filter.mp h).1).1 (hv r (List.mem_filter.mp h).1)
  generalize (rs.filter fun r => !r.tracks.isEmpty) = l at hl hmem
  have hl1 : ¬ (l.map (whole T)).length = 0 := by simpa using hl
  have hl2 : ¬ (l.map fun r => whole T (whole T r)).length = 0 := by simpa using hl
  have e1 : (l.map fun r => whole T (whole T r)).map (fun r => r.tracks.map (gpxPoints T)) =
      (l.map (whole T)).map fun r => r.tracks.map (gpxPoints T) := by
    rw [List.map_map, List.map_map]
    apply List.map_congr_left
    intro r h
    simp only [Function.comp, (hmem r h).2]
  have e2 : (l.map fun r => whole T (whole T r)).map (gpxRouteNode T) = (l.map (whole T)).map (gpxRouteNode T) := by
    rw [List.map_map, List.map_map]
    apply List.map_congr_left
    intro r h
    exact (hmem r h).1
  simp only [gpxEncode, if_neg hl1, if_neg hl2, e1, e2]

/-- **C88, negative zero.** A route property with the text `-0.0` makes the second and the third file differ, if the
text is read as a number that is written as `-0`, as Go does. -/
theorem negative_zero [GoMath F] (T : GpxText F) (z : F) (h1 : T.parseFloat "-0.0" = some z) (h2 : T.showFloat z = "-0")
    (hb : TextStable T "r") (a b : LatLon F) : ¬ Claim T := by
  intro hc
  obtain ⟨t, ht⟩ : ∃ t, Track.new "t" "" [a, b] = .ok t := ⟨_, rfl⟩
  have hid : t.id = "t" := by cases ht; rfl
  let r : Route F := (Route.restore "r" "" (some [("k", .str "-0.0")])).addTrack (some t)
  have hapi : ApiRoute r := .addTrack (.restore _ _ _ (by intro m hm; cases hm; simp [GoMap])) (.new ht)
  have hpl : Plain T r := by
    refine ⟨hb, ?_, ?_⟩
    · intro e he
      have : e = ("k", .str "-0.0") := by simpa [r, contents, Route.restore, Route.addTrack, Route.updateState] using he
      rw [this]
      simp [Reserved]
    · intro x hx
      have : x = t := by simpa [r, Route.restore, Route.addTrack, Route.updateState] using hx
      rw [this, hid]
      decide
  have hne : r.tracks ≠ [] := by simp [r, Route.addTrack, Route.updateState]
  have h := hc (fun _ _ => ("", "")) [r] ⟨r, by simp, hne⟩ (by simpa using ⟨hapi, hpl⟩)
  have hfine : Fine T r := ⟨hapi, hpl, hne⟩
  have hf1 := whole_fine T (fun _ _ => ("", "")) r hfine
  have e1 : after T (fun _ _ => ("", "")) [r] 1 = some [whole T r] :=
    reload_map T _ [r] (by simp) (by simpa using hfine)
  have e2 : after T (fun _ _ => ("", "")) [r] 2 = some [whole T (whole T r)] := by
    show (after T (fun _ _ => ("", "")) [r] 1).bind _ = _
    rw [e1, Option.bind_some]
    exact reload_map T _ [whole T r] (by simp) (by simpa using hf1)
  rw [file, file, e1, e2, Option.bind_some, Option.bind_some] at h
  have hn := (C21.api_route hapi).1
  obtain ⟨a1, a2, a3, a4, a5⟩ := whole_fields T r hn
  have hn1 : NameOk (whole T r).name := by rw [a3]; exact nameOk_asText T _ hn
  obtain ⟨b1, b2, b3, b4, b5⟩ := whole_fields T (whole T r) hn1
  have p1 : contents r.props = [("k", .str "-0.0")] := rfl
  have v1 : again T (.str "-0.0") = .float z := by
    have i1 : parseInt64 "-0.0" = none := by decide
    have i2 : parseBool "-0.0" = none := by decide
    simp [again, GpxText.print, GpxText.value, i1, i2, h1]
  have v2 : again T (.float z) = .int64 0 := by
    have i1 : parseInt64 "-0" = some 0 := by decide
    simp [again, GpxText.print, GpxText.value, i1, h2]
  have q1 : contents (whole T r).props = [("k", .float z)] := by
    rw [a4, p1, List.map_cons, List.map_nil, v1]
  have q2 : contents (whole T (whole T r)).props = [("k", .int64 0)] := by
    rw [b4, q1, List.map_cons, List.map_nil, v2]
  have hd : ∀ q : Route F, (gpxEncode T [q]).toOption =
      some ⟨[], [q.tracks.map (gpxPoints T)], [], [("gpsgen", [gpxRouteNode T q])]⟩ := fun _ => rfl
  rw [hd, hd] at h
  have h := congrArg (fun d : Option (GpxDoc F) => d.map fun d => d.ext.map fun e => e.2.map fun n => n.attrs.getLast?) h
  have hl : ∀ q : Route F, ∀ k v, contents q.props = [(k, v)] → (gpxRouteNode T q).attrs.getLast? = some (k, T.print v) := by
    intro q k v hq
    unfold gpxRouteNode
    rw [C44.contents_route, hq]
    rfl
  simp only [Option.map_some, List.map_cons, List.map_nil, hl _ _ _ q1, hl _ _ _ q2] at h
  have h3 : T.print (.int64 0 : PVal F) = "0" := by
    show showInt 0 = "0"
    decide
  have h4 : T.print (.float z) = "-0" := h2
  rw [h3, h4] at h
  exact absurd h (by decide)

/-! ## Example -/

/-- Text forms for `Toy`: the only float, `-0`, can be written in two ways; coordinates become 1. -/
def text : GpxText Toy :=
  ⟨fun s => if s = "-0" ∨ s = "-0.0" then some (lit 0) else none, fun _ => "-0", fun _ => "d", fun _ => "y", fun _ => lit 1⟩

/-- A route whose name is lost and whose coordinates and properties change. -/
def sample : Route Toy :=
  { C44.sample2 with name := "12345", props := some [("a", .str "-0.0"), ("b", .int 7), ("c", .str "true")] }

/-- The properties after the `n`-th loading. -/
def shown (n : Nat) : List (String × PVal Toy) :=
  ((after text (fun _ _ => ("", "")) [sample] n).getD []).flatMap fun r => contents r.props

/-- The names after the `n`-th loading. -/
def names (n : Nat) : List String := ((after text (fun _ _ => ("", "")) [sample] n).getD []).map (·.name)

/-- The points after the `n`-th loading. -/
def points (n : Nat) : List (List (List (LatLon Toy))) :=
  ((after text (fun _ _ => ("", "")) [sample] n).getD []).map fun r => r.tracks.map fun t => Track.points t.segments

example : shown 0 = [("a", .str "-0.0"), ("b", .int 7), ("c", .str "true")] ∧
    shown 1 = [("a", .float (lit 0)), ("b", .int64 7), ("c", .bool true)] ∧
    shown 2 = [("a", .int64 0), ("b", .int64 7), ("c", .bool true)] ∧ shown 3 = shown 2 := by
  decide +kernel

example : names 0 = ["12345"] ∧ names 1 = [""] ∧ names 2 = [""] := by decide +kernel

example : points 1 = [[[⟨lit 1, lit 1⟩, ⟨lit 1, lit 1⟩, ⟨lit 1, lit 1⟩],
      [⟨lit 1, lit 1⟩, ⟨lit 1, lit 1⟩, ⟨lit 1, lit 1⟩, ⟨lit 1, lit 1⟩]]] ∧ points 0 ≠ points 1 ∧ points 2 = points 1 := by
  decide +kernel

example : file text (fun _ _ => ("", "")) [sample] 0 ≠ file text (fun _ _ => ("", "")) [sample] 1 ∧
    file text (fun _ _ => ("", "")) [sample] 1 ≠ file text (fun _ _ => ("", "")) [sample] 2 ∧
    file text (fun _ _ => ("", "")) [sample] 2 = file text (fun _ _ => ("", "")) [sample] 3 ∧
    (file text (fun _ _ => ("", "")) [sample] 3).isSome = true := by
  decide +kernel

end C88
end GpsGen
