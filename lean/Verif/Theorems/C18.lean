import Verif.Lemmas.Jump
import Verif.Lemmas.WellFormed
import Verif.Lemmas.Demo
import Verif.Theorems.C07
/-!
# C18: `DestinationTo`

Exact arithmetic. The full property fails: the code accumulates the loop counter instead of
assigning it (`routeIndex += i`), so the cursor is wrong from the third route or track on
(`third_route_wrong`), and a distance beyond the end places the device at the *start* of the last
route (`beyond_end_at_start`, `beyond_end_fails`).
-/

namespace GpsGen

namespace C18
open Navigator

/-- Specification. Position `x` along the concatenation of all routes lies in segment `k` of track
`j` of route `i`; `off` is where that segment begins. -/
structure At (routes : List (Route ℝ)) (x : ℝ) (i j k : ℕ) (r : Route ℝ) (t : Track ℝ)
    (s : Segment ℝ) (off : ℝ) : Prop where
  route : routes[i]? = some r
  track : r.tracks[j]? = some t
  seg : t.segments[k]? = some s
  offset : off = psum (·.dist) routes i + psum (·.dist) r.tracks j + psum (·.dist) t.segments k
  lower : off ≤ x
  upper : x < off + s.dist

/-- The triangular number computed by adding the loop counter up. -/
def tri (m : ℕ) : ℤ := (m * (m + 1) / 2 : ℕ)

/-- Sum of the loop counters `i, i+1, …, i+m`. -/
def accum : ℤ → ℕ → ℤ
  | i, 0 => i
  | i, m + 1 => i + accum (i + 1) m

theorem two_accum (i : ℤ) (m : ℕ) : 2 * accum i m = (m + 1) * (2 * i + m) := by
  induction m generalizing i with
  | zero => simp [accum]
  | succ m ih => rw [accum, mul_add, ih]; push_cast; ring

theorem accum_zero (m : ℕ) : accum 0 m = tri m := by
  have h := two_accum 0 m
  have h2 : 2 * tri m = m * (m + 1) := by
    unfold tri
    have := Nat.div_mul_cancel (Nat.even_mul_succ_self m).two_dvd
    have e : 2 * (m * (m + 1) / 2) = m * (m + 1) := by omega
    exact_mod_cast e
  have : (m + 1 : ℤ) * (2 * 0 + m) = m * (m + 1) := by ring
  omega

theorem jumpRoutes_spec (d : ℝ) (rs : List (Route ℝ)) (i ri : ℤ) (rd : ℝ) (last : Option (Route ℝ))
    (hnn : ∀ r ∈ rs, 0 ≤ r.dist) (h1 : rd ≤ d) (h2 : d < rd + (rs.map (·.dist)).sum) :
    ∃ m r, rs[m]? = some r ∧ rd + psum (·.dist) rs m ≤ d ∧ d < rd + psum (·.dist) rs m + r.dist ∧
      jumpRoutes d i ri rd last rs = (some r, ri + accum i m, rd + psum (·.dist) rs m) := by
  induction rs generalizing i ri rd last with
  | nil => simp at h2; linarith
  | cons r rs ih =>
    unfold jumpRoutes
    by_cases hc : d < r.dist + rd
    · refine ⟨0, r, rfl, by simpa using h1, by simp; linarith, ?_⟩
      simp [hc, accum]
    · simp only [real_lt, real_add, hc, decide_false, Bool.false_eq_true, if_false]
      simp only [List.map_cons, List.sum_cons] at h2
      obtain ⟨m, q, hq, ha, hb, he⟩ := ih (i + 1) (ri + i) (rd + r.dist) (some r)
        (fun q hq => hnn q (by simp [hq])) (by linarith) (by linarith)
      refine ⟨m + 1, q, by simpa using hq, ?_, ?_, ?_⟩
      · rw [psum_cons]; linarith
      · rw [psum_cons]; linarith
      · rw [he, psum_cons]
        simp only [accum, Prod.mk.injEq, true_and]
        exact ⟨by ring, by ring⟩

theorem jumpTracks_spec (d : ℝ) (ts : List (Track ℝ)) (i ti : ℤ) (rd crd : ℝ)
    (last : Option (Track ℝ)) (h1 : rd ≤ d) (h2 : d < rd + (ts.map (·.dist)).sum) :
    ∃ m t, ts[m]? = some t ∧ rd + psum (·.dist) ts m ≤ d ∧ d < rd + psum (·.dist) ts m + t.dist ∧
      jumpTracks d i ti rd crd last ts =
        (some t, ti + accum i m, rd + psum (·.dist) ts m, crd + psum (·.dist) ts m) := by
  induction ts generalizing i ti rd crd last with
  | nil => simp at h2; linarith
  | cons t ts ih =>
    unfold jumpTracks
    by_cases hc : d < t.dist + rd
    · refine ⟨0, t, rfl, by simpa using h1, by simp; linarith, ?_⟩
      simp [hc, accum]
    · simp only [real_lt, real_add, hc, decide_false, Bool.false_eq_true, if_false]
      simp only [List.map_cons, List.sum_cons] at h2
      obtain ⟨m, q, hq, ha, hb, he⟩ := ih (i + 1) (ti + i) (rd + t.dist) (crd + t.dist) (some t)
        (by linarith) (by linarith)
      refine ⟨m + 1, q, by simpa using hq, ?_, ?_, ?_⟩
      · rw [psum_cons]; linarith
      · rw [psum_cons]; linarith
      · rw [he, psum_cons]
        simp only [accum, Prod.mk.injEq, true_and]
        exact ⟨by ring, by ring, by ring⟩

theorem jumpSegments_spec (d : ℝ) (ss : List (Segment ℝ)) (i si : ℤ) (rd crd ctd : ℝ)
    (last : Segment ℝ) (h1 : rd ≤ d) (h2 : d < rd + (ss.map (·.dist)).sum) :
    ∃ m s, ss[m]? = some s ∧ rd + psum (·.dist) ss m ≤ d ∧ d < rd + psum (·.dist) ss m + s.dist ∧
      jumpSegments d i si rd crd ctd last ss =
        (s, i + m, rd + psum (·.dist) ss m, crd + psum (·.dist) ss m, ctd + psum (·.dist) ss m) := by
  induction ss generalizing i si rd crd ctd last with
  | nil => simp at h2; linarith
  | cons s ss ih =>
    unfold jumpSegments
    simp only [List.map_cons, List.sum_cons] at h2
    by_cases he : s.isEmpty = true
    · have h0 : s.dist = 0 := by simpa [Segment.isEmpty] using he
      obtain ⟨m, q, hq, ha, hb, hj⟩ := ih (i + 1) si rd crd ctd s h1 (by linarith)
      refine ⟨m + 1, q, by simpa using hq, ?_, ?_, ?_⟩
      · rw [psum_cons]; linarith
      · rw [psum_cons]; linarith
      · rw [if_pos he, hj, psum_cons, h0]
        simp only [Prod.mk.injEq, true_and]
        exact ⟨by push_cast; ring, by ring, by ring, by ring⟩
    · rw [if_neg he]
      by_cases hc : d < s.dist + rd
      · refine ⟨0, s, rfl, by simpa using h1, by simp; linarith, ?_⟩
        simp [hc]
      · simp only [real_lt, real_add, hc, decide_false, Bool.false_eq_true, if_false]
        obtain ⟨m, q, hq, ha, hb, hj⟩ := ih (i + 1) i (rd + s.dist) (crd + s.dist) (ctd + s.dist) s
          (by linarith) (by linarith)
        refine ⟨m + 1, q, by simpa using hq, ?_, ?_, ?_⟩
        · rw [psum_cons]; linarith
        · rw [psum_cons]; linarith
        · rw [hj, psum_cons]
          simp only [Prod.mk.injEq, true_and]
          exact ⟨by push_cast; ring, by ring, by ring, by ring⟩

/-- Well-formed routes and an up-to-date total. -/
structure Sound (n : Navigator ℝ) : Prop where
  wf : ∀ r ∈ n.routes, WFRoute r
  sync : n.distance = (n.routes.map (·.dist)).sum

/-- **C18, what is computed.** For `1 ≤ x < Distance()` the jump succeeds. With `(i, j, k)` the
segment that contains position `x`: the location, the distances and the segment index are right, but
the route index is `0+1+…+i` and the track index `0+1+…+j`. -/
theorem destinationTo_exact (n : Navigator ℝ) (hs : Sound n) (x : ℝ) (h1 : 1 ≤ x)
    (h2 : x < n.distance) :
    ∃ i j k r t s off, At n.routes x i j k r t s off ∧
      n.destinationTo x = ({ n with
        point := s.destinationTo (x - off), routeIndex := tri i, trackIndex := tri j
        segmentIndex := k, currentSegmentDistance := x - off, currentDistance := x
        currentRouteDistance := x - psum (·.dist) n.routes i
        currentTrackDistance := x - psum (·.dist) n.routes i - psum (·.dist) r.tracks j }, true) := by
  rw [hs.sync] at h2
  obtain ⟨i, r, hr, ha, hb, e1⟩ := jumpRoutes_spec x n.routes 0 0 0 none
    (fun r hr => wf_route_nonneg (hs.wf r hr)) (by linarith) (by linarith)
  have hwr := hs.wf r (List.mem_of_getElem? hr)
  obtain ⟨j, t, ht, hc, hd, e2⟩ := jumpTracks_spec x r.tracks 0 0 (0 + psum (·.dist) n.routes i) 0 none
    ha (by rw [← hwr.2]; exact hb)
  have hwt := hwr.1 t (List.mem_of_getElem? ht)
  obtain ⟨k, s, hk, he, hf, e3⟩ := jumpSegments_spec x t.segments 0 0
    (0 + psum (·.dist) n.routes i + psum (·.dist) r.tracks j) (0 + psum (·.dist) r.tracks j) 0
    Segment.zero hc (by rw [← hwt.2]; exact hd)
  have hne : s.isEmpty = false := by
    have : 0 < s.dist := by linarith
    simp [Segment.isEmpty]; linarith
  refine ⟨i, j, k, r, t, s, psum (·.dist) n.routes i + psum (·.dist) r.tracks j +
    psum (·.dist) t.segments k, ⟨hr, ht, hk, rfl, by linarith, by linarith⟩, ?_⟩
  have hx : ¬ (n.distance < x) := by rw [hs.sync]; linarith
  have hx1 : ¬ (x < 1) := by linarith
  have habs : |x - (0 + psum (·.dist) n.routes i + psum (·.dist) r.tracks j +
      psum (·.dist) t.segments k)| =
      x - (psum (·.dist) n.routes i + psum (·.dist) r.tracks j + psum (·.dist) t.segments k) := by
    rw [abs_of_nonneg (by linarith)]; ring
  simp only [zero_add] at e1 e2 e3 habs
  unfold destinationTo
  simp only [real_lt, hx, decide_false, Bool.false_eq_true, if_false, real_lit, Rat.cast_one, hx1,
    Rat.cast_zero, e1, e2, e3, hne, real_abs, real_sub, real_add, habs, accum_zero]
  congr 2
  · ring
  · ring
  · ring

/-- **C18 (partial).** With at most two routes of at most two tracks each the property holds for
`1 ≤ x < Distance()`: the jump succeeds, `CurrentDistance()` is `x`, and the cursor addresses the
route, track and segment that contain position `x`, with the location at the remaining distance along
that segment. Missing for the full property: more routes or tracks, and distances beyond the end. -/
theorem destinationTo_partial (n : Navigator ℝ) (hs : Sound n) (x : ℝ) (h1 : 1 ≤ x)
    (h2 : x < n.distance) (hr2 : n.routes.length ≤ 2) (ht2 : ∀ r ∈ n.routes, r.tracks.length ≤ 2) :
    ∃ n' i j k r t s off, n.destinationTo x = (n', true) ∧ At n.routes x i j k r t s off ∧
      n'.routeIndex = i ∧ n'.trackIndex = j ∧ n'.segmentIndex = k ∧
      n'.currentDistance = x ∧ n'.currentSegmentDistance = x - off ∧
      n'.point = destination s.pointA.lat s.pointA.lon (x - off) s.bearing := by
  obtain ⟨i, j, k, r, t, s, off, hat, he⟩ := destinationTo_exact n hs x h1 h2
  have hi : i < 2 := by have := (List.getElem?_eq_some_iff.mp hat.route).1; omega
  have hj : j < 2 := by
    have := (List.getElem?_eq_some_iff.mp hat.track).1
    have := ht2 r (List.mem_of_getElem? hat.route)
    omega
  refine ⟨_, i, j, k, r, t, s, off, he, hat, ?_, ?_, rfl, rfl, rfl, rfl⟩
  · have : i = 0 ∨ i = 1 := by omega
    rcases this with rfl | rfl <;> rfl
  · have : j = 0 ∨ j = 1 := by omega
    rcases this with rfl | rfl <;> rfl

/-- **C18, distances are right for any number of routes.** -/
theorem destinationTo_distance (n : Navigator ℝ) (hs : Sound n) (x : ℝ) (h1 : 1 ≤ x)
    (h2 : x < n.distance) :
    (n.destinationTo x).2 = true ∧ (n.destinationTo x).1.currentDistance = x := by
  obtain ⟨_, _, _, _, _, _, _, -, he⟩ := destinationTo_exact n hs x h1 h2
  rw [he]; exact ⟨rfl, rfl⟩

/-- Distances below 1 m are refused. -/
theorem destinationTo_short (n : Navigator ℝ) (x : ℝ) (h : x < 1) :
    n.destinationTo x = (n, false) := by
  unfold destinationTo
  have h' : (if n.distance < x then n.distance else x) < 1 := by split <;> linarith
  simp only [real_lt, decide_eq_true_eq, real_lit, Rat.cast_one]
  rw [if_pos h']

/-- The cursor is right exactly for the first two routes. -/
theorem tri_eq_iff (m : ℕ) : tri m = m ↔ m ≤ 1 := by
  have h2 : 2 * tri m = m * (m + 1) := by
    unfold tri
    have := Nat.div_mul_cancel (Nat.even_mul_succ_self m).two_dvd
    have e : 2 * (m * (m + 1) / 2) = m * (m + 1) := by omega
    exact_mod_cast e
  constructor
  · intro h
    rw [h] at h2
    have h3 : (m : ℤ) * (m - 1) = 0 := by linarith
    rcases mul_eq_zero.mp h3 with h | h <;> omega
  · intro h
    have : m = 0 ∨ m = 1 := by omega
    rcases this with rfl | rfl <;> rfl

/-- **The full property fails (1).** Whenever position `x` lies in the third or a later route, the
route index is wrong. -/
theorem third_route_wrong (n : Navigator ℝ) (hs : Sound n) (x : ℝ) (h1 : 1 ≤ x)
    (h2 : x < n.distance) (hx : psum (·.dist) n.routes 2 ≤ x) :
    ∃ i j k r t s off, At n.routes x i j k r t s off ∧ (n.destinationTo x).1.routeIndex ≠ i := by
  obtain ⟨i, j, k, r, t, s, off, hat, he⟩ := destinationTo_exact n hs x h1 h2
  refine ⟨i, j, k, r, t, s, off, hat, ?_⟩
  rw [he]
  simp only
  rw [Ne, tri_eq_iff]
  intro hi
  have hnn : ∀ r ∈ n.routes, 0 ≤ r.dist := fun r hr => wf_route_nonneg (hs.wf r hr)
  have hm := psum_mono (fun r : Route ℝ => r.dist) n.routes hnn (show i + 1 ≤ 2 by omega)
  rw [psum_succ _ _ _ _ hat.route] at hm
  have hwr := hs.wf r (List.mem_of_getElem? hat.route)
  have hwt := hwr.1 t (List.mem_of_getElem? hat.track)
  have g1 := psum_le_sum (fun t : Track ℝ => t.dist) r.tracks
    (fun t ht => wf_track_nonneg (hwr.1 t ht)) (j + 1)
  rw [psum_succ _ _ _ _ hat.track, ← hwr.2] at g1
  have g2 := psum_le_sum (fun s : Segment ℝ => s.dist) t.segments hwt.1 (k + 1)
  rw [psum_succ _ _ _ _ hat.seg, ← hwt.2] at g2
  have := hat.upper
  rw [hat.offset] at this
  linarith

/-- The hypothesis is satisfiable: three routes of one degree, position two and a half. -/
theorem third_route_witness : Sound C07.threeNav ∧
    psum (·.dist) C07.threeNav.routes 2 ≤ 5 / 2 * degLen ∧ 5 / 2 * degLen < C07.threeNav.distance := by
  have hd := degLen_gt
  have hw : ∀ (id tid c : String) (a b : ℝ), |b - a| ≤ 180 → WFRoute (eqRoute id tid c a b) := by
    intro id tid c a b h
    have := new_wf tid c _ _ (Or.inl (eqTrack_new tid c a b h))
    exact ⟨by simpa [eqRoute] using this, by simp [eqRoute, eqTrack]⟩
  have h5 : |(2:ℝ) - 1| = 1 := by norm_num
  have h6 : |(3:ℝ) - 2| = 1 := by norm_num
  refine ⟨⟨?_, ?_⟩, ?_, ?_⟩
  · intro r hr
    simp only [C07.threeNav, C07.three, List.mem_cons, List.not_mem_nil, or_false] at hr
    rcases hr with rfl | rfl | rfl <;> exact hw _ _ _ _ _ (by norm_num)
  · simp [C07.threeNav, C07.three, eqRoute, h5, h6]; ring
  · simp [C07.threeNav, C07.three, eqRoute, h5, psum]; linarith
  · simp only [C07.threeNav]; linarith

theorem jumpRoutes_end (d : ℝ) (rs : List (Route ℝ)) (i ri : ℤ) (rd : ℝ) (last : Option (Route ℝ))
    (hnn : ∀ r ∈ rs, 0 ≤ r.dist) (h2 : d = rd + (rs.map (·.dist)).sum) :
    (jumpRoutes d i ri rd last rs).2.2 = d := by
  induction rs generalizing i ri rd last with
  | nil => simp [jumpRoutes]; simp at h2; linarith
  | cons r rs ih =>
    unfold jumpRoutes
    simp only [List.map_cons, List.sum_cons] at h2
    have hs : 0 ≤ (rs.map (·.dist)).sum := by
      rw [← psum_all _ _ (le_refl _)]
      exact psum_nonneg _ _ (fun q hq => hnn q (by simp [hq])) _
    have hc : ¬ d < r.dist + rd := by linarith
    simp only [real_lt, real_add, hc, decide_false, Bool.false_eq_true, if_false]
    exact ih _ _ _ _ (fun q hq => hnn q (by simp [hq])) (by linarith)

theorem jumpTracks_stay (d : ℝ) (ts : List (Track ℝ)) (i ti : ℤ) (crd : ℝ) (last : Option (Track ℝ))
    (hnn : ∀ t ∈ ts, 0 ≤ t.dist) :
    (jumpTracks d i ti d crd last ts).2.2.1 = d ∧ (jumpTracks d i ti d crd last ts).2.2.2 = crd := by
  induction ts generalizing i ti last with
  | nil => exact ⟨rfl, rfl⟩
  | cons t ts ih =>
    unfold jumpTracks
    by_cases hc : d < t.dist + d
    · simp [hc]
    · have h0 : t.dist = 0 := by have := hnn t (by simp); linarith
      simp only [real_lt, real_add, h0, zero_add, add_zero, lt_irrefl, decide_false, Bool.false_eq_true, if_false]
      exact ih _ _ _ (fun q hq => hnn q (by simp [hq]))

theorem jumpSegments_stay (d : ℝ) (ss : List (Segment ℝ)) (i si : ℤ) (crd ctd : ℝ) (last : Segment ℝ)
    (hnn : ∀ s ∈ ss, 0 ≤ s.dist) :
    (jumpSegments d i si d crd ctd last ss).2.2 = (d, crd, ctd) := by
  induction ss generalizing i si last with
  | nil => rfl
  | cons s ss ih =>
    unfold jumpSegments
    by_cases he : s.isEmpty = true
    · rw [if_pos he]; exact ih _ _ _ (fun q hq => hnn q (by simp [hq]))
    · rw [if_neg he]
      have h0 : s.dist ≠ 0 := by simpa [Segment.isEmpty] using he
      have hp : 0 < s.dist := lt_of_le_of_ne (hnn s (by simp)) (Ne.symm h0)
      have hc : d < s.dist + d := by linarith
      simp [hc]

theorem jumpRoutes_mem (d : ℝ) (rs : List (Route ℝ)) (i ri : ℤ) (rd : ℝ) (last : Option (Route ℝ))
    (r : Route ℝ) (h : (jumpRoutes d i ri rd last rs).1 = some r) : last = some r ∨ r ∈ rs := by
  induction rs generalizing i ri rd last with
  | nil => exact Or.inl h
  | cons q rs ih =>
    unfold jumpRoutes at h
    split at h
    · cases h; exact Or.inr (by simp)
    · rcases ih _ _ _ _ h with h | h
      · cases h; exact Or.inr (by simp)
      · exact Or.inr (by simp [h])

theorem jumpTracks_mem (d : ℝ) (ts : List (Track ℝ)) (i ti : ℤ) (rd crd : ℝ)
    (last : Option (Track ℝ)) (t : Track ℝ) (h : (jumpTracks d i ti rd crd last ts).1 = some t) :
    last = some t ∨ t ∈ ts := by
  induction ts generalizing i ti rd crd last with
  | nil => exact Or.inl h
  | cons q ts ih =>
    unfold jumpTracks at h
    split at h
    · cases h; exact Or.inr (by simp)
    · rcases ih _ _ _ _ _ h with h | h
      · cases h; exact Or.inr (by simp)
      · exact Or.inr (by simp [h])

/-- **The full property fails (2).** For `x ≥ Distance()`, a successful jump sets `CurrentDistance()`
to the total but leaves the device at the *start* of a segment, with nothing travelled in the current
track and route. -/
theorem beyond_end_at_start (n : Navigator ℝ) (hs : Sound n) (x : ℝ) (hx : n.distance ≤ x)
    (n' : Navigator ℝ) (h : n.destinationTo x = (n', true)) :
    n'.currentDistance = n.distance ∧ n'.currentSegmentDistance = 0 ∧
    n'.currentTrackDistance = 0 ∧ n'.currentRouteDistance = 0 := by
  have hj : n.jumpDist x = n.distance := by
    unfold jumpDist
    simp only [real_lt, decide_eq_true_eq]
    split
    · rfl
    · linarith
  rcases destinationTo_cases n x with h' | ⟨r, ri, rd, t, ti, rd2, crd, s, si, rd3, crd3, ctd, hd, e1, e2, e3,
      -, h'⟩
  · rw [h'] at h; cases h
  rw [h'] at h
  cases h
  rw [hj] at *
  have hz : (lit 0 : ℝ) = 0 := by simp
  rw [hz] at e1 e2 e3
  have hrd : rd = n.distance := by
    have := jumpRoutes_end n.distance n.routes 0 0 0 none
      (fun r hr => wf_route_nonneg (hs.wf r hr)) (by rw [hs.sync]; ring)
    rw [e1] at this; exact this
  subst hrd
  have hr : r ∈ n.routes := by
    rcases jumpRoutes_mem _ _ _ _ _ _ r (by rw [e1]) with h | h
    · cases h
    · exact h
  have ht : t ∈ r.tracks := by
    rcases jumpTracks_mem _ _ _ _ _ _ _ t (by rw [e2]) with h | h
    · cases h
    · exact h
  have hwr := hs.wf r hr
  have g := jumpTracks_stay n.distance r.tracks 0 0 0 none (fun t ht => wf_track_nonneg (hwr.1 t ht))
  rw [e2] at g
  obtain ⟨g1, g2⟩ := g
  simp only at g1 g2
  subst g1 g2
  have g' := jumpSegments_stay n.distance t.segments 0 0 0 0 Segment.zero (hwr.1 t ht).1
  rw [e3] at g'
  simp only [Prod.mk.injEq] at g'
  obtain ⟨rfl, rfl, rfl⟩ := g'
  simp [jumped]

/-- The one-degree route: jumping to its end succeeds and leaves the device at its start. -/
theorem beyond_end_fails :
    ∃ n', (oneNav true).destinationTo degLen = (n', true) ∧ n'.currentSegmentDistance = 0 ∧
      n'.currentDistance = degLen ∧ n'.point = (eqSeg 0 1 0 (-1)).destinationTo 0 := by
  have hd := degLen_gt
  have h1 : ¬ degLen < 1 := by linarith
  have h2 : degLen < degLen + degLen := by linarith
  simp [destinationTo, oneNav, freshNav, jumpRoutes, oneRoute, eqRoute, h1, h2,
      jumpTracks, eqTrack, jumpSegments, oneSeg_nonempty, show (eqSeg 0 1 0 (-1)).dist = degLen by simp [eqSeg]]

/-- Non-vacuity of the partial theorem: half a degree along the one-degree route. -/
example : ∃ n', (oneNav true).destinationTo (degLen / 2) = (n', true) ∧
    n'.routeIndex = 0 ∧ n'.trackIndex = 0 ∧ n'.segmentIndex = 0 ∧ n'.currentDistance = degLen / 2 := by
  have hd := degLen_gt
  have h1 : ¬ degLen / 2 < 1 := by linarith
  have h2 : ¬ degLen < degLen / 2 := by linarith
  have h3 : degLen / 2 < degLen := by linarith
  have h4 : |degLen / 2| = degLen / 2 := abs_of_pos (by linarith)
  simp [destinationTo, oneNav, freshNav, jumpRoutes, oneRoute, eqRoute, h1, h2, h3, h4,
      jumpTracks, eqTrack, jumpSegments, oneSeg_nonempty, show (eqSeg 0 1 0 (-1)).dist = degLen by simp [eqSeg]]

end C18
end GpsGen
