import Verif.Model.Readme
import Verif.Theorems.C40
import Verif.Theorems.C78
import Verif.Theorems.C79
import Verif.Theorems.C97Real
/-!
# C101: the program of the README

Exact arithmetic; every schedule, every ticker and all random draws, apart from draws for a route that are far too large
or all the same. A thousand trackers are created and attached, each state of each tracker is delivered once, every tracker
is seen completing laps for ever, nothing panics, and after `Close` the call of `Run` returns. From 2053 trackers on `Run`
may hang.
-/

namespace GpsGen
namespace C101
open Run Readme C40 C41 Device Navigator

/-! ## Specification -/

/-- What the generators of package math/rand deliver for a track, apart from sixteen uniform draws of exactly zero,
exponential draws above 1000 and exponential draws that all agree. -/
structure Ordinary (t : TrackRnd ℝ) : Prop where
  draws : C78.Draws t
  small : ∀ j, t.e j ≤ 1000
  differ : ∃ j < 15, t.e j ≠ t.e (j + 1)

/-- What is drawn for a tracker. -/
structure Usual (x : Draw ℝ) : Prop where
  speed : UnitDraws x.device.speedDraws
  elevation : UnitDraws x.device.elevationDraws
  name : C50.NameOk x.name
  tracks : ∀ i, Ordinary (x.tracks i)

/-- The times the ticker delivers in the first `m` rounds. -/
def times (t : ℕ → Int) (m : ℕ) : List Int := (List.range m).map t

/-- The generator is open and between two rounds. -/
def Between {F : Type} (L : Live F) : Prop := L.gs.closed = false ∧ L.gs.run = .idle

/-- The schedule neither attaches nor detaches devices. -/
def Quiet (as : List Act) : Prop := ∀ a ∈ as, (∀ p, a ≠ .attach p) ∧ ∀ i, a ≠ .detach i

/-- After `Close`: a bounded number of steps whatever the schedule, and `Run` has returned when none is possible. -/
def Stops (c : Cfg) (devs : List Nat) : Prop :=
  ∀ as s, Quiet as → exec c (GS.init c devs) as = some s → s.closed = true →
    ∃ bound, ∀ bs s', Quiet bs → exec c s bs = some s' →
      bs.countP Act.internal ≤ bound ∧ (CanStep c s' ∨ s'.returned = true)

/-- What the program is for, with `n` trackers in `w`. -/
structure Works (c : Cfg) (n : ℕ) (w : World ℝ) : Prop where
  /-- all trackers are attached -/
  attached : w.gens 0 = List.range n
  /-- each with one route of three tracks -/
  routes : ∀ p < n, ∃ r, (w.devs p).navigator.routes = [r] ∧ r.tracks.length = 3
  /-- no tracker panics -/
  calm : ∀ rnd start L a t gs, C79.Runs c rnd (w.gens 0) w.devs start L → fire c L.gs a = some gs →
    ∃ L', L.step c rnd a t = some L'
  /-- between rounds the packet callback has got one state of each tracker per round -/
  seen : ∀ rnd start L, C79.Runs c rnd (w.gens 0) w.devs start L → Between L → ∀ p < n,
    (C79.received L p).length = L.rounds.length ∧ ∀ y ∈ C79.received L p, y.isSome = true
  /-- again and again a tracker completes a lap and is seen with the clock of the lap at zero -/
  laps : ∀ rnd start (t : ℕ → Int), (∀ p k, C95.UnitRnd (rnd p k)) →
    (∀ k, (tickOf (C97.before start t k) (t k) : ℝ) ≤ 479) → ∀ p < n, ∀ K, ∃ k, K ≤ k ∧
      C97.Lap (w.devs p) start t (fun i => rnd p (i + 1)) k ∧
      ∀ L m, C79.Runs c rnd (w.gens 0) w.devs start L → Between L → L.rounds = times t m → k < m →
        ∃ st, (C79.received L p)[k]? = some (some st) ∧ st.duration = 0
  /-- after `Close` the program ends -/
  stops : Stops c (w.gens 0)

/-- The full claim: with any number of trackers. -/
def Claim : Prop := ∀ (xs : List (Draw ℝ)) (d : Device ℝ) (cpus : Int), (∀ x ∈ xs, Usual x) →
  ∃ w, populate xs 0 (blank d) = some w ∧ Works (config cpus) xs.length w

/-! ## Routes with a length -/

theorem distance_pos {a b c d : ℝ} (ha : |a| < 90) (hc : |c| < 90) (hl : |d - b| < 360) (h : a ≠ c ∨ b ≠ d) :
    0 < distance a b c d := by
  have hπ := Real.pi_pos
  obtain ⟨a1, a2⟩ := abs_lt.mp ha
  obtain ⟨c1, c2⟩ := abs_lt.mp hc
  obtain ⟨l1, l2⟩ := abs_lt.mp hl
  simp only [distance, distanceFromHaversine, haversine, earthRadius, radians, real_add, real_sub, real_mul, real_div,
    real_lit, real_asin, real_sqrt, real_sin, real_cos]
  push_cast
  have hpi : (GoMath.pi : ℝ) = Real.pi := by simp
  rw [hpi]
  set s1 := Real.sin ((c * (Real.pi / 180) - a * (Real.pi / 180)) / 2) with e1
  set s2 := Real.sin ((d * (Real.pi / 180) - b * (Real.pi / 180)) / 2) with e2
  have k1 : 0 < Real.cos (a * (Real.pi / 180)) := Real.cos_pos_of_mem_Ioo ⟨by nlinarith, by nlinarith⟩
  have k2 : 0 < Real.cos (c * (Real.pi / 180)) := Real.cos_pos_of_mem_Ioo ⟨by nlinarith, by nlinarith⟩
  have key : ∀ x : ℝ, -360 < x → x < 360 → x ≠ 0 → Real.sin (x * (Real.pi / 180) / 2) ≠ 0 := by
    intro x x1 x2 x0 hs
    rcases lt_or_gt_of_ne x0 with hx | hx
    · exact (Real.sin_neg_of_neg_of_neg_pi_lt (x := x * (Real.pi / 180) / 2) (by nlinarith) (by nlinarith)).ne hs
    · exact (Real.sin_pos_of_pos_of_lt_pi (x := x * (Real.pi / 180) / 2) (by nlinarith) (by nlinarith)).ne' hs
  have hh : 0 < s1 * s1 + Real.cos (a * (Real.pi / 180)) * Real.cos (c * (Real.pi / 180)) * s2 * s2 := by
    have hcc := mul_pos k1 k2
    rcases h with h | h
    · have : s1 ≠ 0 := by
        rw [e1, show (c * (Real.pi / 180) - a * (Real.pi / 180)) / 2 = (c - a) * (Real.pi / 180) / 2 by ring]
        exact key _ (by linarith) (by linarith) (sub_ne_zero.mpr (Ne.symm h))
      have := mul_self_pos.mpr this
      have := mul_nonneg hcc.le (mul_self_nonneg s2)
      nlinarith
    · have : s2 ≠ 0 := by
        rw [e2, show (d * (Real.pi / 180) - b * (Real.pi / 180)) / 2 = (d - b) * (Real.pi / 180) / 2 by ring]
        exact key _ l1 l2 (sub_ne_zero.mpr (Ne.symm h))
      have := mul_pos hcc (mul_self_pos.mpr this)
      nlinarith [mul_self_nonneg s1]
  have := Real.arcsin_pos.mpr (Real.sqrt_pos.mpr hh)
  positivity

/-- A track made of points has a length if two consecutive points are apart. -/
theorem track_pos {uid color : String} {pts : List (LatLon ℝ)} {t : Track ℝ} (h : Track.new uid color pts = .ok t) {j : ℕ}
    {a b : LatLon ℝ} (ha : pts[j]? = some a) (hb : pts[j + 1]? = some b) (hd : 0 < distance a.lat a.lon b.lat b.lon) :
    0 < t.dist := by
  obtain ⟨h1, h2⟩ := new_wf uid color pts t (Or.inl h)
  have hlen : 2 ≤ pts.length := by
    have := (List.getElem?_eq_some_iff.mp hb).1
    omega
  obtain ⟨t', e, -, -, hp, -⟩ := (C01.newTrack_polyline uid color pts).1 hlen
  rw [h] at e
  cases e
  have hj : j < t.segments.length := by
    have := (List.getElem?_eq_some_iff.mp hb).1
    have := hp.length
    omega
  have hs := List.getElem?_eq_getElem hj
  have hm : t.segments[j] ∈ t.segments := List.getElem_mem hj
  obtain ⟨g1, g2, -⟩ := hp.edge j _ hs
  rw [ha] at g1
  rw [hb] at g2
  have hdist := (hp.measure _ hm).1
  rw [← Option.some.inj g1, ← Option.some.inj g2] at hdist
  rw [h2]
  have := List.single_le_sum (l := t.segments.map (·.dist)) (by
    intro x hx
    obtain ⟨s, hs, rfl⟩ := List.mem_map.mp hx
    exact h1 s hs) _ (List.mem_map_of_mem hm)
  rw [hdist] at this
  exact lt_of_lt_of_le hd this

theorem randomTrack_new {la lo z : ℝ} {x : TrackRnd ℝ} {t : Track ℝ} (h : randomTrack la lo z x = .ok t) :
    ∃ pts t0, Track.new x.uid x.color pts = .ok t0 ∧ t.segments = t0.segments ∧ t.dist = t0.dist := by
  unfold randomTrack at h
  obtain ⟨raw, -, h⟩ := bind_eq_ok h
  cases e : Track.new x.uid x.color (normalizeCoordinates la lo raw) with
  | error _ => simp only [e] at h; cases h
  | ok t0 =>
    simp only [e] at h
    obtain ⟨nm, -, h⟩ := bind_eq_ok h
    cases h
    refine ⟨_, t0, e, ?_, ?_⟩ <;> (unfold Track.changeName; split <;> rfl)

theorem lat_eq : (lat : ℝ) = 5575350460378772 / 10 ^ 14 := by simp [lat]
theorem lon_eq : (lon : ℝ) = 37625616307117696 / 10 ^ 15 := by simp [lon]

theorem randomTracks_wf {la lo z : ℝ} {rnd : ℕ → TrackRnd ℝ} {n : ℕ} {r r' : Route ℝ} (hr : WFRoute r)
    (h : randomTracks la lo z rnd n r = .ok r') : WFRoute r' := by
  induction n generalizing r with
  | zero => cases h; exact hr
  | succ n ih =>
    unfold randomTracks at h
    obtain ⟨t, ht, h⟩ := bind_eq_ok h
    refine ih (route_apply_wf r (.addTrack (some t)) ?_ hr) h
    rintro _ ⟨⟩
    obtain ⟨pts, t0, e, e1, e2⟩ := randomTrack_new ht
    have := new_wf _ _ _ _ (Or.inl e)
    unfold WFTrack
    rw [e1, e2]
    exact this

/-- Random routes are well formed. -/
theorem random_wf {lo la : ℝ} {n l : Int} {uid color : String} {name : ℕ → ℕ} {rnd : ℕ → TrackRnd ℝ} {r : Route ℝ}
    (h : randomRoute lo la n l uid color name rnd = .ok r) : WFRoute r := by
  unfold randomRoute at h
  obtain ⟨s, -, h⟩ := bind_eq_ok h
  refine randomTracks_wf ?_ h
  exact route_apply_wf _ (.changeName ("Route-" ++ s)) nofun (by simp [WFRoute, Route.new])

/-- A random route around a place that its corners do not leave by more than `ρ` degrees is well formed and has a length. -/
theorem random_pos {lo la ρ : ℝ} {n l : Int} {uid color : String} {name : ℕ → ℕ} {rnd : ℕ → TrackRnd ℝ} (hn : 0 < C50.tracksOf n)
    (hl : 0 < C50.levelOf l) (hname : C50.NameOk name) (hd : ∀ i, C78.Draws (rnd i))
    (hdiff : ∀ i, ∃ j < 15, (rnd i).e j ≠ (rnd i).e (j + 1))
    (hρ : ∀ i k, C78.radius (C50.levelOf l : Int) ((rnd i).e k) ≤ ρ) (hla : |la| + ρ < 90) (hlo : |lo| + ρ < 180) :
    ∃ r, randomRoute lo la n l uid color name rnd = .ok r ∧ r.tracks.length = C50.tracksOf n ∧ WFRoute r ∧ 0 < r.dist := by
  have hnm := fun i => (hd i).name
  obtain ⟨r, s, h, hlen, -, -, -, -, htr⟩ := C50.route_tracks lo la n l uid color name rnd hname hnm
  have hw := random_wf h
  refine ⟨r, h, hlen, hw, ?_⟩
  have h3 : 0 < r.tracks.length := by rw [hlen]; exact hn
  have ht := List.getElem?_eq_getElem h3
  obtain ⟨pts, t0, e, e1, e2⟩ := randomTrack_new (htr 0 _ ht)
  have hc := C78.track_corners lo la n l uid color name rnd hname hnm r h 0 _ ht
  have hl2 : 2 ≤ pts.length := by
    by_contra hl
    rw [(C01.newTrack_polyline _ _ pts).2 (by omega)] at e
    cases e
  obtain ⟨t', e', -, -, -, hp⟩ := (C01.newTrack_polyline _ _ pts).1 hl2
  rw [e] at e'
  cases e'
  rw [e1, hp] at hc
  have hlr : (0 : ℝ) < ((C50.levelOf l : Int) : ℝ) := by exact_mod_cast hl
  generalize ((C50.levelOf l : Int) : ℝ) = ℓ at *
  generalize hy : rnd (C50.tracksOf n - 1 - 0) = y at *
  have hyd : C78.Draws y := hy ▸ hd _
  have hyρ : ∀ k, C78.radius ℓ (y.e k) ≤ ρ := hy ▸ hρ _
  obtain ⟨j, hj, hne⟩ : ∃ j < 15, y.e j ≠ y.e (j + 1) := hy ▸ hdiff _
  set P : ℕ → LatLon ℝ := fun k => C78.polar ⟨la, lo⟩ (C78.radius ℓ (y.e k)) (C78.angle y.u k) with hP
  have hget : ∀ k < 16, pts[k]? = some (P k) := by
    intro k hk
    rw [hc, List.getElem?_map, List.getElem?_append_left (by simpa using hk), List.getElem?_range hk]
    rfl
  have near : ∀ k, |(P k).lat| < 90 ∧ |(P k).lon| < 180 := by
    intro k
    have h0 := hyd.exponential k
    have r0 : 0 ≤ C78.radius ℓ (y.e k) := by unfold C78.radius; positivity
    have r1 := hyρ k
    have s1 := Real.neg_one_le_sin (C78.angle y.u k)
    have s2 := Real.sin_le_one (C78.angle y.u k)
    have s3 := Real.neg_one_le_cos (C78.angle y.u k)
    have s4 := Real.cos_le_one (C78.angle y.u k)
    have a1 := neg_abs_le la
    have a2 := le_abs_self la
    have a3 := neg_abs_le lo
    have a4 := le_abs_self lo
    simp only [hP, C78.polar, abs_lt]
    refine ⟨⟨?_, ?_⟩, ?_, ?_⟩ <;> nlinarith
  have hdist : 0 < distance (P j).lat (P j).lon (P (j + 1)).lat (P (j + 1)).lon := by
    obtain ⟨n1, n2⟩ := near j
    obtain ⟨m1, m2⟩ := near (j + 1)
    refine distance_pos n1 m1 ?_ ?_
    · obtain ⟨u1, u2⟩ := abs_lt.mp n2
      obtain ⟨v1, v2⟩ := abs_lt.mp m2
      rw [abs_lt]
      constructor <;> linarith
    · by_contra hcon
      push Not at hcon
      have d1 := C78.polar_distance ⟨la, lo⟩ (C78.radius ℓ (y.e j)) (C78.angle y.u j)
      have d2 := C78.polar_distance ⟨la, lo⟩ (C78.radius ℓ (y.e (j + 1))) (C78.angle y.u (j + 1))
      have hh : C78.radius ℓ (y.e j) ^ 2 = C78.radius ℓ (y.e (j + 1)) ^ 2 := by
        rw [← d1, ← d2]
        show ((P j).lat - _) ^ 2 + ((P j).lon - _) ^ 2 = ((P (j + 1)).lat - _) ^ 2 + ((P (j + 1)).lon - _) ^ 2
        rw [hcon.1, hcon.2]
      have p1 := hyd.exponential j
      have p2 := hyd.exponential (j + 1)
      have q := (sq_eq_sq₀ (by unfold C78.radius; positivity) (by unfold C78.radius; positivity)).mp hh
      unfold C78.radius at q
      apply hne
      have q2 : ℓ * (4 * (y.e j - y.e (j + 1))) = 0 := by linarith
      rcases mul_eq_zero.mp q2 with h | h <;> linarith
  have htp : (0 : ℝ) < (r.tracks[0]).dist := by
    rw [e2]
    exact track_pos e (hget j (by omega)) (hget (j + 1) (by omega)) hdist
  rw [hw.2]
  have := List.single_le_sum (l := r.tracks.map (·.dist)) (by
    intro z hz
    obtain ⟨t, ht, rfl⟩ := List.mem_map.mp hz
    exact wf_track_nonneg (hw.1 t ht)) _ (List.mem_map_of_mem (List.getElem_mem h3))
  linarith

/-- The routes of the program are well formed and have a length. -/
theorem route_pos (x : Draw ℝ) (hx : Usual x) :
    ∃ r, randomRoute lon lat 3 60 x.routeID x.color x.name x.tracks = .ok r ∧ r.tracks.length = 3 ∧ WFRoute r ∧
      0 < r.dist := by
  refine random_pos (ρ := 25) (by decide) (by decide) hx.name (fun i => (hx.tracks i).draws) (fun i => (hx.tracks i).differ)
    (fun i k => ?_) ?_ ?_
  · have := (hx.tracks i).small k
    rw [show ((C50.levelOf 60 : Int) : ℝ) = 60 by norm_num [C50.levelOf]]
    unfold C78.radius
    linarith
  · rw [lat_eq, abs_of_pos] <;> norm_num
  · rw [lon_eq, abs_of_pos] <;> norm_num

/-! ## Trackers -/

theorem route_held (d0 : Device ℝ) (hd : d0.navigator.routes = []) (r : Route ℝ) :
    (d0.addRoute [some r]).1.navigator.routes = [touchRoute r] := by
  have hn : d0.navigator.addRoute [some r] = (({ d0.navigator with routes := [r] } : Navigator ℝ).reset.nextVersion, none) := by
    unfold Navigator.addRoute
    rw [hd]
    rfl
  unfold Device.addRoute
  rw [hn]
  rfl

theorem set_add (d : Device ℝ) (u : String) (rs : List (Option (Route ℝ))) :
    ((d.setUserID u).addRoute rs).1 = (d.addRoute rs).1.setUserID u := by
  unfold Device.addRoute setUserID
  simp only
  split <;> rfl

theorem preset_forever (rnd : DeviceRnd ℝ) (u1 : UnitDraws rnd.speedDraws) (u2 : UnitDraws rnd.elevationDraws)
    (user : String) (r : Route ℝ) (hw : WFRoute r) (hr : 0 < r.dist) :
    ∃ d0, Device.preset rnd DeviceOptions.tracker = some d0 ∧
      ((d0.setUserID user).addRoute [some r]).1.status = Status.stopped ∧
      ((d0.setUserID user).addRoute [some r]).1.navigator.routes = [touchRoute r] ∧
      C54.DSafe ((d0.setUserID user).addRoute [some r]).1 ∧
      ∀ start t x, (∀ k, C95.UnitRnd (x k)) → (∀ k, (tickOf (C97.before start t k) (t k) : ℝ) ≤ 479) →
        C97.Forever ((d0.setUserID user).addRoute [some r]).1 start t x := by
  obtain ⟨d0, e⟩ := C33.new_ok C33.smallNumbers_real rnd (DeviceOptions.tracker (F := ℝ)) 0 350 1 5 0 100
    (by simp [DeviceOptions.tracker])
    (by simp [DeviceOptions.tracker]) (by omega) (by omega) (by simp [DeviceOptions.tracker])
    (by simp [DeviceOptions.tracker]) (by omega) (by omega) (by omega)
    (by simp [DeviceOptions.tracker, DeviceOptions.default])
    (by simp [DeviceOptions.tracker, DeviceOptions.default]) (by omega) (by omega)
    ⟨by simp [DeviceOptions.tracker, DeviceOptions.default], by simp [DeviceOptions.tracker, DeviceOptions.default]⟩
    ⟨by simp [DeviceOptions.tracker, DeviceOptions.default], by simp [DeviceOptions.tracker, DeviceOptions.default]⟩
    (by simp [DeviceOptions.tracker, DeviceOptions.default]) (by simp [DeviceOptions.tracker, DeviceOptions.default]) rfl rfl
  have hws : ∀ q, some q ∈ [some r] → WFRoute q ∧ 0 < q.dist := by
    intro q hq
    cases List.mem_singleton.mp hq
    exact ⟨hw, hr⟩
  obtain ⟨⟨q, hd⟩, hl, e1, e2, e3, e4⟩ := C97.new_parts u2 u1 e hws
  obtain ⟨n, s, b, st, k1, k2, k3, k4, rfl⟩ := Device.new_eq e
  set d0 : Device ℝ := { status := Status.stopped, navigator := n, speed := s, battery := b
                         state := st, sensors := [], avgT := lit 0, tick := 0, ns := (0, 0, 0) } with hd0
  have hnr : d0.navigator.routes = [] := by
    obtain ⟨_, _, _, -, -, -, rfl⟩ := new_cases k1
    rfl
  have hheld := route_held d0 hnr r
  have hpos : ∀ q ∈ (d0.addRoute [some r]).1.navigator.routes, 0 < q.dist := by
    intro q hq
    rw [hheld] at hq
    cases List.mem_singleton.mp hq
    rw [C97.touch_dist]
    exact hr
  refine ⟨d0, by unfold Device.preset; rw [e]; rfl, ?_, by rw [set_add]; exact hheld, ?_, ?_⟩
  · rw [set_add]
    show (d0.addRoute [some r]).1.status = _
    unfold Device.addRoute
    simp only
    split <;> rfl
  · rw [set_add]
    have := C54.live_safe hl
    exact ⟨this.nav, this.speed, this.sensors⟩
  intro start t x hu hT
  rw [set_add]
  have hd' := C27.Driven.step hd (op := .setUserID user) trivial rfl hpos
  have hl' : C54.Live ((d0.addRoute [some r]).1.setUserID user) := .step hl (op := .setUserID user) trivial rfl
  have hsk : n.skipOffline = false := by
    obtain ⟨o1, o2, _, c1, c2, -, rfl⟩ := new_cases k1
    show o2.skipOffline = false
    rw [(validateElevation_frame c2).1, (validateOffline_frame c1).1]
    rfl
  obtain ⟨w, w1, w2, w3, w4, wb⟩ := C15.new_random k1 hsk
  have hmax : w.max = 60 := (wb.2.2.1 (by decide) (by decide)).2
  have hbat : b.chargeTime = 8 * hourNs ∧ b.min = 0 := by
    unfold Battery.new at k3
    simp only [DeviceOptions.tracker, DeviceOptions.default, Option.getD_some] at k3
    norm_num [hourNs] at k3
    subst k3
    exact ⟨by norm_num [hourNs], rfl⟩
  have hsec : (durSeconds b.chargeTime : ℝ) = 28800 := by
    rw [hbat.1]
    unfold durSeconds
    rw [show (8 * hourNs).tdiv 1000000000 = 28800 by decide, show (8 * hourNs).tmod 1000000000 = 0 by decide]
    norm_num
  have hspeed : 0 < s.min := by
    unfold Speed.new validateAmplitude at k2
    simp only [DeviceOptions.tracker, DeviceOptions.default, Option.getD_some] at k2
    norm_num at k2
    subst k2
    norm_num
  refine C97.forever_partial _ _ _ _ hd' hl'
    (by show (d0.addRoute [some r]).1.navigator.routes ≠ []; rw [hheld]; simp) (by show 0 < (d0.addRoute [some r]).1.speed.min; rw [e1]; exact hspeed) w
    (e3.trans w1) start t x hu 479 60 hT ?_ (by show 0 < (durSeconds (d0.addRoute [some r]).1.battery.chargeTime : ℝ); rw [e2, hsec]; norm_num) ?_
  · intro u
    have := (C15.value_bounds w u w3 (by omega)).2.1
    push_cast
    omega
  · show _ < C97.lasts (d0.addRoute [some r]).1.battery
    rw [e2]
    unfold C97.lasts
    rw [hsec, hbat.2]
    norm_num

/-- A tracker of the program. -/
theorem tracker_made (x : Draw ℝ) (hx : Usual x) :
    ∃ d, tracker x = some d ∧ d.status = Status.stopped ∧
      (∃ r, d.navigator.routes = [r] ∧ r.tracks.length = 3) ∧ C54.DSafe d ∧
      ∀ start t y, (∀ k, C95.UnitRnd (y k)) → (∀ k, (tickOf (C97.before start t k) (t k) : ℝ) ≤ 479) →
        C97.Forever d start t y := by
  obtain ⟨r, h1, h2, h3, h4⟩ := route_pos x hx
  obtain ⟨d0, g1, g2, g3, g4, g5⟩ := preset_forever x.device hx.speed hx.elevation x.user r h3 h4
  refine ⟨_, ?_, g2, ⟨_, g3, by rw [C97.touch_tracks, List.length_map]; exact h2⟩, g4, g5⟩
  unfold tracker
  rw [g1, h1]
  rfl

/-! ## Attached trackers -/

section

/-- The tracker with another status. -/
def running {F : Type} (d : Device F) : Device F := { d with status := Status.running }

variable {F : Type} [GoMath F]

theorem drive_like (o : Option Random) (s : Int) (l : List (Int × NextRnd F)) :
    ∀ (d : Device F) (start : Int), OffFree o d.navigator →
      driveDevice (d.like o s) start l = (driveDevice d start l).map (like o s) := by
  induction l with
  | nil => intro d start _; rfl
  | cons y l ih =>
    obtain ⟨t, r⟩ := y
    intro d start h
    unfold driveDevice
    rw [next_like h]
    cases hx : d.next (tickOf start t) r with
    | error e => rfl
    | ok z =>
      show driveDevice (z.1.like o s) t l = (driveDevice z.1 t l).map (like o s)
      apply ih
      have : z.1.navigator.skipOffline = d.navigator.skipOffline ∧ z.1.navigator.offline = d.navigator.offline := by
        by_cases hr : d.navigator.routes = []
        · unfold Device.next at hx
          rw [if_pos (by rw [hr]; rfl)] at hx
          cases hx
          exact ⟨rfl, rfl⟩
        · obtain ⟨n1, n2, v, h1, h2, h3, ⟨m, hm, -, hd⟩, -⟩ := C97.round_parts (b := z.2) hr hx
          obtain ⟨k1, k2⟩ := C97.location_settings h3
          have a1 : m.skipOffline = d.navigator.skipOffline := by rw [hm.skip, k1, (C97.powered_same h1).skip]
          have a2 : m.offline = d.navigator.offline := by rw [hm.offline, k2, (C97.powered_same h1).offline]
          rcases hd with e | e <;> rw [e] <;> exact ⟨a1, a2⟩
      unfold OffFree
      rw [this.1, this.2]
      exact h

theorem running_drive (d : Device F) (start : Int) (l : List (Int × NextRnd F)) :
    driveDevice (running d) start l = (driveDevice d start l).map fun e => { e with
      status := Status.running, navigator := e.navigator.withOffline d.navigator.offline } :=
  drive_like d.navigator.offline Status.running l d start (Or.inr rfl)

theorem running_forever {d : Device F} {start : Int} {t : ℕ → Int} {y : ℕ → NextRnd F} (h : C97.Forever d start t y) :
    C97.Forever (running d) start t y := by
  intro K
  obtain ⟨k, hk, d1, d2, h1, h2, h3, h4, h5⟩ := h K
  exact ⟨k, hk, d1.like d.navigator.offline Status.running, d2.like d.navigator.offline Status.running,
    by rw [running_drive, h1]; rfl, by rw [running_drive, h2]; rfl, h3, h4, h5⟩

end

/-- The loop of the program. -/
theorem populated (xs : List (Draw ℝ)) (hx : ∀ x ∈ xs, Usual x) : ∀ (p : ℕ) (w : World ℝ),
    ∃ w', populate xs p w = some w' ∧ w'.gens 0 = w.gens 0 ++ List.range' p xs.length ∧
      (∀ q < p, w'.devs q = w.devs q) ∧
      ∀ i x, xs[i]? = some x → ∃ d, tracker x = some d ∧ w'.devs (p + i) = running d := by
  induction xs with
  | nil => intro p w; exact ⟨w, rfl, by simp, fun _ _ => rfl, by simp⟩
  | cons x xs ih =>
    intro p w
    obtain ⟨d, h1, h2, -⟩ := tracker_made x (hx x List.mem_cons_self)
    have ha : (({ w with devs := setAt w.devs p d } : World ℝ).attach 0 (some p)).1 =
        { devs := setAt (setAt w.devs p d) p (running d), gens := setAt w.gens 0 (w.gens 0 ++ [p]) } := by
      unfold World.attach Device.mount
      have : setAt w.devs p d p = d := if_pos rfl
      simp only [this]
      rw [if_neg (by rw [h2]; decide)]
      rfl
    obtain ⟨w', g1, g2, g3, g4⟩ := ih (fun y hy => hx y (List.mem_cons_of_mem _ hy)) (p + 1)
      { devs := setAt (setAt w.devs p d) p (running d), gens := setAt w.gens 0 (w.gens 0 ++ [p]) }
    refine ⟨w', ?_, ?_, ?_, ?_⟩
    · unfold populate
      rw [h1]
      simp only [Option.bind_eq_bind, Option.bind_some]
      rw [ha]
      exact g1
    · rw [g2]
      have : setAt w.gens 0 (w.gens 0 ++ [p]) 0 = w.gens 0 ++ [p] := if_pos rfl
      simp only
      rw [this, List.append_assoc, List.length_cons, List.range'_succ]
      rfl
    · intro q hq
      rw [g3 q (by omega)]
      simp only [setAt]
      rw [if_neg (by omega), if_neg (by omega)]
    · intro i y hy
      cases i with
      | zero =>
        simp only [List.getElem?_cons_zero, Option.some.injEq] at hy
        subst hy
        refine ⟨d, h1, ?_⟩
        rw [Nat.add_zero, g3 p (by omega)]
        exact if_pos rfl
      | succ i =>
        obtain ⟨e, e1, e2⟩ := g4 i y (by simpa using hy)
        exact ⟨e, e1, by rw [← e2]; congr 1; omega⟩

/-! ## Executions -/

section
variable {F : Type} [GoMath F]

/-- Safe devices never refuse a step. -/
theorem effect_safe {rnd : ℕ → ℕ → NextRnd F} {L : Live F} (hm : ∀ p ∈ L.gs.devs, C54.DSafe (L.mem p)) (a : Act) :
    ∃ M, L.effect rnd a = some M ∧ ∀ p ∈ L.gs.devs, C54.DSafe (M.mem p) := by
  unfold Live.effect
  cases a with
  | run =>
    simp only
    cases hr : L.gs.run with
    | ticked =>
      simp only
      split <;> exact ⟨_, rfl, hm⟩
    | adv i =>
      simp only
      cases hp : L.gs.devs[i]? with
      | none => exact ⟨_, rfl, hm⟩
      | some p =>
        simp only
        obtain ⟨d', b, h1, h2⟩ := C54.next_safe (hm p (List.mem_of_getElem? hp)) (tickOf L.last L.now) (rnd p L.gs.clock)
        rw [h1]
        refine ⟨_, rfl, fun q hq => ?_⟩
        simp only
        split
        · exact h2
        · exact hm q hq
    | _ => exact ⟨_, rfl, hm⟩
  | worker i stop =>
    simp only
    split <;> exact ⟨_, rfl, hm⟩
  | _ => exact ⟨_, rfl, hm⟩

theorem safe_run {c : Cfg} {rnd : ℕ → ℕ → NextRnd F} {devs : List ℕ} {mem : ℕ → Device F} {start : Int} {L : Live F}
    (hm : ∀ p ∈ devs, C54.DSafe (mem p)) (h : C79.Runs c rnd devs mem start L) : ∀ p ∈ devs, C54.DSafe (L.mem p) := by
  induction h with
  | init => exact hm
  | @step L L' a t hs ha hd h ih =>
    obtain ⟨gs, M, h1, h2, rfl⟩ := C79.step_eq h
    have hdv := (C39.steady_reach (C79.runs_steady hs)).2
    obtain ⟨M', e, hM⟩ := effect_safe (rnd := rnd) (L := L) (by rw [hdv]; exact ih) a
    rw [h2] at e
    cases e
    rw [hdv] at hM
    exact hM

theorem quiet_path {c : Cfg} {devs : List ℕ} (hn : devs.length < c.packetSize ∧
    devs.length ≤ c.numWorkers + c.packetSize / c.numWorkers) : ∀ (as : List Act) (s s' : GS), C39.Steady c devs s →
      Quiet as → exec c s as = some s' → Path c (C40.Fits c) s as s' ∧ C39.Steady c devs s' := by
  intro as
  induction as with
  | nil =>
    rintro s _ hs - ⟨⟩
    exact ⟨.nil (by unfold C40.Fits; rw [(C39.steady_reach hs).2]; exact hn), hs⟩
  | cons a as ih =>
    intro s s' hs hq h
    unfold exec at h
    obtain ⟨s1, h1, h2⟩ := Option.bind_eq_some_iff.mp h
    obtain ⟨q1, q2⟩ := hq a List.mem_cons_self
    obtain ⟨g1, g2⟩ := ih s1 s' (.step a hs q1 q2 h1) (fun b hb => hq b (List.mem_cons_of_mem _ hb)) h2
    exact ⟨.cons (by unfold C40.Fits; rw [(C39.steady_reach hs).2]; exact hn) h1 g1, g2⟩

theorem stops {c : Cfg} (h1 : 1 ≤ c.numWorkers) {devs : List ℕ} (hn : devs.length < c.packetSize ∧
    devs.length ≤ c.numWorkers + c.packetSize / c.numWorkers) : Stops c devs := by
  intro as s hq he hc
  obtain ⟨p1, p2⟩ := quiet_path hn as _ s .init hq he
  obtain ⟨bound, hb⟩ := close_stops_partial c h1 devs as s p1 hc
  exact ⟨bound, fun bs s' hq' he' => hb bs s' (quiet_path hn bs s s' p2 hq' he').1⟩

omit [GoMath F] in
/-- The state of a device after rounds at given times. -/
theorem driven_rounds (t : ℕ → Int) (f : ℕ → NextRnd F) (m k : ℕ) (hk : k ≤ m) :
    ((times t m).take k).zipIdx.map (fun x => (x.1, f (x.2 + 1))) = C97.rounds t (fun i => f (i + 1)) k := by
  unfold times C97.rounds
  rw [← List.map_take, List.take_range, min_eq_left hk]
  apply List.ext_getElem?
  intro i
  simp only [List.getElem?_map, List.getElem?_zipIdx]
  by_cases hi : i < k
  · simp [List.getElem?_range hi]
  · simp [hi]

/-- Executions of safe devices do not get stuck at a device. -/
theorem calm_of {c : Cfg} {rnd : ℕ → ℕ → NextRnd F} {devs : List ℕ} {mem : ℕ → Device F} {start : Int} {L : Live F}
    (hm : ∀ p ∈ devs, C54.DSafe (mem p)) (hL : C79.Runs c rnd devs mem start L) {a : Act} {t : Int} {gs : GS}
    (hf : fire c L.gs a = some gs) : ∃ L', L.step c rnd a t = some L' := by
  have hs := safe_run hm hL
  rw [← (C39.steady_reach (C79.runs_steady hL)).2] at hs
  obtain ⟨M, hM, -⟩ := effect_safe (rnd := rnd) hs a
  unfold Live.step
  rw [hf, hM]
  exact ⟨_, rfl⟩

/-- A lap of a device is seen in the packets. -/
theorem lap_seen {c : Cfg} {rnd : ℕ → ℕ → NextRnd F} {devs : List ℕ} {mem : ℕ → Device F} {start : Int} {L : Live F}
    (h1 : 1 ≤ c.numWorkers) (hd : devs.Nodup) (hlen : devs.length < c.packetSize) {p : ℕ} (hp : p ∈ devs) {t : ℕ → Int}
    {k m : ℕ} (hlap : C97.Lap (mem p) start t (fun i => rnd p (i + 1)) k) (hL : C79.Runs c rnd devs mem start L)
    (hb : Between L) (hr : L.rounds = times t m) (hk : k < m) :
    ∃ st, (C79.received L p)[k]? = some (some st) ∧ st.duration = lit 0 := by
  obtain ⟨d1, d2, -, g2, -, -, g5⟩ := hlap
  refine ⟨d2.state, ?_, g5⟩
  obtain ⟨k1, -⟩ := C79.trajectory h1 hd hlen hL hb.1 hb.2 p hp
  rw [k1, hr, List.getElem?_map, List.getElem?_range (by simpa [times] using hk)]
  simp only [Option.map_some, C79.stateAfter]
  rw [driven_rounds t (rnd p) m (k + 1) hk, g2]
  rfl

end

theorem config_eq (cpus : Int) : config cpus = ⟨4, 8192⟩ := rfl

/-- **C101 (partial).** With at most 2052 trackers - the README has 1000 - the program works.

Missing for the full property: more trackers (false, `claim_fails`). -/
theorem readme_partial (xs : List (Draw ℝ)) (hn : xs.length ≤ 2052) (hx : ∀ x ∈ xs, Usual x) (d : Device ℝ) (cpus : Int) :
    ∃ w, populate xs 0 (blank d) = some w ∧ Works (config cpus) xs.length w := by
  obtain ⟨w, h1, h2, -, h4⟩ := populated xs hx 0 (blank d)
  have hg : w.gens 0 = List.range xs.length := by
    rw [h2, List.range_eq_range']
    rfl
  have hdev : ∀ p < xs.length, ∃ e, w.devs p = running e ∧
      (∃ r, e.navigator.routes = [r] ∧ r.tracks.length = 3) ∧ C54.DSafe e ∧
      ∀ start t y, (∀ k, C95.UnitRnd (y k)) → (∀ k, (tickOf (C97.before start t k) (t k) : ℝ) ≤ 479) →
        C97.Forever e start t y := by
    intro p hp
    obtain ⟨e, e1, e2⟩ := h4 p _ (List.getElem?_eq_getElem hp)
    obtain ⟨e', g1, -, g2, g3, g4⟩ := tracker_made _ (hx _ (List.getElem_mem hp))
    rw [e1] at g1
    cases g1
    exact ⟨e, by rw [← e2, Nat.zero_add], g2, g3, g4⟩
  have hsafe : ∀ p ∈ w.gens 0, C54.DSafe (w.devs p) := by
    intro p hp
    rw [hg, List.mem_range] at hp
    obtain ⟨e, e1, -, e2, -⟩ := hdev p hp
    rw [e1]
    exact ⟨e2.nav, e2.speed, e2.sensors⟩
  have hnd : (w.gens 0).Nodup := by rw [hg]; exact List.nodup_range
  have hlen : (w.gens 0).length = xs.length := by rw [hg, List.length_range]
  refine ⟨w, h1, hg, fun p hp => ?_, ?_, ?_, ?_, ?_⟩
  · obtain ⟨e, e1, e2, -⟩ := hdev p hp
    rw [e1]
    exact e2
  · intro rnd start L a t gs hL hf
    exact calm_of hsafe hL hf
  · intro rnd start L hL ⟨ho, hr⟩ p hp
    obtain ⟨k1, k2⟩ := C79.trajectory (c := config cpus) (by rw [config_eq]; decide) hnd
      (by rw [hlen, config_eq]; show xs.length < 8192; omega) hL ho hr p (by rw [hg, List.mem_range]; exact hp)
    exact ⟨by rw [k1]; simp, k2⟩
  · intro rnd start t hu hT p hp K
    obtain ⟨e, e1, -, -, e3⟩ := hdev p hp
    obtain ⟨k, hk, hlap⟩ := running_forever (e3 start t (fun k => rnd p (k + 1)) (fun k => hu p (k + 1)) hT) K
    rw [← e1] at hlap
    refine ⟨k, hk, hlap, fun L m hL ho hrd hkm => ?_⟩
    obtain ⟨st, s1, s2⟩ := lap_seen (c := config cpus) (by rw [config_eq]; decide) hnd
      (by rw [hlen, config_eq]; show xs.length < 8192; omega) (by rw [hg, List.mem_range]; exact hp) hlap hL ho hrd hkm
    exact ⟨st, s1, by rw [s2]; simp⟩
  · exact stops (by rw [config_eq]; decide) (by rw [hlen, config_eq]; show xs.length < 8192 ∧ xs.length ≤ 4 + 8192 / 4; omega)

/-- With more trackers a schedule exists after which the generator is closed and `Run` never returns. -/
theorem too_many (cpus : Int) (n : ℕ) (h : 2053 ≤ n) : ¬ Stops (config cpus) (List.range n) := by
  obtain ⟨as, s, hk, h1, h2, h3⟩ := hang_keeps (config cpus) (by rw [config_eq]; decide) (List.range n) (by
    rw [config_eq, List.length_range]
    show 4 + 8192 / 4 < min n 8191
    omega)
  intro hs
  have quiet : ∀ bs : List Act, bs.all keeps = true → Quiet bs := by
    intro bs hb a ha
    have := List.all_eq_true.mp hb a ha
    constructor <;> rintro _ rfl <;> cases this
  obtain ⟨bound, hb⟩ := hs as s (quiet as hk) h1 h2
  -- run the goroutines as long as they can take steps
  have key : ∀ (m : ℕ), ∃ bs s', bs.length = m ∧ (∀ b ∈ bs, b.internal = true) ∧ exec (config cpus) s bs = some s' := by
    intro m
    induction m with
    | zero => exact ⟨[], s, rfl, nofun, rfl⟩
    | succ m ih =>
      obtain ⟨bs, s', e1, e2, e3⟩ := ih
      have hq : Quiet bs := by
        intro a ha
        have := e2 a ha
        constructor <;> rintro _ rfl <;> cases this
      rcases (hb bs s' hq e3).2 with ⟨a, s'', a1, a2⟩ | hr
      · refine ⟨bs ++ [a], s'', by simp [e1], ?_, ?_⟩
        · intro b hb
          rcases List.mem_append.mp hb with hb | hb
          · exact e2 b hb
          · cases List.mem_singleton.mp hb; exact a1
        · rw [exec_append, e3]
          simp [exec, a2]
      · rw [h3 bs s' e3] at hr
        cases hr
  obtain ⟨bs, s', e1, e2, e3⟩ := key (bound + 1)
  have hq : Quiet bs := by
    intro a ha
    have := e2 a ha
    constructor <;> rintro _ rfl <;> cases this
  have := (hb bs s' hq e3).1
  rw [List.countP_eq_length.mpr e2] at this
  omega

/-! ## Draws -/

/-- Draws with alternating radii. -/
noncomputable def sampleTrack : TrackRnd ℝ := ⟨fun _ => 1 / 2, fun j => if j % 2 = 0 then 0 else 1, "t", "#000000", fun _ => 0⟩

/-- What one tracker may draw. -/
noncomputable def sample : Draw ℝ :=
  ⟨⟨"id", "AAAAAAAA", "#ff0000", fun _ => none, "elevation", fun _ => 1 / 2, fun _ => 1 / 2⟩, "user", "r", "#000000", fun _ => 0,
    fun _ => sampleTrack⟩

theorem sample_usual : Usual sample where
  speed _ := by simp only [sample]; norm_num
  elevation _ := by simp only [sample]; norm_num
  name _ := by simp [sample]
  tracks _ := by
    refine ⟨⟨fun j => ?_, ⟨0, by omega, ?_⟩, fun j => ?_, fun _ => ?_⟩, fun j => ?_, 0, by omega, ?_⟩
    · simp only [sample, sampleTrack]; norm_num
    · simp only [sample, sampleTrack]; norm_num
    · simp only [sample, sampleTrack]; split <;> norm_num
    · simp [sample, sampleTrack]
    · simp only [sample, sampleTrack]; split <;> norm_num
    · simp [sample, sampleTrack]

/-- **C101 fails** for 2053 trackers. -/
theorem claim_fails : ¬ Claim := by
  intro h
  obtain ⟨d, -⟩ := tracker_made sample sample_usual
  obtain ⟨w, -, hw⟩ := h (List.replicate 2053 sample) d 8 (by
    intro x hx
    rw [List.eq_of_mem_replicate hx]
    exact sample_usual)
  have := hw.stops
  rw [hw.attached, List.length_replicate] at this
  exact too_many 8 2053 (Nat.le_refl _) this

/-! Non-vacuity: the thousand trackers of the README. -/

example (d : Device ℝ) : ∃ w, populate (List.replicate 1000 sample) 0 (blank d) = some w ∧
    Works (config 16) 1000 w := by
  have := readme_partial (List.replicate 1000 sample) (by rw [List.length_replicate]; decide) (fun x hx => by
    rw [List.eq_of_mem_replicate hx]; exact sample_usual) d 16
  rwa [List.length_replicate] at this

end C101
end GpsGen
