import Verif.Theorems.C96
import Verif.Theorems.C95Real
/-!
# C96 in exact arithmetic

The full claim is false over the real numbers too: a device that was saved and restored before it started publishes a
full battery after a first round in which it does not move, one that was not saved publishes an empty one.
-/

namespace GpsGen
namespace C96
open Device Navigator C23 Overlay

/-- Until a device without travelled distance moves or leaves its first route, it publishes the old charge. -/
theorem first_round {d f : Device ℝ} {tick : ℝ} {rnd : NextRnd ℝ} (h0 : d.navigator.currentDistance = 0)
    (h1 : d.navigator.trackIndex = 0) (h2 : ∀ r, d.navigator.route? = some r → 2 ≤ r.numTracks)
    (h : d.next tick rnd = .ok (f, false)) : f.state.charge = d.state.charge := by
  cases next_outcome h with
  | idle hr => rfl
  | halted hr n1 n2 speed k1 k2 k3 k4 => rfl
  | lap hr n1 n2 speed d' k1 k2 k3 k4 k5 =>
    exfalso
    have e1 : n1.currentDistance = 0 ∧ n1.trackIndex = 0 ∧ n1.route? = d.navigator.route? := by
      rcases powered_step k1 with rfl | k1
      · exact ⟨h0, h1, rfl⟩
      · rcases toOffline_cases k1 with ⟨-, rfl⟩ | ⟨-, _, -, rfl⟩ <;> exact ⟨h0, h1, rfl⟩
    have key : n2.trackIndex = 1 ∨ n2.currentDistance = 0 := by
      have off : ∀ {a b : Navigator ℝ} {x : UInt32}, a.toOffline x = .ok b →
          b.trackIndex = a.trackIndex ∧ b.currentDistance = a.currentDistance := by
        intro a b x hx
        rcases toOffline_cases hx with ⟨-, rfl⟩ | ⟨-, _, -, rfl⟩ <;> exact ⟨rfl, rfl⟩
      rcases nextLocation_cases _ _ _ _ _ _ k3 with ⟨-, rfl, -⟩ | ⟨-, rfl, -⟩ | ⟨r, hr2, -, j, -, he⟩
      · exact Or.inr e1.1
      · exact Or.inr e1.1
      have hj : (n1.skipTo j).currentDistance = 0 ∧ (n1.skipTo j).trackIndex = 0 := by
        cases j <;> exact ⟨e1.1, e1.2.1⟩
      generalize hres : (Except.ok (n2, false) : Go (Navigator ℝ × Bool)) = res at he
      cases he with
      | land _ => cases hres
      | unrelated _ _ _ _ =>
        obtain ⟨m, hm, e⟩ := map_eq_ok hres.symm
        cases e
        exact Or.inr ((off hm).2.trans hj.1)
      | leave _ _ =>
        obtain ⟨m, hm, e⟩ := map_eq_ok hres.symm
        cases e
        left
        rw [(off hm).1]
        have := h2 r (e1.2.2 ▸ hr2)
        unfold leaveTrack
        rw [if_pos (by rw [hj.2]; omega)]
        show (n1.skipTo j).trackIndex + 1 = 1
        rw [hj.2]; rfl
    unfold isFinish at k4
    split at k4
    · rename_i hc
      simp only [Bool.and_eq_true, beq_iff_eq] at hc
      rcases key with e | e
      · rw [e] at hc
        exact absurd hc.1.1.2 (by norm_num)
      · have h5 := hc.2
        rw [e] at h5
        simp at h5
    · cases k4

/-- A route with two tracks of about 1.1 m. -/
noncomputable def shortRoute2 : Route ℝ :=
  ⟨"r", degLen * (2 / 100000), "c", "", [C95.shortTrack, eqTrack "u" "c" 2 (2 + 1 / 100000)], none, 0⟩

theorem short2_sound : C22.SoundRoute shortRoute2 := by
  refine ⟨Or.inl rfl, nofun, ?_⟩
  intro t ht m hm
  simp only [shortRoute2, List.mem_cons, List.not_mem_nil, or_false] at ht
  rcases ht with rfl | rfl <;> cases hm

theorem short2_length : degLen * |((2 : ℝ) + 1 / 100000) - 2| = degLen * (1 / 100000) := by
  rw [add_sub_cancel_left, abs_of_pos (by norm_num)]

theorem short2_wf : WFRoute shortRoute2 := by
  refine ⟨?_, ?_⟩
  · intro t ht
    simp only [shortRoute2, List.mem_cons, List.not_mem_nil, or_false] at ht
    rcases ht with rfl | rfl
    · exact C95.short_wf.1 _ List.mem_cons_self
    · refine ⟨?_, ?_⟩
      · intro s hs
        cases List.mem_singleton.mp hs
        exact mul_nonneg (by linarith [degLen_gt]) (abs_nonneg _)
      · show degLen * |((2 : ℝ) + 1 / 100000) - 2| = _
        simp [eqTrack, eqSeg]
  · show degLen * (2 / 100000) = _
    have h1 := C95.short_length
    have h2 := short2_length
    simp only [shortRoute2, C95.shortTrack, eqTrack, List.map_cons, List.map_nil, List.sum_cons, List.sum_nil, h1, h2]
    ring

/-- **The full claim is false in exact arithmetic.** The bicycle tracker of the package on a route of two tracks shorter
than its steps: saved and restored or not, it does not move in the first round, whenever that is and whatever it draws;
it publishes a charge of 100 if it was saved and restored, and of 0 if it was not. -/
theorem claim_fails_real (rnd : DeviceRnd ℝ) (u1 : UnitDraws rnd.elevationDraws) (u2 : UnitDraws rnd.speedDraws) :
    ∃ d0 d r : Device ℝ, Device.new rnd (some DeviceOptions.bicycle) = .ok d0 ∧
    d0.addRoute [some shortRoute2] = (d, none) ∧ Ready d ∧ Restored d r ∧
    ∀ (last t : Int) (x : NextRnd ℝ), C95.UnitRnd x → ∃ f g, driveDevice d last [(t, x)] = .ok f ∧
      driveDevice r last [(t, x)] = .ok g ∧ f.state.charge = 0 ∧ g.state.charge = 100 := by
  obtain ⟨d0, e⟩ := C33.new_ok C33.smallNumbers_real rnd (DeviceOptions.bicycle (F := ℝ)) 1 125 2 8 0 100
    (by simp [DeviceOptions.bicycle])
    (by simp [DeviceOptions.bicycle]) (by omega) (by omega) (by simp [DeviceOptions.bicycle])
    (by simp [DeviceOptions.bicycle]) (by omega) (by omega) (by omega)
    (by simp [DeviceOptions.bicycle, DeviceOptions.default])
    (by simp [DeviceOptions.bicycle, DeviceOptions.default]) (by omega) (by omega)
    ⟨by simp [DeviceOptions.bicycle, DeviceOptions.default], by simp [DeviceOptions.bicycle, DeviceOptions.default]⟩
    ⟨by simp [DeviceOptions.bicycle, DeviceOptions.default], by simp [DeviceOptions.bicycle, DeviceOptions.default]⟩
    (by simp [DeviceOptions.bicycle, DeviceOptions.default]) (by simp [DeviceOptions.bicycle, DeviceOptions.default]) rfl rfl
  obtain ⟨d, hd⟩ : ∃ d, d0.addRoute [some shortRoute2] = (d, none) := by
    refine ⟨_, Prod.ext rfl ?_⟩
    obtain ⟨n, s, b, st, k1, -, -, -, rfl⟩ := Device.new_eq e
    obtain ⟨_, _, _, -, -, -, rfl⟩ := new_cases k1
    rfl
  have hprep : Prepared d := ⟨rnd, _, d0, [some shortRoute2], d, [], e, fun r hr => by
    cases List.mem_singleton.mp hr
    exact short2_sound, hd, rfl⟩
  obtain ⟨hl, htick, htidy⟩ := prepared_ready hprep
  have hd' : d = (d0.addRoute [some shortRoute2]).1 := by rw [hd]
  have shape : d.navigator.routes = [touchRoute shortRoute2] ∧ d.navigator.currentDistance = 0 ∧
      d.navigator.routeIndex = 0 ∧ d.navigator.trackIndex = 0 ∧ d.state.charge = 0 ∧ d.battery.value = 100 ∧
      d.speed.isStatic = false := by
    obtain ⟨n, s, b, st, k1, k2, k3, k4, rfl⟩ := Device.new_eq e
    obtain ⟨_, _, rfl, -⟩ := applyFor_eq k4
    obtain ⟨_, _, _, -, -, -, rfl⟩ := new_cases k1
    subst hd'
    refine ⟨rfl, ?_, rfl, rfl, ?_, ?_, ?_⟩
    · show (lit 0 : ℝ) = 0
      simp
    · show (lit 0 : ℝ) = 0
      simp
    · show b.value = 100
      unfold Battery.new at k3
      simp only [DeviceOptions.bicycle, DeviceOptions.default] at k3
      simp at k3
      subst k3
      unfold Battery.value
      norm_num
    · show s.isStatic = false
      unfold Speed.new validateAmplitude at k2
      simp only [DeviceOptions.bicycle, DeviceOptions.default] at k2
      norm_num at k2
      subst k2
      unfold Speed.isStatic
      simp
  obtain ⟨hroutes, hdist, hri, hti, hch, hbat, hstat⟩ := shape
  have hcur : NoStale d := by
    obtain ⟨n, s, b, st, k1, k2, k3, k4, rfl⟩ := Device.new_eq e
    obtain ⟨_, _, rfl, -⟩ := applyFor_eq k4
    obtain ⟨_, _, _, -, -, -, rfl⟩ := new_cases k1
    subst hd'
    exact ⟨fun _ => rfl, fun _ => rfl⟩
  have hready : Ready d := ⟨⟨_, hl, Or.inr hstat⟩, htick, hcur, htidy⟩
  have hsafe : C54.DSafe d := by
    obtain ⟨k1, k2⟩ := C54.nav_safe (C54.new_safe e) (.addRoute [some shortRoute2]) (fun _ => by simp) rfl
    rw [hd']
    unfold Device.addRoute
    generalize d0.navigator.addRoute [some shortRoute2] = q at *
    obtain ⟨n, _ | _⟩ := q
    · exact k2
    · exact k1
  have hdr : C27.Driven 2 8 (False ∨ C27.Ticks d0 (.addRoute [some shortRoute2])) d := by
    refine .step (.init u1 u2 ?_ ?_ e) (op := .addRoute [some shortRoute2]) ?_ ?_ ?_
    · simp [DeviceOptions.bicycle]
    · simp [DeviceOptions.bicycle]
    · intro r hm
      cases List.mem_singleton.mp hm
      exact short2_wf
    · rw [hd']; rfl
    · intro r hm
      rw [hroutes] at hm
      cases List.mem_singleton.mp hm
      show 0 < degLen * (2 / 100000)
      linarith [degLen_gt]
  have hlen : ∀ s ∈ C95.segs d.navigator, s.dist < (C27.bounds 2 8).1 := by
    intro s hs
    unfold C95.segs at hs
    rw [hroutes] at hs
    have hs' : s = eqSeg 1 (1 + 1 / 100000) 0 (-1) ∨ s = eqSeg 2 (2 + 1 / 100000) 0 (-1) := by
      simpa [touchRoute, Route.propsOf, Track.propsOf, shortRoute2, C95.shortTrack, eqTrack] using hs
    have hval : s.dist = degLen * (1 / 100000) := by
      rcases hs' with rfl | rfl
      · exact C95.short_length
      · exact short2_length
    rw [hval]
    unfold C27.bounds
    norm_num
    linarith [C95.degLen_lt]
  have htracks : ∀ r, d.navigator.route? = some r → 2 ≤ r.numTracks := by
    intro r hr
    unfold Navigator.route? at hr
    rw [hroutes, hri] at hr
    cases hr
    decide
  obtain ⟨e1, h1, -⟩ := C54.update_safe hsafe
  have he : encodeTracker d = .ok (e1, e1.snapshot) := by
    unfold encodeTracker
    rw [h1]; rfl
  obtain ⟨o, ho, hdec⟩ := decode_encode (lived_sound hl) htick (lived_speed hl (Or.inr hstat)) hcur he
  refine ⟨d0, d, e1.like o Status.stopped, e, hd, hready, ⟨e1, _, _, Status.stopped, he, hdec, rfl⟩, ?_⟩
  intro last t x hx
  obtain ⟨f, hf⟩ := C95.drive_safe hsafe last [(t, x)]
  have hmv := (C95.dense_tracks 2 8 _ d f ⟨rnd, _, d0, _, e, hd'⟩ hdr hlen last [(t, x)]
    (fun y hy => by cases List.mem_singleton.mp hy; exact hx) hf).1
  obtain ⟨⟨f1, b⟩, hn, hf⟩ := bind_eq_ok hf
  cases hf
  have hb : b = false := by
    have hm : C95.movedOnce d last [(t, x)] = (b || false) := by
      unfold C95.movedOnce
      rw [hn]; rfl
    rw [hm] at hmv
    simpa using hmv
  subst hb
  obtain ⟨g1, hg, -, -⟩ := next_core (update_core htidy h1) hn
  have hlike : (e1.like o Status.stopped).next (tickOf last t) x = .ok (g1.like o Status.stopped, false) := by
    rw [next_like ho, hg]; rfl
  refine ⟨f1, g1.like o Status.stopped, ?_, ?_, ?_, ?_⟩
  · unfold driveDevice
    rw [hn]; rfl
  · unfold driveDevice
    rw [hlike]; rfl
  · rw [first_round hdist hti htracks hn, hch]
  · show g1.state.charge = 100
    obtain ⟨st, hst, rfl⟩ := update_eq h1
    have hfr := refreshed_fresh hst
    rw [first_round (d := (d.refreshed st).updateRoutes.updateSensors) hdist hti ?_ hg]
    · exact hfr.charge.trans hbat
    · intro r hr
      unfold Navigator.route? at hr
      have hr2 : goAt? (d.navigator.routes.map touchRoute) d.navigator.routeIndex = some r := hr
      rw [hroutes, hri] at hr2
      cases hr2
      decide

end C96
end GpsGen
