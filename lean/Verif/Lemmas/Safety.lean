import Verif.Lemmas.LoopOutcome
/-!
# Helper lemmas: the invariant behind C07
-/

namespace GpsGen
variable {F : Type}

namespace C07
open Navigator

/-- The inductive invariant. -/
structure Safe (n : Navigator F) : Prop where
  index : n.IndexOk
  offline : n.skipOffline = false → n.offline.isSome
  elevation : n.elevation.gen.points ≠ []

theorem point_ok [GoFloat F] (c : Curve F) (h : c.points ≠ []) (t : F) :
    ∃ c' p, c.point t = .ok (c', p) ∧ c'.points.length = c.points.length := by
  unfold Curve.point
  have hscale : ∀ (u : F) (l : List (CP F)), (scaleFrom t u l).length = l.length := by
    intro u l
    induction l generalizing u with
    | nil => rfl
    | cons a l ih => simp [scaleFrom, ih]
  cases hp : c.points with
  | nil => exact absurd hp h
  | cons p0 ps =>
    simp only
    split
    · rename_i he; simp at he
    · exact ⟨_, _, rfl, by simp [hscale]⟩

theorem assignWeights_length [GoFloat F] (n i : Nat) (w : F) (l : List (CP F)) :
    (assignWeights n i w l).length = l.length := by
  induction l generalizing i w with
  | nil => rfl
  | cons a l ih => simp [assignWeights, ih]

theorem makePoints_length [GoFloat F] (min max : F) (mode : Int) (n : Nat) (draws : Nat → F) :
    (makePoints min max mode n draws).length = n := by
  simp [makePoints, assignWeights_length]

theorem safe_new [GoFloat F] (uid : String) (draws : Nat → F) (opts : List (NavOption F))
    (n : Navigator F) (h : Navigator.new uid draws opts = .ok n) : Safe n := by
  unfold Navigator.new at h
  simp only at h
  cases h1 : (opts.foldl NavOptions.apply NavOptions.default).validateOffline with
  | error e => rw [h1] at h; cases h
  | ok o =>
    rw [h1] at h
    simp only [ok_bind] at h
    cases h2 : o.validateElevation with
    | error e => rw [h2] at h; cases h
    | ok o =>
      rw [h2] at h
      simp only [ok_bind] at h
      cases h3 : Sensor.new uid draws "elevation" o.elevationMin o.elevationMax
          o.elevationAmplitude o.elevationMode with
      | error e => rw [h3] at h; cases h
      | ok s =>
        rw [h3] at h
        simp only [ok_bind, pure_eq_ok, Except.ok.injEq] at h
        subst h
        refine ⟨Or.inl rfl, ?_, ?_⟩
        · intro hs; simp only at hs ⊢; simp [hs]
        · simp only
          unfold Sensor.new validateAmplitude at h3
          by_cases ha : o.elevationAmplitude < 4
          · simp [ha] at h3
          · by_cases hb : o.elevationAmplitude > 512
            · simp [ha, hb] at h3
            · simp only [ha, hb, if_false, ok_bind] at h3
              split at h3
              · cases h3
              · cases h3
                intro hnil
                have := congrArg List.length hnil
                simp only [Curve.new, makePoints_length, List.length_nil] at this
                split at this <;> omega

theorem indexOk_reset [GoFloat F] (n : Navigator F) : (n.reset).IndexOk := by
  unfold IndexOk reset calcRouteDistance resetIndexes
  simp only
  cases n.routes with
  | nil => left; rfl
  | cons r rs => right; simp

theorem toOffline_ok (n : Navigator F) (h : Safe n) (x : UInt32) :
    ∃ n', n.toOffline x = .ok n' ∧ Safe n' := by
  unfold toOffline
  split
  · exact ⟨n, rfl, h⟩
  · rename_i hs
    have := h.offline (by simpa using hs)
    cases ho : n.offline with
    | none => rw [ho] at this; cases this
    | some r => exact ⟨_, rfl, ⟨h.index, fun _ => by simp, h.elevation⟩⟩

theorem moveToSegment_ok [GoFloat F] (n : Navigator F) (h : Safe n) (ri ti si : Int) :
    ∃ n' b, n.moveToSegment ri ti si = .ok (n', b) ∧ Safe n' := by
  unfold moveToSegment
  split
  · exact ⟨n, _, rfl, h⟩
  split
  · exact ⟨n, _, rfl, h⟩
  split
  · exact ⟨n, _, rfl, h⟩
  rename_i hr
  obtain ⟨r, hr1, hr2⟩ := goIndex_ok (l := n.routes) (i := ri) (by omega) (by omega)
  rw [hr2]
  simp only [ok_bind]
  split
  · exact ⟨n, _, rfl, h⟩
  split
  · exact ⟨n, _, rfl, h⟩
  rename_i ht
  have : (r.trackAt ti).isSome := goAt?_isSome.mpr (by omega)
  obtain ⟨t, ht'⟩ := Option.isSome_iff_exists.mp this
  rw [ht']
  simp only
  split
  · exact ⟨n, _, rfl, h⟩
  refine ⟨_, _, rfl, ?_⟩
  refine ⟨Or.inr ?_, ?_, ?_⟩
  · simp only
    split <;> split <;> split <;> (try simp only) <;> omega
  · simp only
    split <;> split <;> split <;> exact h.offline
  · simp only
    split <;> split <;> split <;> exact h.elevation

theorem nextLocation_ok [GoMath F] (n : Navigator F) (h : Safe n) (tick speed : F) (x : UInt32) :
    ∃ n' b, n.nextLocation tick speed x = .ok (n', b) ∧ Safe n' := by
  by_cases hr : n.routes = []
  · exact ⟨n, false, by simp [nextLocation, hr], h⟩
  cases hoff : n.nextOffline.2 with
  | true =>
    rw [nextLocation_offline n tick speed x hr hoff]
    exact ⟨_, _, rfl, ⟨h.index, h.offline, h.elevation⟩⟩
  | false =>
    obtain ⟨r, hrt, -⟩ := route_of_indexOk h.index hr
    obtain ⟨j, -, hend⟩ := nextLocation_outcome n tick speed x r hrt hoff
    generalize n.nextLocation tick speed x = res at hend
    have hm : Safe (n.skipTo j) := by
      refine ⟨?_, ?_, ?_⟩
      · have := h.index
        unfold IndexOk at this ⊢
        rw [skipTo_routes, skipTo_routeIndex]; exact this
      · cases j <;> exact h.offline
      · cases j <;> exact h.elevation
    have hri : 0 ≤ (n.skipTo j).routeIndex ∧ (n.skipTo j).routeIndex < (n.skipTo j).routes.length := by
      rw [skipTo_routes, skipTo_routeIndex]
      rcases h.index with h' | h'
      · exact absurd h' hr
      · exact h'
    generalize n.skipTo j = m at *
    cases hend with
    | land hf => exact ⟨_, _, rfl, ⟨hm.index, hm.offline, hm.elevation⟩⟩
    | unrelated h1 h2 h3 h4 =>
      obtain ⟨n', h1, h2⟩ := toOffline_ok m.advanceSegment ⟨hm.index, hm.offline, hm.elevation⟩ x
      rw [h1]; exact ⟨n', false, rfl, h2⟩
    | leave h1 h2 =>
      have hs : Safe (m.leaveTrack r) := by
        unfold leaveTrack
        split
        · exact ⟨hm.index, hm.offline, hm.elevation⟩
        · split
          · exact ⟨Or.inr (by simp only; omega), hm.offline, hm.elevation⟩
          · exact ⟨Or.inr (by simp only; omega), hm.offline, hm.elevation⟩
      obtain ⟨n', h1, h2⟩ := toOffline_ok _ hs x
      rw [h1]; exact ⟨n', false, rfl, h2⟩

theorem jumpRoutes_index [GoFloat F] (d : F) (rs : List (Route F)) (i ri : Int) (rd : F)
    (last : Option (Route F)) (hlen : i + rs.length ≤ 2) (hi : 0 ≤ i) (hri : ri = max 0 (i - 1)) :
    (jumpRoutes d i ri rd last rs).2.1 ≤ max 0 (i + rs.length - 1) ∧
      0 ≤ (jumpRoutes d i ri rd last rs).2.1 := by
  induction rs generalizing i ri rd last with
  | nil => simp [jumpRoutes]; omega
  | cons r rs ih =>
    unfold jumpRoutes
    simp only [List.length_cons] at hlen ⊢
    split
    · simp only; omega
    · have := ih (i + 1) (ri + i) (rd +. r.dist) (some r) (by omega) (by omega) (by omega)
      omega

theorem destinationTo_safe [GoMath F] (n : Navigator F) (h : Safe n) (m : F)
    (hlen : n.routes.length ≤ 2) : Safe (n.destinationTo m).1 := by
  unfold destinationTo
  generalize (if (n.distance <. m) = true then n.distance else m) = d
  simp only
  by_cases hd : (d <. lit 1) = true
  · simp only [hd, if_true]; exact h
  simp only [hd, if_false, Bool.false_eq_true]
  by_cases hr : n.routes = []
  · simp only [hr, jumpRoutes]; exact h
  have hidx := jumpRoutes_index d n.routes 0 0 (lit 0) none (by omega) (by omega) (by omega)
  have hpos : 0 < n.routes.length := List.length_pos_iff.mpr hr
  rcases hj : jumpRoutes d 0 0 (lit 0) none n.routes with ⟨_ | route, ri, rd⟩
  · exact h
  · rw [hj] at hidx
    simp only at hidx ⊢
    rcases hj2 : jumpTracks d 0 0 rd (lit 0) none route.tracks with ⟨_ | track, ti, rd, crd⟩
    · exact h
    · simp only
      split
      · exact h
      · exact ⟨Or.inr (by simp only; omega), h.offline, h.elevation⟩

theorem step_safe [GoMath F] (n : Navigator F) (h : Safe n) (op : NavOp F)
    (hd : (∃ m, op = .destinationTo m) → n.routes.length ≤ 2) :
    ∃ n', n.step op = .ok n' ∧ Safe n' := by
  have map_ok' : ∀ {g : Go (Navigator F × Bool)}, (∃ n' b, g = .ok (n', b) ∧ Safe n') →
      ∃ n', g.map (·.1) = .ok n' ∧ Safe n' := by
    rintro g ⟨n', b, rfl, hs⟩; exact ⟨n', rfl, hs⟩
  cases op with
  | addRoute rs =>
    refine ⟨_, rfl, ?_⟩
    unfold addRoute
    split
    · exact h
    · simp only
      split
      · exact ⟨indexOk_reset _, h.offline, h.elevation⟩
      · rename_i hok
        refine ⟨?_, h.offline, h.elevation⟩
        -- nothing was added
        have hsame : ∀ (held : List (Route F)) (k : Nat) (l : List (Option (Route F))),
            k ≤ (addLoop held k l).2 ∧ ((addLoop held k l).2 = k → (addLoop held k l).1 = held) := by
          intro held k l
          induction l generalizing held k with
          | nil => simp [addLoop]
          | cons o l ih =>
            cases o with
            | none => exact ih held k
            | some r =>
              unfold addLoop
              split
              · exact ih held k
              · have := (ih (held ++ [r]) (k + 1)).1
                exact ⟨by omega, fun he => by omega⟩
        have := (hsame n.routes 0 rs).2 (by omega)
        unfold IndexOk
        simp only [this]
        exact h.index
  | removeRoute id =>
    refine ⟨_, rfl, ?_⟩
    unfold removeRoute
    split
    · exact h
    · simp only
      split
      · exact ⟨indexOk_reset _, h.offline, h.elevation⟩
      · exact h
  | removeTrack rid tid =>
    refine ⟨_, rfl, ?_⟩
    unfold removeTrack
    split
    · exact h
    · split
      · exact h
      · have hl : ∀ (p : Route F → Bool) (f : Route F → Route F) (l : List (Route F)),
            (updateFirst p f l).length = l.length := by
          intro p f l
          induction l with
          | nil => rfl
          | cons a l ih => unfold updateFirst; split <;> simp [ih]
        have hnil : ∀ (p : Route F → Bool) (f : Route F → Route F),
            n.routes = [] → updateFirst p f n.routes = [] := by
          intro p f hn; rw [hn]; rfl
        have hI := h.index
        simp only
        split
        · refine ⟨?_, h.offline, h.elevation⟩
          unfold IndexOk nextVersion at *
          simp only [hl]
          rcases hI with hI | hI
          · exact Or.inl (hnil _ _ hI)
          · exact Or.inr hI
        · refine ⟨?_, h.offline, h.elevation⟩
          unfold IndexOk at *
          simp only [hl]
          rcases hI with hI | hI
          · exact Or.inl (hnil _ _ hI)
          · exact Or.inr hI
  | resetRoutes =>
    refine ⟨_, rfl, ?_⟩
    unfold resetRoutes
    split
    · exact h
    · exact ⟨indexOk_reset _, h.offline, h.elevation⟩
  | reset => exact ⟨_, rfl, ⟨indexOk_reset _, h.offline, h.elevation⟩⟩
  | moveToSegment r t s => exact map_ok' (moveToSegment_ok n h r t s)
  | moveToRoute r => exact map_ok' (moveToSegment_ok n h r 0 0)
  | moveToTrack r t => exact map_ok' (moveToSegment_ok n h r t 0)
  | moveToRouteByID rid =>
    apply map_ok'
    unfold moveToRouteByID
    simp only
    split
    · exact ⟨n, false, rfl, h⟩
    · exact moveToSegment_ok n h _ 0 0
  | moveToTrackByID rid tid =>
    apply map_ok'
    unfold moveToTrackByID
    simp only
    split
    · exact ⟨n, false, rfl, h⟩
    · rename_i hne
      have hin : 0 ≤ n.indexRoute rid ∧ n.indexRoute rid < n.routes.length := by
        unfold indexRoute at hne ⊢
        split
        · rename_i hl; simp [hl] at hne
        · rename_i hl
          rw [if_neg hl] at hne
          cases hf : n.routes.findIdx? (fun r => r.id == rid) with
          | none => rw [hf] at hne; simp at hne
          | some i =>
            have := List.findIdx?_eq_some_iff_findIdx_eq.mp hf
            simp only; omega
      obtain ⟨r, -, hr2⟩ := goIndex_ok hin.1 hin.2
      rw [hr2]
      simp only [ok_bind]
      split
      · exact ⟨n, false, rfl, h⟩
      · exact moveToSegment_ok n h _ _ 0
  | toNextRoute =>
    apply map_ok'
    unfold toNextRoute
    split
    · exact moveToSegment_ok n h _ 0 0
    · exact ⟨n, false, rfl, h⟩
  | toPrevRoute =>
    apply map_ok'
    unfold toPrevRoute
    split
    · exact moveToSegment_ok n h _ 0 0
    · exact ⟨n, false, rfl, h⟩
  | destinationTo m => exact ⟨_, rfl, destinationTo_safe n h m (hd ⟨m, rfl⟩)⟩
  | toOffline x => exact toOffline_ok n h x
  | nextLocation tick speed x => exact map_ok' (nextLocation_ok n h tick speed x)
  | isFinish =>
    refine ⟨_, rfl, ?_⟩
    unfold isFinish
    split
    · exact ⟨h.index, h.offline, h.elevation⟩
    · exact h
  | nextElevation t =>
    obtain ⟨c', p, hp, hl⟩ := point_ok n.elevation.gen h.elevation t
    simp only [Navigator.step, nextElevation, Sensor.next, hp, ok_bind, pure_eq_ok]
    refine ⟨_, rfl, ⟨h.index, h.offline, ?_⟩⟩
    simp only
    intro hnil
    rw [hnil] at hl
    exact h.elevation (List.length_eq_zero_iff.mp hl.symm)
  | shuffleElevation draws =>
    refine ⟨_, rfl, ⟨h.index, h.offline, ?_⟩⟩
    simp only [shuffleElevation, Sensor.shuffle, Curve.shuffle]
    intro hnil
    have := congrArg List.length hnil
    rw [makePoints_length] at this
    exact h.elevation (List.length_eq_zero_iff.mp this)
  | onRoute i op =>
    refine ⟨_, rfl, ⟨?_, h.offline, h.elevation⟩⟩
    have := h.index
    unfold IndexOk at this ⊢
    simp only [List.length_modify]
    rcases this with h' | h'
    · left; rw [h']; cases i <;> rfl
    · exact Or.inr h'

end C07
end GpsGen
