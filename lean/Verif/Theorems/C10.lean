import Verif.Lemmas.Preserve
import Verif.Lemmas.WellFormed
import Verif.Lemmas.New
import Verif.Lemmas.Demo
import Verif.Theorems.C02
import Verif.Theorems.C03
import Verif.Theorems.C05
/-!
# C10: the progress counters never exceed the totals

Exact arithmetic. The full property fails when the client moves the cursor backwards, because
`MoveToSegment` does not take back the distance already counted (`backward_move_exceeds`). The
partial theorem covers every history without backward moves, jumps and changes of the tracks of a
held route.
-/

namespace GpsGen

namespace C10
open Navigator C02 C03

/-! ## The covered histories -/

/-- `p` comes after `q` in travel order. -/
def Later (p q : Int × Int × Int) : Prop :=
  q.1 < p.1 ∨ (q.1 = p.1 ∧ (q.2.1 < p.2.1 ∨ (q.2.1 = p.2.1 ∧ q.2.2 < p.2.2)))

def cursor (n : Navigator ℝ) : Int × Int × Int := (n.routeIndex, n.trackIndex, n.segmentIndex)

/-- Which operation may be applied in which state. -/
def Allowed (n n' : Navigator ℝ) : NavOp ℝ → Prop
  | .addRoute rs => ∀ r, some r ∈ rs → WFRoute r
  | .nextLocation t s _ => 0 ≤ t * s
  | .moveToSegment .. | .moveToRoute .. | .moveToTrack .. | .moveToRouteByID .. | .moveToTrackByID ..
  | .toNextRoute | .toPrevRoute => n' = n ∨ Later (cursor n') (cursor n)
  | .destinationTo _ => False
  | .removeTrack .. => False
  | .onRoute _ (.addTrack _) => False
  | .onRoute _ (.removeTrack _) => False
  | _ => True

/-- States reachable through covered histories. -/
inductive Reach : Navigator ℝ → Prop
  | init {uid draws opts n} (h : Navigator.new uid draws opts = .ok n) : Reach n
  | step {n op n'} (hr : Reach n) (ha : Allowed n n' op) (h : n.step op = .ok n') : Reach n'

/-! ## The invariant -/

noncomputable def segsBefore (n : Navigator ℝ) : ℝ :=
  match n.track? with
  | some t => psum (·.dist) t.segments n.segmentIndex.toNat
  | none => 0

noncomputable def tracksBefore (n : Navigator ℝ) : ℝ :=
  match n.route? with
  | some r => psum (·.dist) r.tracks n.trackIndex.toNat
  | none => 0

noncomputable def routesBefore (n : Navigator ℝ) : ℝ := psum (·.dist) n.routes n.routeIndex.toNat

noncomputable def segLen (n : Navigator ℝ) : ℝ :=
  match n.seg? with
  | some s => s.dist
  | none => 0

structure Inv (n : Navigator ℝ) : Prop where
  wf : ∀ r ∈ n.routes, WFRoute r
  sync : n.distance = (n.routes.map (·.dist)).sum
  index : n.IndexOk
  ti0 : 0 ≤ n.trackIndex
  si0 : 0 ≤ n.segmentIndex
  cs0 : 0 ≤ n.currentSegmentDistance
  ct0 : 0 ≤ n.currentTrackDistance
  cr0 : 0 ≤ n.currentRouteDistance
  cd0 : 0 ≤ n.currentDistance
  cs : n.currentSegmentDistance ≤ segLen n
  ct : n.currentTrackDistance ≤ segsBefore n + n.currentSegmentDistance
  cr : n.currentRouteDistance ≤ tracksBefore n + n.currentTrackDistance
  cd : n.currentDistance ≤ routesBefore n + n.currentRouteDistance + 1 / 10

theorem route_mem {n : Navigator ℝ} {r : Route ℝ} (h : n.route? = some r) : r ∈ n.routes :=
  List.mem_of_getElem? (goAt?_eq_some.mp h).2

theorem track_mem {n : Navigator ℝ} {t : Track ℝ} (h : n.track? = some t) :
    ∃ r, n.route? = some r ∧ r.tracks[n.trackIndex.toNat]? = some t := by
  unfold track? at h
  obtain ⟨r, hr, ht⟩ := Option.bind_eq_some_iff.mp h
  exact ⟨r, hr, (goAt?_eq_some.mp ht).2⟩

theorem seg_mem {n : Navigator ℝ} {s : Segment ℝ} (h : n.seg? = some s) :
    ∃ t, n.track? = some t ∧ t.segments[n.segmentIndex.toNat]? = some s := by
  unfold seg? at h
  obtain ⟨t, ht, hs⟩ := Option.bind_eq_some_iff.mp h
  exact ⟨t, ht, (goAt?_eq_some.mp hs).2⟩

theorem inv_wf_track {n : Navigator ℝ} (h : Inv n) {t : Track ℝ} (ht : n.track? = some t) :
    WFTrack t := by
  obtain ⟨r, hr, ht⟩ := track_mem ht
  exact (h.wf r (route_mem hr)).1 t (List.mem_of_getElem? ht)

/-- The distance up to the current position in the track is at most the track's length. -/
theorem track_bound {n : Navigator ℝ} (h : Inv n) :
    segsBefore n + n.currentSegmentDistance ≤ (n.track?.map (·.dist)).getD 0 := by
  have hcs := h.cs
  unfold segsBefore segLen at *
  cases ht : n.track? with
  | none =>
    have : n.seg? = none := by unfold seg?; rw [ht]; rfl
    rw [this] at hcs
    simpa using hcs
  | some t =>
    have hwf := inv_wf_track h ht
    simp only [Option.map_some, Option.getD_some]
    cases hs : n.seg? with
    | none =>
      rw [hs] at hcs
      simp only at hcs
      have := psum_le_sum (fun s : Segment ℝ => s.dist) t.segments hwf.1 n.segmentIndex.toNat
      rw [← hwf.2] at this
      linarith
    | some s =>
      rw [hs] at hcs
      simp only at hcs
      obtain ⟨t', ht', hs'⟩ := seg_mem hs
      rw [ht] at ht'; cases ht'
      have h1 := psum_succ (fun s : Segment ℝ => s.dist) _ _ _ hs'
      have := psum_le_sum (fun s : Segment ℝ => s.dist) t.segments hwf.1 (n.segmentIndex.toNat + 1)
      rw [← hwf.2] at this
      linarith

theorem route_bound {n : Navigator ℝ} (h : Inv n) :
    tracksBefore n + n.currentTrackDistance ≤ (n.route?.map (·.dist)).getD 0 := by
  have hct := le_trans h.ct (track_bound h)
  unfold tracksBefore
  cases hr : n.route? with
  | none =>
    have : n.track? = none := by unfold track?; rw [hr]; rfl
    rw [this] at hct
    simpa using hct
  | some r =>
    have hwf := h.wf r (route_mem hr)
    have hnn : ∀ t ∈ r.tracks, 0 ≤ t.dist := fun t ht => wf_track_nonneg (hwf.1 t ht)
    simp only [Option.map_some, Option.getD_some]
    cases ht : n.track? with
    | none =>
      rw [ht] at hct
      simp only [Option.map_none, Option.getD_none] at hct
      have := psum_le_sum (fun t : Track ℝ => t.dist) r.tracks hnn n.trackIndex.toNat
      rw [← hwf.2] at this
      linarith
    | some t =>
      rw [ht] at hct
      simp only [Option.map_some, Option.getD_some] at hct
      obtain ⟨r', hr', ht'⟩ := track_mem ht
      rw [hr] at hr'; cases hr'
      have h1 := psum_succ (fun t : Track ℝ => t.dist) _ _ _ ht'
      have := psum_le_sum (fun t : Track ℝ => t.dist) r.tracks hnn (n.trackIndex.toNat + 1)
      rw [← hwf.2] at this
      linarith

theorem total_bound {n : Navigator ℝ} (h : Inv n) :
    routesBefore n + n.currentRouteDistance ≤ n.distance := by
  have hcr := le_trans h.cr (route_bound h)
  have hnn : ∀ r ∈ n.routes, 0 ≤ r.dist := fun r hr => wf_route_nonneg (h.wf r hr)
  rw [h.sync]
  unfold routesBefore
  cases hr : n.route? with
  | none =>
    rw [hr] at hcr
    simp only [Option.map_none, Option.getD_none] at hcr
    have := psum_le_sum (fun r : Route ℝ => r.dist) n.routes hnn n.routeIndex.toNat
    linarith
  | some r =>
    rw [hr] at hcr
    simp only [Option.map_some, Option.getD_some] at hcr
    have h1 := psum_succ (fun r : Route ℝ => r.dist) _ _ _ (goAt?_eq_some.mp hr).2
    have := psum_le_sum (fun r : Route ℝ => r.dist) n.routes hnn (n.routeIndex.toNat + 1)
    linarith

/-! ## Preservation -/

theorem segLen_nonneg {n : Navigator ℝ} (hwf : ∀ r ∈ n.routes, WFRoute r) : 0 ≤ segLen n := by
  unfold segLen
  cases hs : n.seg? with
  | none => exact le_refl _
  | some s =>
    obtain ⟨t, ht, hs⟩ := seg_mem hs
    obtain ⟨r, hr, ht⟩ := track_mem ht
    exact ((hwf r (route_mem hr)).1 t (List.mem_of_getElem? ht)).1 s (List.mem_of_getElem? hs)

theorem reset_inv (n : Navigator ℝ) (hwf : ∀ r ∈ n.routes, WFRoute r) : Inv n.reset := by
  have hsync : n.reset.distance = (n.reset.routes.map (·.dist)).sum :=
    (inSync_real _).mp (calc_sync n)
  have hc : n.reset.currentSegmentDistance = 0 ∧ n.reset.currentTrackDistance = 0 ∧
      n.reset.currentRouteDistance = 0 ∧ n.reset.currentDistance = 0 := by
    simp [reset, calcRouteDistance, resetIndexes]
  obtain ⟨h1, h2, h3, h4⟩ := hc
  have hi : n.reset.routeIndex = 0 ∧ n.reset.trackIndex = 0 ∧ n.reset.segmentIndex = 0 :=
    ⟨rfl, rfl, rfl⟩
  have hb1 : 0 ≤ segsBefore n.reset := by
    unfold segsBefore; rw [hi.2.2]; split <;> simp
  have hb2 : 0 ≤ tracksBefore n.reset := by
    unfold tracksBefore; rw [hi.2.1]; split <;> simp
  have hb3 : 0 ≤ routesBefore n.reset := by
    unfold routesBefore; rw [hi.1]; simp
  have hidx : n.reset.IndexOk := by
    unfold IndexOk
    rw [hi.1]
    by_cases he : n.reset.routes = []
    · exact Or.inl he
    · right
      have := List.length_pos_of_ne_nil he
      omega
  exact ⟨hwf, hsync, hidx, by rw [hi.2.1], by rw [hi.2.2], by rw [h1], by rw [h2], by rw [h3],
    by rw [h4], by rw [h1]; exact segLen_nonneg hwf, by rw [h2, h1]; linarith,
    by rw [h3, h2]; linarith, by rw [h4, h3]; linarith⟩

theorem version_inv {n : Navigator ℝ} (h : Inv n) (v : Int) : Inv { n with version := v } :=
  ⟨h.wf, h.sync, h.index, h.ti0, h.si0, h.cs0, h.ct0, h.cr0, h.cd0, h.cs, h.ct, h.cr, h.cd⟩

theorem offline_inv {n : Navigator ℝ} (h : Inv n) (k : Int) : Inv { n with offlineIndex := k } :=
  ⟨h.wf, h.sync, h.index, h.ti0, h.si0, h.cs0, h.ct0, h.cr0, h.cd0, h.cs, h.ct, h.cr, h.cd⟩

theorem elevation_inv {n : Navigator ℝ} (h : Inv n) (e : Sensor ℝ) : Inv { n with elevation := e } :=
  ⟨h.wf, h.sync, h.index, h.ti0, h.si0, h.cs0, h.ct0, h.cr0, h.cd0, h.cs, h.ct, h.cr, h.cd⟩

theorem seg_of_nonempty {n : Navigator ℝ} (hne : n.curSeg.isEmpty = false) :
    n.seg? = some n.curSeg := curSeg_nonempty n hne

theorem adv_inv {n : Navigator ℝ} (h : Inv n) (hne : n.curSeg.isEmpty = false) :
    Inv n.advanceSegment := by
  have hseg := curSeg_nonempty n hne
  obtain ⟨t, ht, hs⟩ := seg_mem hseg
  have ht' : n.advanceSegment.track? = some t := ht
  have hcs := h.cs
  have hct := h.ct
  unfold segLen at hcs
  rw [hseg] at hcs
  simp only at hcs
  unfold segsBefore at hct
  rw [ht] at hct
  simp only at hct
  have hb : segsBefore n.advanceSegment =
      psum (·.dist) t.segments (n.segmentIndex.toNat + 1) := by
    unfold segsBefore
    rw [ht']
    have : n.advanceSegment.segmentIndex.toNat = n.segmentIndex.toNat + 1 := by
      have := h.si0
      simp only [advanceSegment]; omega
    rw [this]
  rw [psum_succ _ _ _ _ hs] at hb
  have hz : n.advanceSegment.currentSegmentDistance = 0 := by simp [advanceSegment]
  refine ⟨h.wf, h.sync, h.index, h.ti0, ?_, by rw [hz], h.ct0, h.cr0, h.cd0, ?_, ?_, h.cr, h.cd⟩
  · have := h.si0
    simp only [advanceSegment]; omega
  · rw [hz]; exact segLen_nonneg h.wf
  · rw [hz, hb]
    change n.currentTrackDistance ≤ _
    linarith

theorem land_inv {n : Navigator ℝ} (d : ℝ) (hd : 0 ≤ d) (h : Inv n) (hf : n.Fits d) :
    Inv (n.land d) := by
  have hseg := curSeg_nonempty n hf.1
  have hfit : n.currentSegmentDistance + d ≤ n.curSeg.dist := by simpa using hf.2
  have e1 : (n.land d).currentSegmentDistance = n.currentSegmentDistance + d := rfl
  have e2 : (n.land d).currentTrackDistance = n.currentTrackDistance + d := rfl
  have e3 : (n.land d).currentRouteDistance = n.currentRouteDistance + d := rfl
  have e4 : (n.land d).currentDistance = n.currentDistance + d := rfl
  have b1 : segsBefore (n.land d) = segsBefore n := rfl
  have b2 : tracksBefore (n.land d) = tracksBefore n := rfl
  have b3 : routesBefore (n.land d) = routesBefore n := rfl
  have b4 : segLen (n.land d) = n.curSeg.dist := by
    have : (n.land d).seg? = some n.curSeg := hseg
    unfold segLen; rw [this]
  have := h.cs0; have := h.ct0; have := h.cr0; have := h.cd0
  have := h.ct; have := h.cr; have := h.cd
  exact ⟨h.wf, h.sync, h.index, h.ti0, h.si0, by rw [e1]; linarith, by rw [e2]; linarith,
    by rw [e3]; linarith, by rw [e4]; linarith, by rw [e1, b4]; linarith,
    by rw [e2, e1, b1]; linarith, by rw [e3, e2, b2]; linarith, by rw [e4, e3, b3]; linarith⟩

theorem leave_inv {n : Navigator ℝ} (r : Route ℝ) (hr : n.route? = some r) (h : Inv n) :
    Inv (n.leaveTrack r) := by
  have ht := track_bound h
  have hrb := route_bound h
  have hri := goAt?_isSome.mp (show (goAt? n.routes n.routeIndex).isSome by
    unfold route? at hr; rw [hr]; rfl)
  have hct := h.ct; have hcr := h.cr; have hcd := h.cd
  have hwf := h.wf r (route_mem hr)
  rw [hr] at hrb
  simp only [Option.map_some, Option.getD_some] at hrb
  unfold leaveTrack
  split
  · rename_i hlt
    -- next track of the same route
    have hnext : ∃ t, r.tracks[n.trackIndex.toNat]? = some t := by
      have : n.trackIndex.toNat < r.tracks.length := by
        unfold Route.numTracks at hlt; have := h.ti0; omega
      exact ⟨_, List.getElem?_eq_getElem this⟩
    obtain ⟨t, htr⟩ := hnext
    have htk : n.track? = some t := by
      unfold track?; rw [hr]; exact goAt?_eq_some.mpr ⟨h.ti0, htr⟩
    rw [htk] at ht
    simp only [Option.map_some, Option.getD_some] at ht
    have hb : tracksBefore n = psum (·.dist) r.tracks n.trackIndex.toNat := by
      unfold tracksBefore; rw [hr]
    have hsucc := psum_succ (fun t : Track ℝ => t.dist) r.tracks _ _ htr
    refine ⟨h.wf, h.sync, h.index, ?_, ?_, ?_, ?_, h.cr0, h.cd0, ?_, ?_, ?_, h.cd⟩
    · have := h.ti0; simp only; omega
    · simp
    · simp
    · simp
    · simp only [real_lit, Rat.cast_zero]; exact segLen_nonneg h.wf
    · simp only [real_lit, Rat.cast_zero]
      unfold segsBefore; split <;> simp
    · simp only [real_lit, Rat.cast_zero]
      unfold tracksBefore
      have hr' : (goAt? n.routes n.routeIndex) = some r := hr
      simp only [route?, hr']
      rw [show (n.trackIndex + 1).toNat = n.trackIndex.toNat + 1 by have := h.ti0; omega]
      linarith
  · split
    · -- next route
      have hb : routesBefore n = psum (·.dist) n.routes n.routeIndex.toNat := rfl
      have hsucc := psum_succ (fun r : Route ℝ => r.dist) n.routes _ _ (goAt?_eq_some.mp hr).2
      refine ⟨h.wf, h.sync, ?_, ?_, ?_, ?_, ?_, ?_, h.cd0, ?_, ?_, ?_, ?_⟩
      · right; simp only; omega
      · simp
      · simp
      · simp
      · simp
      · simp
      · simp only [real_lit, Rat.cast_zero]; exact segLen_nonneg h.wf
      · simp only [real_lit, Rat.cast_zero]; unfold segsBefore; split <;> simp
      · simp only [real_lit, Rat.cast_zero]; unfold tracksBefore; split <;> simp
      · simp only [real_lit, Rat.cast_zero]
        unfold routesBefore
        simp only
        rw [show (n.routeIndex + 1).toNat = n.routeIndex.toNat + 1 by omega]
        linarith
    · -- back to the start
      refine ⟨h.wf, h.sync, ?_, ?_, ?_, ?_, ?_, ?_, ?_, ?_, ?_, ?_, ?_⟩
      · right; simp only; omega
      · simp
      · simp
      · simp
      · simp
      · simp
      · simp
      · simp only [real_lit, Rat.cast_zero]; exact segLen_nonneg h.wf
      · simp only [real_lit, Rat.cast_zero]; unfold segsBefore; split <;> simp
      · simp only [real_lit, Rat.cast_zero]; unfold tracksBefore; split <;> simp
      · simp only [real_lit, Rat.cast_zero]; unfold routesBefore; simp

theorem move_inv {n : Navigator ℝ} {a b c : Int} {s : Segment ℝ} (h : Inv n)
    (htg : n.target? a b c = some s) (hl : Later (a, b, c) (cursor n)) : Inv (n.movedTo a b c s) := by
  unfold target? at htg
  obtain ⟨r, hr, htg2⟩ := Option.bind_eq_some_iff.mp htg
  obtain ⟨t, ht, hs⟩ := Option.bind_eq_some_iff.mp htg2
  clear htg htg2
  have ha := goAt?_eq_some.mp hr
  have hb := goAt?_eq_some.mp ht
  have hc := goAt?_eq_some.mp hs
  have hrm : r ∈ n.routes := List.mem_of_getElem? ha.2
  have hwf := h.wf r hrm
  have hwt := hwf.1 t (List.mem_of_getElem? hb.2)
  have hr' : (n.movedTo a b c s).route? = some r := hr
  have ht' : (n.movedTo a b c s).track? = some t := by
    unfold track?; rw [hr']; exact ht
  have s1 : segsBefore (n.movedTo a b c s) = psum (·.dist) t.segments c.toNat := by
    unfold segsBefore; rw [ht']; rfl
  have s2 : tracksBefore (n.movedTo a b c s) = psum (·.dist) r.tracks b.toNat := by
    unfold tracksBefore; rw [hr']; rfl
  have s3 : routesBefore (n.movedTo a b c s) = psum (·.dist) n.routes a.toNat := rfl
  have nn1 := hwt.1
  have nn2 : ∀ t ∈ r.tracks, 0 ≤ t.dist := fun t ht => wf_track_nonneg (hwf.1 t ht)
  have nn3 : ∀ r ∈ n.routes, 0 ≤ r.dist := fun r hr => wf_route_nonneg (h.wf r hr)
  have p1 := psum_nonneg (fun s : Segment ℝ => s.dist) t.segments nn1 c.toNat
  have p2 := psum_nonneg (fun t : Track ℝ => t.dist) r.tracks nn2 b.toNat
  have p3 := psum_nonneg (fun r : Route ℝ => r.dist) n.routes nn3 a.toNat
  have bt := track_bound h
  have br := route_bound h
  have hri0 : 0 ≤ n.routeIndex := by
    rcases h.index with he | he
    · rw [he] at hrm; simp at hrm
    · exact he.1
  unfold Later cursor at hl
  simp only at hl
  have hidx : (n.movedTo a b c s).IndexOk := Or.inr (by
    have := (List.getElem?_eq_some_iff.mp ha.2).1
    simp only [movedTo]; omega)
  have hcs : (n.movedTo a b c s).currentSegmentDistance = 0 := by simp [movedTo]
  -- travelled distance up to the target covers what has been counted
  have hct : (n.movedTo a b c s).currentTrackDistance ≤ psum (·.dist) t.segments c.toNat ∧
      0 ≤ (n.movedTo a b c s).currentTrackDistance := by
    simp only [movedTo]
    split
    · rename_i he
      refine ⟨?_, h.ct0⟩
      obtain ⟨rfl, rfl⟩ := he
      have htn : n.track? = some t := by unfold track? route?; rw [hr]; exact ht
      have hlt : n.segmentIndex < c := by omega
      have hsn := psum_mono (fun s : Segment ℝ => s.dist) t.segments nn1
        (show n.segmentIndex.toNat + 1 ≤ c.toNat by have := h.si0; omega)
      have hseg : ∃ s', t.segments[n.segmentIndex.toNat]? = some s' := by
        have := (List.getElem?_eq_some_iff.mp hc.2).1
        exact ⟨_, List.getElem?_eq_getElem (by have := h.si0; omega)⟩
      obtain ⟨s', hs'⟩ := hseg
      have hsegn : n.seg? = some s' := by
        unfold seg?; rw [htn]; exact goAt?_eq_some.mpr ⟨h.si0, hs'⟩
      have h1 := h.ct
      have h2 := h.cs
      unfold segsBefore at h1
      unfold segLen at h2
      rw [htn] at h1
      rw [hsegn] at h2
      simp only at h1 h2
      rw [psum_succ _ _ _ _ hs'] at hsn
      linarith
    · simp only [real_lit, Rat.cast_zero]
      exact ⟨p1, le_refl _⟩
  have hcr : (n.movedTo a b c s).currentRouteDistance ≤
      psum (·.dist) r.tracks b.toNat + (n.movedTo a b c s).currentTrackDistance ∧
      0 ≤ (n.movedTo a b c s).currentRouteDistance := by
    have h0 := hct.2
    simp only [movedTo] at h0 ⊢
    split
    · rename_i he
      refine ⟨?_, h.cr0⟩
      subst he
      have hrn : n.route? = some r := hr
      have h1 := h.cr
      unfold tracksBefore at h1
      rw [hrn] at h1
      simp only at h1
      by_cases hbt : b = n.trackIndex
      · subst hbt
        simpa using h1
      · simp only [hbt, and_false, if_false, real_lit, Rat.cast_zero, add_zero]
        have hlt : n.trackIndex < b := by omega
        have htn' : ∃ t', r.tracks[n.trackIndex.toNat]? = some t' := by
          have := (List.getElem?_eq_some_iff.mp hb.2).1
          exact ⟨_, List.getElem?_eq_getElem (by have := h.ti0; omega)⟩
        obtain ⟨t', ht'⟩ := htn'
        have htn : n.track? = some t' := by
          unfold track?; rw [hrn]; exact goAt?_eq_some.mpr ⟨h.ti0, ht'⟩
        have hm := psum_mono (fun t : Track ℝ => t.dist) r.tracks nn2
          (show n.trackIndex.toNat + 1 ≤ b.toNat by have := h.ti0; omega)
        rw [psum_succ _ _ _ _ ht'] at hm
        rw [htn] at bt
        simp only [Option.map_some, Option.getD_some] at bt
        have := h.ct
        linarith
    · simp only [real_lit, Rat.cast_zero] at h0 ⊢
      exact ⟨by linarith, le_refl _⟩
  have hcd : n.currentDistance ≤
      psum (·.dist) n.routes a.toNat + (n.movedTo a b c s).currentRouteDistance + 1 / 10 := by
    have h1 := h.cd
    unfold routesBefore at h1
    have h0 := hcr.2
    simp only [movedTo] at h0 ⊢
    by_cases har : a = n.routeIndex
    · subst har
      simpa using h1
    · simp only [har, if_false, real_lit, Rat.cast_zero, add_zero]
      have hlt : n.routeIndex < a := by omega
      have hrn' : ∃ r', n.routes[n.routeIndex.toNat]? = some r' := by
        have := (List.getElem?_eq_some_iff.mp ha.2).1
        exact ⟨_, List.getElem?_eq_getElem (by omega)⟩
      obtain ⟨r', hr'⟩ := hrn'
      have hrn : n.route? = some r' := goAt?_eq_some.mpr ⟨hri0, hr'⟩
      have hm := psum_mono (fun r : Route ℝ => r.dist) n.routes nn3
        (show n.routeIndex.toNat + 1 ≤ a.toNat by omega)
      rw [psum_succ _ _ _ _ hr'] at hm
      rw [hrn] at br
      simp only [Option.map_some, Option.getD_some] at br
      have := h.cr
      linarith
  refine ⟨h.wf, h.sync, hidx, hb.1, hc.1, by rw [hcs], hct.2, hcr.2, h.cd0, ?_, ?_, ?_, ?_⟩
  · rw [hcs]; exact segLen_nonneg h.wf
  · rw [s1, hcs, add_zero]; exact hct.1
  · rw [s2]; exact hcr.1
  · rw [s3]; exact hcd

theorem addLoop_mem (l : List (Route ℝ)) (k : Nat) (rs : List (Option (Route ℝ))) (r : Route ℝ)
    (h : r ∈ (addLoop l k rs).1) : r ∈ l ∨ some r ∈ rs := by
  induction rs generalizing l k with
  | nil => exact Or.inl h
  | cons o rs ih =>
    cases o with
    | none => rcases ih l k h with h | h
              · exact Or.inl h
              · exact Or.inr (List.mem_cons_of_mem _ h)
    | some q =>
      unfold addLoop at h
      split at h
      · rcases ih _ _ h with h | h
        · exact Or.inl h
        · exact Or.inr (List.mem_cons_of_mem _ h)
      · rcases ih _ _ h with h | h
        · rcases List.mem_append.mp h with h | h
          · exact Or.inl h
          · simp at h; subst h; exact Or.inr List.mem_cons_self
        · exact Or.inr (List.mem_cons_of_mem _ h)

theorem updateRoute_inv {n : Navigator ℝ} (h : Inv n) (i : Nat) (op : RouteOp ℝ)
    (hop : match op with | .addTrack _ | .removeTrack _ => False | _ => True) :
    Inv { n with routes := n.routes.modify i (fun r => r.apply op) } := by
  -- the operation keeps lengths and segments of all tracks
  have hkeep : ∀ r : Route ℝ, (r.apply op).dist = r.dist ∧
      (r.apply op).tracks.map (fun t => (t.dist, t.segments)) =
        r.tracks.map (fun t => (t.dist, t.segments)) := by
    intro r
    cases op with
    | addTrack _ => exact hop.elim
    | removeTrack _ => exact hop.elim
    | trackByID id =>
      simp only [Route.apply, Route.trackByID]
      split
      · exact ⟨rfl, rfl⟩
      · split <;> exact ⟨rfl, rfl⟩
    | changeColor c => simp only [Route.apply, Route.changeColor]; split <;> exact ⟨rfl, rfl⟩
    | changeName s => simp only [Route.apply, Route.changeName]; split <;> exact ⟨rfl, rfl⟩
    | setProps m => exact ⟨rfl, rfl⟩
    | onTrack j top =>
      refine ⟨rfl, ?_⟩
      apply map_modify_of_eq
      intro t
      cases top with
      | changeColor c => cases c <;> rfl
      | changeName s => simp only [Track.apply, Track.changeName]; split <;> rfl
      | setProps m => rfl
  generalize hm : ({ n with routes := n.routes.modify i (fun r => r.apply op) } : Navigator ℝ) = m
  have hmr : m.routes = n.routes.modify i (fun r => r.apply op) := by rw [← hm]
  have hwf : ∀ r ∈ m.routes, WFRoute r := by
    intro r hr
    rw [hmr] at hr
    rcases mem_modify hr with hr | ⟨q, hq, rfl⟩
    · exact h.wf r hr
    · refine route_apply_wf q op ?_ (h.wf q hq)
      intro t ht
      subst ht
      exact hop.elim
  -- the positional view is the same
  have hview : m.routes.map (fun r => (r.dist, r.tracks.map (fun t => (t.dist, t.segments)))) =
      n.routes.map (fun r => (r.dist, r.tracks.map (fun t => (t.dist, t.segments)))) := by
    rw [hmr]
    apply map_modify_of_eq
    intro r
    rw [(hkeep r).1, (hkeep r).2]
  have f1 : m.routeIndex = n.routeIndex := by rw [← hm]
  have f2 : m.trackIndex = n.trackIndex := by rw [← hm]
  have f3 : m.segmentIndex = n.segmentIndex := by rw [← hm]
  have f4 : m.currentSegmentDistance = n.currentSegmentDistance := by rw [← hm]
  have f5 : m.currentTrackDistance = n.currentTrackDistance := by rw [← hm]
  have f6 : m.currentRouteDistance = n.currentRouteDistance := by rw [← hm]
  have f7 : m.currentDistance = n.currentDistance := by rw [← hm]
  have f8 : m.distance = n.distance := by rw [← hm]
  have hd : m.routes.map (·.dist) = n.routes.map (·.dist) := by
    have := congrArg (List.map Prod.fst) hview
    simpa [List.map_map, Function.comp_def] using this
  have hr : m.route?.map (fun r => r.tracks.map (fun t => (t.dist, t.segments))) =
      n.route?.map (fun r => r.tracks.map (fun t => (t.dist, t.segments))) := by
    have := congrArg (fun l => goAt? (l.map Prod.snd) n.routeIndex) hview
    simp only [List.map_map, Function.comp_def] at this
    unfold route? goAt? at *
    rw [f1]
    split
    · rename_i h0
      simp only [h0, if_true, List.getElem?_map] at this
      exact this
    · rfl
  have ht : m.track?.map (fun t => (t.dist, t.segments)) =
      n.track?.map (fun t => (t.dist, t.segments)) := by
    have key : ∀ k : Navigator ℝ, k.track?.map (fun t => (t.dist, t.segments)) =
        (k.route?.map (fun r => r.tracks.map (fun t => (t.dist, t.segments)))).bind
          (fun l => goAt? l k.trackIndex) := by
      intro k
      unfold track?
      cases k.route? with
      | none => rfl
      | some r =>
        simp only [Option.bind_some, Option.map_some]
        unfold goAt?
        split
        · simp
        · rfl
    rw [key m, key n, hr, f2]
  have hs : m.seg? = n.seg? := by
    have key : ∀ k : Navigator ℝ, k.seg? =
        (k.track?.map (fun t => (t.dist, t.segments))).bind (fun p => goAt? p.2 k.segmentIndex) := by
      intro k
      unfold seg?
      cases k.track? <;> rfl
    rw [key m, key n, ht, f3]
  have g1 : segLen m = segLen n := by unfold segLen; rw [hs]
  have g2 : segsBefore m = segsBefore n := by
    unfold segsBefore
    rw [f3]
    cases h1 : m.track? with
    | none =>
      rw [h1] at ht
      cases h2 : n.track? with
      | none => rfl
      | some t => rw [h2] at ht; cases ht
    | some t =>
      rw [h1] at ht
      cases h2 : n.track? with
      | none => rw [h2] at ht; cases ht
      | some u =>
        rw [h2] at ht
        simp only [Option.map_some, Option.some.injEq, Prod.mk.injEq] at ht
        simp only [ht.2]
  have g3 : tracksBefore m = tracksBefore n := by
    unfold tracksBefore
    rw [f2]
    cases h1 : m.route? with
    | none =>
      rw [h1] at hr
      cases h2 : n.route? with
      | none => rfl
      | some t => rw [h2] at hr; cases hr
    | some t =>
      rw [h1] at hr
      cases h2 : n.route? with
      | none => rw [h2] at hr; cases hr
      | some u =>
        rw [h2] at hr
        simp only [Option.map_some, Option.some.injEq] at hr
        have := congrArg (List.map Prod.fst) hr
        simp only [List.map_map, Function.comp_def] at this
        simp only [psum, List.map_take, this]
  have g4 : routesBefore m = routesBefore n := by
    unfold routesBefore psum
    rw [f1, List.map_take, List.map_take, hd]
  have hlen : m.routes.length = n.routes.length := by rw [hmr]; simp
  refine ⟨hwf, by rw [f8, hd]; exact h.sync, ?_, by rw [f2]; exact h.ti0, by rw [f3]; exact h.si0,
    by rw [f4]; exact h.cs0, by rw [f5]; exact h.ct0, by rw [f6]; exact h.cr0,
    by rw [f7]; exact h.cd0, by rw [f4, g1]; exact h.cs, by rw [f5, g2, f4]; exact h.ct,
    by rw [f6, g3, f5]; exact h.cr, by rw [f7, g4, f6]; exact h.cd⟩
  rcases h.index with he | he
  · left
    rw [← List.length_eq_zero_iff, hlen, he]; rfl
  · right
    rw [f1, hlen]; exact he

theorem step_inv {n n' : Navigator ℝ} {op : NavOp ℝ} (h : Inv n) (ha : Allowed n n' op)
    (hs : n.step op = .ok n') : Inv n' := by
  have mv : (n' = n ∨ Later (cursor n') (cursor n)) →
      (n' = n ∨ ∃ a b c ok, n.moveToSegment a b c = .ok (n', ok)) → Inv n' := by
    intro ha hm
    rcases hm with rfl | ⟨a, b, c, ok, hm⟩
    · exact h
    · rcases moveToSegment_cases hm with ⟨rfl, -⟩ | ⟨s, ht, hne, rfl, -⟩
      · exact h
      · rcases ha with he | hl
        · rw [he]; exact h
        · exact move_inv h ht hl
  cases op with
  | addRoute rs =>
    cases hs
    unfold addRoute
    split
    · exact h
    · simp only
      split
      · refine version_inv (reset_inv _ ?_) _
        intro r hr
        rcases addLoop_mem _ _ _ _ hr with hr | hr
        · exact h.wf r hr
        · exact ha r hr
      · have he := (addLoop_count n.routes 0 rs).2 (by omega)
        rw [he]
        exact h
  | removeRoute id =>
    cases hs
    unfold removeRoute
    split
    · exact h
    · simp only [removeFirst_eq]
      split
      · refine reset_inv _ ?_
        intro r hr
        exact h.wf r (List.mem_of_mem_eraseP hr)
      · exact h
  | removeTrack _ _ => exact ha.elim
  | resetRoutes =>
    cases hs
    unfold resetRoutes
    split
    · exact h
    · exact version_inv (reset_inv _ (by simp)) _
  | reset => cases hs; exact reset_inv n h.wf
  | moveToSegment _ _ _ => exact mv ha (move_cases hs trivial)
  | moveToRoute _ => exact mv ha (move_cases hs trivial)
  | moveToTrack _ _ => exact mv ha (move_cases hs trivial)
  | moveToRouteByID _ => exact mv ha (move_cases hs trivial)
  | moveToTrackByID _ _ => exact mv ha (move_cases hs trivial)
  | toNextRoute => exact mv ha (move_cases hs trivial)
  | toPrevRoute => exact mv ha (move_cases hs trivial)
  | destinationTo _ => exact ha.elim
  | toOffline x =>
    rcases toOffline_cases hs with ⟨-, rfl⟩ | ⟨_, _, _, rfl⟩
    · exact h
    · exact offline_inv h _
  | nextLocation t s x =>
    obtain ⟨b, hs⟩ := map_fst_ok hs
    exact nextLocation_preserves Inv (fun m hm he _ => adv_inv hm he)
      (fun m r hm hr hf => land_inv _ ha hm hf) (fun m r hm hr => leave_inv r hr hm)
      (fun m k hm => offline_inv hm k) h hs
  | isFinish =>
    cases hs
    unfold isFinish
    split
    · refine ⟨h.wf, h.sync, h.index, h.ti0, h.si0, h.cs0, h.ct0, h.cr0, by simp, h.cs, h.ct, h.cr, ?_⟩
      have h1 := h.cr0
      have h2 : 0 ≤ routesBefore n :=
        psum_nonneg _ _ (fun r hr => wf_route_nonneg (h.wf r hr)) _
      simp only [real_lit, Rat.cast_zero]
      change 0 ≤ routesBefore n + n.currentRouteDistance + 1 / 10
      linarith
    · exact h
  | nextElevation t =>
    simp only [step, nextElevation] at hs
    cases he : n.elevation.next t with
    | error e => rw [he] at hs; cases hs
    | ok s => rw [he] at hs; cases hs; exact elevation_inv h _
  | shuffleElevation draws => cases hs; exact elevation_inv h _
  | onRoute i rop =>
    cases hs
    refine updateRoute_inv h i rop ?_
    cases rop <;> trivial

theorem reach_inv {n : Navigator ℝ} (h : Reach n) : Inv n := by
  induction h with
  | init h =>
    obtain ⟨_, _, _, -, -, -, rfl⟩ := new_cases h
    refine ⟨by simp [newState], by simp [newState], Or.inl rfl, by simp [newState],
      by simp [newState], by simp [newState], by simp [newState], by simp [newState],
      by simp [newState], ?_, ?_, ?_, ?_⟩ <;>
    simp [newState, segLen, seg?, track?, route?, goAt?, segsBefore, tracksBefore, routesBefore, psum]
  | step _ ha hs ih => exact step_inv ih ha hs

/-! ## The theorem -/

/-- **C10 (partial).** In every state reachable through histories in which moves only go forward
(no jumps, no change of the tracks of a held route, steps of non-negative length): the four counters
are non-negative, the distance travelled in the current track, route and in total is at most the
length reported by `TrackDistance()`, `RouteDistance()` and `Distance()` (the total up to the 0.1 m
restart marker). Missing for the full property: backward moves and jumps, for which it is false or
open. -/
theorem counters_bounded_partial (n : Navigator ℝ) (h : Reach n) :
    (0 ≤ n.currentSegmentDistance ∧ 0 ≤ n.currentTrackDistance ∧ 0 ≤ n.currentRouteDistance ∧
      0 ≤ n.currentDistance) ∧
    (∃ d, n.segmentDistance = .ok d ∧ n.currentSegmentDistance ≤ d) ∧
    (∃ d, n.trackDistance = .ok d ∧ n.currentTrackDistance ≤ d) ∧
    (∃ d, n.routeDistance = .ok d ∧ n.currentRouteDistance ≤ d) ∧
    n.currentDistance ≤ n.distance + 1 / 10 := by
  have hi := reach_inv h
  have b1 := track_bound hi
  have b2 := route_bound hi
  have b3 := total_bound hi
  have hct := hi.ct; have hcr := hi.cr; have hcd := hi.cd; have hcs := hi.cs
  refine ⟨⟨hi.cs0, hi.ct0, hi.cr0, hi.cd0⟩, ?_, ?_, ?_, by linarith⟩
  · refine ⟨segLen n, ?_, hcs⟩
    unfold segmentDistance
    rw [currentSegment_eq n hi.index]
    unfold segLen
    cases hs : n.seg? with
    | none => simp [zero_isEmpty]
    | some s =>
      by_cases he : s.isEmpty = true
      · have : s.dist = 0 := by simpa [Segment.isEmpty] using he
        simp [he, zero_isEmpty, this]
      · simp [he]
  · refine ⟨(n.track?.map (·.dist)).getD 0, ?_, by linarith⟩
    unfold trackDistance
    rw [currentTrack_eq n hi.index]
    cases n.track? <;> simp
  · refine ⟨(n.route?.map (·.dist)).getD 0, ?_, by linarith⟩
    unfold routeDistance
    rw [currentRoute_eq n hi.index]
    cases n.route? <;> simp

/-! ## The full property fails -/

/-- A navigator with two one-degree routes, at distance `c` into route `i`, having counted `d`. -/
noncomputable def twoNav (i : Int) (c d : ℝ) (p : LatLon ℝ) : Navigator ℝ :=
  { freshNav true with
    routes := [eqRoute "a" "t" "#000000" 0 1, eqRoute "b" "t" "#000000" 1 2], routeIndex := i
    currentSegmentDistance := c, currentTrackDistance := c, currentRouteDistance := c
    currentDistance := d, point := p, distance := 2 * degLen, version := 1 }

theorem two_added : ((freshNav true).addRoute
      [some (eqRoute "a" "t" "#000000" 0 1), some (eqRoute "b" "t" "#000000" 1 2)]) =
    (twoNav 0 0 0 ⟨0, 0⟩, none) := by
  have h : |(2 : ℝ) - 1| = 1 := by norm_num
  simp [addRoute, addLoop, freshNav, hasRoute, reset, resetIndexes, calcRouteDistance, nextVersion,
    twoNav, eqRoute, h]
  ring

theorem two_step (i : Int) (hi : i = 0 ∨ i = 1) (d : ℝ) (p : LatLon ℝ) :
    ∃ p', (twoNav i 0 d p).nextLocation degLen 1 0 = .ok (twoNav i degLen (d + degLen) p', true) := by
  have h21 : |(2 : ℝ) - 1| = 1 := by norm_num
  rcases hi with rfl | rfl
  · refine ⟨((twoNav 0 0 d p).land (degLen * 1)).point, ?_⟩
    have hc : (twoNav 0 0 d p).curSeg = eqSeg 0 1 0 (-1) := by
      have : (twoNav 0 0 d p).seg? = some (eqSeg 0 1 0 (-1)) := rfl
      simp [curSeg, this, oneSeg_nonempty]
    have := nextLocation_land (twoNav 0 0 d p) degLen 1 0 (eqRoute "a" "t" "#000000" 0 1) rfl rfl
      ⟨by rw [hc]; exact oneSeg_nonempty, by rw [hc]; simp [twoNav, eqSeg]⟩
    rw [this]
    simp [land, updateDist, twoNav]
  · refine ⟨((twoNav 1 0 d p).land (degLen * 1)).point, ?_⟩
    have hne : (eqSeg 1 2 0 (-1)).isEmpty = false := eqSeg_nonempty _ _ _ _ (by norm_num)
    have hc : (twoNav 1 0 d p).curSeg = eqSeg 1 2 0 (-1) := by
      have : (twoNav 1 0 d p).seg? = some (eqSeg 1 2 0 (-1)) := rfl
      simp [curSeg, this, hne]
    have := nextLocation_land (twoNav 1 0 d p) degLen 1 0 (eqRoute "b" "t" "#000000" 1 2) rfl rfl
      ⟨by rw [hc]; exact hne, by rw [hc]; simp [twoNav, eqSeg, h21]⟩
    rw [this]
    simp [land, updateDist, twoNav]

theorem two_next (c d : ℝ) (p : LatLon ℝ) :
    ∃ p', (twoNav 0 c d p).toNextRoute = .ok (twoNav 1 0 d p', true) := by
  refine ⟨⟨0, 1⟩, ?_⟩
  unfold toNextRoute moveToRoute
  rw [if_pos (by simp [twoNav]), moveToSegment_eq]
  have : (twoNav 0 c d p).target? ((twoNav 0 c d p).routeIndex + 1) 0 0 =
    some (eqSeg 1 2 0 (-1)) := rfl
  rw [if_neg (by simp [twoNav]), this]
  simp [movedTo, twoNav, freshNav, eqSeg, eqPt]

theorem two_prev (c d : ℝ) (p : LatLon ℝ) :
    ∃ p', (twoNav 1 c d p).toPrevRoute = .ok (twoNav 0 0 d p', true) := by
  refine ⟨⟨0, 0⟩, ?_⟩
  unfold toPrevRoute moveToRoute
  rw [if_pos (by simp [twoNav]), moveToSegment_eq]
  have : (twoNav 1 c d p).target? ((twoNav 1 c d p).routeIndex - 1) 0 0 =
    some (eqSeg 0 1 0 (-1)) := rfl
  rw [if_neg (by simp [twoNav]), this]
  simp [movedTo, twoNav, freshNav, eqSeg, eqPt]

/-- **The full property fails.** Two routes of one degree each: walk the first, walk the second, go
back with `PrevRoute` and walk the first again. `CurrentDistance()` is then three degrees although
`Distance()` is two. -/
theorem backward_move_exceeds :
    ∃ n : Navigator ℝ, (freshNav true).run
      [.addRoute [some (eqRoute "a" "t" "#000000" 0 1), some (eqRoute "b" "t" "#000000" 1 2)],
       .nextLocation degLen 1 0, .toNextRoute, .nextLocation degLen 1 0, .toPrevRoute,
       .nextLocation degLen 1 0] = .ok n ∧
      n.currentDistance = 3 * degLen ∧ n.distance = 2 * degLen ∧ n.distance + 1 / 10 < n.currentDistance := by
  obtain ⟨p1, h1⟩ := two_step 0 (Or.inl rfl) 0 ⟨0, 0⟩
  obtain ⟨p2, h2⟩ := two_next degLen (0 + degLen) p1
  obtain ⟨p3, h3⟩ := two_step 1 (Or.inr rfl) (0 + degLen) p2
  obtain ⟨p4, h4⟩ := two_prev degLen (0 + degLen + degLen) p3
  obtain ⟨p5, h5⟩ := two_step 0 (Or.inl rfl) (0 + degLen + degLen) p4
  have hd := degLen_gt
  refine ⟨twoNav 0 degLen (0 + degLen + degLen + degLen) p5, ?_, ?_, rfl, ?_⟩
  · simp only [Navigator.run, Navigator.step, two_added, ok_bind, h1, h2, h3, h4, h5, map_ok]
  · simp [twoNav]; ring
  · simp only [twoNav]; linarith

/-- Non-vacuity: walking one step on the one-degree route is a covered history. -/
example : Reach ((oneNav true).land (5 * 1)) ∧ ((oneNav true).land (5 * 1)).currentDistance = 5 := by
  have hd := degLen_gt
  have hs := oneNav_step true 5 1 0 (by linarith)
  refine ⟨?_, by simp [land, updateDist, oneNav, freshNav]⟩
  have h1 : (freshNav true).step (.addRoute [some oneRoute]) = .ok (oneNav true) := by
    simp [Navigator.step, oneNav_add]
  have h2 : (oneNav true).step (.nextLocation 5 1 0) = .ok ((oneNav true).land (5 * 1)) := by
    simp only [Navigator.step, hs, map_ok]
  refine Reach.step (Reach.step (Reach.init (freshNav_new true)) ?_ h1) ?_ h2
  · intro r hr
    simp at hr
    subst hr
    have hw := new_wf "t" "#000000" [eqPt 0, eqPt 1] _ (Or.inl (eqTrack_new "t" "#000000" 0 1 (by norm_num)))
    refine ⟨?_, ?_⟩
    · intro t ht
      simp [oneRoute, eqRoute] at ht
      subst ht; exact hw
    · simp [oneRoute, eqRoute, eqTrack]
  · simp [Allowed]

end C10
end GpsGen
