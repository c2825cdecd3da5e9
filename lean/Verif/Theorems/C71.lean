import Verif.Model.RawText
import Verif.Lemmas.Wire
/-!
# C71: whatever text a device accepts, its packets are delivered

The claim is false. `SetUserID`, `SetDescription` and `SetModel` accept text that is not valid UTF-8, and one such text
makes the encoding of the whole slice fail: no device of the slice is delivered (`user_id_spoils` and the like), in every
tick. Without an `OnError` callback `OnPacket` is called with whatever the failed encoding left (`wreck_delivered`).
Delivered, and complete, is exactly a slice whose texts are all valid (`delivered_iff_partial`).
-/

namespace GpsGen
namespace C71

/-! ## Specification -/

/-- The bytes are the UTF-8 form of some text. -/
def IsText (s : GoStr) : Prop := ∃ t : String, s = utf8 t

/-- The texts of a device message. -/
def Clean (t : RawTexts) : Prop :=
  IsText t.id ∧ IsText t.userId ∧ IsText t.model ∧ IsText t.description ∧ IsText t.color ∧ IsText t.routeId ∧
  IsText t.trackId ∧ (∀ s ∈ t.sensors, IsText s.1 ∧ IsText s.2) ∧
  ∀ r ∈ t.routes, IsText r.1 ∧ IsText r.2.1 ∧ ∀ k ∈ r.2.2, IsText k.1 ∧ IsText k.2

/-! ## Proof -/

theorem valid_iff (s : GoStr) : s.valid = true ↔ IsText s := by
  unfold GoStr.valid IsText
  constructor
  · intro h
    obtain ⟨t, ht⟩ := Option.isSome_iff_exists.mp h
    refine ⟨t, ?_⟩
    unfold String.fromUTF8? at ht
    split at ht
    · cases ht
      rfl
    · cases ht
  · rintro ⟨t, rfl⟩
    rw [utf8_valid]
    rfl

theorem all_clean (t : RawTexts) : (t.all.any fun s => !s.valid) = false ↔ Clean t := by
  unfold RawTexts.all Clean
  rw [List.any_eq_false]
  simp only [List.mem_append, List.mem_cons, List.not_mem_nil, or_false, List.mem_flatMap, Bool.not_eq_true',
    Bool.not_eq_false, valid_iff]
  constructor
  · intro h
    exact ⟨h _ (by simp), h _ (by simp), h _ (by simp), h _ (by simp), h _ (by simp), h _ (by simp), h _ (by simp),
      fun s hs => ⟨h _ (Or.inl (Or.inr ⟨s, hs, by simp⟩)), h _ (Or.inl (Or.inr ⟨s, hs, by simp⟩))⟩,
      fun r hr => ⟨h _ (Or.inr ⟨r, hr, by simp⟩), h _ (Or.inr ⟨r, hr, by simp⟩), fun k hk =>
        ⟨h _ (Or.inr ⟨r, hr, Or.inr ⟨k, hk, by simp⟩⟩), h _ (Or.inr ⟨r, hr, Or.inr ⟨k, hk, by simp⟩⟩)⟩⟩⟩
  · rintro ⟨h1, h2, h3, h4, h5, h6, h7, h8, h9⟩ x hx
    rcases hx with (hx | ⟨s, hs, hx⟩) | ⟨r, hr, hx | ⟨k, hk, hx⟩⟩
    · rcases hx with rfl | rfl | rfl | rfl | rfl | rfl | rfl <;> assumption
    · rcases hx with rfl | rfl
      · exact (h8 s hs).1
      · exact (h8 s hs).2
    · rcases hx with rfl | rfl
      · exact (h9 r hr).1
      · exact (h9 r hr).2.1
    · rcases hx with rfl | rfl
      · exact ((h9 r hr).2.2 k hk).1
      · exact ((h9 r hr).2.2 k hk).2

theorem fails_iff (ds : List RawTexts) : marshalFails ds = false ↔ ∀ t ∈ ds, Clean t := by
  unfold marshalFails
  rw [List.any_eq_false]
  constructor
  · intro h t ht
    exact (all_clean t).mp (by simpa using h t ht)
  · intro h t ht
    simpa using (all_clean t).mpr (h t ht)

/-- **C71, what holds.** With both callbacks set a slice is delivered if and only if the texts of all its devices are
valid; otherwise the error callback is called, and nothing is delivered. The full claim drops the condition on the texts. -/
theorem delivered_iff_partial (ds : List RawTexts) (data : Bytes) :
    (handOver true true ds data = .packet data ↔ ∀ t ∈ ds, Clean t) ∧
    (handOver true true ds data = .error ↔ ¬ ∀ t ∈ ds, Clean t) := by
  rw [← fails_iff]
  unfold handOver
  cases marshalFails ds <;> simp

/-- **C71, negation.** Every text that is not valid is accepted as user id, and spoils every packet its device is part of,
for all devices in it. -/
theorem user_id_spoils (t : RawTexts) (s : GoStr) (hs : ¬ IsText s) (ds : List RawTexts) (data : Bytes)
    (h : (t.setUserID s).1 ∈ ds) : (t.setUserID s).2 = none ∧ handOver true true ds data = .error :=
  ⟨rfl, (delivered_iff_partial ds data).2.mpr fun hc => hs (hc _ h).2.1⟩

/-- The same with descriptions. -/
theorem description_spoils (t : RawTexts) (s : GoStr) (hs : ¬ IsText s) (ds : List RawTexts) (data : Bytes)
    (h : t.setDescription s ∈ ds) : handOver true true ds data = .error :=
  (delivered_iff_partial ds data).2.mpr fun hc => hs (hc _ h).2.2.2.1

/-- The same with models of three to 64 bytes. -/
theorem model_spoils (t : RawTexts) (s : GoStr) (hs : ¬ IsText s) (h3 : 3 ≤ s.length) (h64 : s.length ≤ 64)
    (ds : List RawTexts) (data : Bytes) (h : (t.setModel s).1 ∈ ds) :
    (t.setModel s).2 = none ∧ handOver true true ds data = .error := by
  have e : t.setModel s = ({ t with model := s }, none) := by
    unfold RawTexts.setModel
    rw [if_neg (by omega), if_neg (by omega)]
  rw [e] at h ⊢
  exact ⟨rfl, (delivered_iff_partial ds data).2.mpr fun hc => hs (hc _ h).2.2.1⟩

/-- **C71, negation.** Without an error callback a failed encoding is handed to the packet callback. -/
theorem wreck_delivered (ds : List RawTexts) (data : Bytes) (h : ¬ ∀ t ∈ ds, Clean t) :
    marshalFails ds = true ∧ handOver false true ds data = .packet data := by
  constructor
  · cases hm : marshalFails ds with
    | true => rfl
    | false => exact absurd ((fails_iff ds).mp hm) h
  · unfold handOver
    simp

/-! Examples. -/

/-- A device with ordinary texts. -/
def ok : RawTexts :=
  ⟨utf8 "dev", utf8 "usér", utf8 "RT-1", [], utf8 "#ffffff", utf8 "r", utf8 "t", [(utf8 "s", utf8 "fuel")],
    [(utf8 "r", utf8 "#ff0000", [(utf8 "t", utf8 "#00ff00")])]⟩

example : handOver true true [ok, ok] [1, 2, 3] = .packet [1, 2, 3] := by decide +kernel

example : handOver true true [ok, (ok.setUserID [0xff]).1] [1, 2, 3] = .error ∧
    handOver true true [ok, ok.setDescription [0xc3]] [1, 2, 3] = .error ∧
    handOver true true [(ok.setModel [0x80, 0x80, 0x80]).1] [1, 2, 3] = .error := by decide +kernel

example : handOver false true [(ok.setUserID [0xff]).1] [1, 2, 3] = .packet [1, 2, 3] := by decide +kernel

end C71
end GpsGen
