import Verif.Model.Gpx
import Verif.Lemmas.GeoJson
/-!
# Helper lemmas: GPX
-/

namespace GpsGen
variable {F : Type}

/-! ## Integers in decimal -/

theorem decDigit_ok : ∀ n < 10, (decDigit n).isDigit = true ∧ (decDigit n).toNat - 48 = n := by decide

theorem readDigits_append (a : Nat) (l : List Char) (n : Nat) (c : Char) (h : readDigits a l = some n)
    (hc : c.isDigit = true) : readDigits a (l ++ [c]) = some (10 * n + (c.toNat - 48)) := by
  induction l generalizing a with
  | nil =>
    cases h
    simp [readDigits, hc]
  | cons d l ih =>
    simp only [List.cons_append, readDigits] at h ⊢
    split at h
    · rename_i hd
      rw [if_pos hd]
      exact ih _ h
    · cases h

theorem readDigits_dec (fuel n : Nat) (h : n < fuel) : readDigits 0 (decDigits fuel n) = some n := by
  induction fuel generalizing n with
  | zero => omega
  | succ fuel ih =>
    unfold decDigits
    split
    · rename_i hn
      obtain ⟨h1, h2⟩ := decDigit_ok n hn
      simp [readDigits, h1, h2]
    · rename_i hn
      obtain ⟨h1, h2⟩ := decDigit_ok (n % 10) (by omega)
      rw [readDigits_append 0 _ (n / 10) _ (ih (n / 10) (by omega)) h1, h2]
      congr 1
      omega

theorem decDigits_ne (fuel n : Nat) (h : n < fuel) : decDigits fuel n ≠ [] := by
  cases fuel with
  | zero => omega
  | succ fuel =>
    unfold decDigits
    split <;> simp

theorem readDigits_head (a : Nat) (c : Char) (cs : List Char) (n : Nat) (h : readDigits a (c :: cs) = some n) :
    c.isDigit = true := by
  unfold readDigits at h
  split at h
  · assumption
  · cases h

theorem parseInt_show (i : Int) (h1 : -9223372036854775808 ≤ i) (h2 : i ≤ 9223372036854775807) :
    parseInt64 (showInt i) = some i := by
  have hr := readDigits_dec (i.natAbs + 1) i.natAbs (by omega)
  have hne := decDigits_ne (i.natAbs + 1) i.natAbs (by omega)
  have hn : readNat (decDigits (i.natAbs + 1) i.natAbs) = some i.natAbs := by
    unfold readNat
    rw [if_neg hne, hr]
  unfold showInt
  split
  · rename_i hi
    simp only [parseInt64, String.toList_ofList, hn, Option.map_some, Option.bind_some]
    have : -(Int.ofNat i.natAbs) = i := by simp only [Int.ofNat_eq_natCast]; omega
    rw [this, if_pos ⟨h1, h2⟩]
  · rename_i hi
    simp only [parseInt64, String.toList_ofList]
    have hi' : Int.ofNat i.natAbs = i := by simp only [Int.ofNat_eq_natCast]; omega
    split
    · rename_i cs hcs
      rw [hcs] at hr
      exact absurd (readDigits_head _ _ _ _ hr) (by decide)
    · rename_i cs hcs
      rw [hcs] at hr
      exact absurd (readDigits_head _ _ _ _ hr) (by decide)
    · rw [hn, Option.map_some, Option.bind_some, hi', if_pos ⟨h1, h2⟩]

/-! ## Attributes -/

theorem makeProps_nodup (T : GpxText F) (attrs : Attrs) (h : (attrs.map (·.1)).Nodup) :
    makeProps T attrs = attrs.map (fun e => (e.1, T.value e.2)) := by
  have := foldl_set_nodup (attrs.map (fun e => (e.1, T.value e.2))) []
    (by simpa [List.map_map, Function.comp_def] using h)
  rw [List.foldl_map] at this
  simpa [makeProps, PMap.make] using this

/-- The keys that `resetProps` of package gpx deletes. -/
def gpxReserved : List String := ["id", "color", "distance", "tracksInfo", "numTracks", "name", "units"]

theorem gpxReset_eq (m : PMap F) : gpxResetProps m = m.filter (fun e => !gpxReserved.contains e.1) := by
  simp only [gpxResetProps, PMap.remove, List.filter_filter]
  congr 1
  funext e
  simp only [gpxReserved, List.contains_cons, List.contains_nil, Bool.or_false, Bool.not_or]
  cases (e.1 == "id") <;> cases (e.1 == "color") <;> cases (e.1 == "distance") <;> cases (e.1 == "tracksInfo") <;>
    cases (e.1 == "numTracks") <;> cases (e.1 == "name") <;> cases (e.1 == "units") <;> rfl

theorem goIndex_drop {α : Type} (l : List α) (j : Nat) (a : α) (rest : List α) (h : l.drop j = a :: rest) :
    goIndex l (j : Int) = .ok a := by
  have : l[j]? = some a := by
    have h0 : (l.drop j)[0]? = some a := by rw [h]; rfl
    rwa [List.getElem?_drop, Nat.add_zero] at h0
  simp [goIndex, this]

theorem drop_succ {α : Type} (l : List α) (j : Nat) (a : α) (rest : List α) (h : l.drop j = a :: rest) :
    l.drop (j + 1) = rest := by
  rw [← List.drop_drop, h]
  rfl

end GpsGen
