import Verif.Model.EachCountry
import Verif.Theorems.C50

/-!
# C50: `EachCountry` reports every country once

In whatever order the map is visited.
-/

namespace GpsGen
namespace C50

/-- An order in which a run may visit the table. -/
def Order (order : List (String × String)) : Prop := order.Perm countries

/-- The calls a callback gets. -/
def reported (order : List (String × String)) : List (String × String) :=
  eachCountry order (fun l code name => l ++ [(code, name)]) []

theorem reported_eq (order : List (String × String)) : reported order = order := by
  have h : ∀ (l acc : List (String × String)),
      eachCountry l (fun l code name => l ++ [(code, name)]) acc = acc ++ l := by
    intro l
    induction l with
    | nil => intro acc; exact (List.append_nil acc).symm
    | cons e l ih =>
      intro acc
      have := ih (acc ++ [(e.1, e.2)])
      rw [List.append_assoc] at this
      exact this
  exact h order []

/-- **C50, all countries.** Every country is reported once, with its name, no code is reported twice, and for each code
reported `CountryName` gives the name and `BoundingBox` a box. -/
theorem each_country (order : List (String × String)) (h : Order order) :
    (∀ e ∈ countries, (reported order).count e = 1) ∧ ((reported order).map (·.1)).Nodup ∧
    (reported order).length = countries.length ∧
    ∀ e ∈ reported order, countryName e.1 = some e.2 ∧ ∃ b : BBox ℝ, boundingBox e.1 = some b := by
  rw [reported_eq]
  have hn : (order.map (·.1)).Nodup := (h.map (·.1)).nodup_iff.mpr codes_nodup
  refine ⟨fun e he => ?_, hn, h.length_eq, fun e he => ?_⟩
  · rw [h.count_eq]
    refine List.count_eq_one_of_mem ?_ he
    exact List.Nodup.of_map _ codes_nodup
  · have he' : (e.1, e.2) ∈ countries := h.mem_iff.mp he
    have hc : codeOk e.1 = true := by
      refine List.all_eq_true.mp codes_ok _ ?_
      rw [← tables_match]
      exact List.mem_map_of_mem (f := (·.1)) he'
    refine ⟨(country_name e.1 e.2 he' e.1 (same_self hc)).1, ?_⟩
    obtain ⟨-, b, -, hb, -⟩ := country_point e.1 e.2 he' e.1 (same_self hc) 0 0 ⟨le_refl _, zero_lt_one⟩
      ⟨le_refl _, zero_lt_one⟩
    exact ⟨b, hb⟩

example : (reported countries.reverse).head? = some ("ZW", "Zimbabwe") := by
  rw [reported_eq]
  decide +kernel
example : Order countries.reverse := List.reverse_perm countries

end C50
end GpsGen
