import Verif.Theorems.C88Double
import Verif.Theorems.C89
/-!
# C89 in IEEE doubles

Coordinates with ten decimals are a layout in the sense of C89, so files of doubles come back from the text.
-/

namespace GpsGen
namespace C89
open F64 C21 C44 C45

/-- Tabs, coordinates with ten decimals. -/
def doubleLayout : GpxLayout F64 := ⟨"\t", fun x => String.ofList (coordText x)⟩

/-- `strconv.ParseFloat` reads decimal numbers as the nearest double (an error if it is too large), infinities and NaN. -/
structure ReadsDecimals (T : GpxText F64) : Prop where
  num : ∀ l : NumLit, T.parseFloat (String.ofList l.text) = ofLit l
  inf : T.parseFloat "+Inf" = some (.inf false) ∧ T.parseFloat "-Inf" = some (.inf true)
  nan : T.parseFloat "NaN" = some .nan

theorem xml_ascii {s : List Char} (h : ∀ c ∈ s, 32 ≤ c.toNat ∧ c.toNat < 128) : XmlOnly (String.ofList s) := by
  intro c hc
  rw [String.toList_ofList] at hc
  obtain ⟨h1, h2⟩ := h c hc
  exact Or.inr (Or.inr (Or.inr ⟨h1, by omega, by omega⟩))

theorem digit_ascii (d : Fin 10) : 32 ≤ (digitChar d).toNat ∧ (digitChar d).toNat < 128 := by
  revert d
  decide

theorem nat_ascii (n : ℕ) : ∀ c ∈ natText n, 32 ≤ c.toNat ∧ c.toNat < 128 := by
  intro c hc
  obtain ⟨d, -, rfl⟩ := List.mem_map.mp hc
  exact digit_ascii d

theorem frac_ascii (ds : List (Fin 10)) : ∀ c ∈ fracText ds, 32 ≤ c.toNat ∧ c.toNat < 128 := by
  intro c hc
  unfold fracText at hc
  split at hc
  · cases hc
  · rcases List.mem_cons.mp hc with rfl | hc
    · decide
    · obtain ⟨d, -, rfl⟩ := List.mem_map.mp hc
      exact digit_ascii d

theorem lit_ascii (s : Bool) (q : ℚ) : ∀ c ∈ (coordLit s q).text, 32 ≤ c.toNat ∧ c.toNat < 128 := by
  intro c hc
  unfold NumLit.text at hc
  rcases List.mem_append.mp hc with hc | hc
  · split at hc
    · rw [List.mem_singleton.mp hc]; decide
    · cases hc
  · rcases List.mem_append.mp hc with hc | hc
    · exact nat_ascii _ c hc
    · rcases List.mem_append.mp hc with hc | hc
      · exact frac_ascii _ c hc
      · cases hc

/-- **C89 in doubles, layout.** -/
theorem layout_ok (T : GpxText F64) (hT : T.coord = gpxCoord) (h : ReadsDecimals T) : LayoutOk doubleLayout T := by
  refine ⟨?_, ?_, ?_, ?_⟩
  · intro c hc
    have : c ∈ ['\t'] := hc
    exact Or.inr (by simpa using this)
  · intro x
    rw [hT]
    match x with
    | .fin s q hq => exact (h.num _).trans (C88.coord_text hq).2
    | .inf false => exact h.inf.1
    | .inf true => exact h.inf.2
    | .nan => exact h.nan
  · intro x hx
    have hx := congrArg String.toList hx
    rw [doubleLayout, String.toList_ofList] at hx
    match x with
    | .fin s q hq =>
      obtain ⟨c, cs, e, -⟩ := Json.text_head (coordLit s q)
      have : (coordLit s q).text = [] := hx
      rw [e] at this
      cases this
    | .inf false => cases hx
    | .inf true => cases hx
    | .nan => cases hx
  · intro x
    match x with
    | .fin s q hq => exact xml_ascii (lit_ascii s q)
    | .inf false => exact xml_ascii (s := "+Inf".toList) (by decide)
    | .inf true => exact xml_ascii (s := "-Inf".toList) (by decide)
    | .nan => exact xml_ascii (s := "NaN".toList) (by decide)

/-- **C89 in doubles, routes.** -/
theorem double_routes_text [MathLib] (N : XmlText.NameChars) (T : GpxText F64) (hT : T.coord = gpxCoord) (hr : ReadsDecimals T)
    (gen : ℕ → ℕ → String × String) (rs : List (Route F64)) (hne : rs ≠ [])
    (h : ∀ r ∈ rs, ApiRoute r ∧ Plain T r ∧ TextOk T r) (hk : ∀ r ∈ rs, ∀ e ∈ contents r.props, KeyName N e.1) :
    ∃ text rs', gpxEncodeText doubleLayout T rs = .ok text ∧ gpxDecodeText N T gen text = .ok (some (.ok rs')) ∧
      List.Forall₂ (RouteBack T) rs rs' :=
  routes_text_partial N doubleLayout T (layout_ok T hT hr) gen rs hne h hk

/-- A text form that reads decimals. -/
def readsAll : GpxText F64 where
  parseFloat s := match readNum s.toList with
    | some (l, []) => ofLit l
    | _ => if s = "+Inf" then some (.inf false) else if s = "-Inf" then some (.inf true)
      else if s = "NaN" then some .nan else none
  showFloat x := String.ofList (coordText x)
  f2s x := String.ofList (coordText x)
  showOther _ := "?"
  coord := gpxCoord

/-- The assumption can be met. -/
theorem readsAll_ok : ReadsDecimals readsAll ∧ readsAll.coord = gpxCoord := by
  refine ⟨⟨?_, ⟨rfl, rfl⟩, rfl⟩, rfl⟩
  intro l
  have e := Json.readNum_text l (rest := []) (by intro c cs hc; cases hc)
  rw [List.append_nil] at e
  simp only [readsAll, String.toList_ofList, e]

example : doubleLayout.coord (lit (29533628561797286 / 1000000000000000)) = "29.5336285618" ∧
    doubleLayout.coord (lit (-1 / 4)) = "-0.2500000000" := by
  decide +kernel

end C89
end GpsGen
