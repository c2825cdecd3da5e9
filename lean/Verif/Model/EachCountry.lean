import Verif.Model.Random

/-!
# `EachCountry`

Go visits the entries of a map in an order that differs from run to run.
-/

namespace GpsGen

/-- random/latlon.go:385-389 `EachCountry`; `order` is the order in which this run visits the table, and the callback
changes a state of its own. -/
def eachCountry {σ : Type} (order : List (String × String)) (fn : σ → String → String → σ) (s : σ) : σ :=
  order.foldl (fun s e => fn s e.1 e.2) s

end GpsGen
