/-
The demonstration site with electric vehicles.
-/
import Verif.Spec.DemoSites

namespace EPL

/-- One charger of 4 MW, two charge events, one after the other. -/
def demoEvsCfg : EvsCfg where
  name := "evs"
  chargers := [⟨"charger-0", 4, 2/5⟩]
  spillChargers := [⟨"charger-spill-evs", 10000, 0⟩]
  events := [⟨"charge-event-0", 2, 1/2⟩, ⟨"charge-event-1", 1, 1/2⟩]
  chargeEvents := [[1, 0], [0, 1]]
  freqMins := 60

theorem demoEvsCfg_new : Evs.new [[1, 0], [0, 1]] [4] [2, 1] (efficiency := 1/2) = .ok demoEvsCfg := by decide +kernel

/-- The first vehicle charges 4 in the first interval (losing 2), the second 2 in the second interval (losing 1). -/
def demoEvs : Demo where
  assets := [.evs demoEvsCfg]
  raw := { electricityPrices := prices [10, 100] }
  answer :=
    [ (.site "import_power_mw" 0, 4), (.site "import_power_bin" 0, 1), (.site "import_power_mw" 1, 2), (.site "import_power_bin" 1, 1),
      (.evFlow "electric_charge_mwh" 0 "evs" 0 "charger-0" false, 4), (.evFlow "electric_charge_binary" 0 "evs" 0 "charger-0" false, 1),
      (.evFlow "electric_loss_mwh" 0 "evs" 0 "charger-0" false, 2), (.evSoc "final_soc_mwh" 0 "evs" "charge-event-0", 2),
      (.evSoc "initial_soc_mwh" 1 "evs" "charge-event-0", 2), (.evSoc "final_soc_mwh" 1 "evs" "charge-event-0", 2),
      (.evFlow "electric_charge_mwh" 1 "evs" 1 "charger-0" false, 2), (.evFlow "electric_charge_binary" 1 "evs" 1 "charger-0" false, 1),
      (.evFlow "electric_loss_mwh" 1 "evs" 1 "charger-0" false, 1), (.evSoc "final_soc_mwh" 1 "evs" "charge-event-1", 1) ]

set_option maxRecDepth 10000 in
theorem demoEvs_test : demoEvs.test (fun s r => decide (s.assets = [.evs demoEvsCfg]) && decide (s.data.n = 2) &&
    decide (r.status.objective = some 240)) = true := by
  decide +kernel

end EPL
