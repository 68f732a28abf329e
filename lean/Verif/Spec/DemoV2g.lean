/-
The demonstration site for `allow_evs_discharge`: one charger and a vehicle that stays for three intervals, the second of which is dear.
-/
import Verif.Spec.DemoOptimal
import Verif.Spec.Evs
import Verif.Spec.V2g

namespace EPL

/-- The arguments. -/
def demoV2gArgs : EvArgs := ⟨[[1, 1, 1]], [2], [2], 1, 1/10, "evs", 60⟩

/-- One charger of 2 MW and a vehicle that needs 2 MWh. -/
def demoV2gCfg : EvsCfg where
  name := "evs"
  chargers := [⟨"charger-0", 2, 1/5⟩]
  spillChargers := [⟨"charger-spill-evs", 10000, 0⟩]
  events := [⟨"charge-event-0", 2, 1⟩]
  chargeEvents := [[1], [1], [1]]
  freqMins := 60

theorem demoV2gCfg_new : demoV2gArgs.make = .ok demoV2gCfg := by decide +kernel

/-- The vehicle charges once. -/
def demoGrounded : Demo where
  assets := [.evs demoV2gCfg]
  raw := { electricityPrices := prices [10, 100, 10] }
  flags := Flags.grounded {}
  answer :=
    [ (.site "import_power_mw" 0, 2), (.site "import_power_bin" 0, 1), (.site "import_power_bin" 1, 1), (.site "import_power_bin" 2, 1),
      (.evFlow "electric_charge_mwh" 0 "evs" 0 "charger-0" false, 2), (.evFlow "electric_charge_binary" 0 "evs" 0 "charger-0" false, 1),
      (.evSoc "final_soc_mwh" 0 "evs" "charge-event-0", 2),
      (.evSoc "initial_soc_mwh" 1 "evs" "charge-event-0", 2), (.evSoc "final_soc_mwh" 1 "evs" "charge-event-0", 2),
      (.evSoc "initial_soc_mwh" 2 "evs" "charge-event-0", 2), (.evSoc "final_soc_mwh" 2 "evs" "charge-event-0", 2) ]

/-- The vehicle charges, sells when the price is high and charges again. -/
def demoToGrid : Demo where
  assets := [.evs demoV2gCfg]
  raw := { electricityPrices := prices [10, 100, 10] }
  flags := Flags.toGrid {}
  answer :=
    [ (.site "import_power_mw" 0, 2), (.site "import_power_bin" 0, 1),
      (.site "export_power_mw" 1, 2), (.site "export_power_bin" 1, 1),
      (.site "import_power_mw" 2, 2), (.site "import_power_bin" 2, 1),
      (.evFlow "electric_charge_mwh" 0 "evs" 0 "charger-0" false, 2), (.evFlow "electric_charge_binary" 0 "evs" 0 "charger-0" false, 1),
      (.evFlow "electric_discharge_mwh" 1 "evs" 0 "charger-0" false, 2), (.evFlow "electric_discharge_binary" 1 "evs" 0 "charger-0" false, 1),
      (.evFlow "electric_charge_mwh" 2 "evs" 0 "charger-0" false, 2), (.evFlow "electric_charge_binary" 2 "evs" 0 "charger-0" false, 1),
      (.evSoc "final_soc_mwh" 0 "evs" "charge-event-0", 2),
      (.evSoc "initial_soc_mwh" 1 "evs" "charge-event-0", 2), (.evSoc "final_soc_mwh" 1 "evs" "charge-event-0", 0),
      (.evSoc "initial_soc_mwh" 2 "evs" "charge-event-0", 0), (.evSoc "final_soc_mwh" 2 "evs" "charge-event-0", 2) ]

/-- The multipliers of the constraints: the vehicle values its charge at 10, the charger is short in the second interval. -/
def demoToGridLam : List ℚ :=
  [ -10, 0, 0, 0, 0, 0, 0, 0, 0, 0, 0, 0, 0, 100000000000, 0, 0, 0, -10, 10, 0,
    -100, 0, 0, 0, 0, 0, 10, 100, 0, 90, 0, 180, 0, 100000000090, 0, 0, 0, -10, 10, 0, 10,
    -10, 0, 0, 0, 0, 0, 0, 0, 0, 0, 0, 0, 0, 100000000000, 0, 0, 0, -10, 10, 0, 10, 10, -10 ]

set_option maxRecDepth 10000 in
theorem demoGrounded_test : demoGrounded.test (fun s r => decide (s.assets = [.evs demoV2gCfg]) &&
    decide (s.data.n = 3) && decide (r.status.objective = some 20)) = true := by
  decide +kernel

set_option maxRecDepth 10000 in
theorem demoToGrid_test : demoToGrid.testOptimal demoToGridLam [] (fun s r => decide (s.assets = [.evs demoV2gCfg]) &&
    decide (s.data.n = 3) && decide (r.status.objective = some (-160))) = true := by
  decide +kernel

end EPL
