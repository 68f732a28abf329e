/-
The demonstration site for `limit_charge_variables_to_valid_events`: one interval, one charger, a vehicle that is plugged in and one that is not.
-/
import Verif.Spec.DemoOptimal
import Verif.Spec.Evs

namespace EPL

/-- The arguments. -/
def demoLimitArgs : EvArgs := ⟨[[1], [0]], [4], [2, 0], 1/2, 1/10, "evs", 60⟩

/-- One charger of 4 MW, a vehicle that needs 2 MWh and an absent one. -/
def demoLimitCfg : EvsCfg where
  name := "evs"
  chargers := [⟨"charger-0", 4, 2/5⟩]
  spillChargers := [⟨"charger-spill-evs", 10000, 0⟩]
  events := [⟨"charge-event-0", 2, 1/2⟩, ⟨"charge-event-1", 0, 1/2⟩]
  chargeEvents := [[1, 0]]
  freqMins := 60

theorem demoLimitCfg_new : demoLimitArgs.make = .ok demoLimitCfg := by decide +kernel

/-- The vehicle charges 4 and loses 2. -/
def demoLimit : Demo where
  assets := [.evs demoLimitCfg]
  raw := { electricityPrices := prices [10] }
  answer :=
    [ (.site "import_power_mw" 0, 4), (.site "import_power_bin" 0, 1),
      (.evFlow "electric_charge_mwh" 0 "evs" 0 "charger-0" false, 4), (.evFlow "electric_charge_binary" 0 "evs" 0 "charger-0" false, 1),
      (.evFlow "electric_loss_mwh" 0 "evs" 0 "charger-0" false, 2), (.evSoc "final_soc_mwh" 0 "evs" "charge-event-0", 2) ]

/-- The multipliers of the constraints: the electricity is worth 10, what the vehicle takes 20. -/
def demoLimitLam : List ℚ := [-10] ++ List.replicate 20 0 ++ [-20, 20, 0, 0, 0, 0, 20, -20]

/-- The multipliers of the bounds: spilling and the absent vehicle. -/
def demoLimitMu : List (LpVar × ℚ) :=
  [ (continuous (.evFlow "electric_charge_mwh" 0 "evs" 1 "charger-0" false) (some 0) (some 4), 10),
    (continuous (.evFlow "electric_charge_mwh" 0 "evs" 0 "charger-spill-evs" true) (some 0) (some 10000), 99999999990),
    (continuous (.evFlow "electric_charge_mwh" 0 "evs" 1 "charger-spill-evs" true) (some 0) (some 10000), 100000000010) ]

set_option maxRecDepth 10000 in
theorem demoLimit_test : demoLimit.testOptimal demoLimitLam demoLimitMu (fun s r => decide (s.assets = [.evs demoLimitCfg]) &&
    decide (s.data.n = 1) && decide (r.status.objective = some 40)) = true := by
  decide +kernel

end EPL
