/-
Losses, EV spills and stored energy in the columns of the results.
-/
import Verif.Spec.Plot
import Verif.Spec.Evs

namespace EPL

/-- The columns of an asset that count towards `total-electric_loss_mwh`: those of a battery and of the charge events of EVs; the columns
of the chargers repeat the losses of the charge events, and are left out only if the name of the EVs ends with "evs". -/
def Asset.lossColumns : Asset → List String
  | .battery c => [c.name ++ "-electric_loss_mwh"]
  | .evs c => (if pyEndsWith c.name "evs" then [] else
      (List.range c.chargers.length).map (fun k => c.name ++ "-charger-" ++ toString k ++ "-electric_loss_mwh")) ++
      c.eventUnits.map (fun u => u ++ "-electric_loss_mwh") ++
      if pyEndsWith c.name "evs" then [] else [c.name ++ "-charger-spill-" ++ c.name ++ "-electric_loss_mwh"]
  | _ => []

/-- The columns of an asset that count towards `total-spills_mwh`: charge, discharge and loss of the spill charger of EVs. -/
def Asset.evSpillColumns : Asset → List String
  | .evs c => ["electric_charge_mwh", "electric_discharge_mwh", "electric_loss_mwh"].map
      (fun q => c.name ++ "-charger-spill-" ++ c.name ++ "-" ++ q)
  | _ => []

/-- Names that cannot be mistaken for a loss column. -/
structure Site.LossNames (s : Site) : Prop where
  assets : ∀ a ∈ s.assets, pyIn "electric_loss_mwh" a.name = false ∧ pyIn "evs-charger" a.name = false
  custom : ∀ f ∈ s.data.custom, pyIn "electric_loss_mwh" f.1 = false

/-- Names that cannot be mistaken for a column of a spill charger. -/
structure Site.SpillNames (s : Site) : Prop where
  assets : ∀ a ∈ s.assets, pyIn "charger" a.name = false
  fleets : ∀ c, Asset.evs c ∈ s.assets → pyIn "spill" c.name = false ∧ pyIn "binary" c.name = false
  custom : ∀ f ∈ s.data.custom, pyIn "charger" f.1 = false

/-- The energy an asset stores in interval `i`: the change of its states of charge. -/
def Asset.stored (V : String → Nat → ℚ) (i : Nat) : Asset → ℚ
  | .battery c => V (c.name ++ "-electric_final_charge_mwh") i - V (c.name ++ "-electric_initial_charge_mwh") i
  | .evs c => (c.eventUnits.map (fun u => V (u ++ "-final_soc_mwh") i - V (u ++ "-initial_soc_mwh") i)).sum
  | _ => 0

/-- The energy an asset is to store over the horizon: a battery goes from its initial to its final charge, every charge event from empty to
full. -/
def Asset.toStore : Asset → ℚ
  | .battery c => c.finalCharge - c.initialCharge
  | .evs c => (c.events.map ChargeEventCfg.capacity).sum
  | _ => 0

end EPL
