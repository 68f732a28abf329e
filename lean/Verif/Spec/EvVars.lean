/-
The values of the EV variables under an assignment.
-/
import Verif.Model.History

namespace EPL

/-- The entry of the charge event matrix: is the vehicle of charge event `e` plugged in during interval `i`? -/
def EvsCfg.present (c : EvsCfg) (i e : Nat) : ℚ := (c.chargeEvents.getD i []).getD e 0

/-- The energy charger `ch` gives to charge event `e` in interval `i`.  With `limit_charge_variables_to_valid_events` there is no
variable unless the vehicle is plugged in. -/
def EvsCfg.chargeOf (c : EvsCfg) (flags : Flags) (σ : Assign) (i e : Nat) (ch : String) (spill : Bool) : ℚ :=
  if flags.limitChargeVariables = true ∧ c.present i e ≠ 1 then 0
  else σ (.evFlow "electric_charge_mwh" i c.name e ch spill)

/-- The binary variable of `chargeOf`. -/
def EvsCfg.chargeBinOf (c : EvsCfg) (flags : Flags) (σ : Assign) (i e : Nat) (ch : String) (spill : Bool) : ℚ :=
  if flags.limitChargeVariables = true ∧ c.present i e ≠ 1 then 0
  else σ (.evFlow "electric_charge_binary" i c.name e ch spill)

/-- The energy charger `ch` takes from charge event `e` in interval `i`; the variable only exists with `allow_evs_discharge`. -/
def EvsCfg.dischargeOf (c : EvsCfg) (flags : Flags) (σ : Assign) (i e : Nat) (ch : String) : ℚ :=
  if flags.allowEvsDischarge then σ (.evFlow "electric_discharge_mwh" i c.name e ch false) else 0

/-- The binary variable of `dischargeOf`. -/
def EvsCfg.dischargeBinOf (c : EvsCfg) (flags : Flags) (σ : Assign) (i e : Nat) (ch : String) : ℚ :=
  if flags.allowEvsDischarge then σ (.evFlow "electric_discharge_binary" i c.name e ch false) else 0

/-- The energy lost by charger `ch` serving charge event `e`. -/
def EvsCfg.lossOf (c : EvsCfg) (σ : Assign) (i e : Nat) (ch : String) (spill : Bool) : ℚ :=
  σ (.evFlow "electric_loss_mwh" i c.name e ch spill)

/-- The state of charge of a charge event at the start of interval `i`. -/
def EvsCfg.initialSocOf (c : EvsCfg) (σ : Assign) (i : Nat) (ev : ChargeEventCfg) : ℚ := σ (.evSoc "initial_soc_mwh" i c.name ev.name)

/-- The state of charge of a charge event at the end of interval `i`. -/
def EvsCfg.finalSocOf (c : EvsCfg) (σ : Assign) (i : Nat) (ev : ChargeEventCfg) : ℚ := σ (.evSoc "final_soc_mwh" i c.name ev.name)

/-- All energy the chargers of the site give to charge event `e` in interval `i`. -/
def EvsCfg.eventCharge (c : EvsCfg) (flags : Flags) (σ : Assign) (i e : Nat) : ℚ :=
  (c.chargers.map (fun ch => c.chargeOf flags σ i e ch.name false)).sum

/-- All energy the spill charger gives to charge event `e` in interval `i`. -/
def EvsCfg.eventSpill (c : EvsCfg) (flags : Flags) (σ : Assign) (i e : Nat) : ℚ :=
  (c.spillChargers.map (fun ch => c.chargeOf flags σ i e ch.name true)).sum

/-- All energy the chargers take from charge event `e` in interval `i`. -/
def EvsCfg.eventDischarge (c : EvsCfg) (flags : Flags) (σ : Assign) (i e : Nat) : ℚ :=
  (c.chargers.map (fun ch => c.dischargeOf flags σ i e ch.name)).sum

/-- A sum over the charge events. -/
def EvsCfg.sumEvents (c : EvsCfg) (g : Nat → ℚ) : ℚ := ((List.range c.events.length).map g).sum

end EPL
