/-
What the constructors of the assets are to accept.
-/
import Verif.Spec.Evs

namespace EPL

/-- Python's `word in text`. -/
def Contains (word text : String) : Prop := word.toList <:+: text.toList

/-- Generation given as a list, and not as a single number. -/
def GenInput.listed : GenInput → Bool
  | .scalar _ => false
  | .array _ => true

/-- The charger of `epl.EVs` at position `k`. -/
def EvArgs.charger (a : EvArgs) (k : Nat) : Option ChargerCfg :=
  (a.powers[k]?).map (fun p => { name := "charger-" ++ toString k, powerMax := p, powerMin := p * a.turndown })

/-- The charge event of `epl.EVs` at position `e`. -/
def EvArgs.event (a : EvArgs) (e : Nat) : Option ChargeEventCfg :=
  (a.capacities[e]?).map (fun q => { name := "charge-event-" ++ toString e, capacity := q, efficiency := a.efficiency })

/-- The arguments of `epl.EVs` fit together: a matrix with one row per capacity, all of one length, and a name with "evs" in it. -/
structure EvArgs.Fit (a : EvArgs) (n : Nat) : Prop where
  some : a.chargeEvents ≠ []
  rows : ∀ row ∈ a.chargeEvents, row.length = n
  capacities : a.capacities.length = a.chargeEvents.length
  name : Contains "evs" a.name

/-- The object holds what was given: positions number chargers and events, the matrix is turned to intervals x events, there is one spill
charger without a minimum. -/
structure EvArgs.Kept (a : EvArgs) (n : Nat) (c : EvsCfg) : Prop where
  name : c.name = a.name
  freqMins : c.freqMins = a.freqMins
  chargers : ∀ k : Nat, c.chargers[k]? = a.charger k
  events : ∀ e : Nat, c.events[e]? = a.event e
  spill : c.spillChargers = [{ name := "charger-spill-" ++ a.name, powerMax := 10000, powerMin := 0 }]
  intervals : c.chargeEvents.length = n
  present : ∀ i < n, c.chargeEvents[i]? = some ((List.range a.capacities.length).map (fun e => a.present i e))

end EPL
