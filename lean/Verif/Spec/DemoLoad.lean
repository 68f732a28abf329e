/-
Demonstration for C98: the battery of 4 MWh with loads of 6 and 7 MWh instead of 5 and 5.
-/
import Verif.Spec.DemoMargin
import Verif.Spec.Load

namespace EPL

/-- The battery of 4 MWh with loads of 6 and 7 MWh. -/
def demoMore (objective : String) : Demo where
  assets := [.battery (growBattery 4)]
  raw := { electricityPrices := prices [10, 100], exportElectricityPrices := prices [10, 100],
           electricityCarbonIntensities := prices [1/10, 1], gasPrices := prices [20, 20], electricLoad := prices [6, 7] }
  objective := .str objective
  answer :=
    [ (.site "import_power_mw" 0, 10), (.site "import_power_bin" 0, 1), (.site "import_power_mw" 1, 3),
      (.site "import_power_bin" 1, 1), (.asset "battery" "electric_charge_mwh" 0, 4), (.asset "battery" "electric_charge_binary" 0, 1),
      (.asset "battery" "electric_final_charge_mwh" 0, 4), (.asset "battery" "electric_initial_charge_mwh" 1, 4),
      (.asset "battery" "electric_discharge_mwh" 1, 4), (.asset "battery" "electric_discharge_binary" 1, 1) ]

/-- The energy of the site. -/
def moreCells : List (String × Nat × ℚ) :=
  [ ("site-import_power_mwh", 0, 10), ("site-export_power_mwh", 0, 0), ("site-import_power_mwh", 1, 3), ("site-export_power_mwh", 1, 0) ]

/-- Its data. -/
def moreData : SiteData := ⟨2, [10, 100], [10, 100], [1/10, 1], [20, 20], [6, 7], [0, 0], [0, 0], [0, 0], []⟩

set_option maxRecDepth 10000 in
theorem demoMore_price : (demoMore "price").testOptimal (growLam 4) (growMu 4)
    (marginTest [.battery (growBattery 4)] moreData 10000 10000 400 moreCells) = true := by
  decide +kernel

set_option maxRecDepth 10000 in
theorem demoMore_carbon : (demoMore "carbon").testOptimal ((growLam 4).map (1/100 * ·)) ((growMu 4).map (fun v => (v.1, 1/100 * v.2)))
    (marginTest [.battery (growBattery 4)] moreData 10000 10000 4 moreCells) = true := by
  decide +kernel

/-- The two demonstrations differ only in the load. -/
theorem moreDemo_load {l : List Asset} {il el q q' : ℚ} {cells cells' : List (String × Nat × ℚ)} {s t : Site} {r r' : SimResult}
    {V V' : String → Nat → ℚ} (h : MarginDemo l (twoData [10, 100] [1/10, 1]) il el q cells s r V) (h' : MarginDemo l moreData il el q' cells' t r' V') :
    t = s.withLoad [6, 7] := by
  cases t
  obtain ⟨a1, a2, a3, a4, a5, a6, -, -⟩ := h'
  simp only at a1 a2 a3 a4 a5 a6
  unfold Site.withLoad
  rw [a1, a2, a3, a4, a5, a6, h.data, h.freq, h.importLimit, h.exportLimit, h.constraints, h.assets]
  rfl

end EPL
