/-
Demonstrations for what an optimal dispatch exhausts.
-/
import Verif.Spec.DemoPool
import Verif.Spec.DemoDemand
import Verif.Spec.Margin

namespace EPL

/-- The results show these energies. -/
def SimResult.shows (r : SimResult) (l : List (String × Nat × ℚ)) : Bool :=
  l.all (fun c => decide (c.1 ∈ r.results.columns) && decide (r.results.cell c.1 c.2.1 = some c.2.2))

theorem shows_read {s : Site} {o : Objective} {f : Flags} {S : Solver} {r : SimResult} {V : String → Nat → ℚ} {l : List (String × Nat × ℚ)}
    (h : Run s o f S r V) (hl : r.shows l = true) : ∀ c ∈ l, c.2.1 < s.data.n → V c.1 c.2.1 = c.2.2 := by
  intro c hc hi
  have := List.all_eq_true.1 hl c hc
  simp only [Bool.and_eq_true, decide_eq_true_eq] at this
  have e := h.reads _ this.1 _ hi
  rw [this.2] at e
  exact (Option.some.inj e).symm

/-- What a demonstration tells of the site and the result. -/
def marginTest (l : List Asset) (d : SiteData) (il el q : ℚ) (cells : List (String × Nat × ℚ)) (s : Site) (r : SimResult) : Bool :=
  decide (s.assets = l) && decide (s.data = d) && decide (s.freqMins = 60) && decide (s.importLimit = il) && decide (s.exportLimit = el) &&
    decide (s.constraints.length = 0) && decide (r.status.objective = some q) && r.shows cells

/-- What it says. -/
structure MarginDemo (l : List Asset) (d : SiteData) (il el q : ℚ) (cells : List (String × Nat × ℚ)) (s : Site) (r : SimResult)
    (V : String → Nat → ℚ) : Prop where
  assets : s.assets = l
  data : s.data = d
  freq : s.freqMins = 60
  importLimit : s.importLimit = il
  exportLimit : s.exportLimit = el
  constraints : s.constraints = []
  objective : r.status.objective = some q
  cells : ∀ c ∈ cells, c.2.1 < s.data.n → V c.1 c.2.1 = c.2.2

theorem marginDemo {l : List Asset} {d : SiteData} {il el q : ℚ} {cells : List (String × Nat × ℚ)} {s : Site} {r : SimResult} {V : String → Nat → ℚ}
    {o : Objective} {f : Flags} {S : Solver} (h : Run s o f S r V) (ht : marginTest l d il el q cells s r = true) : MarginDemo l d il el q cells s r V := by
  simp only [marginTest, Bool.and_eq_true, decide_eq_true_eq] at ht
  obtain ⟨⟨⟨⟨⟨⟨⟨a, b⟩, c⟩, d⟩, e⟩, f⟩, g⟩, k⟩ := ht
  exact ⟨a, b, c, d, e, List.length_eq_zero_iff.1 f, g, shows_read h k⟩

/-- Assets with clear names, no vehicles, and CHPs that make electricity. -/
def clearAssets (l : List Asset) : Bool :=
  decide (l.map (fun a => solverChars a.name)).Nodup && l.all (fun a => decide (',' ∉ a.name.toList) && decide (a.name ≠ "site") &&
    !("site-".toList.isPrefixOf a.name.toList) && decide a.WellNamed && (match a with | .evs _ => false | .chp c => decide (0 < c.electricEfficiency) | _ => true))

theorem marginDemo_ordinary {l : List Asset} {d : SiteData} {il el q : ℚ} {cells : List (String × Nat × ℚ)} {s : Site} {r : SimResult}
    {V : String → Nat → ℚ} (h : MarginDemo l d il el q cells s r V) (hl : clearAssets l = true) (hd : d.custom = []) : s.Ordinary := by
  simp only [clearAssets, Bool.and_eq_true, decide_eq_true_eq, List.all_eq_true, Bool.not_eq_true', ← h.assets] at hl
  obtain ⟨h0, h1⟩ := hl
  refine ⟨⟨h0, fun a ha => (h1 a ha).1.1.1.1, fun a ha => ⟨(h1 a ha).1.1.1.2, fun hp => ?_⟩, fun c hc => ?_, ?_, ?_⟩, fun a ha => (h1 a ha).1.2,
    h.constraints, fun c hc => ?_, fun c hc => ?_, by rw [h.freq]; norm_num⟩
  · have := (h1 a ha).1.1.2
    rw [List.isPrefixOf_iff_prefix.2 hp] at this
    cases this
  · exact absurd (h1 _ hc).2 (by simp)
  · rw [h.data, hd]; simp
  · rw [h.data, hd]; simp
  · exact absurd (h1 _ hc).2 (by simp)
  · exact .inl (by simpa using (h1 _ hc).2)

/-- The wind farm with an export limit of 3 MW. -/
def demoNarrow : Demo where
  assets := [.renewable poolWind]
  raw := { electricityPrices := prices [10], exportElectricityPrices := prices [2] }
  exportLimit := 3
  objective := .str "price"
  answer := [ (.site "export_power_mw" 0, 3), (.site "export_power_bin" 0, 1), (.tagged "electric_generation_mwh" 0 "wind", 3) ]

/-- The wind farm when selling costs money. -/
def demoNegative : Demo where
  assets := [.renewable poolWind]
  raw := { electricityPrices := prices [10], exportElectricityPrices := prices [-1] }
  objective := .str "price"
  answer := [ (.site "import_power_bin" 0, 1) ]

/-- The wind farm for carbon. -/
def demoClean : Demo where
  assets := [.renewable poolWind]
  raw := { electricityPrices := prices [10], exportElectricityPrices := prices [2] }
  objective := .str "carbon"
  answer := [ (.site "export_power_mw" 0, 5), (.site "export_power_bin" 0, 1), (.tagged "electric_generation_mwh" 0 "wind", 5) ]

/-- A good boiler of 3 MW. -/
def goodBoiler : BoilerCfg := ⟨"goodboiler", 3, 0, 9/10⟩

/-- A poor boiler of 10 MW. -/
def poorBoiler : BoilerCfg := ⟨"poorboiler", 10, 0, 1/2⟩

/-- The two boilers serve 5 MWh of heat. -/
def demoOrderly (objective : String) : Demo where
  assets := [.boiler poorBoiler, .boiler goodBoiler]
  raw := { electricityPrices := prices [10], htLoad := prices [5] }
  objective := .str objective
  answer := [ (.site "import_power_bin" 0, 1), (.asset "goodboiler" "high_temperature_generation_mwh" 0, 3), (.asset "goodboiler" "binary_mwh" 0, 1),
    (.asset "goodboiler" "gas_consumption_mwh" 0, 10/3), (.asset "poorboiler" "high_temperature_generation_mwh" 0, 2), (.asset "poorboiler" "binary_mwh" 0, 1),
    (.asset "poorboiler" "gas_consumption_mwh" 0, 4) ]

/-- A site that lacks electricity and heat: 3 MW of import, 5 MWh of wind, a boiler of 3 MW; 10 MWh of electric load and 5 MWh of heat. -/
def demoShort : Demo where
  assets := [.spill ⟨"spill"⟩, .renewable poolWind, .boiler goodBoiler]
  raw := { electricityPrices := prices [10], electricLoad := prices [10], htLoad := prices [5] }
  importLimit := 3
  objective := .str "price"
  answer := [ (.site "import_power_mw" 0, 3), (.site "import_power_bin" 0, 1), (.tagged "electric_generation_mwh" 0 "wind", 5),
    (.asset "spill" "electric_generation_mwh" 0, 2), (.asset "spill" "high_temperature_generation_mwh" 0, 2),
    (.asset "goodboiler" "high_temperature_generation_mwh" 0, 3), (.asset "goodboiler" "binary_mwh" 0, 1), (.asset "goodboiler" "gas_consumption_mwh" 0, 10/3) ]

/-- Wind that cannot be turned down. -/
def stubbornWind : RenewableCfg where
  name := "wind"
  lowerBoundPct := 1
  generation := [5]
  isArray := true
  idxLen := 1
  freqMins := 60

/-- A site with more wind than it may export. -/
def demoLong : Demo where
  assets := [.spill ⟨"spill"⟩, .renewable stubbornWind]
  raw := { electricityPrices := prices [10] }
  exportLimit := 3
  objective := .str "price"
  answer := [ (.site "export_power_mw" 0, 3), (.site "export_power_bin" 0, 1), (.tagged "electric_generation_mwh" 0 "wind", 5),
    (.asset "spill" "electric_load_mwh" 0, 2) ]

/-- One interval: the price of electricity and of export, the electric load and the load of heat. -/
def oneData (p e l h : ℚ) : SiteData := ⟨1, [p], [e], [1/10], [20], [l], [h], [0], [0], []⟩

set_option maxRecDepth 10000 in
theorem demoNarrow_test : demoNarrow.testOptimal [0, 0, 2, 6] [ (binary (.site "import_power_bin" 0), 6), (continuous (.site "import_power_mw" 0) (up := some 10000), 10) ]
    (marginTest [.renewable poolWind] (oneData 10 2 0 0) 10000 3 (-6)
      [ ("wind-electric_generation_mwh", 0, 3), ("site-import_power_mwh", 0, 0), ("site-export_power_mwh", 0, 3) ]) = true := by
  decide +kernel

set_option maxRecDepth 10000 in
theorem demoNegative_test : demoNegative.testOptimal [1]
    [ (continuous (.tagged "electric_generation_mwh" 0 "wind") (up := some 5), 1), (continuous (.site "import_power_mw" 0) (up := some 10000), 11) ]
    (marginTest [.renewable poolWind] (oneData 10 (-1) 0 0) 10000 10000 0
      [ ("wind-electric_generation_mwh", 0, 0), ("site-import_power_mwh", 0, 0), ("site-export_power_mwh", 0, 0) ]) = true := by
  decide +kernel

set_option maxRecDepth 10000 in
theorem demoFarm_full : demoFarm.testOptimal [-2]
    [ (continuous (.site "import_power_mw" 0) (up := some 10000), 8), (continuous (.tagged "electric_generation_mwh" 0 "wind") (up := some 5), -2) ]
    (marginTest [.renewable poolWind] (oneData 10 2 0 0) 10000 10000 (-10)
      [ ("wind-electric_generation_mwh", 0, 5), ("site-import_power_mwh", 0, 0), ("site-export_power_mwh", 0, 5) ]) = true := by
  decide +kernel

set_option maxRecDepth 10000 in
theorem demoClean_test : demoClean.testOptimal [-1/10] [ (continuous (.tagged "electric_generation_mwh" 0 "wind") (up := some 5), -1/10) ]
    (marginTest [.renewable poolWind] (oneData 10 2 0 0) 10000 10000 (-1/2)
      [ ("wind-electric_generation_mwh", 0, 5), ("site-import_power_mwh", 0, 0), ("site-export_power_mwh", 0, 5) ]) = true := by
  decide +kernel

/-- What the two boilers do. -/
def orderlyCells : List (String × Nat × ℚ) := [ ("goodboiler-high_temperature_generation_mwh", 0, 3), ("poorboiler-high_temperature_generation_mwh", 0, 2) ]

set_option maxRecDepth 10000 in
theorem demoOrderly_price : (demoOrderly "price").testOptimal [-10, 0, 0, 0, -40, 0, -20, 0, 0, -20, 160/9] [ (binary (.asset "goodboiler" "binary_mwh" 0), -160/3) ]
    (marginTest [.boiler poorBoiler, .boiler goodBoiler] (oneData 10 10 0 5) 10000 10000 (440/3) orderlyCells) = true := by
  decide +kernel

set_option maxRecDepth 10000 in
theorem demoOrderly_carbon : (demoOrderly "carbon").testOptimal [-1/10, 0, 0, 0, -37/100, 0, -37/200, 0, 0, -37/200, 37/225]
    [ (binary (.asset "goodboiler" "binary_mwh" 0), -37/75) ]
    (marginTest [.boiler poorBoiler, .boiler goodBoiler] (oneData 10 10 0 5) 10000 10000 (407/300) orderlyCells) = true := by
  decide +kernel

set_option maxRecDepth 10000 in
theorem demoShort_test : demoShort.testOptimal [-10^11, 99999999990, 29999999997/1000, 299999999970, -10^11, 0, -20, 899999999800/9]
    [ (continuous (.site "export_power_mw" 0) (up := some 10000), 100029999989997/1000), (continuous (.asset "spill" "electric_load_mwh" 0), 2 * 10^11),
      (continuous (.tagged "electric_generation_mwh" 0 "wind") (up := some 5), -10^11), (binary (.asset "goodboiler" "binary_mwh" 0), -899999999800/3) ]
    (marginTest [.spill ⟨"spill"⟩, .renewable poolWind, .boiler goodBoiler] (oneData 10 10 10 5) 3 10000 (1200000000290/3)
      [ ("spill-electric_generation_mwh", 0, 2), ("spill-high_temperature_generation_mwh", 0, 2), ("wind-electric_generation_mwh", 0, 5),
        ("goodboiler-high_temperature_generation_mwh", 0, 3), ("site-import_power_mwh", 0, 3), ("site-export_power_mwh", 0, 0) ]) = true := by
  decide +kernel

set_option maxRecDepth 10000 in
theorem demoLong_test : demoLong.testOptimal [10^11, 0, 100000000010, 300000000030, -10^11]
    [ (continuous (.tagged "electric_generation_mwh" 0 "wind") (low := some 5) (up := some 5), 10^11), (binary (.site "import_power_bin" 0), 300000000030),
      (continuous (.site "import_power_mw" 0) (up := some 10000), 100000000010), (continuous (.asset "spill" "electric_generation_mwh" 0), 2 * 10^11) ]
    (marginTest [.spill ⟨"spill"⟩, .renewable stubbornWind] (oneData 10 10 0 0) 10000 3 199999999970
      [ ("spill-electric_load_mwh", 0, 2), ("wind-electric_generation_mwh", 0, 5), ("site-import_power_mwh", 0, 0), ("site-export_power_mwh", 0, 3) ]) = true := by
  decide +kernel

/-- Two intervals with loads of 5 MWh. -/
def twoData (p c : List ℚ) : SiteData := ⟨2, p, p, c, [20, 20], [5, 5], [0, 0], [0, 0], [0, 0], []⟩

/-- What the battery of 4 MWh does when it moves energy. -/
def movedCells : List (String × Nat × ℚ) :=
  [ ("battery-electric_charge_mwh", 0, 4), ("battery-electric_discharge_mwh", 1, 4), ("battery-electric_final_charge_mwh", 0, 4),
    ("site-import_power_mwh", 0, 9), ("site-export_power_mwh", 0, 0), ("site-import_power_mwh", 1, 1), ("site-export_power_mwh", 1, 0) ]

/-- What it does when it stays idle. -/
def idleCells : List (String × Nat × ℚ) :=
  [ ("battery-electric_charge_mwh", 0, 0), ("battery-electric_discharge_mwh", 1, 0), ("battery-electric_charge_mwh", 1, 0),
    ("battery-electric_discharge_mwh", 0, 0), ("battery-electric_final_charge_mwh", 0, 0), ("site-import_power_mwh", 0, 5), ("site-export_power_mwh", 0, 0),
    ("site-import_power_mwh", 1, 5), ("site-export_power_mwh", 1, 0) ]

set_option maxRecDepth 10000 in
theorem demoMoved_price : (demoPrices [10, 100] [10, 100] [1/10, 1] [20, 20] "price" (demoGrow 4).answer).testOptimal (growLam 4) (growMu 4)
    (marginTest [.battery (growBattery 4)] (twoData [10, 100] [1/10, 1]) 10000 10000 190 movedCells) = true := by
  decide +kernel

set_option maxRecDepth 10000 in
theorem demoMoved_carbon : (demoPrices [10, 100] [10, 100] [1/10, 1] [20, 20] "carbon" (demoGrow 4).answer).testOptimal ((growLam 4).map (1/100 * ·))
    ((growMu 4).map (fun v => (v.1, 1/100 * v.2))) (marginTest [.battery (growBattery 4)] (twoData [10, 100] [1/10, 1]) 10000 10000 (19/10) movedCells) = true := by
  decide +kernel

set_option maxRecDepth 10000 in
theorem demoIdle_price : (demoPrices [55, 55] [55, 55] [9/10, 1/10] [20, 20] "price" idleAnswer).testOptimal (idleLam 55 55) (idleMu 55 55)
    (marginTest [.battery (growBattery 4)] (twoData [55, 55] [9/10, 1/10]) 10000 10000 550 idleCells) = true := by
  decide +kernel

set_option maxRecDepth 10000 in
theorem demoIdle_carbon : (demoPrices [55, 55] [55, 55] [9/10, 1/10] [20, 20] "carbon" idleAnswer).testOptimal (idleLam (9/10) (1/10)) (idleMu (9/10) (1/10))
    (marginTest [.battery (growBattery 4)] (twoData [55, 55] [9/10, 1/10]) 10000 10000 5 idleCells) = true := by
  decide +kernel

end EPL
