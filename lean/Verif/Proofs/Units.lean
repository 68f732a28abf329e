/-
The assets with one object per interval: cells and constraints under a feasible assignment.
-/
import Verif.Proofs.RunCore

namespace EPL

/-- The value of a continuous variable. -/
theorem bounds_continuous {σ : Assign} {id : VarId} {low up : Option ℚ} (h : (continuous id low up).InBounds σ) :
    (∀ l ∈ low, l ≤ σ id) ∧ (∀ u ∈ up, σ id ≤ u) := ⟨h.1, h.2.1⟩

theorem bounds_binary {σ : Assign} {id : VarId} (h : (binary id).InBounds σ) : σ id = 0 ∨ σ id = 1 := h.2.2 rfl

section
variable {s : Site} {objective : Objective} {flags : Flags} {S : Solver} {r : SimResult} {V : String → Nat → ℚ} {p : Prob}
  {σ : Assign}

/-- A battery in one interval: its constraints, solved for the numbers. -/
structure BatteryFacts (c : BatteryCfg) (f : Freq) (n : Nat) (i : Nat) (ch dis loss ini fin cb db : ℚ) : Prop where
  ch_nonneg : 0 ≤ ch
  ch_le : ch ≤ f.mwToMwh c.chargePower
  dis_nonneg : 0 ≤ dis
  dis_le : dis ≤ f.mwToMwh c.dischargePower
  loss_nonneg : 0 ≤ loss
  ini_nonneg : 0 ≤ ini
  ini_le : ini ≤ c.capacity
  fin_nonneg : 0 ≤ fin
  fin_le : fin ≤ c.capacity
  cb01 : cb = 0 ∨ cb = 1
  db01 : db = 0 ∨ db = 1
  ch_cap : ch ≤ cb * c.capacity
  dis_cap : dis ≤ db * c.capacity
  one : cb + db ≤ 1
  balance : ini + ch - dis - loss = fin
  loss_eq : loss = ch * (1 - c.efficiency)

theorem battery_facts (hp : Prog s objective flags (s.ivarsTo flags s.data.n) p) (hf : p.Feasible σ) {c : BatteryCfg}
    (hc : Asset.battery c ∈ s.assets) {i : Nat} (hi : i < s.data.n) :
    let b := c.oneInterval i s.freq
    BatteryFacts c s.freq s.data.n i (σ b.charge.id) (σ b.discharge.id) (σ b.loss.id) (σ b.initial.id) (σ b.final.id)
      (σ b.chargeBin.id) (σ b.dischargeBin.id) := by
  intro b
  have hcon : ∀ k ∈ c.withinList i s.freq, k ∈ p.cons := fun k hk => hp.asset hi hc hk
  have m1 : constrainMax (.var b.charge) (.var b.chargeBin) c.capacity ∈ c.withinList i s.freq := by
    simp [BatteryCfg.withinList, constrainOnlyChargeOrDischarge, b, BatteryCfg.oneInterval]
  have m2 : constrainMax (.var b.discharge) (.var b.dischargeBin) c.capacity ∈ c.withinList i s.freq := by
    simp [BatteryCfg.withinList, constrainOnlyChargeOrDischarge, b, BatteryCfg.oneInterval]
  have m3 : (Expr.var b.chargeBin + .var b.dischargeBin).leC (.num 1) ∈ c.withinList i s.freq := by
    simp [BatteryCfg.withinList, constrainOnlyChargeOrDischarge, b]
  have m4 : (Expr.var b.initial + .var b.charge - .var b.discharge - .var b.loss).eqC (.var b.final) ∈ c.withinList i s.freq := by
    simp [BatteryCfg.withinList, constrainBatteryElectricityBalance, b]
  have m5 : (Expr.var b.loss).eqC (Expr.var b.charge * (1 - c.efficiency)) ∈ c.withinList i s.freq := by
    simp [BatteryCfg.withinList, constrainBatteryElectricityBalance, b, BatteryCfg.oneInterval]
  have bc := bounds_continuous (hf.bounds (hcon _ m4) (v := b.charge) (by simp))
  have bd := bounds_continuous (hf.bounds (hcon _ m4) (v := b.discharge) (by simp))
  have bl := bounds_continuous (hf.bounds (hcon _ m4) (v := b.loss) (by simp))
  have bi := bounds_continuous (hf.bounds (hcon _ m4) (v := b.initial) (by simp))
  have bf := bounds_continuous (hf.bounds (hcon _ m4) (v := b.final) (by simp))
  have bcb := bounds_binary (hf.bounds (hcon _ m3) (v := b.chargeBin) (by simp))
  have bdb := bounds_binary (hf.bounds (hcon _ m3) (v := b.dischargeBin) (by simp))
  have c1 := hf.1 _ (hcon _ m1)
  have c2 := hf.1 _ (hcon _ m2)
  have c3 := hf.1 _ (hcon _ m3)
  have c4 := hf.1 _ (hcon _ m4)
  have c5 := hf.1 _ (hcon _ m5)
  simp only [constrainMax_holds, leC_holds, eqC_holds, Expr.eval_var, Expr.eval_add, Expr.eval_sub, Expr.eval_num,
    Expr.eval_mul] at c1 c2 c3 c4 c5
  simp only [Option.mem_def, Option.some.injEq, forall_eq'] at bc bd bl bi bf
  exact ⟨bc.1, bc.2, bd.1, bd.2, bl.1, bi.1, bi.2, bf.1, bf.2, bcb, bdb, c1, c2, c3, c4, c5⟩

theorem battery_connect (hp : Prog s objective flags (s.ivarsTo flags s.data.n) p) (hf : p.Feasible σ) {c : BatteryCfg}
    (hc : Asset.battery c ∈ s.assets) {i : Nat} (hi : i + 1 < s.data.n) :
    σ (c.oneInterval i s.freq).final.id = σ (c.oneInterval (i + 1) s.freq).initial.id := by
  have := hf.1 _ (hp.asset hi hc (c := (Expr.var (c.oneInterval i s.freq).final).eqC (.var (c.oneInterval (i + 1) s.freq).initial))
    (by simp [Asset.withinList, BatteryCfg.withinList]))
  simpa using this

theorem battery_ends (hp : Prog s objective flags (s.ivarsTo flags s.data.n) p) (hf : p.Feasible σ) {c : BatteryCfg}
    (hc : Asset.battery c ∈ s.assets) :
    σ (c.oneInterval 0 s.freq).initial.id = c.initialCharge ∧
      σ (c.oneInterval (s.data.n - 1) s.freq).final.id = c.finalCharge := by
  have h1 := hf.1 _ (hp.after hc (c := (Expr.var (c.oneInterval 0 s.freq).initial).eqC (.num c.initialCharge))
    (by simp [Asset.afterList, BatteryCfg.afterList]))
  have h2 := hf.1 _ (hp.after hc (c := (Expr.var (c.oneInterval (s.data.n - 1) s.freq).final).eqC (.num c.finalCharge))
    (by simp [Asset.afterList, BatteryCfg.afterList]))
  simp only [eqC_holds, Expr.eval_var, Expr.eval_num] at h1 h2
  exact ⟨h1, h2⟩

theorem adjust_nonneg {k : Kind} {q : ℚ} (h : 0 ≤ q) : k.adjust q = q := by
  unfold Kind.adjust
  split
  · exact max_eq_left h
  · rfl

/-- The cells of a battery. -/
theorem battery_cells (h : Core s objective flags S r V p σ) {c : BatteryCfg}
    (hc : Asset.battery c ∈ s.assets) (hn : c.name ≠ "total") {i : Nat} (hi : i < s.data.n) :
    let b := c.oneInterval i s.freq
    V (c.name ++ "-electric_charge_mwh") i = σ b.charge.id ∧ V (c.name ++ "-electric_discharge_mwh") i = σ b.discharge.id ∧
    V (c.name ++ "-electric_loss_mwh") i = σ b.loss.id ∧ V (c.name ++ "-electric_initial_charge_mwh") i = σ b.initial.id ∧
    V (c.name ++ "-electric_final_charge_mwh") i = σ b.final.id ∧ V (c.name ++ "-electric_charge_binary") i = σ b.chargeBin.id ∧
    V (c.name ++ "-electric_discharge_binary") i = σ b.dischargeBin.id := by
  intro b
  have hb := battery_facts h.prog h.feas hc hi
  have key : ∀ at' ∈ batteryCols, V (c.name ++ ("-" ++ at')) i =
      Kind.adjust .battery ((OneInterval.battery b).attrValue σ at') := by
    intro at' hat
    rw [← String.append_assoc]
    exact h.attr hi hc (ois_battery i s.freq flags) rfl hn hat
  have nn : ∀ q, (q = 0 ∨ q = 1) → (0:ℚ) ≤ q := by rintro q (rfl | rfl) <;> norm_num
  refine ⟨?_, ?_, ?_, ?_, ?_, ?_, ?_⟩
  · exact (key "electric_charge_mwh" (by decide)).trans (adjust_nonneg hb.ch_nonneg)
  · exact (key "electric_discharge_mwh" (by decide)).trans (adjust_nonneg hb.dis_nonneg)
  · exact (key "electric_loss_mwh" (by decide)).trans (adjust_nonneg hb.loss_nonneg)
  · exact (key "electric_initial_charge_mwh" (by decide)).trans (adjust_nonneg hb.ini_nonneg)
  · exact (key "electric_final_charge_mwh" (by decide)).trans (adjust_nonneg hb.fin_nonneg)
  · exact (key "electric_charge_binary" (by decide)).trans (adjust_nonneg (nn _ hb.cb01))
  · exact (key "electric_discharge_binary" (by decide)).trans (adjust_nonneg (nn _ hb.db01))

/-! ### Boiler -/

theorem boiler_facts (hp : Prog s objective flags (s.ivarsTo flags s.data.n) p) (hf : p.Feasible σ) {c : BoilerCfg}
    (hc : Asset.boiler c ∈ s.assets) {i : Nat} (hi : i < s.data.n) :
    let b := c.oneInterval i s.freq
    σ b.gas.id = σ b.heat.id * (1 / c.efficiency) ∧ s.freq.mwToMwh c.heatMin ≤ σ b.heat.id ∧
      σ b.heat.id ≤ s.freq.mwToMwh c.heatMax ∧ 0 ≤ σ b.gas.id ∧ c.efficiency ≠ 0 := by
  intro b
  have hcon : ∀ k ∈ c.withinList i s.freq, k ∈ p.cons := fun k hk => hp.asset hi hc hk
  have m1 : (Expr.var b.gas).eqC (Expr.var b.heat * (1 / c.efficiency)) ∈ c.withinList i s.freq := by
    simp [BoilerCfg.withinList, b]
  have heff : c.efficiency ≠ 0 := hp.buildable hi hc
  have bg := bounds_continuous (hf.bounds (hcon _ m1) (v := b.gas) (by simp))
  have bh := bounds_continuous (hf.bounds (hcon _ m1) (v := b.heat) (by simp [Expr.vars_mul, heff]))
  have c1 := hf.1 _ (hcon _ m1)
  simp only [eqC_holds, Expr.eval_var, Expr.eval_mul] at c1
  simp only [Option.mem_def, Option.some.injEq, forall_eq'] at bg bh
  exact ⟨c1, bh.1, bh.2, bg.1, heff⟩

theorem boiler_cells (h : Core s objective flags S r V p σ) {c : BoilerCfg}
    (hc : Asset.boiler c ∈ s.assets) (hn : c.name ≠ "total") {i : Nat} (hi : i < s.data.n) :
    let b := c.oneInterval i s.freq
    V (c.name ++ "-high_temperature_generation_mwh") i = σ b.heat.id ∧ V (c.name ++ "-gas_consumption_mwh") i = σ b.gas.id := by
  intro b
  have key : ∀ at' ∈ boilerCols, V (c.name ++ ("-" ++ at')) i =
      Kind.adjust .boiler ((OneInterval.boiler b).attrValue σ at') := by
    intro at' hat
    rw [← String.append_assoc]
    exact h.attr hi hc (x := .boiler b) rfl rfl hn hat
  exact ⟨key "high_temperature_generation_mwh" (by decide), key "gas_consumption_mwh" (by decide)⟩

/-! ### CHP -/

theorem chp_facts (hp : Prog s objective flags (s.ivarsTo flags s.data.n) p) (hf : p.Feasible σ) {c : ChpCfg}
    (hc : Asset.chp c ∈ s.assets) {i : Nat} (hi : i < s.data.n) :
    let x := c.oneInterval i s.freq
    (0 < c.electricEfficiency → σ x.gas.id = σ x.electric.id * (1 / c.electricEfficiency)) ∧
      σ x.ht.id = σ x.gas.id * c.htEfficiency ∧ σ x.lt.id = σ x.gas.id * c.ltEfficiency ∧
      0 ≤ σ x.electric.id ∧ σ x.electric.id ≤ s.freq.mwToMwh c.powerMax ∧ 0 ≤ σ x.ht.id ∧ 0 ≤ σ x.lt.id ∧
      (σ x.electric.id = 0 ∨ s.freq.mwToMwh c.powerMin ≤ σ x.electric.id) ∧
      (0 < c.electricEfficiency → 0 ≤ σ x.gas.id) := by
  intro x
  have hcon : ∀ k ∈ c.withinList i s.freq, k ∈ p.cons := fun k hk => hp.asset hi hc hk
  have m2 : (Expr.var x.ht).eqC (Expr.var x.gas * c.htEfficiency) ∈ c.withinList i s.freq := by simp [ChpCfg.withinList, x]
  have m3 : (Expr.var x.lt).eqC (Expr.var x.gas * c.ltEfficiency) ∈ c.withinList i s.freq := by simp [ChpCfg.withinList, x]
  have m4 : constrainMax (.var x.electric) (.var x.bin) (s.freq.mwToMwh c.powerMax) ∈ c.withinList i s.freq := by
    simp [ChpCfg.withinList, x]
  have m5 : constrainMin (.var x.electric) (.var x.bin) (s.freq.mwToMwh c.powerMin) ∈ c.withinList i s.freq := by
    simp [ChpCfg.withinList, x]
  have be := bounds_continuous (hf.bounds (hcon _ m4) (v := x.electric) (by simp))
  have bht := bounds_continuous (hf.bounds (hcon _ m2) (v := x.ht) (by simp))
  have blt := bounds_continuous (hf.bounds (hcon _ m3) (v := x.lt) (by simp))
  have c2 := hf.1 _ (hcon _ m2)
  have c3 := hf.1 _ (hcon _ m3)
  have c4 := hf.1 _ (hcon _ m4)
  have c5 := hf.1 _ (hcon _ m5)
  simp only [constrainMax_holds, constrainMin_holds, eqC_holds, Expr.eval_var, Expr.eval_mul] at c2 c3 c4 c5
  simp only [Option.mem_def, Option.some.injEq, forall_eq'] at be bht blt
  change 0 ≤ σ x.electric.id ∧ σ x.electric.id ≤ _ at be
  have m1 : 0 < c.electricEfficiency →
      (Expr.var x.gas).eqC (Expr.var x.electric * (1 / c.electricEfficiency)) ∈ c.withinList i s.freq := by
    intro he
    simp [ChpCfg.withinList, x, he]
  refine ⟨?_, c2, c3, be.1, be.2, bht.1, blt.1, ?_, ?_⟩
  · intro he
    have := hf.1 _ (hcon _ (m1 he))
    simpa using this
  · by_cases hz : s.freq.mwToMwh c.powerMax = 0
    · left
      rw [hz] at be
      linarith [be.1, be.2]
    · have bb := bounds_binary (hf.bounds (hcon _ m4) (v := x.bin) (by simp [Expr.vars_mul, hz]))
      change σ x.bin.id = 0 ∨ σ x.bin.id = 1 at bb
      rcases bb with hb | hb
      · left
        rw [hb] at c4
        linarith [be.1]
      · right
        rw [hb] at c5
        linarith
  · intro he
    exact (bounds_continuous (hf.bounds (hcon _ (m1 he)) (v := x.gas) (by simp))).1 0 rfl

theorem chp_cells (h : Core s objective flags S r V p σ) {c : ChpCfg}
    (hc : Asset.chp c ∈ s.assets) (hn : c.name ≠ "total") {i : Nat} (hi : i < s.data.n) :
    let x := c.oneInterval i s.freq
    V (c.name ++ "-electric_generation_mwh") i = σ x.electric.id ∧ V (c.name ++ "-gas_consumption_mwh") i = σ x.gas.id ∧
    V (c.name ++ "-high_temperature_generation_mwh") i = σ x.ht.id ∧
    V (c.name ++ "-low_temperature_generation_mwh") i = σ x.lt.id := by
  intro x
  have key : ∀ at' ∈ chpCols, V (c.name ++ ("-" ++ at')) i = Kind.adjust .chp ((OneInterval.chp x).attrValue σ at') := by
    intro at' hat
    rw [← String.append_assoc]
    exact h.attr hi hc (x := .chp x) rfl rfl hn hat
  exact ⟨key "electric_generation_mwh" (by decide), key "gas_consumption_mwh" (by decide),
    key "high_temperature_generation_mwh" (by decide), key "low_temperature_generation_mwh" (by decide)⟩

/-! ### Heat pump -/

theorem heatPump_facts (hp : Prog s objective flags (s.ivarsTo flags s.data.n) p) (hf : p.Feasible σ) {c : HeatPumpCfg}
    (hc : Asset.heatPump c ∈ s.assets) {i : Nat} (hi : i < s.data.n) :
    let x := c.oneInterval i s.freq
    σ x.ht.id = σ x.load.id * c.cop ∧ σ x.ltLoad.id + σ x.load.id = σ x.ht.id ∧
      0 ≤ σ x.load.id ∧ σ x.load.id ≤ s.freq.mwToMwh c.power ∧ 0 ≤ σ x.ht.id ∧ 0 ≤ σ x.ltLoad.id := by
  intro x
  have hcon : ∀ k ∈ c.withinList i s.freq, k ∈ p.cons := fun k hk => hp.asset hi hc hk
  have m2 : (Expr.var x.ht).eqC (Expr.var x.load * c.cop) ∈ c.withinList i s.freq := by simp [HeatPumpCfg.withinList, x]
  have m3 : (Expr.var x.ltLoad + .var x.load).eqC (.var x.ht) ∈ c.withinList i s.freq := by simp [HeatPumpCfg.withinList, x]
  have bl := bounds_continuous (hf.bounds (hcon _ m3) (v := x.load) (by simp))
  have bh := bounds_continuous (hf.bounds (hcon _ m3) (v := x.ht) (by simp))
  have blt := bounds_continuous (hf.bounds (hcon _ m3) (v := x.ltLoad) (by simp))
  have c2 := hf.1 _ (hcon _ m2)
  have c3 := hf.1 _ (hcon _ m3)
  simp only [eqC_holds, Expr.eval_var, Expr.eval_mul, Expr.eval_add] at c2 c3
  simp only [Option.mem_def, Option.some.injEq, forall_eq'] at bl bh blt
  exact ⟨c2, c3, bl.1, bl.2, bh.1, blt.1⟩

theorem heatPump_cells (h : Core s objective flags S r V p σ) {c : HeatPumpCfg}
    (hc : Asset.heatPump c ∈ s.assets) (hn : c.name ≠ "total") {i : Nat} (hi : i < s.data.n) :
    let x := c.oneInterval i s.freq
    V (c.name ++ "-electric_load_mwh") i = σ x.load.id ∧ V (c.name ++ "-low_temperature_load_mwh") i = σ x.ltLoad.id ∧
    V (c.name ++ "-high_temperature_generation_mwh") i = σ x.ht.id := by
  intro x
  have key : ∀ at' ∈ heatPumpCols, V (c.name ++ ("-" ++ at')) i =
      Kind.adjust .heatPump ((OneInterval.heatPump x).attrValue σ at') := by
    intro at' hat
    rw [← String.append_assoc]
    exact h.attr hi hc (x := .heatPump x) rfl rfl hn hat
  exact ⟨key "electric_load_mwh" (by decide), key "low_temperature_load_mwh" (by decide),
    key "high_temperature_generation_mwh" (by decide)⟩

/-! ### Valve -/

theorem valve_facts (hp : Prog s objective flags (s.ivarsTo flags s.data.n) p) (hf : p.Feasible σ) {c : ValveCfg}
    (hc : Asset.valve c ∈ s.assets) {i : Nat} (hi : i < s.data.n) :
    let x := c.oneInterval i
    σ x.htLoad.id = σ x.lt.id ∧ 0 ≤ σ x.htLoad.id := by
  intro x
  have hcon : ∀ k ∈ c.withinList i, k ∈ p.cons := fun k hk => hp.asset hi hc hk
  have m1 : (Expr.var x.htLoad).eqC (.var x.lt) ∈ c.withinList i := by simp [ValveCfg.withinList, x]
  have b1 := bounds_continuous (hf.bounds (hcon _ m1) (v := x.htLoad) (by simp))
  have c1 := hf.1 _ (hcon _ m1)
  simp only [eqC_holds, Expr.eval_var] at c1
  exact ⟨c1, b1.1 0 rfl⟩

theorem valve_cells (h : Core s objective flags S r V p σ) {c : ValveCfg}
    (hc : Asset.valve c ∈ s.assets) (hn : c.name ≠ "total") {i : Nat} (hi : i < s.data.n) :
    let x := c.oneInterval i
    V (c.name ++ "-high_temperature_load_mwh") i = σ x.htLoad.id ∧
    V (c.name ++ "-low_temperature_generation_mwh") i = σ x.lt.id := by
  intro x
  have key : ∀ at' ∈ valveCols, V (c.name ++ ("-" ++ at')) i = Kind.adjust .valve ((OneInterval.valve x).attrValue σ at') := by
    intro at' hat
    rw [← String.append_assoc]
    exact h.attr hi hc (x := .valve x) rfl rfl hn hat
  exact ⟨key "high_temperature_load_mwh" (by decide), key "low_temperature_generation_mwh" (by decide)⟩

/-! ### The site -/

/-- The objects of an asset are among those of its interval. -/
theorem ois_mem_ones (hp : Prog s objective flags (s.ivarsTo flags s.data.n) p) {a : Asset} (ha : a ∈ s.assets) {i : Nat}
    (hi : i < s.data.n) {o : OneInterval} (ho : o ∈ a.ois i s.freq flags) : o ∈ s.ones flags i := by
  rw [ones_eq hp.vars hi]
  exact List.mem_cons_of_mem _ (List.mem_flatMap.2 ⟨a, ha, ho⟩)

theorem sumOver_eval (q : Base → Val) (l : List OneInterval) : (sumOver q l).eval σ = (l.map (fun o => (q o.base).eval σ)).sum := by
  simp [sumOver, List.map_map, Function.comp_def]

theorem sumOver_vars {q : Base → Val} {l : List OneInterval} {o : OneInterval} {v : LpVar} (ho : o ∈ l) (hv : q o.base = .var v) :
    v ∈ (sumOver q l).vars := by
  simp only [sumOver, Expr.vars_sum, List.mem_flatMap, List.mem_map]
  exact ⟨_, ⟨o, ho, rfl⟩, by simp [hv, Val.toExpr]⟩

theorem site_cons (hp : Prog s objective flags (s.ivarsTo flags s.data.n) p) (hf : p.Feasible σ) {i : Nat} (hi : i < s.data.n) :
    ∀ k ∈ s.siteList flags i, k.Holds σ := fun _ hk => hf.1 _ (hp.site hi hk)

/-- Bounds of the variables that occur as quantities of an object. -/
theorem base_bounds (hp : Prog s objective flags (s.ivarsTo flags s.data.n) p) (hf : p.Feasible σ) {i : Nat} (hi : i < s.data.n)
    {o : OneInterval} (ho : o ∈ s.ones flags i) {v : LpVar}
    (hv : o.base.electricGeneration = .var v ∨ o.base.electricLoad = .var v ∨ o.base.electricCharge = .var v ∨
      o.base.electricDischarge = .var v ∨ o.base.htGeneration = .var v ∨ o.base.htLoad = .var v ∨ o.base.ltGeneration = .var v ∨
      o.base.ltLoad = .var v) : v.InBounds σ := by
  have hcon : ∀ k ∈ s.siteList flags i, k ∈ p.cons := fun k hk => hp.site hi hk
  simp only [Site.siteList, Site.withinList, List.mem_cons, List.not_mem_nil, or_false, forall_eq_or_imp, forall_eq] at hcon
  obtain ⟨e1, _, _, _, e2, e3⟩ := hcon
  rcases hv with hv | hv | hv | hv | hv | hv | hv | hv
  · exact hf.bounds e1 (by simp [sumOver_vars (q := Base.electricGeneration) ho hv])
  · exact hf.bounds e1 (by simp [sumOver_vars (q := Base.electricLoad) ho hv])
  · exact hf.bounds e1 (by simp [sumOver_vars (q := Base.electricCharge) ho hv])
  · exact hf.bounds e1 (by simp [sumOver_vars (q := Base.electricDischarge) ho hv])
  · exact hf.bounds e2 (by simp [sumOver_vars (q := Base.htGeneration) ho hv])
  · exact hf.bounds e2 (by simp [sumOver_vars (q := Base.htLoad) ho hv])
  · exact hf.bounds e3 (by simp [sumOver_vars (q := Base.ltGeneration) ho hv])
  · exact hf.bounds e3 (by simp [sumOver_vars (q := Base.ltLoad) ho hv])

/-- The site's own variables. -/
theorem site_facts (hp : Prog s objective flags (s.ivarsTo flags s.data.n) p) (hf : p.Feasible σ) {i : Nat} (hi : i < s.data.n) :
    let x := s.oneInterval i
    0 ≤ σ x.importPower.id ∧ σ x.importPower.id ≤ s.freq.mwToMwh s.importLimit ∧
    0 ≤ σ x.exportPower.id ∧ σ x.exportPower.id ≤ s.freq.mwToMwh s.exportLimit ∧
    (σ x.importPower.id = 0 ∨ σ x.exportPower.id = 0) := by
  intro x
  have hcon : ∀ k ∈ s.siteList flags i, k ∈ p.cons := fun k hk => hp.site hi hk
  simp only [Site.siteList, Site.withinList, List.mem_cons, List.not_mem_nil, or_false, forall_eq_or_imp, forall_eq] at hcon
  obtain ⟨e1, e2, e3, e4, _, _⟩ := hcon
  have bi := bounds_continuous (hf.bounds e1 (v := x.importPower) (by simp [x]))
  have be := bounds_continuous (hf.bounds e1 (v := x.exportPower) (by simp [x]))
  have bb := bounds_binary (hf.bounds e4 (v := x.importBin) (by simp [x]))
  have c2 := hf.1 _ e2
  have c3 := hf.1 _ e3
  have c4 := hf.1 _ e4
  simp only [leC_holds, eqC_holds, Expr.eval_var, Expr.eval_mul, Expr.eval_add, Expr.eval_sub, Expr.eval_num] at c2 c3 c4
  simp only [Option.mem_def, Option.some.injEq, forall_eq'] at bi be
  refine ⟨bi.1, bi.2, be.1, be.2, ?_⟩
  change σ x.importBin.id = 0 ∨ σ x.importBin.id = 1 at bb
  change 0 ≤ σ x.importPower.id ∧ _ at bi
  change 0 ≤ σ x.exportPower.id ∧ _ at be
  change σ x.importPower.id - σ x.importBin.id * x.importLimit ≤ 0 at c2
  change σ x.exportPower.id - σ x.exportBin.id * x.exportLimit ≤ 0 at c3
  change σ x.importBin.id + σ x.exportBin.id = 1 at c4
  rcases bb with hb | hb
  · left
    rw [hb] at c2
    linarith [bi.1]
  · right
    have : σ x.exportBin.id = 0 := by linarith
    rw [this] at c3
    linarith [be.1]

/-! ### Renewable generator and spill -/

theorem renewable_facts (hp : Prog s objective flags (s.ivarsTo flags s.data.n) p) (hf : p.Feasible σ) {c : RenewableCfg}
    (hc : Asset.renewable c ∈ s.assets) {i : Nat} (hi : i < s.data.n) :
    c.generation.getD i 0 * c.lowerBoundPct ≤ σ (c.oi i).generation.id ∧ σ (c.oi i).generation.id ≤ c.generation.getD i 0 := by
  have ho := ois_renewable (flags := flags) (f := s.freq) (hp.buildable hi hc)
  have b := bounds_continuous (base_bounds hp hf hi (v := (c.oi i).generation)
    (ois_mem_ones hp hc hi (o := .renewable (c.oi i)) (by simp [ho])) (.inl rfl))
  exact ⟨b.1 _ rfl, b.2 _ rfl⟩

theorem renewable_cells (h : Core s objective flags S r V p σ) {c : RenewableCfg}
    (hc : Asset.renewable c ∈ s.assets) (hn : c.name ≠ "total") {i : Nat} (hi : i < s.data.n) :
    V (c.name ++ "-electric_generation_mwh") i = σ (c.oi i).generation.id := by
  have key : ∀ at' ∈ renewableCols, V (c.name ++ ("-" ++ at')) i =
      Kind.adjust .renewable ((OneInterval.renewable (c.oi i)).attrValue σ at') := by
    intro at' hat
    rw [← String.append_assoc]
    exact h.attr hi hc (x := .renewable (c.oi i)) (ois_renewable (h.prog.buildable hi hc)) rfl hn hat
  exact key "electric_generation_mwh" (by decide)

theorem spill_facts (hp : Prog s objective flags (s.ivarsTo flags s.data.n) p) (hf : p.Feasible σ) {c : SpillCfg}
    (hc : Asset.spill c ∈ s.assets) {i : Nat} (hi : i < s.data.n) :
    let x := c.oneInterval i
    0 ≤ σ x.generation.id ∧ 0 ≤ σ x.load.id ∧ 0 ≤ σ x.ht.id ∧ 0 ≤ σ x.ltLoad.id := by
  intro x
  have hm := ois_mem_ones hp hc hi (o := .spill x) (by simp [Asset.ois, Asset.oneInterval, x])
  have b1 := bounds_continuous (base_bounds hp hf hi (v := x.generation) hm (.inl rfl))
  have b2 := bounds_continuous (base_bounds hp hf hi (v := x.load) hm (.inr (.inl rfl)))
  have b3 := bounds_continuous (base_bounds hp hf hi (v := x.ht) hm (.inr (.inr (.inr (.inr (.inl rfl))))))
  have b4 := bounds_continuous (base_bounds hp hf hi (v := x.ltLoad) hm
    (.inr (.inr (.inr (.inr (.inr (.inr (.inr rfl))))))))
  exact ⟨b1.1 0 rfl, b2.1 0 rfl, b3.1 0 rfl, b4.1 0 rfl⟩

theorem spill_cells (h : Core s objective flags S r V p σ) {c : SpillCfg}
    (hc : Asset.spill c ∈ s.assets) (hn : c.name ≠ "total") {i : Nat} (hi : i < s.data.n) :
    let x := c.oneInterval i
    V (c.name ++ "-electric_generation_mwh") i = σ x.generation.id ∧ V (c.name ++ "-electric_load_mwh") i = σ x.load.id ∧
    V (c.name ++ "-high_temperature_generation_mwh") i = σ x.ht.id ∧ V (c.name ++ "-low_temperature_load_mwh") i = σ x.ltLoad.id ∧
    V (c.name ++ "-low_temperature_generation_mwh") i = 0 ∧ V (c.name ++ "-high_temperature_load_mwh") i = 0 ∧
    V (c.name ++ "-gas_consumption_mwh") i = 0 := by
  intro x
  have key : ∀ at' ∈ spillCols, V (c.name ++ ("-" ++ at')) i = Kind.adjust .spill ((OneInterval.spill x).attrValue σ at') := by
    intro at' hat
    rw [← String.append_assoc]
    exact h.attr hi hc (x := .spill x) rfl rfl hn hat
  refine ⟨key "electric_generation_mwh" (by decide), key "electric_load_mwh" (by decide),
    key "high_temperature_generation_mwh" (by decide), key "low_temperature_load_mwh" (by decide), ?_, ?_, ?_⟩
  · refine (key "low_temperature_generation_mwh" (by decide)).trans ?_
    simp [Kind.adjust, OneInterval.attrValue, OneInterval.getattr, Base.get?, OneInterval.base, Val.eval]
  · refine (key "high_temperature_load_mwh" (by decide)).trans ?_
    simp [Kind.adjust, OneInterval.attrValue, OneInterval.getattr, Base.get?, OneInterval.base, Val.eval]
  · refine (key "gas_consumption_mwh" (by decide)).trans ?_
    simp [Kind.adjust, OneInterval.attrValue, OneInterval.getattr, Base.get?, OneInterval.base, Val.eval]

end

end EPL
