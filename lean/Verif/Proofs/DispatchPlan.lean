/-
From a valid dispatch of an asset to an assignment of its variables.
-/
import Verif.Spec.Dispatch
import Verif.Proofs.Rest
import Verif.Proofs.Limit
import Verif.Proofs.Names
import Verif.Props.Evs

namespace EPL

/-- A valid dispatch of an asset as an assignment: it respects the asset and has the flows, the gas and the penalised energy of the dispatch. -/
structure Asset.Played (a : Asset) (s : Site) (flags : Flags) (W : String → Nat → ℚ) (σ : Assign) : Prop where
  fits : a.Fits s.data.n s.freq flags σ
  flow : ∀ i < s.data.n, ∀ q ∈ quantities, ((a.ois i s.freq flags).map (OneInterval.flow σ q)).sum = rowSum W (a.reports q) i
  gas : ∀ i < s.data.n, a.gasOf σ i = rowSum W (a.reports "gas_consumption_mwh") i
  spilled : ∀ i < s.data.n, a.spilledOf flags σ i = rowSum W a.penalised i
  evs : ∀ c, a = .evs c → ∀ i < s.data.n, ∀ q ∈ quantities,
    rowSum W (c.reportsOf c.chargers q) i = (((c.objs c.chargers i s.freq flags true true false).map .ev).map (OneInterval.flow σ q)).sum ∧
    rowSum W (c.reportsOf c.spillChargers q) i =
      (((c.objs c.spillChargers i s.freq flags false false true).map .evSpill).map (OneInterval.flow σ q)).sum

section
variable {s : Site} {flags : Flags} {W : String → Nat → ℚ}

/-- One if the flow is on. -/
def onOff (q : ℚ) : ℚ := if q = 0 then 0 else 1

theorem onOff_01 (q : ℚ) : onOff q = 0 ∨ onOff q = 1 := by
  unfold onOff
  split
  · exact .inl rfl
  · exact .inr rfl

theorem onOff_zero : onOff 0 = 0 := if_pos rfl

theorem onOff_one {q : ℚ} (h : q ≠ 0) : onOff q = 1 := if_neg h

theorem onOff_max {q m : ℚ} (h : q ≤ m) : q ≤ onOff q * m := by
  by_cases h0 : q = 0
  · rw [h0, onOff_zero, zero_mul]
  · rw [onOff_one h0, one_mul]; exact h

theorem battery_played (hn : 0 < s.data.n) {c : BatteryCfg} (h : c.Plays s W) : ∃ σ, (Asset.battery c).Played s flags W σ := by
  let σ : Assign := fun
    | .asset _ attr i =>
      if attr = "electric_charge_mwh" then W (c.name ++ "-electric_charge_mwh") i
      else if attr = "electric_discharge_mwh" then W (c.name ++ "-electric_discharge_mwh") i
      else if attr = "electric_loss_mwh" then W (c.name ++ "-electric_loss_mwh") i
      else if attr = "electric_initial_charge_mwh" then W (c.name ++ "-electric_initial_charge_mwh") i
      else if attr = "electric_final_charge_mwh" then W (c.name ++ "-electric_final_charge_mwh") i
      else if attr = "electric_charge_binary" then onOff (W (c.name ++ "-electric_charge_mwh") i)
      else onOff (W (c.name ++ "-electric_discharge_mwh") i)
    | _ => 0
  have v1 : ∀ i, σ (c.oneInterval i s.freq).charge.id = W (c.name ++ "-electric_charge_mwh") i := fun i => rfl
  have v2 : ∀ i, σ (c.oneInterval i s.freq).discharge.id = W (c.name ++ "-electric_discharge_mwh") i := fun i => rfl
  have v3 : ∀ i, σ (c.oneInterval i s.freq).loss.id = W (c.name ++ "-electric_loss_mwh") i := fun i => rfl
  have v4 : ∀ i, σ (c.oneInterval i s.freq).initial.id = W (c.name ++ "-electric_initial_charge_mwh") i := fun i => rfl
  have v5 : ∀ i, σ (c.oneInterval i s.freq).final.id = W (c.name ++ "-electric_final_charge_mwh") i := fun i => rfl
  have v6 : ∀ i, σ (c.oneInterval i s.freq).chargeBin.id = onOff (W (c.name ++ "-electric_charge_mwh") i) := fun i => rfl
  have v7 : ∀ i, σ (c.oneInterval i s.freq).dischargeBin.id = onOff (W (c.name ++ "-electric_discharge_mwh") i) := fun i => rfl
  have b1 : ∀ i < s.data.n, (c.oneInterval i s.freq).charge.InBounds σ := fun i hi =>
    in_continuous (h.charge i hi).1 ((h.charge i hi).2.trans (min_le_left _ _))
  have b2 : ∀ i < s.data.n, (c.oneInterval i s.freq).discharge.InBounds σ := fun i hi =>
    in_continuous (h.discharge i hi).1 ((h.discharge i hi).2.trans (min_le_left _ _))
  have b3 : ∀ i, (c.oneInterval i s.freq).chargeBin.InBounds σ := fun i => in_binary (onOff_01 _)
  have b4 : ∀ i, (c.oneInterval i s.freq).dischargeBin.InBounds σ := fun i => in_binary (onOff_01 _)
  have b5 : ∀ i < s.data.n, (c.oneInterval i s.freq).loss.InBounds σ := fun i hi => in_positive (h.loss i hi).2
  have b6 : ∀ i < s.data.n, (c.oneInterval i s.freq).initial.InBounds σ := fun i hi => in_continuous (h.stored i hi).1 (h.stored i hi).2.1
  have b7 : ∀ i < s.data.n, (c.oneInterval i s.freq).final.InBounds σ := fun i hi => in_continuous (h.stored i hi).2.2.1 (h.stored i hi).2.2.2
  refine ⟨σ, ⟨?_, ?_, ?_⟩, ?_, fun i hi => rfl, fun i hi => rfl, fun _ h => nomatch h⟩
  · intro i hi con hcon
    simp only [Asset.withinList, BatteryCfg.withinList, constrainOnlyChargeOrDischarge, constrainBatteryElectricityBalance, List.mem_append,
      List.mem_cons, List.not_mem_nil, or_false] at hcon
    rcases hcon with ((rfl | rfl | rfl) | rfl | rfl) | hcon
    · exact good (by
        simp only [constrainMax_holds, Expr.eval_var, v1, v6]
        exact onOff_max ((h.charge i hi).2.trans (min_le_right _ _))) (Expr.Over.max (inB (b1 i hi)) (inB (b3 i)) _)
    · exact good (by
        simp only [constrainMax_holds, Expr.eval_var, v2, v7]
        exact onOff_max ((h.discharge i hi).2.trans (min_le_right _ _))) (Expr.Over.max (inB (b2 i hi)) (inB (b4 i)) _)
    · exact good (by
        simp only [leC_holds, Expr.eval_add, Expr.eval_var, Expr.eval_num, v6, v7]
        rcases h.exclusive i hi with h0 | h0
        · rw [h0, onOff_zero]
          rcases onOff_01 (W (c.name ++ "-electric_discharge_mwh") i) with h1 | h1 <;> rw [h1] <;> norm_num
        · rw [h0, onOff_zero]
          rcases onOff_01 (W (c.name ++ "-electric_charge_mwh") i) with h1 | h1 <;> rw [h1] <;> norm_num)
        (Expr.Over.leC (.add (inB (b3 i)) (inB (b4 i))) (.num _))
    · exact good (by
        simp only [eqC_holds, Expr.eval_add, Expr.eval_sub, Expr.eval_var, v1, v2, v3, v4, v5]
        exact (h.balance i hi).symm)
        (Expr.Over.eqC (.sub (.sub (.add (inB (b6 i hi)) (inB (b1 i hi))) (inB (b2 i hi))) (inB (b5 i hi))) (inB (b7 i hi)))
    · exact good (by
        simp only [eqC_holds, Expr.eval_mul, Expr.eval_var, v1, v3]
        rw [(h.loss i hi).1, mul_comm]; rfl) (Expr.Over.eqC (inB (b5 i hi)) (.mul (inB (b1 i hi)) _))
    · split at hcon
      · simp at hcon
      · rename_i h0
        rw [List.mem_singleton] at hcon
        subst hcon
        obtain ⟨j, rfl⟩ := Nat.exists_eq_succ_of_ne_zero h0
        have hj : j < s.data.n := by omega
        exact good (by
          simp only [eqC_holds, Expr.eval_var, v4, v5]
          exact h.chain j hi) (Expr.Over.eqC (inB (b7 _ hj)) (inB (b6 _ hi)))
  · intro con hcon
    simp only [Asset.afterList, BatteryCfg.afterList, List.mem_cons, List.not_mem_nil, or_false] at hcon
    rcases hcon with rfl | rfl
    · exact good (by simpa only [eqC_holds, Expr.eval_var, Expr.eval_num, v4] using h.start) (Expr.Over.eqC (inB (b6 _ hn)) (.num _))
    · exact good (by simpa only [eqC_holds, Expr.eval_var, Expr.eval_num, v5] using h.stop) (Expr.Over.eqC (inB (b7 _ (by omega))) (.num _))
  · intro i hi o ho
    rw [ois_battery, List.mem_singleton] at ho
    subst ho
    exact ⟨trivial, trivial, trivial, trivial, trivial, trivial, b1 i hi, b2 i hi, trivial, trivial⟩
  · intro i hi q hq
    simp only [quantities, List.mem_cons, List.not_mem_nil, or_false] at hq
    simp only [ois_battery]
    rcases hq with rfl | rfl | rfl | rfl | rfl | rfl | rfl | rfl | rfl <;>
      simp [Asset.reports, Asset.flows, Asset.units, Asset.name, rowSum, OneInterval.flow, Base.get?, OneInterval.base, Val.eval,
        String.append_assoc, v1, v2]

theorem boiler_played {c : BoilerCfg} (he : c.efficiency ≠ 0) (h : c.Plays s W) : ∃ σ, (Asset.boiler c).Played s flags W σ := by
  let σ : Assign := fun
    | .asset _ attr i =>
      if attr = "high_temperature_generation_mwh" then W (c.name ++ "-high_temperature_generation_mwh") i
      else if attr = "gas_consumption_mwh" then W (c.name ++ "-gas_consumption_mwh") i
      else 1
    | _ => 0
  have v1 : ∀ i, σ (c.oneInterval i s.freq).heat.id = W (c.name ++ "-high_temperature_generation_mwh") i := fun i => rfl
  have v2 : ∀ i, σ (c.oneInterval i s.freq).gas.id = W (c.name ++ "-gas_consumption_mwh") i := fun i => rfl
  have v3 : ∀ i, σ (c.oneInterval i s.freq).bin.id = 1 := fun i => rfl
  have b1 : ∀ i < s.data.n, (c.oneInterval i s.freq).heat.InBounds σ := fun i hi => in_continuous (h.heat i hi).1 (h.heat i hi).2
  have b2 : ∀ i < s.data.n, (c.oneInterval i s.freq).gas.InBounds σ := fun i hi => in_positive (h.gas i hi)
  have b3 : ∀ i, (c.oneInterval i s.freq).bin.InBounds σ := fun i => in_binary (.inr rfl)
  refine ⟨σ, ⟨?_, by simp [Asset.afterList], ?_⟩, ?_, ?_, fun i hi => rfl, fun _ h => nomatch h⟩
  · intro i hi con hcon
    simp only [Asset.withinList, BoilerCfg.withinList, List.mem_cons, List.not_mem_nil, or_false] at hcon
    rcases hcon with rfl | rfl | rfl
    · exact good (by
        simp only [eqC_holds, Expr.eval_mul, Expr.eval_var, v1, v2]
        rw [← h.efficiency i hi, mul_comm c.efficiency, mul_assoc, mul_one_div_cancel he, mul_one]) (Expr.Over.eqC (inB (b2 i hi)) (.mul (inB (b1 i hi)) _))
    · exact good (by
        simp only [constrainMax_holds, Expr.eval_var, v1, v3, one_mul]
        exact (h.heat i hi).2) (Expr.Over.max (inB (b1 i hi)) (inB (b3 i)) _)
    · exact good (by
        simp only [constrainMin_holds, Expr.eval_var, v1, v3, one_mul]
        exact (h.heat i hi).1) (Expr.Over.min (inB (b1 i hi)) (inB (b3 i)) _)
  · intro i hi o ho
    have : o = .boiler (c.oneInterval i s.freq) := List.mem_singleton.1 ho
    subst this
    exact ⟨trivial, b1 i hi, trivial, trivial, trivial, trivial, trivial, trivial, b2 i hi, b3 i⟩
  · intro i hi q hq
    simp only [quantities, List.mem_cons, List.not_mem_nil, or_false] at hq
    rw [show (Asset.boiler c).ois i s.freq flags = [.boiler (c.oneInterval i s.freq)] from rfl]
    rcases hq with rfl | rfl | rfl | rfl | rfl | rfl | rfl | rfl | rfl <;>
      simp [Asset.reports, Asset.flows, Asset.units, Asset.name, rowSum, OneInterval.flow, Base.get?, OneInterval.base, Val.eval,
        String.append_assoc, v1, v2]
  · intro i hi
    simp [Asset.reports, Asset.flows, Asset.units, Asset.name, rowSum, Asset.gasOf, String.append_assoc, σ]

theorem chp_played {c : ChpCfg} (h : c.Plays s W) : ∃ σ, (Asset.chp c).Played s flags W σ := by
  let σ : Assign := fun
    | .asset _ attr i =>
      if attr = "electric_generation_mwh" then W (c.name ++ "-electric_generation_mwh") i
      else if attr = "gas_consumption_mwh" then W (c.name ++ "-gas_consumption_mwh") i
      else if attr = "high_temperature_generation_mwh" then W (c.name ++ "-high_temperature_generation_mwh") i
      else if attr = "low_temperature_generation_mwh" then W (c.name ++ "-low_temperature_generation_mwh") i
      else onOff (W (c.name ++ "-electric_generation_mwh") i)
    | _ => 0
  have v1 : ∀ i, σ (c.oneInterval i s.freq).electric.id = W (c.name ++ "-electric_generation_mwh") i := fun i => rfl
  have v2 : ∀ i, σ (c.oneInterval i s.freq).gas.id = W (c.name ++ "-gas_consumption_mwh") i := fun i => rfl
  have v3 : ∀ i, σ (c.oneInterval i s.freq).ht.id = W (c.name ++ "-high_temperature_generation_mwh") i := fun i => rfl
  have v4 : ∀ i, σ (c.oneInterval i s.freq).lt.id = W (c.name ++ "-low_temperature_generation_mwh") i := fun i => rfl
  have v5 : ∀ i, σ (c.oneInterval i s.freq).bin.id = onOff (W (c.name ++ "-electric_generation_mwh") i) := fun i => rfl
  have b1 : ∀ i < s.data.n, (c.oneInterval i s.freq).electric.InBounds σ := fun i hi => in_continuous (h.positive i hi).2.1 (h.range i hi).1
  have b2 : ∀ i < s.data.n, (c.oneInterval i s.freq).gas.InBounds σ := fun i hi => in_positive (h.positive i hi).1
  have b3 : ∀ i, (c.oneInterval i s.freq).bin.InBounds σ := fun i => in_binary (onOff_01 _)
  have b4 : ∀ i < s.data.n, (c.oneInterval i s.freq).ht.InBounds σ := fun i hi => in_positive (h.positive i hi).2.2.1
  have b5 : ∀ i < s.data.n, (c.oneInterval i s.freq).lt.InBounds σ := fun i hi => in_positive (h.positive i hi).2.2.2
  refine ⟨σ, ⟨?_, by simp [Asset.afterList], ?_⟩, ?_, ?_, fun i hi => rfl, fun _ h => nomatch h⟩
  · intro i hi con hcon
    simp only [Asset.withinList, ChpCfg.withinList, List.mem_append, List.mem_cons, List.not_mem_nil, or_false] at hcon
    rcases hcon with hcon | rfl | rfl | rfl | rfl
    · split at hcon
      · rename_i he
        rw [List.mem_singleton] at hcon
        subst hcon
        exact good (by
          simp only [eqC_holds, Expr.eval_mul, Expr.eval_var, v1, v2]
          rw [h.electric i hi he]
          ring) (Expr.Over.eqC (inB (b2 i hi)) (.mul (inB (b1 i hi)) _))
      · simp at hcon
    · exact good (by
        simp only [eqC_holds, Expr.eval_mul, Expr.eval_var, v2, v3]
        rw [h.high i hi]; ring) (Expr.Over.eqC (inB (b4 i hi)) (.mul (inB (b2 i hi)) _))
    · exact good (by
        simp only [eqC_holds, Expr.eval_mul, Expr.eval_var, v2, v4]
        rw [h.low i hi]; ring) (Expr.Over.eqC (inB (b5 i hi)) (.mul (inB (b2 i hi)) _))
    · exact good (by
        simp only [constrainMax_holds, Expr.eval_var, v1, v5]
        exact onOff_max (h.range i hi).1) (Expr.Over.max (inB (b1 i hi)) (inB (b3 i)) _)
    · exact good (by
        simp only [constrainMin_holds, Expr.eval_var, v1, v5]
        by_cases h0 : W (c.name ++ "-electric_generation_mwh") i = 0
        · rw [h0, onOff_zero, zero_mul]
        · rw [onOff_one h0, one_mul]
          exact (h.range i hi).2.resolve_left h0) (Expr.Over.min (inB (b1 i hi)) (inB (b3 i)) _)
  · intro i hi o ho
    have : o = .chp (c.oneInterval i s.freq) := List.mem_singleton.1 ho
    subst this
    exact ⟨b1 i hi, b4 i hi, b5 i hi, trivial, trivial, trivial, trivial, trivial, b2 i hi, b3 i⟩
  · intro i hi q hq
    simp only [quantities, List.mem_cons, List.not_mem_nil, or_false] at hq
    rw [show (Asset.chp c).ois i s.freq flags = [.chp (c.oneInterval i s.freq)] from rfl]
    rcases hq with rfl | rfl | rfl | rfl | rfl | rfl | rfl | rfl | rfl <;>
      simp [Asset.reports, Asset.flows, Asset.units, Asset.name, rowSum, OneInterval.flow, Base.get?, OneInterval.base, Val.eval,
        String.append_assoc, v1, v2, v3, v4]
  · intro i hi
    simp [Asset.reports, Asset.flows, Asset.units, Asset.name, rowSum, Asset.gasOf, String.append_assoc, σ]

theorem heatPump_played {c : HeatPumpCfg} (h : c.Plays s W) : ∃ σ, (Asset.heatPump c).Played s flags W σ := by
  let σ : Assign := fun
    | .tagged attr i _ =>
      if attr = "electric_load_mwh" then W (c.name ++ "-electric_load_mwh") i
      else if attr = "low_temperature_load_mwh" then W (c.name ++ "-low_temperature_load_mwh") i
      else if attr = "high_temperature_generation_mwh" then W (c.name ++ "-high_temperature_generation_mwh") i
      else 1
    | _ => 0
  have v1 : ∀ i, σ (c.oneInterval i s.freq).load.id = W (c.name ++ "-electric_load_mwh") i := fun i => rfl
  have v2 : ∀ i, σ (c.oneInterval i s.freq).ltLoad.id = W (c.name ++ "-low_temperature_load_mwh") i := fun i => rfl
  have v3 : ∀ i, σ (c.oneInterval i s.freq).ht.id = W (c.name ++ "-high_temperature_generation_mwh") i := fun i => rfl
  have v4 : ∀ i, σ (c.oneInterval i s.freq).bin.id = 1 := fun i => rfl
  have b1 : ∀ i < s.data.n, (c.oneInterval i s.freq).load.InBounds σ := fun i hi => in_continuous (h.load i hi).1 (h.load i hi).2
  have b2 : ∀ i < s.data.n, (c.oneInterval i s.freq).ht.InBounds σ := fun i hi => in_positive (h.positive i hi).1
  have b3 : ∀ i, (c.oneInterval i s.freq).bin.InBounds σ := fun i => in_binary (.inr rfl)
  have b4 : ∀ i < s.data.n, (c.oneInterval i s.freq).ltLoad.InBounds σ := fun i hi => in_positive (h.positive i hi).2
  refine ⟨σ, ⟨?_, by simp [Asset.afterList], ?_⟩, ?_, ?_, fun i hi => rfl, fun _ h => nomatch h⟩
  · intro i hi con hcon
    simp only [Asset.withinList, HeatPumpCfg.withinList, List.mem_cons, List.not_mem_nil, or_false] at hcon
    rcases hcon with rfl | rfl | rfl
    · exact good (by
        simp only [constrainMax_holds, Expr.eval_var, v1, v4, one_mul]
        exact (h.load i hi).2) (Expr.Over.max (inB (b1 i hi)) (inB (b3 i)) _)
    · exact good (by
        simp only [eqC_holds, Expr.eval_mul, Expr.eval_var, v1, v3]
        rw [h.high i hi]; ring) (Expr.Over.eqC (inB (b2 i hi)) (.mul (inB (b1 i hi)) _))
    · exact good (by
        simp only [eqC_holds, Expr.eval_add, Expr.eval_var, v1, v2, v3]
        rw [h.high i hi, h.low i hi]; ring) (Expr.Over.eqC (.add (inB (b4 i hi)) (inB (b1 i hi))) (inB (b2 i hi)))
  · intro i hi o ho
    have : o = .heatPump (c.oneInterval i s.freq) := List.mem_singleton.1 ho
    subst this
    exact ⟨trivial, b2 i hi, trivial, b1 i hi, trivial, b4 i hi, trivial, trivial, trivial, trivial⟩
  · intro i hi q hq
    simp only [quantities, List.mem_cons, List.not_mem_nil, or_false] at hq
    rw [show (Asset.heatPump c).ois i s.freq flags = [.heatPump (c.oneInterval i s.freq)] from rfl]
    rcases hq with rfl | rfl | rfl | rfl | rfl | rfl | rfl | rfl | rfl <;>
      simp [Asset.reports, Asset.flows, Asset.units, Asset.name, rowSum, OneInterval.flow, Base.get?, OneInterval.base, Val.eval,
        String.append_assoc, v1, v2, v3]
  · intro i hi
    simp [Asset.reports, Asset.flows, rowSum, Asset.gasOf]

theorem renewable_played {c : RenewableCfg} (hb : ∀ i < s.data.n, (Asset.renewable c).Buildable i) (h : c.Plays s W) :
    ∃ σ, (Asset.renewable c).Played s flags W σ := by
  let σ : Assign := fun
    | .tagged _ i _ => W (c.name ++ "-electric_generation_mwh") i
    | _ => 0
  have v1 : ∀ i, σ (c.oi i).generation.id = W (c.name ++ "-electric_generation_mwh") i := fun i => rfl
  refine ⟨σ, ⟨by simp [Asset.withinList], by simp [Asset.afterList], ?_⟩, ?_, ?_, fun i hi => rfl, fun _ h => nomatch h⟩
  · intro i hi o ho
    rw [ois_renewable (hb i hi), List.mem_singleton] at ho
    subst ho
    refine ⟨?_, trivial, trivial, trivial, trivial, trivial, trivial, trivial, trivial, trivial⟩
    exact in_continuous (by rw [mul_comm]; exact (h.generation i hi).1) (h.generation i hi).2
  · intro i hi q hq
    simp only [quantities, List.mem_cons, List.not_mem_nil, or_false] at hq
    rw [ois_renewable (hb i hi)]
    rcases hq with rfl | rfl | rfl | rfl | rfl | rfl | rfl | rfl | rfl <;>
      simp [Asset.reports, Asset.flows, Asset.units, Asset.name, rowSum, OneInterval.flow, Base.get?, OneInterval.base, Val.eval,
        String.append_assoc, v1]
  · intro i hi
    simp [Asset.reports, Asset.flows, rowSum, Asset.gasOf]

theorem spill_played {c : SpillCfg} (h : c.Plays s W) : ∃ σ, (Asset.spill c).Played s flags W σ := by
  let σ : Assign := fun
    | .asset _ attr i =>
      if attr = "electric_generation_mwh" then W (c.name ++ "-electric_generation_mwh") i
      else if attr = "electric_load_mwh" then W (c.name ++ "-electric_load_mwh") i
      else if attr = "high_temperature_generation_mwh" then W (c.name ++ "-high_temperature_generation_mwh") i
      else W (c.name ++ "-low_temperature_load_mwh") i
    | _ => 0
  have v1 : ∀ i, σ (c.oneInterval i).generation.id = W (c.name ++ "-electric_generation_mwh") i := fun i => rfl
  have v2 : ∀ i, σ (c.oneInterval i).load.id = W (c.name ++ "-electric_load_mwh") i := fun i => rfl
  have v3 : ∀ i, σ (c.oneInterval i).ht.id = W (c.name ++ "-high_temperature_generation_mwh") i := fun i => rfl
  have v4 : ∀ i, σ (c.oneInterval i).ltLoad.id = W (c.name ++ "-low_temperature_load_mwh") i := fun i => rfl
  refine ⟨σ, ⟨by simp [Asset.withinList], by simp [Asset.afterList], ?_⟩, ?_, ?_, ?_, fun _ h => nomatch h⟩
  · intro i hi o ho
    have : o = .spill (c.oneInterval i) := List.mem_singleton.1 ho
    subst this
    obtain ⟨h1, h2, h3, h4⟩ := h.positive i hi
    exact ⟨in_positive h1, in_positive h3, trivial, in_positive h2, trivial, in_positive h4, trivial, trivial, trivial, trivial⟩
  · intro i hi q hq
    simp only [quantities, List.mem_cons, List.not_mem_nil, or_false] at hq
    rw [show (Asset.spill c).ois i s.freq flags = [.spill (c.oneInterval i)] from rfl]
    obtain ⟨z1, z2, z3⟩ := h.nothing i hi
    rcases hq with rfl | rfl | rfl | rfl | rfl | rfl | rfl | rfl | rfl <;>
      simp [Asset.reports, Asset.flows, Asset.units, Asset.name, rowSum, OneInterval.flow, Base.get?, OneInterval.base, Val.eval,
        String.append_assoc, v1, v2, v3, v4, z1, z2, z3]
  · intro i hi
    obtain ⟨z1, z2, z3⟩ := h.nothing i hi
    simp [Asset.reports, Asset.flows, Asset.units, Asset.name, rowSum, Asset.gasOf, String.append_assoc, z3]
  · intro i hi
    simp [rowSum, Asset.penalised, Asset.spilledOf, σ, add_assoc]

theorem valve_played {c : ValveCfg} (h : c.Plays s W) : ∃ σ, (Asset.valve c).Played s flags W σ := by
  let σ : Assign := fun
    | .asset _ attr i =>
      if attr = "high_temperature_load_mwh" then W (c.name ++ "-high_temperature_load_mwh") i
      else W (c.name ++ "-low_temperature_generation_mwh") i
    | _ => 0
  have v1 : ∀ i, σ (c.oneInterval i).htLoad.id = W (c.name ++ "-high_temperature_load_mwh") i := fun i => rfl
  have v2 : ∀ i, σ (c.oneInterval i).lt.id = W (c.name ++ "-low_temperature_generation_mwh") i := fun i => rfl
  have b1 : ∀ i < s.data.n, (c.oneInterval i).htLoad.InBounds σ := fun i hi => in_positive (h.passes i hi).2
  have b2 : ∀ i < s.data.n, (c.oneInterval i).lt.InBounds σ := fun i hi => in_positive (by
    have := h.passes i hi
    show 0 ≤ W (c.name ++ "-low_temperature_generation_mwh") i
    rw [← this.1]
    exact this.2)
  refine ⟨σ, ⟨?_, by simp [Asset.afterList], ?_⟩, ?_, ?_, fun i hi => rfl, fun _ h => nomatch h⟩
  · intro i hi con hcon
    simp only [Asset.withinList, ValveCfg.withinList, List.mem_cons, List.not_mem_nil, or_false] at hcon
    subst hcon
    exact good (by
      simp only [eqC_holds, Expr.eval_var, v1, v2]
      exact (h.passes i hi).1) (Expr.Over.eqC (inB (b1 i hi)) (inB (b2 i hi)))
  · intro i hi o ho
    have : o = .valve (c.oneInterval i) := List.mem_singleton.1 ho
    subst this
    exact ⟨trivial, trivial, b2 i hi, trivial, b1 i hi, trivial, trivial, trivial, trivial, trivial⟩
  · intro i hi q hq
    simp only [quantities, List.mem_cons, List.not_mem_nil, or_false] at hq
    rw [show (Asset.valve c).ois i s.freq flags = [.valve (c.oneInterval i)] from rfl]
    rcases hq with rfl | rfl | rfl | rfl | rfl | rfl | rfl | rfl | rfl <;>
      simp [Asset.reports, Asset.flows, Asset.units, Asset.name, rowSum, OneInterval.flow, Base.get?, OneInterval.base, Val.eval,
        String.append_assoc, v1, v2]
  · intro i hi
    simp [Asset.reports, Asset.flows, rowSum, Asset.gasOf]

/-- At most one of two families of flows is on: their switches sum to at most one. -/
theorem onOff_once {n : Nat} {x y : Nat → ℚ} (hxy : ∀ k < n, ∀ k' < n, (x k ≠ 0 → x k' ≠ 0 → k = k') ∧ (y k ≠ 0 → y k' ≠ 0 → k = k') ∧
    ¬ (x k ≠ 0 ∧ y k' ≠ 0)) : sumTo n (fun k => onOff (x k)) + sumTo n (fun k => onOff (y k)) ≤ 1 := by
  have hon : ∀ q : ℚ, onOff q ≠ 0 → q ≠ 0 := fun q h hq => h (by rw [hq, onOff_zero])
  have hs : ∀ z : Nat → ℚ, (∀ k < n, ∀ k' < n, z k ≠ 0 → z k' ≠ 0 → k = k') → sumTo n (fun k => onOff (z k)) ≤ 1 := by
    intro z hz
    rcases sumTo_single (x := fun k => onOff (z k)) (lo := 1) (hi := 1) (fun k hk k' hk' h h' => hz k hk k' hk' (hon _ h) (hon _ h'))
      (fun k hk => by rcases onOff_01 (z k) with h | h <;> simp [h]) with h | h
    · rw [h]; norm_num
    · exact h.2
  by_cases h0 : ∃ k < n, x k ≠ 0
  · obtain ⟨k, hk, hx⟩ := h0
    have : sumTo n (fun k => onOff (y k)) = 0 := sumTo_zero fun k' hk' => by
      by_contra h
      exact (hxy k hk k' hk').2.2 ⟨hx, hon _ h⟩
    rw [this, add_zero]
    exact hs x fun k hk k' hk' => (hxy k hk k' hk').1
  · have : sumTo n (fun k => onOff (x k)) = 0 := sumTo_zero fun k' hk' => by
      by_contra h
      exact h0 ⟨k', hk', hon _ h⟩
    rw [this, zero_add]
    exact hs y fun k hk k' hk' => (hxy k hk k' hk').2.1

/-- The position of a charger. -/
def EvsCfg.plug (c : EvsCfg) (name : String) : Nat := c.chargers.findIdx (fun ch => ch.name == name)

theorem plug_eq {a : EvArgs} {c : EvsCfg} (hm : EvMade a c) {k : Nat} {power : ℚ} (hk : a.powers[k]? = some power) :
    c.plug ("charger-" ++ toString k) = k := by
  unfold EvsCfg.plug
  have he := hm.charger hk
  obtain ⟨hl, hx⟩ := List.getElem?_eq_some_iff.1 he
  have hlt : c.chargers.findIdx (fun x => x.name == "charger-" ++ toString k) < c.chargers.length :=
    List.findIdx_lt_length_of_exists ⟨_, List.mem_of_getElem? he, by simp⟩
  have hp := List.findIdx_getElem (w := hlt)
  have hlt' : c.chargers.findIdx (fun x => x.name == "charger-" ++ toString k) < a.powers.length := by
    rw [← hm.chargers_length]; exact hlt
  have he' := hm.charger (List.getElem?_eq_getElem hlt')
  obtain ⟨_, hx'⟩ := List.getElem?_eq_some_iff.1 he'
  rw [hx'] at hp
  simp only [beq_iff_eq] at hp
  refine digits_inj ?_
  have := congrArg String.toList hp
  rw [String.toList_append, String.toList_append] at this
  exact List.append_cancel_left this

theorem evs_played (hn : 0 < s.data.n) (hp : s.Plugs) {c : EvsCfg} (hc : Asset.evs c ∈ s.assets) (hb : ∀ i < s.data.n, (Asset.evs c).Buildable i)
    {a : EvArgs} (ha : a.make = .ok c) {x : EvSchedule} (h : a.Plays s flags W x) : ∃ σ, (Asset.evs c).Played s flags W σ := by
  let σ : Assign := fun
    | .evFlow attr i _ e ch true =>
      if attr = "electric_charge_mwh" then x.spill i e
      else if attr = "electric_charge_binary" then onOff (x.spill i e)
      else (1 - a.efficiency) * x.spill i e
    | .evFlow attr i _ e ch false =>
      if attr = "electric_charge_mwh" then x.charge i e (c.plug ch)
      else if attr = "electric_charge_binary" then onOff (x.charge i e (c.plug ch))
      else if attr = "electric_discharge_mwh" then x.discharge i e (c.plug ch)
      else if attr = "electric_discharge_binary" then onOff (x.discharge i e (c.plug ch))
      else (1 - a.efficiency) * x.charge i e (c.plug ch)
    | .evSoc attr i _ name => W (c.name ++ "-" ++ name ++ "-" ++ attr) i
    | _ => 0
  have hm := ev_made ha
  have hE := hm.events_length
  have ecol : ∀ (e : Nat) (attr : String), a.eventCol e attr = c.name ++ "-" ++ ("charge-event-" ++ toString e) ++ "-" ++ attr := fun e attr => by
    rw [hm.name, str_eq_iff]; simp [String.toList_append, EvArgs.eventCol]
  have ccol : ∀ (k : Nat) (attr : String), a.chargerCol k attr = c.name ++ "-" ++ ("charger-" ++ toString k) ++ "-" ++ attr := fun k attr => by
    rw [hm.name, str_eq_iff]; simp [String.toList_append, EvArgs.chargerCol]
  have scol : ∀ attr, a.spillCol attr = c.name ++ "-" ++ ("charger-spill-" ++ a.name) ++ "-" ++ attr := fun attr => by
    rw [hm.name, str_eq_iff]; simp [String.toList_append, EvArgs.spillCol]
  have hpow : ∀ ch ∈ c.chargers, ∃ (k : Nat) (power : ℚ), a.powers[k]? = some power ∧ ch = ⟨"charger-" ++ toString k, power, power * a.turndown⟩ := by
    intro ch hch
    obtain ⟨k, hk⟩ := List.mem_iff_getElem?.1 hch
    have hlt : k < a.powers.length := by rw [← hm.chargers_length]; exact (List.getElem?_eq_some_iff.1 hk).1
    refine ⟨k, a.powers[k], List.getElem?_eq_getElem hlt, ?_⟩
    rw [hm.charger (List.getElem?_eq_getElem hlt)] at hk
    exact (Option.some.inj hk).symm
  have hcap : ∀ (e : Nat) (ev : ChargeEventCfg), c.events[e]? = some ev → ∃ q, a.capacities[e]? = some q ∧ e < a.capacities.length ∧
      ev = ⟨"charge-event-" ++ toString e, q, a.efficiency⟩ := by
    intro e ev he
    have hlt : e < a.capacities.length := by rw [← hE]; exact event_lt he
    refine ⟨a.capacities[e], List.getElem?_eq_getElem hlt, hlt, ?_⟩
    rw [hm.event (List.getElem?_eq_getElem hlt)] at he
    exact (Option.some.inj he).symm
  have hspill : ∀ ch ∈ c.spillChargers, ch = ⟨"charger-spill-" ++ a.name, 10000, 0⟩ := fun ch hch => by
    rw [hm.spill] at hch; exact List.mem_singleton.1 hch
  have hrow : ∀ i < s.data.n, c.HasRow i := fun i hi => (hb i hi : c.Shape ∧ c.HasRow i).2
  have hpres : ∀ i < s.data.n, ∀ e, c.present i e = a.present i e := by
    intro i hi e
    obtain ⟨hsh, hrow⟩ := (hb i hi : c.Shape ∧ c.HasRow i)
    refine hm.present i ?_ e
    have hpos : 0 < c.events.length := List.length_pos_iff.2 hsh.events
    have := hrow 0 hpos
    simp only [matIndex, bind_ok, pyIndex_nat] at this
    obtain ⟨row, h1, _⟩ := this
    exact (List.getElem?_eq_some_iff.1 h1).1
  have hfull : ∀ i < s.data.n, ∀ e < a.capacities.length, c.present i e ≠ 1 → a.present i e < 1 := by
    intro i hi e he hne
    rw [hpres i hi e] at hne
    exact lt_of_le_of_ne (hpres i hi e ▸ (hp.entries c hc i hi e (by rw [hE]; exact he)).2) hne
  have hlt : ∀ {k : Nat} {power : ℚ}, a.powers[k]? = some power → k < a.powers.length := fun hk => (List.getElem?_eq_some_iff.1 hk).1
  have w1 : ∀ i < s.data.n, ∀ e < a.capacities.length, ∀ (k : Nat) (power : ℚ), a.powers[k]? = some power →
      c.chargeOf flags σ i e ("charger-" ++ toString k) false = x.charge i e k ∧
      c.chargeBinOf flags σ i e ("charger-" ++ toString k) false = onOff (x.charge i e k) ∧
      c.dischargeOf flags σ i e ("charger-" ++ toString k) = x.discharge i e k ∧
      c.dischargeBinOf flags σ i e ("charger-" ++ toString k) = onOff (x.discharge i e k) ∧
      c.lossOf σ i e ("charger-" ++ toString k) false = (1 - a.efficiency) * x.charge i e k := by
    intro i hi e he k power hk
    have hz : flags.limitChargeVariables = true ∧ c.present i e ≠ 1 → x.charge i e k = 0 := fun hl =>
      ((h.valid.absent i hi e he (hfull i hi e he hl.2)).1 k (hlt hk)).1
    refine ⟨?_, ?_, ?_, ?_, ?_⟩
    · unfold EvsCfg.chargeOf
      split
      · rename_i hl; exact (hz hl).symm
      · show x.charge i e (c.plug _) = _
        rw [plug_eq hm hk]
    · unfold EvsCfg.chargeBinOf
      split
      · rename_i hl; rw [hz hl, onOff_zero]
      · show onOff (x.charge i e (c.plug _)) = _
        rw [plug_eq hm hk]
    · unfold EvsCfg.dischargeOf
      split
      · show x.discharge i e (c.plug _) = _
        rw [plug_eq hm hk]
      · rename_i hl
        exact (h.valid.noDischarge (by simpa using hl) i hi e he k (hlt hk)).symm
    · unfold EvsCfg.dischargeBinOf
      split
      · show onOff (x.discharge i e (c.plug _)) = _
        rw [plug_eq hm hk]
      · rename_i hl
        rw [h.valid.noDischarge (by simpa using hl) i hi e he k (hlt hk), onOff_zero]
    · show (1 - a.efficiency) * x.charge i e (c.plug _) = _
      rw [plug_eq hm hk]
  have w2 : ∀ i < s.data.n, ∀ e < a.capacities.length, c.chargeOf flags σ i e ("charger-spill-" ++ a.name) true = x.spill i e ∧
      c.chargeBinOf flags σ i e ("charger-spill-" ++ a.name) true = onOff (x.spill i e) ∧
      c.lossOf σ i e ("charger-spill-" ++ a.name) true = (1 - a.efficiency) * x.spill i e := by
    intro i hi e he
    have hz : flags.limitChargeVariables = true ∧ c.present i e ≠ 1 → x.spill i e = 0 := fun hl =>
      (h.valid.absent i hi e he (hfull i hi e he hl.2)).2
    refine ⟨?_, ?_, rfl⟩
    · unfold EvsCfg.chargeOf
      split
      · rename_i hl; exact (hz hl).symm
      · rfl
    · unfold EvsCfg.chargeBinOf
      split
      · rename_i hl; rw [hz hl, onOff_zero]
      · rfl
  have w3 : ∀ (i e : Nat) (q : ℚ), c.initialSocOf σ i ⟨"charge-event-" ++ toString e, q, a.efficiency⟩ = W (a.eventCol e "initial_soc_mwh") i ∧
      c.finalSocOf σ i ⟨"charge-event-" ++ toString e, q, a.efficiency⟩ = W (a.eventCol e "final_soc_mwh") i := by
    intro i e q
    rw [ecol, ecol]
    exact ⟨rfl, rfl⟩
  have flow : ∀ {q lo hi pr : ℚ}, 0 ≤ q → (q = 0 ∨ (lo ≤ q ∧ q ≤ hi)) → (pr < 1 → q = 0) → FlowOk q (onOff q) lo hi pr := by
    intro q lo hi pr h0 hl hpr
    by_cases hq : q = 0
    · exact .inl ⟨hq, by rw [hq, onOff_zero]⟩
    · rcases hl with hl | hl
      · exact absurd hl hq
      · exact .inr ⟨onOff_one hq, h0, hl.1, hl.2, not_lt.1 fun hlt => hq (hpr hlt)⟩
  have hsum : ∀ g : Nat → ℚ, c.sumEvents g = sumTo a.capacities.length g := fun g => by rw [← hE]; rfl
  have P : EvPlan c s.freq flags σ s.data.n := by
    refine ⟨hn, (hb 0 hn : c.Shape ∧ c.HasRow 0).1, hrow, ?_, fun i hi e he => (hp.entries c hc i hi e he).1,
      fun ch hch => hp.powers c hc ch (List.mem_append_left _ hch), fun ch hch => hp.powers c hc ch (List.mem_append_right _ hch), ?_, ?_, ?_, ?_⟩
    · intro i hi
      refine ⟨?_, ?_, ?_, ?_, ?_, ?_, ?_, ?_, ?_⟩
      · intro e ev he ch hch
        obtain ⟨k, power, hk, rfl⟩ := hpow ch hch
        obtain ⟨q, hq, hel, rfl⟩ := hcap e ev he
        obtain ⟨v1, v2, -⟩ := w1 i hi e hel k power hk
        rw [v1, v2, hpres i hi e]
        obtain ⟨l1, l2, l3, l4, l5⟩ := h.valid.limits i hi e hel k (hlt hk) power hk
        exact flow l3 l1 fun hab => ((h.valid.absent i hi e hel hab).1 k (hlt hk)).1
      · intro e ev he ch hch
        obtain ⟨k, power, hk, rfl⟩ := hpow ch hch
        obtain ⟨q, hq, hel, rfl⟩ := hcap e ev he
        obtain ⟨-, -, v1, v2, -⟩ := w1 i hi e hel k power hk
        rw [v1, v2, hpres i hi e]
        obtain ⟨l1, l2, l3, l4, l5⟩ := h.valid.limits i hi e hel k (hlt hk) power hk
        exact flow l4 l2 fun hab => ((h.valid.absent i hi e hel hab).1 k (hlt hk)).2
      · intro e ev he ch hch
        obtain rfl := hspill ch hch
        obtain ⟨q, hq, hel, rfl⟩ := hcap e ev he
        obtain ⟨v1, v2, -⟩ := w2 i hi e hel
        rw [v1, v2, hpres i hi e]
        have l := h.spill i hi e hel
        refine flow l.1 (.inr ⟨?_, l.2⟩) fun hab => (h.valid.absent i hi e hel hab).2
        show (0 : ℚ) * s.freqMins / 60 ≤ _
        rw [zero_mul, zero_div]
        exact l.1
      · intro e he
        have hel : e < a.capacities.length := by rw [← hE]; exact he
        rw [hm.sum_chargers (fun n => c.chargeBinOf flags σ i e n false), hm.sum_chargers (fun n => c.dischargeBinOf flags σ i e n),
          sumTo_congr fun k hk => (w1 i hi e hel k _ (List.getElem?_eq_getElem hk)).2.1,
          sumTo_congr fun k hk => (w1 i hi e hel k _ (List.getElem?_eq_getElem hk)).2.2.2.1]
        exact onOff_once (h.valid.oneCharger i hi e hel)
      · intro ch hch
        obtain ⟨k, power, hk, rfl⟩ := hpow ch hch
        rw [hsum, hsum, sumTo_congr fun e he => (w1 i hi e he k power hk).2.1, sumTo_congr fun e he => (w1 i hi e he k power hk).2.2.2.1]
        exact onOff_once (x := fun e => x.charge i e k) (y := fun e => x.discharge i e k) (h.valid.oneEvent i hi k (hlt hk))
      · intro e ev he
        obtain ⟨q, hq, hel, rfl⟩ := hcap e ev he
        have e1 : c.eventCharge flags σ i e = sumTo a.powers.length (fun k => x.charge i e k) :=
          (hm.sum_chargers (fun n => c.chargeOf flags σ i e n false)).trans
            (sumTo_congr fun k hk => (w1 i hi e hel k _ (List.getElem?_eq_getElem hk)).1)
        have e2 : c.eventDischarge flags σ i e = sumTo a.powers.length (fun k => x.discharge i e k) :=
          (hm.sum_chargers (fun n => c.dischargeOf flags σ i e n)).trans
            (sumTo_congr fun k hk => (w1 i hi e hel k _ (List.getElem?_eq_getElem hk)).2.2.1)
        have e3 : c.eventSpill flags σ i e = x.spill i e := by
          simp only [EvsCfg.eventSpill, hm.spill, List.map_cons, List.map_nil, List.sum_cons, List.sum_nil, add_zero]
          exact (w2 i hi e hel).1
        rw [(w3 i e q).1, (w3 i e q).2, e1, e2, e3]
        exact h.valid.soc i hi e hel
      · intro e ev he ch hch
        obtain ⟨k, power, hk, rfl⟩ := hpow ch hch
        obtain ⟨q, hq, hel, rfl⟩ := hcap e ev he
        obtain ⟨v1, -, -, -, v5⟩ := w1 i hi e hel k power hk
        rw [v1, v5]
      · intro e ev he ch hch
        obtain rfl := hspill ch hch
        obtain ⟨q, hq, hel, rfl⟩ := hcap e ev he
        obtain ⟨v1, -, v3⟩ := w2 i hi e hel
        rw [v1, v3]
      · intro e ev he
        obtain ⟨q, hq, hel, rfl⟩ := hcap e ev he
        rw [(w3 i e q).1, (w3 i e q).2]
        exact (h.stored e q hq).2.2.2 i hi
    · intro i hi e he ch hch
      obtain ⟨k, power, hk, rfl⟩ := hpow ch hch
      have hel : e < a.capacities.length := by rw [← hE]; exact he
      rw [(w1 i hi e hel k power hk).2.2.2.2]
      exact (h.losses i hi e hel).2 k (hlt hk)
    · intro i hi e he ch hch
      obtain rfl := hspill ch hch
      have hel : e < a.capacities.length := by rw [← hE]; exact he
      rw [(w2 i hi e hel).2.2]
      exact (h.losses i hi e hel).1
    · intro i hi ev hev
      obtain ⟨e, he⟩ := List.mem_iff_getElem?.1 hev
      obtain ⟨q, hq, hel, rfl⟩ := hcap e ev he
      rw [(w3 (i + 1) e q).1, (w3 i e q).2]
      exact (h.stored e q hq).2.2.1 i hi
    · intro ev hev
      obtain ⟨e, he⟩ := List.mem_iff_getElem?.1 hev
      obtain ⟨q, hq, hel, rfl⟩ := hcap e ev he
      rw [(w3 0 e q).1, (w3 (s.data.n - 1) e q).2]
      exact ⟨(h.stored e q hq).1, (h.stored e q hq).2.1⟩
  have cells : ∀ i < s.data.n, ∀ q ∈ ["electric_charge_mwh", "electric_discharge_mwh"], rowSum W (c.reportsOf c.chargers q) i =
      (c.chargers.map (fun ch => c.sumEvents (fun e => if q = "electric_charge_mwh" then c.chargeOf flags σ i e ch.name false
        else c.dischargeOf flags σ i e ch.name))).sum := by
    intro i hi q hq
    simp only [EvsCfg.reportsOf, if_pos hq, rowSum, List.map_map, Function.comp_def]
    refine list_sum_congr fun ch hch => ?_
    obtain ⟨k, power, hk, rfl⟩ := hpow ch hch
    simp only [List.mem_cons, List.not_mem_nil, or_false] at hq
    rw [← ccol, hsum]
    rcases hq with rfl | rfl
    · rw [h.explains.charger_charge i hi k (hlt hk)]
      exact (sumTo_congr fun e he => by simpa using (w1 i hi e he k power hk).1).symm
    · rw [h.explains.charger_discharge i hi k (hlt hk)]
      exact (sumTo_congr fun e he => by simpa using (w1 i hi e he k power hk).2.2.1).symm
  have scells : ∀ i < s.data.n, ∀ q ∈ ["electric_charge_mwh", "electric_discharge_mwh"], rowSum W (c.reportsOf c.spillChargers q) i =
      (c.spillChargers.map (fun ch => c.sumEvents (fun e => if q = "electric_charge_mwh" then c.chargeOf flags σ i e ch.name true
        else 0))).sum := by
    intro i hi q hq
    simp only [EvsCfg.reportsOf, if_pos hq, rowSum, List.map_map, Function.comp_def]
    refine list_sum_congr fun ch hch => ?_
    obtain rfl := hspill ch hch
    simp only [List.mem_cons, List.not_mem_nil, or_false] at hq
    rw [← scol, hsum]
    rcases hq with rfl | rfl
    · rw [h.explains.spill_charge i hi]
      exact (sumTo_congr fun e he => by simpa using (w2 i hi e he).1).symm
    · rw [h.explains.spill_discharge i hi]
      exact (sumTo_zero fun e he => by simp).symm
  have parts : ∀ i < s.data.n, ∀ q ∈ quantities,
      rowSum W (c.reportsOf c.chargers q) i = (((c.objs c.chargers i s.freq flags true true false).map .ev).map (OneInterval.flow σ q)).sum ∧
      rowSum W (c.reportsOf c.spillChargers q) i =
        (((c.objs c.spillChargers i s.freq flags false false true).map .evSpill).map (OneInterval.flow σ q)).sum := by
    intro i hi q hq
    rw [List.map_map, List.map_map]
    by_cases hq' : q ∈ ["electric_charge_mwh", "electric_discharge_mwh"]
    · rw [cells i hi q hq', scells i hi q hq']
      constructor
      · refine (objs_sum (val := fun e ch => if q = "electric_charge_mwh" then c.chargeOf flags σ i e ch.name false else c.dischargeOf flags σ i e ch.name)
          fun ev e ch k he _ => ?_).symm
        simp only [List.mem_cons, List.not_mem_nil, or_false] at hq'
        rcases hq' with rfl | rfl
        · rw [if_pos rfl]
          exact obj_charge (f := s.freq) (flags := flags) (ch := ch) (k := k) (hrow i hi) he true true false
        · rw [if_neg (by decide)]
          exact obj_discharge (c := c) (i := i) (flags := flags) (f := s.freq) (ev := ev) (e := e) (ch := ch) (k := k) true
      · refine (objs_sum (val := fun e ch => if q = "electric_charge_mwh" then c.chargeOf flags σ i e ch.name true else 0)
          fun ev e ch k he _ => ?_).symm
        simp only [List.mem_cons, List.not_mem_nil, or_false] at hq'
        rcases hq' with rfl | rfl
        · rw [if_pos rfl]
          exact obj_charge (f := s.freq) (flags := flags) (ch := ch) (k := k) (hrow i hi) he false false true
        · rw [if_neg (by decide)]
          exact obj_discharge_spill (σ := σ) (c := c) (i := i) (flags := flags) (f := s.freq) (ev := ev) (e := e) (ch := ch) (k := k) false true
    · simp only [quantities, List.mem_cons, List.not_mem_nil, or_false] at hq
      have hq1 : q ≠ "electric_charge_mwh" := fun hh => hq' (by rw [hh]; simp)
      have hq2 : q ≠ "electric_discharge_mwh" := fun hh => hq' (by rw [hh]; simp)
      have z1 : ∀ o : EvOI, (OneInterval.flow σ q ∘ .ev) o = 0 := by
        intro o
        rcases hq with rfl | rfl | rfl | rfl | rfl | rfl | rfl | rfl | rfl <;>
          first
            | exact absurd rfl hq1
            | exact absurd rfl hq2
            | simp [OneInterval.flow, Base.get?, OneInterval.base, Val.eval]
      have z2 : ∀ o : EvOI, (OneInterval.flow σ q ∘ .evSpill) o = 0 := by
        intro o
        rcases hq with rfl | rfl | rfl | rfl | rfl | rfl | rfl | rfl | rfl <;>
          first
            | exact absurd rfl hq1
            | exact absurd rfl hq2
            | simp [OneInterval.flow, Base.get?, OneInterval.base, Val.eval]
      rw [list_sum_zero (fun o _ => z1 o), list_sum_zero (fun o _ => z2 o)]
      simp [EvsCfg.reportsOf, hq1, hq2, rowSum]
  refine ⟨σ, ⟨fun i hi con hcon => plan_within P hi con hcon, fun con hcon => plan_after P con hcon, fun i hi o ho => plan_base P hi o ho⟩, ?_, ?_, ?_,
    fun c' hc' => by cases hc'; exact parts⟩
  · intro i hi q hq
    have ho : (Asset.evs c).ois i s.freq flags = (c.objs c.chargers i s.freq flags true true false).map .ev ++
        (c.objs c.spillChargers i s.freq flags false false true).map .evSpill := by
      simp only [Asset.ois, ois_evs ((hrow i hi).matOk _)]
    obtain ⟨e1, e2⟩ := parts i hi q hq
    rw [ho, List.map_append, List.sum_append, ← e1, ← e2]
    by_cases hm : q ∈ ["electric_charge_mwh", "electric_discharge_mwh"]
    · rw [Asset.reports, if_pos (show q ∈ (Asset.evs c).flows from hm), EvsCfg.reportsOf, EvsCfg.reportsOf, if_pos hm, if_pos hm]
      simp [rowSum, Asset.units, Function.comp_def]
    · rw [Asset.reports, if_neg (show q ∉ (Asset.evs c).flows from hm), EvsCfg.reportsOf, EvsCfg.reportsOf, if_neg hm, if_neg hm]
      simp [rowSum]
  · intro i hi
    simp [Asset.gasOf, Asset.reports, Asset.flows, rowSum]
  · intro i hi
    have c2 := scells i hi "electric_charge_mwh" (by simp)
    simp only [EvsCfg.reportsOf, List.mem_cons, true_or, if_true, rowSum, List.map_map, Function.comp_def] at c2
    simp only [Asset.penalised, Asset.spilledOf, rowSum, List.map_map, Function.comp_def]
    rw [← c2]
    refine list_sum_congr fun ch _ => ?_
    congr 1
    simp [String.append_assoc]

end

end EPL
