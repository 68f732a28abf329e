/-
A dispatch of a site with another electric load: the grid connection meets the difference.
-/
import Verif.Spec.Load
import Verif.Proofs.Pool
import Verif.Proofs.Bump

namespace EPL

/-- Imports, exports and load changed. -/
def loadTable (s : Site) (L : List ℚ) (V : String → Nat → ℚ) : String → Nat → ℚ := fun k i =>
  if k = "site-import_power_mwh" then max (V "site-import_power_mwh" i + max (s.extraLoad L i) 0 - V "site-export_power_mwh" i - max (- s.extraLoad L i) 0) 0
  else if k = "site-export_power_mwh" then
    max (V "site-export_power_mwh" i + max (- s.extraLoad L i) 0 - V "site-import_power_mwh" i - max (s.extraLoad L i) 0) 0
  else if k = "site-electric_load_mwh" then L.getD i 0
  else V k i

section
variable {s : Site} {flags : Flags} {V : String → Nat → ℚ} {L : List ℚ}

theorem parts (x : ℚ) : max x 0 - max (-x) 0 = x := by
  rcases le_total 0 x with h | h
  · rw [max_eq_left h, max_eq_right (by linarith)]; ring
  · rw [max_eq_right h, max_eq_left (by linarith)]; ring

theorem load_import (i : Nat) : loadTable s L V "site-import_power_mwh" i =
    max (V "site-import_power_mwh" i + max (s.extraLoad L i) 0 - V "site-export_power_mwh" i - max (- s.extraLoad L i) 0) 0 := rfl

theorem load_export (i : Nat) : loadTable s L V "site-export_power_mwh" i =
    max (V "site-export_power_mwh" i + max (- s.extraLoad L i) 0 - V "site-import_power_mwh" i - max (s.extraLoad L i) 0) 0 := rfl

theorem load_off {k : String} (h : k ≠ "site-import_power_mwh") (h' : k ≠ "site-export_power_mwh") (h'' : k ≠ "site-electric_load_mwh") :
    loadTable s L V k = V k := by
  funext i
  unfold loadTable
  rw [if_neg h, if_neg h', if_neg h'']

theorem load_asset (hc : s.ClearNames) {a : Asset} (ha : a ∈ s.assets) {k : String} (hk : k ∈ a.documentedColumns) : loadTable s L V k = V k := by
  refine load_off ?_ ?_ ?_ <;> rintro rfl <;> exact site_column hc (by simp [siteColumns]) ha hk

theorem load_sum (hc : s.ClearNames) (hw : ∀ a ∈ s.assets, a.WellNamed) (q : String) (i : Nat) :
    (s.withLoad L).assetSum (loadTable s L V) q i = s.assetSum V q i :=
  list_sum_congr fun a ha => rowSum_congr (fun _ hk => load_asset hc ha (reports_documented (hw a ha) hk)) i

/-- The difference of import and export. -/
theorem load_net (i : Nat) : loadTable s L V "site-import_power_mwh" i - loadTable s L V "site-export_power_mwh" i =
      V "site-import_power_mwh" i - V "site-export_power_mwh" i + s.extraLoad L i ∧
    (loadTable s L V "site-import_power_mwh" i = 0 ∨ loadTable s L V "site-export_power_mwh" i = 0) := by
  have h := net_parts (V "site-import_power_mwh" i + max (s.extraLoad L i) 0) (V "site-export_power_mwh" i + max (- s.extraLoad L i) 0)
  have p := parts (s.extraLoad L i)
  rw [load_import, load_export, sub_sub (V "site-import_power_mwh" i + max (s.extraLoad L i) 0), sub_sub (V "site-export_power_mwh" i + max (- s.extraLoad L i) 0)]
  refine ⟨h.1.trans ?_, h.2⟩
  linarith

theorem load_dispatch (hc : s.ClearNames) (hw : ∀ a ∈ s.assets, a.WellNamed) (h : s.Dispatch flags V) (hm : s.CanMeet V L) :
    (s.withLoad L).Dispatch flags (loadTable s L V) := by
  have lim : ∀ i < s.data.n, 0 ≤ s.importLimit * s.freqMins / 60 ∧ 0 ≤ s.exportLimit * s.freqMins / 60 := fun i hi =>
    ⟨(h.imports i hi).1.trans (h.imports i hi).2, (h.exports i hi).1.trans (h.exports i hi).2⟩
  refine ⟨⟨fun i hi => ?_, fun i hi => ?_⟩, fun i hi => ?_, fun i hi => ?_, fun i _ => (load_net i).2, fun i hi => ?_, fun i hi => ?_, fun i hi => ?_,
    fun a ha => ?_⟩
  · exact h.inputs.prices i hi
  · exact ⟨rfl, (h.inputs.loads i hi).2⟩
  · rw [load_import]
    refine ⟨le_max_right _ _, max_le ?_ (lim i hi).1⟩
    have := (hm i hi).1
    have p := parts (s.extraLoad L i)
    show _ ≤ s.importLimit * s.freqMins / 60
    linarith
  · rw [load_export]
    refine ⟨le_max_right _ _, max_le ?_ (lim i hi).2⟩
    have := (hm i hi).2
    have p := parts (s.extraLoad L i)
    show _ ≤ s.exportLimit * s.freqMins / 60
    linarith
  · rw [load_sum hc hw, load_sum hc hw, load_sum hc hw, load_sum hc hw]
    have e := h.electricity i hi
    have l := (h.inputs.loads i hi).1
    have n := (load_net (s := s) (V := V) (L := L) i).1
    have k : loadTable s L V "site-electric_load_mwh" i = L.getD i 0 := rfl
    rw [k]
    unfold Site.extraLoad at n
    linarith
  · rw [load_sum hc hw, load_sum hc hw]
    exact h.high i hi
  · rw [load_sum hc hw, load_sum hc hw]
    exact h.low i hi
  · exact plays_congr (s := s) rfl rfl (fun k hk => (load_asset hc ha hk).symm) (h.assets a ha)

theorem load_spill (hc : s.ClearNames) (hw : ∀ a ∈ s.assets, a.WellNamed) : (s.withLoad L).readSpill (loadTable s L V) = s.readSpill V := by
  unfold Site.readSpill Site.sumIntervals
  refine list_sum_congr fun i _ => list_sum_congr fun a ha => ?_
  exact rowSum_congr (fun _ hk => load_asset hc ha (penalised_documented (hw a ha) hk)) i

theorem load_cost (hc : s.ClearNames) (hw : ∀ a ∈ s.assets, a.WellNamed) (h : s.Dispatch flags V) (ha : s.NoArbitrage) :
    (s.withLoad L).readCost (loadTable s L V) ≤ s.readCost V + s.gridCost L := by
  unfold Site.readCost Site.gridCost Site.sumIntervals
  rw [← list_sum_add]
  refine List.sum_le_sum fun i hi => ?_
  have hi : i < s.data.n := List.mem_range.1 hi
  obtain ⟨p1, p2, -, p4⟩ := h.inputs.prices i hi
  have e1 : loadTable s L V "site-electricity_prices" i = s.data.electricityPrices.getD i 0 := p1
  have e2 : loadTable s L V "site-export_electricity_prices" i = s.data.exportElectricityPrices.getD i 0 := p2
  have e4 : loadTable s L V "site-gas_prices" i = s.data.gasPrices.getD i 0 := p4
  rw [load_sum hc hw, e1, e2, e4, p1, p2, p4, load_import, load_export]
  have := net_cost (h.imports i hi).1 (le_max_right (s.extraLoad L i) 0) (h.exports i hi).1 (le_max_right (- s.extraLoad L i) 0) (ha i hi)
  linarith

theorem load_emissions (hc : s.ClearNames) (hw : ∀ a ∈ s.assets, a.WellNamed) (h : s.Dispatch flags V) :
    (s.withLoad L).readEmissions (loadTable s L V) = s.readEmissions V + s.gridEmissions L := by
  unfold Site.readEmissions Site.gridEmissions Site.sumIntervals
  rw [← list_sum_add]
  refine list_sum_congr fun i hi => ?_
  have hi : i < s.data.n := List.mem_range.1 hi
  obtain ⟨-, -, p3, -⟩ := h.inputs.prices i hi
  have e3 : loadTable s L V "site-electricity_carbon_intensities" i = s.data.electricityCarbonIntensities.getD i 0 := p3
  rw [load_sum hc hw, e3, p3, (load_net i).1]
  ring

end

end EPL
