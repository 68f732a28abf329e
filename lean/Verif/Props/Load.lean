/-
C98: additional load costs at most its import and at least its export.
-/
import Verif.Proofs.Load
import Verif.Props.Margin
import Verif.Props.Enough
import Verif.Spec.DemoLoad

namespace EPL

section
variable {s : Site} {flags : Flags} {o : Objective} {S S' : Solver} {r r' : SimResult} {V V' : String → Nat → ℚ} {L : List ℚ}

/-- C98: where the connection can meet a change of the load, the new optimum costs at most what the old result costs plus the additional load at import prices
less the saved load at export prices. -/
theorem C98_price (h : Run s o flags S r V) (hs : s.Ordinary) (h' : Run (s.withLoad L) (.str "price") flags S' r' V') (hS' : S'.Exact) (hm : s.CanMeet V L)
    (ha : s.NoArbitrage) : s.readCost V' + spillPenalty * s.readSpill V' ≤ s.readCost V + spillPenalty * s.readSpill V + s.gridCost L := by
  have hd := run_dispatch h hs
  have := C81_cheapest h' hS' hs.named (readable_nil hs.constraints) hs.evs hs.freq (load_dispatch hs.clear hs.named hd hm) (obeys_nil hs.constraints)
  rw [load_spill hs.clear hs.named] at this
  have := this.trans (add_le_add_left (load_cost hs.clear hs.named hd ha) _)
  have e : s.readCost V' + spillPenalty * s.readSpill V' = (s.withLoad L).readCost V' + spillPenalty * (s.withLoad L).readSpill V' := rfl
  rw [e]
  linarith

/-- C98: and emits at most what the old result emits plus the change of the load at the carbon intensities of the grid. -/
theorem C98_carbon (h : Run s o flags S r V) (hs : s.Ordinary) (h' : Run (s.withLoad L) (.str "carbon") flags S' r' V') (hS' : S'.Exact) (hm : s.CanMeet V L) :
    s.readEmissions V' + spillPenalty * s.readSpill V' ≤ s.readEmissions V + spillPenalty * s.readSpill V + s.gridEmissions L := by
  have hd := run_dispatch h hs
  have := C81_greenest h' hS' hs.named (readable_nil hs.constraints) hs.evs hs.freq (load_dispatch hs.clear hs.named hd hm) (obeys_nil hs.constraints)
  rw [load_spill hs.clear hs.named, load_emissions hs.clear hs.named hd] at this
  have e : s.readEmissions V' + spillPenalty * s.readSpill V' = (s.withLoad L).readEmissions V' + spillPenalty * (s.withLoad L).readSpill V' := rfl
  rw [e]
  linarith

theorem withLoad_back : (s.withLoad L).withLoad s.data.electricLoad = s := rfl

theorem extraLoad_back (i : Nat) : (s.withLoad L).extraLoad s.data.electricLoad i = - s.extraLoad L i := by
  unfold Site.extraLoad
  show s.data.electricLoad.getD i 0 - L.getD i 0 = _
  ring

theorem gridCost_back : (s.withLoad L).gridCost s.data.electricLoad = - s.lostSales L := by
  unfold Site.gridCost Site.lostSales Site.sumIntervals
  rw [← list_sum_neg]
  refine list_sum_congr fun i _ => ?_
  rw [extraLoad_back, neg_neg]
  show _ * s.data.electricityPrices.getD i 0 - _ * s.data.exportElectricityPrices.getD i 0 = _
  ring

theorem gridEmissions_back : (s.withLoad L).gridEmissions s.data.electricLoad = - s.gridEmissions L := by
  unfold Site.gridEmissions Site.sumIntervals
  rw [← list_sum_neg]
  refine list_sum_congr fun i _ => ?_
  rw [extraLoad_back]
  show _ * s.data.electricityCarbonIntensities.getD i 0 = _
  ring

/-- C98: the optimal cost of additional load lies between its value at export prices and its cost at import prices, where the connection can meet the change
from either side. -/
theorem C98_between (h : Run s (.str "price") flags S r V) (hS : S.Exact) (hs : s.Ordinary) (h' : Run (s.withLoad L) (.str "price") flags S' r' V')
    (hS' : S'.Exact) (hm : s.CanMeet V L) (hm' : (s.withLoad L).CanMeet V' s.data.electricLoad) (ha : s.NoArbitrage) :
    ∃ q q', r.status.objective = some q ∧ r'.status.objective = some q' ∧ s.lostSales L ≤ q' - q ∧ q' - q ≤ s.gridCost L := by
  have ht : (s.withLoad L).Ordinary := ⟨⟨hs.clear.solver, hs.clear.comma, hs.clear.site, hs.clear.evs, hs.clear.custom, hs.clear.customDistinct⟩, hs.named, hs.constraints, hs.evs, hs.chps, hs.freq⟩
  have a := C98_price h hs h' hS' hm ha
  have b := C98_price (L := s.data.electricLoad) h' ht (show Run ((s.withLoad L).withLoad s.data.electricLoad) _ _ _ _ _ from h) hS hm' ha
  rw [gridCost_back] at b
  refine ⟨_, _, C40_results h hs.named, C40_results h' hs.named, ?_, ?_⟩
  · have e : ∀ W, (s.withLoad L).readCost W + spillPenalty * (s.withLoad L).readSpill W = s.readCost W + spillPenalty * s.readSpill W := fun _ => rfl
    rw [e] at b ⊢
    rw [e] at b
    linarith
  · have e : ∀ W, (s.withLoad L).readCost W + spillPenalty * (s.withLoad L).readSpill W = s.readCost W + spillPenalty * s.readSpill W := fun _ => rfl
    rw [e]
    linarith

/-- C98: the least emissions change by exactly the change of the load at the carbon intensities of the grid. -/
theorem C98_emissions (h : Run s (.str "carbon") flags S r V) (hS : S.Exact) (hs : s.Ordinary) (h' : Run (s.withLoad L) (.str "carbon") flags S' r' V')
    (hS' : S'.Exact) (hm : s.CanMeet V L) (hm' : (s.withLoad L).CanMeet V' s.data.electricLoad) :
    ∃ q q', r.status.objective = some q ∧ r'.status.objective = some q' ∧ q' - q = s.gridEmissions L := by
  have ht : (s.withLoad L).Ordinary := ⟨⟨hs.clear.solver, hs.clear.comma, hs.clear.site, hs.clear.evs, hs.clear.custom, hs.clear.customDistinct⟩, hs.named, hs.constraints, hs.evs, hs.chps, hs.freq⟩
  have a := C98_carbon h hs h' hS' hm
  have b := C98_carbon (L := s.data.electricLoad) h' ht (show Run ((s.withLoad L).withLoad s.data.electricLoad) _ _ _ _ _ from h) hS hm'
  rw [gridEmissions_back] at b
  have e : ∀ W, (s.withLoad L).readEmissions W + spillPenalty * (s.withLoad L).readSpill W = s.readEmissions W + spillPenalty * s.readSpill W := fun _ => rfl
  rw [e, e] at b
  refine ⟨_, _, C41_results h hs.named, C41_results h' hs.named, ?_⟩
  rw [e]
  exact le_antisymm (by linarith) (by linarith)

end

theorem more_meets {s : Site} {r r' : SimResult} {V V' : String → Nat → ℚ} {q q' : ℚ}
    (d : MarginDemo [.battery (growBattery 4)] (twoData [10, 100] [1/10, 1]) 10000 10000 q movedCells s r V)
    (d' : MarginDemo [.battery (growBattery 4)] moreData 10000 10000 q' moreCells (s.withLoad [6, 7]) r' V') :
    s.CanMeet V [6, 7] ∧ (s.withLoad [6, 7]).CanMeet V' s.data.electricLoad := by
  have hn : s.data.n = 2 := by rw [d.data]; rfl
  have hn' : (s.withLoad [6, 7]).data.n = 2 := hn
  have e0 := d.cells ("site-import_power_mwh", 0, 9) (by simp [movedCells]) (by simp only; omega)
  have e1 := d.cells ("site-export_power_mwh", 0, 0) (by simp [movedCells]) (by simp only; omega)
  have e2 := d.cells ("site-import_power_mwh", 1, 1) (by simp [movedCells]) (by simp only; omega)
  have e3 := d.cells ("site-export_power_mwh", 1, 0) (by simp [movedCells]) (by simp only; omega)
  have f0 := d'.cells ("site-import_power_mwh", 0, 10) (by simp [moreCells]) (by simp only; omega)
  have f1 := d'.cells ("site-export_power_mwh", 0, 0) (by simp [moreCells]) (by simp only; omega)
  have f2 := d'.cells ("site-import_power_mwh", 1, 3) (by simp [moreCells]) (by simp only; omega)
  have f3 := d'.cells ("site-export_power_mwh", 1, 0) (by simp [moreCells]) (by simp only; omega)
  simp only at e0 e1 e2 e3 f0 f1 f2 f3
  refine ⟨fun i hi => ?_, fun i hi => ?_⟩
  · have hi2 : i = 0 ∨ i = 1 := by omega
    rcases hi2 with rfl | rfl
    · rw [e0, e1, d.importLimit, d.exportLimit, d.freq]; unfold Site.extraLoad; rw [d.data]; decide +kernel
    · rw [e2, e3, d.importLimit, d.exportLimit, d.freq]; unfold Site.extraLoad; rw [d.data]; decide +kernel
  · have hi2 : i = 0 ∨ i = 1 := by omega
    rcases hi2 with rfl | rfl
    · rw [f0, f1, d'.importLimit, d'.exportLimit, d'.freq, extraLoad_back]; unfold Site.extraLoad; rw [d.data]; decide +kernel
    · rw [f2, f3, d'.importLimit, d'.exportLimit, d'.freq, extraLoad_back]; unfold Site.extraLoad; rw [d.data]; decide +kernel

/-- C98: one more MWh at a price of 10 and two more at a price of 100 cost 210: the battery is full already. -/
example : ∃ (s : Site) (S S' : Solver) (r r' : SimResult) (V V' : String → Nat → ℚ), Run s (.str "price") {} S r V ∧ S.Exact ∧ s.Ordinary ∧
    Run (s.withLoad [6, 7]) (.str "price") {} S' r' V' ∧ S'.Exact ∧ s.CanMeet V [6, 7] ∧ (s.withLoad [6, 7]).CanMeet V' s.data.electricLoad ∧ s.NoArbitrage ∧
    s.assets = [.battery (growBattery 4)] ∧ s.gridCost [6, 7] = 210 ∧ r.status.objective = some 190 ∧ r'.status.objective = some 400 := by
  obtain ⟨s, r, V, S, hs, hS, h, ht⟩ := Demo.runOptimal demoMoved_price
  obtain ⟨t, r', V', S', hs', hS', h', ht'⟩ := Demo.runOptimal demoMore_price
  have d := marginDemo h ht
  have d' := marginDemo h' ht'
  obtain rfl := moreDemo_load d d'
  refine ⟨s, S, S', r, r', V, V', h, hS, marginDemo_ordinary d (by decide +kernel) rfl, h', hS', (more_meets d d').1, (more_meets d d').2, ?_, d.assets, ?_,
    d.objective, d'.objective⟩
  · unfold Site.NoArbitrage; rw [d.data]; decide +kernel
  · unfold Site.gridCost Site.sumIntervals Site.extraLoad; rw [d.data]; decide +kernel

/-- C98: the same for carbon, at 0.1 and 1 tC/MWh. -/
example : ∃ (s : Site) (S S' : Solver) (r r' : SimResult) (V V' : String → Nat → ℚ), Run s (.str "carbon") {} S r V ∧ S.Exact ∧ s.Ordinary ∧
    Run (s.withLoad [6, 7]) (.str "carbon") {} S' r' V' ∧ S'.Exact ∧ s.CanMeet V [6, 7] ∧ (s.withLoad [6, 7]).CanMeet V' s.data.electricLoad ∧
    s.assets = [.battery (growBattery 4)] ∧ s.gridEmissions [6, 7] = 21/10 ∧ r.status.objective = some (19/10) ∧ r'.status.objective = some 4 := by
  obtain ⟨s, r, V, S, hs, hS, h, ht⟩ := Demo.runOptimal demoMoved_carbon
  obtain ⟨t, r', V', S', hs', hS', h', ht'⟩ := Demo.runOptimal demoMore_carbon
  have d := marginDemo h ht
  have d' := marginDemo h' ht'
  obtain rfl := moreDemo_load d d'
  refine ⟨s, S, S', r, r', V, V', h, hS, marginDemo_ordinary d (by decide +kernel) rfl, h', hS', (more_meets d d').1, (more_meets d d').2, d.assets, ?_,
    d.objective, d'.objective⟩
  unfold Site.gridEmissions Site.sumIntervals Site.extraLoad; rw [d.data]; decide +kernel

end EPL
