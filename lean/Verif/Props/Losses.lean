/-
Losses, EV spills and stored energy.
-/
import Verif.Proofs.Losses
import Verif.Props.Results
import Verif.Props.Evs
import Verif.Props.Assets

namespace EPL

section
variable {s : Site} {objective : Objective} {flags : Flags} {S : Solver} {r : SimResult} {V : String → Nat → ℚ}

/-! ### The two other totals -/

theorem special_columns (hc : s.Constructed) (h : s.optimize objective flags S = .ok r) (hw : ∀ a ∈ s.assets, a.WellNamed)
    {P : String → Bool} {T : String} (hT : T ∈ totalColumns) (hP : ∀ k ∈ totalKeys, P k = true → k = T) (i : Nat) :
    rowSum V (s.keys.filter P) i = rowSum V (r.results.columns.filter (fun c => P c && decide (c ≠ T))) i := by
  obtain ⟨σ, p, hr, hp, ho, hkeys⟩ := returned_outcome hc h
  have hTk : T ∈ totalKeys := by
    have : ∀ T ∈ totalColumns, T ∈ totalKeys := by decide +kernel
    exact this T hT
  have hperm : (s.keys.filter P).Perm (r.results.columns.filter (fun c => P c && decide (c ≠ T))) := by
    rw [List.perm_ext_iff_of_nodup (ho.nodup.filter _) (ho.colsNodup.filter _)]
    intro k
    rw [List.mem_filter, List.mem_filter, ho.columns]
    simp only [Bool.and_eq_true, decide_eq_true_eq]
    constructor
    · rintro ⟨hk, hPk⟩
      refine ⟨.inl hk, hPk, ?_⟩
      rintro rfl
      unfold Site.keys at hk
      rcases List.mem_append.1 hk with hk | hk
      · have hno : ∀ k ∈ totalColumns, k ≠ "site-import_power_mwh" ∧ k ≠ "site-export_power_mwh" ∧ k.toList.head? = some 't' := by
          decide +kernel
        rcases List.mem_cons.1 hk with hk | hk
        · exact (hno _ hT).1 hk
        · rcases List.mem_cons.1 hk with hk | hk
          · exact (hno _ hT).2.1 hk
          · obtain ⟨f, _, hf⟩ := List.mem_map.1 hk
            have h3 := (hno _ hT).2.2
            rw [← hf, String.toList_append] at h3
            simp at h3
      · obtain ⟨a, ha, hk⟩ := List.mem_flatMap.1 hk
        exact keys_not_total (hw a ha) hk hTk
    · rintro ⟨hk, hPk, hne⟩
      refine ⟨?_, hPk⟩
      rcases hk with hk | hk
      · exact hk
      · exact absurd (hP k hk hPk) hne
  exact (hperm.map _).sum_eq

theorem spills_cell (hc : s.Constructed) (h : s.optimize objective flags S = .ok r) (hV : r.results.Reads s.data.n V)
    (hw : ∀ a ∈ s.assets, a.WellNamed) {i : Nat} (hi : i < s.data.n) :
    V "total-spills_mwh" i = rowSum V (s.keys.filter isTotalSpillColumn) i ∧
    V "total-electric_loss_mwh" i = rowSum V (s.keys.filter isTotalLossColumn) i := by
  obtain ⟨σ, p, hr, hp, ho, hkeys⟩ := returned_outcome hc h
  constructor
  · have h1 := ho.spills i hi
    rw [hV _ ((ho.columns _).2 (.inr (by decide +kernel))) i hi, total_rowSum ho hkeys hV hw (by decide +kernel) hi] at h1
    exact Option.some.inj h1
  · have h1 := ho.loss i hi
    rw [hV _ ((ho.columns _).2 (.inr (by decide +kernel))) i hi, total_rowSum ho hkeys hV hw (by decide +kernel) hi] at h1
    exact Option.some.inj h1

/-- The spill total is the sum over all columns whose names contain "spill" and "charger-" and not "binary". -/
theorem C24_spill_columns (hc : s.Constructed) (h : s.optimize objective flags S = .ok r) (hV : r.results.Reads s.data.n V)
    (hw : ∀ a ∈ s.assets, a.WellNamed) {i : Nat} (hi : i < s.data.n) :
    V "total-spills_mwh" i = rowSum V (r.results.columns.filter (fun c =>
      pyIn "spill" c && !pyIn "binary" c && pyIn "charger-" c && decide (c ≠ "total-spills_mwh"))) i := by
  rw [(spills_cell hc h hV hw hi).1]
  exact special_columns hc h hw (by decide +kernel) (by decide +kernel) i

/-- The loss total is the sum over all columns whose names contain "electric_loss_mwh" and not "evs-charger", the total itself apart. -/
theorem C24_loss_columns (hc : s.Constructed) (h : s.optimize objective flags S = .ok r) (hV : r.results.Reads s.data.n V)
    (hw : ∀ a ∈ s.assets, a.WellNamed) {i : Nat} (hi : i < s.data.n) :
    V "total-electric_loss_mwh" i = rowSum V (r.results.columns.filter (fun c =>
      pyIn "electric_loss_mwh" c && !pyIn "evs-charger" c && decide (c ≠ "total-electric_loss_mwh"))) i := by
  rw [(spills_cell hc h hV hw hi).2]
  exact special_columns hc h hw (by decide +kernel) (by decide +kernel) i

theorem site_filter_none {P : String → Bool} (h1 : ∀ k ∈ siteColumns, P k = false) (h2 : ∀ f ∈ s.data.custom, P ("site-" ++ f.1) = false) :
    ("site-import_power_mwh" :: "site-export_power_mwh" :: s.data.dump.map (fun f => "site-" ++ f.1)).filter P = [] := by
  rw [List.filter_eq_nil_iff]
  intro k hk
  rw [Bool.not_eq_true]
  simp only [SiteData.dump, List.map_append, List.map_cons, List.map_nil, List.mem_cons, List.mem_append, List.mem_map,
    List.not_mem_nil, or_false] at hk
  rcases hk with rfl | rfl | (rfl | rfl | rfl | rfl | rfl | rfl | rfl | rfl) | ⟨f, hf, rfl⟩
  all_goals first
    | exact h2 f hf
    | exact h1 _ (by decide +kernel)

/-- With plain names the spill total collects what the spill chargers of the EVs report. -/
theorem C24_spill_assets (hc : s.Constructed) (h : s.optimize objective flags S = .ok r) (hV : r.results.Reads s.data.n V)
    (hw : ∀ a ∈ s.assets, a.WellNamed) (hn : s.SpillNames) {i : Nat} (hi : i < s.data.n) :
    V "total-spills_mwh" i = (s.assets.map (fun a => rowSum V a.evSpillColumns i)).sum := by
  rw [(spills_cell hc h hV hw hi).1]
  unfold Site.keys
  rw [List.filter_append, List.filter_flatMap, site_filter_none (by decide +kernel), List.nil_append]
  · have : s.assets.flatMap (fun a => a.keys.filter isTotalSpillColumn) = s.assets.flatMap Asset.evSpillColumns :=
      List.flatMap_congr (fun a ha => keys_spill (hw a ha) (hn.assets a ha) (fun c hac => hn.fleets c (hac ▸ ha)))
    rw [this, rowSum, list_sum_flatMap]
    rfl
  · intro f hf
    apply plain_spill
    have e : "site-" ++ f.1 = "site" ++ "-" ++ f.1 := by rw [str_eq_iff]; simp [String.toList_append]
    rw [e, pyIn_word (by decide), hn.custom f hf]
    decide +kernel

/-- With plain names the loss total collects the losses of batteries and charge events - and those of the chargers once more, unless the
name of the EVs ends with "evs". -/
theorem C24_loss_assets (hc : s.Constructed) (h : s.optimize objective flags S = .ok r) (hV : r.results.Reads s.data.n V)
    (hw : ∀ a ∈ s.assets, a.WellNamed) (hn : s.LossNames) {i : Nat} (hi : i < s.data.n) :
    V "total-electric_loss_mwh" i = (s.assets.map (fun a => rowSum V a.lossColumns i)).sum := by
  rw [(spills_cell hc h hV hw hi).2]
  unfold Site.keys
  rw [List.filter_append, List.filter_flatMap, site_filter_none (by decide +kernel), List.nil_append]
  · have : s.assets.flatMap (fun a => a.keys.filter isTotalLossColumn) = s.assets.flatMap Asset.lossColumns :=
      List.flatMap_congr (fun a ha => keys_loss (hw a ha) (hn.assets a ha).1 (hn.assets a ha).2)
    rw [this, rowSum, list_sum_flatMap]
    rfl
  · intro f hf
    have e : "site-" ++ f.1 = "site" ++ "-" ++ f.1 := by rw [str_eq_iff]; simp [String.toList_append]
    rw [isTotalLossColumn, e, pyIn_word (by decide), hn.custom f hf]
    have : pyIn "electric_loss_mwh" "site" = false := by decide +kernel
    rw [this]; rfl

/-! ### Spills -/

/-- What a spill takes or gives is never negative, and it makes neither low temperature heat nor takes high temperature heat or gas. -/
theorem C57_spill_columns (h : Run s objective flags S r V) {c : SpillCfg} (hc : Asset.spill c ∈ s.assets)
    (hn : (Asset.spill c).WellNamed) {i : Nat} (hi : i < s.data.n) :
    0 ≤ V (c.name ++ "-electric_generation_mwh") i ∧ 0 ≤ V (c.name ++ "-electric_load_mwh") i ∧
    0 ≤ V (c.name ++ "-high_temperature_generation_mwh") i ∧ 0 ≤ V (c.name ++ "-low_temperature_load_mwh") i ∧
    V (c.name ++ "-low_temperature_generation_mwh") i = 0 ∧ V (c.name ++ "-high_temperature_load_mwh") i = 0 ∧
    V (c.name ++ "-gas_consumption_mwh") i = 0 := by
  obtain ⟨p, σ, hco⟩ := h.core
  have hf := spill_facts hco.prog hco.feas hc hi
  obtain ⟨e1, e2, e3, e4, e5, e6, e7⟩ := spill_cells hco hc hn.ne_total hi
  rw [e1, e2, e3, e4]
  exact ⟨hf.1, hf.2.1, hf.2.2.1, hf.2.2.2, e5, e6, e7⟩

/-! ### Losses of EVs -/

/-- Every charger, the spill charger and every charge event of EVs lose the part of the charged energy the efficiency leaves. -/
theorem C72_ev_losses (h : Run s objective flags S r V) {a : EvArgs} {c : EvsCfg} (ha : a.make = .ok c)
    (hc : Asset.evs c ∈ s.assets) {i : Nat} (hi : i < s.data.n) :
    (∀ k < a.powers.length, V (a.chargerCol k "electric_loss_mwh") i = (1 - a.efficiency) * V (a.chargerCol k "electric_charge_mwh") i) ∧
    V (a.spillCol "electric_loss_mwh") i = (1 - a.efficiency) * V (a.spillCol "electric_charge_mwh") i ∧
    ∀ e < a.capacities.length, V (a.eventCol e "electric_loss_mwh") i = (1 - a.efficiency) * V (a.eventCol e "electric_charge_mwh") i := by
  obtain ⟨p, σ, hco⟩ := h.core
  have hm := ev_made ha
  have hw : pyIn "evs" c.name = true := by rw [hm.name]; exact hm.well
  have hE := hm.events_length
  have ecol' : ∀ e attr, a.eventCol e attr = c.name ++ "-" ++ ("charge-event-" ++ toString e) ++ "-" ++ attr := fun e attr => by
    rw [hm.name, str_eq_iff]; simp [String.toList_append, EvArgs.eventCol]
  have ccol : ∀ k attr, a.chargerCol k attr = c.name ++ "-" ++ ("charger-" ++ toString k) ++ "-" ++ attr := fun k attr => by
    rw [hm.name, str_eq_iff]; simp [String.toList_append, EvArgs.chargerCol]
  have scol : ∀ attr, a.spillCol attr = c.name ++ "-" ++ ("charger-spill-" ++ a.name) ++ "-" ++ attr := fun attr => by
    rw [hm.name, str_eq_iff]; simp [String.toList_append, EvArgs.spillCol]
  have hpow : ∀ k < a.powers.length, ∃ power, a.powers[k]? = some power := fun k hk => ⟨_, List.getElem?_eq_getElem hk⟩
  have hcap : ∀ e < a.capacities.length, ∃ q, a.capacities[e]? = some q := fun k hk => ⟨_, List.getElem?_eq_getElem hk⟩
  have hf := evs_facts hco.prog hco.feas hc hi
  have hspill : (⟨"charger-spill-" ++ a.name, 10000, 0⟩ : ChargerCfg) ∈ c.spillChargers := by rw [hm.spill]; simp
  have hsum : ∀ g : Nat → ℚ, c.sumEvents g = sumTo a.capacities.length g := fun g => by rw [← hE]; rfl
  refine ⟨?_, ?_, ?_⟩
  · intro k hk
    obtain ⟨power, hp⟩ := hpow k hk
    obtain ⟨e1, -, -, -, e5⟩ := ev_charger_cell hco hc hw hi (List.mem_of_getElem? (hm.charger hp))
    rw [ccol, ccol, e1, e5, hsum, hsum, sumTo, sumTo, ← list_sum_mul_left]
    apply list_sum_congr
    intro e he
    obtain ⟨q, hq⟩ := hcap e (List.mem_range.1 he)
    exact hf.loss e _ (hm.event hq) _ (List.mem_of_getElem? (hm.charger hp))
  · obtain ⟨e1, -, -, e5, -⟩ := ev_spill_cell hco hc hw hi hspill
    rw [scol, scol, e1, e5, hsum, hsum, sumTo, sumTo, ← list_sum_mul_left]
    apply list_sum_congr
    intro e he
    obtain ⟨q, hq⟩ := hcap e (List.mem_range.1 he)
    exact hf.spillLoss e _ (hm.event hq) _ hspill
  · intro e he
    obtain ⟨q, hq⟩ := hcap e he
    obtain ⟨e1, -, e3, -, -⟩ := ev_event_cell hco hc hw hi (hm.event hq)
    rw [ecol', ecol', e1, e3, EvsCfg.eventCharge, ← list_sum_mul_left]
    apply list_sum_congr
    intro ch hch
    exact hf.loss e _ (hm.event hq) ch hch

/-- The charge events and the chargers, the spill charger apart, tell of the same energy. -/
theorem C72_events_chargers (h : Run s objective flags S r V) {a : EvArgs} {c : EvsCfg} (ha : a.make = .ok c)
    (hc : Asset.evs c ∈ s.assets) {i : Nat} (hi : i < s.data.n) {q : String}
    (hq : q = "electric_charge_mwh" ∨ q = "electric_discharge_mwh" ∨ q = "electric_loss_mwh") :
    sumTo a.capacities.length (fun e => V (a.eventCol e q) i) = sumTo a.powers.length (fun k => V (a.chargerCol k q) i) := by
  obtain ⟨x, hx, -⟩ := evs_schedule h ha hc
  have h1 : sumTo a.capacities.length (fun e => V (a.eventCol e "electric_charge_mwh") i) =
      sumTo a.powers.length (fun k => V (a.chargerCol k "electric_charge_mwh") i) := by
    rw [sumTo_congr (fun e he => hx.event_charge i hi e he), sumTo_congr (fun k hk => hx.charger_charge i hi k hk)]
    exact list_sum_swap ..
  rcases hq with rfl | rfl | rfl
  · exact h1
  · rw [sumTo_congr (fun e he => hx.event_discharge i hi e he), sumTo_congr (fun k hk => hx.charger_discharge i hi k hk)]
    exact list_sum_swap ..
  · obtain ⟨l1, -, l3⟩ := C72_ev_losses h ha hc hi
    rw [sumTo_congr l3, sumTo_congr l1]
    unfold sumTo at *
    rw [list_sum_mul_left, list_sum_mul_left, h1]

/-! ### Stored energy -/

theorem sum_range (n : Nat) (g : Nat → ℚ) : ((List.range n).map g).sum = sumTo n g := rfl

/-- EVs: what is charged and neither discharged nor lost is stored. -/
theorem ev_stored (h : Run s objective flags S r V) {a : EvArgs} {c : EvsCfg} (hmake : a.make = .ok c) (ha : Asset.evs c ∈ s.assets)
    {i : Nat} (hi : i < s.data.n) :
    rowSum V ((Asset.evs c).reports "electric_charge_mwh") i - rowSum V ((Asset.evs c).reports "electric_discharge_mwh") i -
      sumTo a.capacities.length (fun e => V (a.eventCol e "electric_loss_mwh") i) = (Asset.evs c).stored V i := by
  have hmd := ev_made hmake
  obtain ⟨x, hx, hrow, -⟩ := C19_energy h hmake ha
  obtain ⟨-, -, hl⟩ := C72_ev_losses h hmake ha hi
  have hch := C72_events_chargers h hmake ha hi (q := "electric_charge_mwh") (by simp)
  have hdi := C72_events_chargers h hmake ha hi (q := "electric_discharge_mwh") (by simp)
  have hE := hmd.events_length
  have ecol : ∀ (e : Nat) (q : String), c.name ++ "-charge-event-" ++ toString e ++ ("-" ++ q) = a.eventCol e q := fun e q => by
    rw [hmd.name, dashed]; rfl
  have rep : ∀ q, q ∈ ["electric_charge_mwh", "electric_discharge_mwh"] → rowSum V ((Asset.evs c).reports q) i =
      sumTo a.powers.length (fun k => V (a.chargerCol k q) i) + V (a.spillCol q) i := by
    intro q hq
    unfold Asset.reports
    rw [if_pos (by simp only [Asset.flows]; exact hq)]
    simp only [Asset.units, rowSum, List.map_append, List.map_map, List.sum_append, Function.comp_def]
    rw [hmd.sum_chargers (fun n => V (c.name ++ "-" ++ n ++ "-" ++ q) i), hmd.spill]
    simp only [List.map_cons, List.map_nil, List.sum_cons, List.sum_nil, add_zero]
    have c1 : ∀ k : Nat, c.name ++ "-" ++ ("charger-" ++ toString k) ++ "-" ++ q = a.chargerCol k q := fun k => by
      rw [hmd.name, str_eq_iff]; simp [String.toList_append, EvArgs.chargerCol]
    have c2 : c.name ++ "-" ++ ("charger-spill-" ++ a.name) ++ "-" ++ q = a.spillCol q := by
      rw [hmd.name, str_eq_iff]; simp [String.toList_append, EvArgs.spillCol]
    rw [c2]
    simp only [c1]
  have sto : (Asset.evs c).stored V i = sumTo a.capacities.length (fun e => V (a.eventCol e "final_soc_mwh") i - V (a.eventCol e "initial_soc_mwh") i) := by
    simp only [Asset.stored, EvsCfg.eventUnits, List.map_map, Function.comp_def]
    rw [hE, sum_range]
    exact sumTo_congr (fun e _ => by rw [← ecol, ← ecol]; rfl)
  rw [rep _ (by simp), rep _ (by simp), sto, ← hch, ← hdi, hx.spill_charge i hi, hx.spill_discharge i hi,
    sumTo_congr hl, sumTo_congr (g := fun e => V (a.eventCol e "final_soc_mwh") i - _) (g' := fun e => (V (a.eventCol e "electric_charge_mwh") i -
      V (a.eventCol e "electric_discharge_mwh") i - (1 - a.efficiency) * V (a.eventCol e "electric_charge_mwh") i) + x.spill i e)
      (fun e hlt => by rw [hrow i hi e hlt]; ring)]
  unfold sumTo
  rw [list_sum_add, list_sum_sub, list_sum_sub]
  ring

/-- One asset: what is charged and neither discharged nor lost is stored. -/
theorem asset_stored (h : Run s objective flags S r V) {a : Asset} (ha : a ∈ s.assets) (hm : a.Made) (hw : a.WellNamed)
    (he : ∀ c, a = .evs c → pyEndsWith c.name "evs" = true) {i : Nat} (hi : i < s.data.n) :
    rowSum V (a.reports "electric_charge_mwh") i - rowSum V (a.reports "electric_discharge_mwh") i - rowSum V a.lossColumns i = a.stored V i := by
  have none : ∀ q, q ∉ a.flows → rowSum V (a.reports q) i = 0 := by
    intro q hq
    unfold Asset.reports
    rw [if_neg hq]; rfl
  cases a with
  | battery c =>
    have hb := (C06_battery_balance h ha hw hi).1
    have e1 : (Asset.battery c).reports "electric_charge_mwh" = [c.name ++ "-electric_charge_mwh"] := by
      unfold Asset.reports
      rw [if_pos (by simp only [Asset.flows]; decide)]
      simp only [Asset.units, List.map_cons, List.map_nil, ← dashed]
      rfl
    have e2 : (Asset.battery c).reports "electric_discharge_mwh" = [c.name ++ "-electric_discharge_mwh"] := by
      unfold Asset.reports
      rw [if_pos (by simp only [Asset.flows]; decide)]
      simp only [Asset.units, List.map_cons, List.map_nil, ← dashed]
      rfl
    rw [e1, e2]
    simp only [rowSum, Asset.lossColumns, Asset.stored, List.map_cons, List.map_nil, List.sum_cons, List.sum_nil]
    linarith
  | boiler c => rw [none _ (by simp only [Asset.flows]; decide), none _ (by simp only [Asset.flows]; decide)]; simp [rowSum, Asset.lossColumns, Asset.stored]
  | chp c => rw [none _ (by simp only [Asset.flows]; decide), none _ (by simp only [Asset.flows]; decide)]; simp [rowSum, Asset.lossColumns, Asset.stored]
  | heatPump c => rw [none _ (by simp only [Asset.flows]; decide), none _ (by simp only [Asset.flows]; decide)]; simp [rowSum, Asset.lossColumns, Asset.stored]
  | renewable c => rw [none _ (by simp only [Asset.flows]; decide), none _ (by simp only [Asset.flows]; decide)]; simp [rowSum, Asset.lossColumns, Asset.stored]
  | spill c => rw [none _ (by simp only [Asset.flows]; decide), none _ (by simp only [Asset.flows]; decide)]; simp [rowSum, Asset.lossColumns, Asset.stored]
  | valve c => rw [none _ (by simp only [Asset.flows]; decide), none _ (by simp only [Asset.flows]; decide)]; simp [rowSum, Asset.lossColumns, Asset.stored]
  | evs c =>
    have hend := he c rfl
    obtain ⟨a, hmake⟩ : ∃ a : EvArgs, a.make = .ok c := by
      cases hm with
      | evs h => exact ⟨⟨_, _, _, _, _, _, _⟩, h⟩
    have hmd := ev_made hmake
    have hE := hmd.events_length
    have los : rowSum V (Asset.evs c).lossColumns i = sumTo a.capacities.length (fun e => V (a.eventCol e "electric_loss_mwh") i) := by
      simp only [Asset.lossColumns, hend, if_true, List.nil_append, List.append_nil, rowSum, EvsCfg.eventUnits, List.map_map, Function.comp_def]
      rw [hE, sum_range]
      refine sumTo_congr (fun e _ => ?_)
      have : c.name ++ "-charge-event-" ++ toString e ++ ("-" ++ "electric_loss_mwh") = a.eventCol e "electric_loss_mwh" := by
        rw [hmd.name, dashed]; rfl
      rw [← this]; rfl
    rw [los]
    exact ev_stored h hmake ha hi

/-- In every interval, what all batteries and vehicles are charged with and neither give back nor lose is what they store. -/
theorem C72_stored (h : Run s objective flags S r V) (hm : ∀ a ∈ s.assets, a.Made) (hw : ∀ a ∈ s.assets, a.WellNamed)
    (hp : s.PlainNames) (hn : s.LossNames) (he : ∀ c, Asset.evs c ∈ s.assets → pyEndsWith c.name "evs" = true)
    {i : Nat} (hi : i < s.data.n) :
    V "total-electric_charge_mwh" i - V "total-electric_discharge_mwh" i - V "total-electric_loss_mwh" i =
      (s.assets.map (Asset.stored V i)).sum := by
  have h1 := C24_total_assets h.constructed h.returned h.reads hw hp (q := "electric_charge_mwh") (by decide) hi
  have h2 := C24_total_assets h.constructed h.returned h.reads hw hp (q := "electric_discharge_mwh") (by decide) hi
  have h3 := C24_loss_assets h.constructed h.returned h.reads hw hn hi
  rw [if_neg (by decide), zero_add] at h1 h2
  have h1' : V "total-electric_charge_mwh" i = s.assetSum V "electric_charge_mwh" i := h1
  have h2' : V "total-electric_discharge_mwh" i = s.assetSum V "electric_discharge_mwh" i := h2
  rw [h1', h2', h3]
  unfold Site.assetSum
  rw [← list_sum_sub, ← list_sum_sub]
  apply list_sum_congr
  intro a ha
  exact asset_stored h ha (hm a ha) (hw a ha) (fun c hac => he c (hac ▸ ha)) hi

theorem telescope {n : Nat} {f g : Nat → ℚ} (h0 : 0 < n) (h : ∀ i, i + 1 < n → g (i + 1) = f i) :
    sumTo n (fun i => f i - g i) = f (n - 1) - g 0 := by
  have key : ∀ k, k < n → sumTo (k + 1) (fun i => f i - g i) = f k - g 0 := by
    intro k
    induction k with
    | zero => intro _; simp [sumTo]
    | succ k ih =>
      intro hk
      rw [sumTo_succ, ih (by omega), h k hk]
      ring
  have := key (n - 1) (by omega)
  rwa [Nat.sub_add_cancel h0] at this

/-- Over the horizon an asset stores what it is to store. -/
theorem asset_gain (h : Run s objective flags S r V) {a : Asset} (ha : a ∈ s.assets) (hm : a.Made) (hw : a.WellNamed) :
    sumTo s.data.n (fun i => a.stored V i) = a.toStore := by
  cases a with
  | battery c =>
    obtain ⟨h0, h1, h2⟩ := C06_battery_ends h ha hw
    have := telescope (f := V (c.name ++ "-electric_final_charge_mwh")) (g := V (c.name ++ "-electric_initial_charge_mwh")) h0
      (fun i hi => (C06_battery_chain h ha hw hi).symm)
    rw [h1, h2] at this
    exact this
  | evs c =>
    obtain ⟨a, hmake⟩ : ∃ a : EvArgs, a.make = .ok c := by
      cases hm with
      | evs h => exact ⟨⟨_, _, _, _, _, _, _⟩, h⟩
    have hmd := ev_made hmake
    have hE := hmd.events_length
    have ecol : ∀ (e : Nat) (q : String), c.name ++ "-charge-event-" ++ toString e ++ ("-" ++ q) = a.eventCol e q := fun e q => by
      rw [hmd.name, dashed]; rfl
    have sto : ∀ i, (Asset.evs c).stored V i = sumTo a.capacities.length (fun e => V (a.eventCol e "final_soc_mwh") i - V (a.eventCol e "initial_soc_mwh") i) := by
      intro i
      simp only [Asset.stored, EvsCfg.eventUnits, List.map_map, Function.comp_def]
      rw [hE, sum_range]
      exact sumTo_congr (fun e _ => by rw [← ecol, ← ecol]; rfl)
    have cap : (Asset.evs c).toStore = sumTo a.capacities.length (fun e => a.capacities.getD e 0) := by
      simp only [Asset.toStore, hmd.events, List.map_map, sumTo]
      congr 1
      apply List.ext_getElem?
      intro k
      by_cases hk : k < a.capacities.length
      · simp [hk, List.getD_eq_getElem?_getD]
      · simp [Nat.le_of_not_lt hk]
    rw [sumTo_congr (fun i _ => sto i), cap]
    have swap : sumTo s.data.n (fun i => sumTo a.capacities.length (fun e => V (a.eventCol e "final_soc_mwh") i - V (a.eventCol e "initial_soc_mwh") i)) =
        sumTo a.capacities.length (fun e => sumTo s.data.n (fun i => V (a.eventCol e "final_soc_mwh") i - V (a.eventCol e "initial_soc_mwh") i)) :=
      list_sum_swap ..
    rw [swap]
    apply sumTo_congr
    intro e he
    obtain ⟨hpos, h0, hn, hcon, -⟩ := C18_soc h hmake ha (e := e) (List.getElem?_eq_getElem he)
    rw [telescope (f := V (a.eventCol e "final_soc_mwh")) (g := V (a.eventCol e "initial_soc_mwh")) hpos hcon, h0, hn]
    simp [List.getD_eq_getElem?_getD, he]
  | _ => exact sumTo_zero (fun _ _ => rfl)

/-- Over the horizon, what all batteries and vehicles are charged with and neither give back nor lose takes the batteries from their initial
to their final charge and fills the vehicles. -/
theorem C72_horizon (h : Run s objective flags S r V) (hm : ∀ a ∈ s.assets, a.Made) (hw : ∀ a ∈ s.assets, a.WellNamed)
    (hp : s.PlainNames) (hn : s.LossNames) (he : ∀ c, Asset.evs c ∈ s.assets → pyEndsWith c.name "evs" = true) :
    colSum V s.data.n "total-electric_charge_mwh" - colSum V s.data.n "total-electric_discharge_mwh" -
      colSum V s.data.n "total-electric_loss_mwh" = (s.assets.map Asset.toStore).sum := by
  unfold colSum
  rw [← list_sum_sub, ← list_sum_sub, list_sum_congr (g' := fun i => (s.assets.map (fun a => a.stored V i)).sum)
    (fun i hi => C72_stored h hm hw hp hn he (List.mem_range.1 hi)), list_sum_swap]
  exact list_sum_congr (fun a ha => asset_gain h ha (hm a ha) (hw a ha))

/-- With plain names, and a name that ends with "evs", the loss total of EVs is what the efficiency leaves of the charge of the chargers; with
another name it is counted twice, and the spill charger with it. -/
theorem C72_loss_total (h : Run s objective flags S r V) {a : EvArgs} {c : EvsCfg} (ha : a.make = .ok c)
    (hc : Asset.evs c ∈ s.assets) {i : Nat} (hi : i < s.data.n) :
    rowSum V (Asset.evs c).lossColumns i = (1 - a.efficiency) *
      ((if pyEndsWith a.name "evs" then 1 else 2) * sumTo a.powers.length (fun k => V (a.chargerCol k "electric_charge_mwh") i) +
        (if pyEndsWith a.name "evs" then 0 else V (a.spillCol "electric_charge_mwh") i)) := by
  have hmd := ev_made ha
  have hE := hmd.events_length
  have hK := hmd.chargers_length
  obtain ⟨l1, l2, l3⟩ := C72_ev_losses h ha hc hi
  have hch := C72_events_chargers h ha hc hi (q := "electric_charge_mwh") (by simp)
  have e1 : ((c.eventUnits.map (fun u => u ++ "-electric_loss_mwh")).map (fun k => V k i)).sum =
      (1 - a.efficiency) * sumTo a.powers.length (fun k => V (a.chargerCol k "electric_charge_mwh") i) := by
    rw [← hch]
    unfold sumTo
    rw [← list_sum_mul_left, EvsCfg.eventUnits, List.map_map, List.map_map, hE]
    apply list_sum_congr
    intro e he
    rw [← l3 e (List.mem_range.1 he)]
    have : c.name ++ "-charge-event-" ++ toString e ++ ("-" ++ "electric_loss_mwh") = a.eventCol e "electric_loss_mwh" := by
      rw [hmd.name, dashed]; rfl
    rw [← this]; rfl
  have e2 : (((List.range c.chargers.length).map (fun k => c.name ++ "-charger-" ++ toString k ++ "-electric_loss_mwh")).map
      (fun k => V k i)).sum = (1 - a.efficiency) * sumTo a.powers.length (fun k => V (a.chargerCol k "electric_charge_mwh") i) := by
    unfold sumTo
    rw [← list_sum_mul_left, List.map_map, hK]
    apply list_sum_congr
    intro e he
    rw [← l1 e (List.mem_range.1 he)]
    have : c.name ++ "-charger-" ++ toString e ++ ("-" ++ "electric_loss_mwh") = a.chargerCol e "electric_loss_mwh" := by
      rw [hmd.name, dashed]; rfl
    rw [← this]; rfl
  have e3 : V (c.name ++ "-charger-spill-" ++ c.name ++ "-electric_loss_mwh") i = (1 - a.efficiency) * V (a.spillCol "electric_charge_mwh") i := by
    rw [← l2]
    have : c.name ++ "-charger-spill-" ++ c.name ++ ("-" ++ "electric_loss_mwh") = a.spillCol "electric_loss_mwh" := by
      rw [hmd.name, dashed]; rfl
    rw [← this]; rfl
  simp only [Asset.lossColumns, rowSum, hmd.name]
  rw [hmd.name] at e2 e3
  split
  · rw [List.nil_append, List.append_nil, e1]; ring
  · rw [List.map_append, List.map_append, List.sum_append, List.sum_append, e1, e2]
    simp only [List.map_cons, List.map_nil, List.sum_cons, List.sum_nil]
    rw [e3]; ring

/-- The spill total of EVs: the energy of the spill charger, and what it would lose. -/
theorem C72_spill_total (h : Run s objective flags S r V) {a : EvArgs} {c : EvsCfg} (ha : a.make = .ok c)
    (hc : Asset.evs c ∈ s.assets) {i : Nat} (hi : i < s.data.n) :
    rowSum V (Asset.evs c).evSpillColumns i = (2 - a.efficiency) * V (a.spillCol "electric_charge_mwh") i := by
  have hmd := ev_made ha
  obtain ⟨-, l2, -⟩ := C72_ev_losses h ha hc hi
  have hd := (C20_discharge_flag h ha hc hi).2
  have : ∀ q, c.name ++ "-charger-spill-" ++ c.name ++ "-" ++ q = a.spillCol q := fun q => by rw [hmd.name]; rfl
  simp only [Asset.evSpillColumns, rowSum, List.map_cons, List.map_nil, List.sum_cons, List.sum_nil, this]
  rw [l2, hd]
  ring

/-! ### The hypotheses are met -/

/-- The site of `demoEvs`: 4 and 2 MWh are charged, 2 and 1 MWh are lost, the vehicles are filled with 3 MWh. -/
example : ∃ (s : Site) (r : SimResult) (V : String → Nat → ℚ), Run s (.str "price") {} (checkSolver (tab demoEvs.answer)) r V ∧
    (∀ a ∈ s.assets, a.Made) ∧ (∀ a ∈ s.assets, a.WellNamed) ∧ s.PlainNames ∧ s.LossNames ∧ s.SpillNames ∧
    (∀ c, Asset.evs c ∈ s.assets → pyEndsWith c.name "evs" = true) ∧ (s.assets.map Asset.toStore).sum = 3 := by
  obtain ⟨s, r, V, hs, h, ht⟩ := Demo.run demoEvs_test
  simp only [Bool.and_eq_true, decide_eq_true_eq] at ht
  obtain ⟨⟨h1, h2⟩, -⟩ := ht
  have hcu : s.data.custom = [] := by
    have := (site_new hs).custom
    simpa [customData, demoEvs, eq_comm] using this
  refine ⟨s, r, V, h, ?_, ?_, ⟨?_, ?_⟩, ⟨?_, ?_⟩, ⟨?_, ?_, ?_⟩, ?_, ?_⟩
  · rw [h1]
    intro a ha
    rw [List.mem_singleton.1 ha]
    exact .evs demoEvsCfg_new
  · rw [h1]; decide +kernel
  · rw [h1]; decide +kernel
  · rw [hcu]; simp
  · rw [h1]; decide +kernel
  · rw [hcu]; simp
  · rw [h1]; decide +kernel
  · rw [h1]
    intro c hc
    simp only [List.mem_singleton, Asset.evs.injEq] at hc
    subst hc
    decide +kernel
  · rw [hcu]; simp
  · rw [h1]
    intro c hc
    simp only [List.mem_singleton, Asset.evs.injEq] at hc
    subst hc
    decide +kernel
  · rw [h1]
    decide +kernel

end

end EPL
