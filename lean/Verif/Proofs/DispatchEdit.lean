/-
Changing a valid dispatch in some columns: assets whose columns stay keep behaving.
-/
import Verif.Spec.Dispatch
import Verif.Spec.Columns
import Verif.Proofs.EvsFacts
import Verif.Proofs.ColumnNames

namespace EPL

section
variable {s t : Site} {flags : Flags} {W W' : String → Nat → ℚ}

theorem own_col {l : List String} {name attr k : String} (hk : ∀ k ∈ l, W k = W' k) (h : name ++ "-" ++ attr ∈ l) (e : "-" ++ attr = k) :
    W (name ++ k) = W' (name ++ k) := by
  rw [← e, ← String.append_assoc]
  exact hk _ h

/-- An asset only looks at its own columns, the length of the horizon and the length of an interval. -/
theorem plays_congr {a : Asset} (hn : s.data.n = t.data.n) (hf : s.freqMins = t.freqMins) (hk : ∀ k ∈ a.documentedColumns, W k = W' k)
    (h : a.Plays s flags W) : a.Plays t flags W' := by
  cases a with
  | battery c =>
    have e1 : W (c.name ++ "-electric_charge_mwh") = W' (c.name ++ "-electric_charge_mwh") :=
      own_col (attr := "electric_charge_mwh") hk (by simp [Asset.documentedColumns]) rfl
    have e2 : W (c.name ++ "-electric_discharge_mwh") = W' (c.name ++ "-electric_discharge_mwh") :=
      own_col (attr := "electric_discharge_mwh") hk (by simp [Asset.documentedColumns]) rfl
    have e3 : W (c.name ++ "-electric_loss_mwh") = W' (c.name ++ "-electric_loss_mwh") :=
      own_col (attr := "electric_loss_mwh") hk (by simp [Asset.documentedColumns]) rfl
    have e4 : W (c.name ++ "-electric_initial_charge_mwh") = W' (c.name ++ "-electric_initial_charge_mwh") :=
      own_col (attr := "electric_initial_charge_mwh") hk (by simp [Asset.documentedColumns]) rfl
    have e5 : W (c.name ++ "-electric_final_charge_mwh") = W' (c.name ++ "-electric_final_charge_mwh") :=
      own_col (attr := "electric_final_charge_mwh") hk (by simp [Asset.documentedColumns]) rfl
    obtain ⟨h1, h2, h3, h4, h5, h6, h7, h8, h9⟩ := h
    simp only [e1, e2, e3, e4, e5, hn, hf] at h1 h2 h3 h4 h5 h6 h7 h8 h9
    exact ⟨h1, h2, h3, h4, h5, h6, h7, h8, h9⟩
  | boiler c =>
    have e1 : W (c.name ++ "-gas_consumption_mwh") = W' (c.name ++ "-gas_consumption_mwh") :=
      own_col (attr := "gas_consumption_mwh") hk (by simp [Asset.documentedColumns]) rfl
    have e2 : W (c.name ++ "-high_temperature_generation_mwh") = W' (c.name ++ "-high_temperature_generation_mwh") :=
      own_col (attr := "high_temperature_generation_mwh") hk (by simp [Asset.documentedColumns]) rfl
    obtain ⟨h1, h2, h3⟩ := h
    simp only [e1, e2, hn, hf] at h1 h2 h3
    exact ⟨h1, h2, h3⟩
  | chp c =>
    have e1 : W (c.name ++ "-gas_consumption_mwh") = W' (c.name ++ "-gas_consumption_mwh") :=
      own_col (attr := "gas_consumption_mwh") hk (by simp [Asset.documentedColumns]) rfl
    have e2 : W (c.name ++ "-high_temperature_generation_mwh") = W' (c.name ++ "-high_temperature_generation_mwh") :=
      own_col (attr := "high_temperature_generation_mwh") hk (by simp [Asset.documentedColumns]) rfl
    have e3 : W (c.name ++ "-low_temperature_generation_mwh") = W' (c.name ++ "-low_temperature_generation_mwh") :=
      own_col (attr := "low_temperature_generation_mwh") hk (by simp [Asset.documentedColumns]) rfl
    have e4 : W (c.name ++ "-electric_generation_mwh") = W' (c.name ++ "-electric_generation_mwh") :=
      own_col (attr := "electric_generation_mwh") hk (by simp [Asset.documentedColumns]) rfl
    obtain ⟨h1, h2, h3, h4, h5⟩ := h
    simp only [e1, e2, e3, e4, hn, hf] at h1 h2 h3 h4 h5
    exact ⟨h1, h2, h3, h4, h5⟩
  | evs c =>
    obtain ⟨a, x, hm, h⟩ := h
    have M := ev_made hm
    have E1 : ∀ e < a.capacities.length, ∀ attr ∈ ["electric_charge_mwh", "electric_discharge_mwh", "electric_loss_mwh", "initial_soc_mwh", "final_soc_mwh"],
        W (a.eventCol e attr) = W' (a.eventCol e attr) := fun e he attr ha => by
      refine hk _ ?_
      unfold EvArgs.eventCol
      rw [Asset.documentedColumns, List.mem_append]
      right
      rw [List.mem_flatMap]
      refine ⟨_, List.mem_map.2 ⟨e, List.mem_range.2 (by rw [M.events_length]; exact he), rfl⟩, List.mem_map.2 ⟨attr, ha, ?_⟩⟩
      rw [M.name]
    have E2 : ∀ k < a.powers.length, ∀ attr ∈ ["electric_charge_mwh", "electric_charge_binary", "electric_discharge_mwh", "electric_discharge_binary",
        "electric_loss_mwh"], W (a.chargerCol k attr) = W' (a.chargerCol k attr) := fun k he attr ha => by
      refine hk _ ?_
      unfold EvArgs.chargerCol
      rw [Asset.documentedColumns, List.mem_append]
      left
      rw [List.mem_flatMap]
      refine ⟨_, List.mem_append_left _ (List.mem_map.2 ⟨k, List.mem_range.2 (by rw [M.chargers_length]; exact he), rfl⟩), List.mem_map.2 ⟨attr, ha, ?_⟩⟩
      rw [M.name]
    have E3 : ∀ attr ∈ ["electric_charge_mwh", "electric_charge_binary", "electric_discharge_mwh", "electric_discharge_binary",
        "electric_loss_mwh"], W (a.spillCol attr) = W' (a.spillCol attr) := fun attr ha => by
      refine hk _ ?_
      unfold EvArgs.spillCol
      rw [Asset.documentedColumns, List.mem_append]
      left
      rw [List.mem_flatMap]
      refine ⟨_, List.mem_append_right _ (List.mem_singleton.2 rfl), List.mem_map.2 ⟨attr, ha, ?_⟩⟩
      rw [M.name]
    obtain ⟨⟨x1, x2, x3, x4, x5, x6⟩, ⟨v1, v2, v3, v4, v5, v6⟩, p1, p2, p3⟩ := h
    rw [hn] at x1 x2 x3 x4 x5 x6 v1 v2 v3 v4 v5 v6 p1 p2 p3
    rw [hf] at v4 p1
    refine ⟨a, x, hm, ⟨?_, ?_, ?_, ?_, ?_, ?_⟩, ⟨v1, v2, v3, v4, v5, ?_⟩, p1, p2, ?_⟩
    · intro i hi k hk'; rw [← E2 k hk' _ (by simp)]; exact x1 i hi k hk'
    · intro i hi k hk'; rw [← E2 k hk' _ (by simp)]; exact x2 i hi k hk'
    · intro i hi e he; rw [← E1 e he _ (by simp)]; exact x3 i hi e he
    · intro i hi e he; rw [← E1 e he _ (by simp)]; exact x4 i hi e he
    · intro i hi; rw [← E3 _ (by simp)]; exact x5 i hi
    · intro i hi; rw [← E3 _ (by simp)]; exact x6 i hi
    · intro i hi e he; rw [← E1 e he _ (by simp), ← E1 e he _ (by simp)]; exact v6 i hi e he
    · intro e capacity hc
      have he := (List.getElem?_eq_some_iff.1 hc).1
      rw [← E1 e he _ (by simp), ← E1 e he _ (by simp)]
      exact p3 e capacity hc
  | heatPump c =>
    have e1 : W (c.name ++ "-electric_load_mwh") = W' (c.name ++ "-electric_load_mwh") :=
      own_col (attr := "electric_load_mwh") hk (by simp [Asset.documentedColumns]) rfl
    have e2 : W (c.name ++ "-high_temperature_generation_mwh") = W' (c.name ++ "-high_temperature_generation_mwh") :=
      own_col (attr := "high_temperature_generation_mwh") hk (by simp [Asset.documentedColumns]) rfl
    have e3 : W (c.name ++ "-low_temperature_load_mwh") = W' (c.name ++ "-low_temperature_load_mwh") :=
      own_col (attr := "low_temperature_load_mwh") hk (by simp [Asset.documentedColumns]) rfl
    obtain ⟨h1, h2, h3, h4⟩ := h
    simp only [e1, e2, e3, hn, hf] at h1 h2 h3 h4
    exact ⟨h1, h2, h3, h4⟩
  | renewable c =>
    have e1 : W (c.name ++ "-electric_generation_mwh") = W' (c.name ++ "-electric_generation_mwh") :=
      own_col (attr := "electric_generation_mwh") hk (by simp [Asset.documentedColumns]) rfl
    obtain ⟨h1⟩ := h
    simp only [e1, hn] at h1
    exact ⟨h1⟩
  | spill c =>
    have e1 : W (c.name ++ "-electric_generation_mwh") = W' (c.name ++ "-electric_generation_mwh") :=
      own_col (attr := "electric_generation_mwh") hk (by simp [Asset.documentedColumns]) rfl
    have e2 : W (c.name ++ "-electric_load_mwh") = W' (c.name ++ "-electric_load_mwh") :=
      own_col (attr := "electric_load_mwh") hk (by simp [Asset.documentedColumns]) rfl
    have e3 : W (c.name ++ "-high_temperature_generation_mwh") = W' (c.name ++ "-high_temperature_generation_mwh") :=
      own_col (attr := "high_temperature_generation_mwh") hk (by simp [Asset.documentedColumns]) rfl
    have e4 : W (c.name ++ "-low_temperature_load_mwh") = W' (c.name ++ "-low_temperature_load_mwh") :=
      own_col (attr := "low_temperature_load_mwh") hk (by simp [Asset.documentedColumns]) rfl
    have e5 : W (c.name ++ "-low_temperature_generation_mwh") = W' (c.name ++ "-low_temperature_generation_mwh") :=
      own_col (attr := "low_temperature_generation_mwh") hk (by simp [Asset.documentedColumns]) rfl
    have e6 : W (c.name ++ "-high_temperature_load_mwh") = W' (c.name ++ "-high_temperature_load_mwh") :=
      own_col (attr := "high_temperature_load_mwh") hk (by simp [Asset.documentedColumns]) rfl
    have e7 : W (c.name ++ "-gas_consumption_mwh") = W' (c.name ++ "-gas_consumption_mwh") :=
      own_col (attr := "gas_consumption_mwh") hk (by simp [Asset.documentedColumns]) rfl
    obtain ⟨h1, h2⟩ := h
    simp only [e1, e2, e3, e4, e5, e6, e7, hn] at h1 h2
    exact ⟨h1, h2⟩
  | valve c =>
    have e1 : W (c.name ++ "-high_temperature_load_mwh") = W' (c.name ++ "-high_temperature_load_mwh") :=
      own_col (attr := "high_temperature_load_mwh") hk (by simp [Asset.documentedColumns]) rfl
    have e2 : W (c.name ++ "-low_temperature_generation_mwh") = W' (c.name ++ "-low_temperature_generation_mwh") :=
      own_col (attr := "low_temperature_generation_mwh") hk (by simp [Asset.documentedColumns]) rfl
    obtain ⟨h1⟩ := h
    simp only [e1, e2, hn] at h1
    exact ⟨h1⟩

/-- The columns that report flows are documented. -/
theorem reports_documented {a : Asset} (hw : a.WellNamed) {q k : String} (h : k ∈ a.reports q) : k ∈ a.documentedColumns := by
  unfold Asset.reports at h
  split at h
  swap
  · simp at h
  rename_i hq
  cases a with
  | evs c =>
    obtain ⟨u, hu, rfl⟩ := List.mem_map.1 h
    have hq' : q ∈ ["electric_charge_mwh", "electric_charge_binary", "electric_discharge_mwh", "electric_discharge_binary", "electric_loss_mwh"] := by
      simp only [Asset.flows, List.mem_cons, List.not_mem_nil, or_false] at hq
      rcases hq with rfl | rfl <;> simp
    rw [Asset.documentedColumns, List.mem_append]
    left
    rw [List.mem_flatMap]
    refine ⟨u, ?_, List.mem_map.2 ⟨q, hq', rfl⟩⟩
    obtain ⟨ch, hch, rfl⟩ := List.mem_map.1 hu
    have hnm : ch.name ∈ (c.chargers ++ c.spillChargers).map ChargerCfg.name := List.mem_map.2 ⟨ch, hch, rfl⟩
    rw [List.map_append, hw.2.1, hw.2.2.1, List.mem_append] at hnm
    rcases hnm with hnm | hnm
    · obtain ⟨k, hk, e⟩ := List.mem_map.1 hnm
      rw [← e]
      refine List.mem_append_left _ (List.mem_map.2 ⟨k, hk, ?_⟩)
      rw [str_eq_iff]; simp [String.toList_append]
    · rw [List.mem_singleton] at hnm
      rw [hnm]
      refine List.mem_append_right _ (List.mem_singleton.2 ?_)
      rw [str_eq_iff]; simp [String.toList_append]
  | _ =>
    simp only [Asset.units, List.map_cons, List.map_nil, List.mem_singleton, Asset.name] at h
    subst h
    simp only [Asset.flows, List.mem_cons, List.not_mem_nil, or_false] at hq
    simp only [Asset.documentedColumns, List.mem_map]
    exact ⟨q, by simp only [List.mem_cons, List.not_mem_nil, or_false]; tauto, rfl⟩

/-- The penalised columns are documented. -/
theorem penalised_documented {a : Asset} (hw : a.WellNamed) {k : String} (h : k ∈ a.penalised) : k ∈ a.documentedColumns := by
  cases a with
  | spill c =>
    simp only [Asset.penalised, List.mem_cons, List.not_mem_nil, or_false] at h
    simp only [Asset.documentedColumns, List.mem_map]
    rcases h with rfl | rfl | rfl
    · exact ⟨"electric_generation_mwh", by simp, by rw [String.append_assoc]; rfl⟩
    · exact ⟨"electric_load_mwh", by simp, by rw [String.append_assoc]; rfl⟩
    · exact ⟨"high_temperature_generation_mwh", by simp, by rw [String.append_assoc]; rfl⟩
  | evs c =>
    refine reports_documented (a := .evs c) (q := "electric_charge_mwh") hw ?_
    obtain ⟨ch, hch, rfl⟩ := List.mem_map.1 h
    rw [Asset.reports, if_pos (by simp [Asset.flows])]
    refine List.mem_map.2 ⟨c.name ++ "-" ++ ch.name, List.mem_map.2 ⟨ch, List.mem_append_right _ hch, rfl⟩, ?_⟩
    rw [str_eq_iff]; simp [String.toList_append]
  | _ => simp [Asset.penalised] at h

theorem rowSum_congr {l : List String} (hk : ∀ k ∈ l, W k = W' k) (i : Nat) : rowSum W l i = rowSum W' l i :=
  list_sum_congr fun k h => by rw [hk k h]

end

end EPL
