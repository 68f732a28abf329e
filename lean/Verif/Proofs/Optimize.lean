/-
What `Site.optimize` returns: every cell of the results, the totals and the flags.
-/
import Verif.Proofs.Strings

namespace EPL

/-- The column names of an asset. -/
def Asset.keys (a : Asset) : List String :=
  match a with
  | .battery c => batteryCols.map (fun attr => c.name ++ "-" ++ attr)
  | .boiler c => boilerCols.map (fun attr => c.name ++ "-" ++ attr)
  | .chp c => chpCols.map (fun attr => c.name ++ "-" ++ attr)
  | .heatPump c => heatPumpCols.map (fun attr => c.name ++ "-" ++ attr)
  | .renewable c => renewableCols.map (fun attr => c.name ++ "-" ++ attr)
  | .spill c => spillCols.map (fun attr => c.name ++ "-" ++ attr)
  | .valve c => valveCols.map (fun attr => c.name ++ "-" ++ attr)
  | .evs c => if pyIn "evs" c.name then
      c.chargers.flatMap (fun ch => evCols.map (fun attr => c.name ++ "-" ++ ch.name ++ "-" ++ attr)) ++
      c.events.flatMap (fun ev => evEventCols.map (fun attr => c.name ++ "-" ++ ev.name ++ "-" ++ attr)) ++
      ((List.range c.events.length).map (fun e => c.name ++ "-charge-event-" ++ toString e ++ "-" ++ "initial_soc_mwh") ++
       (List.range c.events.length).map (fun e => c.name ++ "-charge-event-" ++ toString e ++ "-" ++ "final_soc_mwh")) ++
      c.spillChargers.flatMap (fun ch => evCols.map (fun attr => c.name ++ "-" ++ ch.name ++ "-" ++ attr))
    else []

/-- The column names of a site, without the totals. -/
def Site.keys (s : Site) : List String :=
  "site-import_power_mwh" :: "site-export_power_mwh" :: s.data.dump.map (fun f => "site-" ++ f.1) ++
    s.assets.flatMap Asset.keys

theorem zipIdx_flatMap_fst {α β : Type} (l : List α) (g : α → List β) : l.zipIdx.flatMap (fun x => g x.1) = l.flatMap g := by
  have : l.zipIdx.flatMap (fun x => g x.1) = (l.zipIdx.map Prod.fst).flatMap g := by rw [List.flatMap_map]
  rw [this, List.zipIdx_map_fst]

theorem cells_evs {c : EvsCfg} {i : Nat} {f : Freq} {flags : Flags} {σ : Assign} (hm : c.MatOk flags i) :
    (Asset.evs c).cells i f flags σ = if pyIn "evs" c.name then c.cells i f flags σ else [] := by
  unfold Asset.cells
  have h1 : ((Asset.evs c).ois i f flags).flatMap (OneInterval.cells σ) = [] := by
    rw [List.flatMap_eq_nil_iff]
    intro o ho
    have := (ois_name_kind ho).2
    simp only [Asset.kinds, List.mem_cons, List.not_mem_nil, or_false] at this
    rcases this with h | h <;> simp [OneInterval.cells, h, Kind.cols]
  rw [h1]
  cases hp : pyIn "evs" c.name <;> simp [Asset.evs?, hp]

theorem ois_renewable {c : RenewableCfg} {i : Nat} {f : Freq} {flags : Flags} (h : (Asset.renewable c).Buildable i) :
    (Asset.renewable c).ois i f flags = [.renewable (c.oi i)] := by
  simp only [Asset.ois, Asset.oneInterval, renewable_oi h.1 h.2, ok_bind]

/-- The cells of an asset with a single object. -/
theorem cells_single {a : Asset} {i : Nat} {f : Freq} {flags : Flags} {σ : Assign} {x : OneInterval}
    (h : a.ois i f flags = [x]) (he : a.evs? = none) : a.cells i f flags σ = x.cells σ := by
  simp [Asset.cells, h, he]

theorem cells_keys {a : Asset} {i : Nat} {f : Freq} {flags : Flags} {σ : Assign} (h : a.Buildable i) :
    (a.cells i f flags σ).map Prod.fst = a.keys := by
  cases a with
  | renewable c => rw [cells_single (ois_renewable h) rfl]; rfl
  | evs c =>
    rw [cells_evs (h.2.matOk _)]
    simp only [Asset.keys]
    split
    · simp only [EvsCfg.cells, evChargerCells, evEventCells, evSocCells, List.map_append, List.map_flatMap, List.map_map,
        Function.comp_def]
      rw [zipIdx_flatMap_fst c.chargers (fun ch => evCols.map (fun attr => c.name ++ "-" ++ ch.name ++ "-" ++ attr)),
        zipIdx_flatMap_fst c.events (fun ch => evEventCols.map (fun attr => c.name ++ "-" ++ ch.name ++ "-" ++ attr)),
        zipIdx_flatMap_fst c.spillChargers (fun ch => evCols.map (fun attr => c.name ++ "-" ++ ch.name ++ "-" ++ attr))]
    · rfl
  | _ => rfl

theorem row_keys {s : Site} {i : Nat} {flags : Flags} {σ : Assign} (h : ∀ a ∈ s.assets, a.Buildable i) :
    (s.row flags σ i).map Prod.fst = s.keys := by
  unfold Site.row Site.keys Site.cells
  rw [List.map_append, List.map_flatMap]
  congr 1
  · simp
  · exact List.flatMap_congr (fun a ha => cells_keys (h a ha))

/-- Every column name of an asset is `<something>-<attribute>` with a known attribute. -/
theorem keys_shape {a : Asset} {k : String} (h : k ∈ a.keys) :
    ∃ pre attr, k = pre ++ "-" ++ attr ∧ NoDash attr ∧
      ((∃ kd : Kind, attr ∈ kd.cols) ∧ pre = a.name ∨
       (attr ∈ evCols ∨ attr ∈ evEventCols ∨ attr = "initial_soc_mwh" ∨ attr = "final_soc_mwh") ∧
        ∃ rest, pre = a.name ++ "-" ++ rest) := by
  cases a with
  | evs c =>
    simp only [Asset.keys] at h
    split at h
    · simp only [List.mem_append, List.mem_flatMap, List.mem_map] at h
      rcases h with ((⟨ch, _, attr, ha, rfl⟩ | ⟨ev, _, attr, ha, rfl⟩) | (⟨e, _, rfl⟩ | ⟨e, _, rfl⟩)) | ⟨ch, _, attr, ha, rfl⟩
      · exact ⟨_, attr, rfl, evCols_noDash ha, .inr ⟨.inl ha, _, rfl⟩⟩
      · exact ⟨_, attr, rfl, evEventCols_noDash ha, .inr ⟨.inr (.inl ha), _, rfl⟩⟩
      · refine ⟨c.name ++ "-charge-event-" ++ toString e, "initial_soc_mwh", rfl, by decide, .inr ⟨.inr (.inr (.inl rfl)), "charge-event-" ++ toString e, ?_⟩⟩
        rw [str_eq_iff]; simp [String.toList_append, Asset.name]
      · refine ⟨c.name ++ "-charge-event-" ++ toString e, "final_soc_mwh", rfl, by decide, .inr ⟨.inr (.inr (.inr rfl)), "charge-event-" ++ toString e, ?_⟩⟩
        rw [str_eq_iff]; simp [String.toList_append, Asset.name]
      · exact ⟨_, attr, rfl, evCols_noDash ha, .inr ⟨.inl ha, _, rfl⟩⟩
    · simp at h
  | battery c =>
    obtain ⟨attr, ha, rfl⟩ := List.mem_map.1 h
    exact ⟨c.name, attr, rfl, cols_noDash (k := .battery) ha, .inl ⟨⟨.battery, ha⟩, rfl⟩⟩
  | boiler c =>
    obtain ⟨attr, ha, rfl⟩ := List.mem_map.1 h
    exact ⟨c.name, attr, rfl, cols_noDash (k := .boiler) ha, .inl ⟨⟨.boiler, ha⟩, rfl⟩⟩
  | chp c =>
    obtain ⟨attr, ha, rfl⟩ := List.mem_map.1 h
    exact ⟨c.name, attr, rfl, cols_noDash (k := .chp) ha, .inl ⟨⟨.chp, ha⟩, rfl⟩⟩
  | heatPump c =>
    obtain ⟨attr, ha, rfl⟩ := List.mem_map.1 h
    exact ⟨c.name, attr, rfl, cols_noDash (k := .heatPump) ha, .inl ⟨⟨.heatPump, ha⟩, rfl⟩⟩
  | renewable c =>
    obtain ⟨attr, ha, rfl⟩ := List.mem_map.1 h
    exact ⟨c.name, attr, rfl, cols_noDash (k := .renewable) ha, .inl ⟨⟨.renewable, ha⟩, rfl⟩⟩
  | spill c =>
    obtain ⟨attr, ha, rfl⟩ := List.mem_map.1 h
    exact ⟨c.name, attr, rfl, cols_noDash (k := .spill) ha, .inl ⟨⟨.spill, ha⟩, rfl⟩⟩
  | valve c =>
    obtain ⟨attr, ha, rfl⟩ := List.mem_map.1 h
    exact ⟨c.name, attr, rfl, cols_noDash (k := .valve) ha, .inl ⟨⟨.valve, ha⟩, rfl⟩⟩

/-- All attributes that occur in asset column names. -/
def allAttrs : List String :=
  spillCols ++ batteryCols ++ chpCols ++ boilerCols ++ valveCols ++ heatPumpCols ++ renewableCols ++ evCols ++ evEventCols ++
    ["initial_soc_mwh", "final_soc_mwh"]

theorem cols_allAttrs {k : Kind} {attr : String} (h : attr ∈ k.cols) : attr ∈ allAttrs := by
  unfold allAttrs
  simp only [List.mem_append]
  cases k <;> simp only [Kind.cols, List.not_mem_nil] at h <;> tauto

/-- A column name whose last part is not a known attribute belongs to no asset. -/
theorem key_not_asset {a : Asset} {pre attr : String} (hd : NoDash attr) (ha : attr ∉ allAttrs) : pre ++ "-" ++ attr ∉ a.keys := by
  intro h
  obtain ⟨pre', attr', he, hd', hs⟩ := keys_shape h
  obtain ⟨_, rfl⟩ := dash_inj hd hd' he
  rcases hs with ⟨⟨k, hk⟩, _⟩ | ⟨hk, _⟩
  · exact ha (cols_allAttrs hk)
  · apply ha
    unfold allAttrs
    simp only [List.mem_append, List.mem_cons]
    tauto

/-- Interval data as the constructor leaves it. -/
structure SiteData.WF (d : SiteData) : Prop where
  lens : ∀ f ∈ d.dump, f.2.length = d.n
  keys : (d.dump.map Prod.fst).Nodup

theorem site_prefix_inj : Function.Injective (fun s : String => "site-" ++ s) := by
  intro a b h
  simp only [str_eq_iff, String.toList_append, List.append_cancel_left_eq] at h
  exact str_eq_iff.2 h

theorem anchor_count {s : Site} (wf : s.data.WF) : s.keys.count "site-electricity_prices" = 1 := by
  unfold Site.keys
  rw [List.count_append, List.count_cons_of_ne (by decide), List.count_cons_of_ne (by decide)]
  have h2 : (s.assets.flatMap Asset.keys).count "site-electricity_prices" = 0 := by
    rw [List.count_eq_zero]
    intro h
    obtain ⟨a, _, h⟩ := List.mem_flatMap.1 h
    exact key_not_asset (pre := "site") (attr := "electricity_prices") (by decide) (by decide +kernel) h
  rw [h2]
  have hn : (s.data.dump.map (fun f => "site-" ++ f.1)).Nodup := by
    have : s.data.dump.map (fun f => "site-" ++ f.1) = (s.data.dump.map Prod.fst).map (fun s => "site-" ++ s) := by
      rw [List.map_map]; rfl
    rw [this]
    exact wf.keys.map site_prefix_inj
  have hm : "site-electricity_prices" ∈ s.data.dump.map (fun f => "site-" ++ f.1) := by
    refine List.mem_map.2 ⟨("electricity_prices", s.data.electricityPrices), ?_, (by decide : "site-" ++ "electricity_prices" = "site-electricity_prices")⟩
    simp [SiteData.dump]
  rw [List.count_eq_one_of_mem hn hm]

/-! ### Totals -/

theorem set_filter {t : Table} {k : String} {col : List ℚ} {p : String → Bool} (hp : p k = false) :
    (t.set k col).filter (fun c => p c.1) = t.filter (fun c => p c.1) := by
  induction t with
  | nil => simp [Table.set, hp]
  | cons c t ih =>
    obtain ⟨k0, col0⟩ := c
    by_cases h : k0 = k
    · subst h
      simp [Table.set, hp]
    · simp only [Table.set, h, if_false, List.filter_cons, ih]

theorem set_sumColumns {t : Table} {k : String} {col : List ℚ} {p : String → Bool} (hp : p k = false) (n : Nat) :
    (t.set k col).sumColumns n p = t.sumColumns n p := by
  unfold Table.sumColumns
  rw [set_filter hp]

/-- The columns `add_totals` writes. -/
def totalKeys : List String :=
  quantities.map (fun q => "total-" ++ q) ++ ["total-spills_mwh", "total-electric_loss_mwh", "site-electricity_balance_mwh"]

theorem total_other (q : String) (hq : q ∈ quantities) (q' : String) (hq' : q' ∈ quantities) (hne : q' ≠ q) :
    isTotalColumn q ("total-" ++ q') = false := by
  have h : ∀ q ∈ quantities, ∀ q' ∈ quantities, q' ≠ q → isTotalColumn q ("total-" ++ q') = false := by decide +kernel
  exact h q hq q' hq' hne

/-- The totals of a fold, provided none of the predicates sees the columns written. -/
theorem foldl_addTotal (n : Nat) (qs : List String) (t : Table) (hsub : ∀ q ∈ qs, q ∈ quantities) (hn : qs.Nodup) :
    (∀ q ∈ qs, (qs.foldl (addTotal n) t).lookup ("total-" ++ q) = some (t.sumColumns n (isTotalColumn q))) ∧
    (∀ k, (∀ q ∈ qs, k ≠ "total-" ++ q) → (qs.foldl (addTotal n) t).lookup k = t.lookup k) ∧
    (∀ p : String → Bool, (∀ q ∈ qs, p ("total-" ++ q) = false) →
      (qs.foldl (addTotal n) t).sumColumns n p = t.sumColumns n p) := by
  induction qs generalizing t with
  | nil => simp
  | cons q qs ih =>
    obtain ⟨h1, h2, h3⟩ := ih (addTotal n t q) (fun q' hq' => hsub q' (by simp [hq'])) (List.nodup_cons.1 hn).2
    have hnot := (List.nodup_cons.1 hn).1
    have hinj : ∀ q', "total-" ++ q = "total-" ++ q' → q = q' := by
      intro q' h
      simp only [str_eq_iff, String.toList_append, List.append_cancel_left_eq] at h
      exact str_eq_iff.2 h
    refine ⟨?_, ?_, ?_⟩
    · intro q' hq'
      rw [List.foldl_cons]
      rcases List.mem_cons.1 hq' with rfl | hq'
      · rw [h2]
        · simp [addTotal, lookup_set]
        · intro q'' hq'' he
          exact hnot (hinj _ he ▸ hq'')
      · rw [h1 q' hq', addTotal, set_sumColumns]
        exact total_other q' (hsub _ (by simp [hq'])) q (hsub _ (by simp)) (fun he => hnot (he ▸ hq'))
    · intro k hk
      rw [List.foldl_cons, h2 k (fun q' hq' => hk q' (by simp [hq'])), addTotal, lookup_set, if_neg (hk q (by simp))]
    · intro p hp
      rw [List.foldl_cons, h3 p (fun q' hq' => hp q' (by simp [hq'])), addTotal, set_sumColumns (hp q (by simp))]

theorem foldl_addTotal_nodup (n : Nat) (qs : List String) (t : Table) (h : t.columns.Nodup) :
    (qs.foldl (addTotal n) t).columns.Nodup := by
  induction qs generalizing t with
  | nil => exact h
  | cons q qs ih => exact ih _ (columns_set_nodup h _ _)

/-- What `add_totals` returns. -/
structure Totals (t t' : Table) (n : Nat) : Prop where
  total : ∀ q ∈ quantities, t'.lookup ("total-" ++ q) = some (t.sumColumns n (isTotalColumn q))
  spills : t'.lookup "total-spills_mwh" = some (t.sumColumns n isTotalSpillColumn)
  loss : t'.lookup "total-electric_loss_mwh" = some (t.sumColumns n isTotalLossColumn)
  balance : ∃ imp exp, t.lookup "site-import_power_mwh" = some imp ∧ t.lookup "site-export_power_mwh" = some exp ∧
    t'.lookup "site-electricity_balance_mwh" = some (List.zipWith (· - ·) imp exp)
  other : ∀ k, k ∉ totalKeys → t'.lookup k = t.lookup k
  nodup : t.columns.Nodup → t'.columns.Nodup

theorem addTotals_spec {t t' : Table} {n : Nat} (h : addTotals t n = .ok t') : Totals t t' n := by
  obtain ⟨h1, h2, h3⟩ := foldl_addTotal n quantities t (fun _ h => h) (by decide)
  simp only [addTotals, bind_ok, Except.ok.injEq] at h
  obtain ⟨imp, himp, exp, hexp, rfl⟩ := h
  have hq1 : ∀ q ∈ quantities, "total-" ++ q ≠ "site-electricity_balance_mwh" := by decide
  have hq2 : ∀ q ∈ quantities, "total-" ++ q ≠ "total-electric_loss_mwh" := by decide
  have hq3 : ∀ q ∈ quantities, "total-" ++ q ≠ "total-spills_mwh" := by decide
  have hs1 : (quantities.foldl (addTotal n) t).sumColumns n isTotalSpillColumn = t.sumColumns n isTotalSpillColumn :=
    h3 _ (by decide +kernel)
  have hs2 : (quantities.foldl (addTotal n) t).sumColumns n isTotalLossColumn = t.sumColumns n isTotalLossColumn :=
    h3 _ (by decide +kernel)
  have hl : isTotalLossColumn "total-spills_mwh" = false := by decide +kernel
  have hget : ∀ k col, (((quantities.foldl (addTotal n) t).set "total-spills_mwh"
      ((quantities.foldl (addTotal n) t).sumColumns n isTotalSpillColumn)).set "total-electric_loss_mwh"
      (((quantities.foldl (addTotal n) t).set "total-spills_mwh"
      ((quantities.foldl (addTotal n) t).sumColumns n isTotalSpillColumn)).sumColumns n isTotalLossColumn)).get k = .ok col →
      k ≠ "total-spills_mwh" → k ≠ "total-electric_loss_mwh" → (∀ q ∈ quantities, k ≠ "total-" ++ q) → t.lookup k = some col := by
    intro k col hk n1 n2 n3
    unfold Table.get at hk
    rw [lookup_set, if_neg n2, lookup_set, if_neg n1, h2 k n3] at hk
    split at hk
    · rename_i c hc; cases hk; exact hc
    · simp at hk
  refine ⟨?_, ?_, ?_, ?_, ?_, ?_⟩
  · intro q hq
    rw [lookup_set, if_neg (hq1 q hq), lookup_set, if_neg (hq2 q hq), lookup_set, if_neg (hq3 q hq), h1 q hq]
  · rw [lookup_set, if_neg (by decide), lookup_set, if_neg (by decide), lookup_set, if_pos rfl, hs1]
  · rw [lookup_set, if_neg (by decide), lookup_set, if_pos rfl, set_sumColumns hl, hs2]
  · refine ⟨imp, exp, hget _ _ himp (by decide) (by decide) (by decide), hget _ _ hexp (by decide) (by decide) (by decide), ?_⟩
    rw [lookup_set, if_pos rfl]
  · intro k hk
    simp only [totalKeys, List.mem_append, List.mem_map, List.mem_cons, List.not_mem_nil, or_false, not_or, not_exists,
      not_and] at hk
    obtain ⟨k1, k2, k3, k4⟩ := hk
    rw [lookup_set, if_neg k4, lookup_set, if_neg k3, lookup_set, if_neg k2, h2 k (fun q hq he => k1 q hq he.symm)]
  · intro hn
    exact columns_set_nodup (columns_set_nodup (columns_set_nodup (foldl_addTotal_nodup _ _ _ hn) _ _) _ _) _ _

/-! ### The outcome -/

/-- The results of an optimisation whose variables have the values `σ`. -/
structure Outcome (s : Site) (flags : Flags) (σ : Assign) (t : Table) : Prop where
  pos : 0 < s.data.n
  nodup : s.keys.Nodup
  cell : ∀ i < s.data.n, ∀ c ∈ s.row flags σ i, c.1 ∉ totalKeys → t.cell c.1 i = some c.2
  total : ∀ q ∈ quantities, ∀ i < s.data.n, t.cell ("total-" ++ q) i =
    some (((s.row flags σ i).filter (fun c => isTotalColumn q c.1)).map Prod.snd).sum
  spills : ∀ i < s.data.n, t.cell "total-spills_mwh" i =
    some (((s.row flags σ i).filter (fun c => isTotalSpillColumn c.1)).map Prod.snd).sum
  loss : ∀ i < s.data.n, t.cell "total-electric_loss_mwh" i =
    some (((s.row flags σ i).filter (fun c => isTotalLossColumn c.1)).map Prod.snd).sum
  balance : ∀ i < s.data.n, t.cell "site-electricity_balance_mwh" i =
    some (σ (s.oneInterval i).importPower.id - σ (s.oneInterval i).exportPower.id)
  lengths : ∀ c ∈ t, c.2.length = s.data.n
  columns : ∀ k, k ∈ t.columns ↔ k ∈ s.keys ∨ k ∈ totalKeys
  colsNodup : t.columns.Nodup

theorem cell_of_lookup {t : Table} {k : String} {n : Nat} {f : Nat → ℚ} (h : t.lookup k = some ((List.range n).map f)) {i : Nat}
    (hi : i < n) : t.cell k i = some (f i) := by
  simp [Table.cell, h, hi]

theorem cell_eq_getD {t : Table} {k : String} {col : List ℚ} (h : t.lookup k = some col) {i : Nat}
    (hi : i < col.length) : t.cell k i = some (col.getD i 0) := by
  simp [Table.cell, h, hi, List.getD_eq_getElem?_getD]

theorem rows_congr {n : Nat} {E E' : Nat → List (String × ℚ)} {K : List String} {t : Table} (h : Rows n E K t)
    (hE : ∀ i < n, (E i).Perm (E' i)) : Rows n E' K t :=
  ⟨h.pos, h.keysNodup, h.colsNodup, h.colsPerm, h.lengths,
    fun i hi c hc => h.cell i hi c ((hE i hi).mem_iff.2 hc), fun i hi => (h.rowPerm i hi).trans (hE i hi)⟩

theorem outcome_of_rows {s : Site} {flags : Flags} {σ : Assign} {t t' : Table}
    (h : Rows s.data.n (s.row flags σ) s.keys t) (ht : Totals t t' s.data.n) : Outcome s flags σ t' := by
  have hsum : ∀ (p : String → Bool) (k : String), t'.lookup k = some (t.sumColumns s.data.n p) → ∀ i < s.data.n,
      t'.cell k i = some (((s.row flags σ i).filter (fun c => p c.1)).map Prod.snd).sum := by
    intro p k hk i hi
    rw [cell_of_lookup hk hi, h.sum hi]
  obtain ⟨imp, exp, himp, hexp, hbal⟩ := ht.balance
  have li : imp.length = s.data.n := h.lengths _ (lookup_mem himp)
  have le : exp.length = s.data.n := h.lengths _ (lookup_mem hexp)
  have hcell : ∀ i < s.data.n, ∀ c ∈ s.row flags σ i, c.1 ∉ totalKeys → t'.cell c.1 i = some c.2 := by
    intro i hi c hc hk
    rw [← h.cell i hi c hc]
    simp only [Table.cell, ht.other _ hk]
  have himpv : ∀ i < s.data.n, imp.getD i 0 = σ (s.oneInterval i).importPower.id := by
    intro i hi
    have := h.cell i hi ("site-import_power_mwh", σ (s.oneInterval i).importPower.id) (by simp [Site.row, Site.cells])
    rw [cell_eq_getD himp (by omega)] at this
    simpa using this
  have hexpv : ∀ i < s.data.n, exp.getD i 0 = σ (s.oneInterval i).exportPower.id := by
    intro i hi
    have := h.cell i hi ("site-export_power_mwh", σ (s.oneInterval i).exportPower.id) (by simp [Site.row, Site.cells])
    rw [cell_eq_getD hexp (by omega)] at this
    simpa using this
  refine ⟨h.pos, h.keysNodup, hcell, fun q hq => hsum _ _ (ht.total q hq), hsum _ _ ht.spills, hsum _ _ ht.loss, ?_, ?_, ?_, ht.nodup h.colsNodup⟩
  · intro i hi
    rw [cell_eq_getD hbal (by simp [li, le, hi])]
    congr 1
    have h1 := himpv i hi
    have h2 := hexpv i hi
    simp only [List.getD_eq_getElem?_getD] at h1 h2 ⊢
    rw [List.getElem?_eq_getElem (by omega)] at h1 h2
    rw [List.getElem?_eq_getElem (by simp [li, le, hi])]
    simp only [Option.getD_some, List.getElem_zipWith] at h1 h2 ⊢
    rw [h1, h2]
  · rintro ⟨k, col⟩ hc
    have hl := mem_lookup (ht.nodup h.colsNodup) hc
    by_cases hk : k ∈ totalKeys
    · simp only [totalKeys, List.mem_append, List.mem_map, List.mem_cons, List.not_mem_nil, or_false] at hk
      rcases hk with ⟨q, hq, rfl⟩ | rfl | rfl | rfl
      · rw [ht.total q hq] at hl; cases hl; simp [Table.sumColumns]
      · rw [ht.spills] at hl; cases hl; simp [Table.sumColumns]
      · rw [ht.loss] at hl; cases hl; simp [Table.sumColumns]
      · rw [hbal] at hl; cases hl; simp [li, le]
    · rw [ht.other k hk] at hl
      exact h.lengths _ (lookup_mem hl)
  · intro k
    rw [← lookup_isSome_iff]
    by_cases hk : k ∈ totalKeys
    · simp only [hk, or_true, iff_true]
      simp only [totalKeys, List.mem_append, List.mem_map, List.mem_cons, List.not_mem_nil, or_false] at hk
      rcases hk with ⟨q, hq, rfl⟩ | rfl | rfl | rfl
      · rw [ht.total q hq]; rfl
      · rw [ht.spills]; rfl
      · rw [ht.loss]; rfl
      · rw [hbal]; rfl
    · rw [ht.other k hk, lookup_isSome_iff, h.colsPerm.mem_iff]
      simp [hk]

/-- The extraction loop and the length check. -/
theorem extractTable_rows {s : Site} {flags : Flags} {vals : Values} {σ : Assign} (ha : Agree vals σ)
    (hv : VarsOk s flags s.data.n) (hb : ∀ i < s.data.n, ∀ a ∈ s.assets, a.Buildable i) (wf : s.data.WF) {t : Table} {N : Nat}
    (h : extractTable s (s.ivarsTo flags s.data.n) vals = .ok t) (hN : checkArrayLengths t = .ok N) :
    N = s.data.n ∧ Rows s.data.n (s.row flags σ) s.keys t := by
  simp only [extractTable, bind_ok, Except.ok.injEq] at h
  obtain ⟨cells, hcells, ht⟩ := h
  let E : Nat → List (String × ℚ) := fun i =>
    match emitInterval s (s.ivarsTo flags s.data.n) vals i with
    | .ok l => l
    | .error _ => []
  have hE : ∀ i < s.data.n, emitInterval s (s.ivarsTo flags s.data.n) vals i = .ok (E i) := by
    intro i hi
    obtain ⟨l, hl⟩ := flatMapE_all_ok hcells (List.mem_range.2 hi)
    simp [E, hl]
  have hperm : ∀ i < s.data.n, (E i).Perm (s.row flags σ i) := fun i hi => emitInterval_ok ha hv hi (hb i hi) (hE i hi)
  rw [flatMapE_eq (g := E) (fun i hi => hE i (List.mem_range.1 hi))] at hcells
  cases hcells
  have hspec : RowsSpec s.data.n E s.keys t := ⟨fun i hi => by
    rw [← row_keys (flags := flags) (σ := σ) (hb i hi)]
    exact (hperm i hi).map _, ht.symm⟩
  obtain ⟨h1, h2⟩ := rows_of_spec hspec (anchor_count wf) hN
  exact ⟨h1, rows_congr h2 hperm⟩

/-- `Site.optimize` taken apart. -/
structure Ran (s : Site) (objective : Objective) (flags : Flags) (S : Solver) (r : SimResult) (p : Prob) : Prop where
  program : s.program objective flags = .ok (s.ivarsTo flags s.data.n, p)
  noDuplicates : p.noDuplicateVariables = true
  status : r.status.status = (S p).status
  feasible : r.feasible = ((S p).status == "Optimal")
  statusFeasible : r.status.feasible = r.feasible
  objective : r.status.objective = p.obj.value (p.valuesOf (S p))
  infeasible : flags.allowInfeasible = false → r.feasible = true ∧ r.status.objective.isSome = true
  spill : warnSpills r.results flags = .ok r.spill
  outcome : s.data.WF → ∀ σ, Agree (p.valuesOf (S p)) σ → Outcome s flags σ r.results
  checks : r.feasible = true → validateSchema r.results = .ok () ∧ checkResults r.results (s.assets.any Asset.isValve) = .ok ()

theorem optimize_ran {s : Site} {objective : Objective} {flags : Flags} {S : Solver} {r : SimResult}
    (h : s.optimize objective flags S = .ok r) : ∃ p, Ran s objective flags S r p := by
  simp only [Site.optimize, bind_ok, Prod.exists] at h
  obtain ⟨iv, p, hp, status, vals, hs, he⟩ := h
  have hprog := program_spec hp
  have hiv := hprog.iv_eq
  subst hiv
  simp only [Prob.solve, bind_ok, pyAssert_ok] at hs
  obtain ⟨_, hdup, hs⟩ := hs
  have hvals : vals = p.valuesOf (S p) ∧ status.status = (S p).status ∧ status.feasible = ((S p).status == "Optimal") ∧
      status.objective = p.obj.value (p.valuesOf (S p)) ∧
      (flags.allowInfeasible = false → status.feasible = true ∧ status.objective.isSome = true) := by
    cases hfl : flags.allowInfeasible with
    | true =>
      simp only [hfl, if_true, Except.ok.injEq, Prod.mk.injEq] at hs
      obtain ⟨rfl, rfl⟩ := hs
      simp
    | false =>
      simp only [hfl, Bool.false_eq_true, if_false, bind_ok, pyAssert_ok, Except.ok.injEq, Prod.mk.injEq] at hs
      obtain ⟨_, h1, _, h2, rfl, rfl⟩ := hs
      simp [h1, h2]
  obtain ⟨rfl, h1, h2, h3, h4⟩ := hvals
  have hex : ∃ t N t' sp, extractTable s (s.ivarsTo flags s.data.n) (p.valuesOf (S p)) = .ok t ∧ checkArrayLengths t = .ok N ∧
      addTotals t N = .ok t' ∧ (status.feasible = true → validateSchema t' = .ok () ∧
        checkResults t' (s.assets.any Asset.isValve) = .ok ()) ∧ warnSpills t' flags = .ok sp ∧
      r = ⟨t', status.feasible, sp, status⟩ := by
    unfold extractResults at he
    cases hfe : status.feasible with
    | true =>
      simp only [hfe, if_true, bind_ok, Except.ok.injEq] at he
      obtain ⟨t, ht, N, hN, t', ht', _, h1, _, h2, sp, hsp, rfl⟩ := he
      exact ⟨t, N, t', sp, ht, hN, ht', fun _ => ⟨h1, h2⟩, hsp, rfl⟩
    | false =>
      simp only [hfe, Bool.false_eq_true, if_false, bind_ok, Except.ok.injEq] at he
      obtain ⟨t, ht, N, hN, t', ht', h⟩ := he
      obtain ⟨_, _, sp, hsp, rfl⟩ := h
      exact ⟨t, N, t', sp, ht, hN, ht', by simp, hsp, rfl⟩
  obtain ⟨t, N, t', sp, ht, hN, ht', hu, hsp, rfl⟩ := hex
  refine ⟨p, hp, hdup, h1, h2, rfl, h3, h4, hsp, ?_, hu⟩
  intro wf σ ha
  obtain ⟨rfl, hr⟩ := extractTable_rows ha hprog.vars (fun i hi a ha => hprog.buildable hi ha) wf ht hN
  exact outcome_of_rows hr (addTotals_spec ht')

/-- The values of a sound solver agree with a feasible assignment. -/
theorem agree_of_values {p : Prob} {out : SolverOut} {σ : Assign} (h : ∀ v ∈ p.vars, out.value v.id = some (σ v.id)) :
    Agree (p.valuesOf out) σ := by
  intro v q hq
  unfold Prob.valuesOf at hq
  split at hq
  · rename_i hm
    obtain ⟨w, hw, rfl⟩ := List.mem_map.1 hm
    rw [h w hw] at hq
    simpa using hq
  · simp at hq

theorem agree_self (vals : Values) : Agree vals (fun v => (vals v).getD 0) := by
  intro v q hq
  simp [hq]

/-- Everything about a feasible result of a sound solver. -/
theorem optimize_feasible {s : Site} {objective : Objective} {flags : Flags} {S : Solver} {r : SimResult} (hS : S.Sound)
    (wf : s.data.WF) (h : s.optimize objective flags S = .ok r) (hf : r.feasible = true) :
    ∃ p σ, Ran s objective flags S r p ∧ Prog s objective flags (s.ivarsTo flags s.data.n) p ∧ p.Feasible σ ∧
      (∀ v ∈ p.vars, (S p).value v.id = some (σ v.id)) ∧ Outcome s flags σ r.results := by
  obtain ⟨p, hr⟩ := optimize_ran h
  have hopt : (S p).status = "Optimal" := by
    have := hr.feasible
    rw [hf] at this
    simpa using this.symm
  obtain ⟨σ, h1, h2⟩ := hS p hopt
  exact ⟨p, σ, hr, program_spec hr.program, h1, h2, hr.outcome wf σ (agree_of_values h2)⟩

end EPL
