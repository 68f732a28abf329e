/-
C46, C47, C48, C49: accounts.
-/
import Verif.Spec.Accounts
import Verif.Props.Objectives
import Verif.Props.Results
import Verif.Spec.DemoCustom

namespace EPL

/-! ### C46 -/

section
variable {t t' : Table} {n m : Nat} {V W : String → Nat → ℚ}

theorem frame_get (h : t.Frame n V) {k : String} {col : List ℚ} (hk : t.get k = .ok col) : col = (List.range n).map (V k) := by
  unfold Table.get at hk
  split at hk
  · rename_i c hc
    rw [Except.ok.injEq] at hk
    subst hk
    have hm := lookup_mem hc
    have hl := h.rows _ hm
    apply List.ext_getElem?
    intro i
    by_cases hi : i < n
    · have := h.reads k (List.mem_map.2 ⟨_, hm, rfl⟩) i hi
      rw [Table.cell, hc] at this
      rw [List.getElem?_map, List.getElem?_range hi]
      exact this
    · rw [List.getElem?_eq_none (by simpa [hl] using hi), List.getElem?_eq_none (by simpa using hi)]
  · simp at hk

theorem zip_range {α β : Type} (n m : Nat) (f : Nat → α) (g : Nat → β) {γ : Type} (op : α → β → γ) :
    List.zipWith op ((List.range n).map f) ((List.range m).map g) = (List.range (min n m)).map (fun i => op (f i) (g i)) := by
  apply List.ext_getElem?
  intro i
  simp only [List.getElem?_zipWith, List.getElem?_map]
  by_cases h1 : i < n <;> by_cases h2 : i < m <;> simp [h1, h2]

theorem dot_range (n m : Nat) (f g : Nat → ℚ) : dot ((List.range n).map f) ((List.range m).map g) = priced (min n m) f g := by
  unfold dot priced
  rw [zip_range]

/-- When `get_accounts` returns, and what. -/
theorem getAccounts_ok {o : Option Table} {terms : Option (List OneTerm)} {validate : Bool} {a : Accounts} :
    getAccounts t o terms validate = .ok a ↔
    (validate = true → checkResults t false = .ok () ∧ checkResults (o.getD t) false = .ok ()) ∧
    ∃ e g cc, getOneElectricityAccount t (o.getD t) = .ok e ∧ getOneGasAccount t (o.getD t) = .ok g ∧ customCost t terms = .ok cc ∧
      a = { electricity := e, gas := g, custom := { cost := cc, emissions := 0 }, cost := e.cost + g.cost + cc,
            profit := -(e.cost + g.cost + cc), emissions := e.emissions + g.emissions + 0 } := by
  cases validate
  · simp only [getAccounts, Bool.false_eq_true, if_false, ok_bind, bind_ok, Except.ok.injEq, false_implies, true_and]
    constructor
    · rintro ⟨e, he, g, hg, cc, hc, rfl⟩
      exact ⟨e, g, cc, he, hg, hc, rfl⟩
    · rintro ⟨e, g, cc, he, hg, hc, rfl⟩
      exact ⟨e, he, g, hg, cc, hc, rfl⟩
  · simp only [getAccounts, if_true, bind_ok, Except.ok.injEq, true_implies, and_assoc]
    constructor
    · rintro ⟨_, h1, _, h2, e, he, g, hg, cc, hc, rfl⟩
      exact ⟨h1, h2, e, g, cc, he, hg, hc, rfl⟩
    · rintro ⟨h1, h2, e, g, cc, he, hg, hc, rfl⟩
      exact ⟨(), h1, (), h2, e, he, g, hg, cc, hc, rfl⟩

/-- `get_accounts` prices the flows of `results` with the prices of `price_results`, row by row. -/
theorem C46_accounts {terms : Option (List OneTerm)} {validate : Bool} {a : Accounts} (ht : t.Frame n V) (ht' : t'.Frame m W)
    (h : getAccounts t (some t') terms validate = .ok a) : a.Of V W (min m n) n := by
  obtain ⟨_, e, g, cc, he, hg, _, rfl⟩ := getAccounts_ok.1 h
  rw [Option.getD_some] at he hg
  simp only [getOneElectricityAccount, bind_ok, Except.ok.injEq] at he
  obtain ⟨p, hp, i, hi, x, hx, ci, hci, rfl⟩ := he
  simp only [getOneGasAccount, bind_ok, Except.ok.injEq] at hg
  obtain ⟨gp, hgp, gc, hgc, rfl⟩ := hg
  rw [frame_get ht' hp, frame_get ht hi, frame_get ht hx, frame_get ht' hci, frame_get ht' hgp, frame_get ht hgc]
  constructor
  all_goals simp only [dot_range]
  · rw [List.map_map]
    unfold colSum
    rw [mul_comm, ← list_sum_mul_right]
    apply list_sum_congr
    intro i _
    simp only [Function.comp, Defaults.gasCarbonIntensity]
    ring

/-- Without `price_results` the prices are those of the results. -/
theorem C46_own_prices {terms : Option (List OneTerm)} {validate : Bool} {a : Accounts} (ht : t.Frame n V)
    (h : getAccounts t none terms validate = .ok a) : a.Of V V n n := by
  have h' : getAccounts t (some t) terms validate = .ok a := h
  simpa using C46_accounts ht ht h'

end

/-- The results of a run are a frame. -/
theorem run_frame {s : Site} {objective : Objective} {flags : Flags} {S : Solver} {r : SimResult} {V : String → Nat → ℚ}
    (h : Run s objective flags S r V) : r.results.Frame s.data.n V := by
  obtain ⟨p, σ, hco⟩ := h.core
  exact ⟨hco.outcome.lengths, h.reads⟩

theorem get_of_mem {t : Table} {k : String} (h : k ∈ t.columns) : ∃ col, t.get k = .ok col := by
  rw [← lookup_isSome_iff, Option.isSome_iff_exists] at h
  obtain ⟨col, hc⟩ := h
  exact ⟨col, by simp [Table.get, hc]⟩

theorem checkResults_noValve {t : Table} {b : Bool} (h : checkResults t b = .ok ()) : checkResults t false = .ok () := by
  simp only [checkResults, bind_ok] at h ⊢
  obtain ⟨u, h1, v, h2, w, h3, _⟩ := h
  exact ⟨u, h1, v, h2, w, h3, by simp⟩

theorem run_checked {s : Site} {objective : Objective} {flags : Flags} {S : Solver} {r : SimResult} {V : String → Nat → ℚ}
    (h : Run s objective flags S r V) : checkResults r.results false = .ok () := by
  have hr := h.returned
  have hf := h.feasible
  simp only [Site.optimize, bind_ok] at hr
  obtain ⟨⟨iv, p⟩, _, ⟨st, vals⟩, _, hx⟩ := hr
  simp only [extractResults] at hx
  rw [bind_ok] at hx
  obtain ⟨t, _, hx⟩ := hx
  rw [bind_ok] at hx
  obtain ⟨n, _, hx⟩ := hx
  rw [bind_ok] at hx
  obtain ⟨t2, _, hx⟩ := hx
  by_cases hst : st.feasible = true
  · simp only [if_pos hst, bind_ok, Except.ok.injEq] at hx
    obtain ⟨u, _, v, hc, w, _, rfl⟩ := hx
    exact checkResults_noValve hc
  · simp only [if_neg hst, ok_bind, bind_ok, Except.ok.injEq] at hx
    obtain ⟨_, _, rfl⟩ := hx
    exact absurd hf hst

/-- `get_accounts` returns for the results of every feasible run, validated or not, with the prices of any other feasible run. -/
theorem C46_returns {s s' : Site} {objective objective' : Objective} {flags flags' : Flags} {S S' : Solver} {r r' : SimResult}
    {V W : String → Nat → ℚ} (h : Run s objective flags S r V) (h' : Run s' objective' flags' S' r' W) (validate : Bool) :
    ∃ a, getAccounts r.results (some r'.results) none validate = .ok a ∧ a.Of V W (min s'.data.n s.data.n) s.data.n := by
  obtain ⟨p, σ, hco⟩ := h.core
  obtain ⟨p', σ', hco'⟩ := h'.core
  have hsite : ∀ {s : Site} (k : String), k ∈ s.keys → k ∈ s.keys ∨ k ∈ totalKeys := fun k hk => .inl hk
  have hd : ∀ (s : Site) (f : String), f ∈ ["electricity_prices", "electricity_carbon_intensities", "gas_prices"] →
      "site-" ++ f ∈ s.keys := by
    intro s f hf
    unfold Site.keys
    refine List.mem_append_left _ (List.mem_cons_of_mem _ (List.mem_cons_of_mem _ ?_))
    have : f ∈ s.data.dump.map Prod.fst := by
      simp only [List.mem_cons, List.not_mem_nil, or_false] at hf
      rcases hf with rfl | rfl | rfl <;> simp [SiteData.dump]
    obtain ⟨c, hc, rfl⟩ := List.mem_map.1 this
    exact List.mem_map.2 ⟨c, hc, rfl⟩
  obtain ⟨c1, e1⟩ := get_of_mem ((hco'.outcome.columns _).2 (.inl (hd s' "electricity_prices" (by simp))))
  obtain ⟨c2, e2⟩ := get_of_mem ((hco'.outcome.columns _).2 (.inl (hd s' "electricity_carbon_intensities" (by simp))))
  obtain ⟨c3, e3⟩ := get_of_mem ((hco'.outcome.columns _).2 (.inl (hd s' "gas_prices" (by simp))))
  obtain ⟨c4, e4⟩ := get_of_mem ((hco.outcome.columns "site-import_power_mwh").2 (.inl (by simp [Site.keys])))
  obtain ⟨c5, e5⟩ := get_of_mem ((hco.outcome.columns "site-export_power_mwh").2 (.inl (by simp [Site.keys])))
  obtain ⟨c6, e6⟩ := get_of_mem ((hco.outcome.columns "total-gas_consumption_mwh").2 (.inr (by decide +kernel)))
  have hex : ∃ a, getAccounts r.results (some r'.results) none validate = .ok a := by
    have he : ∃ e, getOneElectricityAccount r.results r'.results = .ok e := by
      simp only [getOneElectricityAccount]
      rw [show "site-electricity_prices" = "site-" ++ "electricity_prices" from rfl, e1,
        show "site-electricity_carbon_intensities" = "site-" ++ "electricity_carbon_intensities" from rfl, e2, e4, e5]
      exact ⟨_, rfl⟩
    have hg : ∃ g, getOneGasAccount r.results r'.results = .ok g := by
      simp only [getOneGasAccount]
      rw [show "site-gas_prices" = "site-" ++ "gas_prices" from rfl, e3, e6]
      exact ⟨_, rfl⟩
    obtain ⟨e, he⟩ := he
    obtain ⟨g, hg⟩ := hg
    exact ⟨_, getAccounts_ok.2 ⟨fun _ => ⟨run_checked h, run_checked h'⟩, e, g, 0, he, hg, rfl, rfl⟩⟩
  obtain ⟨a, ha⟩ := hex
  exact ⟨a, ha, C46_accounts (run_frame h) (run_frame h') ha⟩

/-! ### C47 -/

/-- Accounts add up: cost and emissions are the sums of the electricity, gas and custom accounts, profit is minus the cost, and the
custom account carries no emissions. -/
theorem C47_accounts_add_up {t : Table} {o : Option Table} {terms : Option (List OneTerm)} {validate : Bool} {a : Accounts}
    (h : getAccounts t o terms validate = .ok a) :
    a.cost = a.electricity.importCost + a.electricity.exportCost + a.gas.cost + a.custom.cost ∧ a.profit = - a.cost ∧
    a.emissions = a.electricity.importEmissions + a.electricity.exportEmissions + a.gas.emissions ∧ a.custom.emissions = 0 ∧
    (terms = none → a.custom.cost = 0) := by
  obtain ⟨_, e, g, cc, he, hg, hc, rfl⟩ := getAccounts_ok.1 h
  simp only [getOneElectricityAccount, bind_ok, Except.ok.injEq] at he
  obtain ⟨p, hp, i, hi, x, hx, ci, hci, rfl⟩ := he
  refine ⟨rfl, rfl, by simp, rfl, ?_⟩
  rintro rfl
  simp only [customCost, Except.ok.injEq] at hc
  exact hc.symm

/-- Subtracting accounts: the difference is what has to be added back, differences chain, and a - a = 0. -/
theorem C47_difference (a b c : Account) :
    (a.sub b).cost + b.cost = a.cost ∧ (a.sub b).emissions + b.emissions = a.emissions ∧ a.sub a = {} ∧
    (a.sub b).cost + (b.sub c).cost = (a.sub c).cost ∧ (a.sub b).emissions + (b.sub c).emissions = (a.sub c).emissions := by
  simp [Account.sub]

/-- The accounts of two dispatches at the same prices differ by the price of the difference of their net imports, plus the price of
the difference of their gas. -/
theorem C47_difference_of_runs {t₁ t₂ t' : Table} {n : Nat} {V₁ V₂ W : String → Nat → ℚ} {a₁ a₂ : Accounts} (h1 : t₁.Frame n V₁)
    (h2 : t₂.Frame n V₂) (h' : t'.Frame n W) (ha1 : getAccounts t₁ (some t') none = .ok a₁) (ha2 : getAccounts t₂ (some t') none = .ok a₂) :
    (a₁.toAccount.sub a₂.toAccount).cost = priced n (W "site-electricity_prices") (fun i =>
        (V₁ "site-import_power_mwh" i - V₁ "site-export_power_mwh" i) - (V₂ "site-import_power_mwh" i - V₂ "site-export_power_mwh" i)) +
      priced n (W "site-gas_prices") (fun i => V₁ "total-gas_consumption_mwh" i - V₂ "total-gas_consumption_mwh" i) := by
  have o1 := C46_accounts h1 h' ha1
  have o2 := C46_accounts h2 h' ha2
  have s1 := C47_accounts_add_up ha1
  have s2 := C47_accounts_add_up ha2
  have sub : ∀ (n : Nat) (p x y : Nat → ℚ), priced n p (fun i => x i - y i) = priced n p x - priced n p y := by
    intro n p x y
    unfold priced
    have : ∀ l : List Nat, (l.map (fun i => p i * (x i - y i))).sum = (l.map (fun i => p i * x i)).sum - (l.map (fun i => p i * y i)).sum := by
      intro l
      induction l with
      | nil => simp
      | cons i l ih => simp only [List.map_cons, List.sum_cons, ih]; ring
    exact this _
  simp only [Account.sub, s1.1, s2.1, s1.2.2.2.2 rfl, s2.2.2.2.2 rfl, o1.importCost, o1.exportCost, o1.gasCost, o2.importCost,
    o2.exportCost, o2.gasCost, sub, min_self]
  ring

/-! ### C48 -/

section
variable {s : Site} {flags : Flags} {S : Solver} {r : SimResult} {V : String → Nat → ℚ} {a : Accounts}

theorem gas_total {objective : Objective} (h : Run s objective flags S r V) (hw : ∀ a ∈ s.assets, a.WellNamed) (hp : s.PlainNames)
    {i : Nat} (hi : i < s.data.n) : V "total-gas_consumption_mwh" i = s.assetSum V "gas_consumption_mwh" i := by
  have := C24_total_assets h.constructed h.returned h.reads hw hp (q := "gas_consumption_mwh") (by decide) hi
  rw [if_neg (by decide), zero_add] at this
  exact this

/-- The objective value of a run for price is the cost of its accounts, plus the penalties, plus what the accounts get wrong on
exports: they price them at the import price. -/
theorem C48_price (h : Run s (.str "price") flags S r V) (hw : ∀ a ∈ s.assets, a.WellNamed) (hp : s.PlainNames) {validate : Bool}
    (ha : getAccounts r.results none none validate = .ok a) :
    r.status.objective = some (a.cost + spillPenalty * s.readSpill V +
      s.sumIntervals (fun i => (V "site-electricity_prices" i - V "site-export_electricity_prices" i) * V "site-export_power_mwh" i)) := by
  have ho := C46_own_prices (run_frame h) ha
  have hs := C47_accounts_add_up ha
  rw [C40_results h hw, hs.1, ho.importCost, ho.exportCost, ho.gasCost, hs.2.2.2.2 rfl]
  congr 1
  have : s.readCost V = priced s.data.n (V "site-electricity_prices") (V "site-import_power_mwh") +
      - priced s.data.n (V "site-electricity_prices") (V "site-export_power_mwh") +
      priced s.data.n (V "site-gas_prices") (V "total-gas_consumption_mwh") +
      s.sumIntervals (fun i => (V "site-electricity_prices" i - V "site-export_electricity_prices" i) * V "site-export_power_mwh" i) := by
    unfold Site.readCost Site.sumIntervals priced
    have neg : ∀ (l : List Nat) (g : Nat → ℚ), - (l.map g).sum = (l.map (fun i => - g i)).sum := by
      intro l g
      induction l with
      | nil => simp
      | cons i l ih => simp only [List.map_cons, List.sum_cons, ← ih]; ring
    rw [neg, ← list_sum_add, ← list_sum_add, ← list_sum_add]
    apply list_sum_congr
    intro i hi
    rw [List.mem_range] at hi
    rw [gas_total h hw hp hi]
    ring
  rw [this]
  ring

/-- With equal import and export prices and no spill, the price objective is the account cost, and profit is minus the objective. -/
theorem C48_price_equal (h : Run s (.str "price") flags S r V) (hw : ∀ a ∈ s.assets, a.WellNamed) (hp : s.PlainNames) {validate : Bool}
    (ha : getAccounts r.results none none validate = .ok a)
    (he : ∀ i < s.data.n, V "site-export_electricity_prices" i = V "site-electricity_prices" i) (hsp : s.readSpill V = 0) :
    r.status.objective = some a.cost ∧ r.status.objective = some (- a.profit) := by
  have hz : s.sumIntervals (fun i => (V "site-electricity_prices" i - V "site-export_electricity_prices" i) * V "site-export_power_mwh" i) = 0 := by
    unfold Site.sumIntervals
    apply list_sum_zero
    intro i hi
    rw [List.mem_range] at hi
    rw [he i hi, sub_self, zero_mul]
  have h1 := C48_price h hw hp ha
  rw [hz, hsp, mul_zero, add_zero, add_zero] at h1
  refine ⟨h1, ?_⟩
  rw [h1, (C47_accounts_add_up ha).2.1, neg_neg]

/-- The objective value of a run for carbon is the emissions of its accounts plus the penalties. -/
theorem C48_carbon (h : Run s (.str "carbon") flags S r V) (hw : ∀ a ∈ s.assets, a.WellNamed) (hp : s.PlainNames) {validate : Bool}
    (ha : getAccounts r.results none none validate = .ok a) :
    r.status.objective = some (a.emissions + spillPenalty * s.readSpill V) := by
  have ho := C46_own_prices (run_frame h) ha
  have hs := C47_accounts_add_up ha
  rw [C41_results h hw, hs.2.2.1, ho.importEmissions, ho.exportEmissions, ho.gasEmissions]
  congr 2
  unfold Site.readEmissions Site.sumIntervals priced colSum
  have neg : ∀ (l : List Nat) (g : Nat → ℚ), - (l.map g).sum = (l.map (fun i => - g i)).sum := by
    intro l g
    induction l with
    | nil => simp
    | cons i l ih => simp only [List.map_cons, List.sum_cons, ← ih]; ring
  rw [neg, ← list_sum_add, ← list_sum_mul_left, ← list_sum_add]
  apply list_sum_congr
  intro i hi
  rw [List.mem_range] at hi
  rw [gas_total h hw hp hi]
  ring

end

/-! ### C49 -/

/-- The price table only matters through its prices and carbon intensities. -/
theorem C49_prices_only {t t₁ t₂ : Table} {terms : Option (List OneTerm)}
    (he : ∀ k ∈ ["site-electricity_prices", "site-electricity_carbon_intensities", "site-gas_prices"], t₁.get k = t₂.get k) :
    getAccounts t (some t₁) terms false = getAccounts t (some t₂) terms false := by
  simp only [getAccounts, getOneElectricityAccount, getOneGasAccount, Option.getD_some, he _ (List.mem_cons_self),
    he "site-electricity_carbon_intensities" (by simp), he "site-gas_prices" (by simp), Bool.false_eq_true, if_false, ok_bind]

/-- The results only matter through import, export and gas; their own prices are not used. -/
theorem C49_flows_only {t₁ t₂ t' : Table}
    (he : ∀ k ∈ ["site-import_power_mwh", "site-export_power_mwh", "total-gas_consumption_mwh"], t₁.get k = t₂.get k) :
    getAccounts t₁ (some t') none false = getAccounts t₂ (some t') none false := by
  simp only [getAccounts, getOneElectricityAccount, getOneGasAccount, Option.getD_some, he _ (List.mem_cons_self),
    he "site-export_power_mwh" (by simp), he "total-gas_consumption_mwh" (by simp), customCost, Bool.false_eq_true, if_false, ok_bind]

/-- `price_results` equal to `results` gives the plain accounts. -/
theorem C49_self (t : Table) (terms : Option (List OneTerm)) (validate : Bool) :
    getAccounts t (some t) terms validate = getAccounts t none terms validate := rfl

/-- The forecast of one run accounted at the prices of another run of as many intervals: every cost is the sum over the rows of an
actual price and a forecast flow. -/
theorem C49_forecast {s s' : Site} {objective objective' : Objective} {flags flags' : Flags} {S S' : Solver} {r r' : SimResult}
    {V W : String → Nat → ℚ} (h : Run s objective flags S r V) (h' : Run s' objective' flags' S' r' W) (hn : s'.data.n = s.data.n)
    (hw : ∀ a ∈ s.assets, a.WellNamed) (hp : s.PlainNames) :
    ∃ a, getAccounts r.results (some r'.results) = .ok a ∧
      a.cost = s.sumIntervals (fun i => (V "site-import_power_mwh" i - V "site-export_power_mwh" i) * s'.data.electricityPrices.getD i 0 +
        s.assetSum V "gas_consumption_mwh" i * s'.data.gasPrices.getD i 0) ∧
      a.emissions = s.sumIntervals (fun i => (V "site-import_power_mwh" i - V "site-export_power_mwh" i) *
        s'.data.electricityCarbonIntensities.getD i 0 + s.assetSum V "gas_consumption_mwh" i * (185 / 1000)) := by
  obtain ⟨a, ha, ho⟩ := C46_returns h h' true
  obtain ⟨p', σ', hco'⟩ := h'.core
  have hs := C47_accounts_add_up ha
  rw [hn, min_self] at ho
  refine ⟨a, ha, ?_, ?_⟩
  · rw [hs.1, hs.2.2.2.2 rfl, ho.importCost, ho.exportCost, ho.gasCost]
    unfold Site.sumIntervals priced
    have neg : ∀ (l : List Nat) (g : Nat → ℚ), - (l.map g).sum = (l.map (fun i => - g i)).sum := by
      intro l g
      induction l with
      | nil => simp
      | cons i l ih => simp only [List.map_cons, List.sum_cons, ← ih]; ring
    rw [neg, ← list_sum_add, ← list_sum_add, add_zero]
    apply list_sum_congr
    intro i hi
    rw [List.mem_range] at hi
    obtain ⟨e1, _, _, e4⟩ := price_cells hco' (hn ▸ hi)
    rw [gas_total h hw hp hi, e1, e4]
    ring
  · rw [hs.2.2.1, ho.importEmissions, ho.exportEmissions, ho.gasEmissions]
    unfold Site.sumIntervals priced colSum
    have neg : ∀ (l : List Nat) (g : Nat → ℚ), - (l.map g).sum = (l.map (fun i => - g i)).sum := by
      intro l g
      induction l with
      | nil => simp
      | cons i l ih => simp only [List.map_cons, List.sum_cons, ← ih]; ring
    rw [neg, ← list_sum_add, ← list_sum_mul_left, ← list_sum_add]
    apply list_sum_congr
    intro i hi
    rw [List.mem_range] at hi
    obtain ⟨_, _, e3, _⟩ := price_cells hco' (hn ▸ hi)
    rw [gas_total h hw hp hi, e3]
    ring

/-- The hypotheses are met: a dispatch of a battery at the prices 10 and 100, accounted at its own prices and at the prices 10 and 20
of another run. -/
example : ∃ s r V S s' r' W S', Run s (.str "price") {} S r V ∧ Run s' (.custom [.simple importCost]) {} S' r' W ∧
    s'.data.n = s.data.n ∧ (∀ a ∈ s.assets, a.WellNamed) ∧ s.PlainNames ∧
    (∃ a, getAccounts r.results none = .ok a) ∧ ∃ a, getAccounts r.results (some r'.results) = .ok a := by
  obtain ⟨s, r, V, hs, h, ht⟩ := Demo.run demoBattery_test
  obtain ⟨s', r', W, hs', h', ht'⟩ := Demo.run demoSimple_test
  simp only [Bool.and_eq_true, decide_eq_true_eq] at ht ht'
  refine ⟨s, r, V, _, s', r', W, _, h, h', by rw [ht'.1.2, ht.1.2], ?_, ⟨?_, ?_⟩, ?_, ?_⟩
  · rw [ht.1.1]; decide +kernel
  · rw [ht.1.1]; decide +kernel
  · have : s.data.custom = [] := by
      have := (site_new hs).custom
      simpa [customData, demoBattery, eq_comm] using this
    rw [this]; simp
  · obtain ⟨a, ha, _⟩ := C46_returns h h true
    exact ⟨a, ha⟩
  · obtain ⟨a, ha, _⟩ := C46_returns h h' true
    exact ⟨a, ha⟩

/-- A table of two rows: 2 MWh imported at 10, 1 MWh exported at 100, 3 MWh of gas at 20. -/
example : getAccounts [("site-electricity_prices", [10, 100]), ("site-import_power_mwh", [2, 0]), ("site-export_power_mwh", [0, 1]),
    ("site-electricity_carbon_intensities", [1/10, 1/10]), ("site-gas_prices", [20, 20]), ("total-gas_consumption_mwh", [3, 0])]
    none none false = .ok
      { electricity := { importCost := 20, exportCost := -100, cost := -80, importEmissions := 2/10, exportEmissions := -1/10,
                         emissions := 1/10 },
        gas := { cost := 60, emissions := 555/1000 }, custom := {}, cost := -20, profit := 20, emissions := 655/1000 } := by
  decide +kernel

end EPL
