/-
Exchanges at the margin: a change of some assets, settled with the grid, is never an improvement of a cheapest dispatch.
-/
import Verif.Proofs.Bump

namespace EPL

/-- Taking a little more from the grid. -/
theorem grid_take {a b L M : ℚ} (ha : 0 ≤ a) (haL : a ≤ L) (hb : 0 ≤ b) (hbM : b ≤ M) (h1 : a = 0 ∨ b = 0) (h : 0 < b ∨ a < L) :
    ∃ ε > 0, ∀ x, 0 ≤ x → x ≤ ε → ∃ da db, (0 ≤ a + da ∧ a + da ≤ L) ∧ (0 ≤ b + db ∧ b + db ≤ M) ∧ (a + da = 0 ∨ b + db = 0) ∧ da - db = x ∧
      ∀ p e : ℚ, da * p - db * e = x * (if 0 < b then e else p) := by
  by_cases hb0 : 0 < b
  · have ha0 : a = 0 := h1.resolve_right (ne_of_gt hb0)
    refine ⟨b, hb0, fun x hx hxb => ⟨0, -x, ⟨by linarith, by linarith⟩, ⟨by linarith, by linarith⟩, .inl (by linarith), by ring, fun p e => ?_⟩⟩
    rw [if_pos hb0]
    ring
  · have hb1 : b = 0 := le_antisymm (not_lt.1 hb0) hb
    have hL := h.resolve_left hb0
    refine ⟨L - a, by linarith, fun x hx hxb => ⟨x, 0, ⟨by linarith, by linarith⟩, ⟨by linarith, by linarith⟩, .inr (by linarith), by ring, fun p e => ?_⟩⟩
    rw [if_neg hb0]
    ring

/-- Giving a little more to the grid. -/
theorem grid_give {a b L M : ℚ} (ha : 0 ≤ a) (haL : a ≤ L) (hb : 0 ≤ b) (hbM : b ≤ M) (h1 : a = 0 ∨ b = 0) (h : 0 < a ∨ b < M) :
    ∃ ε > 0, ∀ x, 0 ≤ x → x ≤ ε → ∃ da db, (0 ≤ a + da ∧ a + da ≤ L) ∧ (0 ≤ b + db ∧ b + db ≤ M) ∧ (a + da = 0 ∨ b + db = 0) ∧ da - db = -x ∧
      ∀ p e : ℚ, da * p - db * e = -x * (if 0 < a then p else e) := by
  by_cases ha0 : 0 < a
  · have hb0 : b = 0 := h1.resolve_left (ne_of_gt ha0)
    refine ⟨a, ha0, fun x hx hxb => ⟨-x, 0, ⟨by linarith, by linarith⟩, ⟨by linarith, by linarith⟩, .inr (by linarith), by ring, fun p e => ?_⟩⟩
    rw [if_pos ha0]
    ring
  · have ha1 : a = 0 := le_antisymm (not_lt.1 ha0) ha
    have hM := h.resolve_left ha0
    refine ⟨M - b, by linarith, fun x hx hxb => ⟨0, x, ⟨by linarith, by linarith⟩, ⟨by linarith, by linarith⟩, .inl (by linarith), by ring, fun p e => ?_⟩⟩
    rw [if_neg ha0]
    ring

section
variable {s : Site} {flags : Flags} {V d : String → Nat → ℚ} {da db : Nat → ℚ}

/-- The change of the grid connection stays within its limits in interval `i`. -/
structure Site.Settles (s : Site) (V : String → Nat → ℚ) (i : Nat) (x y : ℚ) : Prop where
  imports : 0 ≤ V "site-import_power_mwh" i + x ∧ V "site-import_power_mwh" i + x ≤ s.importLimit * s.freqMins / 60
  exports : 0 ≤ V "site-export_power_mwh" i + y ∧ V "site-export_power_mwh" i + y ≤ s.exportLimit * s.freqMins / 60
  oneWay : V "site-import_power_mwh" i + x = 0 ∨ V "site-export_power_mwh" i + y = 0

theorem settles_zero (h : s.Dispatch flags V) {i : Nat} (hi : i < s.data.n) : s.Settles V i 0 0 := by
  have a := h.imports i hi
  have b := h.exports i hi
  have c := h.oneWay i hi
  refine ⟨?_, ?_, ?_⟩ <;> simpa only [add_zero]

theorem take (h : s.Dispatch flags V) {i : Nat} (hi : i < s.data.n) (hc : s.CanTake V i) : ∃ ε > 0, ∀ x, 0 ≤ x → x ≤ ε → ∃ da db,
    s.Settles V i da db ∧ da - db = x ∧ ∀ p e : ℚ, da * p - db * e = x * (if 0 < V "site-export_power_mwh" i then e else p) := by
  obtain ⟨ε, h0, h1⟩ := grid_take (h.imports i hi).1 (h.imports i hi).2 (h.exports i hi).1 (h.exports i hi).2 (h.oneWay i hi) hc
  refine ⟨ε, h0, fun x hx hxe => ?_⟩
  obtain ⟨da, db, k1, k2, k3, k4, k5⟩ := h1 x hx hxe
  exact ⟨da, db, ⟨k1, k2, k3⟩, k4, k5⟩

theorem give (h : s.Dispatch flags V) {i : Nat} (hi : i < s.data.n) (hc : s.CanGive V i) : ∃ ε > 0, ∀ x, 0 ≤ x → x ≤ ε → ∃ da db,
    s.Settles V i da db ∧ da - db = -x ∧ ∀ p e : ℚ, da * p - db * e = -x * (if 0 < V "site-import_power_mwh" i then p else e) := by
  obtain ⟨ε, h0, h1⟩ := grid_give (h.imports i hi).1 (h.imports i hi).2 (h.exports i hi).1 (h.exports i hi).2 (h.oneWay i hi) hc
  refine ⟨ε, h0, fun x hx hxe => ?_⟩
  obtain ⟨da, db, k1, k2, k3, k4, k5⟩ := h1 x hx hxe
  exact ⟨da, db, ⟨k1, k2, k3⟩, k4, k5⟩

/-- A change of assets that the grid settles. -/
structure Site.Change (s : Site) (flags : Flags) (V d : String → Nat → ℚ) (da db : Nat → ℚ) : Prop where
  site : ∀ k ∈ siteColumns, d k = 0
  grid : ∀ i < s.data.n, s.Settles V i (da i) (db i)
  electricity : ∀ i < s.data.n, da i - db i + s.assetSum d "electric_generation_mwh" i + s.assetSum d "electric_discharge_mwh" i =
    s.assetSum d "electric_load_mwh" i + s.assetSum d "electric_charge_mwh" i
  high : ∀ i < s.data.n, s.assetSum d "high_temperature_generation_mwh" i = s.assetSum d "high_temperature_load_mwh" i
  low : ∀ i < s.data.n, s.assetSum d "low_temperature_generation_mwh" i = s.assetSum d "low_temperature_load_mwh" i
  assets : ∀ a ∈ s.assets, (∀ k ∈ a.documentedColumns, d k = 0) ∨ a.Plays s flags (V + d)

/-- The change with the settlement. -/
def settled (d : String → Nat → ℚ) (da db : Nat → ℚ) : String → Nat → ℚ := d + (bump "site-import_power_mwh" da + bump "site-export_power_mwh" db)

theorem change_all (hc : s.ClearNames) (hw : ∀ a ∈ s.assets, a.WellNamed) (h : s.Dispatch flags V) (c : s.Change flags V d da db) :
    s.Dispatch flags (V + settled d da db) ∧
    s.readCost (V + settled d da db) = s.readCost V + s.sumIntervals (fun i => da i * s.data.electricityPrices.getD i 0 -
      db i * s.data.exportElectricityPrices.getD i 0 + s.assetSum d "gas_consumption_mwh" i * s.data.gasPrices.getD i 0) ∧
    s.readEmissions (V + settled d da db) = s.readEmissions V + s.sumIntervals (fun i => (da i - db i) *
      s.data.electricityCarbonIntensities.getD i 0 + s.assetSum d "gas_consumption_mwh" i * (185 / 1000)) ∧
    s.readSpill (V + settled d da db) = s.readSpill V + s.sumIntervals (s.spillAt d) := by
  have im : ∀ i, settled d da db "site-import_power_mwh" i = da i := fun i => by
    show d _ i + (bump _ _ _ i + bump _ _ _ i) = _
    rw [c.site _ (by simp [siteColumns]), bump_at, bump_off _ _ (by decide)]
    show 0 + _ = _
    ring
  have ex : ∀ i, settled d da db "site-export_power_mwh" i = db i := fun i => by
    show d _ i + (bump _ _ _ i + bump _ _ _ i) = _
    rw [c.site _ (by simp [siteColumns]), bump_at, bump_off _ _ (by decide)]
    show 0 + _ = _
    ring
  have off : ∀ k, k ≠ "site-import_power_mwh" → k ≠ "site-export_power_mwh" → settled d da db k = d k := fun k h1 h2 => by
    funext i
    show d _ i + (bump _ _ _ i + bump _ _ _ i) = _
    rw [bump_off _ _ h1, bump_off _ _ h2]
    ring
  have echo : ∀ k ∈ echoColumns, ∀ i, settled d da db k i = 0 := fun k hk i => by
    have : k ∈ siteColumns ∧ k ≠ "site-import_power_mwh" ∧ k ≠ "site-export_power_mwh" := by
      simp only [echoColumns, List.mem_cons, List.not_mem_nil, or_false] at hk
      rcases hk with rfl | rfl | rfl | rfl | rfl | rfl | rfl | rfl <;> decide
    rw [off k this.2.1 this.2.2, c.site k this.1]
    rfl
  have sum : ∀ q i, s.assetSum (settled d da db) q i = s.assetSum d q i := fun q i => by
    unfold settled
    rw [assetSum_add, assetSum_add, bump_grid hc hw (by simp [siteColumns]), bump_grid hc hw (by simp [siteColumns])]
    ring
  have spill : ∀ i, s.spillAt (settled d da db) i = s.spillAt d i := fun i => by
    unfold settled
    rw [spillAt_add, spillAt_add, bump_spill_grid hc hw (by simp [siteColumns]), bump_spill_grid hc hw (by simp [siteColumns])]
    ring
  have own : ∀ a ∈ s.assets, ∀ k ∈ a.documentedColumns, settled d da db k = d k := fun a ha k hk => by
    refine off k ?_ ?_
    · rintro rfl; exact site_column hc (by simp [siteColumns]) ha hk
    · rintro rfl; exact site_column hc (by simp [siteColumns]) ha hk
  refine ⟨dispatch_add h echo ?_ ?_ ?_ ?_ ?_ ?_ ?_, ?_, ?_, ?_⟩
  · intro i hi; rw [im]; exact (c.grid i hi).imports
  · intro i hi; rw [ex]; exact (c.grid i hi).exports
  · intro i hi; rw [im, ex]; exact (c.grid i hi).oneWay
  · intro i hi
    rw [im, ex, sum, sum, sum, sum]
    have := c.electricity i hi
    linarith
  · intro i hi; rw [sum, sum]; exact c.high i hi
  · intro i hi; rw [sum, sum]; exact c.low i hi
  · intro a ha
    rcases c.assets a ha with h0 | hp
    · left
      intro k hk
      rw [own a ha k hk, h0 k hk]
    · right
      refine plays_congr rfl rfl (fun k hk => ?_) hp
      show V k + d k = V k + settled d da db k
      rw [own a ha k hk]
  · rw [readCost_add h echo]
    simp only [im, ex, sum]
  · rw [readEmissions_add h echo]
    simp only [im, ex, sum]
  · rw [readSpill_add]
    congr 2
    funext i
    exact spill i

/-- No valid dispatch costs less. -/
def Site.Cheapest (s : Site) (flags : Flags) (V : String → Nat → ℚ) : Prop :=
  ∀ W, s.Dispatch flags W → s.readCost V + spillPenalty * s.readSpill V ≤ s.readCost W + spillPenalty * s.readSpill W

/-- No valid dispatch emits less. -/
def Site.Greenest (s : Site) (flags : Flags) (V : String → Nat → ℚ) : Prop :=
  ∀ W, s.Dispatch flags W → s.readEmissions V + spillPenalty * s.readSpill V ≤ s.readEmissions W + spillPenalty * s.readSpill W

/-- No change gains anything at prices `p` for imports, `e` for exports and `g` for gas. -/
def Site.NoGain (s : Site) (flags : Flags) (V : String → Nat → ℚ) (p e g : Nat → ℚ) : Prop :=
  ∀ (d : String → Nat → ℚ) (da db : Nat → ℚ), s.Change flags V d da db →
    0 ≤ s.sumIntervals (fun i => da i * p i - db i * e i + s.assetSum d "gas_consumption_mwh" i * g i + spillPenalty * s.spillAt d i)

theorem cheapest_noGain (hc : s.ClearNames) (hw : ∀ a ∈ s.assets, a.WellNamed) (h : s.Dispatch flags V) (ho : s.Cheapest flags V) :
    s.NoGain flags V (fun i => s.data.electricityPrices.getD i 0) (fun i => s.data.exportElectricityPrices.getD i 0)
      (fun i => s.data.gasPrices.getD i 0) := by
  intro d da db c
  obtain ⟨h1, h2, -, h4⟩ := change_all hc hw h c
  have := ho _ h1
  rw [h2, h4] at this
  unfold Site.sumIntervals at this ⊢
  rw [list_sum_add, list_sum_mul_left]
  linarith

theorem greenest_noGain (hc : s.ClearNames) (hw : ∀ a ∈ s.assets, a.WellNamed) (h : s.Dispatch flags V) (ho : s.Greenest flags V) :
    s.NoGain flags V (fun i => s.data.electricityCarbonIntensities.getD i 0) (fun i => s.data.electricityCarbonIntensities.getD i 0)
      (fun _ => 185 / 1000) := by
  intro d da db c
  obtain ⟨h1, -, h2, h4⟩ := change_all hc hw h c
  have := ho _ h1
  rw [h2, h4] at this
  simp only [← sub_mul]
  unfold Site.sumIntervals at this ⊢
  rw [list_sum_add, list_sum_mul_left]
  linarith

/-- A single interval. -/
def spike (j : Nat) (x : ℚ) : Nat → ℚ := fun i => if i = j then x else 0

theorem spike_at (j : Nat) (x : ℚ) : spike j x j = x := if_pos rfl

theorem spike_off {i j : Nat} (x : ℚ) (h : i ≠ j) : spike j x i = 0 := if_neg h

theorem bump_site (hc : s.ClearNames) {a : Asset} (ha : a ∈ s.assets) {k0 : String} (hk : k0 ∈ a.documentedColumns) (f : Nat → ℚ) :
    ∀ k ∈ siteColumns, bump k0 f k = 0 := fun k hks => by
  funext i
  exact bump_off f i (fun e => site_column hc hks ha (e ▸ hk))

theorem bump_others (hc : s.ClearNames) {a : Asset} (ha : a ∈ s.assets) {k0 : String} (hk : k0 ∈ a.documentedColumns) (f : Nat → ℚ) :
    ∀ b ∈ s.assets, b ≠ a → ∀ k ∈ b.documentedColumns, bump k0 f k = 0 := fun b hb hne k hkb => by
  funext i
  exact bump_off f i (fun e => column_asset hc ha hb hne hk (e ▸ hkb))

/-- A sum with one interval in it. -/
theorem sum_interval {j : Nat} (hj : j < s.data.n) {g : Nat → ℚ} (h : ∀ i < s.data.n, i ≠ j → g i = 0) : s.sumIntervals g = g j :=
  sum_owner List.nodup_range (List.mem_range.2 hj) fun i hi hne => h i (List.mem_range.1 hi) hne

/-- One interval's worth of a change. -/
theorem noGain_at {p e g : Nat → ℚ} (ho : s.NoGain flags V p e g) {j : Nat} (hj : j < s.data.n) {y z : ℚ}
    (c : s.Change flags V d (spike j y) (spike j z)) (hd : ∀ k i, i ≠ j → d k i = 0) :
    0 ≤ y * p j - z * e j + s.assetSum d "gas_consumption_mwh" j * g j + spillPenalty * s.spillAt d j := by
  have := ho d _ _ c
  rw [sum_interval hj] at this
  · rwa [spike_at, spike_at] at this
  · intro i _ hne
    have e1 : s.assetSum d "gas_consumption_mwh" i = 0 := list_sum_zero fun a _ => list_sum_zero fun k _ => hd k i hne
    have e2 : s.spillAt d i = 0 := list_sum_zero fun a _ => list_sum_zero fun k _ => hd k i hne
    rw [e1, e2, spike_off _ hne, spike_off _ hne]
    ring

theorem settles_spike (h : s.Dispatch flags V) {j : Nat} {y z : ℚ} (hset : s.Settles V j y z) : ∀ i < s.data.n, s.Settles V i (spike j y i) (spike j z i) := by
  intro i hi
  by_cases e : i = j
  · subst e; rw [spike_at, spike_at]; exact hset
  · rw [spike_off _ e, spike_off _ e]; exact settles_zero h hi

theorem spike_zero (j : Nat) : spike j 0 = 0 := by
  funext i
  simp [spike]

theorem bump_spike_off (k0 : String) (j : Nat) (x : ℚ) (k : String) {i : Nat} (h : i ≠ j) : bump k0 (spike j x) k i = 0 := by
  unfold bump
  rw [spike_off _ h, ite_self]

theorem col_assoc (name attr : String) : name ++ ("-" ++ attr) = name ++ "-" ++ attr := String.append_assoc.symm

theorem spike_linear {j i : Nat} {x y z : ℚ} (h : x - y + z = 0) : spike j x i - spike j y i + spike j z i = 0 := by
  unfold spike
  split
  · exact h
  · norm_num

/-- A change of one asset that the asset can follow. -/
structure Site.Piece (s : Site) (flags : Flags) (V : String → Nat → ℚ) (a : Asset) (d : String → Nat → ℚ) : Prop where
  mem : a ∈ s.assets
  own : ∀ k, k ∉ a.documentedColumns → d k = 0
  plays : a.Plays s flags (V + d)

theorem piece_sum (hc : s.ClearNames) (hw : ∀ a ∈ s.assets, a.WellNamed) {a : Asset} (hp : s.Piece flags V a d) (q : String) (i : Nat) :
    s.assetSum d q i = rowSum d (a.reports q) i :=
  sum_owner (assets_nodup hc) hp.mem fun b hb hne => list_sum_zero fun k hk => by
    rw [hp.own k fun h => column_asset hc hp.mem hb hne h (reports_documented (hw b hb) hk)]
    rfl

theorem piece_spill (hc : s.ClearNames) (hw : ∀ a ∈ s.assets, a.WellNamed) {a : Asset} (hp : s.Piece flags V a d) (i : Nat) :
    s.spillAt d i = rowSum d a.penalised i :=
  sum_owner (assets_nodup hc) hp.mem fun b hb hne => list_sum_zero fun k hk => by
    rw [hp.own k fun h => column_asset hc hp.mem hb hne h (penalised_documented (hw b hb) hk)]
    rfl

theorem piece_site (hc : s.ClearNames) {a : Asset} (hp : s.Piece flags V a d) : ∀ k ∈ siteColumns, d k = 0 :=
  fun _ hk => hp.own _ (site_column hc hk hp.mem)

theorem piece_others (hc : s.ClearNames) {a : Asset} (hp : s.Piece flags V a d) {b : Asset} (hb : b ∈ s.assets) (hne : b ≠ a) :
    ∀ k ∈ b.documentedColumns, d k = 0 :=
  fun _ hk => hp.own _ fun h => column_asset hc hp.mem hb hne h hk

theorem change_one (hc : s.ClearNames) (hw : ∀ a ∈ s.assets, a.WellNamed) {a : Asset} (hp : s.Piece flags V a d)
    (grid : ∀ i < s.data.n, s.Settles V i (da i) (db i))
    (electricity : ∀ i < s.data.n, da i - db i + rowSum d (a.reports "electric_generation_mwh") i + rowSum d (a.reports "electric_discharge_mwh") i =
      rowSum d (a.reports "electric_load_mwh") i + rowSum d (a.reports "electric_charge_mwh") i)
    (high : ∀ i < s.data.n, rowSum d (a.reports "high_temperature_generation_mwh") i = rowSum d (a.reports "high_temperature_load_mwh") i)
    (low : ∀ i < s.data.n, rowSum d (a.reports "low_temperature_generation_mwh") i = rowSum d (a.reports "low_temperature_load_mwh") i) :
    s.Change flags V d da db := by
  refine ⟨piece_site hc hp, grid, fun i hi => ?_, fun i hi => ?_, fun i hi => ?_, fun b hb => ?_⟩
  · simp only [piece_sum hc hw hp]; exact electricity i hi
  · simp only [piece_sum hc hw hp]; exact high i hi
  · simp only [piece_sum hc hw hp]; exact low i hi
  · by_cases e : b = a
    · subst e; exact .inr hp.plays
    · exact .inl (piece_others hc hp hb e)

theorem change_two (hc : s.ClearNames) (hw : ∀ a ∈ s.assets, a.WellNamed) {a b : Asset} {d' : String → Nat → ℚ} (hne : a ≠ b)
    (hp : s.Piece flags V a d) (hq : s.Piece flags V b d') (grid : ∀ i < s.data.n, s.Settles V i (da i) (db i))
    (electricity : ∀ i < s.data.n, da i - db i + (rowSum d (a.reports "electric_generation_mwh") i + rowSum d' (b.reports "electric_generation_mwh") i) +
      (rowSum d (a.reports "electric_discharge_mwh") i + rowSum d' (b.reports "electric_discharge_mwh") i) =
      (rowSum d (a.reports "electric_load_mwh") i + rowSum d' (b.reports "electric_load_mwh") i) +
      (rowSum d (a.reports "electric_charge_mwh") i + rowSum d' (b.reports "electric_charge_mwh") i))
    (high : ∀ i < s.data.n, rowSum d (a.reports "high_temperature_generation_mwh") i + rowSum d' (b.reports "high_temperature_generation_mwh") i =
      rowSum d (a.reports "high_temperature_load_mwh") i + rowSum d' (b.reports "high_temperature_load_mwh") i)
    (low : ∀ i < s.data.n, rowSum d (a.reports "low_temperature_generation_mwh") i + rowSum d' (b.reports "low_temperature_generation_mwh") i =
      rowSum d (a.reports "low_temperature_load_mwh") i + rowSum d' (b.reports "low_temperature_load_mwh") i) :
    s.Change flags V (d + d') da db := by
  refine ⟨fun k hk => ?_, grid, fun i hi => ?_, fun i hi => ?_, fun i hi => ?_, fun c hcm => ?_⟩
  · show d k + d' k = 0
    rw [piece_site hc hp k hk, piece_site hc hq k hk, add_zero]
  · simp only [assetSum_add, piece_sum hc hw hp, piece_sum hc hw hq]; exact electricity i hi
  · simp only [assetSum_add, piece_sum hc hw hp, piece_sum hc hw hq]; exact high i hi
  · simp only [assetSum_add, piece_sum hc hw hp, piece_sum hc hw hq]; exact low i hi
  · by_cases e : c = a
    · subst e
      refine .inr (plays_congr rfl rfl (fun k hk => ?_) hp.plays)
      show V k + d k = V k + (d k + d' k)
      rw [piece_others hc hq hcm hne k hk, add_zero]
    · by_cases e' : c = b
      · subst e'
        refine .inr (plays_congr rfl rfl (fun k hk => ?_) hq.plays)
        show V k + d' k = V k + (d k + d' k)
        rw [piece_others hc hp hcm hne.symm k hk, zero_add]
      · left
        intro k hk
        show d k + d' k = 0
        rw [piece_others hc hp hcm e k hk, piece_others hc hq hcm e' k hk, add_zero]

theorem rowSum_single {a : Asset} (hu : a.units = [a.name]) (q : String) (i : Nat) :
    rowSum d (a.reports q) i = if q ∈ a.flows then d (a.name ++ ("-" ++ q)) i else 0 := by
  unfold Asset.reports
  split
  · rw [hu]
    show d (a.name ++ "-" ++ q) i + 0 = _
    rw [add_zero, String.append_assoc]
  · rfl

theorem bump_name (name a b : String) (f : Nat → ℚ) (i : Nat) : bump (name ++ a) f (name ++ b) i = if b = a then f i else 0 := by
  unfold bump
  have : name ++ b = name ++ a ↔ b = a := by
    rw [str_eq_iff, String.toList_append, String.toList_append, List.append_cancel_left_eq, ← str_eq_iff]
  simp only [this]

theorem bump_own {a : Asset} {k0 : String} (hk : k0 ∈ a.documentedColumns) (f : Nat → ℚ) : ∀ k, k ∉ a.documentedColumns → bump k0 f k = 0 := fun k hn => by
  funext i
  exact bump_off f i (fun e => hn (e ▸ hk))

theorem documented_col {a : Asset} {attr col : String} (h : a.name ++ "-" ++ attr ∈ a.documentedColumns) (e : "-" ++ attr = col) :
    a.name ++ col ∈ a.documentedColumns := by
  rw [← e, ← String.append_assoc]
  exact h

/-- More or less from a renewable generator. -/
theorem renewable_piece (h : s.Dispatch flags V) {c : RenewableCfg} (ha : Asset.renewable c ∈ s.assets) {f : Nat → ℚ}
    (hx : ∀ i < s.data.n, c.lowerBoundPct * c.generation.getD i 0 ≤ V (c.name ++ "-electric_generation_mwh") i + f i ∧
      V (c.name ++ "-electric_generation_mwh") i + f i ≤ c.generation.getD i 0) :
    s.Piece flags V (.renewable c) (bump (c.name ++ "-electric_generation_mwh") f) := by
  refine ⟨ha, bump_own (a := .renewable c) (k0 := c.name ++ "-electric_generation_mwh") (documented_col (a := .renewable c) (attr := "electric_generation_mwh") (by simp [Asset.documentedColumns, Asset.name]) rfl) f, ⟨fun i hi => ?_⟩⟩
  simp only [Pi.add_apply, bump_at]
  exact hx i hi

/-- More or less heat from a boiler. -/
theorem boiler_piece (h : s.Dispatch flags V) {c : BoilerCfg} (ha : Asset.boiler c ∈ s.assets) (he : 0 < c.efficiency) {f : Nat → ℚ}
    (hx : ∀ i < s.data.n, c.heatMin * s.freqMins / 60 ≤ V (c.name ++ "-high_temperature_generation_mwh") i + f i ∧
      V (c.name ++ "-high_temperature_generation_mwh") i + f i ≤ c.heatMax * s.freqMins / 60)
    (hp : ∀ i < s.data.n, 0 ≤ V (c.name ++ "-high_temperature_generation_mwh") i + f i) :
    s.Piece flags V (.boiler c) (bump (c.name ++ "-high_temperature_generation_mwh") f +
      bump (c.name ++ "-gas_consumption_mwh") (fun i => f i / c.efficiency)) := by
  have hb : c.Plays s V := h.assets _ ha
  have hf : ∀ i, c.efficiency * (f i / c.efficiency) = f i := fun i => mul_div_cancel₀ _ (ne_of_gt he)
  refine ⟨ha, fun k hk => ?_, ⟨fun i hi => ?_, fun i hi => ?_, fun i hi => ?_⟩⟩
  · show bump _ _ k + bump _ _ k = 0
    rw [bump_own (a := .boiler c) (k0 := c.name ++ "-high_temperature_generation_mwh") (documented_col (a := .boiler c) (attr := "high_temperature_generation_mwh") (by simp [Asset.documentedColumns, Asset.name]) rfl) _ k hk,
      bump_own (a := .boiler c) (k0 := c.name ++ "-gas_consumption_mwh") (documented_col (a := .boiler c) (attr := "gas_consumption_mwh") (by simp [Asset.documentedColumns, Asset.name]) rfl) _ k hk, add_zero]
  · simp only [Pi.add_apply, bump_name, String.reduceEq, if_true, if_false, zero_add, add_zero]
    rw [mul_add, hf, hb.efficiency i hi]
  · simp only [Pi.add_apply, bump_name, String.reduceEq, if_true, if_false, zero_add, add_zero]
    exact hx i hi
  · simp only [Pi.add_apply, bump_name, String.reduceEq, if_true, if_false, zero_add, add_zero]
    have h1 := hp i hi
    rw [← hb.efficiency i hi, ← hf i, ← mul_add] at h1
    exact nonneg_of_mul_nonneg_right h1 he

/-- More or less electricity from or to a spill asset, more or less heat from it. -/
theorem spill_piece (h : s.Dispatch flags V) {c : SpillCfg} (ha : Asset.spill c ∈ s.assets) {f g t : Nat → ℚ}
    (hf : ∀ i < s.data.n, 0 ≤ V (c.name ++ "-electric_generation_mwh") i + f i) (hg : ∀ i < s.data.n, 0 ≤ V (c.name ++ "-electric_load_mwh") i + g i)
    (ht : ∀ i < s.data.n, 0 ≤ V (c.name ++ "-high_temperature_generation_mwh") i + t i) :
    s.Piece flags V (.spill c) (bump (c.name ++ "-electric_generation_mwh") f + (bump (c.name ++ "-electric_load_mwh") g +
      bump (c.name ++ "-high_temperature_generation_mwh") t)) := by
  have hb : c.Plays s V := h.assets _ ha
  refine ⟨ha, fun k hk => ?_, ⟨fun i hi => ?_, fun i hi => ?_⟩⟩
  · show bump _ _ k + (bump _ _ k + bump _ _ k) = 0
    rw [bump_own (a := .spill c) (k0 := c.name ++ "-electric_generation_mwh") (documented_col (a := .spill c) (attr := "electric_generation_mwh") (by simp [Asset.documentedColumns, Asset.name]) rfl) _ k hk,
      bump_own (a := .spill c) (k0 := c.name ++ "-electric_load_mwh") (documented_col (a := .spill c) (attr := "electric_load_mwh") (by simp [Asset.documentedColumns, Asset.name]) rfl) _ k hk,
      bump_own (a := .spill c) (k0 := c.name ++ "-high_temperature_generation_mwh") (documented_col (a := .spill c) (attr := "high_temperature_generation_mwh") (by simp [Asset.documentedColumns, Asset.name]) rfl) _ k hk,
      add_zero, add_zero]
  · simp only [Pi.add_apply, bump_name, String.reduceEq, if_true, if_false, zero_add, add_zero]
    exact ⟨hf i hi, hg i hi, ht i hi, (hb.positive i hi).2.2.2⟩
  · simp only [Pi.add_apply, bump_name, String.reduceEq, if_true, if_false, zero_add, add_zero]
    exact hb.nothing i hi

end

end EPL
