/-
Parts of a plan are plans of the parts, and plans of the parts make a plan of the whole.
-/
import Verif.Proofs.Horizon

namespace EPL

theorem slice_get {k m i : Nat} (hi : i < m) (l : List ℚ) : (slice k m l)[i]? = l[i + k]? := by
  simp [slice, List.getElem?_take, hi, List.getElem?_drop, Nat.add_comm]

theorem slice_getD {k m i : Nat} (hi : i < m) (l : List ℚ) : (slice k m l).getD i 0 = l.getD (i + k) 0 := by
  simp only [List.getD_eq_getElem?_getD, slice_get hi]

theorem slice_index {k m i : Nat} (hi : i < m) (l : List ℚ) : pyIndex (slice k m l) (i : Int) = pyIndex l ((i + k : Nat) : Int) := by
  unfold pyIndex
  have h1 : ¬ ((i : Int) < 0) := by omega
  have h2 : ¬ (((i + k : Nat) : Int) < 0) := by omega
  simp only [h1, h2, if_false, Int.toNat_natCast, slice_get hi]

theorem part_dump (d : SiteData) (k m : Nat) : (d.part k m).dump = d.dump.map (fun f => (f.1, slice k m f.2)) := by
  simp [SiteData.dump, SiteData.part]

theorem lookup_slices (k m : Nat) (name : String) (l : List (String × List ℚ)) :
    (l.map (fun f => (f.1, slice k m f.2))).lookup name = (l.lookup name).map (slice k m) := by
  induction l with
  | nil => rfl
  | cons x l ih =>
    obtain ⟨a, b⟩ := x
    simp only [List.map_cons, List.lookup_cons, ih]
    cases name == a <;> rfl

theorem part_at (d : SiteData) {k m i : Nat} (hi : i < m) {name : String} (hn : name ≠ "idx") : (d.part k m).at name i = d.at name (i + k) := by
  simp only [SiteData.at, hn, if_false, part_dump, lookup_slices]
  cases d.dump.lookup name with
  | none => rfl
  | some l => exact slice_index hi l

section
variable {s : Site} {k m : Nat} {start stop : String → ℚ}

/-- A part is a part. -/
theorem part_partOf (hs : s.Steady) (hk : m + k ≤ s.data.n) : (s.part k m start stop).PartOf k s where
  freqMins := rfl
  importLimit := rfl
  exportLimit := rfl
  constraints := rfl
  fits := hk
  electricityPrices := fun _ hi => slice_getD hi _
  exportElectricityPrices := fun _ hi => slice_getD hi _
  electricityCarbonIntensities := fun _ hi => slice_getD hi _
  gasPrices := fun _ hi => slice_getD hi _
  electricLoad := fun _ hi => slice_getD hi _
  htLoad := fun _ hi => slice_getD hi _
  ltLoad := fun _ hi => slice_getD hi _
  ltGeneration := fun _ hi => slice_getD hi _
  named := fun _ hi _ hn => part_at _ hi hn
  assets := by
    have hne := hs.noEvs
    simp only [Site.part]
    generalize s.assets = l at hne
    induction l with
    | nil => exact .nil
    | cons a l ih =>
      rw [List.map_cons]
      refine .cons ?_ (ih fun c hc => hne c (List.mem_cons_of_mem _ hc))
      cases a with
      | battery c => exact .battery
      | renewable c => exact .renewable rfl rfl fun i hi => slice_getD hi _
      | evs c => exact absurd List.mem_cons_self (hne c)
      | boiler c => exact .boiler
      | chp c => exact .chp
      | heatPump c => exact .heatPump
      | spill c => exact .spill
      | valve c => exact .valve

theorem part_battery {c : BatteryCfg} (hc : Asset.battery c ∈ s.assets) :
    Asset.battery { c with initialCharge := start c.name, finalCharge := stop c.name } ∈ (s.part k m start stop).assets :=
  List.mem_map.2 ⟨_, hc, rfl⟩

theorem battery_part {c : BatteryCfg} (hc : Asset.battery c ∈ (s.part k m start stop).assets) :
    ∃ c', Asset.battery c' ∈ s.assets ∧ c = { c' with initialCharge := start c'.name, finalCharge := stop c'.name } := by
  obtain ⟨a, ha, e⟩ := List.mem_map.1 hc
  cases a with
  | battery c' =>
    simp only [Asset.part, Asset.battery.injEq] at e
    exact ⟨c', ha, e.symm⟩
  | _ => simp [Asset.part] at e

theorem part_steady (hs : s.Steady) : (s.part k m start stop).Steady where
  noEvs := by
    intro c hc
    obtain ⟨a, ha, e⟩ := List.mem_map.1 hc
    cases a with
    | evs c' => exact hs.noEvs c' ha
    | _ => simp [Asset.part] at e
  constraints := hs.constraints

end

section
variable {s t : Site} {name : String} {flags : Flags} {k m l : Nat} {start mid stop : String → ℚ} {iv iv1 iv2 : IVars} {p p1 p2 : Prob} {σ τ τ1 τ2 : Assign}

/-- One plan after the other. -/
def joined (m : Nat) (τ1 τ2 : Assign) : Assign := fun v => if v.interval < m then τ1 v else τ2 (v.earlier m)

theorem later_zero (v : VarId) : v.later 0 = v := by cases v <;> rfl

theorem joined_first {i : Nat} (hi : i < m) : Carries 0 i τ1 (joined m τ1 τ2) := by
  intro v h1 _
  rw [later_zero, joined, if_pos (by omega)]

theorem joined_second (i : Nat) : Carries m i τ2 (joined m τ1 τ2) := by
  intro v _ h2
  rw [joined, if_neg (by omega), earlier_later]

/-- The plans of two consecutive parts make a plan of the whole. -/
theorem join_feasible (hp : s.program (.str name) flags = .ok (iv, p)) (hs : s.Steady) (hm : 0 < m) (hl : 0 < l) (hn : m + l = s.data.n)
    (hc : s.Charged start stop) (hp1 : (s.part 0 m start mid).program (.str name) flags = .ok (iv1, p1))
    (hp2 : (s.part m l mid stop).program (.str name) flags = .ok (iv2, p2)) (h1 : p1.Feasible τ1) (h2 : p2.Feasible τ2) :
    p.Feasible (joined m τ1 τ2) := by
  have P := program_spec hp
  have P1 := program_spec hp1
  have P2 := program_spec hp2
  have s1 := part_steady (k := 0) (m := m) (start := start) (stop := mid) hs
  have s2 := part_steady (k := m) (m := l) (start := mid) (stop := stop) hs
  rw [steady_feasible P1 s1 hm] at h1
  rw [steady_feasible P2 s2 hl] at h2
  rw [steady_feasible P hs (by omega)]
  constructor
  · intro i hi
    by_cases him : i < m
    · exact (localOk_later (part_partOf hs (by omega)) P1 P hs s1 him (joined_first him)).1 (h1.1 i him)
    · have := (localOk_later (part_partOf hs (by omega)) P2 P hs s2 (i := i - m) (show i - m < l by omega)
        (joined_second (τ1 := τ1) _)).1
        (h2.1 (i - m) (show i - m < l by omega))
      rwa [Nat.sub_add_cancel (by omega)] at this
  · refine ⟨fun c hcm i hi => ?_, fun c hcm => ?_, fun c hcm => ?_⟩
    · have b1 := part_battery (k := 0) (m := m) (start := start) (stop := mid) hcm
      have b2 := part_battery (k := m) (m := l) (start := mid) (stop := stop) hcm
      rcases Nat.lt_trichotomy (i + 1) m with h | h | h
      · simp only [joined, VarId.interval, h, show i < m by omega, if_true]
        exact h1.2.link _ b1 i h
      · have e1 := h1.2.stop _ b1
        have e2 := h2.2.start _ b2
        simp only [joined, VarId.interval, show i < m by omega, show ¬ (i + 1 < m) by omega, if_true, if_false, VarId.earlier,
          show i + 1 - m = 0 by omega]
        have e3 : (s.part 0 m start mid).data.n - 1 = i := by show m - 1 = i; omega
        rw [e3] at e1
        exact e1.trans e2.symm
      · simp only [joined, VarId.interval, show ¬ (i < m) by omega, show ¬ (i + 1 < m) by omega, if_false, VarId.earlier]
        have := h2.2.link _ b2 (i - m) (show i - m + 1 < l by omega)
        rw [show i - m + 1 = i + 1 - m by omega] at this
        exact this
    · have b1 := part_battery (k := 0) (m := m) (start := start) (stop := mid) hcm
      simp only [joined, VarId.interval, hm, if_true]
      exact (h1.2.start _ b1).trans (hc c hcm).1.symm
    · have b2 := part_battery (k := m) (m := l) (start := mid) (stop := stop) hcm
      simp only [joined, VarId.interval, show ¬ (s.data.n - 1 < m) by omega, if_false, VarId.earlier]
      have := h2.2.stop _ b2
      have e : (s.part m l mid stop).data.n - 1 = s.data.n - 1 - m := by show l - 1 = _; omega
      rw [e] at this
      exact this.trans (hc c hcm).2.symm

/-- A part of a plan is a plan of the part that starts and ends with the same charges. -/
theorem window_feasible (hp : s.program (.str name) flags = .ok (iv, p)) (hs : s.Steady) (hm : 0 < m) (hn : m + k ≤ s.data.n)
    (hp1 : (s.part k m start stop).program (.str name) flags = .ok (iv1, p1)) (h : p.Feasible σ)
    (hstart : ∀ c, Asset.battery c ∈ s.assets → start c.name = σ (.asset c.name "electric_initial_charge_mwh" k))
    (hstop : ∀ c, Asset.battery c ∈ s.assets → stop c.name = σ (.asset c.name "electric_final_charge_mwh" (k + m - 1))) :
    p1.Feasible (fun v => σ (v.later k)) := by
  have P := program_spec hp
  have P1 := program_spec hp1
  have s1 := part_steady (k := k) (m := m) (start := start) (stop := stop) hs
  rw [steady_feasible P hs (by omega)] at h
  rw [steady_feasible P1 s1 hm]
  refine ⟨fun i hi => ?_, fun c hc i hi => ?_, fun c hc => ?_, fun c hc => ?_⟩
  · have hi' : i < m := hi
    exact (localOk_later (part_partOf hs hn) P1 P hs s1 hi (fun v _ _ => rfl)).2 (h.1 (i + k) (by omega))
  · obtain ⟨c', hc', rfl⟩ := battery_part hc
    have hi' : i + 1 < m := hi
    have := h.2.link c' hc' (i + k) (by omega)
    simp only [VarId.later]
    rw [this, show i + k + 1 = i + 1 + k by omega]
  · obtain ⟨c', hc', rfl⟩ := battery_part hc
    simp only [VarId.later, Nat.zero_add]
    exact (hstart c' hc').symm
  · obtain ⟨c', hc', rfl⟩ := battery_part hc
    simp only [VarId.later]
    rw [show (s.part k m start stop).data.n - 1 + k = k + m - 1 by show m - 1 + k = _; omega]
    exact (hstop c' hc').symm

/-! ### The value of a plan, interval by interval -/

/-- What a dispatch costs (or emits) in one interval, with the penalties. -/
def Site.valueAt (s : Site) (name : String) (flags : Flags) (σ : Assign) (i : Nat) : ℚ :=
  (if name = "price" then
    importOf σ i * s.data.electricityPrices.getD i 0 - exportOf σ i * s.data.exportElectricityPrices.getD i 0 + s.gasOf σ i * s.data.gasPrices.getD i 0
  else (importOf σ i - exportOf σ i) * s.data.electricityCarbonIntensities.getD i 0 + s.gasOf σ i * (185 / 1000)) +
  spillPenalty * s.spilledOf flags σ i

theorem value_sum (hp : s.program (.str name) flags = .ok (iv, p)) (hname : name = "price" ∨ name = "carbon") (σ : Assign) :
    p.obj.eval σ = ((List.range s.data.n).map (s.valueAt name flags σ)).sum := by
  rcases hname with rfl | rfl
  · rw [C40_price hp, Site.costOf, Site.spillOf, Site.sumIntervals, Site.sumIntervals, mul_comm, ← list_sum_mul_right, ← list_sum_add]
    apply list_sum_congr
    intro i _
    simp only [Site.valueAt, if_true]
    ring
  · have hne : ("carbon" : String) ≠ "price" := by decide
    rw [C41_carbon hp, Site.emissionsOf, Site.spillOf, Site.sumIntervals, Site.sumIntervals, mul_comm, ← list_sum_mul_right, ← list_sum_add]
    apply list_sum_congr
    intro i _
    simp only [Site.valueAt, hne, if_false]
    ring

theorem part_sum {m : Nat} {l l' : List Asset} (h : List.Forall₂ (Asset.PartOf k m) l l') {f g : Asset → ℚ}
    (hfg : ∀ a a', Asset.PartOf k m a a' → f a = g a') : (l.map f).sum = (l'.map g).sum := by
  induction h with
  | nil => rfl
  | cons hx _ ih => simp only [List.map_cons, List.sum_cons, ih, hfg _ _ hx]

theorem value_later (h : t.PartOf k s) {i : Nat} (hi : i < t.data.n) (e : Carries k i τ σ) :
    t.valueAt name flags τ i = s.valueAt name flags σ (i + k) := by
  have e1 : importOf τ i = importOf σ (i + k) := e (.site "import_power_mw" i) rfl rfl
  have e2 : exportOf τ i = exportOf σ (i + k) := e (.site "export_power_mw" i) rfl rfl
  have e3 : t.gasOf τ i = s.gasOf σ (i + k) := part_sum h.assets fun a a' ha => by
    cases ha <;> first | rfl | exact e (.asset _ _ i) rfl rfl
  have e4 : t.spilledOf flags τ i = s.spilledOf flags σ (i + k) := part_sum h.assets fun a a' ha => by
    cases ha with
    | spill =>
      simp only [Asset.spilledOf]
      rw [e (.asset _ _ i) rfl rfl, e (.asset _ _ i) rfl rfl, e (.asset _ _ i) rfl rfl]
      rfl
    | _ => rfl
  simp only [Site.valueAt, e1, e2, e3, e4, h.electricityPrices i hi, h.exportElectricityPrices i hi, h.gasPrices i hi,
    h.electricityCarbonIntensities i hi]

theorem sum_range_add (m l : Nat) (g : Nat → ℚ) :
    ((List.range (m + l)).map g).sum = ((List.range m).map g).sum + ((List.range l).map (fun i => g (i + m))).sum := by
  rw [List.range_add, List.map_append, List.sum_append, List.map_map]
  congr 2
  apply List.map_congr_left
  intro i _
  simp [Nat.add_comm]

/-- The value of a plan of the whole is the sum of the values of its parts. -/
theorem join_value (hp : s.program (.str name) flags = .ok (iv, p)) (hs : s.Steady) (hn : m + l = s.data.n) (hname : name = "price" ∨ name = "carbon")
    (hp1 : (s.part 0 m start mid).program (.str name) flags = .ok (iv1, p1)) (hp2 : (s.part m l mid stop).program (.str name) flags = .ok (iv2, p2))
    (e1 : ∀ i < m, Carries 0 i τ1 σ) (e2 : ∀ i < l, Carries m i τ2 σ) : p.obj.eval σ = p1.obj.eval τ1 + p2.obj.eval τ2 := by
  rw [value_sum hp hname, value_sum hp1 hname, value_sum hp2 hname, ← hn, sum_range_add]
  congr 1
  · apply list_sum_congr
    intro i hi
    have hi : i < m := List.mem_range.1 hi
    exact (value_later (part_partOf hs (by omega)) hi (e1 i hi)).symm
  · apply list_sum_congr
    intro i hi
    have hi : i < l := List.mem_range.1 hi
    exact (value_later (part_partOf hs (by omega)) hi (e2 i hi)).symm

theorem window_value (hs : s.Steady) (hn : m + k ≤ s.data.n) (hname : name = "price" ∨ name = "carbon")
    (hp1 : (s.part k m start stop).program (.str name) flags = .ok (iv1, p1)) :
    p1.obj.eval (fun v => σ (v.later k)) = ((List.range m).map (fun i => s.valueAt name flags σ (i + k))).sum := by
  rw [value_sum hp1 hname]
  apply list_sum_congr
  intro i hi
  exact value_later (part_partOf hs hn) (List.mem_range.1 hi) (fun v _ _ => rfl)


/-! ### Another plan for some of the intervals -/

/-- The second plan from `k` on, for `m` intervals, and the first one elsewhere. -/
def spliced (k m : Nat) (σ τ : Assign) : Assign := fun v => if k ≤ v.interval ∧ v.interval < k + m then τ (v.earlier k) else σ v

theorem spliced_inside {i : Nat} (hi : i < m) : Carries k i τ (spliced k m σ τ) := by
  intro v _ h2
  rw [spliced, if_pos (by omega), earlier_later]

theorem spliced_outside {i : Nat} (hi : i < k ∨ k + m ≤ i) : Carries 0 i σ (spliced k m σ τ) := by
  intro v h1 _
  rw [later_zero, spliced, if_neg (by omega)]

theorem partOf_self (hs : s.Steady) : s.PartOf 0 s where
  freqMins := rfl
  importLimit := rfl
  exportLimit := rfl
  constraints := rfl
  fits := Nat.le_refl _
  electricityPrices := fun _ _ => rfl
  exportElectricityPrices := fun _ _ => rfl
  electricityCarbonIntensities := fun _ _ => rfl
  gasPrices := fun _ _ => rfl
  electricLoad := fun _ _ => rfl
  htLoad := fun _ _ => rfl
  ltLoad := fun _ _ => rfl
  ltGeneration := fun _ _ => rfl
  named := fun _ _ _ _ => rfl
  assets := by
    have hne := hs.noEvs
    generalize s.assets = l at hne
    induction l with
    | nil => exact .nil
    | cons a l ih =>
      refine .cons ?_ (ih fun c hc => hne c (List.mem_cons_of_mem _ hc))
      cases a with
      | battery c => exact .battery
      | renewable c => exact .renewable rfl rfl fun i hi => rfl
      | evs c => exact absurd List.mem_cons_self (hne c)
      | boiler c => exact .boiler
      | chp c => exact .chp
      | heatPump c => exact .heatPump
      | spill c => exact .spill
      | valve c => exact .valve

/-- Of a plan, the part up to `k`: it starts with the charges of the site and reaches the given charges. -/
structure Site.Begun (s : Site) (flags : Flags) (name : String) (k : Nat) (charge : String → ℚ) (σ : Assign) : Prop where
  local_ : ∀ i < k, s.LocalOk flags name i σ
  link : ∀ c, Asset.battery c ∈ s.assets → ∀ i, i + 1 < k →
    σ (.asset c.name "electric_final_charge_mwh" i) = σ (.asset c.name "electric_initial_charge_mwh" (i + 1))
  start : ∀ c, Asset.battery c ∈ s.assets → 0 < k → σ (.asset c.name "electric_initial_charge_mwh" 0) = c.initialCharge
  stop : ∀ c, Asset.battery c ∈ s.assets → 0 < k → σ (.asset c.name "electric_final_charge_mwh" (k - 1)) = charge c.name

/-- Going on with a plan of the next intervals. -/
theorem begun_next (P : Prog s (.str name) flags iv p) (hs : s.Steady) (hm : 0 < m) (hn : m + k ≤ s.data.n)
    (hstart : k = 0 → ∀ c, Asset.battery c ∈ s.assets → c.initialCharge = start c.name)
    (hp1 : (s.part k m start stop).program (.str name) flags = .ok (iv1, p1)) (h : s.Begun flags name k start σ) (h1 : p1.Feasible τ) :
    s.Begun flags name (k + m) stop (spliced k m σ τ) := by
  have P1 := program_spec hp1
  have s1 := part_steady (k := k) (m := m) (start := start) (stop := stop) hs
  rw [steady_feasible P1 s1 hm] at h1
  refine ⟨fun i hi => ?_, fun c hcm i hi => ?_, fun c hcm _ => ?_, fun c hcm _ => ?_⟩
  · by_cases hik : i < k
    · exact (localOk_later (partOf_self hs) P P hs hs (by omega) (spliced_outside (.inl hik))).1 (h.local_ i hik)
    · have := (localOk_later (part_partOf hs hn) P1 P hs s1 (i := i - k) (show i - k < m by omega)
        (spliced_inside (σ := σ) (show i - k < m by omega))).1 (h1.1 (i - k) (show i - k < m by omega))
      rwa [Nat.sub_add_cancel (by omega)] at this
  · have b1 := part_battery (k := k) (m := m) (start := start) (stop := stop) hcm
    rcases Nat.lt_trichotomy (i + 1) k with hik | hik | hik
    · simp only [spliced, VarId.interval, show ¬ (k ≤ i ∧ i < k + m) by omega, show ¬ (k ≤ i + 1 ∧ i + 1 < k + m) by omega, if_false]
      exact h.link c hcm i hik
    · simp only [spliced, VarId.interval, show ¬ (k ≤ i ∧ i < k + m) by omega, show k ≤ i + 1 ∧ i + 1 < k + m by omega, if_false, if_true,
        and_self, VarId.earlier, show i + 1 - k = 0 by omega]
      have e := h.stop c hcm (by omega)
      rw [show k - 1 = i by omega] at e
      exact e.trans (h1.2.start _ b1).symm
    · simp only [spliced, VarId.interval, show k ≤ i ∧ i < k + m by omega, show k ≤ i + 1 ∧ i + 1 < k + m by omega, if_true, and_self, VarId.earlier]
      have := h1.2.link _ b1 (i - k) (show i - k + 1 < m by omega)
      rw [show i - k + 1 = i + 1 - k by omega] at this
      exact this
  · by_cases hk : k = 0
    · subst hk
      simp only [spliced, VarId.interval, show (0 ≤ 0 ∧ 0 < 0 + m) by omega, if_true, and_self, VarId.earlier]
      exact (h1.2.start _ (part_battery hcm)).trans (hstart rfl c hcm).symm
    · simp only [spliced, VarId.interval, show ¬ (k ≤ 0 ∧ 0 < k + m) by omega, if_false]
      exact h.start c hcm (by omega)
  · simp only [spliced, VarId.interval, show k ≤ k + m - 1 ∧ k + m - 1 < k + m by omega, if_true, and_self, VarId.earlier]
    have := h1.2.stop _ (part_battery hcm)
    rw [show (s.part k m start stop).data.n - 1 = k + m - 1 - k by show m - 1 = _; omega] at this
    exact this

theorem begun_feasible (P : Prog s (.str name) flags iv p) (hs : s.Steady) (h0 : 0 < s.data.n) (h : s.Begun flags name s.data.n stop σ)
    (hstop : ∀ c, Asset.battery c ∈ s.assets → c.finalCharge = stop c.name) : p.Feasible σ := by
  rw [steady_feasible P hs h0]
  exact ⟨h.local_, h.link, fun c hc => h.start c hc h0, fun c hc => (h.stop c hc h0).trans (hstop c hc).symm⟩

/-- A plan stays a plan when some of it is replaced by a plan that starts and ends with the same charges. -/
theorem splice_feasible (hp : s.program (.str name) flags = .ok (iv, p)) (hs : s.Steady) (hm : 0 < m) (hn : m + k ≤ s.data.n)
    (hp1 : (s.part k m start stop).program (.str name) flags = .ok (iv1, p1)) (h : p.Feasible σ) (h1 : p1.Feasible τ)
    (hstart : ∀ c, Asset.battery c ∈ s.assets → start c.name = σ (.asset c.name "electric_initial_charge_mwh" k))
    (hstop : ∀ c, Asset.battery c ∈ s.assets → stop c.name = σ (.asset c.name "electric_final_charge_mwh" (k + m - 1))) :
    p.Feasible (spliced k m σ τ) := by
  have P := program_spec hp
  rw [steady_feasible P hs (by omega)] at h
  have hb : s.Begun flags name k start σ := by
    refine ⟨fun i hi => h.1 i (by omega), fun c hc i hi => h.2.link c hc i (by omega), fun c hc _ => h.2.start c hc, fun c hc hk => ?_⟩
    have := h.2.link c hc (k - 1) (by omega)
    rw [this, hstart c hc, Nat.sub_add_cancel (by omega)]
  have hb' := begun_next P hs hm hn (fun hk c hc => by subst hk; rw [hstart c hc, h.2.start c hc]) hp1 hb h1
  rw [steady_feasible P hs (by omega)]
  refine ⟨fun i hi => ?_, fun c hc i hi => ?_, fun c hc => hb'.start c hc (by omega), fun c hc => ?_⟩
  · by_cases hik : i < k + m
    · exact hb'.local_ i hik
    · exact (localOk_later (partOf_self hs) P P hs hs (by omega) (spliced_outside (.inr (by omega)))).1 (h.1 i hi)
  · rcases Nat.lt_trichotomy (i + 1) (k + m) with hik | hik | hik
    · exact hb'.link c hc i hik
    · have e := hb'.stop c hc (by omega)
      rw [show k + m - 1 = i by omega] at e
      rw [e]
      simp only [spliced, VarId.interval, show ¬ (k ≤ i + 1 ∧ i + 1 < k + m) by omega, if_false]
      rw [hstop c hc, show k + m - 1 = i by omega]
      exact h.2.link c hc i hi
    · simp only [spliced, VarId.interval, show ¬ (k ≤ i ∧ i < k + m) by omega, show ¬ (k ≤ i + 1 ∧ i + 1 < k + m) by omega, if_false]
      exact h.2.link c hc i hi
  · by_cases hk : k + m = s.data.n
    · have e := hb'.stop c hc (by omega)
      rw [hk] at e
      rw [e, hstop c hc, hk]
      exact h.2.stop c hc
    · simp only [spliced, VarId.interval, show ¬ (k ≤ s.data.n - 1 ∧ s.data.n - 1 < k + m) by omega, if_false]
      exact h.2.stop c hc

theorem sum_window {n k m : Nat} (hn : m + k ≤ n) {f g : Nat → ℚ} (hout : ∀ i < n, i < k ∨ k + m ≤ i → f i = g i) :
    ((List.range n).map f).sum - ((List.range m).map (fun i => f (i + k))).sum =
    ((List.range n).map g).sum - ((List.range m).map (fun i => g (i + k))).sum := by
  have key : ∀ g : Nat → ℚ, ((List.range n).map g).sum - ((List.range m).map (fun i => g (i + k))).sum =
      ((List.range k).map g).sum + ((List.range (n - k - m)).map (fun i => g (i + (k + m)))).sum := by
    intro g
    conv_lhs => rw [show n = k + m + (n - k - m) by omega, sum_range_add, sum_range_add]
    ring
  rw [key, key]
  congr 1
  · apply list_sum_congr
    intro i hi
    rw [List.mem_range] at hi
    exact hout i (by omega) (.inl hi)
  · apply list_sum_congr
    intro i hi
    rw [List.mem_range] at hi
    exact hout _ (by omega) (.inr (by omega))

/-- What replacing a part changes is the value of the part. -/
theorem splice_value (hp : s.program (.str name) flags = .ok (iv, p)) (hs : s.Steady) (hn : m + k ≤ s.data.n) (hname : name = "price" ∨ name = "carbon")
    (hp1 : (s.part k m start stop).program (.str name) flags = .ok (iv1, p1)) :
    p.obj.eval (spliced k m σ τ) - p1.obj.eval τ = p.obj.eval σ - p1.obj.eval (fun v => σ (v.later k)) := by
  rw [window_value hs hn hname hp1, value_sum hp hname, value_sum hp hname, value_sum hp1 hname,
    ← sum_window hn (f := s.valueAt name flags (spliced k m σ τ))]
  · congr 1
    apply list_sum_congr
    intro i hi
    exact value_later (part_partOf hs hn) (List.mem_range.1 hi) (spliced_inside (List.mem_range.1 hi))
  · intro i hi ho
    exact (value_later (partOf_self hs) hi (spliced_outside ho)).symm

/-- The part of an optimal plan is an optimal plan of the part. -/
theorem window_optimal (hp : s.program (.str name) flags = .ok (iv, p)) (hs : s.Steady) (hm : 0 < m) (hn : m + k ≤ s.data.n)
    (hname : name = "price" ∨ name = "carbon") (hp1 : (s.part k m start stop).program (.str name) flags = .ok (iv1, p1)) (h : p.Optimal σ)
    (hstart : ∀ c, Asset.battery c ∈ s.assets → start c.name = σ (.asset c.name "electric_initial_charge_mwh" k))
    (hstop : ∀ c, Asset.battery c ∈ s.assets → stop c.name = σ (.asset c.name "electric_final_charge_mwh" (k + m - 1))) :
    p1.Optimal (fun v => σ (v.later k)) := by
  refine ⟨window_feasible hp hs hm hn hp1 h.1 hstart hstop, fun τ hτ => ?_⟩
  have l := h.2 _ (splice_feasible hp hs hm hn hp1 h.1 hτ hstart hstop)
  have e := splice_value (σ := σ) (τ := τ) hp hs hn hname hp1
  linarith

end

end EPL
