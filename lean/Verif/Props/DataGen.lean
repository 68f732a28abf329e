/-
C68: the random data for electric vehicles.
-/
import Verif.Props.Alone

namespace EPL

section
variable {a : GenArgs} {d : Draws} {g : GenData}

theorem npSize_ok {n : Int} {k : Nat} : npSize n = .ok k ↔ (k : Int) = n := by
  unfold npSize
  split
  · simp; omega
  · simp only [Except.ok.injEq]; omega

theorem npNormal_ok {mu std : ℚ} {n : Int} {z : Nat → ℚ} {l : List ℚ} :
    npNormal mu std n z = .ok l ↔ 0 ≤ std ∧ 0 ≤ n ∧ l = (List.range n.toNat).map (fun i => mu + std * z i) := by
  unfold npNormal
  split
  · rename_i h
    simp only [reduceCtorEq, false_iff, not_and]
    intro h'
    exact absurd h' (not_le.2 h)
  · rename_i h
    simp only [bind_ok, npSize_ok, Except.ok.injEq]
    constructor
    · rintro ⟨k, hk, rfl⟩
      exact ⟨not_lt.1 h, by omega, by rw [← hk]; rfl⟩
    · rintro ⟨-, h2, rfl⟩
      exact ⟨n.toNat, by omega, rfl⟩

theorem npUniform_ok {low high : ℚ} {n : Int} {u : Nat → ℚ} {l : List ℚ} :
    npUniform low high n u = .ok l ↔ 0 ≤ n ∧ l = (List.range n.toNat).map (fun i => low + (high - low) * u i) := by
  unfold npUniform
  simp only [bind_ok, npSize_ok, Except.ok.injEq]
  constructor
  · rintro ⟨k, hk, rfl⟩
    exact ⟨by omega, by rw [← hk]; rfl⟩
  · rintro ⟨h2, rfl⟩
    exact ⟨n.toNat, by omega, rfl⟩

theorem npRandint_ok {low high x : Int} {u : Nat} : npRandint low high u = .ok x ↔ low < high ∧ x = low + (u : Int) % (high - low) := by
  unfold npRandint
  split
  · simp; omega
  · simp only [Except.ok.injEq]
    constructor
    · rintro rfl; exact ⟨by omega, rfl⟩
    · rintro ⟨-, rfl⟩; rfl

theorem npRandint_range {low high x : Int} {u : Nat} (h : npRandint low high u = .ok x) : low ≤ x ∧ x < high := by
  obtain ⟨h1, rfl⟩ := npRandint_ok.1 h
  have := Int.emod_nonneg (u : Int) (b := high - low) (by omega)
  have := Int.emod_lt_of_pos (u : Int) (b := high - low) (by omega)
  omega

theorem drawRow_ok {idx : Nat} {cl : Int} {step : Nat} {row : List ℚ} (h : drawRow idx cl d step = .ok row) :
    ∃ start length : Nat, 1 ≤ length ∧ (length : Int) < cl ∧ start + length + 2 ≤ idx ∧ row = chargeRow idx start length := by
  unfold drawRow at h
  simp only [bind_ok, Except.ok.injEq] at h
  obtain ⟨len, hl, st, hs, rfl⟩ := h
  obtain ⟨l1, l2⟩ := npRandint_range hl
  obtain ⟨s1, s2⟩ := npRandint_range hs
  exact ⟨st.toNat, len.toNat, by omega, by omega, by omega, rfl⟩

theorem npSeed_ok {k : Option Int} : npSeed k = .ok () ↔ ∀ x ∈ k, 0 ≤ x ∧ x < 4294967296 := by
  cases k with
  | none => simp [npSeed]
  | some k =>
    simp only [npSeed, Option.mem_def, Option.some.injEq, forall_eq']
    split
    · rename_i h
      simp only [reduceCtorEq, false_iff]
      norm_num at h
      omega
    · rename_i h
      norm_num at h
      simp only [true_iff]
      omega

/-- What the call computes once nothing raises. -/
theorem generate_ok : generateEvData a d = .ok g ↔ a.Valid ∧ ∃ chargers rows,
    npRandints 10 100 a.nChargers d.charger = .ok chargers ∧
    mapE (drawRow a.idxLength.toNat (min (a.idxLength - 2) a.chargeLength) d) (List.range a.nChargeEvents.toNat) = .ok rows ∧
    g = { electricityPrices := (List.range a.idxLength.toNat).map (fun i => a.pricesMu + a.pricesStd * d.price i)
          electricityCarbonIntensities := (List.range a.idxLength.toNat).map (fun i => a.intensityMu + a.intensityStd * d.intensity i)
          chargersPower := chargers.map (fun (k : Int) => (k : ℚ))
          capacities := (List.range a.nChargeEvents.toNat).map (fun i =>
            max (a.normalMu + a.normalStd * d.normal i + (a.uniformMin + (a.uniformMax - a.uniformMin) * d.uniform i)) 0)
          chargeEvents := rows } := by
  unfold generateEvData
  simp only [bind_ok, npNormal_ok, npUniform_ok, npSize_ok, Except.ok.injEq]
  constructor
  · rintro ⟨_, hseed, _, ⟨p1, p2, rfl⟩, _, ⟨i1, i2, rfl⟩, ch, hch, ev, hev, idx, hidx, rows, hrows, _, ⟨n1, n2, rfl⟩, _, ⟨u1, rfl⟩, rfl⟩
    have e1 : ev = a.nChargeEvents.toNat := by omega
    have e2 : idx = a.idxLength.toNat := by omega
    subst e1 e2
    refine ⟨⟨npSeed_ok.1 hseed, ⟨p2, ?_, n2⟩, ⟨p1, i1, n1⟩, ?_⟩, ch, rows, hch, hrows, ?_⟩
    · unfold npRandints at hch
      simp only [bind_ok, npSize_ok] at hch
      obtain ⟨k, hk, -⟩ := hch
      omega
    · intro h
      have h0 : 0 ∈ List.range a.nChargeEvents.toNat := List.mem_range.2 (by omega)
      have hl := mapE_length hrows
      have : ∃ row, row ∈ rows := by
        cases rows with
        | nil => simp at hl; omega
        | cons x _ => exact ⟨x, List.mem_cons_self⟩
      obtain ⟨row, hrow⟩ := this
      obtain ⟨st, _, hst⟩ := (mapE_mem hrows).1 hrow
      obtain ⟨s, l, h1, h2, h3, -⟩ := drawRow_ok hst
      omega
    · congr 1
      rw [List.zipWith_map, List.zipWith_self, List.map_map]
      rfl
  · rintro ⟨V, ch, rows, hch, hrows, rfl⟩
    obtain ⟨s1, s2, s3⟩ := V.sizes
    obtain ⟨d1, d2, d3⟩ := V.deviations
    refine ⟨(), npSeed_ok.2 V.seed, _, ⟨d1, s1, rfl⟩, _, ⟨d2, s1, rfl⟩, ch, hch, a.nChargeEvents.toNat, by omega, a.idxLength.toNat, by omega, rows, hrows,
      _, ⟨d3, s3, rfl⟩, _, ⟨s3, rfl⟩, ?_⟩
    congr 1
    rw [List.zipWith_map, List.zipWith_self, List.map_map]
    rfl

/-- C68: the call returns exactly for valid arguments, whatever is drawn. -/
theorem C68_returns : (∃ g, generateEvData a d = .ok g) ↔ a.Valid := by
  constructor
  · rintro ⟨g, hg⟩
    exact (generate_ok.1 hg).1
  · intro V
    obtain ⟨s1, s2, s3⟩ := V.sizes
    have hc : ∃ ch, npRandints 10 100 a.nChargers d.charger = .ok ch := by
      unfold npRandints
      obtain ⟨bs, hbs⟩ := mapE_exists (f := fun i => npRandint 10 100 (d.charger i)) (l := List.range a.nChargers.toNat)
        fun x _ => ⟨_, npRandint_ok.2 ⟨by norm_num, rfl⟩⟩
      exact ⟨bs, bind_ok.2 ⟨_, npSize_ok.2 (by omega), hbs⟩⟩
    have hr : ∃ rows, mapE (drawRow a.idxLength.toNat (min (a.idxLength - 2) a.chargeLength) d) (List.range a.nChargeEvents.toNat) = .ok rows := by
      refine mapE_exists fun x hx => ?_
      rw [List.mem_range] at hx
      obtain ⟨r1, r2⟩ := V.room (by omega)
      unfold drawRow
      have hlen := npRandint_ok (low := 1) (high := min (a.idxLength - 2) a.chargeLength) (u := d.length x) (x := _) |>.2 ⟨by omega, rfl⟩
      have hb := npRandint_range hlen
      rw [hlen, ok_bind]
      have hst := npRandint_ok (low := 0) (high := (a.idxLength.toNat : Int) - (1 + (d.length x : Int) % (min (a.idxLength - 2) a.chargeLength - 1)) - 1)
        (u := d.start x) (x := _) |>.2 ⟨by omega, rfl⟩
      rw [hst, ok_bind]
      exact ⟨_, rfl⟩
    obtain ⟨ch, hch⟩ := hc
    obtain ⟨rows, hrows⟩ := hr
    exact ⟨_, generate_ok.2 ⟨V, ch, rows, hch, hrows, rfl⟩⟩

/-- Whatever goes wrong is a `ValueError`. -/
def OnlyValue {α : Type} (r : Res α) : Prop := ∀ e, r = .error e → ∃ m, e = .value m

theorem onlyValue_bind {α β : Type} {x : Res α} {f : α → Res β} (hx : OnlyValue x) (hf : ∀ y, OnlyValue (f y)) : OnlyValue (x >>= f) := by
  intro e h
  cases x with
  | error e' => exact hx e (by simpa [bind, Except.bind] using h)
  | ok y => exact hf y e h

theorem onlyValue_ok {α : Type} (y : α) : OnlyValue (.ok y : Res α) := fun e h => by simp at h

theorem onlyValue_mapE {α β : Type} {f : α → Res β} (hf : ∀ y, OnlyValue (f y)) (l : List α) : OnlyValue (mapE f l) := by
  induction l with
  | nil => exact onlyValue_ok _
  | cons x l ih => exact onlyValue_bind (hf x) fun y => onlyValue_bind ih fun ys => onlyValue_ok _

theorem onlyValue_size (n : Int) : OnlyValue (npSize n) := by
  intro e h
  unfold npSize at h
  split at h
  · exact ⟨_, by simpa using h.symm⟩
  · simp at h

theorem onlyValue_randint (low high : Int) (u : Nat) : OnlyValue (npRandint low high u) := by
  intro e h
  unfold npRandint at h
  split at h
  · exact ⟨_, by simpa using h.symm⟩
  · simp at h

theorem onlyValue_normal (mu std : ℚ) (n : Int) (z : Nat → ℚ) : OnlyValue (npNormal mu std n z) := by
  unfold npNormal
  split
  · exact fun e h => ⟨_, by simpa using h.symm⟩
  · exact onlyValue_bind (onlyValue_size n) fun k => onlyValue_ok _

/-- C68: other arguments raise a `ValueError`. -/
theorem C68_raises (h : ¬ a.Valid) : ∃ m, generateEvData a d = .error (.value m) := by
  have hv : OnlyValue (generateEvData a d) := by
    unfold generateEvData
    refine onlyValue_bind ?_ fun _ => onlyValue_bind (onlyValue_normal _ _ _ _) fun _ => onlyValue_bind (onlyValue_normal _ _ _ _) fun _ =>
      onlyValue_bind ?_ fun _ => onlyValue_bind (onlyValue_size _) fun _ => onlyValue_bind (onlyValue_size _) fun _ =>
      onlyValue_bind (onlyValue_mapE ?_ _) fun _ => onlyValue_bind (onlyValue_normal _ _ _ _) fun _ => onlyValue_bind ?_ fun _ => onlyValue_ok _
    · intro e h
      cases hs : a.seed with
      | none => rw [hs] at h; simp [npSeed] at h
      | some k =>
        rw [hs] at h
        simp only [npSeed] at h
        split at h
        · exact ⟨_, by simpa using h.symm⟩
        · simp at h
    · exact onlyValue_bind (onlyValue_size _) fun _ => onlyValue_mapE (fun _ => onlyValue_randint _ _ _) _
    · exact fun _ => onlyValue_bind (onlyValue_randint _ _ _) fun _ => onlyValue_bind (onlyValue_randint _ _ _) fun _ => onlyValue_ok _
    · exact onlyValue_bind (onlyValue_size _) fun _ => onlyValue_ok _
  cases hg : generateEvData a d with
  | ok g => exact absurd (C68_returns.1 ⟨g, hg⟩) h
  | error e =>
    obtain ⟨m, rfl⟩ := hv e hg
    exact ⟨m, rfl⟩

/-- C68: what comes back has the documented shape, whatever is drawn. -/
theorem C68_fits (h : generateEvData a d = .ok g) : g.Fits a := by
  obtain ⟨V, ch, rows, hch, hrows, rfl⟩ := generate_ok.1 h
  obtain ⟨s1, s2, s3⟩ := V.sizes
  refine ⟨by simp; omega, by simp; omega, ⟨?_, ?_⟩, ⟨by simp; omega, ?_⟩, ⟨?_, ?_⟩⟩
  · unfold npRandints at hch
    simp only [bind_ok, npSize_ok] at hch
    obtain ⟨k, hk, hm⟩ := hch
    have := mapE_length hm
    simp only [List.length_map, this, List.length_range, hk]
  · intro p hp
    obtain ⟨k, hk, rfl⟩ := List.mem_map.1 hp
    unfold npRandints at hch
    simp only [bind_ok, npSize_ok] at hch
    obtain ⟨_, _, hm⟩ := hch
    obtain ⟨i, _, hi⟩ := (mapE_mem hm).1 hk
    obtain ⟨b1, b2⟩ := npRandint_range hi
    exact ⟨k, b1, by omega, rfl⟩
  · intro q hq
    obtain ⟨i, _, rfl⟩ := List.mem_map.1 hq
    exact le_max_right _ _
  · have := mapE_length hrows
    simp only [this, List.length_range]
    omega
  · intro row hrow
    obtain ⟨st, _, hst⟩ := (mapE_mem hrows).1 hrow
    obtain ⟨s, l, h1, h2, h3, rfl⟩ := drawRow_ok hst
    refine ⟨s, l, h1, by omega, by omega, by omega, by simp [chargeRow]; omega, fun t ht => ?_⟩
    simp only [chargeRow, List.length_map, List.length_range] at ht
    simp [chargeRow, ht]

/-- C68: every such stretch can be drawn, for every charge event. -/
theorem C68_every_stretch (V : a.Valid) {rows : List (List ℚ)} (hn : (rows.length : Int) = a.nChargeEvents) (hr : ∀ row ∈ rows, Stretch a row) :
    ∃ d g, generateEvData a d = .ok g ∧ g.chargeEvents = rows := by
  have key : ∀ e < rows.length, ∃ lu su : Nat, ∀ d : Draws, d.length e = lu → d.start e = su →
      drawRow a.idxLength.toNat (min (a.idxLength - 2) a.chargeLength) d e = .ok (rows.getD e []) := by
    intro e he
    obtain ⟨st, l, h1, h2, h3, h4, h5, h6⟩ := hr rows[e] (List.getElem_mem he)
    refine ⟨l - 1, st, fun d hl hs => ?_⟩
    unfold drawRow
    rw [hl, hs]
    have e1 : npRandint 1 (min (a.idxLength - 2) a.chargeLength) (l - 1) = .ok (l : Int) :=
      npRandint_ok.2 ⟨by omega, by rw [Int.emod_eq_of_lt (by omega) (by omega)]; omega⟩
    have e2 : npRandint 0 ((a.idxLength.toNat : Int) - l - 1) st = .ok (st : Int) :=
      npRandint_ok.2 ⟨by omega, by rw [Int.emod_eq_of_lt (by omega) (by omega)]; omega⟩
    rw [e1, ok_bind, e2, ok_bind]
    have hx : rows.getD e [] = rows[e] := by rw [List.getD_eq_getElem?_getD, List.getElem?_eq_getElem he]; rfl
    rw [hx]
    congr 1
    apply List.ext_getElem?
    intro t
    by_cases ht : t < rows[e].length
    · rw [h6 t ht]
      have : t < a.idxLength.toNat := by omega
      simp [chargeRow, this]
    · rw [List.getElem?_eq_none (by simp [chargeRow]; omega), List.getElem?_eq_none (by omega)]
  choose! lu su hd using key
  let d : Draws := ⟨fun _ => 0, fun _ => 0, fun _ => 0, lu, su, fun _ => 0, fun _ => 0⟩
  obtain ⟨g, hg⟩ := (C68_returns (d := d)).2 V
  refine ⟨d, g, hg, ?_⟩
  obtain ⟨_, ch, rows', hch, hrows, rfl⟩ := generate_ok.1 hg
  have hlen : a.nChargeEvents.toNat = rows.length := by omega
  have : mapE (drawRow a.idxLength.toNat (min (a.idxLength - 2) a.chargeLength) d) (List.range a.nChargeEvents.toNat) = .ok rows := by
    rw [hlen]
    have e : rows = (List.range rows.length).map (fun e => rows.getD e []) := by
      apply List.ext_getElem?
      intro t
      by_cases ht : t < rows.length
      · simp [ht]
      · rw [List.getElem?_eq_none (by omega), List.getElem?_eq_none (by simp; omega)]
    have m : ∀ l : List Nat, (∀ x ∈ l, x < rows.length) → mapE (drawRow a.idxLength.toNat (min (a.idxLength - 2) a.chargeLength) d) l =
        .ok (l.map (fun e => rows.getD e [])) := by
      intro l
      induction l with
      | nil => intro _; rfl
      | cons x l ih =>
        intro hl
        simp only [mapE, hd x (hl x List.mem_cons_self) d rfl rfl, ih fun y hy => hl y (List.mem_cons_of_mem _ hy), ok_bind, List.map_cons]
    have := m (List.range rows.length) fun x hx => List.mem_range.1 hx
    rw [← e] at this
    exact this
  rw [this, Except.ok.injEq] at hrows
  exact hrows.symm

theorem finite_some (l : List ℚ) : finite (l.map some) = .ok l := by
  unfold finite
  induction l with
  | nil => rfl
  | cons x l ih =>
    simp only [List.map_cons, mapE, ih, ok_bind]

theorem finite_replicate (n : Nat) (q : ℚ) : finite (List.replicate n (some q)) = .ok (List.replicate n q) := by
  rw [← List.map_replicate, finite_some]

theorem complete_array {n : Nat} {q : ℚ} {l : List ℚ} (h : l.length = n) : completeField n q (.array (l.map some)) = .ok (l.map some) := by
  simp [completeField, h, pyValidate, ok_bind]

/-- The site of the fleet. -/
def GenData.evSite (g : GenData) (c : EvsCfg) (withSpill : Bool) : Site where
  assets := [.evs c] ++ spillAsset withSpill
  data :=
    { n := g.electricityPrices.length
      electricityPrices := g.electricityPrices
      exportElectricityPrices := g.electricityPrices
      electricityCarbonIntensities := g.electricityCarbonIntensities
      gasPrices := List.replicate g.electricityPrices.length 20
      electricLoad := List.replicate g.electricityPrices.length 0
      htLoad := List.replicate g.electricityPrices.length 0
      ltLoad := List.replicate g.electricityPrices.length 0
      ltGeneration := List.replicate g.electricityPrices.length 0
      custom := [] }
  freqMins := c.freqMins
  importLimit := 10000
  exportLimit := 10000
  constraints := []

/-- C68: the data fits together: the EVs asset made from it accepts it, and so does its site. -/
theorem C68_accepted (h : generateEvData a d = .ok g) (he : 1 ≤ a.nChargeEvents) (efficiency turndown freqMins : ℚ) (withSpill : Bool) :
    ∃ c s, (g.evArgs efficiency turndown freqMins).make = .ok c ∧ standaloneEvs c g.siteArgs withSpill = .ok (some s) ∧
      (s.data.n : Int) = a.idxLength ∧ s.data.electricityPrices = g.electricityPrices ∧ s.data.exportElectricityPrices = g.electricityPrices ∧
      s.data.electricityCarbonIntensities = g.electricityCarbonIntensities ∧
      ∀ x ∈ s.data.electricLoad ++ s.data.htLoad ++ s.data.ltLoad ++ s.data.ltGeneration, x = 0 := by
  have F := C68_fits h
  have hne : g.chargeEvents ≠ [] := by
    intro h0
    have := F.events.1
    rw [h0] at this
    simp at this
    omega
  obtain ⟨row, rows, hrr⟩ := List.exists_cons_of_ne_nil hne
  have hlen : ∀ r ∈ row :: rows, r.length = a.idxLength.toNat := by
    intro r hr
    obtain ⟨_, _, _, _, _, _, h5, _⟩ := F.events.2 r (hrr ▸ hr)
    omega
  have hcap : g.capacities.length = (row :: rows).length := by
    have h1 := F.capacities.1
    have h2 := F.events.1
    rw [hrr] at h2
    omega
  have hmake : ∃ c, (g.evArgs efficiency turndown freqMins).make = .ok c ∧ c.chargeEvents = transpose (row :: rows) a.idxLength.toNat ∧
      c.events.length = (row :: rows).length ∧ c.freqMins = freqMins := by
    unfold EvArgs.make Evs.new
    simp only [GenData.evArgs, hrr]
    rw [if_pos (by
      rw [List.all_eq_true]
      intro r hr
      rw [beq_iff_eq, hlen r (List.mem_cons_of_mem _ hr), hlen row List.mem_cons_self])]
    have e1 : pyValidate (pyIn "evs" "evs") "evs name" = .ok () := by decide +kernel
    have e2 : ∀ (l : List ChargeEventCfg), l.length = g.capacities.length → pyValidate (decide (l.length = (row :: rows).length)) "charge events" = .ok () := by
      intro l hl
      rw [pyValidate_ok, decide_eq_true_eq, hl, hcap]
    rw [e1, ok_bind, e2 _ (by simp), ok_bind]
    refine ⟨_, rfl, ?_, ?_, rfl⟩
    · rw [← hlen row List.mem_cons_self]
    · simp [hcap]
  obtain ⟨c, hc, hce, hcl, hcf⟩ := hmake
  have hp : g.electricityPrices.length = a.idxLength.toNat := by have := F.prices; omega
  have hi : g.electricityCarbonIntensities.length = g.electricityPrices.length := by have := F.prices; have := F.intensities; omega
  obtain ⟨s1, s2, s3⟩ := (C68_returns.1 ⟨g, h⟩).sizes
  refine ⟨c, g.evSite c withSpill, hc, ?_, ?_, rfl, rfl, rfl, ?_⟩
  · unfold standaloneEvs SiteArgs.site
    have hsite : g.siteArgs.hasSite = true := by simp [SiteArgs.hasSite, GenData.siteArgs]
    rw [if_pos hsite]
    have hv : validateSiteData g.siteArgs.raw = .ok ⟨g.electricityPrices.length, g.electricityPrices.map some, g.electricityPrices.map some,
        g.electricityCarbonIntensities.map some, List.replicate g.electricityPrices.length (some 20), List.replicate g.electricityPrices.length (some 0),
        List.replicate g.electricityPrices.length (some 0), List.replicate g.electricityPrices.length (some 0),
        List.replicate g.electricityPrices.length (some 0)⟩ := by
      simp only [validateSiteData, GenData.siteArgs, List.length_map, completeExport, complete_array hi, ok_bind]
      rfl
    have hfit : mapE (Asset.fit g.electricityPrices.length) ([.evs c] ++ spillAsset withSpill) = .ok ([.evs c] ++ spillAsset withSpill) :=
      fit_plain (by cases withSpill <;> simp [spillAsset])
    have hnew : Site.new ([.evs c] ++ spillAsset withSpill) g.siteArgs.raw c.freqMins g.siteArgs.importLimit g.siteArgs.exportLimit g.siteArgs.constraints
        g.siteArgs.kwargs = .ok (g.evSite c withSpill) := by
      unfold Site.new
      rw [if_neg (by simp [GenData.siteArgs, noDup]), hv, ok_bind]
      simp only [SiteDataF.toFinite, finite_some, finite_replicate, ok_bind, hfit]
      rfl
    rw [hnew]
    simp only [ok_bind]
    have hval : validateEvIntervalData (g.evSite c withSpill).data.n c = .ok () := by
      change validateEvIntervalData g.electricityPrices.length c = .ok ()
      unfold validateEvIntervalData
      rw [bind_ok]
      refine ⟨(), ?_, ?_⟩
      · rw [pyAssert_ok, decide_eq_true_eq, hce]
        simp [transpose, hp]
      · rw [pyAssert_ok, List.all_eq_true]
        intro e he'
        rw [List.mem_range, hcl] at he'
        rw [decide_eq_true_eq, hce]
        have hm : (row :: rows)[e] ∈ g.chargeEvents := by rw [hrr]; exact List.getElem_mem he'
        obtain ⟨st, l, h1, h2, h3, h4, h5, h6⟩ := F.events.2 _ hm
        have entry : ∀ t < a.idxLength.toNat, ((row :: rows).map (fun r => r.getD t 0)).getD e 0 = if st ≤ t ∧ t < st + l then (1:ℚ) else 0 := by
          intro t ht
          rw [List.getD_eq_getElem?_getD, List.getElem?_map, List.getElem?_eq_getElem he', Option.map_some, Option.getD_some, List.getD_eq_getElem?_getD,
            h6 t (by omega), Option.getD_some]
        simp only [transpose, List.map_map]
        refine lt_of_lt_of_le (zero_lt_one : (0:ℚ) < 1) ?_
        have hmem : (1:ℚ) ∈ (List.range a.idxLength.toNat).map ((fun r : List ℚ => r.getD e 0) ∘ fun t => (row :: rows).map (fun r => r.getD t 0)) := by
          refine List.mem_map.2 ⟨st, List.mem_range.2 (by omega), ?_⟩
          simp only [Function.comp]
          rw [entry st (by omega), if_pos ⟨le_refl _, by omega⟩]
        refine List.single_le_sum ?_ _ hmem
        intro x hx
        obtain ⟨t, ht, rfl⟩ := List.mem_map.1 hx
        simp only [Function.comp]
        rw [entry t (List.mem_range.1 ht)]
        split_ifs <;> norm_num
    rw [hval]
    rfl
  · exact F.prices
  · intro x hx
    simp only [GenData.evSite, List.mem_append, List.mem_replicate] at hx
    tauto

/-- C68: and the fleet is optimised successfully, for price or carbon, by every solver that answers feasible programs, if there is a charger, the vehicles
do not ask for more than the spill charger can give in an interval, and there is a spill or the connection of 10000 MW carries all vehicles at once. -/
theorem C68_optimizes {S : Solver} {flags : Flags} {efficiency turndown freqMins : ℚ} {withSpill : Bool} {name : String} (h : generateEvData a d = .ok g)
    (he : 1 ≤ a.nChargeEvents) (hc : 1 ≤ a.nChargers) (heff : efficiency ≤ 1) (hf : 0 ≤ freqMins)
    (hcap : ∀ q ∈ g.capacities, q ≤ 10000 * freqMins / 60) (hgrid : withSpill = true ∨ g.capacities.sum ≤ 10000 * freqMins / 60)
    (hobj : name = "price" ∨ name = "carbon") (hS : S.Sound) (hst : ∀ p, (∃ σ, p.Feasible σ) → (S p).status = "Optimal")
    (hfail : flags.failOnSpill = false) :
    ∃ c s r, (g.evArgs efficiency turndown freqMins).make = .ok c ∧ standaloneEvs c g.siteArgs withSpill = .ok (some s) ∧
      optimizeStandalone (some s) (.str name) flags S = .ok r ∧ r.feasible = true := by
  have F := C68_fits h
  obtain ⟨c, s, hm, hs, hn, -, -, -, hz⟩ := C68_accepted h he efficiency turndown freqMins withSpill
  have sane : (g.evArgs efficiency turndown freqMins).Sane := by
    refine ⟨?_, fun q hq => ⟨F.capacities.2 q hq, hcap q hq⟩, heff, ?_, ?_, hf⟩
    · intro row hrow x hx
      obtain ⟨st, l, _, _, _, _, _, h6⟩ := F.events.2 row hrow
      obtain ⟨t, ht⟩ := List.mem_iff_getElem?.1 hx
      rw [h6 t (List.getElem?_eq_some_iff.1 ht).1, Option.some.injEq] at ht
      rw [← ht]
      split_ifs
      · exact .inr rfl
      · exact .inl rfl
    · intro h0
      have h0 : g.chargersPower = [] := h0
      have := F.chargers.1
      rw [h0] at this
      simp at this
      omega
    · intro p hp
      obtain ⟨k, h1, -, rfl⟩ := F.chargers.2 p hp
      exact_mod_cast (by omega : (0:Int) ≤ k)
  have calm : Calm s g.siteArgs flags S := ⟨rfl, rfl, by norm_num [GenData.siteArgs], by norm_num [GenData.siteArgs], fun x hx => (hz x hx).ge, hS, hst, hfail⟩
  obtain ⟨r, hr⟩ := C67_evs hm hs rfl sane calm (fun x hx => hz x (by simp only [List.mem_append] at hx ⊢; tauto)) (by
    rcases hgrid with hw | hg
    · exact .inl hw
    · refine .inr fun i hi => ?_
      have e0 : s.data.electricLoad.getD i 0 = 0 := getD_zero (fun x hx => hz x (by simp [hx])) i
      rw [e0, zero_add]
      refine le_trans ?_ hg
      unfold EvArgs.pluggedDemand sumTo
      have e1 : g.capacities.sum = ((List.range g.capacities.length).map (fun e => g.capacities.getD e 0)).sum := by
        congr 1
        apply List.ext_getElem?
        intro t
        by_cases ht : t < g.capacities.length
        · simp [ht]
        · rw [List.getElem?_eq_none (by omega), List.getElem?_eq_none (by simp; omega)]
      rw [e1]
      refine List.sum_le_sum fun e hem => ?_
      have hpos : 0 ≤ g.capacities.getD e 0 := by
        rw [List.getD_eq_getElem?_getD]
        cases hq : g.capacities[e]? with
        | none => simp
        | some q => exact F.capacities.2 q (List.mem_of_getElem? hq)
      split_ifs
      · exact le_refl _
      · exact hpos) hobj
  exact ⟨c, s, r, hm, hs, hr⟩

end

/-! ### Concrete data -/

/-- Six intervals, two chargers, two vehicles. -/
def demoGenArgs : GenArgs := { idxLength := 6, nChargers := 2, chargeLength := 3, nChargeEvents := 2 }

/-- Some numbers. -/
def demoDraws : Draws := ⟨fun i => i, fun _ => 1/2, fun i => 7 * i + 85, fun i => i + 1, fun i => 2 * i, fun i => -i, fun i => 1/2 - i / 3⟩

example : demoGenArgs.Valid := ⟨by simp [demoGenArgs], by simp [demoGenArgs], by norm_num [demoGenArgs], by simp [demoGenArgs]⟩

example : generateEvData demoGenArgs demoDraws = .ok
    { electricityPrices := [100, 120, 140, 160, 180, 200]
      electricityCarbonIntensities := [1, 1, 1, 1, 1, 1]
      chargersPower := [95, 12]
      capacities := [5, 2/3]
      chargeEvents := [[1, 1, 0, 0, 0, 0], [0, 0, 1, 0, 0, 0]] } := by decide +kernel

/-- Too short a series, an empty range of lengths, a negative deviation and a bad seed. -/
example : (∃ m, generateEvData { demoGenArgs with idxLength := 3 } demoDraws = .error (.value m)) ∧
    (∃ m, generateEvData { demoGenArgs with chargeLength := 1 } demoDraws = .error (.value m)) ∧
    (∃ m, generateEvData { demoGenArgs with pricesStd := -1 } demoDraws = .error (.value m)) ∧
    (∃ m, generateEvData { demoGenArgs with seed := some (-1) } demoDraws = .error (.value m)) := by
  refine ⟨C68_raises fun h => ?_, C68_raises fun h => ?_, C68_raises fun h => ?_, C68_raises fun h => ?_⟩
  · have := (h.room (by decide)).1; simp at this
  · have := (h.room (by decide)).2; simp at this
  · have := h.deviations.1; norm_num at this
  · have := (h.seed (-1) rfl).1; simp at this

end EPL
