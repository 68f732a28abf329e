/-
The price and carbon objectives.
-/
import Verif.Proofs.Flows
import Verif.Spec.Cost

namespace EPL

theorem list_sum_mul_right {α : Type} (l : List α) (g : α → ℚ) (k : ℚ) : (l.map (fun a => g a * k)).sum = (l.map g).sum * k := by
  induction l with
  | nil => simp
  | cons a l ih => simp only [List.map_cons, List.sum_cons, ih]; ring

theorem list_sum_sub {α : Type} (l : List α) (g g' : α → ℚ) : (l.map (fun a => g a - g' a)).sum = (l.map g).sum - (l.map g').sum := by
  induction l with
  | nil => simp
  | cons a l ih => simp only [List.map_cons, List.sum_cons, ih]; ring

theorem list_sum_filterMap {α : Type} (σ : Assign) (l : List α) (f : α → Option Expr) :
    ((l.filterMap f).map (Expr.eval σ)).sum = (l.map (fun a => ((f a).map (Expr.eval σ)).getD 0)).sum := by
  induction l with
  | nil => simp
  | cons a l ih =>
    rw [List.filterMap_cons, List.map_cons, List.sum_cons]
    cases hf : f a with
    | none => simp [ih]
    | some e => simp [ih]

theorem list_sum_flatMapE {σ : Assign} {f : Nat → Res (List Expr)} {g : Nat → ℚ} {l : List Nat} {es : List Expr}
    (h : flatMapE f l = .ok es) (hg : ∀ i ∈ l, ∀ e, f i = .ok e → (e.map (Expr.eval σ)).sum = g i) :
    (es.map (Expr.eval σ)).sum = (l.map g).sum := by
  induction l generalizing es with
  | nil => simp at h; subst h; rfl
  | cons a l ih =>
    rw [flatMapE_cons] at h
    simp only [bind_ok, Except.ok.injEq] at h
    obtain ⟨x, hx, y, hy, rfl⟩ := h
    rw [List.map_append, List.sum_append, List.map_cons, List.sum_cons, hg a (by simp) x hx,
      ih hy (fun i hi => hg i (by simp [hi]))]

/-- What an object contributes: to the grid exchange at two prices, to the gas and to the penalised energy. -/
def OneInterval.grid (σ : Assign) (p x : ℚ) : OneInterval → ℚ
  | .site s => σ s.importPower.id * p - σ s.exportPower.id * x
  | _ => 0

/-- see `OneInterval.grid` -/
def OneInterval.gas (σ : Assign) : OneInterval → ℚ
  | .chp c => σ c.gas.id
  | .boiler b => σ b.gas.id
  | _ => 0

/-- see `OneInterval.grid` -/
def OneInterval.spilled (σ : Assign) : OneInterval → ℚ
  | .spill s => σ s.generation.id + σ s.load.id + σ s.ht.id
  | .evSpill e => e.charge.eval σ + e.discharge.eval σ
  | _ => 0

theorem sum_three {σ : Assign} (l : List OneInterval) (p x g pen : ℚ) :
    (l.map (fun o => o.grid σ p x + o.gas σ * g + o.spilled σ * pen)).sum =
      (l.map (OneInterval.grid σ p x)).sum + (l.map (OneInterval.gas σ)).sum * g + (l.map (OneInterval.spilled σ)).sum * pen := by
  rw [list_sum_add, list_sum_add, list_sum_mul_right, list_sum_mul_right]

theorem priceTerms_eval {σ : Assign} {d : SiteData} {i : Nat} {l : List OneInterval} {es : List Expr}
    (h : priceTerms d i l = .ok es) :
    (es.map (Expr.eval σ)).sum = (l.map (OneInterval.grid σ (d.electricityPrices.getD i 0) (d.exportElectricityPrices.getD i 0))).sum +
      (l.map (OneInterval.gas σ)).sum * d.gasPrices.getD i 0 + (l.map (OneInterval.spilled σ)).sum * spillPenalty := by
  simp only [priceTerms, bind_ok, pyIndex_nat, Except.ok.injEq] at h
  obtain ⟨p, hp, x, hx, g, hg, rfl⟩ := h
  rw [← sum_three]
  simp only [List.map_append, List.sum_append, list_sum_filterMap]
  rw [← list_sum_add, ← list_sum_add, ← list_sum_add, ← list_sum_add]
  apply list_sum_congr
  intro o _
  simp only [List.getD_eq_getElem?_getD, hp, hx, hg, Option.getD_some, spillPenalty]
  cases o <;>
    simp [OneInterval.grid, OneInterval.gas, OneInterval.spilled, OneInterval.base, Defaults.spillObjectivePenalty, Val.eval] <;> ring

theorem carbonTerms_eval {σ : Assign} {d : SiteData} {i : Nat} {l : List OneInterval} {es : List Expr}
    (h : carbonTerms d i l = .ok es) :
    (es.map (Expr.eval σ)).sum = (l.map (OneInterval.grid σ (d.electricityCarbonIntensities.getD i 0)
        (d.electricityCarbonIntensities.getD i 0))).sum +
      (l.map (OneInterval.gas σ)).sum * (185 / 1000) + (l.map (OneInterval.spilled σ)).sum * spillPenalty := by
  simp only [carbonTerms, bind_ok, pyIndex_nat, Except.ok.injEq] at h
  obtain ⟨ci, hci, rfl⟩ := h
  rw [← sum_three]
  simp only [List.map_append, List.sum_append, list_sum_filterMap]
  rw [← list_sum_add, ← list_sum_add, ← list_sum_add, ← list_sum_add]
  apply list_sum_congr
  intro o _
  simp only [List.getD_eq_getElem?_getD, hci, Option.getD_some, spillPenalty]
  cases o <;>
    simp [OneInterval.grid, OneInterval.gas, OneInterval.spilled, OneInterval.base, carbonSpillTerm, Defaults.spillObjectivePenalty,
      Defaults.gasCarbonIntensity, Val.eval] <;> ring

section
variable {s : Site} {objective : Objective} {flags : Flags} {p : Prob} {σ : Assign}

theorem grid_sum (h : Prog s objective flags (s.ivarsTo flags s.data.n) p) {i : Nat} (hi : i < s.data.n) (pr x : ℚ) :
    ((s.ones flags i).map (OneInterval.grid σ pr x)).sum = importOf σ i * pr - exportOf σ i * x := by
  rw [ones_eq h.vars hi, List.map_cons, List.sum_cons, list_sum_flatMap, list_sum_zero, add_zero]
  · rfl
  · intro a _
    apply list_sum_zero
    intro o ho
    have := kinds_ne_site (ois_name_kind ho).2
    cases o <;> simp_all [OneInterval.grid, OneInterval.kind]

theorem gas_sum (h : Prog s objective flags (s.ivarsTo flags s.data.n) p) {i : Nat} (hi : i < s.data.n) :
    ((s.ones flags i).map (OneInterval.gas σ)).sum = s.gasOf σ i := by
  rw [ones_eq h.vars hi, List.map_cons, List.sum_cons, list_sum_flatMap]
  show 0 + _ = _
  rw [zero_add]
  unfold Site.gasOf
  apply list_sum_congr
  intro a ha
  cases a with
  | battery c => simp only [ois_battery]; exact add_zero _
  | boiler c => show (_ : List ℚ).sum = _; exact add_zero _
  | chp c => show (_ : List ℚ).sum = _; exact add_zero _
  | heatPump c => show (_ : List ℚ).sum = _; exact add_zero _
  | renewable c => rw [ois_renewable (h.buildable hi ha)]; exact add_zero _
  | spill c => show (_ : List ℚ).sum = _; exact add_zero _
  | valve c => show (_ : List ℚ).sum = _; exact add_zero _
  | evs c =>
    apply list_sum_zero
    intro o ho
    have := (ois_name_kind ho).2
    simp only [Asset.kinds, List.mem_cons, List.not_mem_nil, or_false] at this
    cases o <;> simp_all [OneInterval.gas, OneInterval.kind]

theorem spilled_sum (h : Prog s objective flags (s.ivarsTo flags s.data.n) p) {i : Nat} (hi : i < s.data.n) :
    ((s.ones flags i).map (OneInterval.spilled σ)).sum = s.spilledOf flags σ i := by
  rw [ones_eq h.vars hi, List.map_cons, List.sum_cons, list_sum_flatMap]
  show 0 + _ = _
  rw [zero_add]
  unfold Site.spilledOf
  apply list_sum_congr
  intro a ha
  cases a with
  | battery c => simp only [ois_battery]; exact add_zero _
  | boiler c => show (_ : List ℚ).sum = _; exact add_zero _
  | chp c => show (_ : List ℚ).sum = _; exact add_zero _
  | heatPump c => show (_ : List ℚ).sum = _; exact add_zero _
  | renewable c => rw [ois_renewable (h.buildable hi ha)]; exact add_zero _
  | spill c => show (_ : List ℚ).sum = _; exact add_zero _
  | valve c => show (_ : List ℚ).sum = _; exact add_zero _
  | evs c =>
    obtain ⟨_, hrow⟩ := (h.buildable hi ha : c.Shape ∧ c.HasRow i)
    have ho : (Asset.evs c).ois i s.freq flags = (c.objs c.chargers i s.freq flags true true false).map .ev ++
        (c.objs c.spillChargers i s.freq flags false false true).map .evSpill := by
      simp only [Asset.ois, ois_evs (hrow.matOk _)]
    rw [ho, List.map_append, List.sum_append, List.map_map, List.map_map, list_sum_zero (l := c.objs c.chargers i s.freq flags true true false) (g := OneInterval.spilled σ ∘ .ev) (fun _ _ => rfl), zero_add]
    exact objs_sum (i := i) (f := s.freq) (flags := flags) (cs := false) (cd := false) (isp := true)
      (val := fun e ch => c.chargeOf flags σ i e ch.name true) (g := OneInterval.spilled σ ∘ .evSpill) (fun ev e ch k he _ => by
        show _ + _ = _
        rw [obj_charge hrow he, obj_discharge_spill, add_zero])

end

end EPL
