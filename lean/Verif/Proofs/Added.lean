/-
The price and carbon objectives term by term, and feasible answers built asset by asset.
-/
import Verif.Proofs.Rest
import Verif.Props.Objectives

namespace EPL

/-! ### The terms of price and carbon -/

/-- The terms of one object in the price objective. -/
def priceTermsOf (d : SiteData) (i : Nat) : OneInterval → List Expr
  | .site s => [Expr.var s.importPower * d.electricityPrices.getD i 0 - Expr.var s.exportPower * d.exportElectricityPrices.getD i 0]
  | .spill s => [(OneInterval.spill s).base.electricGeneration.toExpr * Defaults.spillObjectivePenalty +
      (OneInterval.spill s).base.htGeneration.toExpr * Defaults.spillObjectivePenalty +
      (OneInterval.spill s).base.electricLoad.toExpr * Defaults.spillObjectivePenalty +
      (OneInterval.spill s).base.htLoad.toExpr * Defaults.spillObjectivePenalty]
  | .evSpill e => [(OneInterval.evSpill e).base.electricCharge.toExpr * Defaults.spillObjectivePenalty +
      (OneInterval.evSpill e).base.electricDischarge.toExpr * Defaults.spillObjectivePenalty]
  | .chp c => [Expr.var c.gas * d.gasPrices.getD i 0]
  | .boiler b => [Expr.var b.gas * d.gasPrices.getD i 0]
  | _ => []

/-- The terms of one object in the carbon objective. -/
def carbonTermsOf (d : SiteData) (i : Nat) : OneInterval → List Expr
  | .site s => [Expr.var s.importPower * d.electricityCarbonIntensities.getD i 0 - Expr.var s.exportPower * d.electricityCarbonIntensities.getD i 0]
  | .spill s => [carbonSpillTerm (OneInterval.spill s).base]
  | .evSpill e => [carbonSpillTerm (OneInterval.evSpill e).base]
  | .chp c => [Expr.var c.gas * Defaults.gasCarbonIntensity]
  | .boiler b => [Expr.var b.gas * Defaults.gasCarbonIntensity]
  | _ => []

theorem priceTerms_mem {d : SiteData} {i : Nat} {l : List OneInterval} {es : List Expr} (h : priceTerms d i l = .ok es) (e : Expr) :
    e ∈ es ↔ ∃ o ∈ l, e ∈ priceTermsOf d i o := by
  simp only [priceTerms, bind_ok, pyIndex_nat, Except.ok.injEq] at h
  obtain ⟨p, hp, x, hx, g, hg, rfl⟩ := h
  have e1 : d.electricityPrices.getD i 0 = p := by simp [List.getD_eq_getElem?_getD, hp]
  have e2 : d.exportElectricityPrices.getD i 0 = x := by simp [List.getD_eq_getElem?_getD, hx]
  have e3 : d.gasPrices.getD i 0 = g := by simp [List.getD_eq_getElem?_getD, hg]
  simp only [List.mem_append, List.mem_filterMap]
  constructor
  · rintro ((((⟨o, ho, h⟩ | ⟨o, ho, h⟩) | ⟨o, ho, h⟩) | ⟨o, ho, h⟩) | ⟨o, ho, h⟩) <;> refine ⟨o, ho, ?_⟩ <;> cases o <;>
      simp_all [priceTermsOf]
  · rintro ⟨o, ho, h⟩
    cases o with
    | site s => exact .inl (.inl (.inl (.inl ⟨_, ho, by simp_all [priceTermsOf]⟩)))
    | spill s => exact .inl (.inl (.inl (.inr ⟨_, ho, by simp_all [priceTermsOf]⟩)))
    | evSpill s => exact .inl (.inl (.inr ⟨_, ho, by simp_all [priceTermsOf]⟩))
    | chp s => exact .inl (.inr ⟨_, ho, by simp_all [priceTermsOf]⟩)
    | boiler s => exact .inr ⟨_, ho, by simp_all [priceTermsOf]⟩
    | _ => simp [priceTermsOf] at h

theorem carbonTerms_mem {d : SiteData} {i : Nat} {l : List OneInterval} {es : List Expr} (h : carbonTerms d i l = .ok es) (e : Expr) :
    e ∈ es ↔ ∃ o ∈ l, e ∈ carbonTermsOf d i o := by
  simp only [carbonTerms, bind_ok, pyIndex_nat, Except.ok.injEq] at h
  obtain ⟨p, hp, rfl⟩ := h
  have e1 : d.electricityCarbonIntensities.getD i 0 = p := by simp [List.getD_eq_getElem?_getD, hp]
  simp only [List.mem_append, List.mem_filterMap]
  constructor
  · rintro ((((⟨o, ho, h⟩ | ⟨o, ho, h⟩) | ⟨o, ho, h⟩) | ⟨o, ho, h⟩) | ⟨o, ho, h⟩) <;> refine ⟨o, ho, ?_⟩ <;> cases o <;>
      simp_all [carbonTermsOf]
  · rintro ⟨o, ho, h⟩
    cases o with
    | site s => exact .inl (.inl (.inl (.inl ⟨_, ho, by simp_all [carbonTermsOf]⟩)))
    | spill s => exact .inl (.inl (.inl (.inr ⟨_, ho, by simp_all [carbonTermsOf]⟩)))
    | evSpill s => exact .inl (.inl (.inr ⟨_, ho, by simp_all [carbonTermsOf]⟩))
    | chp s => exact .inl (.inr ⟨_, ho, by simp_all [carbonTermsOf]⟩)
    | boiler s => exact .inr ⟨_, ho, by simp_all [carbonTermsOf]⟩
    | _ => simp [carbonTermsOf] at h

/-- The terms of one object in a named objective. -/
def strTermsOf (d : SiteData) (name : String) (i : Nat) (o : OneInterval) : List Expr :=
  if name = "price" then priceTermsOf d i o else carbonTermsOf d i o

theorem strTerms_over {d : SiteData} {name : String} {i : Nat} {o : OneInterval} {P : LpVar → Prop} (hk : o.kind ≠ .site) (h : o.base.AllOver P) :
    ∀ t ∈ strTermsOf d name i o, t.Over P := by
  intro t ht
  have z : ∀ (v : Val) (q : ℚ), v.Over P → (v.toExpr * q).Over P := fun v q hv => .mul hv.toExpr q
  unfold strTermsOf at ht
  split at ht
  · cases o <;> simp only [priceTermsOf, List.mem_singleton, List.not_mem_nil] at ht
    · exact absurd rfl hk
    · exact ht ▸ z _ _ h.gasConsumption
    · exact ht ▸ z _ _ h.gasConsumption
    · exact ht ▸ .add (z _ _ h.electricCharge) (z _ _ h.electricDischarge)
    · exact ht ▸ .add (.add (.add (z _ _ h.electricGeneration) (z _ _ h.htGeneration)) (z _ _ h.electricLoad)) (z _ _ h.htLoad)
  · cases o <;> simp only [carbonTermsOf, carbonSpillTerm, List.mem_singleton, List.not_mem_nil] at ht
    · exact absurd rfl hk
    · exact ht ▸ z _ _ h.gasConsumption
    · exact ht ▸ z _ _ h.gasConsumption
    · exact ht ▸ .add (.add (.add (.add (z _ _ h.electricGeneration) (z _ _ h.htGeneration)) (z _ _ h.electricLoad)) (z _ _ h.electricCharge))
        (z _ _ h.electricDischarge)
    · exact ht ▸ .add (.add (.add (.add (z _ _ h.electricGeneration) (z _ _ h.htGeneration)) (z _ _ h.electricLoad)) (z _ _ h.electricCharge))
        (z _ _ h.electricDischarge)

/-- A named objective adds no constraints, and its variables are those of its terms. -/
theorem str_objective {d : SiteData} {iv : IVars} {name : String} {e : Expr} {cons : List Con} (h : getObjective d iv (.str name) = .ok (e, cons)) :
    cons = [] ∧ ∀ v, v ∈ e.vars ↔ ∃ i < d.n, ∃ o ∈ iv.getD i [], ∃ t ∈ strTermsOf d name i o, v ∈ t.vars := by
  have key : ∀ (F : SiteData → Nat → List OneInterval → Res (List Expr)) (T : Nat → OneInterval → List Expr) (ts : List Expr),
      (∀ i l es, F d i l = .ok es → ∀ e, e ∈ es ↔ ∃ o ∈ l, e ∈ T i o) →
      flatMapE (fun (i : Nat) => do
        let assets ← pyIndex iv i
        F d i assets) (List.range d.n) = .ok ts →
      ∀ v, v ∈ (Expr.sum ts).vars ↔ ∃ i < d.n, ∃ o ∈ iv.getD i [], ∃ t ∈ T i o, v ∈ t.vars := by
    intro F T ts hF hts v
    rw [Expr.vars_sum, List.mem_flatMap]
    constructor
    · rintro ⟨t, ht, hv⟩
      obtain ⟨i, hi, es, hes, ht⟩ := (flatMapE_mem hts).1 ht
      rw [bind_ok] at hes
      obtain ⟨l, hl, hes⟩ := hes
      obtain ⟨o, ho, ht⟩ := (hF i l es hes t).1 ht
      refine ⟨i, List.mem_range.1 hi, o, ?_, t, ht, hv⟩
      rw [pyIndex_nat] at hl
      simpa [List.getD_eq_getElem?_getD, hl] using ho
    · rintro ⟨i, hi, o, ho, t, ht, hv⟩
      obtain ⟨es, hes⟩ := flatMapE_all_ok hts (List.mem_range.2 hi)
      refine ⟨t, (flatMapE_mem hts).2 ⟨i, List.mem_range.2 hi, es, hes, ?_⟩, hv⟩
      rw [bind_ok] at hes
      obtain ⟨l, hl, hes⟩ := hes
      rw [pyIndex_nat] at hl
      refine (hF i l es hes t).2 ⟨o, ?_, ht⟩
      simpa [List.getD_eq_getElem?_getD, hl] using ho
  simp only [getObjective] at h
  split at h
  · rename_i hn
    simp only [priceObjective, bind_ok, Except.ok.injEq, Prod.mk.injEq] at h
    obtain ⟨e', ⟨ts, hts, rfl⟩, rfl, rfl⟩ := h
    refine ⟨rfl, fun v => ?_⟩
    simp only [strTermsOf, hn, if_true]
    exact key priceTerms (priceTermsOf d) ts (fun i l es h => priceTerms_mem h) hts v
  · rename_i hn
    split at h
    · simp only [carbonObjective, bind_ok, Except.ok.injEq, Prod.mk.injEq] at h
      obtain ⟨e', ⟨ts, hts, rfl⟩, rfl, rfl⟩ := h
      refine ⟨rfl, fun v => ?_⟩
      simp only [strTermsOf, hn, if_false]
      exact key carbonTerms (carbonTermsOf d) ts (fun i l es h => carbonTerms_mem h) hts v
    · simp at h

/-- The prices of every interval exist. -/
structure SiteData.HasPrices (d : SiteData) : Prop where
  electricityPrices : d.electricityPrices.length = d.n
  exportElectricityPrices : d.exportElectricityPrices.length = d.n
  gasPrices : d.gasPrices.length = d.n
  electricityCarbonIntensities : d.electricityCarbonIntensities.length = d.n

/-- With prices for every interval, the price and carbon objectives can be built. -/
theorem str_objective_ok {d : SiteData} (h : d.HasPrices) {iv : IVars} (hl : iv.length = d.n) {name : String} (hn : name = "price" ∨ name = "carbon") :
    ∃ e, getObjective d iv (.str name) = .ok (e, []) := by
  have ix : ∀ {α : Type} (l : List α) (i : Nat), l.length = d.n → i < d.n → ∃ a, pyIndex l (i : Int) = .ok a := by
    intro α l i h hi
    exact ⟨l[i]'(h ▸ hi), pyIndex_nat.2 (by simp)⟩
  rcases hn with rfl | rfl
  · obtain ⟨ts, hts⟩ : ∃ ts, flatMapE (fun (i : Nat) => do
        let assets ← pyIndex iv i
        priceTerms d i assets) (List.range d.n) = .ok ts := by
      refine flatMapE_of_all_ok fun i hi => ?_
      rw [List.mem_range] at hi
      obtain ⟨l, hl⟩ := ix iv i hl hi
      obtain ⟨a, ha⟩ := ix _ i h.electricityPrices hi
      obtain ⟨b, hb⟩ := ix _ i h.exportElectricityPrices hi
      obtain ⟨c, hc⟩ := ix _ i h.gasPrices hi
      simp only [hl, ok_bind, priceTerms, ha, hb, hc]
      exact ⟨_, rfl⟩
    exact ⟨_, by simp only [getObjective, if_true, priceObjective, hts, ok_bind]; rfl⟩
  · obtain ⟨ts, hts⟩ : ∃ ts, flatMapE (fun (i : Nat) => do
        let assets ← pyIndex iv i
        carbonTerms d i assets) (List.range d.n) = .ok ts := by
      refine flatMapE_of_all_ok fun i hi => ?_
      rw [List.mem_range] at hi
      obtain ⟨l, hl⟩ := ix iv i hl hi
      obtain ⟨a, ha⟩ := ix _ i h.electricityCarbonIntensities hi
      simp only [hl, ok_bind, carbonTerms, ha]
      exact ⟨_, rfl⟩
    have hne : ("carbon" : String) ≠ "price" := by decide
    exact ⟨_, by simp only [getObjective, hne, if_false, if_true, carbonObjective, hts, ok_bind]; rfl⟩

/-- Conversely, a named objective that was built has those prices. -/
theorem str_objective_any {d : SiteData} {iv iv' : IVars} (hl : iv'.length = iv.length) {name : String} {e : Expr × List Con}
    (h : getObjective d iv (.str name) = .ok e) : ∃ e', getObjective d iv' (.str name) = .ok (e', []) := by
  have ix : ∀ (i : Nat) (l : List OneInterval), pyIndex iv (i : Int) = .ok l → ∃ l', pyIndex iv' (i : Int) = .ok l' := by
    intro i l h
    rw [pyIndex_nat] at h
    have hi : i < iv'.length := by rw [hl]; exact (List.getElem?_eq_some_iff.1 h).1
    exact ⟨iv'[i], pyIndex_nat.2 (by simp [hi])⟩
  simp only [getObjective] at h
  split at h
  · rename_i hn
    simp only [priceObjective, bind_ok] at h
    obtain ⟨e1, ⟨ts, hts, _⟩, _⟩ := h
    obtain ⟨ts', hts'⟩ : ∃ ts, flatMapE (fun (i : Nat) => do
        let assets ← pyIndex iv' i
        priceTerms d i assets) (List.range d.n) = .ok ts := by
      refine flatMapE_of_all_ok fun i hi => ?_
      obtain ⟨es, hes⟩ := flatMapE_all_ok hts hi
      simp only [bind_ok, priceTerms] at hes
      obtain ⟨l, hl, a, ha, b, hb, c, hc, _⟩ := hes
      obtain ⟨l', hl'⟩ := ix i l hl
      simp only [hl', ok_bind, priceTerms, ha, hb, hc]
      exact ⟨_, rfl⟩
    exact ⟨_, by simp only [getObjective, hn, if_true, priceObjective, hts', ok_bind]; rfl⟩
  · rename_i hn
    split at h
    · rename_i hn'
      simp only [carbonObjective, bind_ok] at h
      obtain ⟨e1, ⟨ts, hts, _⟩, _⟩ := h
      obtain ⟨ts', hts'⟩ : ∃ ts, flatMapE (fun (i : Nat) => do
          let assets ← pyIndex iv' i
          carbonTerms d i assets) (List.range d.n) = .ok ts := by
        refine flatMapE_of_all_ok fun i hi => ?_
        obtain ⟨es, hes⟩ := flatMapE_all_ok hts hi
        simp only [bind_ok, carbonTerms] at hes
        obtain ⟨l, hl, a, ha, _⟩ := hes
        obtain ⟨l', hl'⟩ := ix i l hl
        simp only [hl', ok_bind, carbonTerms, ha]
        exact ⟨_, rfl⟩
      exact ⟨_, by simp only [getObjective, hn, hn', if_false, if_true, carbonObjective, hts', ok_bind]; rfl⟩
    · simp at h

end EPL

namespace EPL

section
variable {s : Site} {name : String} {flags : Flags} {iv : IVars} {p : Prob} {σ τ : Assign}

/-- Without custom constraints and with a named objective, the program has the constraints of the site and its assets only. -/
theorem plain_cons (h : Prog s (.str name) flags iv p) (hc : s.constraints = []) (c : Con) : c ∈ p.cons ↔ s.BaseCon flags c := by
  obtain ⟨base, custom, objCons, hb, hcu, ho, he⟩ := h.built
  rw [hc] at hcu
  simp only [flatMapE, mapE, ok_bind, List.flatten_nil, Except.ok.injEq] at hcu
  rw [he, ← hcu, (str_objective ho).1, List.append_nil, List.append_nil, hb.mem_iff]

/-- The variables of a named objective. -/
theorem plain_obj (h : Prog s (.str name) flags iv p) (v : LpVar) :
    v ∈ p.obj.vars ↔ ∃ i < s.data.n, ∃ o ∈ s.ones flags i, ∃ t ∈ strTermsOf s.data name i o, v ∈ t.vars := by
  obtain ⟨base, custom, objCons, hb, hcu, ho, he⟩ := h.built
  rw [(str_objective ho).2 v, h.iv_eq]
  refine exists_congr fun i => and_congr_right fun hi => ?_
  have e : (s.ivarsTo flags s.data.n).getD i [] = s.ones flags i := by
    have := pyIndex_nat.1 (ivarsTo_index s flags hi)
    simp [List.getD_eq_getElem?_getD, this]
  rw [e]

/-- A program with a named objective and no custom constraints exists as soon as its parts can be built. -/
theorem plain_program (hn : (s.assets.map Asset.name).Nodup) (h0 : 0 < s.data.n) (hrow : ∀ i < s.data.n, s.data.HasRow i)
    (hbu : ∀ i < s.data.n, ∀ a ∈ s.assets, a.Buildable i) (hc : s.constraints = [])
    (ho : ∃ e, getObjective s.data (s.ivarsTo flags s.data.n) (.str name) = .ok (e, [])) :
    ∃ p, s.program (.str name) flags = .ok (s.ivarsTo flags s.data.n, p) := by
  obtain ⟨cs, hcs⟩ := build_ok (flags := flags) hn h0 hrow hbu
  obtain ⟨e, he⟩ := ho
  refine ⟨⟨cs ++ [] ++ [], e⟩, ?_⟩
  simp only [Site.program, noDup, hn, decide_true, pyAssert_true, ok_bind, hcs, hc, he]
  rfl

 
theorem val_eval_congr {x : Val} (h : x.Over (fun v => σ v.id = τ v.id)) : x.eval σ = x.eval τ := by
  cases x with
  | var v => exact h
  | _ => rfl

/-- The sum of a quantity over the site and its assets. -/
theorem ones_eval {n i : Nat} (hv : VarsOk s flags n) (hi : i < n) (q : Base → Val) :
    (sumOver q (s.ones flags i)).eval σ = (q (OneInterval.site (s.oneInterval i)).base).eval σ +
      (s.assets.map (fun a => ((a.ois i s.freq flags).map (fun o => (q o.base).eval σ)).sum)).sum := by
  rw [sumOver_eval, ones_eq hv hi, List.map_cons, List.sum_cons, list_sum_flatMap]

theorem gasOf_congr {a : Asset} {i : Nat} (h : ∀ v : VarId, v.owner = .asset a.name → σ v = τ v) : Asset.gasOf σ i a = Asset.gasOf τ i a := by
  cases a <;> first | rfl | exact h _ rfl

theorem spilledOf_congr {a : Asset} {i : Nat} (h : ∀ v : VarId, v.owner = .asset a.name → σ v = τ v) :
    Asset.spilledOf flags σ i a = Asset.spilledOf flags τ i a := by
  cases a with
  | spill c => simp only [Asset.spilledOf]; rw [h _ rfl, h _ rfl, h _ rfl]
  | evs c =>
    simp only [Asset.spilledOf]
    refine list_sum_congr fun ch _ => ?_
    unfold EvsCfg.sumEvents EvsCfg.chargeOf
    refine list_sum_congr fun e _ => ?_
    split
    · rfl
    · exact h _ rfl
  | _ => rfl

end

end EPL
