/-
The program of the same plant under other prices has the same constraints, and the same variables.
-/
import Verif.Proofs.Emit
import Verif.Proofs.DropRead
import Verif.Proofs.Vars
import Verif.Spec.Prices

namespace EPL

section
variable {s : Site} {flags : Flags} {q : Prices}

theorem build_prices (s : Site) (q : Prices) (flags : Flags) : (s.withPrices q).build flags = s.build flags := by
  have key : ∀ (is : List Nat) (iv : IVars) (cs : List Con), (s.withPrices q).buildLoop flags is iv cs = s.buildLoop flags is iv cs := by
    intro is
    induction is with
    | nil => intro iv cs; rfl
    | cons i is ih =>
      intro iv cs
      simp only [Site.buildLoop, ih]
      rfl
  simp only [Site.build, key]
  rfl

theorem at_prices (d : SiteData) (a b c e : List ℚ) {name : String} (hn : name ∉ priceNames) (i : Nat) :
    SiteData.at { d with electricityPrices := a, exportElectricityPrices := b, electricityCarbonIntensities := c, gasPrices := e } name i =
      d.at name i := by
  simp only [priceNames, List.mem_cons, List.not_mem_nil, or_false, not_or] at hn
  obtain ⟨n1, n2, n3, n4⟩ := hn
  have hb : ∀ x : String, name ≠ x → (name == x) = false := fun x hx => by simpa using hx
  unfold SiteData.at SiteData.dump
  simp only [List.cons_append, List.nil_append, List.lookup_cons, hb _ n1, hb _ n2, hb _ n3, hb _ n4]

theorem addTerms_prices {iv : IVars} {side : CSide} (h : side.PriceFree) (i : Nat) (divide : Bool) :
    addTerms (s.withPrices q).data iv i divide side = addTerms s.data iv i divide side := by
  unfold addTerms
  refine flatMapE_congr fun e he => ?_
  cases e with
  | num x => rfl
  | term t =>
    simp only [resolveConstraintTerm]
    congr 1
    funext vars
    refine mapE_congr fun v _ => ?_
    congr 1
    funext x
    cases hd : t.intervalData with
    | none => rfl
    | some d => simp only [Site.withPrices, at_prices s.data _ _ _ _ (h t he d hd)]

theorem customLoop_prices {iv : IVars} {c : Constraint} (h : c.PriceFree) (is : List Nat) :
    ∀ l r, customLoop (s.withPrices q).data iv c is l r = customLoop s.data iv c is l r := by
  induction is with
  | nil => intro l r; rfl
  | cons i is ih => intro l r; simp only [customLoop, addTerms_prices h.1, addTerms_prices h.2, ih]

theorem custom_prices {iv : IVars} {c : Constraint} (h : c.PriceFree) :
    addCustomConstraint (s.withPrices q).data iv c = addCustomConstraint s.data iv c := by
  unfold addCustomConstraint
  rw [customLoop_prices h]
  rfl

end

section
variable {s : Site} {flags : Flags} {q : Prices} {name name' : String} {iv iv' : IVars} {p p' : Prob}

theorem str_cons {d : SiteData} {x : Expr × List Con} (h : getObjective d iv (.str name) = .ok x) : x.2 = [] := by
  simp only [getObjective] at h
  split at h
  · simp only [bind_ok, Except.ok.injEq] at h
    obtain ⟨_, _, rfl⟩ := h
    rfl
  · split at h
    · simp only [bind_ok, Except.ok.injEq] at h
      obtain ⟨_, _, rfl⟩ := h
      rfl
    · simp at h

/-- The custom constraints do not change with the prices. -/
def Site.Unpriced (s : Site) (q : Prices) : Prop :=
  ∀ c ∈ s.constraints, ∀ iv, addCustomConstraint (s.withPrices q).data iv c = addCustomConstraint s.data iv c

theorem unpriced_of_free (hc : ∀ c ∈ s.constraints, c.PriceFree) : s.Unpriced q := fun c hm _ => custom_prices (hc c hm)

/-- No further constraints. -/
theorem prices_cons {objective : Objective} (hc : s.Unpriced q) (h : s.program objective flags = .ok (iv, p))
    (h' : (s.withPrices q).program (.str name') flags = .ok (iv', p')) : iv' = iv ∧ ∀ c ∈ p'.cons, c ∈ p.cons := by
  unfold Site.program at h h'
  simp only [build_prices, bind_ok, Prod.exists] at h h'
  obtain ⟨_, hn, iv1, cons, hb, custom, hcu, obj, objCons, hob, h⟩ := h
  obtain ⟨_, hn', iv1', cons', hb', custom', hcu', obj', objCons', hob', h'⟩ := h'
  rw [hb] at hb'
  cases hb'
  have e2 := str_cons hob'
  simp only at e2
  subst e2
  have e3 : flatMapE (addCustomConstraint (s.withPrices q).data iv1) s.constraints = flatMapE (addCustomConstraint s.data iv1) s.constraints :=
    flatMapE_congr fun c hm => hc c hm iv1
  have e4 : (s.withPrices q).constraints = s.constraints := rfl
  rw [e4, e3, hcu] at hcu'
  cases hcu'
  simp only [Except.ok.injEq, Prod.mk.injEq] at h h'
  obtain ⟨rfl, rfl⟩ := h
  obtain ⟨rfl, rfl⟩ := h'
  refine ⟨rfl, fun c hc => ?_⟩
  simp only [List.append_nil] at hc
  exact List.mem_append_left _ hc

end

/-- The energy flows of an object, and the grid flows of the site, are variables with a property. -/
structure OneInterval.Traded (P : LpVar → Prop) (o : OneInterval) : Prop where
  electricGeneration : o.base.electricGeneration.Over P
  htGeneration : o.base.htGeneration.Over P
  electricLoad : o.base.electricLoad.Over P
  htLoad : o.base.htLoad.Over P
  electricCharge : o.base.electricCharge.Over P
  electricDischarge : o.base.electricDischarge.Over P
  gasConsumption : o.base.gasConsumption.Over P
  grid : ∀ x, o = .site x → P x.importPower ∧ P x.exportPower

section
variable {P : LpVar → Prop} {iv : IVars} {d : SiteData}

theorem priceTerms_traded {i : Nat} {l : List OneInterval} (h : ∀ o ∈ l, o.Traded P) {es : List Expr}
    (he : priceTerms d i l = .ok es) : ∀ e ∈ es, e.Over P := by
  unfold priceTerms at he
  simp only [bind_ok, Except.ok.injEq] at he
  obtain ⟨p, -, x, -, g, -, rfl⟩ := he
  intro e hm
  simp only [List.mem_append] at hm
  rcases hm with (((hm | hm) | hm) | hm) | hm <;> revert e <;> refine filterMap_over fun o ho e hg => ?_ <;> have hb := h o ho <;>
    cases o <;> simp only [reduceCtorEq, Option.some.injEq] at hg <;> subst hg
  · exact .sub (.mul (.var (hb.grid _ rfl).1) _) (.mul (.var (hb.grid _ rfl).2) _)
  · exact .add (.add (.add (.mul hb.electricGeneration.toExpr _) (.mul hb.htGeneration.toExpr _)) (.mul hb.electricLoad.toExpr _))
      (.mul hb.htLoad.toExpr _)
  · exact .add (.mul hb.electricCharge.toExpr _) (.mul hb.electricDischarge.toExpr _)
  · exact .mul hb.gasConsumption.toExpr _
  · exact .mul hb.gasConsumption.toExpr _

theorem carbonSpill_traded {o : OneInterval} (hb : o.Traded P) : (carbonSpillTerm o.base).Over P :=
  .add (.add (.add (.add (.mul hb.electricGeneration.toExpr _) (.mul hb.htGeneration.toExpr _)) (.mul hb.electricLoad.toExpr _))
    (.mul hb.electricCharge.toExpr _)) (.mul hb.electricDischarge.toExpr _)

theorem carbonTerms_traded {i : Nat} {l : List OneInterval} (h : ∀ o ∈ l, o.Traded P) {es : List Expr}
    (he : carbonTerms d i l = .ok es) : ∀ e ∈ es, e.Over P := by
  unfold carbonTerms at he
  simp only [bind_ok, Except.ok.injEq] at he
  obtain ⟨p, -, rfl⟩ := he
  intro e hm
  simp only [List.mem_append] at hm
  rcases hm with (((hm | hm) | hm) | hm) | hm <;> revert e <;> refine filterMap_over fun o ho e hg => ?_ <;> have hb := h o ho <;>
    cases o <;> simp only [reduceCtorEq, Option.some.injEq] at hg <;> subst hg
  · exact .sub (.mul (.var (hb.grid _ rfl).1) _) (.mul (.var (hb.grid _ rfl).2) _)
  · exact carbonSpill_traded hb
  · exact carbonSpill_traded hb
  · exact .mul hb.gasConsumption.toExpr _
  · exact .mul hb.gasConsumption.toExpr _

theorem intervals_traded (hv : ∀ l ∈ iv, ∀ o ∈ l, o.Traded P) {g : Nat → List OneInterval → Res (List Expr)} {n : Nat} {ts : List Expr}
    (hg : ∀ i l es, (∀ o ∈ l, o.Traded P) → g i l = .ok es → ∀ e ∈ es, e.Over P)
    (h : flatMapE (fun (i : Nat) => do
      let assets ← pyIndex iv i
      g i assets) (List.range n) = .ok ts) : (Expr.sum ts).Over P := by
  refine .sum fun e he => ?_
  obtain ⟨i, _, es, h1, h2⟩ := (flatMapE_mem h).1 he
  rw [bind_ok] at h1
  obtain ⟨l, hl, h1⟩ := h1
  exact hg i l es (hv l (mem_of_index hl)) h1 e h2

/-- The price and carbon objectives only use energy flows. -/
theorem str_traded (hv : ∀ l ∈ iv, ∀ o ∈ l, o.Traded P) {name : String} {x : Expr × List Con} (h : getObjective d iv (.str name) = .ok x) :
    x.1.Over P := by
  simp only [getObjective] at h
  split at h
  · simp only [bind_ok, Except.ok.injEq, priceObjective] at h
    obtain ⟨_, ⟨ts, hts, rfl⟩, rfl⟩ := h
    exact intervals_traded hv (g := priceTerms d) (fun i l es hl he => priceTerms_traded hl he) hts
  · split at h
    · simp only [bind_ok, Except.ok.injEq, carbonObjective] at h
      obtain ⟨_, ⟨ts, hts, rfl⟩, rfl⟩ := h
      exact intervals_traded hv (g := carbonTerms d) (fun i l es hl he => carbonTerms_traded hl he) hts
    · simp at h

end

section
variable {s : Site} {flags : Flags} {objective : Objective} {q : Prices} {name name' : String} {iv iv' : IVars} {p p' : Prob}

/-- Every energy flow is a variable of the program. -/
theorem ones_traded (hp : Prog s objective flags (s.ivarsTo flags s.data.n) p) (hg : ∀ a ∈ s.assets, a.GasTied) :
    ∀ l ∈ s.ivarsTo flags s.data.n, ∀ o ∈ l, o.Traded (· ∈ p.vars) := by
  intro l hl o ho
  simp only [Site.ivarsTo, List.mem_map, List.mem_range] at hl
  obtain ⟨i, hi, rfl⟩ := hl
  have key := fun v => base_known (v := v) hp hi ho
  have hgas : o.base.gasConsumption.Over (· ∈ p.vars) := by
    rw [ones_eq hp.vars hi, List.mem_cons, List.mem_flatMap] at ho
    rcases ho with rfl | ⟨a, ha, hx⟩
    · simp [OneInterval.base, Val.Over]
    · have hga : a.GasLinked := hg a ha
      have hk := fun at_ h => attr_known hp hi ha hga hx (attr := at_) h
      cases o <;> simp only [OneInterval.base, Val.Over]
      · obtain ⟨v, h1, h2, _⟩ := hk "gas_consumption_mwh" (by simp [OneInterval.kind, Kind.cols, boilerCols, chpCols])
        simp [OneInterval.getattr, OneInterval.base, Base.get?] at h1
        subst h1
        exact h2
      · obtain ⟨v, h1, h2, _⟩ := hk "gas_consumption_mwh" (by simp [OneInterval.kind, Kind.cols, boilerCols, chpCols])
        simp [OneInterval.getattr, OneInterval.base, Base.get?] at h1
        subst h1
        exact h2
  have lift : ∀ {x : Val}, (∀ v, x = .var v → v ∈ p.vars) → x.Over (· ∈ p.vars) := by
    intro x hx
    cases x with
    | var v => exact hx v rfl
    | _ => trivial
  refine ⟨lift fun v h => key v (.inl h), lift fun v h => key v (by simp [h]), lift fun v h => key v (by simp [h]),
    lift fun v h => key v (by simp [h]), lift fun v h => key v (by simp [h]), lift fun v h => key v (by simp [h]), hgas, ?_⟩
  rintro x rfl
  rw [ones_eq hp.vars hi, List.mem_cons, List.mem_flatMap] at ho
  rcases ho with ho | ⟨a, ha, hx⟩
  · simp only [OneInterval.site.injEq] at ho
    subst ho
    exact site_known hp hi
  · exact absurd (ois_name_kind hx).2 (by cases a <;> simp [OneInterval.kind, Asset.kinds])

/-- An answer for any objective is an answer for price and carbon, whatever the prices. -/
theorem prices_feasible (hc : s.Unpriced q) (hg : ∀ a ∈ s.assets, a.GasTied)
    (h : s.program objective flags = .ok (iv, p)) (h' : (s.withPrices q).program (.str name') flags = .ok (iv', p')) {σ : Assign}
    (hf : p.Feasible σ) : p'.Feasible σ := by
  obtain ⟨rfl, e⟩ := prices_cons hc h h'
  have hp := program_spec h
  have hp' := program_spec h'
  have hiv := hp.iv_eq
  subst hiv
  have hv := ones_traded hp hg
  obtain ⟨_, _, _, _, _, ho, _⟩ := hp'.built
  have ho2 := str_traded hv ho
  refine ⟨fun c hc => hf.1 c (e c hc), fun v hv => ?_⟩
  rcases prob_vars_iff.1 hv with ⟨c, hc, hv⟩ | hv
  · exact hf.2 v (prob_vars_iff.2 (.inl ⟨c, e c hc, hv⟩))
  · exact hf.2 v (ho2 v hv)

end

end EPL
