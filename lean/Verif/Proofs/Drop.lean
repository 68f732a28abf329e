/-
Removing variables from expressions and objects: what building and pricing a program does with objects some of whose variables are replaced
by zero.
-/
import Verif.Proofs.Vars
import Verif.Spec.Limit

namespace EPL

open Classical

/-! ### Loops and maps -/

theorem map_bind {α β γ : Type} (x : Res α) (g : α → β) (f : β → Res γ) : (x.map g >>= f) = (x >>= fun a => f (g a)) := by
  cases x <;> rfl

theorem bind_map {α β γ : Type} (x : Res α) (f : α → Res β) (g : β → γ) : (x >>= f).map g = (x >>= fun a => (f a).map g) := by
  cases x <;> rfl

@[simp] theorem map_ok {α β : Type} (a : α) (g : α → β) : (.ok a : Res α).map g = .ok (g a) := rfl
@[simp] theorem map_error {α β : Type} (e : Err) (g : α → β) : (.error e : Res α).map g = .error e := rfl

theorem map_eq_ok {α β : Type} {x : Res α} {g : α → β} {b : β} : x.map g = .ok b ↔ ∃ a, x = .ok a ∧ g a = b := by
  cases x <;> simp [Except.map]

theorem bind_congr_ok {α β : Type} {x : Res α} {f g : α → Res β} (h : ∀ a, x = .ok a → f a = g a) : (x >>= f) = (x >>= g) := by
  cases x with
  | error e => rfl
  | ok a => exact h a rfl

theorem mapE_natural {α α' β β' : Type} {f : α → Res β} {f' : α' → Res β'} {g : α → α'} {h : β → β'} {l : List α}
    (H : ∀ a ∈ l, f' (g a) = (f a).map h) : mapE f' (l.map g) = (mapE f l).map (List.map h) := by
  induction l with
  | nil => rfl
  | cons a l ih =>
    have h1 := H a (by simp)
    have h2 := ih fun b hb => H b (by simp [hb])
    simp only [List.map_cons, mapE, h1, h2]
    cases f a with
    | error e => rfl
    | ok b => cases mapE f l <;> rfl

theorem flatMapE_natural {α α' β β' : Type} {f : α → Res (List β)} {f' : α' → Res (List β')} {g : α → α'} {h : β → β'} {l : List α}
    (H : ∀ a ∈ l, f' (g a) = (f a).map (List.map h)) : flatMapE f' (l.map g) = (flatMapE f l).map (List.map h) := by
  unfold flatMapE
  rw [mapE_natural H]
  cases mapE f l with
  | error e => rfl
  | ok b => simp only [map_ok, ok_bind, List.map_flatten]

/-- The same loop over the same list. -/
theorem mapE_natural_id {α β β' : Type} {f : α → Res β} {f' : α → Res β'} {h : β → β'} {l : List α}
    (H : ∀ a ∈ l, f' a = (f a).map h) : mapE f' l = (mapE f l).map (List.map h) := by
  have := mapE_natural (f := f) (f' := f') (g := id) (h := h) (l := l) H
  simpa using this

theorem flatMapE_natural_id {α β β' : Type} {f : α → Res (List β)} {f' : α → Res (List β')} {h : β → β'} {l : List α}
    (H : ∀ a ∈ l, f' a = (f a).map (List.map h)) : flatMapE f' l = (flatMapE f l).map (List.map h) := by
  have := flatMapE_natural (f := f) (f' := f') (g := id) (h := h) (l := l) H
  simpa using this

theorem pyIndex_map {α β : Type} (g : α → β) (l : List α) (i : Int) : pyIndex (l.map g) i = (pyIndex l i).map g := by
  unfold pyIndex
  simp only [List.length_map, List.getElem?_map]
  generalize (if i < 0 then i + (l.length : Int) else i) = j
  by_cases h : j < 0
  · simp only [if_pos h]; rfl
  · simp only [if_neg h]
    cases l[j.toNat]? <;> rfl

/-! ### Expressions -/

section
variable (G : VarId → Prop)

/-- The expression without the variables `G`. -/
noncomputable def Expr.drop (e : Expr) : Expr := ⟨e.terms.filter (fun t => decide (¬ G t.1.id)), e.const⟩

/-- The constraint without the variables `G`. -/
noncomputable def Con.drop (c : Con) : Con := ⟨c.e.drop G, c.sense⟩

/-- Zero in place of a variable `G`. -/
noncomputable def Val.drop : Val → Val
  | .var v => if G v.id then (if v.isBinary then .int 0 else .num 0) else .var v
  | x => x

namespace Expr

@[simp] theorem drop_num (q : ℚ) : (num q).drop G = num q := rfl

@[simp] theorem drop_add (a b : Expr) : (a + b).drop G = a.drop G + b.drop G := by
  show (⟨(a.terms ++ b.terms).filter _, a.const + b.const⟩ : Expr) = ⟨a.terms.filter _ ++ b.terms.filter _, a.const + b.const⟩
  rw [List.filter_append]

theorem filter_terms (g : ℚ → ℚ) (l : List (LpVar × ℚ)) :
    (l.map (fun t => (t.1, g t.2))).filter (fun t => decide (¬ G t.1.id)) =
      (l.filter (fun t => decide (¬ G t.1.id))).map (fun t => (t.1, g t.2)) := by
  rw [List.filter_map]
  rfl

@[simp] theorem drop_sub (a b : Expr) : (a - b).drop G = a.drop G - b.drop G := by
  show Expr.drop G (Expr.sub a b) = Expr.sub (a.drop G) (b.drop G)
  simp only [Expr.sub, Expr.drop, List.filter_append, filter_terms G (fun x => -x)]

@[simp] theorem drop_neg (a : Expr) : (-a).drop G = -a.drop G := by
  show Expr.drop G (Expr.neg a) = Expr.neg (a.drop G)
  simp only [Expr.neg, filter_terms G (fun x => -x), Expr.drop]

@[simp] theorem drop_mul (a : Expr) (q : ℚ) : (a * q).drop G = a.drop G * q := by
  show (Expr.smul q a).drop G = Expr.smul q (a.drop G)
  unfold Expr.smul
  split
  · rfl
  · simp only [Expr.drop, filter_terms G (fun x => q * x)]

@[simp] theorem drop_sum (l : List Expr) : (Expr.sum l).drop G = Expr.sum (l.map (Expr.drop G)) := by
  induction l with
  | nil => rfl
  | cons a l ih => simp only [Expr.sum, List.map_cons, drop_add, ih]

@[simp] theorem drop_leC (a b : Expr) : (a.leC b).drop G = (a.drop G).leC (b.drop G) := by
  simp only [Con.drop, Expr.leC, drop_sub]
@[simp] theorem drop_eqC (a b : Expr) : (a.eqC b).drop G = (a.drop G).eqC (b.drop G) := by
  simp only [Con.drop, Expr.eqC, drop_sub]
@[simp] theorem drop_geC (a b : Expr) : (a.geC b).drop G = (a.drop G).geC (b.drop G) := by
  simp only [Con.drop, Expr.geC, drop_sub]
@[simp] theorem drop_max (a b : Expr) (q : ℚ) : (constrainMax a b q).drop G = constrainMax (a.drop G) (b.drop G) q := by
  simp only [constrainMax, drop_leC, drop_sub, drop_mul, drop_num]
@[simp] theorem drop_min (a b : Expr) (q : ℚ) : (constrainMin a b q).drop G = constrainMin (a.drop G) (b.drop G) q := by
  simp only [constrainMin, drop_leC, drop_add, drop_neg, drop_mul, drop_num]

theorem drop_kept {e : Expr} (h : e.Over (fun v => ¬ G v.id)) : e.drop G = e := by
  unfold Expr.drop
  rw [List.filter_eq_self.2]
  intro t ht
  simpa using h t.1 (List.mem_map_of_mem ht)

theorem drop_var {v : LpVar} (h : ¬ G v.id) : (var v).drop G = var v :=
  drop_kept G fun w hw => by simp at hw; subst hw; exact h

theorem mem_drop {e : Expr} {v : LpVar} : v ∈ (e.drop G).vars ↔ v ∈ e.vars ∧ ¬ G v.id := by
  simp only [Expr.vars, Expr.drop, List.mem_map, List.mem_filter, decide_eq_true_eq]
  constructor
  · rintro ⟨t, ⟨h1, h2⟩, rfl⟩
    exact ⟨⟨t, h1, rfl⟩, h2⟩
  · rintro ⟨⟨t, h1, rfl⟩, h2⟩
    exact ⟨t, ⟨h1, h2⟩, rfl⟩

theorem eval_drop {e : Expr} {σ : Assign} (h : ∀ v ∈ e.vars, G v.id → σ v.id = 0) : (e.drop G).eval σ = e.eval σ := by
  obtain ⟨terms, c⟩ := e
  simp only [Expr.eval, Expr.drop]
  congr 1
  induction terms with
  | nil => rfl
  | cons t l ih =>
    have h2 := ih fun v hv => h v (by simp only [Expr.vars, List.map_cons, List.mem_cons]; exact .inr hv)
    by_cases hg : G t.1.id
    · have h0 := h t.1 (by simp [Expr.vars]) hg
      rw [List.filter_cons_of_neg (by simpa using hg), h2]
      simp [h0]
    · rw [List.filter_cons_of_pos (by simpa using hg)]
      simp only [List.map_cons, List.sum_cons, h2]

end Expr

theorem Con.drop_kept {c : Con} (h : c.Over (fun v => ¬ G v.id)) : c.drop G = c := by
  obtain ⟨e, s⟩ := c
  simp only [Con.drop, Expr.drop_kept G h]

theorem Con.drop_holds {c : Con} {σ : Assign} (h : ∀ v ∈ c.e.vars, G v.id → σ v.id = 0) : (c.drop G).Holds σ ↔ c.Holds σ := by
  unfold Con.Holds Con.drop
  simp only [Expr.eval_drop G h]

@[simp] theorem Val.drop_toExpr (x : Val) : (x.drop G).toExpr = x.toExpr.drop G := by
  cases x with
  | var v =>
    by_cases hg : G v.id
    · have h : (Expr.var v).drop G = Expr.num 0 := by
        simp [Expr.drop, Expr.var, Expr.num, hg]
      simp only [Val.drop, if_pos hg, Val.toExpr, h]
      by_cases hb : v.isBinary
      · simp only [if_pos hb]; rfl
      · simp only [if_neg hb]
    · simp only [Val.drop, if_neg hg, Val.toExpr, Expr.drop_var G hg]
  | _ => rfl

theorem Val.drop_kept {x : Val} (h : x.Over (fun v => ¬ G v.id)) : x.drop G = x := by
  cases x with
  | var v => simp only [Val.drop]; rw [if_neg h]
  | _ => rfl

/-! ### Objects -/

/-- An EV object with zero in place of the variables `G`. -/
noncomputable def EvOI.drop (e : EvOI) : EvOI :=
  { e with
    charge := e.charge.drop G, chargeBin := e.chargeBin.drop G, discharge := e.discharge.drop G, dischargeBin := e.dischargeBin.drop G
    initialSoc := e.initialSoc.drop G, finalSoc := e.finalSoc.drop G, loss := e.loss.drop G }

/-- An object with zero in place of the variables `G`, for EV objects. -/
noncomputable def OneInterval.drop : OneInterval → OneInterval
  | .ev e => .ev (e.drop G)
  | .evSpill e => .evSpill (e.drop G)
  | x => x

/-- Reading an attribute and dropping variables commute. -/
def OneInterval.Natural (o : OneInterval) : Prop := ∀ attr, (o.drop G).getattr attr = (o.getattr attr).map (Val.drop G)

/-- The objects with zero in place of the variables `G`. -/
noncomputable def IVars.drop (iv : IVars) : IVars := iv.map (List.map (OneInterval.drop G))

/-- All objects are natural. -/
def IVars.Natural (iv : IVars) : Prop := ∀ l ∈ iv, ∀ o ∈ l, o.Natural G

theorem natural_kept {o : OneInterval} (hd : o.drop G = o) (h : o.Over (fun v => ¬ G v.id)) : o.Natural G := by
  intro attr
  rw [hd]
  cases hx : o.getattr attr with
  | error e => rfl
  | ok x => rw [map_ok, Val.drop_kept G (h attr x hx)]

theorem natural_of {o : OneInterval} (hb : ∀ attr, (o.drop G).base.get? attr = (o.base.get? attr).map (Val.drop G))
    (hx : ∀ attr, (o.drop G).extra? attr = (o.extra? attr).map (Val.drop G)) : o.Natural G := by
  intro attr
  unfold OneInterval.getattr
  rw [hb attr, hx attr]
  cases o.base.get? attr with
  | some v => rfl
  | none => cases o.extra? attr <;> rfl

theorem EvOI.get_drop (e : EvOI) (attr : String) :
    (OneInterval.ev (e.drop G)).base.get? attr = ((OneInterval.ev e).base.get? attr).map (Val.drop G) := by
  unfold Base.get?
  by_cases h1 : attr = "electric_generation_mwh"
  · rw [if_pos h1, if_pos h1]; rfl
  rw [if_neg h1, if_neg h1]
  by_cases h2 : attr = "high_temperature_generation_mwh"
  · rw [if_pos h2, if_pos h2]; rfl
  rw [if_neg h2, if_neg h2]
  by_cases h3 : attr = "low_temperature_generation_mwh"
  · rw [if_pos h3, if_pos h3]; rfl
  rw [if_neg h3, if_neg h3]
  by_cases h4 : attr = "electric_load_mwh"
  · rw [if_pos h4, if_pos h4]; rfl
  rw [if_neg h4, if_neg h4]
  by_cases h5 : attr = "high_temperature_load_mwh"
  · rw [if_pos h5, if_pos h5]; rfl
  rw [if_neg h5, if_neg h5]
  by_cases h6 : attr = "low_temperature_load_mwh"
  · rw [if_pos h6, if_pos h6]; rfl
  rw [if_neg h6, if_neg h6]
  by_cases h7 : attr = "electric_charge_mwh"
  · rw [if_pos h7, if_pos h7]; rfl
  rw [if_neg h7, if_neg h7]
  by_cases h8 : attr = "electric_discharge_mwh"
  · rw [if_pos h8, if_pos h8]; rfl
  rw [if_neg h8, if_neg h8]
  by_cases h9 : attr = "gas_consumption_mwh"
  · rw [if_pos h9, if_pos h9]; rfl
  rw [if_neg h9, if_neg h9]
  by_cases h10 : attr = "binary"
  · rw [if_pos h10, if_pos h10]; rfl
  rw [if_neg h10, if_neg h10]
  rfl

theorem EvOI.extra_drop (e : EvOI) (attr : String) :
    (OneInterval.ev (e.drop G)).extra? attr = ((OneInterval.ev e).extra? attr).map (Val.drop G) := by
  simp only [OneInterval.extra?]
  split_ifs <;> rfl

theorem natural_ev (e : EvOI) : (OneInterval.ev e).Natural G ∧ (OneInterval.evSpill e).Natural G :=
  ⟨natural_of G (fun attr => EvOI.get_drop G e attr) (fun attr => EvOI.extra_drop G e attr),
    natural_of G (fun attr => EvOI.get_drop G e attr) (fun attr => EvOI.extra_drop G e attr)⟩

theorem drop_kind (o : OneInterval) : (o.drop G).kind = o.kind := by cases o <;> rfl
theorem drop_name (o : OneInterval) : (o.drop G).name = o.name := by cases o <;> rfl

variable {G}

theorem natural_get {o : OneInterval} (h : o.Natural G) {attr : String} {v w : Val} (hv : o.getattr attr = .ok v)
    (hw : (o.drop G).getattr attr = .ok w) : w = v.drop G := by
  have := h attr
  rw [hv, hw, map_ok] at this
  exact Except.ok.inj this

/-- The quantities of an object after dropping. -/
structure Base.Dropped (G : VarId → Prop) (b b' : Base) : Prop where
  electricGeneration : b'.electricGeneration = b.electricGeneration.drop G
  htGeneration : b'.htGeneration = b.htGeneration.drop G
  ltGeneration : b'.ltGeneration = b.ltGeneration.drop G
  electricLoad : b'.electricLoad = b.electricLoad.drop G
  htLoad : b'.htLoad = b.htLoad.drop G
  ltLoad : b'.ltLoad = b.ltLoad.drop G
  electricCharge : b'.electricCharge = b.electricCharge.drop G
  electricDischarge : b'.electricDischarge = b.electricDischarge.drop G
  gasConsumption : b'.gasConsumption = b.gasConsumption.drop G

theorem OneInterval.Natural.base {o : OneInterval} (h : o.Natural G) : Base.Dropped G o.base (o.drop G).base where
  electricGeneration := natural_get h (attr := "electric_generation_mwh") rfl rfl
  htGeneration := natural_get h (attr := "high_temperature_generation_mwh") rfl rfl
  ltGeneration := natural_get h (attr := "low_temperature_generation_mwh") rfl rfl
  electricLoad := natural_get h (attr := "electric_load_mwh") rfl rfl
  htLoad := natural_get h (attr := "high_temperature_load_mwh") rfl rfl
  ltLoad := natural_get h (attr := "low_temperature_load_mwh") rfl rfl
  electricCharge := natural_get h (attr := "electric_charge_mwh") rfl rfl
  electricDischarge := natural_get h (attr := "electric_discharge_mwh") rfl rfl
  gasConsumption := natural_get h (attr := "gas_consumption_mwh") rfl rfl

theorem site_kept {s : SiteOI} (h : (OneInterval.site s).Natural G) : (Expr.var s.importPower).drop G = .var s.importPower ∧
    (Expr.var s.exportPower).drop G = .var s.exportPower := by
  have h1 := natural_get h (attr := "import_power_mwh") rfl rfl
  have h2 := natural_get h (attr := "export_power_mwh") rfl rfl
  have e1 := Val.drop_toExpr G (.var s.importPower)
  have e2 := Val.drop_toExpr G (.var s.exportPower)
  rw [← h1] at e1
  rw [← h2] at e2
  exact ⟨e1.symm, e2.symm⟩

/-! ### Filters and custom constraints -/

variable {iv : IVars}

theorem filter_drop {kind : Option Kind} {name : Option String} (l : List OneInterval) :
    (l.map (OneInterval.drop G)).filter (matchesFilter kind name) = (l.filter (matchesFilter kind name)).map (OneInterval.drop G) := by
  rw [List.filter_map]
  congr 1
  apply List.filter_congr
  intro o _
  simp only [Function.comp, matchesFilter, drop_kind, drop_name]

theorem IVars.filter_drop (i : Int) (kind : Option Kind) (name : Option String) :
    (iv.drop G).filter i kind name = (iv.filter i kind name).map (List.map (OneInterval.drop G)) := by
  unfold IVars.filter IVars.drop
  rw [pyIndex_map]
  cases pyIndex iv i with
  | error e => rfl
  | ok l => simp only [map_ok, ok_bind, EPL.filter_drop]

theorem IVars.filterStr_drop (i : Int) (kind name : Option String) :
    (iv.drop G).filterStr i kind name = (iv.filterStr i kind name).map (List.map (OneInterval.drop G)) := by
  cases kind with
  | none => exact IVars.filter_drop i none name
  | some k =>
    simp only [IVars.filterStr, bind_map]
    congr 1
    funext k
    exact IVars.filter_drop i k name

theorem mem_filter {i : Nat} {kind : Option Kind} {name : Option String} {l : List OneInterval} (h : iv.filter i kind name = .ok l)
    {o : OneInterval} (ho : o ∈ l) : ∃ l' ∈ iv, o ∈ l' := by
  simp only [IVars.filter, bind_ok, Except.ok.injEq] at h
  obtain ⟨l', h1, rfl⟩ := h
  exact ⟨l', mem_of_index h1, (List.mem_filter.1 ho).1⟩

theorem mem_filterStr {i : Nat} {kind name : Option String} {l : List OneInterval} (h : iv.filterStr i kind name = .ok l)
    {o : OneInterval} (ho : o ∈ l) : ∃ l' ∈ iv, o ∈ l' := by
  cases kind with
  | none => exact mem_filter (kind := none) h ho
  | some k =>
    simp only [IVars.filterStr, bind_ok] at h
    obtain ⟨k, _, h⟩ := h
    exact mem_filter h ho

/-- The loop that multiplies an attribute of every object by a number. -/
theorem attr_terms_drop {l : List OneInterval} (hl : ∀ o ∈ l, o.Natural G) (attr : String) (d : Res ℚ) (q : ℚ) :
    mapE (fun (v : OneInterval) => do
      let x ← v.getattr attr
      let data ← d
      (.ok (x.toExpr * data * q) : Res Expr)) (l.map (OneInterval.drop G)) =
    (mapE (fun (v : OneInterval) => do
      let x ← v.getattr attr
      let data ← d
      (.ok (x.toExpr * data * q) : Res Expr)) l).map (List.map (Expr.drop G)) := by
  apply mapE_natural
  intro o ho
  rw [hl o ho attr]
  cases o.getattr attr with
  | error e => rfl
  | ok x =>
    cases d with
    | error e => rfl
    | ok y => simp only [map_ok, ok_bind, Val.drop_toExpr, Expr.drop_mul]

variable {d : SiteData}

theorem resolve_drop (h : iv.Natural G) (i : Nat) (divide : Bool) (e : CEntry) :
    resolveConstraintTerm d (iv.drop G) i divide e = (resolveConstraintTerm d iv i divide e).map (List.map (Expr.drop G)) := by
  cases e with
  | num q => rfl
  | term t =>
    simp only [resolveConstraintTerm, IVars.filterStr_drop, map_bind, bind_map]
    apply bind_congr_ok
    intro l hl
    have hn : ∀ o ∈ l, o.Natural G := fun o ho => by
      obtain ⟨l', h1, h2⟩ := mem_filterStr hl ho
      exact h l' h1 o h2
    cases t.intervalData with
    | none => exact attr_terms_drop hn t.attr (.ok 1) t.coefficient
    | some name => exact attr_terms_drop hn t.attr (d.at name i) t.coefficient

theorem addTerms_drop (h : iv.Natural G) (i : Nat) (divide : Bool) (side : CSide) :
    addTerms d (iv.drop G) i divide side = (addTerms d iv i divide side).map (List.map (Expr.drop G)) :=
  flatMapE_natural_id fun e _ => resolve_drop h i divide e

theorem customLoop_drop (h : iv.Natural G) (c : Constraint) (is : List Nat) : ∀ l r : List Expr,
    customLoop d (iv.drop G) c is (l.map (Expr.drop G)) (r.map (Expr.drop G)) = (customLoop d iv c is l r).map
      (fun x => (x.1.map (Con.drop G), x.2.1.map (Expr.drop G), x.2.2.map (Expr.drop G))) := by
  induction is with
  | nil => intro l r; rfl
  | cons i is ih =>
    intro l r
    simp only [customLoop, addTerms_drop h]
    cases addTerms d iv i c.sumAgg c.lhs with
    | error e => rfl
    | ok a =>
      cases addTerms d iv i c.sumAgg c.rhs with
      | error e => rfl
      | ok b =>
        simp only [map_ok, ok_bind, ← List.map_append, List.length_map]
        cases pyAssert (decide (0 < (l ++ a).length)) "len(lhs) > 0" with
        | error e => rfl
        | ok u =>
          cases pyAssert (decide (0 < (r ++ b).length)) "len(rhs) > 0" with
          | error e => rfl
          | ok u =>
            simp only [ok_bind]
            split
            · exact ih _ _
            · have := ih [] []
              simp only [List.map_nil] at this
              rw [this]
              cases customLoop d iv c is [] [] with
              | error e => rfl
              | ok x => simp only [map_ok, ok_bind, List.map_cons, Con.drop, Expr.drop_sub, Expr.drop_sum]

theorem addCustom_drop (h : iv.Natural G) (c : Constraint) :
    addCustomConstraint d (iv.drop G) c = (addCustomConstraint d iv c).map (List.map (Con.drop G)) := by
  unfold addCustomConstraint
  have := customLoop_drop (d := d) h c (List.range d.n) [] []
  simp only [List.map_nil] at this
  rw [this]
  cases customLoop d iv c (List.range d.n) [] [] with
  | error e => rfl
  | ok x =>
    simp only [map_ok, ok_bind]
    split
    · simp only [map_ok, List.map_append, List.map_cons, List.map_nil, Con.drop, Expr.drop_sub, Expr.drop_sum]
    · rfl

/-! ### Objectives -/

theorem index_natural (h : iv.Natural G) {i : Nat} {l : List OneInterval} (hl : pyIndex iv (i : Int) = .ok l) : ∀ o ∈ l, o.Natural G :=
  fun o ho => h l (mem_of_index hl) o ho

theorem simpleExprs_drop (h : iv.Natural G) (t : OneTerm) :
    t.simpleExprs d (iv.drop G) = (t.simpleExprs d iv).map (List.map (Expr.drop G)) := by
  cases t with
  | simple t =>
    simp only [OneTerm.simpleExprs]
    apply flatMapE_natural_id
    intro i _
    have hs : simpleTermAssets (iv.drop G) i t = (simpleTermAssets iv i t).map (List.map (OneInterval.drop G)) := by
      unfold simpleTermAssets
      split
      · exact pyIndex_map _ _ _
      · exact IVars.filterStr_drop _ _ _
    rw [hs, map_bind, bind_map]
    apply bind_congr_ok
    intro l hl
    have hn : ∀ o ∈ l, o.Natural G := fun o ho => by
      unfold simpleTermAssets at hl
      split at hl
      · exact index_natural h hl o ho
      · obtain ⟨l', h1, h2⟩ := mem_filterStr hl ho
        exact h l' h1 o h2
    exact attr_terms_drop hn t.attr (d.factor t.intervalData i) t.coefficient
  | two => rfl
  | many => rfl

theorem filterMap_drop {l : List OneInterval} {f : OneInterval → Option Expr} (hf : ∀ o ∈ l, f (o.drop G) = (f o).map (Expr.drop G)) :
    (l.map (OneInterval.drop G)).filterMap f = (l.filterMap f).map (Expr.drop G) := by
  induction l with
  | nil => rfl
  | cons o l ih =>
    have h1 := hf o (by simp)
    have h2 := ih fun x hx => hf x (by simp [hx])
    cases hx : f o with
    | none =>
      rw [hx] at h1
      rw [List.map_cons, List.filterMap_cons_none h1, List.filterMap_cons_none hx, h2]
    | some e =>
      rw [hx] at h1
      rw [List.map_cons, List.filterMap_cons_some h1, List.filterMap_cons_some hx, h2, List.map_cons]

theorem priceTerms_drop {i : Nat} {l : List OneInterval} (hl : ∀ o ∈ l, o.Natural G) :
    priceTerms d i (l.map (OneInterval.drop G)) = (priceTerms d i l).map (List.map (Expr.drop G)) := by
  unfold priceTerms
  simp only [bind_map]
  congr 1; funext p; congr 1; funext x; congr 1; funext g
  simp only [map_ok, List.map_append]
  congr 1
  congr 1
  · congr 1
    · congr 1
      · congr 1
        · apply filterMap_drop
          intro o ho
          have hn := hl o ho
          cases o with
          | site s => simp only [OneInterval.drop, Option.map_some, Expr.drop_sub, Expr.drop_mul, (site_kept hn).1, (site_kept hn).2]
          | _ => rfl
        · apply filterMap_drop
          intro o ho
          have hb := (hl o ho).base
          cases o with
          | spill s =>
            simp only [OneInterval.drop, Option.map_some, Expr.drop_add, Expr.drop_mul, ← Val.drop_toExpr] at hb ⊢
            rw [← hb.electricGeneration, ← hb.htGeneration, ← hb.electricLoad, ← hb.htLoad]
          | _ => rfl
      · apply filterMap_drop
        intro o ho
        have hb := (hl o ho).base
        cases o with
        | evSpill s =>
          simp only [OneInterval.drop, Option.map_some, Expr.drop_add, Expr.drop_mul, ← Val.drop_toExpr] at hb ⊢
          rw [← hb.electricCharge, ← hb.electricDischarge]
        | _ => rfl
    · apply filterMap_drop
      intro o ho
      have hb := (hl o ho).base.gasConsumption
      cases o with
      | chp s =>
        have := congrArg Val.toExpr hb
        rw [Val.drop_toExpr] at this
        simp only [OneInterval.drop, Option.map_some, Expr.drop_mul]
        rw [show (Expr.var s.gas).drop G = Expr.var s.gas from this.symm]
      | _ => rfl
  · apply filterMap_drop
    intro o ho
    have hb := (hl o ho).base.gasConsumption
    cases o with
    | boiler s =>
      have := congrArg Val.toExpr hb
      rw [Val.drop_toExpr] at this
      simp only [OneInterval.drop, Option.map_some, Expr.drop_mul]
      rw [show (Expr.var s.gas).drop G = Expr.var s.gas from this.symm]
    | _ => rfl

theorem carbonSpill_drop {b b' : Base} (hb : Base.Dropped G b b') : carbonSpillTerm b' = (carbonSpillTerm b).drop G := by
  unfold carbonSpillTerm
  simp only [Expr.drop_add, Expr.drop_mul, ← Val.drop_toExpr, ← hb.electricGeneration, ← hb.htGeneration, ← hb.electricLoad,
    ← hb.electricCharge, ← hb.electricDischarge]

theorem carbonTerms_drop {i : Nat} {l : List OneInterval} (hl : ∀ o ∈ l, o.Natural G) :
    carbonTerms d i (l.map (OneInterval.drop G)) = (carbonTerms d i l).map (List.map (Expr.drop G)) := by
  unfold carbonTerms
  simp only [bind_map]
  congr 1; funext p
  simp only [map_ok, List.map_append]
  congr 1
  congr 1
  · congr 1
    · congr 1
      · congr 1
        · apply filterMap_drop
          intro o ho
          have hn := hl o ho
          cases o with
          | site s => simp only [OneInterval.drop, Option.map_some, Expr.drop_sub, Expr.drop_mul, (site_kept hn).1, (site_kept hn).2]
          | _ => rfl
        · apply filterMap_drop
          intro o ho
          have hb := (hl o ho).base
          cases o with
          | spill s => exact congrArg some (carbonSpill_drop hb)
          | _ => rfl
      · apply filterMap_drop
        intro o ho
        have hb := (hl o ho).base
        cases o with
        | evSpill s => exact congrArg some (carbonSpill_drop hb)
        | _ => rfl
    · apply filterMap_drop
      intro o ho
      have hb := (hl o ho).base.gasConsumption
      cases o with
      | chp s =>
        have := congrArg Val.toExpr hb
        rw [Val.drop_toExpr] at this
        simp only [OneInterval.drop, Option.map_some, Expr.drop_mul]
        rw [show (Expr.var s.gas).drop G = Expr.var s.gas from this.symm]
      | _ => rfl
  · apply filterMap_drop
    intro o ho
    have hb := (hl o ho).base.gasConsumption
    cases o with
    | boiler s =>
      have := congrArg Val.toExpr hb
      rw [Val.drop_toExpr] at this
      simp only [OneInterval.drop, Option.map_some, Expr.drop_mul]
      rw [show (Expr.var s.gas).drop G = Expr.var s.gas from this.symm]
    | _ => rfl

/-! ### Objectives with min and max terms -/

/-- What dropping variables from objects needs to know about them. -/
structure IVars.Droppable (G : VarId → Prop) (iv : IVars) : Prop where
  natural : iv.Natural G
  aux : ∀ name k, ¬ G (.aux name k)
  low : ∀ l ∈ iv, ∀ o ∈ l, o.Over (fun v => G v.id → v.low = some 0)
  site : ∀ l ∈ iv, ∃ x rest, l = .site x :: rest ∧ (OneInterval.site x).Over (fun v => ¬ G v.id)

theorem Val.drop_isNone (x : Val) : (x.drop G).isNone = x.isNone := by
  cases x with
  | var v =>
    by_cases hg : G v.id
    · by_cases hb : v.isBinary <;> simp [Val.drop, hg, hb, Val.isNone]
    · simp [Val.drop, hg]
  | _ => rfl

theorem assertNonNegative_drop {x : Val} (h : x.Over (fun v => G v.id → v.low = some 0)) :
    assertNonNegative (x.drop G) = assertNonNegative x := by
  cases x with
  | var v =>
    by_cases hg : G v.id
    · have hl : v.low = some 0 := h hg
      by_cases hb : v.isBinary <;> simp [Val.drop, hg, hb, assertNonNegative, hl]
    · simp [Val.drop, hg]
  | _ => rfl

theorem mapE_congr {α β : Type} {f g : α → Res β} {l : List α} (h : ∀ a ∈ l, f a = g a) : mapE f l = mapE g l := by
  induction l with
  | nil => rfl
  | cons a l ih => simp only [mapE, h a (by simp), ih fun b hb => h b (by simp [hb])]

/-- A cost term with its constraints, after dropping. -/
noncomputable def pairDrop (G : VarId → Prop) (x : Expr × List Con) : Expr × List Con := (x.1.drop G, x.2.map (Con.drop G))

theorem aux_kept (ha : ∀ name k, ¬ G (.aux name k)) (name : String) (k : Nat) (v : LpVar) (hv : v.id = .aux name k) :
    (Expr.var v).drop G = .var v := Expr.drop_var G (by rw [hv]; exact ha name k)

theorem minMany_drop (ha : ∀ name k, ¬ G (.aux name k)) {xs : List Val} (hx : ∀ x ∈ xs, x.Over (fun v => G v.id → v.low = some 0))
    (name : String) (serial : Nat) (M : ℚ) :
    minManyVariables name serial (xs.map (Val.drop G)) M =
      (minManyVariables name serial xs M).map (fun x => (x.1, x.2.map (Con.drop G))) := by
  have h1 : mapE assertNonNegative (xs.map (Val.drop G)) = mapE assertNonNegative xs := by
    have := mapE_natural (f := assertNonNegative) (f' := assertNonNegative) (g := Val.drop G) (h := id) (l := xs)
      fun x hxx => by
        rw [assertNonNegative_drop (hx x hxx)]
        cases assertNonNegative x <;> rfl
    rw [this]
    cases mapE assertNonNegative xs <;> simp
  have hcv := aux_kept ha (name ++ "-continuous") serial (continuous (.aux (name ++ "-continuous") serial) none none) rfl
  have hb : ∀ i, (Expr.var (manyBinary name serial i)).drop G = .var (manyBinary name serial i) := fun i =>
    aux_kept ha _ serial (manyBinary name serial i) rfl
  unfold minManyVariables
  rw [h1]
  cases pyAssert (pyIn "min_many" name) "min_many in name" with
  | error e => rfl
  | ok u =>
    cases mapE assertNonNegative xs with
    | error e => rfl
    | ok u =>
      simp only [ok_bind, map_ok]
      congr 2
      rw [List.map_append, List.length_map]
      congr 1
      · rw [List.zipIdx_map, List.flatMap_map, List.map_flatMap]
        congr 1
        funext p
        simp only [List.map_cons, List.map_nil, Expr.drop_leC, Expr.drop_sub, Expr.drop_mul, hcv, hb, Prod.map, id, Val.drop_toExpr]
      · simp only [List.map_cons, List.map_nil, Expr.drop_leC, Expr.drop_sum, List.map_map, Expr.drop_num]
        congr 4
        funext i
        exact (hb i).symm

theorem minTwo_kept (ha : ∀ name k, ¬ G (.aux name k)) {a b : Val} (h1 : a.toExpr.drop G = a.toExpr) (h2 : b.toExpr.drop G = b.toExpr)
    (name : String) (serial : Nat) (M : ℚ) :
    minTwoVariables name serial a b M = (minTwoVariables name serial a b M).map (fun x => (x.1, x.2.map (Con.drop G))) := by
  have hcv := aux_kept ha (name ++ "-continuous") serial (continuous (.aux (name ++ "-continuous") serial) none none) rfl
  have hb := aux_kept ha (name ++ "-binary") serial (binary (.aux (name ++ "-binary") serial)) rfl
  unfold minTwoVariables
  cases pyAssert (!(a.isFloat && b.isFloat)) "not isinstance(b, float)" with
  | error e => rfl
  | ok u =>
    cases pyAssert (pyIn "min" name) "min in name" with
    | error e => rfl
    | ok u =>
      simp only [ok_bind]
      split
      · rfl
      · simp only [map_ok, List.map_cons, List.map_nil, Expr.drop_geC, Expr.drop_sub, Expr.drop_mul, Expr.drop_num, h1, h2, hcv, hb]

theorem maxTwo_kept (ha : ∀ name k, ¬ G (.aux name k)) {a b : Val} (h1 : a.toExpr.drop G = a.toExpr) (h2 : b.toExpr.drop G = b.toExpr)
    (name : String) (serial : Nat) (M : ℚ) :
    maxTwoVariables name serial a b M = (maxTwoVariables name serial a b M).map (fun x => (x.1, x.2.map (Con.drop G))) := by
  have hcv := aux_kept ha (name ++ "-continuous") serial (continuous (.aux (name ++ "-continuous") serial) none none) rfl
  have hb := aux_kept ha (name ++ "-binary") serial (binary (.aux (name ++ "-binary") serial)) rfl
  unfold maxTwoVariables
  cases pyAssert (!(a.isFloat && b.isFloat)) "not isinstance(b, float)" with
  | error e => rfl
  | ok u =>
    cases pyAssert (pyIn "max" name) "max in name" with
    | error e => rfl
    | ok u =>
      simp only [ok_bind]
      split
      · rfl
      · simp only [map_ok, List.map_cons, List.map_nil, Expr.drop_geC, Expr.drop_add, Expr.drop_sub, Expr.drop_mul, Expr.drop_num, h1, h2,
          hcv, hb]

theorem resolveOperand_drop (h : iv.Droppable G) (i : Nat) {a : TermOrFloat} (hc : a.check = .ok ()) :
    a.resolve (iv.drop G) i = a.resolve iv i ∧ ∀ x, a.resolve iv i = .ok x → x.toExpr.drop G = x.toExpr := by
  cases a with
  | float q =>
    refine ⟨rfl, fun x hx => ?_⟩
    cases hx
    rfl
  | term t =>
    simp only [TermOrFloat.check, bind_ok, pyAssert_ok, exists_const, Bool.or_eq_true, beq_iff_eq] at hc
    have hf : ∀ l, pyIndex iv (i : Int) = .ok l → ∃ x rest, l.filter (matchesFilter none t.assetName) = .site x :: rest ∧
        (OneInterval.site x).Over (fun v => ¬ G v.id) := by
      intro l hl
      obtain ⟨x, rest, rfl, hk⟩ := h.site l (mem_of_index hl)
      refine ⟨x, rest.filter (matchesFilter none t.assetName), ?_, hk⟩
      rw [List.filter_cons_of_pos]
      rcases hc.2.1 with h1 | h1 <;> rw [h1] <;> rfl
    have h0 : ∀ l, (iv.filterStr i none t.assetName : Res (List OneInterval)) = .ok l → ∃ x rest, l = .site x :: rest ∧
        (OneInterval.site x).Over (fun v => ¬ G v.id) := by
      intro l hl
      have hl : iv.filter i none t.assetName = .ok l := hl
      simp only [IVars.filter, bind_ok, Except.ok.injEq] at hl
      obtain ⟨l', h1, rfl⟩ := hl
      exact hf l' h1
    simp only [TermOrFloat.resolve, IVars.filterStr_drop]
    cases hl : (iv.filterStr i none t.assetName : Res (List OneInterval)) with
    | error e => exact ⟨rfl, fun x hx => by cases hx⟩
    | ok l =>
      obtain ⟨x, rest, rfl, hk⟩ := h0 l hl
      refine ⟨rfl, fun v hv => ?_⟩
      have hv : (OneInterval.site x).getattr t.attr = .ok v := hv
      rw [← Val.drop_toExpr, Val.drop_kept G (hk t.attr v hv)]

theorem twoExprs_drop (h : iv.Droppable G) (t : OneTerm) (serial : Nat) :
    t.twoExprs d (iv.drop G) serial = (t.twoExprs d iv serial).map (List.map (pairDrop G)) := by
  cases t with
  | simple t => rfl
  | many function v M constant coefficient =>
    simp only [OneTerm.twoExprs]
    split <;> rfl
  | two function a b M data coefficient =>
    simp only [OneTerm.twoExprs]
    split
    · apply mapE_natural_id
      intro i _
      cases hca : a.check with
      | error e => rfl
      | ok u =>
        cases hcb : b.check with
        | error e => rfl
        | ok u =>
          obtain ⟨ea, ka⟩ := resolveOperand_drop h i hca
          obtain ⟨eb, kb⟩ := resolveOperand_drop h i hcb
          simp only [ok_bind, ea, eb]
          cases hxa : a.resolve iv i with
          | error e => rfl
          | ok x =>
            cases hxb : b.resolve iv i with
            | error e => rfl
            | ok y =>
              have h1 := ka x hxa
              have h2 := kb y hxb
              simp only [ok_bind]
              have hm : ∀ (r : Res (LpVar × List Con)), (r = r.map (fun x => (x.1, x.2.map (Con.drop G)))) →
                  (∀ z, r = .ok z → (Expr.var z.1).drop G = .var z.1) →
                  (r >>= fun z => d.factor data i >>= fun f => (.ok (Expr.var z.1 * f * coefficient, z.2) : Res (Expr × List Con))) =
                  (r >>= fun z => d.factor data i >>= fun f =>
                    (.ok (Expr.var z.1 * f * coefficient, z.2) : Res (Expr × List Con))).map (pairDrop G) := by
                intro r hr hv
                cases r with
                | error e => rfl
                | ok z =>
                  rw [map_ok] at hr
                  have hz : z.2.map (Con.drop G) = z.2 := (congrArg Prod.snd (Except.ok.inj hr)).symm
                  have hv := hv z rfl
                  simp only [ok_bind]
                  cases d.factor data i with
                  | error e => rfl
                  | ok f => simp only [ok_bind, map_ok, pairDrop, Expr.drop_mul, hv, hz]
              have hmin := minTwo_kept h.aux h1 h2 (twoName function i a b) serial M
              have hmax := maxTwo_kept h.aux h1 h2 (twoName function i a b) serial M
              have vmin : ∀ z, minTwoVariables (twoName function i a b) serial x y M = .ok z → (Expr.var z.1).drop G = .var z.1 := by
                intro z hz
                simp only [minTwoVariables, bind_ok] at hz
                obtain ⟨_, _, _, _, hz⟩ := hz
                split at hz
                · cases hz
                · cases hz
                  exact aux_kept h.aux _ serial _ rfl
              have vmax : ∀ z, maxTwoVariables (twoName function i a b) serial x y M = .ok z → (Expr.var z.1).drop G = .var z.1 := by
                intro z hz
                simp only [maxTwoVariables, bind_ok] at hz
                obtain ⟨_, _, _, _, hz⟩ := hz
                split at hz
                · cases hz
                · cases hz
                  exact aux_kept h.aux _ serial _ rfl
              split
              · exact hm _ hmax vmax
              · exact hm _ hmin vmin
    · rfl

theorem filterAll_drop (kind : Option Kind) (name : Option String) :
    (iv.drop G).filterAll kind name = (iv.filterAll kind name).map (List.map (OneInterval.drop G)) := by
  unfold IVars.filterAll IVars.drop
  rw [List.map_map, List.map_map]
  apply List.map_congr_left
  intro l _
  exact EPL.filter_drop l

theorem filterAllStr_drop (kind name : Option String) :
    (iv.drop G).filterAllStr kind name = (iv.filterAllStr kind name).map (List.map (List.map (OneInterval.drop G))) := by
  cases iv with
  | nil => rfl
  | cons l iv =>
    cases kind with
    | none => exact congrArg Except.ok (filterAll_drop (iv := l :: iv) none name)
    | some k =>
      show (typeMapper k >>= fun k => (.ok ((IVars.drop G (l :: iv)).filterAll k name) : Res (List (List OneInterval)))) = _
      simp only [IVars.filterAllStr, bind_map]
      congr 1
      funext k
      exact congrArg Except.ok (filterAll_drop (iv := l :: iv) k name)

theorem mem_filterAllStr {kind name : Option String} {ls : List (List OneInterval)} (h : iv.filterAllStr kind name = .ok ls)
    {o : OneInterval} (ho : o ∈ ls.flatten) : ∃ l' ∈ iv, o ∈ l' := by
  have key : ∀ k, ls = iv.filterAll k name → ∃ l' ∈ iv, o ∈ l' := by
    rintro k rfl
    obtain ⟨l, hl, ho⟩ := List.mem_flatten.1 ho
    obtain ⟨l', h1, rfl⟩ := List.mem_map.1 hl
    exact ⟨l', h1, (List.mem_filter.1 ho).1⟩
  cases iv with
  | nil =>
    cases h
    simp at ho
  | cons l iv =>
    cases kind with
    | none => exact key none (Except.ok.inj h).symm
    | some k =>
      simp only [IVars.filterAllStr, bind_ok, Except.ok.injEq] at h
      obtain ⟨k, _, rfl⟩ := h
      exact key k rfl

theorem manyOperands_drop (h : iv.Droppable G) (v : Term) (constant : ℚ) :
    manyOperands (iv.drop G) v constant = (manyOperands iv v constant).map (List.map (Val.drop G)) ∧
      ∀ xs, manyOperands iv v constant = .ok xs → ∀ x ∈ xs, x.Over (fun v => G v.id → v.low = some 0) := by
  unfold manyOperands
  have key : ∀ kind name,
      ((iv.drop G).filterAllStr kind name >>= fun assets =>
        mapE (fun (a : OneInterval) => a.getattr v.attr) assets.flatten >>= fun vals =>
          (.ok (vals.filter (fun x => !x.isNone) ++ [.num constant]) : Res (List Val))) =
      (iv.filterAllStr kind name >>= fun assets =>
        mapE (fun (a : OneInterval) => a.getattr v.attr) assets.flatten >>= fun vals =>
          (.ok (vals.filter (fun x => !x.isNone) ++ [.num constant]) : Res (List Val))).map (List.map (Val.drop G)) ∧
      ∀ xs, (iv.filterAllStr kind name >>= fun assets =>
        mapE (fun (a : OneInterval) => a.getattr v.attr) assets.flatten >>= fun vals =>
          (.ok (vals.filter (fun x => !x.isNone) ++ [.num constant]) : Res (List Val))) = .ok xs →
        ∀ x ∈ xs, x.Over (fun v => G v.id → v.low = some 0) := by
    intro kind name
    rw [filterAllStr_drop]
    cases hl : iv.filterAllStr kind name with
    | error e => exact ⟨rfl, fun xs hx => by cases hx⟩
    | ok ls =>
      have hm : ∀ o ∈ ls.flatten, ∃ l' ∈ iv, o ∈ l' := fun o ho => mem_filterAllStr hl ho
      simp only [map_ok, ok_bind, ← List.map_flatten]
      have hn : mapE (fun (a : OneInterval) => a.getattr v.attr) (ls.flatten.map (OneInterval.drop G)) =
          (mapE (fun (a : OneInterval) => a.getattr v.attr) ls.flatten).map (List.map (Val.drop G)) :=
        mapE_natural fun o ho => by
          obtain ⟨l', h1, h2⟩ := hm o ho
          exact h.natural l' h1 o h2 v.attr
      rw [hn]
      cases hv : mapE (fun (a : OneInterval) => a.getattr v.attr) ls.flatten with
      | error e => exact ⟨rfl, fun xs hx => by cases hx⟩
      | ok vals =>
        simp only [map_ok, ok_bind, Except.ok.injEq]
        constructor
        · rw [List.map_append, List.filter_map]
          congr 2
          apply List.filter_congr
          intro x _
          simp only [Function.comp, Val.drop_isNone]
        · rintro xs rfl x hx
          rcases List.mem_append.1 hx with hx | hx
          · obtain ⟨o, ho, hg⟩ := (mapE_mem hv).1 (List.mem_filter.1 hx).1
            obtain ⟨l', h1, h2⟩ := hm o ho
            exact h.low l' h1 o h2 v.attr x hg
          · simp only [List.mem_singleton] at hx
            subst hx
            trivial
  split
  · exact key _ _
  · split
    · exact key _ _
    · exact key _ _

theorem manyExprs_drop (h : iv.Droppable G) {t : OneTerm} (ht : ∀ v M c k, t ≠ .many "max_many_variables" v M c k) (serial : Nat) :
    t.manyExprs (iv.drop G) serial = (t.manyExprs iv serial).map (List.map (pairDrop G)) := by
  cases t with
  | simple t => rfl
  | two function a b M data coefficient =>
    simp only [OneTerm.manyExprs]
    split <;> rfl
  | many function v M constant coefficient =>
    have hf : function ≠ "max_many_variables" := by
      rintro rfl
      exact ht _ _ _ _ rfl
    simp only [OneTerm.manyExprs, hf, false_or]
    split
    · obtain ⟨h1, h2⟩ := manyOperands_drop h v constant
      rw [h1]
      cases pyAssert (v.intervalData == none) "interval_data" with
      | error e => rfl
      | ok u =>
        simp only [ok_bind]
        cases hx : manyOperands iv v constant with
        | error e => rfl
        | ok xs =>
          simp only [map_ok, ok_bind]
          rw [minMany_drop h.aux (h2 xs hx)]
          cases hm : minManyVariables (manyName function v M constant coefficient) serial xs M with
          | error e => rfl
          | ok z =>
            have hz : (Expr.var z.1).drop G = .var z.1 := by
              simp only [minManyVariables, bind_ok, Except.ok.injEq] at hm
              obtain ⟨_, _, _, _, rfl⟩ := hm
              exact aux_kept h.aux _ serial _ rfl
            simp only [if_false, map_ok, ok_bind, List.map_cons, List.map_nil, pairDrop, Expr.drop_mul, hz]
    · rfl

theorem pairs_drop (l : List (Expr × List Con)) : (l.map (pairDrop G)).map Prod.fst = (l.map Prod.fst).map (Expr.drop G) ∧
    (l.map (pairDrop G)).flatMap Prod.snd = (l.flatMap Prod.snd).map (Con.drop G) := by
  constructor
  · rw [List.map_map, List.map_map]; rfl
  · rw [List.flatMap_map, List.map_flatMap]; rfl

theorem customObjective_drop (h : iv.Droppable G) {terms : List OneTerm} (ht : ∀ v M c k, OneTerm.many "max_many_variables" v M c k ∉ terms) :
    customObjective d (iv.drop G) terms = (customObjective d iv terms).map (pairDrop G) := by
  unfold customObjective
  have h1 : flatMapE (OneTerm.simpleExprs d (iv.drop G)) terms = (flatMapE (OneTerm.simpleExprs d iv) terms).map (List.map (Expr.drop G)) :=
    flatMapE_natural_id fun t _ => simpleExprs_drop h.natural t
  have h2 : flatMapE (fun (p : OneTerm × Nat) => p.1.twoExprs d (iv.drop G) p.2) terms.zipIdx =
      (flatMapE (fun (p : OneTerm × Nat) => p.1.twoExprs d iv p.2) terms.zipIdx).map (List.map (pairDrop G)) :=
    flatMapE_natural_id fun t _ => twoExprs_drop h t.1 t.2
  have h3 : flatMapE (fun (p : OneTerm × Nat) => p.1.manyExprs (iv.drop G) p.2) terms.zipIdx =
      (flatMapE (fun (p : OneTerm × Nat) => p.1.manyExprs iv p.2) terms.zipIdx).map (List.map (pairDrop G)) :=
    flatMapE_natural_id fun t htt => manyExprs_drop h (fun v M c k he => ht v M c k (he ▸ (List.fst_mem_of_mem_zipIdx htt))) t.2
  rw [h1, h2, h3]
  cases flatMapE (OneTerm.simpleExprs d iv) terms with
  | error e => rfl
  | ok a =>
    simp only [map_ok, ok_bind]
    cases flatMapE (fun (p : OneTerm × Nat) => p.1.twoExprs d iv p.2) terms.zipIdx with
    | error e => rfl
    | ok b =>
      simp only [map_ok, ok_bind]
      cases flatMapE (fun (p : OneTerm × Nat) => p.1.manyExprs iv p.2) terms.zipIdx with
      | error e => rfl
      | ok c =>
        simp only [map_ok, ok_bind, pairDrop, (pairs_drop _).1, (pairs_drop _).2, Expr.drop_sum, List.map_append]

theorem getObjective_drop (h : iv.Droppable G) {objective : Objective} (ho : objective.NoMaxMany) :
    getObjective d (iv.drop G) objective = (getObjective d iv objective).map (pairDrop G) := by
  cases objective with
  | str s =>
    simp only [getObjective]
    split
    · have h1 : flatMapE (fun (i : Nat) => pyIndex (iv.drop G) (i : Int) >>= fun assets => priceTerms d i assets) (List.range d.n) =
          (flatMapE (fun (i : Nat) => pyIndex iv (i : Int) >>= fun assets => priceTerms d i assets) (List.range d.n)).map
            (List.map (Expr.drop G)) := by
        apply flatMapE_natural_id
        intro i _
        unfold IVars.drop
        rw [pyIndex_map, map_bind, bind_map]
        apply bind_congr_ok
        intro l hl
        exact priceTerms_drop (index_natural h.natural hl)
      unfold priceObjective
      rw [h1]
      cases flatMapE (fun (i : Nat) => pyIndex iv (i : Int) >>= fun assets => priceTerms d i assets) (List.range d.n) with
      | error e => rfl
      | ok ts => simp only [map_ok, ok_bind, pairDrop, Expr.drop_sum, List.map_nil]
    · split
      · have h1 : flatMapE (fun (i : Nat) => pyIndex (iv.drop G) (i : Int) >>= fun assets => carbonTerms d i assets) (List.range d.n) =
            (flatMapE (fun (i : Nat) => pyIndex iv (i : Int) >>= fun assets => carbonTerms d i assets) (List.range d.n)).map
              (List.map (Expr.drop G)) := by
          apply flatMapE_natural_id
          intro i _
          unfold IVars.drop
          rw [pyIndex_map, map_bind, bind_map]
          apply bind_congr_ok
          intro l hl
          exact carbonTerms_drop (index_natural h.natural hl)
        unfold carbonObjective
        rw [h1]
        cases flatMapE (fun (i : Nat) => pyIndex iv (i : Int) >>= fun assets => carbonTerms d i assets) (List.range d.n) with
        | error e => rfl
        | ok ts => simp only [map_ok, ok_bind, pairDrop, Expr.drop_sum, List.map_nil]
      · rfl
  | custom terms => exact customObjective_drop h ho
  | dict terms =>
    simp only [getObjective, bind_map]
    apply bind_congr_ok
    intro ts hts
    refine customObjective_drop h fun v M c k hm => ?_
    obtain ⟨t, ht, hf⟩ := (mapE_mem hts).1 hm
    cases t with
    | simple t => cases hf
    | two f a b M' data k' =>
      simp only [termFactory] at hf
      split at hf
      · cases hf
      · split at hf <;> cases hf
    | many f v' M' c' k' =>
      simp only [termFactory] at hf
      split at hf
      · cases hf
      · split at hf
        · cases hf
          exact ho _ _ _ _ ht
        · cases hf

end

end EPL
