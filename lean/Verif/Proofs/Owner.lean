/-
Which variables occur where: those of an asset carry its name, those of the site are the site's, auxiliary ones belong to
objective terms only.
-/
import Verif.Proofs.Optimize

namespace EPL

/-- Who a variable belongs to. -/
inductive Owner where
  | site
  | asset (name : String)
  | aux (serial : Nat)
  deriving DecidableEq, Repr

/-- see `Owner` -/
def VarId.owner : VarId → Owner
  | .site _ _ => .site
  | .asset name _ _ => .asset name
  | .tagged _ _ name => .asset name
  | .evSoc _ _ name _ => .asset name
  | .evFlow _ _ name _ _ _ => .asset name
  | .aux _ serial => .aux serial

/-- All variables of an expression have a property. -/
def Expr.Over (P : LpVar → Prop) (e : Expr) : Prop := ∀ v ∈ e.vars, P v

/-- All variables of a constraint have a property. -/
def Con.Over (P : LpVar → Prop) (c : Con) : Prop := c.e.Over P

/-- A value that is a variable has a property. -/
def Val.Over (P : LpVar → Prop) : Val → Prop
  | .var v => P v
  | _ => True

namespace Expr
variable {P : LpVar → Prop} {a b : Expr}

theorem Over.num (q : ℚ) : (num q).Over P := by simp [Over]
theorem Over.var {v : LpVar} (h : P v) : (var v).Over P := by simpa [Over] using h
theorem Over.add (ha : a.Over P) (hb : b.Over P) : (a + b).Over P := by
  intro v hv
  rw [vars_add, List.mem_append] at hv
  exact hv.elim (ha v) (hb v)
theorem Over.sub (ha : a.Over P) (hb : b.Over P) : (a - b).Over P := by
  intro v hv
  rw [vars_sub, List.mem_append] at hv
  exact hv.elim (ha v) (hb v)
theorem Over.neg (ha : a.Over P) : (-a).Over P := by
  intro v hv
  rw [vars_neg] at hv
  exact ha v hv
theorem Over.mul (ha : a.Over P) (q : ℚ) : (a * q).Over P := fun v hv => ha v (mem_vars_mul.1 hv).2
theorem Over.sum {l : List Expr} (h : ∀ e ∈ l, e.Over P) : (sum l).Over P := by
  intro v hv
  rw [vars_sum, List.mem_flatMap] at hv
  obtain ⟨e, he, hv⟩ := hv
  exact h e he v hv
theorem Over.leC (ha : a.Over P) (hb : b.Over P) : (a.leC b).Over P := Over.sub ha hb
theorem Over.eqC (ha : a.Over P) (hb : b.Over P) : (a.eqC b).Over P := Over.sub ha hb
theorem Over.geC (ha : a.Over P) (hb : b.Over P) : (a.geC b).Over P := Over.sub ha hb
theorem Over.max (ha : a.Over P) (hb : b.Over P) (q : ℚ) : (constrainMax a b q).Over P := Over.leC (ha.sub (hb.mul q)) (Over.num 0)
theorem Over.min (ha : a.Over P) (hb : b.Over P) (q : ℚ) : (constrainMin a b q).Over P := Over.leC (ha.neg.add (hb.mul q)) (Over.num 0)
end Expr

theorem Val.Over.toExpr {P : LpVar → Prop} {v : Val} (h : v.Over P) : v.toExpr.Over P := by
  cases v with
  | var v => exact Expr.Over.var h
  | none => exact Expr.Over.num _
  | num q => exact Expr.Over.num _
  | int k => exact Expr.Over.num _

theorem Con.Over.holds {σ τ : Assign} {c : Con} (h : c.Over (fun v => σ v.id = τ v.id)) : c.Holds σ ↔ c.Holds τ := by
  unfold Con.Holds
  rw [Expr.eval_congr h]

theorem Con.Over.mono {P Q : LpVar → Prop} {c : Con} (h : c.Over P) (hpq : ∀ v, P v → Q v) : c.Over Q := fun v hv => hpq v (h v hv)

/-- Every value of an object has a property. -/
def OneInterval.Over (P : LpVar → Prop) (o : OneInterval) : Prop := ∀ attr v, o.getattr attr = .ok v → v.Over P

theorem OneInterval.over_iff {P : LpVar → Prop} {o : OneInterval} :
    o.Over P ↔ (∀ attr v, o.base.get? attr = some v → v.Over P) ∧ (∀ attr v, o.base.get? attr = none → o.extra? attr = some v → v.Over P) := by
  unfold OneInterval.Over OneInterval.getattr
  constructor
  · intro h
    refine ⟨fun attr v hv => h attr v (by rw [hv]), fun attr v hb hv => h attr v (by rw [hb, hv])⟩
  · rintro ⟨h1, h2⟩ attr v h
    cases hb : o.base.get? attr with
    | some w => rw [hb] at h; simp only [Except.ok.injEq] at h; exact h ▸ h1 attr w hb
    | none =>
      rw [hb] at h
      cases he : o.extra? attr with
      | some w => rw [he] at h; simp only [Except.ok.injEq] at h; exact h ▸ h2 attr w hb he
      | none => rw [he] at h; simp at h

/-- The quantities of an object that can occur in a balance. -/
structure Base.AllOver (P : LpVar → Prop) (b : Base) : Prop where
  electricGeneration : b.electricGeneration.Over P
  htGeneration : b.htGeneration.Over P
  ltGeneration : b.ltGeneration.Over P
  electricLoad : b.electricLoad.Over P
  htLoad : b.htLoad.Over P
  ltLoad : b.ltLoad.Over P
  electricCharge : b.electricCharge.Over P
  electricDischarge : b.electricDischarge.Over P
  gasConsumption : b.gasConsumption.Over P
  binary : b.binary.Over P

theorem Base.AllOver.get {P : LpVar → Prop} {b : Base} (h : b.AllOver P) {attr : String} {v : Val} (hv : b.get? attr = some v) : v.Over P := by
  unfold Base.get? at hv
  obtain ⟨h1, h2, h3, h4, h5, h6, h7, h8, h9, h10⟩ := h
  repeat' split at hv
  all_goals first | (simp only [Option.some.injEq] at hv; subst hv; assumption) | simp at hv

section
variable {i : Nat} {f : Freq} {flags : Flags}

/-- A property of all variables that belong to an asset. -/
abbrev Owned (n : String) : LpVar → Prop := fun v => v.id.owner = .asset n

theorem over_if {P : LpVar → Prop} {b : Prop} [Decidable b] {x y : Val} (hx : x.Over P) (hy : y.Over P) : (if b then x else y).Over P := by
  split <;> assumption

theorem obj_over (c : EvsCfg) (cs cd isp : Bool) (ev : ChargeEventCfg) (e : Nat) (ch : ChargerCfg) (k : Nat) :
    let o := c.obj i f flags cs cd isp ev e ch k
    o.charge.Over (Owned c.name) ∧ o.chargeBin.Over (Owned c.name) ∧ o.discharge.Over (Owned c.name) ∧ o.dischargeBin.Over (Owned c.name) ∧
      o.initialSoc.Over (Owned c.name) ∧ o.finalSoc.Over (Owned c.name) ∧ o.loss.Over (Owned c.name) := by
  refine ⟨over_if rfl trivial, over_if rfl trivial, over_if rfl trivial, over_if rfl trivial, over_if rfl trivial, over_if rfl trivial, rfl⟩

/-- The objects of an asset hold variables of that asset only. -/
theorem ois_over {a : Asset} (hb : a.Buildable i) {o : OneInterval} (ho : o ∈ a.ois i f flags) :
    o.base.AllOver (Owned a.name) ∧ o.Over (Owned a.name) := by
  have ev : ∀ (c : EvsCfg) (cs cd isp : Bool) (e : EvOI) (chs : List ChargerCfg), e ∈ c.objs chs i f flags cs cd isp →
      ((OneInterval.ev e).base.AllOver (Owned c.name) ∧ (OneInterval.ev e).Over (Owned c.name)) ∧
      ((OneInterval.evSpill e).base.AllOver (Owned c.name) ∧ (OneInterval.evSpill e).Over (Owned c.name)) := by
    intro c cs cd isp e chs he
    obtain ⟨n, ev, k, ch, _, _, rfl⟩ := objs_mem.1 he
    obtain ⟨h1, h2, h3, h4, h5, h6, h7⟩ := obj_over (i := i) (f := f) (flags := flags) c cs cd isp ev n ch k
    have hbase : (OneInterval.ev (c.obj i f flags cs cd isp ev n ch k)).base.AllOver (Owned c.name) :=
      ⟨trivial, trivial, trivial, trivial, trivial, trivial, h1, h3, trivial, trivial⟩
    have hex : ∀ attr v, (OneInterval.ev (c.obj i f flags cs cd isp ev n ch k)).extra? attr = some v → v.Over (Owned c.name) := by
      intro attr v hv
      simp only [OneInterval.extra?] at hv
      repeat' split at hv
      all_goals first | (simp only [Option.some.injEq] at hv; subst hv; first | assumption | trivial) | simp at hv
    exact ⟨⟨hbase, OneInterval.over_iff.2 ⟨fun attr v hv => hbase.get hv, fun attr v _ hv => hex attr v hv⟩⟩,
      ⟨hbase, OneInterval.over_iff.2 ⟨fun attr v hv => Base.AllOver.get (b := (OneInterval.ev _).base) hbase hv, fun attr v _ hv => hex attr v hv⟩⟩⟩
  have single : ∀ (x : OneInterval), a.ois i f flags = [x] → x.base.AllOver (Owned a.name) →
      (∀ attr v, x.extra? attr = some v → v.Over (Owned a.name)) → o.base.AllOver (Owned a.name) ∧ o.Over (Owned a.name) := by
    intro x hx h1 h2
    rw [hx, List.mem_singleton] at ho
    subst ho
    exact ⟨h1, OneInterval.over_iff.2 ⟨fun attr v hv => h1.get hv, fun attr v _ hv => h2 attr v hv⟩⟩
  cases a with
  | evs c =>
    obtain ⟨_, hrow⟩ := (hb : c.Shape ∧ c.HasRow i)
    have h : (Asset.evs c).ois i f flags = (c.objs c.chargers i f flags true true false).map .ev ++
        (c.objs c.spillChargers i f flags false false true).map .evSpill := by
      simp only [Asset.ois, ois_evs (hrow.matOk _)]
    rw [h, List.mem_append, List.mem_map, List.mem_map] at ho
    rcases ho with ⟨e, he, rfl⟩ | ⟨e, he, rfl⟩
    · exact (ev c _ _ _ e _ he).1
    · exact (ev c _ _ _ e _ he).2
  | renewable c =>
    refine single _ (ois_renewable hb) ⟨rfl, trivial, trivial, trivial, trivial, trivial, trivial, trivial, trivial, trivial⟩ ?_
    intro attr v hv
    simp [OneInterval.extra?] at hv
  | battery c =>
    refine single _ rfl ⟨trivial, trivial, trivial, trivial, trivial, trivial, rfl, rfl, trivial, trivial⟩ ?_
    intro attr v hv
    simp only [OneInterval.extra?] at hv
    repeat' split at hv
    all_goals first | (simp only [Option.some.injEq] at hv; subst hv; first | rfl | trivial) | simp at hv
  | boiler c =>
    refine single _ rfl ⟨trivial, rfl, trivial, trivial, trivial, trivial, trivial, trivial, rfl, rfl⟩ ?_
    intro attr v hv
    simp [OneInterval.extra?] at hv
  | chp c =>
    refine single _ rfl ⟨rfl, rfl, rfl, trivial, trivial, trivial, trivial, trivial, rfl, rfl⟩ ?_
    intro attr v hv
    simp [OneInterval.extra?] at hv
  | heatPump c =>
    refine single _ rfl ⟨trivial, rfl, trivial, rfl, trivial, rfl, trivial, trivial, trivial, trivial⟩ ?_
    intro attr v hv
    simp only [OneInterval.extra?] at hv
    repeat' split at hv
    all_goals first | (simp only [Option.some.injEq] at hv; subst hv; first | rfl | trivial) | simp at hv
  | spill c =>
    refine single _ rfl ⟨rfl, rfl, trivial, rfl, trivial, rfl, trivial, trivial, trivial, trivial⟩ ?_
    intro attr v hv
    simp [OneInterval.extra?] at hv
  | valve c =>
    refine single _ rfl ⟨trivial, trivial, rfl, trivial, rfl, trivial, trivial, trivial, trivial, trivial⟩ ?_
    intro attr v hv
    simp [OneInterval.extra?] at hv

/-! ### Constraints -/

theorem arr2_over {P : LpVar → Prop} {evs : List ChargeEventCfg} {chs : List ChargerCfg} {g : ChargeEventCfg → Nat → ChargerCfg → Nat → Val}
    (h : ∀ ev e ch k, (g ev e ch k).Over P) (e k : Nat) : (arr2 evs chs g e k).Over P := by
  unfold arr2
  split
  · exact h ..
  · trivial

theorem arr1_over {P : LpVar → Prop} {evs : List ChargeEventCfg} {g : ChargeEventCfg → Nat → Val} (h : ∀ ev e, (g ev e).Over P) (e : Nat) :
    (arr1 evs g e).Over P := by
  unfold arr1
  split
  · exact h ..
  · trivial

/-- Every entry of the arrays belongs to the asset. -/
structure EvsArray.Over (P : LpVar → Prop) (a : EvsArray) : Prop where
  initialSoc : ∀ e, (a.initialSoc e).Over P
  finalSoc : ∀ e, (a.finalSoc e).Over P
  charge : ∀ e k, (a.charge e k).Over P
  chargeBin : ∀ e k, (a.chargeBin e k).Over P
  discharge : ∀ e k, (a.discharge e k).Over P
  dischargeBin : ∀ e k, (a.dischargeBin e k).Over P
  loss : ∀ e k, (a.loss e k).Over P

theorem array_over (c : EvsCfg) : (c.array i f flags).Over (Owned c.name) where
  initialSoc := arr1_over fun _ _ => rfl
  finalSoc := arr1_over fun _ _ => rfl
  charge := arr2_over fun ev e ch k => (obj_over c _ _ _ ev e ch k).1
  chargeBin := arr2_over fun ev e ch k => (obj_over c _ _ _ ev e ch k).2.1
  discharge := arr2_over fun ev e ch k => (obj_over c _ _ _ ev e ch k).2.2.1
  dischargeBin := arr2_over fun ev e ch k => (obj_over c _ _ _ ev e ch k).2.2.2.1
  loss := arr2_over fun ev e ch k => (obj_over c _ _ _ ev e ch k).2.2.2.2.2.2

theorem spillArray_over (c : EvsCfg) : (c.spillArray i f flags).Over (Owned c.name) where
  initialSoc := arr1_over fun _ _ => trivial
  finalSoc := arr1_over fun _ _ => trivial
  charge := arr2_over fun ev e ch k => (obj_over c _ _ _ ev e ch k).1
  chargeBin := arr2_over fun ev e ch k => (obj_over c _ _ _ ev e ch k).2.1
  discharge := arr2_over fun ev e ch k => (obj_over c _ _ _ ev e ch k).2.2.1
  dischargeBin := arr2_over fun ev e ch k => (obj_over c _ _ _ ev e ch k).2.2.2.1
  loss := arr2_over fun ev e ch k => (obj_over c _ _ _ ev e ch k).2.2.2.2.2.2

theorem evFlowList_over {P : LpVar → Prop} {x b : Val} {ce : ℚ} {ch : ChargerCfg} (hx : x.Over P) (hb : b.Over P) :
    ∀ con ∈ evFlowList x b ce f ch, con.Over P := by
  intro con hcon
  unfold evFlowList at hcon
  split at hcon
  · simp only [List.mem_cons, List.not_mem_nil, or_false] at hcon
    rcases hcon with rfl | rfl | rfl
    · exact hx.toExpr.max hb.toExpr _
    · exact hx.toExpr.min hb.toExpr _
    · exact hb.toExpr.leC (.num _)
  · simp at hcon

theorem evMinMax_over {P : LpVar → Prop} {c : EvsCfg} {a : EvsArray} {chs : List ChargerCfg} {allow : Bool} (h : a.Over P) :
    ∀ con ∈ evMinMaxList c a f chs i allow, con.Over P := by
  intro con hcon
  simp only [evMinMaxList, List.mem_flatMap, List.mem_append] at hcon
  obtain ⟨ev, _, ch, _, hcon | hcon⟩ := hcon
  · exact evFlowList_over (h.charge ..) (h.chargeBin ..) con hcon
  · split at hcon
    · exact evFlowList_over (h.discharge ..) (h.dischargeBin ..) con hcon
    · simp at hcon

theorem rowOf_over {P : LpVar → Prop} {a : Nat → Nat → Val} (h : ∀ e k, (a e k).Over P) (e n : Nat) : ∀ x ∈ rowOf a e n, x.Over P := by
  intro x hx
  obtain ⟨k, _, rfl⟩ := List.mem_map.1 hx
  exact (h e k).toExpr

theorem colOf_over {P : LpVar → Prop} {a : Nat → Nat → Val} (h : ∀ e k, (a e k).Over P) (k n : Nat) : ∀ x ∈ colOf a k n, x.Over P := by
  intro x hx
  obtain ⟨e, _, rfl⟩ := List.mem_map.1 hx
  exact (h e k).toExpr

theorem single_over {P : LpVar → Prop} {a : EvsArray} (h : a.Over P) (m n : Nat) :
    ∀ con ∈ constrainSingleChargerChargeEvent a m n, con.Over P := by
  intro con hcon
  simp only [constrainSingleChargerChargeEvent, List.mem_append, List.mem_map] at hcon
  rcases hcon with ⟨e, _, rfl⟩ | ⟨k, _, rfl⟩
  · refine Expr.Over.leC (.sum fun x hx => ?_) (.num _)
    exact (List.mem_append.1 hx).elim (rowOf_over h.chargeBin _ _ x) (rowOf_over h.dischargeBin _ _ x)
  · refine Expr.Over.leC (.sum fun x hx => ?_) (.num _)
    exact (List.mem_append.1 hx).elim (colOf_over h.chargeBin _ _ x) (colOf_over h.dischargeBin _ _ x)

theorem losses_over {P : LpVar → Prop} {a : EvsArray} (h : a.Over P) (e : Nat) (q : ℚ) : ∀ con ∈ constrainEvLosses a e q, con.Over P := by
  intro con hcon
  obtain ⟨k, _, rfl⟩ := List.mem_map.1 hcon
  refine Expr.Over.eqC (.mul (.sum fun x hx => ?_) _) (.sum fun x hx => ?_)
  · rw [List.mem_singleton] at hx; exact hx ▸ (h.charge e k).toExpr
  · rw [List.mem_singleton] at hx; exact hx ▸ (h.loss e k).toExpr

theorem balance_over {P : LpVar → Prop} {a s : EvsArray} (h : a.Over P) (hs : s.Over P) :
    ∀ con ∈ constrainChargeEventElectricityBalance a s, con.Over P := by
  intro con hcon
  simp only [constrainChargeEventElectricityBalance, List.mem_flatMap, List.mem_cons, List.mem_append] at hcon
  obtain ⟨ev, _, rfl | hcon | hcon⟩ := hcon
  · exact Expr.Over.eqC (((((((h.initialSoc _).toExpr).add (.sum (rowOf_over h.charge _ _))).add (.sum (rowOf_over hs.charge _ _))).sub
      (.sum (rowOf_over h.discharge _ _))).sub (.sum (rowOf_over hs.discharge _ _))).sub (.sum (rowOf_over h.loss _ _))) (h.finalSoc _).toExpr
  · exact losses_over h _ _ con hcon
  · exact losses_over hs _ _ con hcon

theorem connection_over {P : LpVar → Prop} {a s : EvsArray} (h : a.Over P) (hs : s.Over P) :
    ∀ con ∈ constrainConnectionChargeEvents a s, con.Over P := by
  intro con hcon
  simp only [constrainConnectionChargeEvents, List.mem_flatMap] at hcon
  obtain ⟨e, _, hcon⟩ := hcon
  split at hcon
  · rw [List.mem_singleton] at hcon
    exact hcon ▸ Expr.Over.eqC (hs.initialSoc e).toExpr (h.finalSoc e).toExpr
  · simp at hcon

theorem own {n : String} {v : LpVar} (h : v.id.owner = .asset n) : (Expr.var v).Over (Owned n) := Expr.Over.var h

/-- The constraints of an asset are over its variables only. -/
theorem within_over {a : Asset} : ∀ con ∈ a.withinList i f flags, con.Over (Owned a.name) := by
  intro con hcon
  cases a with
  | battery c =>
    simp only [Asset.withinList, BatteryCfg.withinList, constrainOnlyChargeOrDischarge, constrainBatteryElectricityBalance, List.mem_append,
      List.mem_cons, List.not_mem_nil, or_false] at hcon
    rcases hcon with ((rfl | rfl | rfl) | rfl | rfl) | hcon
    · exact Expr.Over.max (own rfl) (own rfl) _
    · exact Expr.Over.max (own rfl) (own rfl) _
    · exact Expr.Over.leC (.add (own rfl) (own rfl)) (.num _)
    · exact Expr.Over.eqC (.sub (.sub (.add (own rfl) (own rfl)) (own rfl)) (own rfl)) (own rfl)
    · exact Expr.Over.eqC (own rfl) (.mul (own rfl) _)
    · split at hcon
      · simp at hcon
      · rw [List.mem_singleton] at hcon
        exact hcon ▸ Expr.Over.eqC (own rfl) (own rfl)
  | boiler c =>
    simp only [Asset.withinList, BoilerCfg.withinList, List.mem_cons, List.not_mem_nil, or_false] at hcon
    rcases hcon with rfl | rfl | rfl
    · exact Expr.Over.eqC (own rfl) (.mul (own rfl) _)
    · exact Expr.Over.max (own rfl) (own rfl) _
    · exact Expr.Over.min (own rfl) (own rfl) _
  | chp c =>
    simp only [Asset.withinList, ChpCfg.withinList, List.mem_append, List.mem_cons, List.not_mem_nil, or_false] at hcon
    rcases hcon with hcon | rfl | rfl | rfl | rfl
    · split at hcon
      · rw [List.mem_singleton] at hcon
        exact hcon ▸ Expr.Over.eqC (own rfl) (.mul (own rfl) _)
      · simp at hcon
    · exact Expr.Over.eqC (own rfl) (.mul (own rfl) _)
    · exact Expr.Over.eqC (own rfl) (.mul (own rfl) _)
    · exact Expr.Over.max (own rfl) (own rfl) _
    · exact Expr.Over.min (own rfl) (own rfl) _
  | heatPump c =>
    simp only [Asset.withinList, HeatPumpCfg.withinList, List.mem_cons, List.not_mem_nil, or_false] at hcon
    rcases hcon with rfl | rfl | rfl
    · exact Expr.Over.max (own rfl) (own rfl) _
    · exact Expr.Over.eqC (own rfl) (.mul (own rfl) _)
    · exact Expr.Over.eqC (.add (own rfl) (own rfl)) (own rfl)
  | renewable c => simp [Asset.withinList] at hcon
  | spill c => simp [Asset.withinList] at hcon
  | valve c =>
    simp only [Asset.withinList, ValveCfg.withinList, List.mem_cons, List.not_mem_nil, or_false] at hcon
    exact hcon ▸ Expr.Over.eqC (own rfl) (own rfl)
  | evs c =>
    simp only [Asset.withinList, EvsCfg.withinList, List.mem_append] at hcon
    rcases hcon with (((hcon | hcon) | hcon) | hcon) | hcon
    · exact evMinMax_over (array_over c) con hcon
    · exact evMinMax_over (spillArray_over c) con hcon
    · exact single_over (array_over c) _ _ con hcon
    · exact balance_over (array_over c) (spillArray_over c) con hcon
    · split at hcon
      · simp at hcon
      · exact connection_over (array_over c) (array_over c) con hcon

theorem after_over {a : Asset} {n : Nat} : ∀ con ∈ a.afterList n f flags, con.Over (Owned a.name) := by
  intro con hcon
  cases a with
  | battery c =>
    simp only [Asset.afterList, BatteryCfg.afterList, List.mem_cons, List.not_mem_nil, or_false] at hcon
    rcases hcon with rfl | rfl <;> exact Expr.Over.eqC (own rfl) (.num _)
  | evs c =>
    simp only [Asset.afterList, EvsCfg.afterList, List.mem_flatMap, List.mem_cons, List.not_mem_nil, or_false] at hcon
    obtain ⟨ev, _, rfl | rfl⟩ := hcon
    · exact Expr.Over.eqC ((array_over c).initialSoc _).toExpr (.num _)
    · exact Expr.Over.eqC ((array_over c).finalSoc _).toExpr (.num _)
  | _ => simp [Asset.afterList] at hcon

end

/-- The variables of the site and of its assets. -/
def Site.Owns (s : Site) (v : LpVar) : Prop := v.id.owner = .site ∨ ∃ a ∈ s.assets, v.id.owner = .asset a.name

section
variable {s : Site} {flags : Flags}

theorem ones_over {n i : Nat} (hv : VarsOk s flags n) (hi : i < n) (hb : ∀ a ∈ s.assets, a.Buildable i) {o : OneInterval}
    (ho : o ∈ s.ones flags i) : o.base.AllOver s.Owns ∧ o.Over s.Owns := by
  rw [ones_eq hv hi, List.mem_cons, List.mem_flatMap] at ho
  rcases ho with rfl | ⟨a, ha, ho⟩
  · have h1 : (OneInterval.site (s.oneInterval i)).base.AllOver s.Owns :=
      ⟨trivial, trivial, trivial, trivial, trivial, trivial, trivial, trivial, trivial, trivial⟩
    refine ⟨h1, OneInterval.over_iff.2 ⟨fun attr v hv => h1.get hv, ?_⟩⟩
    intro attr v _ hv
    simp only [OneInterval.extra?] at hv
    repeat' split at hv
    all_goals first | (simp only [Option.some.injEq] at hv; subst hv; first | exact .inl rfl | trivial) | simp at hv
  · obtain ⟨h1, h2⟩ := ois_over (hb a ha) ho
    have mono : ∀ v : Val, v.Over (Owned a.name) → v.Over s.Owns := by
      intro v hv
      cases v with
      | var v => exact .inr ⟨a, ha, hv⟩
      | _ => trivial
    exact ⟨⟨mono _ h1.1, mono _ h1.2, mono _ h1.3, mono _ h1.4, mono _ h1.5, mono _ h1.6, mono _ h1.7, mono _ h1.8, mono _ h1.9, mono _ h1.10⟩,
      fun attr v hv => mono v (h2 attr v hv)⟩

theorem sumOver_over {P : LpVar → Prop} {q : Base → Val} {l : List OneInterval} (h : ∀ o ∈ l, (q o.base).Over P) : (sumOver q l).Over P := by
  refine Expr.Over.sum fun e he => ?_
  obtain ⟨o, ho, rfl⟩ := List.mem_map.1 he
  exact (h o ho).toExpr

theorem siteList_over {n i : Nat} (hv : VarsOk s flags n) (hi : i < n) (hb : ∀ a ∈ s.assets, a.Buildable i) :
    ∀ con ∈ s.siteList flags i, con.Over s.Owns := by
  intro con hcon
  have h := fun (o : OneInterval) (ho : o ∈ s.ones flags i) => (ones_over hv hi hb ho).1
  simp only [Site.siteList, Site.withinList, List.mem_cons, List.not_mem_nil, or_false] at hcon
  have vs : ∀ attr low up b, s.Owns ⟨.site attr i, low, up, b⟩ := fun _ _ _ _ => .inl rfl
  rcases hcon with rfl | rfl | rfl | rfl | rfl | rfl
  · exact Expr.Over.eqC (.add (.sub (.sub (.add (.sub (.sub (.var (vs ..)) (.var (vs ..))) (.num _))
      (sumOver_over fun o ho => (h o ho).electricGeneration)) (sumOver_over fun o ho => (h o ho).electricLoad))
      (sumOver_over fun o ho => (h o ho).electricCharge)) (sumOver_over fun o ho => (h o ho).electricDischarge)) (.num _)
  · exact Expr.Over.leC (.sub (.var (vs ..)) (.mul (.var (vs ..)) _)) (.num _)
  · exact Expr.Over.leC (.sub (.var (vs ..)) (.mul (.var (vs ..)) _)) (.num _)
  · exact Expr.Over.eqC (.add (.var (vs ..)) (.var (vs ..))) (.num _)
  · exact Expr.Over.eqC (.sub (.sub (sumOver_over fun o ho => (h o ho).htGeneration) (sumOver_over fun o ho => (h o ho).htLoad)) (.num _)) (.num _)
  · exact Expr.Over.eqC (.add (.sub (.sub (sumOver_over fun o ho => (h o ho).ltGeneration) (sumOver_over fun o ho => (h o ho).ltLoad)) (.num _))
      (.num _)) (.num _)

end

end EPL
