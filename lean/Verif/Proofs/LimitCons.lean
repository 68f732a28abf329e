/-
The constraints with and without `limit_charge_variables_to_valid_events`.
-/
import Verif.Proofs.Limit

namespace EPL

open Classical

section
variable {s : Site} {flags : Flags}

theorem arrays_drop (hn : (s.assets.map Asset.name).Nodup) {c : EvsCfg} (hc : Asset.evs c ∈ s.assets) {i : Nat} (hi : i < s.data.n)
    (f : Freq) : c.array i f flags.limited = (c.array i f flags.unlimited).drop s.Removed ∧
      c.spillArray i f flags.limited = (c.spillArray i f flags.unlimited).drop s.Removed := by
  have a2 : ∀ (chs : List ChargerCfg) (g g' : ChargeEventCfg → Nat → ChargerCfg → Nat → Val),
      (∀ ev e ch k, g' ev e ch k = (g ev e ch k).drop s.Removed) →
      arr2 c.events chs g' = fun e k => (arr2 c.events chs g e k).drop s.Removed := by
    intro chs g g' h
    funext e k
    unfold arr2
    split
    · exact h ..
    · rfl
  have a1 : ∀ (g : ChargeEventCfg → Nat → Val), (∀ ev e, g ev e = (g ev e).drop s.Removed) →
      arr1 c.events g = fun e => (arr1 c.events g e).drop s.Removed := by
    intro g h
    funext e
    unfold arr1
    split
    · exact h ..
    · rfl
  have ho := fun (cs cd isp : Bool) ev e ch k => obj_drop (flags := flags) hn hc hi f cs cd isp ev e ch k
  have soc : ∀ attr ev, Val.var (c.socVar attr i ev) = (Val.var (c.socVar attr i ev)).drop s.Removed := by
    intro attr ev
    rw [Val.drop_kept]
    exact fun h => h
  constructor
  · unfold EvsCfg.array EvsArray.drop
    congr 1
    · exact a1 _ fun ev _ => soc _ ev
    · exact a1 _ fun ev _ => soc _ ev
    · exact a2 _ _ _ fun ev e ch k => congrArg EvOI.charge (ho ..)
    · exact a2 _ _ _ fun ev e ch k => congrArg EvOI.chargeBin (ho ..)
    · exact a2 _ _ _ fun ev e ch k => congrArg EvOI.discharge (ho ..)
    · exact a2 _ _ _ fun ev e ch k => congrArg EvOI.dischargeBin (ho ..)
    · exact a2 _ _ _ fun ev e ch k => congrArg EvOI.loss (ho ..)
  · unfold EvsCfg.spillArray EvsArray.drop
    congr 1
    · exact a1 _ fun _ _ => rfl
    · exact a1 _ fun _ _ => rfl
    · exact a2 _ _ _ fun ev e ch k => congrArg EvOI.charge (ho ..)
    · exact a2 _ _ _ fun ev e ch k => congrArg EvOI.chargeBin (ho ..)
    · exact a2 _ _ _ fun _ _ _ _ => rfl
    · exact a2 _ _ _ fun _ _ _ _ => rfl
    · exact a2 _ _ _ fun ev e ch k => congrArg EvOI.loss (ho ..)

variable {G : VarId → Prop}

theorem rowOf_drop (a : Nat → Nat → Val) (e n : Nat) : rowOf (fun e k => (a e k).drop G) e n = (rowOf a e n).map (Expr.drop G) := by
  unfold rowOf
  rw [List.map_map]
  congr 1
  funext k
  simp

theorem colOf_drop (a : Nat → Nat → Val) (c n : Nat) : colOf (fun e k => (a e k).drop G) c n = (colOf a c n).map (Expr.drop G) := by
  unfold colOf
  rw [List.map_map]
  congr 1
  funext k
  simp

theorem single_drop (a : EvsArray) (n m : Nat) :
    constrainSingleChargerChargeEvent (a.drop G) n m = (constrainSingleChargerChargeEvent a n m).map (Con.drop G) := by
  unfold constrainSingleChargerChargeEvent
  rw [List.map_append, List.map_map, List.map_map]
  congr 1
  · congr 1
    funext e
    simp only [EvsArray.drop, Function.comp, Expr.drop_leC, Expr.drop_sum, List.map_append, Expr.drop_num]
    rw [rowOf_drop, rowOf_drop]
  · congr 1
    funext e
    simp only [EvsArray.drop, Function.comp, Expr.drop_leC, Expr.drop_sum, List.map_append, Expr.drop_num]
    rw [colOf_drop, colOf_drop]

theorem losses_drop (a : EvsArray) (e : Nat) (q : ℚ) : constrainEvLosses (a.drop G) e q = (constrainEvLosses a e q).map (Con.drop G) := by
  unfold constrainEvLosses
  rw [List.map_map]
  congr 1
  funext k
  simp only [EvsArray.drop, Function.comp, Expr.drop_eqC, Expr.drop_mul, Expr.drop_sum, List.map_cons, List.map_nil, Val.drop_toExpr]

theorem balance_drop (a b : EvsArray) :
    constrainChargeEventElectricityBalance (a.drop G) (b.drop G) = (constrainChargeEventElectricityBalance a b).map (Con.drop G) := by
  unfold constrainChargeEventElectricityBalance
  rw [List.map_flatMap]
  congr 1
  funext ev
  rw [List.map_cons, List.map_append, losses_drop, losses_drop]
  congr 1
  simp only [EvsArray.drop, Expr.drop_eqC, Expr.drop_sub, Expr.drop_add, Expr.drop_sum, Val.drop_toExpr]
  rw [rowOf_drop, rowOf_drop, rowOf_drop, rowOf_drop, rowOf_drop]

theorem sumOver_drop {q : Base → Val} {l : List OneInterval} (h : ∀ o ∈ l, q (o.drop G).base = (q o.base).drop G) :
    sumOver q (l.map (OneInterval.drop G)) = (sumOver q l).drop G := by
  unfold sumOver
  rw [Expr.drop_sum, List.map_map, List.map_map]
  congr 1
  apply List.map_congr_left
  intro o ho
  simp only [Function.comp, h o ho, Val.drop_toExpr]

theorem siteList_drop (h1 : VarsOk s flags.limited s.data.n) (h2 : VarsOk s flags.unlimited s.data.n) {i : Nat} (hi : i < s.data.n)
    (hb : ∀ a ∈ s.assets, a.Buildable i) (hnat : ∀ o ∈ s.ones flags.unlimited i, o.Natural s.Removed) :
    s.siteList flags.limited i = (s.siteList flags.unlimited i).map (Con.drop s.Removed) := by
  have hk : ∀ attr low up b, (Expr.var ⟨.site attr i, low, up, b⟩).drop s.Removed = .var ⟨.site attr i, low, up, b⟩ := fun attr low up b =>
    Expr.drop_var _ fun h => h
  have k1 : (Expr.var (s.oneInterval i).importPower).drop s.Removed = .var (s.oneInterval i).importPower := hk ..
  have k2 : (Expr.var (s.oneInterval i).exportPower).drop s.Removed = .var (s.oneInterval i).exportPower := hk ..
  have k3 : (Expr.var (s.oneInterval i).importBin).drop s.Removed = .var (s.oneInterval i).importBin := hk ..
  have k4 : (Expr.var (s.oneInterval i).exportBin).drop s.Removed = .var (s.oneInterval i).exportBin := hk ..
  have hd := fun o ho => (hnat o ho).base
  unfold Site.siteList Site.withinList
  simp only [ones_drop h1 h2 hi hb, List.map_cons, List.map_nil, Expr.drop_eqC, Expr.drop_leC, Expr.drop_sub, Expr.drop_add, Expr.drop_mul,
    Expr.drop_num, k1, k2, k3, k4, sumOver_drop fun o ho => (hd o ho).electricGeneration, sumOver_drop fun o ho => (hd o ho).electricLoad,
    sumOver_drop fun o ho => (hd o ho).electricCharge, sumOver_drop fun o ho => (hd o ho).electricDischarge,
    sumOver_drop fun o ho => (hd o ho).htGeneration, sumOver_drop fun o ho => (hd o ho).htLoad,
    sumOver_drop fun o ho => (hd o ho).ltGeneration, sumOver_drop fun o ho => (hd o ho).ltLoad]

/-- A constraint on removed variables only that zeros satisfy. -/
def Con.Dead (G : VarId → Prop) (c : Con) : Prop :=
  (∀ v ∈ c.e.vars, G v.id) ∧ ∀ σ : Assign, (∀ v ∈ c.e.vars, σ v.id = 0) → c.Holds σ

/-- Lists of constraints with and without the flag. -/
structure Lists (G : VarId → Prop) (off on : List Con) : Prop where
  fwd : ∀ c ∈ off, c.drop G ∈ on ∨ c.Dead G
  back : ∀ c ∈ on, ∃ c0 ∈ off, c0.drop G = c

theorem Lists.of_map {l l' : List Con} (h : l' = l.map (Con.drop G)) : Lists G l l' := by
  subst h
  exact ⟨fun c hc => .inl (List.mem_map_of_mem hc), fun c hc => by
    obtain ⟨c0, h0, rfl⟩ := List.mem_map.1 hc
    exact ⟨c0, h0, rfl⟩⟩

theorem Lists.same {l : List Con} (h : ∀ c ∈ l, c.Over (fun v => ¬ G v.id)) : Lists G l l :=
  ⟨fun c hc => .inl (by rw [Con.drop_kept G (h c hc)]; exact hc), fun c hc => ⟨c, hc, Con.drop_kept G (h c hc)⟩⟩

theorem Lists.append {a a' b b' : List Con} (h : Lists G a a') (h' : Lists G b b') : Lists G (a ++ b) (a' ++ b') := by
  constructor
  · intro c hc
    rcases List.mem_append.1 hc with hc | hc
    · exact (h.fwd c hc).imp (fun h => List.mem_append.2 (.inl h)) id
    · exact (h'.fwd c hc).imp (fun h => List.mem_append.2 (.inr h)) id
  · intro c hc
    rcases List.mem_append.1 hc with hc | hc
    · obtain ⟨c0, h0, h1⟩ := h.back c hc
      exact ⟨c0, List.mem_append.2 (.inl h0), h1⟩
    · obtain ⟨c0, h0, h1⟩ := h'.back c hc
      exact ⟨c0, List.mem_append.2 (.inr h0), h1⟩

theorem Lists.flatMap {α : Type} {l : List α} {f g : α → List Con} (h : ∀ a ∈ l, Lists G (f a) (g a)) : Lists G (l.flatMap f) (l.flatMap g) := by
  constructor
  · intro c hc
    obtain ⟨a, ha, hc⟩ := List.mem_flatMap.1 hc
    exact ((h a ha).fwd c hc).imp (fun h => List.mem_flatMap.2 ⟨a, ha, h⟩) id
  · intro c hc
    obtain ⟨a, ha, hc⟩ := List.mem_flatMap.1 hc
    obtain ⟨c0, h0, h1⟩ := (h a ha).back c hc
    exact ⟨c0, List.mem_flatMap.2 ⟨a, ha, h0⟩, h1⟩

/-- The constraints of one flow: both variables are removed or none. -/
theorem evFlow_lists {x b : Val} {ce : ℚ} {f : Freq} {ch : ChargerCfg} (h : (x.Over (fun v => ¬ G v.id) ∧ b.Over (fun v => ¬ G v.id)) ∨
    (0 ≤ ce ∧ ∃ v w, x = .var v ∧ b = .var w ∧ G v.id ∧ G w.id)) : Lists G (evFlowList x b ce f ch) (evFlowList (x.drop G) (b.drop G) ce f ch) := by
  rcases h with ⟨h1, h2⟩ | ⟨h0, v, w, rfl, rfl, h1, h2⟩
  · rw [Val.drop_kept G h1, Val.drop_kept G h2]
    exact .same (evFlowList_over h1 h2)
  · have hon : evFlowList ((Val.var v).drop G) ((Val.var w).drop G) ce f ch = [] := by
      have : ((Val.var v).drop G).isVar = false := by
        simp only [Val.drop, if_pos h1]
        split <;> rfl
      simp [evFlowList, this]
    rw [hon]
    refine ⟨fun c hc => .inr ?_, fun c hc => by simp at hc⟩
    have hov : c.Over (fun u => G u.id) := evFlowList_over (P := fun u => G u.id) (x := .var v) (b := .var w) h1 h2 c hc
    refine ⟨hov, fun σ hσ => ?_⟩
    have key : c.Holds (fun _ => 0) := by
      simp only [evFlowList, Val.isVar, if_true, List.mem_cons, List.not_mem_nil, or_false, Val.toExpr] at hc
      rcases hc with rfl | rfl | rfl <;> simp [h0]
    have he : c.e.eval σ = c.e.eval (fun _ => 0) := Expr.eval_congr fun u hu => hσ u hu
    unfold Con.Holds at key ⊢
    rw [he]
    exact key

theorem minMax_lists {c : EvsCfg} {a : EvsArray} {f : Freq} {chs : List ChargerCfg} {i : Nat} {allow : Bool}
    (h : ∀ e < c.events.length, ∀ k, ((a.charge e k).Over (fun v => ¬ G v.id) ∧ (a.chargeBin e k).Over (fun v => ¬ G v.id)) ∨
      (0 ≤ c.entry i e ∧ ∃ v w, a.charge e k = .var v ∧ a.chargeBin e k = .var w ∧ G v.id ∧ G w.id))
    (hd : ∀ e k, (a.discharge e k).Over (fun v => ¬ G v.id) ∧ (a.dischargeBin e k).Over (fun v => ¬ G v.id)) :
    Lists G (evMinMaxList c a f chs i allow) (evMinMaxList c (a.drop G) f chs i allow) := by
  unfold evMinMaxList
  refine .flatMap fun ev hev => .flatMap fun ch _ => .append ?_ ?_
  · exact evFlow_lists (h ev.2 (zipIdx_lt hev) ch.2)
  · split
    · exact evFlow_lists (.inl (hd ev.2 ch.2))
    · exact .same (by simp)

theorem soc_kept (c : EvsCfg) (i : Nat) (f : Freq) (fl : Flags) (e : Nat) :
    ((c.array i f fl).initialSoc e).Over (fun v => ¬ s.Removed v.id) ∧ ((c.array i f fl).finalSoc e).Over (fun v => ¬ s.Removed v.id) := by
  constructor
  · simp only [EvsCfg.array]
    apply arr1_mine
    intro ev _ _
    exact id
  · simp only [EvsCfg.array]
    apply arr1_mine
    intro ev _ _
    exact id

theorem evs_lists (hn : (s.assets.map Asset.name).Nodup) (hp : s.Plugs) {c : EvsCfg} (hc : Asset.evs c ∈ s.assets) {i : Nat}
    (hi : i < s.data.n) (hr : c.HasRow i) (f : Freq) : Lists s.Removed (c.withinList i f flags.unlimited) (c.withinList i f flags.limited) := by
  obtain ⟨e1, e2⟩ := arrays_drop (flags := flags) hn hc hi f
  have flow : ∀ (isp : Bool) e ev ch k, e < c.events.length →
      let o := c.obj i f flags.unlimited (!isp) (!isp) isp ev e ch k
      (o.charge.Over (fun v => ¬ s.Removed v.id) ∧ o.chargeBin.Over (fun v => ¬ s.Removed v.id)) ∨
      (0 ≤ c.entry i e ∧ ∃ v w, o.charge = .var v ∧ o.chargeBin = .var w ∧ s.Removed v.id ∧ s.Removed w.id) := by
    intro isp e ev ch k he o
    have h1 := removed_iff (flags := flags) hn hc hi (attr := "electric_charge_mwh") (by decide) e ch.name isp
    have h2 := removed_iff (flags := flags) hn hc hi (attr := "electric_charge_binary") (by decide) e ch.name isp
    have hx : o.charge = .var (continuous (.evFlow "electric_charge_mwh" i c.name e ch.name isp) (low := some 0)
        (up := some (f.mwToMwh ch.powerMax))) := by
      simp only [o, EvsCfg.obj, active_unlimited, if_true]
    have hb : o.chargeBin = .var (binary (.evFlow "electric_charge_binary" i c.name e ch.name isp)) := by
      simp only [o, EvsCfg.obj, active_unlimited, if_true]
    rw [hx, hb]
    by_cases ha : c.active flags.limited i e = false
    · right
      refine ⟨?_, _, _, rfl, rfl, h1.2 ha, h2.2 ha⟩
      rw [hr.entry_eq he]
      exact (hp.entries c hc i hi e he).1
    · left
      exact ⟨fun h => ha (h1.1 h), fun h => ha (h2.1 h)⟩
  have keep : ∀ (isp : Bool) ev e ch k,
      let o := c.obj i f flags.unlimited (!isp) (!isp) isp ev e ch k
      o.discharge.Over (fun v => ¬ s.Removed v.id) ∧ o.dischargeBin.Over (fun v => ¬ s.Removed v.id) := by
    intro isp ev e ch k o
    exact ⟨over_ite (not_removed_flow (by decide)) trivial, over_ite (not_removed_flow (by decide)) trivial⟩
  have arr : ∀ (chs : List ChargerCfg) (isp : Bool) (a : EvsArray),
      a.charge = arr2 c.events chs (fun ev e ch k => (c.obj i f flags.unlimited (!isp) (!isp) isp ev e ch k).charge) →
      a.chargeBin = arr2 c.events chs (fun ev e ch k => (c.obj i f flags.unlimited (!isp) (!isp) isp ev e ch k).chargeBin) →
      a.discharge = arr2 c.events chs (fun ev e ch k => (c.obj i f flags.unlimited (!isp) (!isp) isp ev e ch k).discharge) →
      a.dischargeBin = arr2 c.events chs (fun ev e ch k => (c.obj i f flags.unlimited (!isp) (!isp) isp ev e ch k).dischargeBin) →
      ∀ allow, Lists s.Removed (evMinMaxList c a f chs i allow) (evMinMaxList c (a.drop s.Removed) f chs i allow) := by
    intro chs isp a k1 k2 k3 k4 allow
    refine minMax_lists ?_ ?_
    · intro e he k
      rw [k1, k2]
      unfold arr2
      split
      · exact flow isp e _ _ k he
      · exact .inl ⟨trivial, trivial⟩
    · intro e k
      rw [k3, k4]
      exact ⟨arr2_mine (fun ev e ch k _ _ => (keep isp ev e ch k).1) e k, arr2_mine (fun ev e ch k _ _ => (keep isp ev e ch k).2) e k⟩
  unfold EvsCfg.withinList
  refine .append (.append (.append (.append ?_ ?_) ?_) ?_) ?_
  · rw [e1]
    exact arr c.chargers false _ rfl rfl rfl rfl _
  · rw [e2]
    exact arr c.spillChargers true _ rfl rfl rfl rfl _
  · rw [e1]
    exact .of_map (single_drop ..)
  · rw [e1, e2]
    exact .of_map (balance_drop ..)
  · split
    · exact .same (by simp)
    · have : ∀ fl : Flags, constrainConnectionChargeEvents (c.array (i - 1) f fl) (c.array i f fl) =
          constrainConnectionChargeEvents (c.array (i - 1) f flags) (c.array i f flags) := fun _ => rfl
      rw [this flags.limited, this flags.unlimited]
      refine .same fun con hcon => ?_
      simp only [constrainConnectionChargeEvents, List.mem_flatMap] at hcon
      obtain ⟨e, _, hcon⟩ := hcon
      split at hcon
      · rw [List.mem_singleton] at hcon
        subst hcon
        exact Expr.Over.eqC (soc_kept ..).1.toExpr (soc_kept ..).2.toExpr
      · simp at hcon

theorem evsAfter_lists (c : EvsCfg) (n : Nat) (f : Freq) :
    Lists s.Removed (c.afterList n f flags.unlimited) (c.afterList n f flags.limited) := by
  have : ∀ fl : Flags, c.afterList n f fl = c.afterList n f flags := fun _ => rfl
  rw [this flags.limited, this flags.unlimited]
  refine .same fun con hcon => ?_
  simp only [EvsCfg.afterList, List.mem_flatMap, List.mem_cons, List.not_mem_nil, or_false] at hcon
  obtain ⟨ev, _, rfl | rfl⟩ := hcon
  · exact Expr.Over.eqC (soc_kept ..).1.toExpr (.num _)
  · exact Expr.Over.eqC (soc_kept ..).2.toExpr (.num _)

theorem within_lists (hn : (s.assets.map Asset.name).Nodup) (hp : s.Plugs) {a : Asset} (ha : a ∈ s.assets) {i : Nat} (hi : i < s.data.n)
    (hb : a.Buildable i) : Lists s.Removed (a.withinList i s.freq flags.unlimited) (a.withinList i s.freq flags.limited) := by
  by_cases hev : ∃ c, a = .evs c
  · obtain ⟨c, rfl⟩ := hev
    exact evs_lists hn hp ha hi hb.2 s.freq
  · have hev : ∀ c, a ≠ .evs c := fun c h => hev ⟨c, h⟩
    have : a.withinList i s.freq flags.limited = a.withinList i s.freq flags.unlimited := by
      cases a <;> first | rfl | exact absurd rfl (hev _)
    rw [this]
    exact .same fun c hc => (within_mine c hc).mono fun v hv => mine_not_removed hev hv

theorem after_lists {a : Asset} : Lists s.Removed (a.afterList s.data.n s.freq flags.unlimited) (a.afterList s.data.n s.freq flags.limited) := by
  by_cases hev : ∃ c, a = .evs c
  · obtain ⟨c, rfl⟩ := hev
    exact evsAfter_lists c _ _
  · have hev : ∀ c, a ≠ .evs c := fun c h => hev ⟨c, h⟩
    have : a.afterList s.data.n s.freq flags.limited = a.afterList s.data.n s.freq flags.unlimited := by
      cases a <;> first | rfl | exact absurd rfl (hev _)
    rw [this]
    exact .same fun c hc => (after_mine c hc).mono fun v hv => mine_not_removed hev hv

/-- The base constraints with and without the flag. -/
theorem base_lists (hp : s.Plugs) (h1 : VarsOk s flags.limited s.data.n) (h2 : VarsOk s flags.unlimited s.data.n)
    (hb : ∀ i < s.data.n, ∀ a ∈ s.assets, a.Buildable i) :
    (∀ c, s.BaseCon flags.unlimited c → s.BaseCon flags.limited (c.drop s.Removed) ∨ c.Dead s.Removed) ∧
    (∀ c, s.BaseCon flags.limited c → ∃ c0, s.BaseCon flags.unlimited c0 ∧ c0.drop s.Removed = c) := by
  have hs : ∀ i < s.data.n, Lists s.Removed (s.siteList flags.unlimited i) (s.siteList flags.limited i) := fun i hi =>
    .of_map (siteList_drop h1 h2 hi (hb i hi) fun o ho => (droppable hp h2 hb).natural _ (by
      simp only [Site.ivarsTo, List.mem_map, List.mem_range]
      exact ⟨i, hi, rfl⟩) o ho)
  constructor
  · rintro c (⟨i, hi, hc⟩ | ⟨i, hi, a, ha, hc⟩ | ⟨a, ha, hc⟩)
    · exact ((hs i hi).fwd c hc).imp (fun h => .inl ⟨i, hi, h⟩) id
    · exact ((within_lists h1.nodup hp ha hi (hb i hi a ha)).fwd c hc).imp (fun h => .inr (.inl ⟨i, hi, a, ha, h⟩)) id
    · exact (after_lists.fwd c hc).imp (fun h => .inr (.inr ⟨a, ha, h⟩)) id
  · rintro c (⟨i, hi, hc⟩ | ⟨i, hi, a, ha, hc⟩ | ⟨a, ha, hc⟩)
    · obtain ⟨c0, h0, h⟩ := (hs i hi).back c hc
      exact ⟨c0, .inl ⟨i, hi, h0⟩, h⟩
    · obtain ⟨c0, h0, h⟩ := (within_lists h1.nodup hp ha hi (hb i hi a ha)).back c hc
      exact ⟨c0, .inr (.inl ⟨i, hi, a, ha, h0⟩), h⟩
    · obtain ⟨c0, h0, h⟩ := after_lists.back c hc
      exact ⟨c0, .inr (.inr ⟨a, ha, h0⟩), h⟩

end

end EPL
