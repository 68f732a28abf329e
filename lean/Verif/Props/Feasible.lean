/-
C57: a spill asset and a valve make every site feasible.
-/
import Verif.Proofs.Added
import Verif.Props.Inputs
import Verif.Spec.DemoFlat

namespace EPL

theorem list_sum_single {α : Type} [DecidableEq α] {l : List α} (hn : l.Nodup) {x : α} (hx : x ∈ l) (d : ℚ) :
    (l.map (fun a => if a = x then d else 0)).sum = d := by
  induction l with
  | nil => simp at hx
  | cons a l ih =>
    rw [List.nodup_cons] at hn
    rw [List.map_cons, List.sum_cons]
    by_cases ha : a = x
    · subst ha
      rw [if_pos rfl, list_sum_zero, add_zero]
      intro b hb
      rw [if_neg]
      rintro rfl
      exact hn.1 hb
    · rw [if_neg ha, zero_add]
      exact ih hn.2 ((List.mem_cons.1 hx).resolve_left (Ne.symm ha))

/-- The interval of a variable of an asset. -/
def VarId.interval : VarId → Nat
  | .site _ i => i
  | .asset _ _ i => i
  | .tagged _ i _ => i
  | .evSoc _ i _ _ => i
  | .evFlow _ i _ _ _ _ => i
  | .aux _ _ => 0

/-- What a spill asset and a valve do in every interval. -/
structure Slack where
  generation : Nat → ℚ
  load : Nat → ℚ
  ht : Nat → ℚ
  ltLoad : Nat → ℚ
  valve : Nat → ℚ

/-- The spill asset of a `Slack`. -/
def Slack.spill (k : Slack) : Assign
  | .asset _ attr i =>
    if attr = "electric_generation_mwh" then k.generation i
    else if attr = "electric_load_mwh" then k.load i
    else if attr = "high_temperature_generation_mwh" then k.ht i
    else k.ltLoad i
  | _ => 0

/-- All assets at rest but one spill asset and one valve; nothing is imported or exported. -/
def Site.slackPoint (s : Site) (sp : SpillCfg) (va : ValveCfg) (k : Slack) : Assign := fun v =>
  match v.owner with
  | .site => match v with
    | .site attr _ => if attr = "import_power_bin" then 1 else 0
    | _ => 0
  | .asset n => if n = sp.name then k.spill v else if n = va.name then k.valve v.interval
      else match s.assets.find? (fun a => a.name = n) with
        | some a => a.rest s.freq v
        | none => 0
  | .aux _ => 0

section
variable {s : Site} {sp : SpillCfg} {va : ValveCfg} {k : Slack} {flags : Flags} {name : String}

theorem slack_site {attr : String} {i : Nat} : s.slackPoint sp va k (.site attr i) = if attr = "import_power_bin" then 1 else 0 := rfl

theorem slack_spill {v : VarId} (h : v.owner = .asset sp.name) : s.slackPoint sp va k v = k.spill v := by
  unfold Site.slackPoint
  rw [h]
  simp

theorem slack_valve (hne : va.name ≠ sp.name) {v : VarId} (h : v.owner = .asset va.name) : s.slackPoint sp va k v = k.valve v.interval := by
  unfold Site.slackPoint
  rw [h]
  simp [hne]

theorem eq_of_name (hn : (s.assets.map Asset.name).Nodup) {a b : Asset} (ha : a ∈ s.assets) (hb : b ∈ s.assets) (h : a.name = b.name) : a = b := by
  exact List.inj_on_of_nodup_map hn ha hb h

theorem slack_rest (hn : (s.assets.map Asset.name).Nodup) (hsp : Asset.spill sp ∈ s.assets) (hva : Asset.valve va ∈ s.assets) {a : Asset}
    (ha : a ∈ s.assets) (h1 : a ≠ .spill sp) (h2 : a ≠ .valve va) {v : VarId} (h : v.owner = .asset a.name) :
    s.slackPoint sp va k v = a.rest s.freq v := by
  have e1 : a.name ≠ sp.name := fun e => h1 (eq_of_name hn ha hsp e)
  have e2 : a.name ≠ va.name := fun e => h2 (eq_of_name hn ha hva e)
  unfold Site.slackPoint
  rw [h]
  simp only [e1, e2, if_false]
  have : s.assets.find? (fun b => b.name = a.name) = some a := by
    cases hf : s.assets.find? (fun b => b.name = a.name) with
    | none =>
      rw [List.find?_eq_none] at hf
      exact absurd (by simp) (hf a ha)
    | some b =>
      have hb := List.find?_some hf
      rw [eq_of_name hn (List.mem_of_find?_eq_some hf) ha (by simpa using hb)]
  rw [this]

/-- A quantity of all assets at rest. -/
def Site.restOf (s : Site) (flags : Flags) (q : Base → Val) (i : Nat) : ℚ :=
  (s.assets.map (fun a => ((a.ois i s.freq flags).map (fun o => (q o.base).eval (a.rest s.freq))).sum)).sum

/-- The electricity the spill asset has to provide. -/
def Site.restElectric (s : Site) (flags : Flags) (i : Nat) : ℚ :=
  s.data.electricLoad.getD i 0 - (s.restOf flags Base.electricGeneration i - s.restOf flags Base.electricLoad i -
    s.restOf flags Base.electricCharge i + s.restOf flags Base.electricDischarge i)

/-- The high temperature heat that is left. -/
def Site.restHigh (s : Site) (flags : Flags) (i : Nat) : ℚ :=
  s.restOf flags Base.htGeneration i - s.restOf flags Base.htLoad i - s.data.htLoad.getD i 0

/-- The low temperature heat that is missing. -/
def Site.restLow (s : Site) (flags : Flags) (i : Nat) : ℚ :=
  s.data.ltLoad.getD i 0 - s.data.ltGeneration.getD i 0 - (s.restOf flags Base.ltGeneration i - s.restOf flags Base.ltLoad i)

/-- What the spill asset and the valve do. -/
def Site.slack (s : Site) (flags : Flags) : Slack where
  generation i := max (s.restElectric flags i) 0
  load i := max (-s.restElectric flags i) 0
  valve i := max 0 (max (s.restHigh flags i) (s.restLow flags i))
  ht i := max 0 (max (s.restHigh flags i) (s.restLow flags i)) - s.restHigh flags i
  ltLoad i := max 0 (max (s.restHigh flags i) (s.restLow flags i)) - s.restLow flags i

theorem slack_nonneg (v : VarId) : 0 ≤ (s.slack flags).spill v := by
  have h1 : ∀ i, 0 ≤ (s.slack flags).generation i := fun i => le_max_right _ _
  have h2 : ∀ i, 0 ≤ (s.slack flags).load i := fun i => le_max_right _ _
  have h3 : ∀ i, 0 ≤ (s.slack flags).ht i := fun i => sub_nonneg.2 (le_max_of_le_right (le_max_left _ _))
  have h4 : ∀ i, 0 ≤ (s.slack flags).ltLoad i := fun i => sub_nonneg.2 (le_max_of_le_right (le_max_right _ _))
  cases v with
  | asset n attr i =>
    simp only [Slack.spill]
    split_ifs
    · exact h1 i
    · exact h2 i
    · exact h3 i
    · exact h4 i
  | _ => exact le_refl _

theorem slack_fits (hn : (s.assets.map Asset.name).Nodup) (hsp : Asset.spill sp ∈ s.assets) (hva : Asset.valve va ∈ s.assets)
    (hr : ∀ a ∈ s.assets, a.CanRest s.freq s.data.n) {a : Asset} (ha : a ∈ s.assets) :
    a.Fits s.data.n s.freq flags (s.slackPoint sp va (s.slack flags)) := by
  have hne : va.name ≠ sp.name := fun e => by simpa using eq_of_name hn hva hsp e
  by_cases h1 : a = .spill sp
  · subst h1
    exact spill_fits fun v hv => by rw [slack_spill hv]; exact slack_nonneg v
  · by_cases h2 : a = .valve va
    · subst h2
      refine valve_fits (fun v hv => by rw [slack_valve hne hv]; exact le_max_left _ _) fun i => ?_
      rw [slack_valve hne rfl, slack_valve hne rfl]
      rfl
    · exact (rest_fits (hr a ha)).congr (fun i hi => rest_buildable (hr a ha) hi) fun v hv => (slack_rest hn hsp hva ha h1 h2 hv).symm

theorem slack_sum (hn : (s.assets.map Asset.name).Nodup) (hsp : Asset.spill sp ∈ s.assets) (hva : Asset.valve va ∈ s.assets)
    (hr : ∀ a ∈ s.assets, a.CanRest s.freq s.data.n) {i : Nat} (hi : i < s.data.n) (q : Base → Val)
    (hq : ∀ (b : Base) (P : LpVar → Prop), b.AllOver P → (q b).Over P)
    (z1 : (q (OneInterval.spill (sp.oneInterval i)).base).eval (fun _ => 0) = 0)
    (z2 : (q (OneInterval.valve (va.oneInterval i)).base).eval (fun _ => 0) = 0) :
    (s.assets.map (fun a => ((a.ois i s.freq flags).map (fun o => (q o.base).eval (s.slackPoint sp va k))).sum)).sum =
      s.restOf flags q i + (q (OneInterval.spill (sp.oneInterval i)).base).eval (s.slackPoint sp va k) +
        (q (OneInterval.valve (va.oneInterval i)).base).eval (s.slackPoint sp va k) := by
  have hnd : s.assets.Nodup := List.Nodup.of_map _ hn
  rw [← list_sum_single hnd hsp ((q (OneInterval.spill (sp.oneInterval i)).base).eval (s.slackPoint sp va k)),
    ← list_sum_single hnd hva ((q (OneInterval.valve (va.oneInterval i)).base).eval (s.slackPoint sp va k))]
  unfold Site.restOf
  rw [← list_sum_add, ← list_sum_add]
  refine list_sum_congr fun a ha => ?_
  by_cases h1 : a = .spill sp
  · subst h1
    have e : (Asset.spill sp).ois i s.freq flags = [.spill (sp.oneInterval i)] := rfl
    rw [e, if_pos rfl, if_neg (by simp)]
    simp only [List.map_cons, List.map_nil, List.sum_cons, List.sum_nil, add_zero]
    have : (Asset.spill sp).rest s.freq = fun _ => 0 := rfl
    rw [this, z1, zero_add]
  · by_cases h2 : a = .valve va
    · subst h2
      have e : (Asset.valve va).ois i s.freq flags = [.valve (va.oneInterval i)] := rfl
      rw [e, if_pos rfl, if_neg (by simp)]
      simp only [List.map_cons, List.map_nil, List.sum_cons, List.sum_nil, add_zero]
      have : (Asset.valve va).rest s.freq = fun _ => 0 := rfl
      rw [this, z2, zero_add]
    · rw [if_neg h1, if_neg h2, add_zero, add_zero]
      refine list_sum_congr fun o ho => ?_
      have := hq _ _ (ois_over (rest_buildable (hr a ha) hi) ho).1
      exact val_eval_congr (this.mono fun v hv => slack_rest hn hsp hva ha h1 h2 hv)

theorem constructed_rows (hs : s.Constructed) : (∀ i < s.data.n, s.data.HasRow i) ∧ s.data.HasPrices := by
  obtain ⟨_, _, _, _, _, _, _, h⟩ := hs
  have := C29_lengths _ _ (site_new h).data
  simp only [List.length_map] at this
  obtain ⟨h1, h2, h3, h4, h5, h6, h7, h8⟩ := this
  exact ⟨fun i hi => ⟨by omega, by omega, by omega, by omega⟩, ⟨h1, h2, h4, h3⟩⟩

/-- C57: a site with a spill asset and a valve, whose other assets can rest, has a feasible dispatch: whatever the prices and the electric and heat loads,
and even without importing or exporting anything. -/
theorem C57_feasible (hs : s.Constructed) (hn : (s.assets.map Asset.name).Nodup) (h0 : 0 < s.data.n) (hc : s.constraints = [])
    (hil : 0 ≤ s.mwh s.importLimit) (hel : 0 ≤ s.mwh s.exportLimit) (hsp : Asset.spill sp ∈ s.assets) (hva : Asset.valve va ∈ s.assets)
    (hr : ∀ a ∈ s.assets, a.CanRest s.freq s.data.n) (hname : name = "price" ∨ name = "carbon") :
    ∃ p σ, Answer s (.str name) flags p σ ∧ ∀ i < s.data.n, importOf σ i = 0 ∧ exportOf σ i = 0 := by
  obtain ⟨hrow, hpr⟩ := constructed_rows hs
  have hbu : ∀ i < s.data.n, ∀ a ∈ s.assets, a.Buildable i := fun i hi a ha => rest_buildable (hr a ha) hi
  obtain ⟨p, hp⟩ := plain_program (flags := flags) (name := name) hn h0 hrow hbu hc (str_objective_ok hpr (by simp [Site.ivarsTo]) hname)
  have hP := program_spec hp
  have hne : va.name ≠ sp.name := fun e => by simpa using eq_of_name hn hva hsp e
  set σ := s.slackPoint sp va (s.slack flags) with hσ
  have hfit : ∀ a ∈ s.assets, a.Fits s.data.n s.freq flags σ := fun a ha => slack_fits hn hsp hva hr ha
  have b1 : ∀ i, (s.oneInterval i).importPower.InBounds σ := fun i => in_continuous (le_refl _) hil
  have b2 : ∀ i, (s.oneInterval i).exportPower.InBounds σ := fun i => in_continuous (le_refl _) hel
  have b3 : ∀ i, (s.oneInterval i).importBin.InBounds σ := fun i => in_binary (.inr rfl)
  have b4 : ∀ i, (s.oneInterval i).exportBin.InBounds σ := fun i => in_binary (.inl rfl)
  have hone : ∀ i < s.data.n, ∀ o ∈ s.ones flags i, o.base.AllOver (fun v => v.InBounds σ) := by
    intro i hi o ho
    rw [ones_eq hP.vars hi, List.mem_cons, List.mem_flatMap] at ho
    rcases ho with rfl | ⟨a, ha, ho⟩
    · exact ⟨trivial, trivial, trivial, trivial, trivial, trivial, trivial, trivial, trivial, trivial⟩
    · exact (hfit a ha).base i hi o ho
  have hobj : ∀ v ∈ p.obj.vars, v.InBounds σ := by
    intro v hv
    obtain ⟨i, hi, o, ho, t, ht, hvt⟩ := (plain_obj hP v).1 hv
    have hob := hone i hi o ho
    rw [ones_eq hP.vars hi, List.mem_cons, List.mem_flatMap] at ho
    rcases ho with rfl | ⟨a, ha, ho⟩
    · have : t.Over (fun v => v.InBounds σ) := by
        unfold strTermsOf at ht
        split at ht <;> simp only [priceTermsOf, carbonTermsOf, List.mem_singleton] at ht <;> subst ht <;>
          exact .sub (.mul (.var (b1 i)) _) (.mul (.var (b2 i)) _)
      exact this v hvt
    · exact strTerms_over (kinds_ne_site (ois_name_kind ho).2) hob t ht v hvt
  have hgood : ∀ c ∈ p.cons, c.Good σ := by
    intro c hcon
    rw [plain_cons hP hc] at hcon
    rcases hcon with ⟨i, hi, hcon⟩ | ⟨i, hi, a, ha, hcon⟩ | ⟨a, ha, hcon⟩
    · have sum : ∀ q : Base → Val, (∀ (b : Base) (P : LpVar → Prop), b.AllOver P → (q b).Over P) →
          (q (OneInterval.site (s.oneInterval i)).base).eval σ = 0 →
          (q (OneInterval.spill (sp.oneInterval i)).base).eval (fun _ => 0) = 0 →
          (q (OneInterval.valve (va.oneInterval i)).base).eval (fun _ => 0) = 0 →
          (sumOver q (s.ones flags i)).eval σ = s.restOf flags q i + (q (OneInterval.spill (sp.oneInterval i)).base).eval σ +
            (q (OneInterval.valve (va.oneInterval i)).base).eval σ := by
        intro q hq z0 z1 z2
        rw [ones_eval hP.vars hi, z0, zero_add]
        exact slack_sum hn hsp hva hr hi q hq z1 z2
      have v1 : ∀ attr, σ (.asset sp.name attr i) = (s.slack flags).spill (.asset sp.name attr i) := fun attr => slack_spill rfl
      have v2 : ∀ attr, σ (.asset va.name attr i) = (s.slack flags).valve i := fun attr => slack_valve hne rfl
      have w1 : σ (.asset sp.name "electric_generation_mwh" i) = max (s.restElectric flags i) 0 := by rw [v1]; simp [Slack.spill, Site.slack]
      have w2 : σ (.asset sp.name "electric_load_mwh" i) = max (-s.restElectric flags i) 0 := by rw [v1]; simp [Slack.spill, Site.slack]
      have w3 : σ (.asset sp.name "high_temperature_generation_mwh" i) =
          max 0 (max (s.restHigh flags i) (s.restLow flags i)) - s.restHigh flags i := by rw [v1]; simp [Slack.spill, Site.slack]
      have w4 : σ (.asset sp.name "low_temperature_load_mwh" i) =
          max 0 (max (s.restHigh flags i) (s.restLow flags i)) - s.restLow flags i := by rw [v1]; simp [Slack.spill, Site.slack]
      have w5 : ∀ attr, σ (.asset va.name attr i) = max 0 (max (s.restHigh flags i) (s.restLow flags i)) := fun attr => v2 attr
      have w6 : σ (.site "import_power_mw" i) = 0 := rfl
      have w7 : σ (.site "export_power_mw" i) = 0 := rfl
      have q1 := sum Base.electricGeneration (fun b P h => h.1) (by simp [OneInterval.base, Val.eval]) rfl (by simp [OneInterval.base, Val.eval])
      have q2 := sum Base.htGeneration (fun b P h => h.2) (by simp [OneInterval.base, Val.eval]) rfl (by simp [OneInterval.base, Val.eval])
      have q3 := sum Base.ltGeneration (fun b P h => h.3) (by simp [OneInterval.base, Val.eval]) (by simp [OneInterval.base, Val.eval]) rfl
      have q4 := sum Base.electricLoad (fun b P h => h.4) (by simp [OneInterval.base, Val.eval]) rfl (by simp [OneInterval.base, Val.eval])
      have q5 := sum Base.htLoad (fun b P h => h.5) (by simp [OneInterval.base, Val.eval]) (by simp [OneInterval.base, Val.eval]) rfl
      have q6 := sum Base.ltLoad (fun b P h => h.6) (by simp [OneInterval.base, Val.eval]) rfl (by simp [OneInterval.base, Val.eval])
      have q7 := sum Base.electricCharge (fun b P h => h.7) (by simp [OneInterval.base, Val.eval]) rfl (by simp [OneInterval.base, Val.eval])
      have q8 := sum Base.electricDischarge (fun b P h => h.8) (by simp [OneInterval.base, Val.eval]) rfl (by simp [OneInterval.base, Val.eval])
      have m1 : ∀ x : ℚ, max x 0 - max (-x) 0 = x := by
        intro x
        rcases le_total x 0 with h | h
        · rw [max_eq_right h, max_eq_left (neg_nonneg.2 h)]; ring
        · rw [max_eq_left h, max_eq_right (neg_nonpos.2 h)]; ring
      have hov := hone i hi
      simp only [Site.siteList, Site.withinList, List.mem_cons, List.not_mem_nil, or_false] at hcon
      rcases hcon with rfl | rfl | rfl | rfl | rfl | rfl
      · refine good ?_ (Expr.Over.eqC (.add (.sub (.sub (.add (.sub (.sub (.var (b1 i)) (.var (b2 i))) (.num _))
          (sumOver_over fun o ho => (hov o ho).1)) (sumOver_over fun o ho => (hov o ho).4)) (sumOver_over fun o ho => (hov o ho).7))
          (sumOver_over fun o ho => (hov o ho).8)) (.num _))
        simp only [eqC_holds, Expr.eval_add, Expr.eval_sub, Expr.eval_var, Expr.eval_num, q1, q4, q7, q8]
        simp only [OneInterval.base, Val.eval, SpillCfg.oneInterval, ValveCfg.oneInterval, continuous, Site.oneInterval, w1, w2, w6, w7]
        have := m1 (s.restElectric flags i)
        have hE := Site.restElectric.eq_1 s flags i
        push_cast
        linarith
      · refine good ?_ (Expr.Over.leC (.sub (.var (b1 i)) (.mul (.var (b3 i)) _)) (.num _))
        simp only [leC_holds, Expr.eval_sub, Expr.eval_mul, Expr.eval_var, Expr.eval_num, Site.oneInterval, continuous, binary, hσ, slack_site]
        simp
        exact hil
      · refine good ?_ (Expr.Over.leC (.sub (.var (b2 i)) (.mul (.var (b4 i)) _)) (.num _))
        simp only [leC_holds, Expr.eval_sub, Expr.eval_mul, Expr.eval_var, Expr.eval_num, Site.oneInterval, continuous, binary, hσ, slack_site]
        simp
      · refine good ?_ (Expr.Over.eqC (.add (.var (b3 i)) (.var (b4 i))) (.num _))
        simp only [eqC_holds, Expr.eval_add, Expr.eval_var, Expr.eval_num, Site.oneInterval, binary, hσ, slack_site]
        simp
      · refine good ?_ (Expr.Over.eqC (.sub (.sub (sumOver_over fun o ho => (hov o ho).2) (sumOver_over fun o ho => (hov o ho).5)) (.num _)) (.num _))
        simp only [eqC_holds, Expr.eval_sub, Expr.eval_num, q2, q5]
        simp only [OneInterval.base, Val.eval, SpillCfg.oneInterval, ValveCfg.oneInterval, continuous, w3, w4, w5]
        have hE := Site.restHigh.eq_1 s flags i
        push_cast
        linarith
      · refine good ?_ (Expr.Over.eqC (.add (.sub (.sub (sumOver_over fun o ho => (hov o ho).3) (sumOver_over fun o ho => (hov o ho).6)) (.num _)) (.num _))
          (.num _))
        simp only [eqC_holds, Expr.eval_sub, Expr.eval_add, Expr.eval_num, q3, q6]
        simp only [OneInterval.base, Val.eval, SpillCfg.oneInterval, ValveCfg.oneInterval, continuous, w3, w4, w5]
        have hE := Site.restLow.eq_1 s flags i
        push_cast
        linarith
    · exact (hfit a ha).within i hi c hcon
    · exact (hfit a ha).after c hcon
  refine ⟨p, σ, ⟨⟨_, hp⟩, fun c hc => (hgood c hc).1, fun v hv => ?_⟩, fun i _ => ⟨rfl, rfl⟩⟩
  rcases prob_vars_iff.1 hv with ⟨c, hc, hv⟩ | hv
  · exact (hgood c hc).2 v hv
  · exact hobj v hv

/-- C57: so such a site is never reported infeasible by a solver that says "Infeasible" only of programs without a feasible point. -/
theorem C57_not_infeasible (hs : s.Constructed) (hn : (s.assets.map Asset.name).Nodup) (h0 : 0 < s.data.n) (hc : s.constraints = [])
    (hil : 0 ≤ s.mwh s.importLimit) (hel : 0 ≤ s.mwh s.exportLimit) (hsp : Asset.spill sp ∈ s.assets) (hva : Asset.valve va ∈ s.assets)
    (hr : ∀ a ∈ s.assets, a.CanRest s.freq s.data.n) (hname : name = "price" ∨ name = "carbon") {S : Solver} {r : SimResult}
    (hS : ∀ p, (S p).status = "Infeasible" → ¬ ∃ σ, p.Feasible σ) (h : s.optimize (.str name) flags S = .ok r) : r.status.status ≠ "Infeasible" := by
  obtain ⟨p, σ, ⟨⟨iv, hp⟩, hf⟩, _⟩ := C57_feasible (flags := flags) hs hn h0 hc hil hel hsp hva hr hname
  have e : r.status.status = (S p).status := by
    unfold Site.optimize at h
    rw [hp, ok_bind, bind_ok] at h
    obtain ⟨⟨st, vals⟩, hsol, h⟩ := h
    have e1 : st.status = (S p).status := by
      unfold Prob.solve at hsol
      simp only [bind_ok] at hsol
      obtain ⟨_, _, hsol⟩ := hsol
      split at hsol
      · injection hsol with hsol; injection hsol with h1; rw [← h1]
      · simp only [bind_ok] at hsol
        obtain ⟨_, _, _, _, hsol⟩ := hsol
        injection hsol with hsol; injection hsol with h1; rw [← h1]
    have e2 : r.status = st := by
      unfold extractResults at h
      simp only [bind_ok] at h
      obtain ⟨_, _, _, _, _, _, h⟩ := h
      split at h
      · simp only [bind_ok] at h
        obtain ⟨_, _, _, _, _, _, h⟩ := h
        injection h with h
        rw [← h]
      · simp only [bind_ok] at h
        obtain ⟨_, _, _, _, h⟩ := h
        injection h with h
        rw [← h]
    rw [e2, e1]
  rw [e]
  exact fun h => hS p h ⟨σ, hf⟩

end

/-! ### The hypotheses are met -/

/-- A site with a minimum load boiler, a must-run renewable generator, a battery, a heat pump, a spill and a valve, no import connection and no export
connection. -/
def demoSlack : Demo where
  assets :=
    [ .boiler { name := "boiler", heatMax := 10, heatMin := 2, efficiency := 4/5 },
      .renewable { name := "wind", lowerBoundPct := 1/2, generation := [8, 0], isArray := true, idxLen := 2, freqMins := 60 },
      .battery ⟨"battery", 2, 2, 4, 9/10, 1, 1, 60⟩,
      .heatPump { name := "heat-pump", cop := 3, power := 1, freqMins := 60, includeValve := false },
      .spill { name := "spill" }, .valve { name := "valve" } ]
  raw := { electricityPrices := prices [10, -100], electricLoad := prices [1, 50], htLoad := prices [0, 7], ltLoad := prices [9, 0] }
  importLimit := 0
  exportLimit := 0
  answer := []

/-- C57: the site of `demoSlack` has a feasible dispatch. -/
example : ∃ (s : Site) (sp : SpillCfg) (va : ValveCfg), s.Constructed ∧ (s.assets.map Asset.name).Nodup ∧ 0 < s.data.n ∧ s.constraints = [] ∧ 0 ≤ s.mwh s.importLimit ∧
    0 ≤ s.mwh s.exportLimit ∧ Asset.spill sp ∈ s.assets ∧ Asset.valve va ∈ s.assets ∧ (∀ a ∈ s.assets, a.CanRest s.freq s.data.n) := by
  have t : (demoSlack.site.toOption.map (fun s => (s.assets, s.data.n))) = some (demoSlack.assets, 2) := by decide +kernel
  cases hs : demoSlack.site with
  | error e => rw [hs] at t; simp [Except.toOption] at t
  | ok s =>
    rw [hs] at t
    simp only [Except.toOption, Option.map_some, Option.some.injEq, Prod.mk.injEq] at t
    have n := site_new hs
    have e : s.freq = ⟨60⟩ := by simp [Site.freq, n.freq, demoSlack]
    refine ⟨s, ⟨"spill"⟩, ⟨"valve"⟩, ⟨_, _, _, _, _, _, _, hs⟩, ?_, ?_, n.constraints, ?_, ?_, ?_, ?_, ?_⟩
    · rw [t.1]; decide +kernel
    · rw [t.2]; decide
    · rw [n.importLimit]; simp [Site.mwh, demoSlack]
    · rw [n.exportLimit]; simp [Site.mwh, demoSlack]
    · rw [t.1]; simp [demoSlack]
    · rw [t.1]; simp [demoSlack]
    · rw [t.1, t.2, e]
      intro a ha
      simp only [demoSlack, List.mem_cons, List.not_mem_nil, or_false] at ha
      rcases ha with rfl | rfl | rfl | rfl | rfl | rfl <;> simp only [Asset.CanRest, Asset.CanIdle] <;> decide +kernel

end EPL
