/-
C55: an additional asset that can stay idle never makes the optimum worse.
-/
import Verif.Proofs.Added
import Verif.Props.Growth
import Verif.Spec.DemoFlat

namespace EPL

section
variable {s s' : Site} {name : String} {flags : Flags} {a : Asset} {S S' : Solver} {r r' : SimResult} {V V' : String → Nat → ℚ}

/-- The old assignment with the new asset at rest. -/
def withRest (f : Freq) (a : Asset) (σ : Assign) : Assign := fun v => if v.owner = .asset a.name then a.rest f v else σ v

theorem withRest_own {f : Freq} {σ : Assign} {v : VarId} (h : v.owner = .asset a.name) : withRest f a σ v = a.rest f v := if_pos h

theorem withRest_other {f : Freq} {σ : Assign} {v : VarId} (h : v.owner ≠ .asset a.name) : withRest f a σ v = σ v := if_neg h

theorem added_program (hs : s.Adds s' a) (hc : s.constraints = []) (h0 : 0 < s.data.n) (ha : a.CanIdle s.freq s.data.n)
    (hn : a.name ∉ s.assets.map Asset.name) {iv : IVars} {p : Prob} (h : s.program (.str name) flags = .ok (iv, p)) :
    ∃ p', s'.program (.str name) flags = .ok (s'.ivarsTo flags s'.data.n, p') := by
  have hp := program_spec h
  obtain ⟨l1, l2, e1, e2⟩ := hs.assets
  have hnd := hp.vars.nodup
  rw [e1, List.map_append] at hnd hn
  refine plain_program ?_ (by rw [hs.data]; exact h0) ?_ ?_ (by rw [hs.constraints, hc]) ?_
  · rw [e2, List.map_append, List.map_cons]
    exact (List.nodup_middle).2 (List.nodup_cons.2 ⟨hn, hnd⟩)
  · rw [hs.data]
    exact fun i hi => hp.rows hi
  · rw [hs.data]
    intro i hi b hb
    rw [e2, List.mem_append, List.mem_cons] at hb
    rcases hb with hb | rfl | hb
    · exact hp.buildable hi (by rw [e1]; exact List.mem_append_left _ hb)
    · exact rest_buildable ha.rest hi
    · exact hp.buildable hi (by rw [e1]; exact List.mem_append_right _ hb)
  · obtain ⟨_, _, _, _, _, ho, _⟩ := hp.built
    rw [hs.data]
    refine str_objective_any ?_ ho
    rw [hp.iv_eq]
    simp [Site.ivarsTo]

theorem added_feasible (hs : s.Adds s' a) (hc : s.constraints = []) (ha : a.CanIdle s.freq s.data.n) (hn : a.name ∉ s.assets.map Asset.name)
    {p p' : Prob} (hp : Prog s (.str name) flags (s.ivarsTo flags s.data.n) p)
    (hp' : Prog s' (.str name) flags (s'.ivarsTo flags s'.data.n) p') {σ : Assign} (hf : p.Feasible σ) : p'.Feasible (withRest s.freq a σ) := by
  obtain ⟨l1, l2, e1, e2⟩ := hs.assets
  have hfe : s'.freq = s.freq := by simp [Site.freq, hs.freqMins]
  have hone : ∀ i, s'.oneInterval i = s.oneInterval i := by
    intro i
    simp [Site.oneInterval, hfe, hs.importLimit, hs.exportLimit]
  have hmem : ∀ b, b ∈ s'.assets ↔ b = a ∨ b ∈ s.assets := by
    intro b
    rw [e1, e2]
    simp only [List.mem_append, List.mem_cons]
    tauto
  have hne : ∀ b ∈ s.assets, ∀ v : VarId, v.owner = .asset b.name → withRest s.freq a σ v = σ v := by
    intro b hb v hv
    refine withRest_other ?_
    rw [hv]
    intro e
    injection e with e
    exact hn (e ▸ List.mem_map_of_mem hb)
  have hsite : ∀ v : VarId, v.owner = .site → withRest s.freq a σ v = σ v := fun v hv => withRest_other (by rw [hv]; simp)
  have hfit : a.Fits s.data.n s.freq flags (withRest s.freq a σ) :=
    (rest_fits ha.rest).congr (fun i hi => rest_buildable ha.rest hi) fun v hv => (withRest_own hv).symm
  have howns : ∀ v, s.Owns v → σ v.id = withRest s.freq a σ v.id := by
    rintro v (hv | ⟨b, hb, hv⟩)
    · exact (hsite _ hv).symm
    · exact (hne b hb _ hv).symm
  have hsum : ∀ (q : Base → Val) i, i < s.data.n → (∀ o ∈ s.ones flags i, (q o.base).Over s.Owns) →
      (∀ o ∈ a.ois i s.freq flags, (q o.base).eval (a.rest s.freq) = 0 ∧ (q o.base).Over (Owned a.name)) →
      (sumOver q (s'.ones flags i)).eval (withRest s.freq a σ) = (sumOver q (s.ones flags i)).eval σ := by
    intro q i hi ho hz
    rw [ones_eval hp.vars hi, ones_eval hp'.vars (by rw [hs.data]; exact hi), hone, hfe]
    have hin : ∀ b ∈ s.assets, ((b.ois i s.freq flags).map (fun o => (q o.base).eval (withRest s.freq a σ))).sum =
        ((b.ois i s.freq flags).map (fun o => (q o.base).eval σ)).sum := by
      intro b hb
      refine list_sum_congr fun o hob => ?_
      have : o ∈ s.ones flags i := by
        rw [ones_eq hp.vars hi]
        exact List.mem_cons_of_mem _ (List.mem_flatMap.2 ⟨b, hb, hob⟩)
      exact (val_eval_congr ((ho o this).mono howns)).symm
    congr 1
    · have : OneInterval.site (s.oneInterval i) ∈ s.ones flags i := by rw [ones_eq hp.vars hi]; exact List.mem_cons_self
      exact (val_eval_congr ((ho _ this).mono howns)).symm
    · rw [e2, List.map_append, List.map_cons, List.sum_append, List.sum_cons]
      rw [list_sum_zero (l := a.ois i s.freq flags), zero_add, ← List.sum_append, ← List.map_append, ← e1]
      · exact list_sum_congr hin
      · intro o ho
        rw [← (hz o ho).1]
        exact val_eval_congr ((hz o ho).2.mono fun v hv => withRest_own hv)
  have hover := fun i (hi : i < s.data.n) o ho => (ones_over (flags := flags) (o := o) hp.vars hi (fun b hb => hp.buildable hi hb) ho).1
  have hz := fun i (hi : i < s.data.n) o ho => idle_zero (flags := flags) (o := o) ha hi ho
  have hz' := fun i (hi : i < s.data.n) o ho => (ois_over (f := s.freq) (flags := flags) (o := o) (rest_buildable ha.rest hi) ho).1
  have hbounds : ∀ v ∈ p'.obj.vars, v.InBounds (withRest s.freq a σ) := by
    intro v hv
    obtain ⟨i, hi, o, ho, t, ht, hvt⟩ := (plain_obj hp' v).1 hv
    rw [hs.data] at hi ht
    rw [ones_eq hp'.vars (by rw [hs.data]; exact hi), List.mem_cons, List.mem_flatMap, hone, hfe] at ho
    have old : o ∈ s.ones flags i → v.InBounds (withRest s.freq a σ) := by
      intro ho
      have hv' : v ∈ p.obj.vars := (plain_obj hp v).2 ⟨i, hi, o, ho, t, ht, hvt⟩
      refine InBounds.congr (howns v ?_) (hf.2 v (prob_vars_iff.2 (.inr hv')))
      rcases (by rw [ones_eq hp.vars hi, List.mem_cons, List.mem_flatMap] at ho; exact ho :
        o = .site (s.oneInterval i) ∨ ∃ b ∈ s.assets, o ∈ b.ois i s.freq flags) with rfl | ⟨b, hb, hob⟩
      · have : t.Over s.Owns := by
          unfold strTermsOf at ht
          split at ht <;> simp only [priceTermsOf, carbonTermsOf, List.mem_singleton] at ht <;> subst ht <;>
            exact .sub (.mul (.var (.inl rfl)) _) (.mul (.var (.inl rfl)) _)
        exact this v hvt
      · have hk := kinds_ne_site (ois_name_kind hob).2
        exact strTerms_over hk (hover i hi o ho) t ht v hvt
    rcases ho with rfl | ⟨b, hb, hob⟩
    · exact old (by rw [ones_eq hp.vars hi]; exact List.mem_cons_self)
    · rcases (hmem b).1 hb with rfl | hb
      · exact strTerms_over (kinds_ne_site (ois_name_kind hob).2) (hfit.base i hi o hob) t ht v hvt
      · exact old (by rw [ones_eq hp.vars hi]; exact List.mem_cons_of_mem _ (List.mem_flatMap.2 ⟨b, hb, hob⟩))
  have hgood : ∀ c ∈ p'.cons, c.Good (withRest s.freq a σ) := by
    intro c hcon
    rw [plain_cons hp' (by rw [hs.constraints, hc])] at hcon
    rcases hcon with ⟨i, hi, hcon⟩ | ⟨i, hi, b, hb, hcon⟩ | ⟨b, hb, hcon⟩
    · rw [hs.data] at hi
      have hin : ∀ v, (∀ c ∈ s.siteList flags i, v ∈ c.e.vars → v.InBounds σ) := fun v c hc hv => hf.bounds (hp.site hi hc) hv
      -- the variables of every balance are those of the old site or of the new asset
      have hvars : ∀ q : Base → Val, (∀ b : Base, ∀ P, b.AllOver P → (q b).Over P) → (∀ v ∈ (sumOver q (s.ones flags i)).vars, v.InBounds σ) →
          (sumOver q (s'.ones flags i)).Over (fun v => v.InBounds (withRest s.freq a σ)) := by
        intro q hq hold
        refine sumOver_over fun o ho => ?_
        rw [ones_eq hp'.vars (by rw [hs.data]; exact hi), List.mem_cons, List.mem_flatMap, hone, hfe] at ho
        have old : o ∈ s.ones flags i → (q o.base).Over (fun v => v.InBounds (withRest s.freq a σ)) := by
          intro ho
          have h1 : (q o.base).Over s.Owns := hq _ _ (hover i hi o ho)
          cases hx : q o.base with
          | var w =>
            rw [hx] at h1
            refine InBounds.congr (howns w h1) (hold w ?_)
            simp only [sumOver, Expr.vars_sum, List.mem_flatMap, List.mem_map]
            exact ⟨_, ⟨o, ho, rfl⟩, by rw [hx]; simp [Val.toExpr]⟩
          | _ => trivial
        rcases ho with rfl | ⟨b, hb, hob⟩
        · exact old (by rw [ones_eq hp.vars hi]; exact List.mem_cons_self)
        · rcases (hmem b).1 hb with rfl | hb
          · exact hq _ _ (hfit.base i hi o hob)
          · exact old (by rw [ones_eq hp.vars hi]; exact List.mem_cons_of_mem _ (List.mem_flatMap.2 ⟨b, hb, hob⟩))
      have hold : ∀ c ∈ s.siteList flags i, c.Good σ := fun c hc => good_of_mem hf (hp.site hi hc)
      have hsv : ∀ attr low up bi, ∀ c ∈ s.siteList flags i, (⟨.site attr i, low, up, bi⟩ : LpVar) ∈ c.e.vars →
          (⟨.site attr i, low, up, bi⟩ : LpVar).InBounds (withRest s.freq a σ) := fun attr low up bi c hc hv =>
        InBounds.congr (hsite _ rfl).symm ((hold c hc).2 _ hv)
      simp only [Site.siteList, Site.withinList, hs.data, hone, List.mem_cons, List.not_mem_nil, or_false] at hcon
      simp only [Site.siteList, Site.withinList, List.forall_mem_cons, List.not_mem_nil, false_imp_iff, imp_true_iff, and_true] at hold hsv
      obtain ⟨g1, g2, g3, g4, g5, g6⟩ := hold
      have w : ∀ x : LpVar, x.id.owner = .site → withRest s.freq a σ x.id = σ x.id := fun x hx => hsite _ hx
      have z1 := hsum Base.electricGeneration i hi (fun o ho => (hover i hi o ho).1) fun o ho => ⟨(hz i hi o ho).1, (hz' i hi o ho).1⟩
      have z2 := hsum Base.htGeneration i hi (fun o ho => (hover i hi o ho).2) fun o ho => ⟨(hz i hi o ho).2.1, (hz' i hi o ho).2⟩
      have z3 := hsum Base.ltGeneration i hi (fun o ho => (hover i hi o ho).3) fun o ho => ⟨(hz i hi o ho).2.2.1, (hz' i hi o ho).3⟩
      have z4 := hsum Base.electricLoad i hi (fun o ho => (hover i hi o ho).4) fun o ho => ⟨(hz i hi o ho).2.2.2.1, (hz' i hi o ho).4⟩
      have z5 := hsum Base.htLoad i hi (fun o ho => (hover i hi o ho).5) fun o ho => ⟨(hz i hi o ho).2.2.2.2.1, (hz' i hi o ho).5⟩
      have z6 := hsum Base.ltLoad i hi (fun o ho => (hover i hi o ho).6) fun o ho => ⟨(hz i hi o ho).2.2.2.2.2.1, (hz' i hi o ho).6⟩
      have z7 := hsum Base.electricCharge i hi (fun o ho => (hover i hi o ho).7) fun o ho => ⟨(hz i hi o ho).2.2.2.2.2.2.1, (hz' i hi o ho).7⟩
      have z8 := hsum Base.electricDischarge i hi (fun o ho => (hover i hi o ho).8) fun o ho => ⟨(hz i hi o ho).2.2.2.2.2.2.2.1, (hz' i hi o ho).8⟩
      have sv : ∀ (x : LpVar) (c : Con), c.Good σ → x.id.owner = .site → x ∈ c.e.vars → x.InBounds (withRest s.freq a σ) := fun x c hc hx hv =>
        InBounds.congr (hsite _ hx).symm (hc.2 _ hv)
      have o1 := fun (q : Base → Val) => hvars q
      rcases hcon with rfl | rfl | rfl | rfl | rfl | rfl
      · refine ⟨?_, ?_⟩
        · have := g1.1
          simp only [eqC_holds, Expr.eval_add, Expr.eval_sub, Expr.eval_var, Expr.eval_num, z1, z4, z7, z8] at this ⊢
          rw [w _ rfl, w _ rfl]
          exact this
        · have hb := g1.2
          simp only [Expr.eqC, Expr.vars_add, Expr.vars_sub, Expr.vars_var, Expr.vars_num, List.append_nil, List.mem_append, List.mem_singleton] at hb
          exact Expr.Over.eqC (.add (.sub (.sub (.add (.sub (.sub (.var (InBounds.congr (hsite _ rfl).symm (hb _ (by tauto))))
            (.var (InBounds.congr (hsite _ rfl).symm (hb _ (by tauto))))) (.num _))
            (hvars _ (fun b P h => h.1) fun v hv => hb v (by tauto))) (hvars _ (fun b P h => h.4) fun v hv => hb v (by tauto)))
            (hvars _ (fun b P h => h.7) fun v hv => hb v (by tauto))) (hvars _ (fun b P h => h.8) fun v hv => hb v (by tauto))) (.num _)
      · refine g2.congr (P := s.Owns) ?_ howns
        exact Expr.Over.leC (.sub (.var (.inl rfl)) (.mul (.var (.inl rfl)) _)) (.num _)
      · refine g3.congr (P := s.Owns) ?_ howns
        exact Expr.Over.leC (.sub (.var (.inl rfl)) (.mul (.var (.inl rfl)) _)) (.num _)
      · refine g4.congr (P := s.Owns) ?_ howns
        exact Expr.Over.eqC (.add (.var (.inl rfl)) (.var (.inl rfl))) (.num _)
      · refine ⟨?_, ?_⟩
        · have := g5.1
          simp only [eqC_holds, Expr.eval_add, Expr.eval_sub, Expr.eval_var, Expr.eval_num, z2, z5] at this ⊢
          exact this
        · have hb := g5.2
          simp only [Expr.eqC, Expr.vars_add, Expr.vars_sub, Expr.vars_var, Expr.vars_num, List.append_nil, List.mem_append, List.mem_singleton] at hb
          exact Expr.Over.eqC (.sub (.sub (hvars _ (fun b P h => h.2) fun v hv => hb v (by tauto))
            (hvars _ (fun b P h => h.5) fun v hv => hb v (by tauto))) (.num _)) (.num _)
      · refine ⟨?_, ?_⟩
        · have := g6.1
          simp only [eqC_holds, Expr.eval_add, Expr.eval_sub, Expr.eval_var, Expr.eval_num, z3, z6] at this ⊢
          exact this
        · have hb := g6.2
          simp only [Expr.eqC, Expr.vars_add, Expr.vars_sub, Expr.vars_var, Expr.vars_num, List.append_nil, List.mem_append, List.mem_singleton] at hb
          exact Expr.Over.eqC (.add (.sub (.sub (hvars _ (fun b P h => h.3) fun v hv => hb v (by tauto))
            (hvars _ (fun b P h => h.6) fun v hv => hb v (by tauto))) (.num _)) (.num _)) (.num _)
    · rw [hs.data] at hi
      rw [hfe] at hcon
      rcases (hmem b).1 hb with rfl | hb
      · exact hfit.within i hi c hcon
      · exact (good_of_mem hf (hp.asset hi hb hcon)).congr (within_over c hcon) fun v hv => (hne b hb _ hv).symm
    · rw [hs.data, hfe] at hcon
      rcases (hmem b).1 hb with rfl | hb
      · exact hfit.after c hcon
      · exact (good_of_mem hf (hp.after hb hcon)).congr (after_over c hcon) fun v hv => (hne b hb _ hv).symm
  refine ⟨fun c hc => (hgood c hc).1, fun v hv => ?_⟩
  rcases prob_vars_iff.1 hv with ⟨c, hc, hv⟩ | hv
  · exact (hgood c hc).2 v hv
  · exact hbounds v hv

theorem rest_flows {f : Freq} {n : Nat} (ha : a.CanIdle f n) {i : Nat} {v : VarId} (hv : v ∈ a.flowVars i) : a.rest f v = 0 ∧ v.owner = .asset a.name := by
  cases a with
  | evs c => exact absurd ha id
  | boiler c =>
    simp only [Asset.flowVars, List.mem_cons, List.not_mem_nil, or_false] at hv
    rcases hv with rfl | rfl
    · exact ⟨ha.1, rfl⟩
    · exact ⟨by simp [Asset.rest, ha.1], rfl⟩
  | renewable c =>
    simp only [Asset.flowVars, List.mem_singleton] at hv
    subst hv
    exact ⟨by simp [Asset.rest, ha.2.2.1], rfl⟩
  | battery c =>
    simp only [Asset.flowVars, List.mem_cons, List.not_mem_nil, or_false] at hv
    rcases hv with rfl | rfl | rfl <;> exact ⟨by simp [Asset.rest], rfl⟩
  | chp c =>
    simp only [Asset.flowVars, List.mem_cons, List.not_mem_nil, or_false] at hv
    rcases hv with rfl | rfl | rfl | rfl <;> exact ⟨rfl, rfl⟩
  | heatPump c =>
    simp only [Asset.flowVars, List.mem_cons, List.not_mem_nil, or_false] at hv
    rcases hv with rfl | rfl | rfl <;> exact ⟨rfl, rfl⟩
  | spill c =>
    simp only [Asset.flowVars, List.mem_cons, List.not_mem_nil, or_false] at hv
    rcases hv with rfl | rfl | rfl | rfl <;> exact ⟨rfl, rfl⟩
  | valve c =>
    simp only [Asset.flowVars, List.mem_cons, List.not_mem_nil, or_false] at hv
    rcases hv with rfl | rfl <;> exact ⟨rfl, rfl⟩

theorem idle_gas {f : Freq} {n : Nat} (ha : a.CanIdle f n) (σ : Assign) (i : Nat) : Asset.gasOf (withRest f a σ) i a = 0 := by
  have h := fun v (hv : v ∈ a.flowVars i) => rest_flows ha hv
  cases a with
  | boiler c => exact (withRest_own rfl).trans (h _ (by simp [Asset.flowVars])).1
  | chp c => exact (withRest_own rfl).trans (h _ (by simp [Asset.flowVars])).1
  | _ => rfl

theorem idle_spilled {f : Freq} {n : Nat} (ha : a.CanIdle f n) (σ : Assign) (i : Nat) : Asset.spilledOf flags (withRest f a σ) i a = 0 := by
  cases a with
  | evs c => exact absurd ha id
  | spill c =>
    simp only [Asset.spilledOf]
    rw [withRest_own rfl, withRest_own rfl, withRest_own rfl]
    simp [Asset.rest]
  | _ => rfl

theorem added_objective (hs : s.Adds s' a) (ha : a.CanIdle s.freq s.data.n) (hn : a.name ∉ s.assets.map Asset.name) {iv iv' : IVars} {p p' : Prob}
    (h : s.program (.str name) flags = .ok (iv, p)) (h' : s'.program (.str name) flags = .ok (iv', p')) (σ : Assign) :
    p'.obj.eval (withRest s.freq a σ) = p.obj.eval σ := by
  obtain ⟨l1, l2, e1, e2⟩ := hs.assets
  have hne : ∀ b ∈ s.assets, ∀ v : VarId, v.owner = .asset b.name → withRest s.freq a σ v = σ v := by
    intro b hb v hv
    refine withRest_other ?_
    rw [hv]
    intro e
    injection e with e
    exact hn (e ▸ List.mem_map_of_mem hb)
  have hgas : ∀ i, s'.gasOf (withRest s.freq a σ) i = s.gasOf σ i := by
    intro i
    unfold Site.gasOf
    rw [e2, List.map_append, List.map_cons, List.sum_append, List.sum_cons, idle_gas ha, zero_add, ← List.sum_append, ← List.map_append, ← e1]
    exact list_sum_congr fun b hb => gasOf_congr (hne b hb)
  have hspill : ∀ i, s'.spilledOf flags (withRest s.freq a σ) i = s.spilledOf flags σ i := by
    intro i
    unfold Site.spilledOf
    rw [e2, List.map_append, List.map_cons, List.sum_append, List.sum_cons, idle_spilled ha, zero_add, ← List.sum_append, ← List.map_append, ← e1]
    exact list_sum_congr fun b hb => spilledOf_congr (hne b hb)
  have hsp : s'.spillOf flags (withRest s.freq a σ) = s.spillOf flags σ := by
    unfold Site.spillOf Site.sumIntervals
    rw [hs.data]
    exact list_sum_congr fun i _ => hspill i
  have hi : ∀ i, importOf (withRest s.freq a σ) i = importOf σ i := fun i => withRest_other (by simp [VarId.owner])
  have he : ∀ i, exportOf (withRest s.freq a σ) i = exportOf σ i := fun i => withRest_other (by simp [VarId.owner])
  obtain ⟨_, _, _, _, _, ho, _⟩ := (program_spec h).built
  simp only [getObjective] at ho
  by_cases hpr : name = "price"
  · subst hpr
    rw [C40_price h, C40_price h', hsp]
    congr 1
    unfold Site.costOf Site.sumIntervals
    rw [hs.data]
    exact list_sum_congr fun i _ => by rw [hi, he, hgas]
  · rw [if_neg hpr] at ho
    by_cases hca : name = "carbon"
    · subst hca
      rw [C41_carbon h, C41_carbon h', hsp]
      congr 1
      unfold Site.emissionsOf Site.sumIntervals
      rw [hs.data]
      exact list_sum_congr fun i _ => by rw [hi, he, hgas]
    · rw [if_neg hca] at ho
      simp at ho

/-- C55: every answer of a site without custom constraints is an answer of the site with one more asset that can stay idle: everything else keeps its
values, nothing flows through the new asset, and the price or carbon objective is the same. -/
theorem C55_feasible (hs : s.Adds s' a) (hc : s.constraints = []) (h0 : 0 < s.data.n) (ha : a.CanIdle s.freq s.data.n)
    (hn : a.name ∉ s.assets.map Asset.name) {p : Prob} {σ : Assign} (h : Answer s (.str name) flags p σ) :
    ∃ p' σ', Answer s' (.str name) flags p' σ' ∧ p'.obj.eval σ' = p.obj.eval σ ∧ (∀ v : VarId, v.owner ≠ .asset a.name → σ' v = σ v) ∧
      ∀ i, ∀ v ∈ a.flowVars i, σ' v = 0 := by
  obtain ⟨iv, hp⟩ := h.program
  obtain ⟨p', hp'⟩ := added_program hs hc h0 ha hn hp
  have hpr := program_spec hp
  have hiv := hpr.iv_eq
  subst hiv
  refine ⟨p', withRest s.freq a σ, ⟨⟨_, hp'⟩, added_feasible hs hc ha hn hpr (program_spec hp') h.feasible⟩, added_objective hs ha hn hp hp' σ,
    fun v hv => withRest_other hv, fun i v hv => ?_⟩
  obtain ⟨h1, h2⟩ := rest_flows ha hv
  rw [withRest_own h2, h1]

/-- C55: the optimum with the additional asset is at most the optimum without it. -/
theorem C55_optimum (hs : s.Adds s' a) (hc : s.constraints = []) (ha : a.CanIdle s.freq s.data.n) (h : Run s (.str name) flags S r V)
    (h' : Run s' (.str name) flags S' r' V') (hS' : S'.Exact) :
    ∃ q q', r.status.objective = some q ∧ r'.status.objective = some q' ∧ q' ≤ q := by
  obtain ⟨p, σ, hco⟩ := h.core
  obtain ⟨p', σ', hco'⟩ := h'.core
  have hp := program_spec hco.program
  have hp' := program_spec hco'.program
  have hn : a.name ∉ s.assets.map Asset.name := by
    obtain ⟨l1, l2, e1, e2⟩ := hs.assets
    have := hp'.vars.nodup
    rw [e2, List.map_append, List.map_cons] at this
    rw [e1, List.map_append]
    exact (List.nodup_cons.1 (List.nodup_middle.1 this)).1
  have hopt := core_optimal hco' hS' h'.feasible
  refine ⟨_, _, objective_value hco, objective_value hco', ?_⟩
  have hf := added_feasible hs hc ha hn hp hp' hco.feas
  exact le_trans (hopt.2 _ hf) (le_of_eq (added_objective hs ha hn hco.program hco'.program σ))

/-- C55: the cost read from the results, with the penalties, does not increase. -/
theorem C55_price (hs : s.Adds s' a) (hc : s.constraints = []) (ha : a.CanIdle s.freq s.data.n) (h : Run s (.str "price") flags S r V)
    (h' : Run s' (.str "price") flags S' r' V') (hS' : S'.Exact) (hw : ∀ a ∈ s.assets, a.WellNamed) (hw' : ∀ a ∈ s'.assets, a.WellNamed) :
    s'.readCost V' + spillPenalty * s'.readSpill V' ≤ s.readCost V + spillPenalty * s.readSpill V := by
  obtain ⟨q, q', e, e', hle⟩ := C55_optimum hs hc ha h h' hS'
  rw [C40_results h hw, Option.some.injEq] at e
  rw [C40_results h' hw', Option.some.injEq] at e'
  rw [e, e']
  exact hle

/-- C55: nor do the emissions. -/
theorem C55_carbon (hs : s.Adds s' a) (hc : s.constraints = []) (ha : a.CanIdle s.freq s.data.n) (h : Run s (.str "carbon") flags S r V)
    (h' : Run s' (.str "carbon") flags S' r' V') (hS' : S'.Exact) (hw : ∀ a ∈ s.assets, a.WellNamed) (hw' : ∀ a ∈ s'.assets, a.WellNamed) :
    s'.readEmissions V' + spillPenalty * s'.readSpill V' ≤ s.readEmissions V + spillPenalty * s.readSpill V := by
  obtain ⟨q, q', e, e', hle⟩ := C55_optimum hs hc ha h h' hS'
  rw [C41_results h hw, Option.some.injEq] at e
  rw [C41_results h' hw', Option.some.injEq] at e'
  rw [e, e']
  exact hle

end

/-! ### The hypotheses are met -/

/-- C55: without a battery the loads cost 550, with a battery of 2 MWh 370. -/
example : ∃ s s' a S S' r r' V V', s.Adds s' a ∧ s.constraints = [] ∧ a.CanIdle s.freq s.data.n ∧ Run s (.str "price") {} S r V ∧
    Run s' (.str "price") {} S' r' V' ∧ S'.Exact ∧ (∀ a ∈ s.assets, a.WellNamed) ∧ (∀ a ∈ s'.assets, a.WellNamed) ∧
    r.status.objective = some 550 ∧ r'.status.objective = some 370 := by
  obtain ⟨s, r, V, hs, h, ht⟩ := Demo.run demoBare_test
  obtain ⟨s', r', V', S', hs', hS', h', ht'⟩ := Demo.runOptimal demoGrow_small
  simp only [Bool.and_eq_true, decide_eq_true_eq] at ht ht'
  have n := site_new hs
  have n' := site_new hs'
  refine ⟨s, s', .battery (growBattery 2), _, S', r, r', V, V', ⟨?_, ?_, ?_, ?_, ?_, ?_⟩, ?_, ?_, h, h', hS', ?_, ?_, ht.2, ht'.2⟩
  · have e : s.data = s'.data := by
      have a : demoBare.site.toOption.map Site.data = (demoGrow 2).site.toOption.map Site.data := by decide +kernel
      rw [hs, hs'] at a
      exact Option.some.inj a
    exact e.symm
  · rw [n.constraints, n'.constraints]; rfl
  · rw [n.freq, n'.freq]; rfl
  · rw [n.importLimit, n'.importLimit]; rfl
  · rw [n.exportLimit, n'.exportLimit]; rfl
  · exact ⟨[], [], by rw [ht.1.1]; rfl, by rw [ht'.1.1]; rfl⟩
  · rw [n.constraints]; rfl
  · have e : s.freq = ⟨60⟩ := by simp [Site.freq, n.freq, demoBare]
    rw [e]
    show _ ∧ _
    decide +kernel
  · rw [ht.1.1]; simp
  · rw [ht'.1.1]; simp [Asset.WellNamed]; decide +kernel

end EPL
