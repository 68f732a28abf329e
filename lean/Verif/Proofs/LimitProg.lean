/-
The programs with and without `limit_charge_variables_to_valid_events`.
-/
import Verif.Proofs.LimitCons

namespace EPL

open Classical

/-- The programs without and with the flag. -/
structure Paired (s : Site) (objective : Objective) (flags : Flags) (p p' : Prob) : Prop where
  off : s.program objective flags.unlimited = .ok (s.ivarsTo flags.unlimited s.data.n, p)
  on : s.program objective flags.limited = .ok (s.ivarsTo flags.limited s.data.n, p')
  lists : Lists s.Removed p.cons p'.cons
  obj : p'.obj = p.obj.drop s.Removed

section
variable {s : Site} {objective : Objective} {flags : Flags} {p p' : Prob} {σ : Assign}

theorem lists_of_mem {G : VarId → Prop} {a b : List Con} (h1 : ∀ c ∈ a, c.drop G ∈ b ∨ c.Dead G) (h2 : ∀ c ∈ b, ∃ c0 ∈ a, c0.drop G = c) :
    Lists G a b := ⟨h1, h2⟩

/-- When the intervals can be built, both programs exist or neither does. -/
theorem pair_of (hn : (s.assets.map Asset.name).Nodup) (h0 : 0 < s.data.n) (hp : s.Plugs) (ho : objective.NoMaxMany)
    (hrow : ∀ i < s.data.n, s.data.HasRow i) (hb : ∀ i < s.data.n, ∀ a ∈ s.assets, a.Buildable i) :
    (∀ iv p, s.program objective flags.unlimited = .ok (iv, p) → ∃ p', Paired s objective flags p p') ∧
    (∀ iv p', s.program objective flags.limited = .ok (iv, p') → ∃ p, Paired s objective flags p p') := by
  obtain ⟨b1, hb1⟩ := build_ok (flags := flags.unlimited) hn h0 hrow hb
  obtain ⟨b2, hb2⟩ := build_ok (flags := flags.limited) hn h0 hrow hb
  have k1 := built_of_build hn hb1
  have k2 := built_of_build hn hb2
  have hl : Lists s.Removed b1 b2 := by
    obtain ⟨l1, l2⟩ := base_lists hp k2.vars k1.vars hb
    refine ⟨fun c hc => (l1 c ((k1.mem_iff c).1 hc)).imp (k2.mem_iff _).2 id, fun c hc => ?_⟩
    obtain ⟨c0, h, h'⟩ := l2 c ((k2.mem_iff c).1 hc)
    exact ⟨c0, (k1.mem_iff _).2 h, h'⟩
  have hd := droppable hp k1.vars hb
  have hc := flatMapE_natural_id (f := addCustomConstraint s.data (s.ivarsTo flags.unlimited s.data.n))
    (f' := addCustomConstraint s.data (s.ivarsTo flags.limited s.data.n)) (h := Con.drop s.Removed) (l := s.constraints) (by
      intro c _
      rw [ivars_drop k2.vars k1.vars hb]
      exact addCustom_drop hd.natural c)
  have hob := getObjective_drop (d := s.data) hd ho
  rw [← ivars_drop k2.vars k1.vars hb] at hob
  have hna : noDup (s.assets.map Asset.name) = true := decide_eq_true hn
  have make : ∀ custom obj objCons, flatMapE (addCustomConstraint s.data (s.ivarsTo flags.unlimited s.data.n)) s.constraints = .ok custom →
      getObjective s.data (s.ivarsTo flags.unlimited s.data.n) objective = .ok (obj, objCons) →
      Paired s objective flags ⟨b1 ++ custom ++ objCons, obj⟩
        ⟨b2 ++ custom.map (Con.drop s.Removed) ++ objCons.map (Con.drop s.Removed), obj.drop s.Removed⟩ := by
    intro custom obj objCons e1 e2
    rw [e1, map_ok] at hc
    rw [e2, map_ok] at hob
    refine ⟨?_, ?_, (hl.append (.of_map rfl)).append (.of_map rfl), rfl⟩
    · simp only [Site.program, hna, pyAssert_true, ok_bind, hb1, e1, e2]
    · simp only [Site.program, hna, pyAssert_true, ok_bind, hb2, hc, hob, pairDrop]
  constructor
  · intro iv p h
    simp only [Site.program, hna, pyAssert_true, ok_bind, hb1, bind_ok, Prod.exists, Except.ok.injEq, Prod.mk.injEq] at h
    obtain ⟨custom, e1, obj, objCons, e2, -, rfl⟩ := h
    exact ⟨_, make _ _ _ e1 e2⟩
  · intro iv p' h
    simp only [Site.program, hna, pyAssert_true, ok_bind, hb2, bind_ok, Prod.exists, Except.ok.injEq, Prod.mk.injEq] at h
    obtain ⟨custom', e1, obj', objCons', e2, -, rfl⟩ := h
    rw [e1, eq_comm, map_eq_ok] at hc
    rw [e2, eq_comm, map_eq_ok] at hob
    obtain ⟨custom, f1, rfl⟩ := hc
    obtain ⟨⟨obj, objCons⟩, f2, e3⟩ := hob
    simp only [pairDrop, Prod.mk.injEq] at e3
    obtain ⟨rfl, rfl⟩ := e3
    exact ⟨_, make _ _ _ f1 f2⟩

namespace Paired

theorem progOff (h : Paired s objective flags p p') : Prog s objective flags.unlimited (s.ivarsTo flags.unlimited s.data.n) p := program_spec h.off
theorem progOn (h : Paired s objective flags p p') : Prog s objective flags.limited (s.ivarsTo flags.limited s.data.n) p' := program_spec h.on

theorem vars_iff (h : Paired s objective flags p p') {v : LpVar} : v ∈ p'.vars ↔ v ∈ p.vars ∧ ¬ s.Removed v.id := by
  rw [prob_vars_iff, prob_vars_iff, h.obj, Expr.mem_drop]
  constructor
  · rintro (⟨c, hc, hv⟩ | ⟨hv, hg⟩)
    · obtain ⟨c0, h0, rfl⟩ := h.lists.back c hc
      obtain ⟨h1, h2⟩ := (Expr.mem_drop s.Removed).1 hv
      exact ⟨.inl ⟨c0, h0, h1⟩, h2⟩
    · exact ⟨.inr hv, hg⟩
  · rintro ⟨⟨c, hc, hv⟩ | hv, hg⟩
    · rcases h.lists.fwd c hc with hd | hd
      · exact .inl ⟨_, hd, (Expr.mem_drop s.Removed).2 ⟨hv, hg⟩⟩
      · exact absurd (hd.1 v hv) hg
    · exact .inr ⟨hv, hg⟩

theorem allowed (h : Paired s objective flags p p') (hp : s.Plugs) {v : LpVar} (hv : v ∈ p.vars) : ZeroAllowed s v := by
  obtain ⟨base, custom, objCons, hbu, hcu, hob, hcons⟩ := h.progOff.built
  have hov := ivars_allowed hp hbu.vars hbu.buildable
  obtain ⟨h1, h2⟩ := objective_over hov hob
  have fin : OrAny (ZeroAllowed s) v → ZeroAllowed s v := by
    rintro (h | ⟨k, hk⟩)
    · exact h
    · intro hr
      cases hid : v.id <;> rw [hid] at hr hk <;> simp [Site.Removed, VarId.owner] at hr hk
  rcases prob_vars_iff.1 hv with ⟨c, hc, hv⟩ | hv
  · rw [hcons, List.mem_append, List.mem_append] at hc
    rcases hc with (hc | hc) | hc
    · exact base_allowed hp hbu.vars hbu.buildable ((hbu.mem_iff c).1 hc) v hv
    · exact custom_over hov hcu c hc v hv
    · exact fin (h2 c hc v hv)
  · exact fin (h1 v hv)

/-- Without the flag, the variables it removes are zero in every feasible answer. -/
theorem zero (h : Paired s objective flags p p') (hp : s.Plugs) (hf : p.Feasible σ) {v : LpVar} (hv : v ∈ p.vars) (hr : s.Removed v.id) :
    σ v.id = 0 := by
  have hm := prog_vars h.off hv
  cases hid : v.id with
  | evFlow attr i name e ch sp =>
    rw [hid] at hr
    obtain ⟨hat, hi, c, hc, rfl, hne⟩ := hr
    have hmine : c.Mine flags.unlimited (.evFlow attr i c.name e ch sp) := by
      rcases hm with (hm | ⟨a, ha, hm⟩) | ⟨k, hk⟩
      · obtain ⟨attr, _, j, hj⟩ := hm
        rw [hid] at hj
        cases hj
      · rw [hid] at hm
        cases a with
        | evs c' =>
          have : c' = c := by
            have := asset_unique h.progOff.vars.nodup ha hc (by simpa [Asset.name] using hm.1.symm)
            cases this
            rfl
          subst this
          exact hm
        | _ => obtain ⟨_, _, _, hj⟩ := hm; cases hj
      · rw [hid] at hk
        cases hk
    obtain ⟨-, -, he, ⟨x, hx, rfl⟩, -⟩ := hmine
    have hrow : c.HasRow i := (h.progOff.buildable hi hc : c.Shape ∧ c.HasRow i).2
    have hlt : c.present i e < 1 := by
      have := (hp.entries c hc i hi e he).2
      rw [hrow.entry_eq he] at hne
      exact lt_of_le_of_ne this hne
    have facts := evs_facts h.progOff hf hc hi
    have hev := List.getElem?_eq_getElem he
    have key : c.chargeOf flags.unlimited σ i e x.name sp = 0 ∧ c.chargeBinOf flags.unlimited σ i e x.name sp = 0 := by
      cases sp with
      | true => exact (facts.spill e _ hev x hx).absent hlt
      | false => exact (facts.charge e _ hev x hx).absent hlt
    simp only [EvsCfg.chargeOf, EvsCfg.chargeBinOf, Bool.false_eq_true, false_and, if_false] at key
    simp only [chargeAttrs, List.mem_cons, List.not_mem_nil, or_false] at hat
    rcases hat with rfl | rfl
    · exact key.1
    · exact key.2
  | _ => rw [hid] at hr; exact absurd hr id

/-- An assignment with zero for the removed variables. -/
noncomputable def zeroed (s : Site) (σ : Assign) : Assign := fun id => if s.Removed id then 0 else σ id

theorem zeroed_removed {id : VarId} (h : s.Removed id) : zeroed s σ id = 0 := if_pos h
theorem zeroed_kept {id : VarId} (h : ¬ s.Removed id) : zeroed s σ id = σ id := if_neg h

theorem feasible_on (h : Paired s objective flags p p') (hp : s.Plugs) (hf : p.Feasible σ) : p'.Feasible σ := by
  refine ⟨fun c hc => ?_, fun v hv => hf.2 v (h.vars_iff.1 hv).1⟩
  obtain ⟨c0, h0, rfl⟩ := h.lists.back c hc
  rw [Con.drop_holds]
  · exact hf.1 c0 h0
  · exact fun v hv hr => h.zero hp hf (mem_prob_vars h0 hv) hr

theorem feasible_off (h : Paired s objective flags p p') (hp : s.Plugs) (hf : p'.Feasible σ) : p.Feasible (zeroed s σ) := by
  have hz : ∀ v : LpVar, s.Removed v.id → zeroed s σ v.id = 0 := fun v hr => zeroed_removed hr
  refine ⟨fun c hc => ?_, fun v hv => ?_⟩
  · rcases h.lists.fwd c hc with hd | hd
    · rw [← Con.drop_holds s.Removed (fun v _ hr => hz v hr)]
      have := hf.1 _ hd
      unfold Con.Holds at this ⊢
      rw [Expr.eval_congr (τ := σ)]
      · exact this
      · intro v hv
        exact zeroed_kept ((Expr.mem_drop s.Removed).1 hv).2
    · exact hd.2 _ fun v hv => hz v (hd.1 v hv)
  · by_cases hr : s.Removed v.id
    · obtain ⟨h1, h2⟩ := h.allowed hp hv hr
      refine ⟨fun l hl => ?_, fun u hu => ?_, fun _ => .inl (hz v hr)⟩
      · rw [h1] at hl
        cases hl
        rw [hz v hr]
      · rw [hz v hr]
        exact h2 u hu
    · have := hf.2 v (h.vars_iff.2 ⟨hv, hr⟩)
      unfold LpVar.InBounds at this ⊢
      rw [zeroed_kept hr]
      exact this

theorem obj_on (h : Paired s objective flags p p') (hp : s.Plugs) (hf : p.Feasible σ) : p'.obj.eval σ = p.obj.eval σ := by
  rw [h.obj, Expr.eval_drop]
  exact fun v hv hr => h.zero hp hf (prob_vars_iff.2 (.inr hv)) hr

theorem obj_off (h : Paired s objective flags p p') : p.obj.eval (zeroed s σ) = p'.obj.eval σ := by
  rw [← Expr.eval_drop s.Removed (e := p.obj) (σ := zeroed s σ) (fun v _ hr => zeroed_removed hr), ← h.obj]
  apply Expr.eval_congr
  intro v hv
  rw [h.obj] at hv
  exact zeroed_kept ((Expr.mem_drop s.Removed).1 hv).2

theorem optimal_on (h : Paired s objective flags p p') (hp : s.Plugs) (ho : p.Optimal σ) : p'.Optimal σ := by
  refine ⟨h.feasible_on hp ho.1, fun τ hτ => ?_⟩
  rw [h.obj_on hp ho.1, ← h.obj_off]
  exact ho.2 _ (h.feasible_off hp hτ)

theorem optimal_off (h : Paired s objective flags p p') (hp : s.Plugs) (ho : p'.Optimal σ) : p.Optimal (zeroed s σ) := by
  refine ⟨h.feasible_off hp ho.1, fun τ hτ => ?_⟩
  rw [h.obj_off, ← h.obj_on hp hτ]
  exact ho.2 _ (h.feasible_on hp hτ)

/-- The table of the program without the flag can be read off the answer with it. -/
theorem readable (h : Paired s objective flags p p') {vals vals' : Values} (ha : ∀ id, ¬ s.Removed id → vals' id = vals id)
    (hz : ∀ v ∈ p.vars, s.Removed v.id → vals v.id = some 0) :
    (s.ivarsTo flags.unlimited s.data.n).Readable s.Removed vals vals' := by
  have hv := h.progOff.vars
  have hb : ∀ i < s.data.n, ∀ a ∈ s.assets, a.Buildable i := fun i hi a ha => h.progOff.buildable hi ha
  have hk : ∀ {x : Val}, x.Known p → x.Over (fun v => s.Removed v.id → vals v.id = some 0) := by
    intro x hx
    cases x with
    | var v => exact hz v hx
    | _ => trivial
  refine ⟨ha, ?_, ?_, ?_⟩
  · intro l hl o ho
    obtain ⟨i, hi, rfl⟩ := ivars_mem hl
    rcases ones_mem hv hi (hb i hi) ho with ⟨_, _, _, _, h2⟩ | ⟨c, hc, e, ev, k, ch, he, hch⟩
    · exact over_mono h2 fun v hv h => absurd h hv
    · obtain ⟨a1, a2, -⟩ := arrays_known h.progOff hc hi
      have nf : ∀ {attr isp}, attr ∉ chargeAttrs → ¬ s.Removed (.evFlow attr i c.name e ch.name isp) := fun h => not_removed_flow h
      have rest : ∀ cs cd isp,
          let o := c.obj i s.freq flags.unlimited cs cd isp ev e ch k
          o.charge.Known p ∧ o.chargeBin.Known p →
          (o.charge.Over (fun v => s.Removed v.id → vals v.id = some 0) ∧ o.chargeBin.Over (fun v => s.Removed v.id → vals v.id = some 0) ∧
          o.discharge.Over (fun v => s.Removed v.id → vals v.id = some 0) ∧ o.dischargeBin.Over (fun v => s.Removed v.id → vals v.id = some 0) ∧
          o.initialSoc.Over (fun v => s.Removed v.id → vals v.id = some 0) ∧ o.finalSoc.Over (fun v => s.Removed v.id → vals v.id = some 0) ∧
          o.loss.Over (fun v => s.Removed v.id → vals v.id = some 0)) := by
        intro cs cd isp o hko
        refine ⟨hk hko.1, hk hko.2, over_ite ?_ trivial, over_ite ?_ trivial, over_ite ?_ trivial, over_ite ?_ trivial, ?_⟩
        · exact fun h => absurd h (nf (by decide))
        · exact fun h => absurd h (nf (by decide))
        · exact fun h => absurd h id
        · exact fun h => absurd h id
        · exact fun h => absurd h (nf (by decide))
      rcases hch with ⟨hk', rfl⟩ | ⟨hk', rfl⟩
      · refine (evObject_over (rest true true false ⟨?_, ?_⟩)).1.2
        · have := a1.charge e k
          simp only [EvsCfg.array, arr2_eq he hk'] at this
          exact this
        · have := a1.chargeBin e k
          simp only [EvsCfg.array, arr2_eq he hk'] at this
          exact this
      · refine (evObject_over (rest false false true ⟨?_, ?_⟩)).2.2
        · have := a2.charge e k
          simp only [EvsCfg.spillArray, arr2_eq he hk'] at this
          exact this
        · have := a2.chargeBin e k
          simp only [EvsCfg.spillArray, arr2_eq he hk'] at this
          exact this
  · intro l hl o ho hk1 hk2
    obtain ⟨i, hi, rfl⟩ := ivars_mem hl
    rcases ones_mem hv hi (hb i hi) ho with ⟨_, _, _, _, h2⟩ | ⟨c, hc, e, ev, k, ch, he, ⟨_, rfl⟩ | ⟨_, rfl⟩⟩
    · exact h2
    · exact absurd rfl hk1
    · exact absurd rfl hk2
  · intro l hl x hx
    obtain ⟨i, hi, rfl⟩ := ivars_mem hl
    have soc : ∀ c cs cd isp ev e ch k, (EvsCfg.obj c i s.freq flags.unlimited cs cd isp ev e ch k).initialSoc.Over (fun v => ¬ s.Removed v.id) ∧
        (EvsCfg.obj c i s.freq flags.unlimited cs cd isp ev e ch k).finalSoc.Over (fun v => ¬ s.Removed v.id) := by
      intro c cs cd isp ev e ch k
      refine ⟨over_ite ?_ trivial, over_ite ?_ trivial⟩ <;> exact fun h => h
    rcases hx with hx | hx <;>
      rcases ones_mem hv hi (hb i hi) hx with ⟨h1, h2, _⟩ | ⟨c, hc, e, ev, k, ch, he, ⟨_, hh⟩ | ⟨_, hh⟩⟩ <;>
      first | exact absurd rfl h1 | exact absurd rfl h2 | (cases hh; exact soc ..) | cases hh

end Paired

end

end EPL
