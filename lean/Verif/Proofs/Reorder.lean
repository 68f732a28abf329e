/-
The program and the results of a site whose assets come in another order.
-/
import Verif.Proofs.Shuffle
import Verif.Proofs.Optimum
import Verif.Spec.Reorder

namespace EPL

theorem Site.Reordered.symm {s s' : Site} (h : s.Reordered s') : s'.Reordered s :=
  ⟨h.data.symm, h.constraints.symm, h.freqMins.symm, h.importLimit.symm, h.exportLimit.symm, h.assets.symm⟩

theorem ofSite_iff {v : VarId} : v.OfSite ↔ ∀ k, v.owner ≠ .aux k := by
  cases v <;> simp [VarId.OfSite, VarId.owner]

theorem Base.AllOver.mono {P Q : LpVar → Prop} {b : Base} (h : b.AllOver P) (hm : ∀ v, P v → Q v) : b.AllOver Q :=
  ⟨h.electricGeneration.mono hm, h.htGeneration.mono hm, h.ltGeneration.mono hm, h.electricLoad.mono hm, h.htLoad.mono hm,
    h.ltLoad.mono hm, h.electricCharge.mono hm, h.electricDischarge.mono hm, h.gasConsumption.mono hm, h.binary.mono hm⟩

section
variable {s s' : Site} {objective : Objective} {flags : Flags}

theorem Site.Reordered.freq (h : s.Reordered s') : s'.freq = s.freq := by simp [Site.freq, h.freqMins]

theorem Site.Reordered.oneInterval (h : s.Reordered s') (i : Nat) : s'.oneInterval i = s.oneInterval i := by
  simp only [Site.oneInterval, h.freq, h.importLimit, h.exportLimit]

theorem Site.Reordered.ivars (h : s.Reordered s') (hv : VarsOk s flags s.data.n) (hv' : VarsOk s' flags s'.data.n) :
    (s.ivarsTo flags s.data.n).Shuffled (s'.ivarsTo flags s'.data.n) := by
  rw [h.data] at hv' ⊢
  unfold Site.ivarsTo IVars.Shuffled
  rw [List.forall₂_map_left_iff, List.forall₂_map_right_iff]
  refine forall₂_same fun i hi => ?_
  rw [List.mem_range] at hi
  refine ⟨s.oneInterval i, _, s'.assets.flatMap (fun a => a.ois i s.freq flags), ones_eq hv hi, ?_, ?_⟩
  · rw [ones_eq hv' hi, h.oneInterval, h.freq]
  · exact h.assets.flatMap_right _

theorem sumOver_like {q : Base → Val} {l l' : List OneInterval} (h : l.Perm l') : (sumOver q l).Like (sumOver q l') := .sum_perm (h.map _)

theorem Site.Reordered.siteList (h : s.Reordered s') (hv : VarsOk s flags s.data.n) (hv' : VarsOk s' flags s'.data.n) {i : Nat} (hi : i < s.data.n) :
    List.Forall₂ Con.Like (s.siteList flags i) (s'.siteList flags i) := by
  rw [h.data] at hv'
  have hp : (s.ones flags i).Perm (s'.ones flags i) := by
    rw [ones_eq hv hi, ones_eq hv' hi, h.oneInterval, h.freq]
    exact (h.assets.flatMap_right _).cons _
  have key : ∀ q : Base → Val, (sumOver q (s.ones flags i)).Like (sumOver q (s'.ones flags i)) := fun q => sumOver_like hp
  unfold Site.siteList Site.withinList
  simp only [h.data, h.oneInterval]
  refine .cons (Expr.Like.eqC ?_ (.refl _)) (.cons (.refl _) (.cons (.refl _) (.cons (.refl _) (.cons (Expr.Like.eqC ?_ (.refl _)) (.cons (Expr.Like.eqC ?_ (.refl _)) .nil)))))
  · exact .add (.sub (.sub (.add (.refl _) (key _)) (key _)) (key _)) (key _)
  · exact .sub (.sub (key _) (key _)) (.refl _)
  · exact .add (.sub (.sub (key _) (key _)) (.refl _)) (.refl _)

theorem Site.Reordered.build (h : s.Reordered s') {x : IVars × List Con} (hn : (s.assets.map Asset.name).Nodup) (hb : s.build flags = .ok x) :
    ∃ cs, s'.build flags = .ok (s'.ivarsTo flags s'.data.n, cs) := by
  have hbu := built_of_build (iv := x.1) (cs := x.2) hn hb
  have hn' : (s'.assets.map Asset.name).Nodup := (h.assets.map _).nodup_iff.1 hn
  by_cases h0 : 0 < s'.data.n
  · refine build_ok hn' h0 (fun i hi => ?_) (fun i hi a ha => ?_)
    · rw [h.data] at hi ⊢
      exact hbu.rows i hi
    · rw [h.data] at hi
      exact hbu.buildable i hi a (h.assets.mem_iff.2 ha)
  · have h0' : s'.data.n = 0 := by omega
    have h0s : s.data.n = 0 := by rw [← h.data]; exact h0'
    unfold Site.build at hb ⊢
    rw [h0s] at hb
    rw [h0']
    simp only [List.range_zero, Site.buildLoop, ok_bind, bind_ok, Except.ok.injEq, List.nil_append] at hb ⊢
    obtain ⟨after, ha, _⟩ := hb
    obtain ⟨bs, hbs, -⟩ := flatMapE_ok.1 ha
    obtain ⟨bs', hbs', -⟩ := mapE_perm h.assets hbs
    exact ⟨bs'.flatten, _, flatMapE_ok.2 ⟨bs', hbs', rfl⟩, rfl⟩

/-- The program of the reordered site. -/
structure ProgLike (objective : Objective) (p p' : Prob) (g : Assign → Assign) : Prop where
  plain : ∀ σ v, v.OfSite → g σ v = σ v
  value : ∀ σ, p'.obj.eval (g σ) = p.obj.eval σ
  feasible : ∀ σ, p.Feasible σ → p'.Feasible (g σ)
  like : p.obj.Like p'.obj
  vars : objective.NoExtremes → ∀ v ∈ p'.vars, v ∈ p.vars

theorem Site.Reordered.program (h : s.Reordered s') {iv : IVars} {p : Prob} (hp : s.program objective flags = .ok (iv, p)) :
    ∃ p', s'.program objective flags = .ok (s'.ivarsTo flags s'.data.n, p') ∧ ∃ g, ProgLike objective p p' g := by
  obtain ⟨base, custom, objCons, hbu, hcu, hob, hcons⟩ := (program_spec hp).built
  have hn := hbu.vars.nodup
  have hn' : (s'.assets.map Asset.name).Nodup := (h.assets.map _).nodup_iff.1 hn
  obtain ⟨base', hb'⟩ : ∃ cs, s'.build flags = .ok (s'.ivarsTo flags s'.data.n, cs) := by
    simp only [Site.program, bind_ok, Prod.exists] at hp
    obtain ⟨_, _, iv', cons, hb, _⟩ := hp
    exact h.build hn hb
  have hbu' := built_of_build hn' hb'
  have hiv : iv.Shuffled (s'.ivarsTo flags s'.data.n) := by
    rw [hbu.iv_eq]
    exact h.ivars hbu.vars hbu'.vars
  have hov : iv.Over NotAux := by
    rw [hbu.iv_eq]
    intro l hl o ho
    have := ivars_over hbu.vars hbu.buildable l hl o ho
    exact ⟨this.1.mono fun v hv k => not_aux hv, fun attr v hv => (this.2 attr v hv).mono fun v hv k => not_aux hv⟩
  have hov' := Shuffled_over hiv hov
  obtain ⟨custom', e1, e2⟩ := flatMapE_rel (P := fun x y => x = y ∧ x ∈ s.constraints) (Q := Con.Like)
    (f' := addCustomConstraint s.data (s'.ivarsTo flags s'.data.n)) (forall₂_same fun a ha => ⟨rfl, ha⟩)
    (fun x y hxy l hl => by obtain ⟨rfl, hm⟩ := hxy; exact addCustom_like hiv hl) hcu
  obtain ⟨⟨obj', objCons'⟩, e3, g, e4⟩ := objective_like hiv hov hob
  have hbase : ∀ c', s'.BaseCon flags c' → ∃ c, s.BaseCon flags c ∧ c.Like c' := by
    rintro c' (⟨i, hi, hc⟩ | ⟨i, hi, a, ha, hc⟩ | ⟨a, ha, hc⟩)
    · rw [h.data] at hi
      obtain ⟨c, hc, hl⟩ := forall₂_mem (h.siteList hbu.vars hbu'.vars hi) hc
      exact ⟨c, .inl ⟨i, hi, hc⟩, hl⟩
    · rw [h.data] at hi
      rw [h.freq] at hc
      exact ⟨c', .inr (.inl ⟨i, hi, a, h.assets.mem_iff.2 ha, hc⟩), .refl _⟩
    · rw [h.data, h.freq] at hc
      exact ⟨c', .inr (.inr ⟨a, h.assets.mem_iff.2 ha, hc⟩), .refl _⟩
  refine ⟨⟨base' ++ custom' ++ objCons', obj'⟩, ?_, g, ⟨fun σ v hv => e4.plain σ v (ofSite_iff.1 hv), fun σ => ?_, fun σ hf => ?_, e4.like, fun ho v hv => ?_⟩⟩
  · unfold Site.program
    have : noDup (s'.assets.map Asset.name) = true := decide_eq_true hn'
    rw [this, pyAssert_true, hb']
    simp only [ok_bind]
    generalize s'.ivarsTo flags s'.data.n = iv' at e1 e3 ⊢
    rw [h.constraints, h.data, e1]
    simp only [ok_bind]
    rw [e3]
    rfl
  · change obj'.eval (g σ) = p.obj.eval σ
    rw [← e4.like.eval]
    exact Expr.eval_congr (e4.fixed σ)
  · rw [feasible_iff] at hf ⊢
    obtain ⟨hf1, hf2⟩ := hf
    refine ⟨fun c' hcm => ?_, fun v hv => ?_⟩
    · have same : ∀ c : Con, c ∈ p.cons → c.Over NotAux → c.Like c' → c'.Good (g σ) := by
        intro c hc ho hl
        refine hl.good (good_congr (fun v hv => e4.plain σ v.id (ho v hv)) (hf1 c hc))
      rw [List.mem_append, List.mem_append] at hcm
      rcases hcm with (hcm | hcm) | hcm
      · obtain ⟨c, hc, hl⟩ := hbase c' ((hbu'.mem_iff c').1 hcm)
        refine same c (by rw [hcons]; exact List.mem_append_left _ (List.mem_append_left _ ((hbu.mem_iff c).2 hc))) ?_ hl
        exact (base_over hbu.vars hbu.buildable hc).mono fun v hv k => not_aux hv
      · obtain ⟨c, hc, hl⟩ := forall₂_mem e2 hcm
        exact same c (by rw [hcons]; exact List.mem_append_left _ (List.mem_append_right _ hc)) (custom_over hov hcu c hc) hl
      · exact e4.good σ (fun c hc => hf1 c (by rw [hcons]; exact List.mem_append_right _ hc)) c' hcm
    · have hv' := e4.like.vars.2 hv
      have hb := hf2 v hv'
      unfold LpVar.InBounds at hb ⊢
      rw [e4.fixed σ v hv']
      exact hb
  · rw [prob_vars_iff] at hv ⊢
    rcases hv with ⟨c', hcm, hv⟩ | hv
    · rw [List.mem_append, List.mem_append] at hcm
      rcases hcm with (hcm | hcm) | hcm
      · obtain ⟨c, hc, hl⟩ := hbase c' ((hbu'.mem_iff c').1 hcm)
        exact .inl ⟨c, by rw [hcons]; exact List.mem_append_left _ (List.mem_append_left _ ((hbu.mem_iff c).2 hc)), hl.2.vars.2 hv⟩
      · obtain ⟨c, hc, hl⟩ := forall₂_mem e2 hcm
        exact .inl ⟨c, by rw [hcons]; exact List.mem_append_left _ (List.mem_append_right _ hc), hl.2.vars.2 hv⟩
      · have : objCons' = [] := (objective_simple hov' ho e3).2
        rw [this] at hcm
        cases hcm
    · exact .inr (e4.like.vars.2 hv)

end

end EPL
