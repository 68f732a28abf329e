/-
C75: the order in which the assets are given to a site does not matter.
-/
import Verif.Proofs.ReorderRead
import Verif.Props.Peak
import Verif.Spec.DemoReorder

namespace EPL

section
variable {s s' : Site} {objective : Objective} {flags : Flags} {S S' : Solver} {r r' : SimResult} {V V' : String → Nat → ℚ}

theorem holds_ofSite {v : LpVar} (h : s.Holds flags v) : v.id.OfSite := by
  obtain ⟨id, low, up, b⟩ := v
  rcases h with ⟨_, _, i, rfl⟩ | ⟨a, _, h⟩
  · trivial
  · cases a with
    | evs c => cases id <;> first | trivial | exact absurd h id
    | _ => obtain ⟨_, _, i, rfl⟩ := h; trivial

/-- C75: the constructor accepts the assets in any order, and builds the same site up to that order. -/
theorem C75_constructor {assets assets' : List Asset} (ha : assets.Perm assets') {raw : RawSiteData} {freqMins il el : ℚ}
    {constraints : List Constraint} {kwargs : List (String × KwData)} (h : Site.new assets raw freqMins il el constraints kwargs = .ok s) :
    ∃ s', Site.new assets' raw freqMins il el constraints kwargs = .ok s' ∧ s.Reordered s' := by
  unfold Site.new at h ⊢
  split at h
  · simp at h
  · rename_i hk
    rw [if_neg hk]
    simp only [bind_ok, Except.ok.injEq] at h ⊢
    obtain ⟨d, hd, e, he, as, has, c, hc, rfl⟩ := h
    obtain ⟨as', has', hp⟩ := mapE_perm ha has
    exact ⟨_, ⟨d, hd, e, he, as', has', c, hc, rfl⟩, ⟨rfl, rfl, rfl, rfl, rfl, hp⟩⟩

/-- C75: every plan that is possible for a site is possible for the site with its assets in another order, at the same objective value.  (Only the
auxiliary variables of min and max terms may differ.) -/
theorem C75_answers (h : s.Reordered s') {p : Prob} {σ : Assign} (ha : Answer s objective flags p σ) :
    ∃ p' σ', Answer s' objective flags p' σ' ∧ p'.obj.eval σ' = p.obj.eval σ ∧ ∀ v : VarId, v.OfSite → σ' v = σ v := by
  obtain ⟨iv, hp⟩ := ha.program
  obtain ⟨p', hp', g, hg⟩ := h.program hp
  exact ⟨p', g σ, ⟨⟨_, hp'⟩, hg.feasible σ ha.feasible⟩, hg.value σ, hg.plain σ⟩

/-- C75: two exact solvers find the same objective value for the two sites. -/
theorem C75_optimum (h : s.Reordered s') (hr : Run s objective flags S r V) (hr' : Run s' objective flags S' r' V') (hS : S.Exact) (hS' : S'.Exact) :
    ∃ q, r.status.objective = some q ∧ r'.status.objective = some q := by
  obtain ⟨p, σ, hco⟩ := hr.core
  obtain ⟨p', σ', hco'⟩ := hr'.core
  obtain ⟨q', hp', g, hg⟩ := h.program hco.program
  rw [hco'.program] at hp'
  cases hp'
  obtain ⟨q, hp, g', hg'⟩ := h.symm.program hco'.program
  rw [hco.program] at hp
  cases hp
  have o := core_optimal hco hS hr.feasible
  have o' := core_optimal hco' hS' hr'.feasible
  refine ⟨_, objective_value hco, ?_⟩
  rw [objective_value hco', Option.some.injEq]
  apply le_antisymm
  · exact le_trans (o'.2 _ (hg.feasible σ hco.feas)) (le_of_eq (hg.value σ))
  · exact le_trans (o.2 _ (hg'.feasible σ' hco'.feas)) (le_of_eq (hg'.value σ'))

/-- C75: whatever a solver answers for a site, the same answer is sound (exact) for the site with its assets in another order, and the results are
the same, up to the order of the columns: the same table, feasibility, spill warning, status and objective value. -/
theorem C75_results (h : s.Reordered s') (hc : s.Constructed) (ho : objective.NoExtremes) (hr : s.optimize objective flags S = .ok r) :
    ∃ S' r', (S.Sound → S'.Sound) ∧ (S.Exact → S'.Exact) ∧ s'.optimize objective flags S' = .ok r' ∧ r.Same r' := by
  obtain ⟨assets, raw, freqMins, il, el, constraints, kwargs, hn⟩ := hc
  have wf := (site_new hn).wf
  simp only [Site.optimize, bind_ok, Prod.exists] at hr
  obtain ⟨iv, p, hp, status, vals, hs, he⟩ := hr
  have hprog := program_spec hp
  have hiv := hprog.iv_eq
  subst hiv
  obtain ⟨p', hp', g, hg⟩ := h.program hp
  obtain ⟨p2, hp2, g', hg'⟩ := h.symm.program hp'
  rw [hp] at hp2
  cases hp2
  have hprog' := program_spec hp'
  have hvars : ∀ v, v ∈ p'.vars ↔ v ∈ p.vars := fun v => ⟨hg.vars ho v, hg'.vars ho v⟩
  have hplain : ∀ v ∈ p'.vars, ∀ σ, g σ v.id = σ v.id := fun v hv σ => hg.plain σ v.id (holds_ofSite (prog_vars_simple ho hp' hv))
  have hsolve : p'.solve (S.moved p p') flags.allowInfeasible = .ok (status, vals) := by
    rw [← hs]
    unfold Prob.solve
    simp only [moved_self, valuesOf_same hvars, noDuplicates_same hvars, hg.like.objValue]
  obtain ⟨r', e1, e2⟩ := h.extractResults hprog.vars hprog'.vars (fun i hi a ha => hprog.buildable hi ha) wf he
  refine ⟨S.moved p p', r', fun hS q hq => ?_, fun hS q hq => ?_, ?_, e2⟩
  · cases moved_status hq
    rw [moved_self] at hq ⊢
    obtain ⟨σ, h1, h2⟩ := hS p hq
    exact ⟨g σ, hg.feasible σ h1, fun v hv => by rw [hplain v hv]; exact h2 v ((hvars v).1 hv)⟩
  · cases moved_status hq
    rw [moved_self] at hq ⊢
    obtain ⟨σ, h1, h2⟩ := hS p hq
    refine ⟨g σ, ⟨hg.feasible σ h1.1, fun τ hτ => ?_⟩, fun v hv => by rw [hplain v hv]; exact h2 v ((hvars v).1 hv)⟩
    rw [hg.value σ, ← hg'.value τ]
    exact h1.2 _ (hg'.feasible τ hτ)
  · simp only [Site.optimize, bind_ok, Prod.exists]
    exact ⟨_, p', hp', status, vals, hsolve, e1⟩

end

/-! ### The hypotheses are met -/

/-- C75: the site of `demoHeat` with its six assets in the opposite order. -/
example : ∃ (s s' : Site) (S S' : Solver) (r r' : SimResult), s.Constructed ∧ s.Reordered s' ∧ s'.assets = s.assets.reverse ∧ s'.assets ≠ s.assets ∧
    s.optimize (.str "price") {} S = .ok r ∧ s'.optimize (.str "price") {} S' = .ok r' ∧ S'.Sound ∧ r.Same r' ∧ r'.status.objective = some 280 := by
  obtain ⟨s, r, V, hs, h, ht⟩ := Demo.run demoHeat_test
  simp only [Bool.and_eq_true, decide_eq_true_eq] at ht
  have hc : s.Constructed := ⟨_, _, _, _, _, _, _, hs⟩
  have hre : s.Reordered { s with assets := s.assets.reverse } := ⟨rfl, rfl, rfl, rfl, rfl, (List.reverse_perm _).symm⟩
  obtain ⟨S', r', h1, _, h3, h4⟩ := C75_results hre hc (objective := .str "price") trivial h.returned
  refine ⟨s, _, _, S', r, r', hc, hre, rfl, ?_, h.returned, h3, h1 h.sound, h4, by rw [h4.status]; exact ht.2⟩
  simp only [ht.1.1]
  decide

/-- C75: a spill and a valve in either order, two different runs. -/
example : ∃ (s s' : Site) (S S' : Solver) (r r' : SimResult) (V V' : String → Nat → ℚ), s.Reordered s' ∧ s'.assets ≠ s.assets ∧
    Run s (.str "price") {} S r V ∧ Run s' (.str "price") {} S' r' V' ∧ S.Exact ∧ S'.Exact ∧ r.status.objective = some 50 := by
  obtain ⟨s, r, V, S, hs, hS, h, ht⟩ := Demo.runOptimal demoOrder_one
  obtain ⟨s', r', V', S', hs', hS', h', ht'⟩ := Demo.runOptimal demoOrder_two
  simp only [Bool.and_eq_true, decide_eq_true_eq] at ht ht'
  obtain ⟨s2, hs2, hre⟩ := C75_constructor (List.Perm.swap _ _ _) hs
  have e : s2 = s' := Except.ok.inj (hs2.symm.trans hs')
  subst e
  refine ⟨s, s2, S, S', r, r', V, V', hre, ?_, h, h', hS, hS', ht.2⟩
  rw [ht.1, ht'.1]
  decide

end EPL
