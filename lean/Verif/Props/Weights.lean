/-
C78: weighing a part of a custom objective more never increases that part.
-/
import Verif.Props.CustomObjectives
import Verif.Props.Peak
import Verif.Spec.DemoWeights

namespace EPL

/-- The term with its coefficient multiplied by a weight. -/
def Term.weigh (w : ℚ) (t : Term) : Term := { t with coefficient := w * t.coefficient }

/-- The value of simple terms over the horizon, read from the results. -/
def Site.readTerms (s : Site) (V : String → Nat → ℚ) (ts : List Term) : ℚ := (ts.map (fun t => s.sumIntervals (fun i => t.read s V i))).sum

/-- The two terms use the same variables. -/
structure Term.Alike (t t' : Term) : Prop where
  attr : t'.attr = t.attr
  type : t'.assetType = t.assetType
  data : t'.intervalData = t.intervalData
  name : t'.assetName = t.assetName
  coefficient : t'.coefficient ≠ 0 → t.coefficient ≠ 0

section
variable {s : Site} {flags : Flags} {iv iv' : IVars} {p p' : Prob}

theorem mapE_at {α β : Type} {f : α → Res β} {l : List α} {bs : List β} (h : mapE f l = .ok bs) {a : α} (ha : a ∈ l) : ∃ b ∈ bs, f a = .ok b := by
  rw [mapE_ok] at h
  induction h with
  | nil => simp at ha
  | cons hx _ ih =>
    rcases List.mem_cons.1 ha with rfl | ha
    · exact ⟨_, List.mem_cons_self, hx⟩
    · obtain ⟨b, hb, e⟩ := ih ha
      exact ⟨b, List.mem_cons_of_mem _ hb, e⟩

theorem flatMapE_at {α β : Type} {f : α → Res (List β)} {l : List α} {r : List β} (h : flatMapE f l = .ok r) {a : α} (ha : a ∈ l) :
    ∃ bs, f a = .ok bs ∧ ∀ b ∈ bs, b ∈ r := by
  obtain ⟨bs, hbs, rfl⟩ := flatMapE_ok.1 h
  obtain ⟨b, hb, e⟩ := mapE_at hbs ha
  exact ⟨b, e, fun x hx => List.mem_flatten.2 ⟨b, hb, hx⟩⟩

theorem alike_vars {d : SiteData} {ts ts' : List Term} {es es' : List Expr} (h : ∀ t' ∈ ts', ∃ t ∈ ts, t.Alike t')
    (he : flatMapE (OneTerm.simpleExprs d iv) (ts.map .simple) = .ok es) (he' : flatMapE (OneTerm.simpleExprs d iv) (ts'.map .simple) = .ok es')
    {v : LpVar} (hv : v ∈ (Expr.sum es').vars) : v ∈ (Expr.sum es).vars := by
  rw [Expr.vars_sum, List.mem_flatMap] at hv ⊢
  obtain ⟨e', hm', hv⟩ := hv
  obtain ⟨x, hx, l', hl', hm'⟩ := (flatMapE_mem he').1 hm'
  obtain ⟨t', ht', rfl⟩ := List.mem_map.1 hx
  obtain ⟨t, ht, hal⟩ := h t' ht'
  obtain ⟨i, hi, m', hm2, hm'⟩ := (flatMapE_mem hl').1 hm'
  simp only [bind_ok, simpleTermExprs] at hm2
  obtain ⟨assets, ha, hm2⟩ := hm2
  obtain ⟨o, ho, hoe⟩ := (mapE_mem hm2).1 hm'
  simp only [bind_ok, Except.ok.injEq] at hoe
  obtain ⟨x, hx, f, hf, rfl⟩ := hoe
  rw [Expr.mem_vars_mul, Expr.mem_vars_mul] at hv
  obtain ⟨hc, hf0, hv⟩ := hv
  have ha2 : simpleTermAssets iv i t = .ok assets := by
    rw [← ha]
    unfold simpleTermAssets
    rw [hal.type, hal.name]
  obtain ⟨l, hl, hsub⟩ := flatMapE_at he (List.mem_map.2 ⟨t, ht, rfl⟩)
  obtain ⟨m, hm, hsub2⟩ := flatMapE_at hl hi
  rw [ha2, ok_bind] at hm
  obtain ⟨e, hem, he2⟩ := mapE_at hm ho
  rw [hal.attr] at hx
  rw [hal.data] at hf
  rw [hx, ok_bind, hf, ok_bind, Except.ok.injEq] at he2
  subst he2
  refine ⟨_, hsub _ (hsub2 _ hem), ?_⟩
  rw [Expr.mem_vars_mul, Expr.mem_vars_mul]
  exact ⟨hal.coefficient hc, hf0, hv⟩

/-- An answer for some simple terms is an answer for terms that use the same variables. -/
theorem alike_feasible {ts ts' : List Term} (h : ∀ t' ∈ ts', ∃ t ∈ ts, t.Alike t') (hp : s.program (.custom (ts.map .simple)) flags = .ok (iv, p))
    (hp' : s.program (.custom (ts'.map .simple)) flags = .ok (iv', p')) {σ : Assign} (hf : p.Feasible σ) : p'.Feasible σ := by
  simp only [Site.program, bind_ok, Prod.exists, getObjective, customObjective, Except.ok.injEq, Prod.mk.injEq] at hp hp'
  obtain ⟨_, -, iv1, cons, hb, custom, hc, obj, oc, ⟨simple, h1, two, h2, many, h3, ho, hoc⟩, rfl, rfl⟩ := hp
  obtain ⟨_, -, iv2, cons', hb', custom', hc', obj', oc', ⟨simple', h1', two', h2', many', h3', ho', hoc'⟩, rfl, rfl⟩ := hp'
  rw [hb] at hb'
  simp only [Except.ok.injEq, Prod.mk.injEq] at hb'
  obtain ⟨rfl, rfl⟩ := hb'
  rw [hc] at hc'
  cases hc'
  have e2 := simple_two_nil h2
  have e3 := simple_many_nil h3
  have e2' := simple_two_nil h2'
  have e3' := simple_many_nil h3'
  subst e2 e3 e2' e3'
  simp only [List.map_nil, List.append_nil, List.flatMap_nil] at ho ho' hoc hoc'
  subst ho ho' hoc hoc'
  refine ⟨hf.1, fun v hv => hf.2 v ?_⟩
  rcases prob_vars_iff.1 hv with hv | hv
  · exact prob_vars_iff.2 (.inl hv)
  · exact prob_vars_iff.2 (.inr (alike_vars h h1 h1' hv))

variable {S S' : Solver} {r r' : SimResult} {V V' : String → Nat → ℚ}

/-- The dispatch of a run for alike terms is no better than the exact one. -/
theorem alike_cross {ts ts' : List Term} (h : ∀ t' ∈ ts', ∃ t ∈ ts, t.Alike t') (hr : Run s (.custom (ts.map .simple)) flags S r V)
    (hr' : Run s (.custom (ts'.map .simple)) flags S' r' V') (hS' : S'.Exact) (hw : ∀ a ∈ s.assets, a.WellNamed) (hn : ∀ t ∈ ts', t.attr ∈ readable) :
    s.readTerms V' ts' ≤ s.readTerms V ts' := by
  obtain ⟨p, σ, hco⟩ := hr.core
  obtain ⟨p', σ', hco'⟩ := hr'.core
  have hle := (core_optimal hco' hS' hr'.feasible).2 σ (alike_feasible h hco.program hco'.program hco.feas)
  rw [C42_simple hco'.program, C42_simple hco'.program] at hle
  have e1 : ∀ (t : Term), t ∈ ts' → s.sumIntervals (fun i => t.value σ s.data ((s.ivarsTo flags s.data.n).getD i []) i) = s.sumIntervals (fun i => t.read s V i) := by
    intro t ht
    unfold Site.sumIntervals
    apply list_sum_congr
    intro i hi
    rw [List.mem_range] at hi
    exact value_read hco hw hi (hn t ht)
  have e2 : ∀ (t : Term), t ∈ ts' → s.sumIntervals (fun i => t.value σ' s.data ((s.ivarsTo flags s.data.n).getD i []) i) = s.sumIntervals (fun i => t.read s V' i) := by
    intro t ht
    unfold Site.sumIntervals
    apply list_sum_congr
    intro i hi
    rw [List.mem_range] at hi
    exact value_read hco' hw hi (hn t ht)
  rw [list_sum_congr e1, list_sum_congr e2] at hle
  exact hle

theorem readTerms_append (W : String → Nat → ℚ) (as bs : List Term) : s.readTerms W (as ++ bs) = s.readTerms W as + s.readTerms W bs := by
  simp only [Site.readTerms, List.map_append, List.sum_append]

theorem readTerms_weigh (W : String → Nat → ℚ) (w : ℚ) (ts : List Term) : s.readTerms W (ts.map (Term.weigh w)) = w * s.readTerms W ts := by
  unfold Site.readTerms
  rw [List.map_map, mul_comm w, ← list_sum_mul_right]
  apply list_sum_congr
  intro t _
  simp only [Function.comp]
  unfold Site.sumIntervals
  rw [← list_sum_mul_right]
  apply list_sum_congr
  intro i _
  simp only [Term.read, Term.weigh]
  rw [mul_comm w, ← mul_assoc]
  rfl

theorem weigh_alike {as bs : List Term} {w w' : ℚ} (hw0 : w ≠ 0) :
    ∀ t' ∈ as ++ bs.map (Term.weigh w'), ∃ t ∈ as ++ bs.map (Term.weigh w), t.Alike t' := by
  intro t' ht'
  rcases List.mem_append.1 ht' with ht' | ht'
  · exact ⟨t', List.mem_append_left _ ht', ⟨rfl, rfl, rfl, rfl, id⟩⟩
  · obtain ⟨t, ht, rfl⟩ := List.mem_map.1 ht'
    exact ⟨t.weigh w, List.mem_append_right _ (List.mem_map.2 ⟨t, ht, rfl⟩), ⟨rfl, rfl, rfl, rfl, fun hc =>
      mul_ne_zero hw0 (right_ne_zero_of_mul hc)⟩⟩

theorem weigh_readable {as bs : List Term} {w : ℚ} (hn : ∀ t ∈ as ++ bs, t.attr ∈ readable) :
    ∀ t ∈ as ++ bs.map (Term.weigh w), t.attr ∈ readable := by
  intro t ht
  rcases List.mem_append.1 ht with ht | ht
  · exact hn t (List.mem_append_left _ ht)
  · obtain ⟨t, htb, rfl⟩ := List.mem_map.1 ht
    exact hn t (List.mem_append_right _ htb)

/-- Both optima against each other. -/
theorem weights_cross {as bs : List Term} {w w' : ℚ} (hw0 : w ≠ 0) (hw0' : w' ≠ 0)
    (hr : Run s (.custom ((as ++ bs.map (Term.weigh w)).map .simple)) flags S r V) (hS : S.Exact)
    (hr' : Run s (.custom ((as ++ bs.map (Term.weigh w')).map .simple)) flags S' r' V') (hS' : S'.Exact)
    (hw : ∀ a ∈ s.assets, a.WellNamed) (hn : ∀ t ∈ as ++ bs, t.attr ∈ readable) :
    s.readTerms V' as + w' * s.readTerms V' bs ≤ s.readTerms V as + w' * s.readTerms V bs ∧
    s.readTerms V as + w * s.readTerms V bs ≤ s.readTerms V' as + w * s.readTerms V' bs := by
  have l1 := alike_cross (weigh_alike hw0) hr hr' hS' hw (weigh_readable hn)
  have l2 := alike_cross (weigh_alike hw0') hr' hr hS hw (weigh_readable hn)
  simp only [readTerms_append, readTerms_weigh] at l1 l2
  exact ⟨l1, l2⟩

/-- C78: with a higher weight on some terms of a custom objective, the optimum has no more of them. -/
theorem C78_less {as bs : List Term} {w w' : ℚ} (hw0 : w ≠ 0) (hw0' : w' ≠ 0) (hlt : w < w')
    (hr : Run s (.custom ((as ++ bs.map (Term.weigh w)).map .simple)) flags S r V) (hS : S.Exact)
    (hr' : Run s (.custom ((as ++ bs.map (Term.weigh w')).map .simple)) flags S' r' V') (hS' : S'.Exact)
    (hw : ∀ a ∈ s.assets, a.WellNamed) (hn : ∀ t ∈ as ++ bs, t.attr ∈ readable) : s.readTerms V' bs ≤ s.readTerms V bs := by
  obtain ⟨l1, l2⟩ := weights_cross hw0 hw0' hr hS hr' hS' hw hn
  by_contra hc
  rw [not_le] at hc
  have := mul_pos (sub_pos.2 hlt) (sub_pos.2 hc)
  nlinarith

/-- C78: and it pays for that with no less of the other terms. -/
theorem C78_more {as bs : List Term} {w w' : ℚ} (hw0 : 0 < w) (hlt : w < w')
    (hr : Run s (.custom ((as ++ bs.map (Term.weigh w)).map .simple)) flags S r V) (hS : S.Exact)
    (hr' : Run s (.custom ((as ++ bs.map (Term.weigh w')).map .simple)) flags S' r' V') (hS' : S'.Exact)
    (hw : ∀ a ∈ s.assets, a.WellNamed) (hn : ∀ t ∈ as ++ bs, t.attr ∈ readable) : s.readTerms V as ≤ s.readTerms V' as := by
  have hw0' : w' ≠ 0 := ne_of_gt (lt_trans hw0 hlt)
  have l3 := C78_less (ne_of_gt hw0) hw0' hlt hr hS hr' hS' hw hn
  obtain ⟨_, l2⟩ := weights_cross (ne_of_gt hw0) hw0' hr hS hr' hS' hw hn
  have := mul_le_mul_of_nonneg_left l3 hw0.le
  linarith

/-- C78: nothing is wasted: no other dispatch of the site, for whatever weight, is better in one part and as good in the other. -/
theorem C78_efficient {as bs : List Term} {w w' : ℚ} (hw0 : 0 < w) (hw0' : w' ≠ 0)
    (hr : Run s (.custom ((as ++ bs.map (Term.weigh w)).map .simple)) flags S r V) (hS : S.Exact)
    (hr' : Run s (.custom ((as ++ bs.map (Term.weigh w')).map .simple)) flags S' r' V')
    (hw : ∀ a ∈ s.assets, a.WellNamed) (hn : ∀ t ∈ as ++ bs, t.attr ∈ readable) :
    (s.readTerms V' as < s.readTerms V as → s.readTerms V bs < s.readTerms V' bs) ∧
    (s.readTerms V' bs < s.readTerms V bs → s.readTerms V as < s.readTerms V' as) := by
  have l2 := alike_cross (weigh_alike hw0') hr' hr hS hw (weigh_readable hn)
  simp only [readTerms_append, readTerms_weigh] at l2
  constructor
  · intro h
    have : 0 < w * (s.readTerms V' bs - s.readTerms V bs) := by linarith
    exact sub_pos.1 ((mul_pos_iff_of_pos_left hw0).1 this)
  · intro h
    have := mul_pos hw0 (sub_pos.2 h)
    linarith

end

/-! ### The hypotheses are met -/

/-- C78: cost and emissions of a battery: with the weight 1/9 the battery is used, with the weight 1 it is not. -/
example : ∃ (s : Site) (as bs : List Term) (S S' : Solver) (r r' : SimResult) (V V' : String → Nat → ℚ),
    Run s (.custom ((as ++ bs.map (Term.weigh (1/9))).map .simple)) {} S r V ∧ S.Exact ∧
    Run s (.custom ((as ++ bs.map (Term.weigh 1)).map .simple)) {} S' r' V' ∧ S'.Exact ∧
    (∀ a ∈ s.assets, a.WellNamed) ∧ (∀ t ∈ as ++ bs, t.attr ∈ readable) ∧ r.status.objective = some 270 ∧ r'.status.objective = some 550 := by
  obtain ⟨s, r, V, S, hs, hS, h, ht⟩ := Demo.runOptimal demoWeights_low
  obtain ⟨s', r', V', S', hs', hS', h', ht'⟩ := Demo.runOptimal demoWeights_high
  simp only [pricesTest, Bool.and_eq_true, decide_eq_true_eq] at ht ht'
  have e : s = s' := Except.ok.inj (hs.symm.trans hs')
  subst e
  have e1 : weightsCost ++ (weightsCarbon 1).map (Term.weigh (1/9)) = weightsCost ++ weightsCarbon (1/9) := by decide +kernel
  have e2 : weightsCost ++ (weightsCarbon 1).map (Term.weigh 1) = weightsCost ++ weightsCarbon 1 := by decide +kernel
  refine ⟨s, weightsCost, weightsCarbon 1, S, S', r, r', V, V', ?_, hS, ?_, hS', ?_, ?_, ht.2, ht'.2⟩
  · rw [e1]; exact h
  · rw [e2]; exact h'
  · rw [ht.1.1]; decide +kernel
  · decide +kernel

end EPL
