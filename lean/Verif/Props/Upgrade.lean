/-
C93: better fuel efficiency never costs more.  C94: an asset that stands still is worth nothing.
C95: two boilers, heat pumps or renewable generators are worth as much as one of their combined size.
-/
import Verif.Proofs.Upgrade
import Verif.Props.Margin
import Verif.Spec.DemoUpgrade

namespace EPL

section
variable {s : Site} {flags : Flags} {S S' : Solver} {r r' : SimResult} {V V' : String → Nat → ℚ} {l l' : List Asset} {a a' b d : Asset}

/-- A dispatch of another site that costs no more. -/
theorem better_price {t : Site} (h : Run s (.str "price") flags S r V) (hs : s.Ordinary) (h' : Run t (.str "price") flags S' r' V') (hS' : S'.Exact)
    (ht : t.Ordinary) (key : ∃ W, t.Dispatch flags W ∧ t.readCost W + spillPenalty * t.readSpill W ≤ s.readCost V + spillPenalty * s.readSpill V) :
    ∃ q q', r.status.objective = some q ∧ r'.status.objective = some q' ∧ q' ≤ q := by
  obtain ⟨W, hW, hle⟩ := key
  exact ⟨_, _, C40_results h hs.named, C40_results h' ht.named,
    (C81_cheapest h' hS' ht.named (readable_nil ht.constraints) ht.evs ht.freq hW (obeys_nil ht.constraints)).trans hle⟩

/-- A dispatch of another site that emits no more. -/
theorem better_carbon {t : Site} (h : Run s (.str "carbon") flags S r V) (hs : s.Ordinary) (h' : Run t (.str "carbon") flags S' r' V') (hS' : S'.Exact)
    (ht : t.Ordinary) (key : ∃ W, t.Dispatch flags W ∧ t.readEmissions W + spillPenalty * t.readSpill W ≤ s.readEmissions V + spillPenalty * s.readSpill V) :
    ∃ q q', r.status.objective = some q ∧ r'.status.objective = some q' ∧ q' ≤ q := by
  obtain ⟨W, hW, hle⟩ := key
  exact ⟨_, _, C41_results h hs.named, C41_results h' ht.named,
    (C81_greenest h' hS' ht.named (readable_nil ht.constraints) ht.evs ht.freq hW (obeys_nil ht.constraints)).trans hle⟩

/-! ### C93 -/

/-- The thriftier asset does the same with less gas. -/
theorem thrifty_swap (hd : s.Dispatch flags V) (ht : (s.withAssets l').Ordinary) (hp : s.assets.Perm (l ++ [a]))
    (hp' : l'.Perm (l ++ [a'])) (hup : a.Thriftier a') : ∃ W, Swaps l [a'] (s.withAssets l') V W ∧ (s.withAssets l').Dispatch flags W ∧
      (∀ i < s.data.n, penaltyOf [a'] W i = penaltyOf [a] V i) ∧
      ∀ i < s.data.n, flowOf [a'] W "gas_consumption_mwh" i ≤ flowOf [a] V "gas_consumption_mwh" i := by
  obtain ⟨u1, u2, u3, u4, u5, u6, u7, u8, u9⟩ := thrifty_units hup
  obtain ⟨f, hf, hpl⟩ := thrifty_plays hup (hd.assets a (hp.mem_iff.2 (by simp)))
  have sw : Swaps l [a'] (s.withAssets l') V (put (a.name ++ "-" ++ "gas_consumption_mwh") f V) := by
    refine ⟨hp', ht.clear, ht.named, fun k hk => put_off _ _ ?_⟩
    rintro rfl
    exact hk a' (by simp) (by rw [u8]; exact u9 _ u7)
  refine ⟨_, sw, swap_dispatch hp sw hd (fun q hq i hi => ?_) (fun b hb => ?_), fun i _ => ?_, fun i hi => ?_⟩
  · rw [flow_one (by rw [u4]; exact u2), flow_one u1, u3, u4]
    by_cases hin : q ∈ a.flows
    · rw [if_pos hin, if_pos hin, put_off _ _ (fun e => hq (sameName.1 e))]
    · rw [if_neg hin, if_neg hin]
  · obtain rfl := List.mem_singleton.1 hb
    exact hpl
  · rw [penalty_none (by simp [u6]), penalty_none (by simp [u5])]
  · rw [flow_one (by rw [u4]; exact u2), flow_one u1, u3, u4, if_pos u7, if_pos u7, put_at]
    exact hf i hi

/-- C93: replacing a boiler by a more efficient one, or a CHP by one that makes more of its gas, never makes the optimum dearer if gas has no negative price. -/
theorem C93_price (h : Run s (.str "price") flags S r V) (hs : s.Ordinary) (h' : Run (s.withAssets l') (.str "price") flags S' r' V') (hS' : S'.Exact)
    (ht : (s.withAssets l').Ordinary) (hp : s.assets.Perm (l ++ [a])) (hp' : l'.Perm (l ++ [a'])) (hup : a.Thriftier a')
    (hgas : ∀ i < s.data.n, 0 ≤ s.data.gasPrices.getD i 0) :
    ∃ q q', r.status.objective = some q ∧ r'.status.objective = some q' ∧ q' ≤ q := by
  have hd := run_dispatch h hs
  obtain ⟨W, sw, hW, w1, w2⟩ := thrifty_swap hd ht hp hp' hup
  exact better_price h hs h' hS' ht ⟨W, hW, swap_cheaper hp sw hd w1 w2 hgas⟩

/-- C93: and never makes it dirtier. -/
theorem C93_carbon (h : Run s (.str "carbon") flags S r V) (hs : s.Ordinary) (h' : Run (s.withAssets l') (.str "carbon") flags S' r' V') (hS' : S'.Exact)
    (ht : (s.withAssets l').Ordinary) (hp : s.assets.Perm (l ++ [a])) (hp' : l'.Perm (l ++ [a'])) (hup : a.Thriftier a') :
    ∃ q q', r.status.objective = some q ∧ r'.status.objective = some q' ∧ q' ≤ q := by
  have hd := run_dispatch h hs
  obtain ⟨W, sw, hW, w1, w2⟩ := thrifty_swap hd ht hp hp' hup
  exact better_carbon h hs h' hS' ht ⟨W, hW, swap_greener hp sw w1 w2⟩

/-! ### C94 -/

/-- The dispatch of the site without the asset, beside the asset standing still. -/
theorem idle_swap (hd : s.Dispatch flags V) (hd' : (s.withAssets l').Dispatch flags V') (ht : (s.withAssets l').Ordinary) (hp' : l'.Perm (s.assets ++ [a]))
    (hst : a.StandsStill V' s.data.n) : ∃ W, (s.withAssets l').Dispatch flags W ∧
      (s.withAssets l').readCost W + spillPenalty * (s.withAssets l').readSpill W = s.readCost V + spillPenalty * s.readSpill V ∧
      (s.withAssets l').readEmissions W + spillPenalty * (s.withAssets l').readSpill W = s.readEmissions V + spillPenalty * s.readSpill V := by
  let W : String → Nat → ℚ := fun k => if k ∈ a.documentedColumns then V' k else V k
  have on : ∀ k ∈ a.documentedColumns, V' k = W k := fun k hk => by
    show _ = if _ then _ else _
    rw [if_pos hk]
  have sw : Swaps s.assets [a] (s.withAssets l') V W := by
    refine ⟨hp', ht.clear, ht.named, fun k hk => ?_⟩
    show (if _ then _ else _) = _
    rw [if_neg (hk a (by simp))]
  have hp : s.assets.Perm (s.assets ++ []) := by simp
  have ha : a ∈ (s.withAssets l').assets := hp'.mem_iff.2 (by simp)
  have still : a.StandsStill W s.data.n := fun q hq k hk i hi => by
    rw [← on k (reports_documented (ht.named a ha) hk)]
    exact hst q hq k hk i hi
  refine ⟨_, swap_dispatch hp sw hd (fun q _ i hi => ?_) (fun b hb => ?_), swap_same hp sw hd (fun i hi => ?_) (fun i hi => ?_)⟩
  · rw [still_flow still hi]; rfl
  · obtain rfl := List.mem_singleton.1 hb
    exact plays_congr (s := s.withAssets l') rfl rfl on (hd'.assets b ha)
  · rw [still_penalty still hi]; rfl
  · rw [still_flow still hi]; rfl

/-- The dispatch without the asset. -/
theorem still_swap (hd : (s.withAssets l').Dispatch flags V') (hs : s.Ordinary) (hp' : l'.Perm (s.assets ++ [a])) (hst : a.StandsStill V' s.data.n) :
    s.Dispatch flags V' ∧
      s.readCost V' + spillPenalty * s.readSpill V' = (s.withAssets l').readCost V' + spillPenalty * (s.withAssets l').readSpill V' ∧
      s.readEmissions V' + spillPenalty * s.readSpill V' = (s.withAssets l').readEmissions V' + spillPenalty * (s.withAssets l').readSpill V' := by
  have sw : Swaps s.assets [] ((s.withAssets l').withAssets s.assets) V' V' := ⟨by simp [Site.withAssets], hs.clear, hs.named, fun _ _ => rfl⟩
  have hp : (s.withAssets l').assets.Perm (s.assets ++ [a]) := hp'
  have dd := swap_dispatch hp sw hd (fun q _ i hi => by rw [still_flow hst hi]; rfl) (fun b hb => by simp at hb)
  have cc := swap_same hp sw hd (fun i hi => by rw [still_penalty hst hi]; rfl) (fun i hi => by rw [still_flow hst hi]; rfl)
  exact ⟨dd, cc⟩

/-- C94: if an asset stands still in some cheapest result, the site without it costs exactly as much at its optimum. -/
theorem C94_price (h : Run s (.str "price") flags S r V) (hS : S.Exact) (hs : s.Ordinary) (h' : Run (s.withAssets l') (.str "price") flags S' r' V')
    (hS' : S'.Exact) (ht : (s.withAssets l').Ordinary) (hp' : l'.Perm (s.assets ++ [a])) (hst : a.StandsStill V' s.data.n) :
    ∃ q, r.status.objective = some q ∧ r'.status.objective = some q := by
  have d' := run_dispatch h' ht
  obtain ⟨W, hW, w1, -⟩ := idle_swap (run_dispatch h hs) d' ht hp' hst
  obtain ⟨hd, w2, -⟩ := still_swap d' hs hp' hst
  obtain ⟨q, q', e, e', hle⟩ := better_price h hs h' hS' ht ⟨W, hW, w1.le⟩
  obtain ⟨x', x, y', y, hle'⟩ := better_price h' ht h hS hs ⟨V', hd, w2.le⟩
  obtain rfl : q = x := Option.some.inj (e.symm.trans y)
  obtain rfl : q' = x' := Option.some.inj (e'.symm.trans y')
  exact ⟨q, e, by rw [e', le_antisymm hle hle']⟩

/-- C94: the same for carbon. -/
theorem C94_carbon (h : Run s (.str "carbon") flags S r V) (hS : S.Exact) (hs : s.Ordinary) (h' : Run (s.withAssets l') (.str "carbon") flags S' r' V')
    (hS' : S'.Exact) (ht : (s.withAssets l').Ordinary) (hp' : l'.Perm (s.assets ++ [a])) (hst : a.StandsStill V' s.data.n) :
    ∃ q, r.status.objective = some q ∧ r'.status.objective = some q := by
  have d' := run_dispatch h' ht
  obtain ⟨W, hW, -, w1⟩ := idle_swap (run_dispatch h hs) d' ht hp' hst
  obtain ⟨hd, -, w2⟩ := still_swap d' hs hp' hst
  obtain ⟨q, q', e, e', hle⟩ := better_carbon h hs h' hS' ht ⟨W, hW, w1.le⟩
  obtain ⟨x', x, y', y, hle'⟩ := better_carbon h' ht h hS hs ⟨V', hd, w2.le⟩
  obtain rfl : q = x := Option.some.inj (e.symm.trans y)
  obtain rfl : q' = x' := Option.some.inj (e'.symm.trans y')
  exact ⟨q, e, by rw [e', le_antisymm hle hle']⟩

/-! ### C95 -/

/-- From two assets to one. -/
theorem join_swap (hd : s.Dispatch flags V) (hf : 0 ≤ s.freqMins) (ht : (s.withAssets l').Ordinary) (hp : s.assets.Perm (l ++ [a, b]))
    (hp' : l'.Perm (l ++ [d])) (hj : Asset.Joins a b d) : ∃ W, (s.withAssets l').Dispatch flags W ∧
      (s.withAssets l').readCost W + spillPenalty * (s.withAssets l').readSpill W = s.readCost V + spillPenalty * s.readSpill V ∧
      (s.withAssets l').readEmissions W + spillPenalty * (s.withAssets l').readSpill W = s.readEmissions V + spillPenalty * s.readSpill V := by
  obtain ⟨u1, u2, u3, f1, f2, p1, p2, p3, c1, c2, c3⟩ := joins_units hj
  have sw : Swaps l [d] (s.withAssets l') V (setFlows d.name d.flows (fun q i => V (a.name ++ "-" ++ q) i + V (b.name ++ "-" ++ q) i) V) := by
    refine ⟨hp', ht.clear, ht.named, fun k hk => setFlows_off ?_⟩
    rw [← c3]
    exact hk d (by simp)
  have flow : ∀ q i, flowOf [d] (setFlows d.name d.flows (fun q i => V (a.name ++ "-" ++ q) i + V (b.name ++ "-" ++ q) i) V) q i = flowOf [a, b] V q i := by
    intro q i
    rw [flow_two, flow_one u3, flow_one u1, flow_one u2, f1, f2]
    by_cases hq : q ∈ d.flows
    · rw [if_pos hq, if_pos hq, if_pos hq, setFlows_at hq]
    · rw [if_neg hq, if_neg hq, if_neg hq, add_zero]
  refine ⟨_, swap_dispatch hp sw hd (fun q _ i _ => flow q i) (fun x hx => ?_), swap_same hp sw hd (fun i _ => ?_) (fun i _ => flow _ i)⟩
  · obtain rfl := List.mem_singleton.1 hx
    exact joins_plays hj hf (hd.assets a (hp.mem_iff.2 (by simp))) (hd.assets b (hp.mem_iff.2 (by simp)))
  · rw [penalty_none (by simp [p3]), penalty_none (by simp [p1, p2])]

/-- From one asset to two. -/
theorem split_swap (hd : (s.withAssets l').Dispatch flags V') (hs : s.Ordinary) (hp : s.assets.Perm (l ++ [a, b]))
    (hp' : l'.Perm (l ++ [d])) (hj : Asset.Joins a b d) : ∃ W, s.Dispatch flags W ∧
      s.readCost W + spillPenalty * s.readSpill W = (s.withAssets l').readCost V' + spillPenalty * (s.withAssets l').readSpill V' ∧
      s.readEmissions W + spillPenalty * s.readSpill W = (s.withAssets l').readEmissions V' + spillPenalty * (s.withAssets l').readSpill V' := by
  obtain ⟨u1, u2, u3, f1, f2, p1, p2, p3, c1, c2, c3⟩ := joins_units hj
  obtain ⟨w, hw⟩ := joins_split hj (s := s.withAssets l') hs.freq (hd.assets d (hp'.mem_iff.2 (by simp)))
  have ha : a ∈ s.assets := hp.mem_iff.2 (by simp)
  have hb : b ∈ s.assets := hp.mem_iff.2 (by simp)
  have hab : b ≠ a := by
    have := hp.nodup_iff.1 (assets_nodup hs.clear)
    have := (List.nodup_append.1 this).2.1
    simp only [List.nodup_cons, List.mem_singleton] at this
    exact fun e => this.1 e.symm
  let W := setFlows a.name d.flows (fun q i => w i * V' (d.name ++ "-" ++ q) i) (setFlows b.name d.flows (fun q i => (1 - w i) * V' (d.name ++ "-" ++ q) i) V')
  have wa : ∀ q ∈ d.flows, ∀ i, W (a.name ++ "-" ++ q) i = w i * V' (d.name ++ "-" ++ q) i := fun q hq i => by
    show setFlows _ _ _ _ _ i = _
    rw [setFlows_at hq]
  have wb : ∀ q ∈ d.flows, ∀ i, W (b.name ++ "-" ++ q) i = (1 - w i) * V' (d.name ++ "-" ++ q) i := fun q hq i => by
    show setFlows _ _ _ _ _ i = _
    have hk : b.name ++ "-" ++ q ∈ b.documentedColumns := by rw [c2]; exact List.mem_map.2 ⟨q, hq, rfl⟩
    rw [setFlows_off (by rw [← c1]; exact column_asset hs.clear hb ha (Ne.symm hab) hk), setFlows_at hq]
  have sw : Swaps l [a, b] ((s.withAssets l').withAssets s.assets) V' W := by
    refine ⟨hp, hs.clear, hs.named, fun k hk => ?_⟩
    show setFlows _ _ _ _ k = _
    rw [setFlows_off (by rw [← c1]; exact hk a (by simp)), setFlows_off (by rw [← c2]; exact hk b (by simp))]
  have flow : ∀ q i, flowOf [a, b] W q i = flowOf [d] V' q i := by
    intro q i
    rw [flow_two, flow_one u3, flow_one u1, flow_one u2, f1, f2]
    by_cases hq : q ∈ d.flows
    · rw [if_pos hq, if_pos hq, if_pos hq, wa q hq, wb q hq]
      ring
    · rw [if_neg hq, if_neg hq, if_neg hq, add_zero]
  obtain ⟨pa, pb⟩ := hw W wa wb
  have hp1 : (s.withAssets l').assets.Perm (l ++ [d]) := hp'
  have dd := swap_dispatch hp1 sw hd (fun q _ i _ => flow q i) (fun x hx => by
    simp only [List.mem_cons, List.not_mem_nil, or_false] at hx
    rcases hx with rfl | rfl
    · exact pa
    · exact pb)
  have cc := swap_same hp1 sw hd (fun i _ => by rw [penalty_none (A := [d]) (by simp [p3]), penalty_none (A := [a, b]) (by simp [p1, p2])]) (fun i _ => flow _ i)
  exact ⟨W, dd, cc⟩

/-- C95: two boilers, heat pumps or renewable generators cost exactly as much at the optimum as one of their combined size. -/
theorem C95_price (h : Run s (.str "price") flags S r V) (hS : S.Exact) (hs : s.Ordinary) (h' : Run (s.withAssets l') (.str "price") flags S' r' V')
    (hS' : S'.Exact) (ht : (s.withAssets l').Ordinary) (hp : s.assets.Perm (l ++ [a, b])) (hp' : l'.Perm (l ++ [d])) (hj : Asset.Joins a b d) :
    ∃ q, r.status.objective = some q ∧ r'.status.objective = some q := by
  obtain ⟨W, hW, w1, -⟩ := join_swap (run_dispatch h hs) hs.freq ht hp hp' hj
  obtain ⟨W', hW', w1', -⟩ := split_swap (run_dispatch h' ht) hs hp hp' hj
  obtain ⟨q, q', e, e', hle⟩ := better_price h hs h' hS' ht ⟨W, hW, w1.le⟩
  obtain ⟨x', x, y', y, hle'⟩ := better_price h' ht h hS hs ⟨W', hW', w1'.le⟩
  obtain rfl : q = x := Option.some.inj (e.symm.trans y)
  obtain rfl : q' = x' := Option.some.inj (e'.symm.trans y')
  exact ⟨q, e, by rw [e', le_antisymm hle hle']⟩

/-- C95: and emit exactly as much. -/
theorem C95_carbon (h : Run s (.str "carbon") flags S r V) (hS : S.Exact) (hs : s.Ordinary) (h' : Run (s.withAssets l') (.str "carbon") flags S' r' V')
    (hS' : S'.Exact) (ht : (s.withAssets l').Ordinary) (hp : s.assets.Perm (l ++ [a, b])) (hp' : l'.Perm (l ++ [d])) (hj : Asset.Joins a b d) :
    ∃ q, r.status.objective = some q ∧ r'.status.objective = some q := by
  obtain ⟨W, hW, -, w1⟩ := join_swap (run_dispatch h hs) hs.freq ht hp hp' hj
  obtain ⟨W', hW', -, w1'⟩ := split_swap (run_dispatch h' ht) hs hp hp' hj
  obtain ⟨q, q', e, e', hle⟩ := better_carbon h hs h' hS' ht ⟨W, hW, w1.le⟩
  obtain ⟨x', x, y', y, hle'⟩ := better_carbon h' ht h hS hs ⟨W', hW', w1'.le⟩
  obtain rfl : q = x := Option.some.inj (e.symm.trans y)
  obtain rfl : q' = x' := Option.some.inj (e'.symm.trans y')
  exact ⟨q, e, by rw [e', le_antisymm hle hle']⟩

end

/-! ### Concrete cases -/

/-- C93: heat from a boiler with an efficiency of 50 % costs 200, with 80 % it costs 125. -/
example : ∃ (s : Site) (S S' : Solver) (r r' : SimResult) (V V' : String → Nat → ℚ), Run s (.str "price") {} S r V ∧ s.Ordinary ∧
    Run (s.withAssets [.boiler (upBoiler (4/5))]) (.str "price") {} S' r' V' ∧ S'.Exact ∧ (s.withAssets [.boiler (upBoiler (4/5))]).Ordinary ∧
    s.assets = [.boiler (upBoiler (1/2))] ∧ Asset.Thriftier (.boiler (upBoiler (1/2))) (.boiler (upBoiler (4/5))) ∧
    (∀ i < s.data.n, 0 ≤ s.data.gasPrices.getD i 0) ∧ r.status.objective = some (200) ∧ r'.status.objective = some (125) := by
  obtain ⟨s, r, V, S, hs, hS, h, ht⟩ := Demo.runOptimal demoUp_poor_price
  obtain ⟨t, r', V', S', hs', hS', h', ht'⟩ := Demo.runOptimal demoUp_good_price
  have d := marginDemo h ht
  have d' := marginDemo h' ht'
  obtain rfl := marginDemo_swap d d'
  refine ⟨s, S, S', r, r', V, V', h, marginDemo_ordinary d (by decide +kernel) rfl, h', hS', marginDemo_ordinary d' (by decide +kernel) rfl, d.assets,
    .boiler (upBoiler (1/2)) (4/5) (by decide +kernel) (by decide +kernel), ?_, d.objective, d'.objective⟩
  rw [d.data]
  decide +kernel

/-- C93: the same for carbon. -/
example : ∃ (s : Site) (S S' : Solver) (r r' : SimResult) (V V' : String → Nat → ℚ), Run s (.str "carbon") {} S r V ∧ s.Ordinary ∧
    Run (s.withAssets [.boiler (upBoiler (4/5))]) (.str "carbon") {} S' r' V' ∧ S'.Exact ∧ (s.withAssets [.boiler (upBoiler (4/5))]).Ordinary ∧
    s.assets = [.boiler (upBoiler (1/2))] ∧ Asset.Thriftier (.boiler (upBoiler (1/2))) (.boiler (upBoiler (4/5))) ∧
    (∀ i < s.data.n, 0 ≤ s.data.gasPrices.getD i 0) ∧ r.status.objective = some (37/20) ∧ r'.status.objective = some (37/32) := by
  obtain ⟨s, r, V, S, hs, hS, h, ht⟩ := Demo.runOptimal demoUp_poor_carbon
  obtain ⟨t, r', V', S', hs', hS', h', ht'⟩ := Demo.runOptimal demoUp_good_carbon
  have d := marginDemo h ht
  have d' := marginDemo h' ht'
  obtain rfl := marginDemo_swap d d'
  refine ⟨s, S, S', r, r', V, V', h, marginDemo_ordinary d (by decide +kernel) rfl, h', hS', marginDemo_ordinary d' (by decide +kernel) rfl, d.assets,
    .boiler (upBoiler (1/2)) (4/5) (by decide +kernel) (by decide +kernel), ?_, d.objective, d'.objective⟩
  rw [d.data]
  decide +kernel

theorem idle_stands {s : Site} {r : SimResult} {V : String → Nat → ℚ} {q : ℚ} {p c : List ℚ}
    (d : MarginDemo [.battery (growBattery 4)] (twoData p c) 10000 10000 q idleCells s r V) : Asset.StandsStill (.battery (growBattery 4)) V s.data.n := by
  have hn : s.data.n = 2 := by rw [d.data]; rfl
  have e0 := d.cells ("battery-electric_charge_mwh", 0, 0) (by simp [idleCells]) (by simp only; omega)
  have e1 := d.cells ("battery-electric_charge_mwh", 1, 0) (by simp [idleCells]) (by simp only; omega)
  have e2 := d.cells ("battery-electric_discharge_mwh", 0, 0) (by simp [idleCells]) (by simp only; omega)
  have e3 := d.cells ("battery-electric_discharge_mwh", 1, 0) (by simp [idleCells]) (by simp only; omega)
  simp only at e0 e1 e2 e3
  intro x hx k hk i hi
  have hi2 : i = 0 ∨ i = 1 := by omega
  have hk2 : k = "battery-electric_charge_mwh" ∨ k = "battery-electric_discharge_mwh" := by
    have : ∀ x ∈ (Asset.battery (growBattery 4)).flows, ∀ k ∈ (Asset.battery (growBattery 4)).reports x,
      k = "battery-electric_charge_mwh" ∨ k = "battery-electric_discharge_mwh" := by decide +kernel
    exact this x hx k hk
  rcases hk2 with rfl | rfl <;> rcases hi2 with rfl | rfl <;> assumption

/-- C94: a battery that finds flat prices stands still. -/
example : ∃ (s : Site) (S S' : Solver) (r r' : SimResult) (V V' : String → Nat → ℚ), Run s (.str "price") {} S r V ∧ S.Exact ∧ s.Ordinary ∧
    Run (s.withAssets [.battery (growBattery 4)]) (.str "price") {} S' r' V' ∧ S'.Exact ∧ (s.withAssets [.battery (growBattery 4)]).Ordinary ∧
    s.assets = [] ∧ Asset.StandsStill (.battery (growBattery 4)) V' s.data.n ∧ r.status.objective = some 550 := by
  obtain ⟨s, r, V, S, hs, hS, h, ht⟩ := Demo.runOptimal demoNoBattery_price
  obtain ⟨t, r', V', S', hs', hS', h', ht'⟩ := Demo.runOptimal demoIdle_price
  have d := marginDemo h ht
  have d' := marginDemo h' ht'
  obtain rfl := marginDemo_swap d d'
  exact ⟨s, S, S', r, r', V, V', h, hS, marginDemo_ordinary d (by decide +kernel) rfl, h', hS', marginDemo_ordinary d' (by decide +kernel) rfl, d.assets,
    idle_stands (s := s.withAssets [.battery (growBattery 4)]) d', d.objective⟩

/-- C94: the same for carbon, which is not flat, but falls. -/
example : ∃ (s : Site) (S S' : Solver) (r r' : SimResult) (V V' : String → Nat → ℚ), Run s (.str "carbon") {} S r V ∧ S.Exact ∧ s.Ordinary ∧
    Run (s.withAssets [.battery (growBattery 4)]) (.str "carbon") {} S' r' V' ∧ S'.Exact ∧ (s.withAssets [.battery (growBattery 4)]).Ordinary ∧
    s.assets = [] ∧ Asset.StandsStill (.battery (growBattery 4)) V' s.data.n ∧ r.status.objective = some 5 := by
  obtain ⟨s, r, V, S, hs, hS, h, ht⟩ := Demo.runOptimal demoNoBattery_carbon
  obtain ⟨t, r', V', S', hs', hS', h', ht'⟩ := Demo.runOptimal demoIdle_carbon
  have d := marginDemo h ht
  have d' := marginDemo h' ht'
  obtain rfl := marginDemo_swap d d'
  exact ⟨s, S, S', r, r', V, V', h, hS, marginDemo_ordinary d (by decide +kernel) rfl, h', hS', marginDemo_ordinary d' (by decide +kernel) rfl, d.assets,
    idle_stands (s := s.withAssets [.battery (growBattery 4)]) d', d.objective⟩

/-- C95: boilers of 6 and 4 MW, and a boiler of 10 MW. -/
example : ∃ (s : Site) (S S' : Solver) (r r' : SimResult) (V V' : String → Nat → ℚ), Run s (.str "price") {} S r V ∧ S.Exact ∧ s.Ordinary ∧
    Run (s.withAssets [.boiler (upBoiler (4/5))]) (.str "price") {} S' r' V' ∧ S'.Exact ∧ (s.withAssets [.boiler (upBoiler (4/5))]).Ordinary ∧
    s.assets = [.boiler ⟨"boiler-a", 6, 0, 4/5⟩, .boiler ⟨"boiler-b", 4, 0, 4/5⟩] ∧
    Asset.Joins (.boiler ⟨"boiler-a", 6, 0, 4/5⟩) (.boiler ⟨"boiler-b", 4, 0, 4/5⟩) (.boiler (upBoiler (4/5))) ∧ r.status.objective = some (125) := by
  obtain ⟨s, r, V, S, hs, hS, h, ht⟩ := Demo.runOptimal demoHalfBoilers_price
  obtain ⟨t, r', V', S', hs', hS', h', ht'⟩ := Demo.runOptimal demoUp_good_price
  have d := marginDemo h ht
  have d' := marginDemo h' ht'
  obtain rfl := marginDemo_swap d d'
  refine ⟨s, S, S', r, r', V, V', h, hS, marginDemo_ordinary d (by decide +kernel) rfl, h', hS', marginDemo_ordinary d' (by decide +kernel) rfl, d.assets,
    .boiler _ _ _ ?_ ?_ ?_ ?_ ?_ ?_ ?_ ?_ ?_, d.objective⟩ <;> decide +kernel

/-- C95: the same for carbon. -/
example : ∃ (s : Site) (S S' : Solver) (r r' : SimResult) (V V' : String → Nat → ℚ), Run s (.str "carbon") {} S r V ∧ S.Exact ∧ s.Ordinary ∧
    Run (s.withAssets [.boiler (upBoiler (4/5))]) (.str "carbon") {} S' r' V' ∧ S'.Exact ∧ (s.withAssets [.boiler (upBoiler (4/5))]).Ordinary ∧
    s.assets = [.boiler ⟨"boiler-a", 6, 0, 4/5⟩, .boiler ⟨"boiler-b", 4, 0, 4/5⟩] ∧
    Asset.Joins (.boiler ⟨"boiler-a", 6, 0, 4/5⟩) (.boiler ⟨"boiler-b", 4, 0, 4/5⟩) (.boiler (upBoiler (4/5))) ∧ r.status.objective = some (37/32) := by
  obtain ⟨s, r, V, S, hs, hS, h, ht⟩ := Demo.runOptimal demoHalfBoilers_carbon
  obtain ⟨t, r', V', S', hs', hS', h', ht'⟩ := Demo.runOptimal demoUp_good_carbon
  have d := marginDemo h ht
  have d' := marginDemo h' ht'
  obtain rfl := marginDemo_swap d d'
  refine ⟨s, S, S', r, r', V, V', h, hS, marginDemo_ordinary d (by decide +kernel) rfl, h', hS', marginDemo_ordinary d' (by decide +kernel) rfl, d.assets,
    .boiler _ _ _ ?_ ?_ ?_ ?_ ?_ ?_ ?_ ?_ ?_, d.objective⟩ <;> decide +kernel

end EPL
