/-
The results of a site whose assets come in another order.
-/
import Verif.Proofs.Reorder
import Verif.Proofs.Checks
import Verif.Proofs.Vars
import Verif.Proofs.Drop

namespace EPL

/-! ### Tables with the same columns -/

theorem table_perm {t t' : Table} (h : t.columns.Nodup) (h' : t'.columns.Nodup) (hl : ∀ k, t.lookup k = t'.lookup k) : t.Perm t' := by
  have hn : t.Nodup := List.Nodup.of_map _ h
  have hn' : t'.Nodup := List.Nodup.of_map _ h'
  refine (List.perm_ext_iff_of_nodup hn hn').2 ?_
  rintro ⟨k, col⟩
  constructor
  · intro hm
    exact lookup_mem (by rw [← hl]; exact mem_lookup h hm)
  · intro hm
    exact lookup_mem (by rw [hl]; exact mem_lookup h' hm)

theorem perm_lookup {t t' : Table} (h : t.columns.Nodup) (hp : t.Perm t') (k : String) : t.lookup k = t'.lookup k := by
  have h' : t'.columns.Nodup := (hp.map Prod.fst).nodup_iff.1 h
  cases hk : t.lookup k with
  | some col => exact (mem_lookup h' (hp.mem_iff.1 (lookup_mem hk))).symm
  | none =>
    rw [lookup_eq_none] at hk
    symm
    rw [lookup_eq_none]
    exact fun hm => hk ((hp.map Prod.fst).mem_iff.2 hm)

theorem perm_get {t t' : Table} (h : t.columns.Nodup) (hp : t.Perm t') (k : String) : t'.get k = t.get k := by
  unfold Table.get
  rw [perm_lookup h hp]

theorem perm_sumColumns {t t' : Table} (hp : t.Perm t') (n : Nat) (q : String → Bool) : t.sumColumns n q = t'.sumColumns n q := by
  unfold Table.sumColumns
  refine List.map_congr_left fun i _ => ?_
  exact ((hp.filter _).map _).sum_eq

theorem perm_set {t t' : Table} (h : t.columns.Nodup) (hp : t.Perm t') (k : String) (col : List ℚ) : (t.set k col).Perm (t'.set k col) := by
  have h' : t'.columns.Nodup := (hp.map Prod.fst).nodup_iff.1 h
  refine table_perm (columns_set_nodup h _ _) (columns_set_nodup h' _ _) fun k' => ?_
  rw [lookup_set, lookup_set, perm_lookup h hp]

theorem perm_foldl_addTotal (n : Nat) (qs : List String) {t t' : Table} (h : t.columns.Nodup) (hp : t.Perm t') :
    (qs.foldl (addTotal n) t).Perm (qs.foldl (addTotal n) t') := by
  induction qs generalizing t t' with
  | nil => exact hp
  | cons q qs ih =>
    refine ih (columns_set_nodup h _ _) ?_
    unfold addTotal
    rw [perm_sumColumns hp]
    exact perm_set h hp _ _

theorem addTotals_perm {t t' r : Table} {n : Nat} (h : t.columns.Nodup) (hp : t.Perm t') (ht : addTotals t n = .ok r) :
    ∃ r', addTotals t' n = .ok r' ∧ r.Perm r' := by
  unfold addTotals at ht ⊢
  simp only [bind_ok, Except.ok.injEq] at ht ⊢
  have h1 := foldl_addTotal_nodup n quantities t h
  have p1 := perm_foldl_addTotal n quantities h hp
  generalize quantities.foldl (addTotal n) t = u at ht h1 p1
  generalize quantities.foldl (addTotal n) t' = u' at p1 ⊢
  rw [← perm_sumColumns p1]
  have h2 := columns_set_nodup h1 "total-spills_mwh" (u.sumColumns n isTotalSpillColumn)
  have p2 := perm_set h1 p1 "total-spills_mwh" (u.sumColumns n isTotalSpillColumn)
  generalize u.set "total-spills_mwh" (u.sumColumns n isTotalSpillColumn) = w at ht h2 p2
  generalize u'.set "total-spills_mwh" (u.sumColumns n isTotalSpillColumn) = w' at p2 ⊢
  rw [← perm_sumColumns p2]
  have h3 := columns_set_nodup h2 "total-electric_loss_mwh" (w.sumColumns n isTotalLossColumn)
  have p3 := perm_set h2 p2 "total-electric_loss_mwh" (w.sumColumns n isTotalLossColumn)
  generalize w.set "total-electric_loss_mwh" (w.sumColumns n isTotalLossColumn) = x at ht h3 p3
  generalize w'.set "total-electric_loss_mwh" (w.sumColumns n isTotalLossColumn) = x' at p3 ⊢
  obtain ⟨imp, e1, exp, e2, rfl⟩ := ht
  exact ⟨_, ⟨imp, by rw [perm_get h3 p3, e1], exp, by rw [perm_get h3 p3, e2], rfl⟩, perm_set h3 p3 _ _⟩

theorem checkArrayLengths_perm {t t' : Table} {N : Nat} (hp : t.Perm t') (h : checkArrayLengths t = .ok N) : checkArrayLengths t' = .ok N := by
  obtain ⟨h1, h2⟩ := checkArrayLengths_spec h
  refine checkArrayLengths_ok (fun e => h1 ?_) fun c hc => h2 c (hp.mem_iff.2 hc)
  rw [e] at hp
  exact hp.eq_nil

theorem validateSchema_perm {t t' : Table} (hp : t.Perm t') (h : validateSchema t = .ok ()) : validateSchema t' = .ok () := by
  unfold validateSchema at h ⊢
  split at h
  · simp at h
  · rename_i hf
    rw [List.find?_eq_none] at hf
    have : t'.find? (fun c => isSchemaColumn c.1 && c.2.any (fun q => decide (q < Defaults.epsilon))) = none :=
      List.find?_eq_none.2 fun c hc => hf c (hp.mem_iff.2 hc)
    rw [this]

theorem checkResults_perm {t t' : Table} (h : t.columns.Nodup) (hp : t.Perm t') (b : Bool) : checkResults t' b = checkResults t b := by
  unfold checkResults checkElectricityBalance checkHeatBalance checkValve
  simp only [perm_get h hp]
  have : ∀ q : String × List ℚ → Bool, t'.all q = t.all q := fun q => by
    rw [Bool.eq_iff_iff, List.all_eq_true, List.all_eq_true]
    exact ⟨fun hx c hc => hx c (hp.mem_iff.1 hc), fun hx c hc => hx c (hp.mem_iff.2 hc)⟩
  simp only [this]

theorem warnSpills_perm {t t' : Table} (hp : t.Perm t') (flags : Flags) : warnSpills t' flags = warnSpills t flags := by
  unfold warnSpills
  rw [((hp.filter (fun c => isSpillColumn c.1)).map (fun c => c.2.sum)).sum_eq]

/-! ### Rows -/

theorem flatMapE_perm {α β : Type} {f : α → Res (List β)} {l l' : List α} (h : l.Perm l') {bs : List β} (hb : flatMapE f l = .ok bs) :
    ∃ bs', flatMapE f l' = .ok bs' ∧ bs.Perm bs' := by
  obtain ⟨xs, h1, rfl⟩ := flatMapE_ok.1 hb
  obtain ⟨xs', h2, h3⟩ := mapE_perm h h1
  exact ⟨xs'.flatten, flatMapE_ok.2 ⟨xs', h2, rfl⟩, h3.flatten⟩

section
variable {s s' : Site} {objective : Objective} {flags : Flags} {vals : Values} {i : Nat}

theorem emitKind_like {iv iv' : IVars} (h : iv.Shuffled iv') {k : Kind} {read : Val → Res ℚ} {attrs : List String} {E : List (String × ℚ)}
    (he : emitKind iv i k read attrs = .ok E) : ∃ E', emitKind iv' i k read attrs = .ok E' ∧ E.Perm E' := by
  unfold emitKind at he ⊢
  simp only [bind_ok] at he ⊢
  obtain ⟨l, hl, he⟩ := he
  obtain ⟨l', h1, h2⟩ := Shuffled_filter h hl
  obtain ⟨E', h3, h4⟩ := flatMapE_perm h2 he
  exact ⟨E', ⟨l', h1, h3⟩, h4⟩

theorem emitSite_like {iv iv' : IVars} (h : iv.Shuffled iv') {d : SiteData} {E : List (String × ℚ)}
    (he : emitSite d iv vals i = .ok E) : emitSite d iv' vals i = .ok E := by
  unfold emitSite at he ⊢
  simp only [bind_ok, pyAssert_ok] at he ⊢
  obtain ⟨l, hl, _, h1, he⟩ := he
  obtain ⟨l', h2, h3⟩ := Shuffled_filter h hl
  have h1' : l.length = 1 := of_decide_eq_true h1
  obtain ⟨x, rfl⟩ := List.length_eq_one_iff.1 h1'
  rw [List.singleton_perm] at h3
  subst h3
  exact ⟨[x], h2, (), h1, he⟩

theorem Site.Reordered.array (h : s.Reordered s') (hv : VarsOk s flags s.data.n) (hv' : VarsOk s' flags s'.data.n) (hi : i < s.data.n) {a : Asset}
    (ha : a ∈ s.assets) (sp : Bool) :
    createEvsArray (s'.ivarsTo flags s'.data.n) i a.name sp = createEvsArray (s.ivarsTo flags s.data.n) i a.name sp := by
  have hk : (if sp = true then Kind.evSpill else Kind.ev) ≠ .site := by cases sp <;> simp
  unfold createEvsArray
  rw [filter_at hv hi ha hk, filter_at hv' (by rw [h.data]; exact hi) (h.assets.mem_iff.1 ha) hk, h.freq]

theorem Site.Reordered.emitEvs (h : s.Reordered s') (hv : VarsOk s flags s.data.n) (hv' : VarsOk s' flags s'.data.n) (hi : i < s.data.n)
    {E : List (String × ℚ)} (he : emitEvs (s.ivarsTo flags s.data.n) vals i (s.assets.map Asset.name) = .ok E) :
    ∃ E', emitEvs (s'.ivarsTo flags s'.data.n) vals i (s'.assets.map Asset.name) = .ok E' ∧ E.Perm E' := by
  have hiv := h.ivars hv hv'
  unfold EPL.emitEvs at he ⊢
  simp only [bind_ok] at he
  obtain ⟨l, hl, he⟩ := he
  obtain ⟨l', h1, h2⟩ := Shuffled_filter hiv hl
  rw [h1, ok_bind]
  have hem : l'.isEmpty = l.isEmpty := by
    rw [Bool.eq_iff_iff, List.isEmpty_iff, List.isEmpty_iff]
    exact ⟨fun e => by rw [e] at h2; exact h2.eq_nil, fun e => by rw [e] at h2; exact h2.symm.eq_nil⟩
  rw [hem]
  split at he
  · rename_i hb
    rw [if_pos hb]
    exact ⟨E, he, .refl _⟩
  · rename_i hb
    rw [if_neg hb]
    simp only [bind_ok, Except.ok.injEq] at he ⊢
    obtain ⟨pkg, hpkg, rows, hrows, spkg, hspkg, srows, hsrows, rfl⟩ := he
    have hp : ((s.assets.map Asset.name).filter (pyIn "evs")).Perm ((s'.assets.map Asset.name).filter (pyIn "evs")) := (h.assets.map _).filter _
    have arr : ∀ sp, mapE (fun n => createEvsArray (s'.ivarsTo flags s'.data.n) i n sp) ((s'.assets.map Asset.name).filter (pyIn "evs")) =
        mapE (fun n => createEvsArray (s.ivarsTo flags s.data.n) i n sp) ((s'.assets.map Asset.name).filter (pyIn "evs")) := by
      intro sp
      refine mapE_congr fun n hn => ?_
      obtain ⟨a, ha, rfl⟩ := List.mem_map.1 (List.mem_filter.1 hn).1
      exact h.array hv hv' hi (h.assets.mem_iff.2 ha) sp
    simp only [arr]
    obtain ⟨pkg', q1, q2⟩ := mapE_perm hp hpkg
    obtain ⟨spkg', q3, q4⟩ := mapE_perm hp hspkg
    obtain ⟨rows', q5, q6⟩ := flatMapE_perm q2 hrows
    obtain ⟨srows', q7, q8⟩ := flatMapE_perm q4 hsrows
    exact ⟨_, ⟨pkg', q1, rows', q5, spkg', q3, srows', q7, rfl⟩, q6.append q8⟩

theorem Site.Reordered.emitInterval (h : s.Reordered s') (hv : VarsOk s flags s.data.n) (hv' : VarsOk s' flags s'.data.n) (hi : i < s.data.n)
    {E : List (String × ℚ)} (he : emitInterval s (s.ivarsTo flags s.data.n) vals i = .ok E) :
    ∃ E', emitInterval s' (s'.ivarsTo flags s'.data.n) vals i = .ok E' ∧ E.Perm E' := by
  have hiv := h.ivars hv hv'
  unfold EPL.emitInterval at he ⊢
  simp only [bind_ok, Except.ok.injEq] at he ⊢
  obtain ⟨e1, h1, e2, h2, e3, h3, e4, h4, e5, h5, e6, h6, e7, h7, e8, h8, e9, h9, rfl⟩ := he
  have f1 := emitSite_like hiv h1
  rw [← h.data] at f1
  obtain ⟨f2, g2, p2⟩ := emitKind_like hiv h2
  obtain ⟨f3, g3, p3⟩ := emitKind_like hiv h3
  obtain ⟨f4, g4, p4⟩ := emitKind_like hiv h4
  obtain ⟨f5, g5, p5⟩ := emitKind_like hiv h5
  obtain ⟨f6, g6, p6⟩ := emitKind_like hiv h6
  obtain ⟨f7, g7, p7⟩ := h.emitEvs hv hv' hi h7
  obtain ⟨f8, g8, p8⟩ := emitKind_like hiv h8
  obtain ⟨f9, g9, p9⟩ := emitKind_like hiv h9
  refine ⟨_, ⟨e1, ?_, f2, g2, f3, g3, f4, g4, f5, g5, f6, g6, f7, g7, f8, g8, f9, g9, rfl⟩,
    ((((((((List.Perm.refl _).append p2).append p3).append p4).append p5).append p6).append p7).append p8).append p9⟩
  exact f1

theorem filter_key_perm {l l' : List (String × ℚ)} (hn : (l.map Prod.fst).Nodup) (hp : l.Perm l') (k : String) :
    l.filter (fun c => c.1 = k) = l'.filter (fun c => c.1 = k) := by
  have hn' : (l'.map Prod.fst).Nodup := (hp.map Prod.fst).nodup_iff.1 hn
  by_cases hk : k ∈ l.map Prod.fst
  · obtain ⟨⟨k', v⟩, hm, rfl⟩ := List.mem_map.1 hk
    rw [filter_key_of_nodup hn hm, filter_key_of_nodup hn' (hp.mem_iff.1 hm)]
  · rw [List.filter_eq_nil_iff.2, List.filter_eq_nil_iff.2]
    · intro c hc he
      exact hk ((hp.map Prod.fst).mem_iff.2 (List.mem_map.2 ⟨c, hc, of_decide_eq_true he⟩))
    · intro c hc he
      exact hk (List.mem_map.2 ⟨c, hc, of_decide_eq_true he⟩)

theorem foldl_append_perm {n : Nat} {E E' : Nat → List (String × ℚ)} (hn : ∀ i < n, ((E i).map Prod.fst).Nodup) (hp : ∀ i < n, (E i).Perm (E' i)) :
    (((List.range n).flatMap E).foldl Table.append []).Perm (((List.range n).flatMap E').foldl Table.append []) := by
  refine table_perm (columns_foldl_nodup _ (by simp [Table.columns])) (columns_foldl_nodup _ (by simp [Table.columns])) fun k => ?_
  rw [lookup_foldl, lookup_foldl]
  have hfl : ((List.range n).flatMap E).Perm ((List.range n).flatMap E') := List.Perm.flatMap_left _ fun i hi => hp i (List.mem_range.1 hi)
  have hmem : k ∈ ((List.range n).flatMap E).map Prod.fst ↔ k ∈ ((List.range n).flatMap E').map Prod.fst := (hfl.map _).mem_iff
  have hfil : ((List.range n).flatMap E).filter (fun c => c.1 = k) = ((List.range n).flatMap E').filter (fun c => c.1 = k) := by
    rw [List.filter_flatMap, List.filter_flatMap]
    refine List.flatMap_congr fun i hi => ?_
    exact filter_key_perm (hn i (List.mem_range.1 hi)) (hp i (List.mem_range.1 hi)) k
  rw [hfil]
  exact if_congr (or_congr Iff.rfl hmem) rfl rfl

theorem Site.Reordered.extractTable (h : s.Reordered s') (hv : VarsOk s flags s.data.n) (hv' : VarsOk s' flags s'.data.n)
    (hb : ∀ i < s.data.n, ∀ a ∈ s.assets, a.Buildable i) (wf : s.data.WF) {t : Table} {N : Nat}
    (ht : extractTable s (s.ivarsTo flags s.data.n) vals = .ok t) (hN : checkArrayLengths t = .ok N) :
    t.columns.Nodup ∧ ∃ t', extractTable s' (s'.ivarsTo flags s'.data.n) vals = .ok t' ∧ t.Perm t' := by
  obtain ⟨-, hr⟩ := extractTable_rows (agree_self vals) hv hb wf ht hN
  refine ⟨hr.colsNodup, ?_⟩
  simp only [EPL.extractTable, bind_ok, Except.ok.injEq] at ht ⊢
  obtain ⟨cells, hcells, rfl⟩ := ht
  let E : Nat → List (String × ℚ) := fun i =>
    match EPL.emitInterval s (s.ivarsTo flags s.data.n) vals i with
    | .ok l => l
    | .error _ => []
  let E' : Nat → List (String × ℚ) := fun i =>
    match EPL.emitInterval s' (s'.ivarsTo flags s'.data.n) vals i with
    | .ok l => l
    | .error _ => []
  have hE : ∀ i < s.data.n, EPL.emitInterval s (s.ivarsTo flags s.data.n) vals i = .ok (E i) := by
    intro i hi
    obtain ⟨l, hl⟩ := flatMapE_all_ok hcells (List.mem_range.2 hi)
    simp [E, hl]
  have hE' : ∀ i < s.data.n, EPL.emitInterval s' (s'.ivarsTo flags s'.data.n) vals i = .ok (E' i) ∧ (E i).Perm (E' i) := by
    intro i hi
    obtain ⟨l, hl, hp⟩ := h.emitInterval hv hv' hi (hE i hi)
    have : E' i = l := by simp only [E', hl]
    rw [this]
    exact ⟨hl, hp⟩
  rw [flatMapE_eq (g := E) (fun i hi => hE i (List.mem_range.1 hi))] at hcells
  cases hcells
  refine ⟨_, ⟨_, ?_, rfl⟩, foldl_append_perm (E' := E') (fun i hi => ?_) fun i hi => (hE' i hi).2⟩
  · rw [h.data]
    exact flatMapE_eq (g := E') (fun i hi => by rw [← h.data]; rw [h.data]; exact (h.data ▸ (hE' i (List.mem_range.1 hi)).1))
  · have hp := emitInterval_ok (agree_self vals) hv hi (hb i hi) (hE i hi)
    rw [(hp.map Prod.fst).nodup_iff, row_keys (hb i hi)]
    exact hr.keysNodup

theorem Site.Reordered.extractResults (h : s.Reordered s') (hv : VarsOk s flags s.data.n) (hv' : VarsOk s' flags s'.data.n)
    (hb : ∀ i < s.data.n, ∀ a ∈ s.assets, a.Buildable i) (wf : s.data.WF) {status : Status} {r : SimResult}
    (he : extractResults s (s.ivarsTo flags s.data.n) status vals flags = .ok r) :
    ∃ r', extractResults s' (s'.ivarsTo flags s'.data.n) status vals flags = .ok r' ∧ r.Same r' := by
  have hval : s'.assets.any Asset.isValve = s.assets.any Asset.isValve := by
    rw [Bool.eq_iff_iff, List.any_eq_true, List.any_eq_true]
    exact ⟨fun ⟨a, ha, hx⟩ => ⟨a, h.assets.mem_iff.2 ha, hx⟩, fun ⟨a, ha, hx⟩ => ⟨a, h.assets.mem_iff.1 ha, hx⟩⟩
  unfold EPL.extractResults at he ⊢
  cases hfe : status.feasible with
  | true =>
    simp only [hfe, if_true, bind_ok, Except.ok.injEq] at he ⊢
    obtain ⟨t, ht, n, hn, t2, ht2, _, h1, _, h2, sp, hsp, rfl⟩ := he
    obtain ⟨hnd, t', e1, hp⟩ := h.extractTable hv hv' hb wf ht hn
    obtain ⟨t2', e2, hp2⟩ := addTotals_perm hnd hp ht2
    have hnd2 := (addTotals_spec ht2).nodup hnd
    exact ⟨⟨t2', true, sp, status⟩, ⟨t', e1, n, checkArrayLengths_perm hp hn, t2', e2, (), validateSchema_perm hp2 h1, (),
      by rw [hval, checkResults_perm hnd2 hp2]; exact h2, sp, by rw [warnSpills_perm hp2]; exact hsp, rfl⟩, ⟨hp2, rfl, rfl, rfl⟩⟩
  | false =>
    simp only [hfe, Bool.false_eq_true, if_false, bind_ok, Except.ok.injEq] at he ⊢
    obtain ⟨t, ht, n, hn, t2, ht2, he⟩ := he
    obtain ⟨_, _, sp, hsp, rfl⟩ := he
    obtain ⟨hnd, t', e1, hp⟩ := h.extractTable hv hv' hb wf ht hn
    obtain ⟨t2', e2, hp2⟩ := addTotals_perm hnd hp ht2
    exact ⟨⟨t2', false, sp, status⟩, ⟨t', e1, n, checkArrayLengths_perm hp hn, t2', e2, (), trivial, sp, by rw [warnSpills_perm hp2]; exact hsp, rfl⟩,
      ⟨hp2, rfl, rfl, rfl⟩⟩

/-! ### The solver -/

theorem mapM_perm {α : Type} {f : α → Option ℚ} {l l' : List α} (h : l.Perm l') : (l.mapM f).map List.sum = (l'.mapM f).map List.sum := by
  induction h with
  | nil => rfl
  | cons x _ ih =>
    rename_i l1 l2 _
    simp only [List.mapM_cons]
    cases f x with
    | none => rfl
    | some y =>
      cases h1 : l1.mapM f <;> cases h2 : l2.mapM f <;> simp_all
  | swap x y l =>
    simp only [List.mapM_cons]
    cases f x <;> cases f y <;> cases l.mapM f <;> simp [add_left_comm]
  | trans _ _ ih1 ih2 => exact ih1.trans ih2

theorem Expr.Like.objValue {e e' : Expr} (h : e.Like e') (vals : Values) : e'.value vals = e.value vals := by
  unfold Expr.value
  have := mapM_perm (f := fun t : LpVar × ℚ => (vals t.1.id).map (t.2 * ·)) h.2
  rw [h.1]
  cases h1 : e.terms.mapM (fun t : LpVar × ℚ => (vals t.1.id).map (t.2 * ·)) <;>
    cases h2 : e'.terms.mapM (fun t : LpVar × ℚ => (vals t.1.id).map (t.2 * ·)) <;> simp_all

theorem valuesOf_same {p p' : Prob} (h : ∀ v, v ∈ p'.vars ↔ v ∈ p.vars) (out : SolverOut) : p'.valuesOf out = p.valuesOf out := by
  funext v
  unfold Prob.valuesOf
  refine if_congr ?_ rfl rfl
  simp only [List.mem_map, h]

theorem noDuplicates_same {p p' : Prob} (h : ∀ v, v ∈ p'.vars ↔ v ∈ p.vars) : p'.noDuplicateVariables = p.noDuplicateVariables := by
  have hp : ((p'.vars.map LpVar.id).dedup.map VarId.solverName).Perm ((p.vars.map LpVar.id).dedup.map VarId.solverName) := by
    refine List.Perm.map _ ((List.perm_ext_iff_of_nodup (List.nodup_dedup _) (List.nodup_dedup _)).2 fun v => ?_)
    simp only [List.mem_dedup, List.mem_map, h]
  unfold Prob.noDuplicateVariables noDup
  exact decide_eq_decide.2 hp.nodup_iff

/-- A solver that gives one program the answer of another one. -/
noncomputable def Solver.moved (S : Solver) (p p' : Prob) : Solver := by
  classical exact fun q => if q = p' then S p else ⟨"Infeasible", fun _ => none⟩

theorem moved_self (S : Solver) (p p' : Prob) : S.moved p p' p' = S p := by
  unfold Solver.moved
  rw [if_pos rfl]

theorem moved_status {S : Solver} {p p' q : Prob} (h : (S.moved p p' q).status = "Optimal") : q = p' := by
  unfold Solver.moved at h
  by_contra hq
  rw [if_neg hq] at h
  simp at h

end

end EPL
