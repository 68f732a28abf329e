/-
Running the statements of a plot.
-/
import Verif.Spec.Plot
import Verif.Props.Accounts
import Verif.Proofs.CustomAccounts

namespace EPL

/-- The columns a statement writes. -/
def PlotStep.writes : PlotStep → Option String
  | .put col _ => some col
  | .draw _ => none

theorem runSteps_lookup (l : List PlotStep) (t : Table) {k : String} (hk : some k ∉ l.map PlotStep.writes) :
    (runSteps l t).1.lookup k = t.lookup k := by
  induction l generalizing t with
  | nil => rfl
  | cons x l ih =>
    rw [List.map_cons, List.mem_cons, not_or] at hk
    cases x with
    | put col value =>
      have hne : k ≠ col := fun h => hk.1 (by rw [h]; rfl)
      simp only [runSteps]
      cases value t with
      | error e => rfl
      | ok v =>
        simp only
        rw [ih _ hk.2, lookup_set, if_neg hne]
    | draw drawn =>
      simp only [runSteps]
      cases drawn t with
      | error e => rfl
      | ok d =>
        have := ih t hk.2
        rcases hr : runSteps l t with ⟨t', r⟩
        rw [hr] at this
        cases r <;> exact this

theorem runSteps_append (l m : List PlotStep) (t : Table) :
    runSteps (l ++ m) t = match runSteps l t with
      | (t', .error e) => (t', .error e)
      | (t', .ok ds) => match runSteps m t' with
        | (t'', .error e) => (t'', .error e)
        | (t'', .ok es) => (t'', .ok (ds ++ es)) := by
  induction l generalizing t with
  | nil =>
    simp only [List.nil_append, runSteps]
    rcases runSteps m t with ⟨t', _ | _⟩ <;> rfl
  | cons x l ih =>
    cases x with
    | put col value =>
      simp only [List.cons_append, runSteps]
      cases value t with
      | error e => rfl
      | ok v => exact ih _
    | draw drawn =>
      simp only [List.cons_append, runSteps]
      cases drawn t with
      | error e => rfl
      | ok d =>
        simp only
        rw [ih]
        rcases runSteps l t with ⟨t', _ | ds⟩
        · rfl
        · simp only
          rcases runSteps m t' with ⟨t'', _ | es⟩ <;> rfl

/-- The statements returned: all numbers of the picture, and the final table. -/
theorem run_put {col : String} {value : Table → Res (List ℚ)} {l : List PlotStep} {t t' : Table} {ds : List Drawn} :
    runSteps (.put col value :: l) t = (t', .ok ds) ↔ ∃ v, value t = .ok v ∧ runSteps l (t.set col v) = (t', .ok ds) := by
  simp only [runSteps]
  cases value t <;> simp

theorem run_draw {drawn : Table → Res Drawn} {l : List PlotStep} {t t' : Table} {ds : List Drawn} :
    runSteps (.draw drawn :: l) t = (t', .ok ds) ↔ ∃ d es, drawn t = .ok d ∧ runSteps l t = (t', .ok es) ∧ ds = d :: es := by
  simp only [runSteps]
  cases drawn t with
  | error e => simp
  | ok d =>
    simp only [Except.ok.injEq, exists_and_left, exists_eq_left']
    rcases runSteps l t with ⟨t'', _ | es⟩
    · simp
    · simp only [Prod.mk.injEq, Except.ok.injEq]
      constructor
      · rintro ⟨rfl, rfl⟩; exact ⟨es, ⟨rfl, rfl⟩, rfl⟩
      · rintro ⟨es', ⟨rfl, rfl⟩, rfl⟩; exact ⟨rfl, rfl⟩

theorem get_ok {t : Table} {k : String} {col : List ℚ} : t.get k = .ok col ↔ t.lookup k = some col := by
  unfold Table.get
  cases t.lookup k <;> simp

theorem run_column {axis : Nat} {x col : String} {l : List PlotStep} {t t' : Table} {ds : List Drawn} :
    runSteps (drawColumn axis x col :: l) t = (t', .ok ds) ↔
      ∃ ys xs es, t.lookup col = some ys ∧ t.lookup x = some xs ∧ runSteps l t = (t', .ok es) ∧
        ds = { axis, label := col, xs, ys } :: es := by
  unfold drawColumn
  rw [run_draw]
  simp only [bind_ok, Except.ok.injEq, get_ok]
  constructor
  · rintro ⟨d, es, ⟨ys, h1, xs, h2, rfl⟩, h3, rfl⟩
    exact ⟨ys, xs, es, h1, h2, h3, rfl⟩
  · rintro ⟨ys, xs, es, h1, h2, h3, rfl⟩
    exact ⟨_, es, ⟨ys, h1, xs, h2, rfl⟩, h3, rfl⟩

theorem run_nil {t t' : Table} {ds : List Drawn} : runSteps [] t = (t', .ok ds) ↔ t' = t ∧ ds = [] := by
  simp only [runSteps, Prod.mk.injEq, Except.ok.injEq]
  constructor <;> rintro ⟨rfl, rfl⟩ <;> exact ⟨rfl, rfl⟩

/-- A column of a frame is what `V` reads. -/
theorem frame_lookup {t : Table} {n : Nat} {V : String → Nat → ℚ} (h : t.Frame n V) {k : String} (hk : k ∈ t.columns) :
    t.lookup k = some ((List.range n).map (V k)) := by
  obtain ⟨col, hcol⟩ := Option.isSome_iff_exists.1 ((lookup_isSome_iff t k).2 hk)
  rw [hcol, frame_get h (get_ok.2 hcol)]

theorem plotted_rows {t : Table} {n : Nat} {V : String → Nat → ℚ} (h : t.Frame n V) {k : String} (hk : k ∈ t.columns) : t.rows = n := by
  cases t with
  | nil => simp [Table.columns] at hk
  | cons c t => exact h.rows c (by simp)

theorem findColumn_ok {t : Table} (hn : t.columns.Nodup) {start stop c : String} :
    findColumn t start stop = .ok c ↔ c ∈ t.columns ∧ pyStartsWith c start = true ∧ pyEndsWith c stop = true ∧
      ∀ d ∈ t.columns, pyStartsWith d start = true → pyEndsWith d stop = true → d = c := by
  have hf := hn.filter (fun c => pyStartsWith c start && pyEndsWith c stop)
  have hm : ∀ d, d ∈ t.columns.filter (fun c => pyStartsWith c start && pyEndsWith c stop) ↔
      d ∈ t.columns ∧ pyStartsWith d start = true ∧ pyEndsWith d stop = true := fun d => by
    rw [List.mem_filter, Bool.and_eq_true]
  unfold findColumn
  generalize t.columns.filter (fun c => pyStartsWith c start && pyEndsWith c stop) = l at hf hm
  constructor
  · intro h
    match l, h with
    | [d], h =>
      simp only [Except.ok.injEq] at h
      subst h
      have := (hm d).1 (by simp)
      exact ⟨this.1, this.2.1, this.2.2, fun e h1 h2 h3 => by simpa using (hm e).2 ⟨h1, h2, h3⟩⟩
  · rintro ⟨h1, h2, h3, h4⟩
    have hc := (hm c).2 ⟨h1, h2, h3⟩
    have hall : ∀ d ∈ l, d = c := fun d hd => by
      have := (hm d).1 hd
      exact h4 d this.1 this.2.1 this.2.2
    match l, hc with
    | [d], hc => rw [List.mem_singleton.1 hc]
    | d :: e :: l, _ =>
      exact absurd ((hall d (by simp)).trans (hall e (by simp)).symm) (by
        rw [List.nodup_cons] at hf; exact fun he => hf.1 (by simp [he]))

theorem set_self {t : Table} {k : String} {v : List ℚ} (h : t.lookup k = some v) : t.set k v = t := by
  induction t with
  | nil => simp at h
  | cons c t ih =>
    obtain ⟨k0, col⟩ := c
    by_cases h0 : k0 = k
    · subst h0
      simp only [Table.set, if_true]
      rw [lookup_self, Option.some.injEq] at h
      rw [h]
    · simp only [Table.set, h0, if_false]
      rw [lookup_ne (fun he => h0 he.symm)] at h
      rw [ih h]

theorem rows_set {t : Table} {k : String} {v : List ℚ} (h : v.length = t.rows) : (t.set k v).rows = t.rows := by
  cases t with
  | nil => simpa [Table.set, Table.rows] using h
  | cons c t =>
    obtain ⟨k0, col⟩ := c
    by_cases h0 : k0 = k
    · subst h0
      simpa [Table.set, Table.rows] using h
    · simp [Table.set, h0, Table.rows]

theorem findColumn_set {t : Table} {k : String} {v : List ℚ} {start stop : String}
    (h : (pyStartsWith k start && pyEndsWith k stop) = false) : findColumn (t.set k v) start stop = findColumn t start stop := by
  have : (t.set k v).columns.filter (fun c => pyStartsWith c start && pyEndsWith c stop) =
      t.columns.filter (fun c => pyStartsWith c start && pyEndsWith c stop) := by
    rw [columns_set]
    split
    · rfl
    · rw [List.filter_append, List.filter_singleton]
      simp [h]
  unfold findColumn
  rw [this]

theorem zipWith_maps {α β : Type} (f : α → α → β) (g h : Nat → α) (n : Nat) :
    List.zipWith f ((List.range n).map g) ((List.range n).map h) = (List.range n).map (fun i => f (g i) (h i)) := by
  rw [List.zipWith_map, List.zipWith_self]

theorem arange_eq {t : Table} {n : Nat} (h : t.rows = n) : arange t = (List.range n).map (fun i : Nat => (i : ℚ)) := by
  rw [arange, h]

theorem difference_ok {t : Table} {a b : String} {c : List ℚ} :
    t.difference a b = .ok c ↔ ∃ x y, t.lookup a = some x ∧ t.lookup b = some y ∧ c = List.zipWith (· - ·) x y := by
  simp only [Table.difference, bind_ok, Except.ok.injEq, get_ok]
  constructor
  · rintro ⟨x, h1, y, h2, h3⟩; exact ⟨x, y, h1, h2, h3.symm⟩
  · rintro ⟨x, y, h1, h2, h3⟩; exact ⟨x, h1, y, h2, h3.symm⟩

/-- A statement of a plot that returned was reached with the columns that were not written before. -/
theorem run_needs {l1 l2 : List PlotStep} {x : PlotStep} {t t' : Table} {ds : List Drawn}
    (h : runSteps (l1 ++ x :: l2) t = (t', .ok ds)) :
    ∃ t1, (∀ k, some k ∉ l1.map PlotStep.writes → t1.lookup k = t.lookup k) ∧
      match x with
      | .put _ value => ∃ v, value t1 = .ok v
      | .draw drawn => ∃ d, drawn t1 = .ok d := by
  rw [runSteps_append] at h
  refine ⟨(runSteps l1 t).1, fun k hk => runSteps_lookup l1 t hk, ?_⟩
  revert h
  rcases runSteps l1 t with ⟨t1, _ | es⟩ <;> intro h
  · simp at h
  · simp only at h ⊢
    cases x with
    | put col value =>
      simp only [runSteps] at h
      cases hv : value t1 with
      | error e => rw [hv] at h; simp at h
      | ok v => exact ⟨v, hv⟩
    | draw drawn =>
      simp only [runSteps] at h
      cases hv : drawn t1 with
      | error e => rw [hv] at h; simp at h
      | ok v => exact ⟨v, hv⟩

/-! ### Columns of assets -/

/-- The quantities in the columns of an asset. -/
def Asset.quantityNames : Asset → List String
  | .battery _ => batteryCols
  | .boiler _ => boilerCols
  | .chp _ => chpCols
  | .heatPump _ => heatPumpCols
  | .renewable _ => renewableCols
  | .spill _ => spillCols
  | .valve _ => valveCols
  | .evs _ => evCols ++ evEventCols ++ ["initial_soc_mwh", "final_soc_mwh"]

theorem quantityNames_noDash {a : Asset} {q : String} (h : q ∈ a.quantityNames) : NoDash q := by
  have : ∀ q ∈ a.quantityNames, NoDash q := by cases a <;> (simp only [Asset.quantityNames]; decide +kernel)
  exact this q h

/-- A column of an asset is a unit and a quantity; the unit is the asset except for EVs, where it continues the name with a dash. -/
theorem documented_quantity {a : Asset} {k : String} (h : k ∈ a.documentedColumns) :
    ∃ pre q, k = pre ++ "-" ++ q ∧ q ∈ a.quantityNames ∧
      ((pre = a.name ∧ ∀ c, a ≠ .evs c) ∨ ∃ c, a = .evs c ∧ (c.name ++ "-").toList <+: pre.toList) := by
  cases a with
  | evs c =>
    simp only [Asset.documentedColumns, List.mem_append, List.mem_flatMap, List.mem_map, List.mem_singleton, List.mem_range] at h
    rcases h with ⟨u, hu, q, hq, rfl⟩ | ⟨u, ⟨e, he, rfl⟩, q, hq, rfl⟩
    · refine ⟨u, q, rfl, ?_, .inr ⟨c, rfl, ?_⟩⟩
      · exact List.mem_append_left _ (List.mem_append_left _ hq)
      · rcases hu with ⟨k, hk, rfl⟩ | rfl <;> simp [String.toList_append]
    · refine ⟨_, q, rfl, ?_, .inr ⟨c, rfl, by simp [String.toList_append]⟩⟩
      have : ∀ q ∈ ["electric_charge_mwh", "electric_discharge_mwh", "electric_loss_mwh", "initial_soc_mwh", "final_soc_mwh"],
          q ∈ evCols ++ evEventCols ++ ["initial_soc_mwh", "final_soc_mwh"] := by decide +kernel
      exact this q hq
  | _ =>
    simp only [Asset.documentedColumns, List.mem_map] at h
    obtain ⟨q, hq, rfl⟩ := h
    exact ⟨_, q, rfl, hq, .inl ⟨rfl, by simp⟩⟩

theorem ends_exact {pre attr q : String} (hq : NoDash q) (ha : NoDash attr) :
    pyEndsWith (pre ++ "-" ++ attr) ("-" ++ q) = true ↔ attr = q := by
  simp only [pyEndsWith, decide_eq_true_eq, toList_dash, String.toList_append]
  constructor
  · rintro ⟨x, hx⟩
    have : x ++ '-' :: q.toList = pre.toList ++ '-' :: attr.toList := by simpa using hx
    exact (str_eq_iff.2 (list_dash_inj hq ha this).2).symm
  · rintro rfl
    exact ⟨pre.toList, by simp⟩

end EPL
