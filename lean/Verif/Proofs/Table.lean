/-
Tables: appending cells row by row, replacing columns, sums over columns.
-/
import Verif.Proofs.Program

namespace EPL

theorem lookup_self (k : String) (col : List ℚ) (t : Table) : List.lookup k ((k, col) :: t) = some col := by simp

theorem lookup_ne {k k0 : String} (h : k ≠ k0) (col : List ℚ) (t : Table) :
    List.lookup k ((k0, col) :: t) = List.lookup k t := by
  have hb : (k == k0) = false := by simpa using h
  rw [List.lookup_cons, hb]

theorem lookup_append (t : Table) (k k' : String) (v : ℚ) :
    (t.append (k, v)).lookup k' = if k' = k then some ((t.lookup k).getD [] ++ [v]) else t.lookup k' := by
  induction t with
  | nil =>
    by_cases h : k' = k
    · subst h; simp [Table.append]
    · rw [if_neg h]; exact lookup_ne h _ _
  | cons c t ih =>
    obtain ⟨k0, col⟩ := c
    by_cases h0 : k0 = k
    · subst h0
      simp only [Table.append, if_true]
      by_cases h : k' = k0
      · subst h; simp
      · rw [if_neg h, lookup_ne h, lookup_ne h]
    · simp only [Table.append, h0, if_false]
      by_cases h1 : k' = k0
      · subst h1
        rw [if_neg h0, lookup_self, lookup_self]
      · rw [lookup_ne h1, ih, lookup_ne h1, lookup_ne (fun h => h0 h.symm)]

theorem lookup_set (t : Table) (k k' : String) (col : List ℚ) :
    (t.set k col).lookup k' = if k' = k then some col else t.lookup k' := by
  induction t with
  | nil =>
    by_cases h : k' = k
    · subst h; simp [Table.set]
    · rw [if_neg h]; exact lookup_ne h _ _
  | cons c t ih =>
    obtain ⟨k0, col0⟩ := c
    by_cases h0 : k0 = k
    · subst h0
      simp only [Table.set, if_true]
      by_cases h : k' = k0
      · subst h; simp
      · rw [if_neg h, lookup_ne h, lookup_ne h]
    · simp only [Table.set, h0, if_false]
      by_cases h1 : k' = k0
      · subst h1
        rw [if_neg h0, lookup_self, lookup_self]
      · rw [lookup_ne h1, ih, lookup_ne h1]

theorem columns_cons (k : String) (col : List ℚ) (t : Table) : Table.columns ((k, col) :: t) = k :: Table.columns t := rfl

theorem columns_append (t : Table) (k : String) (v : ℚ) :
    (t.append (k, v)).columns = if k ∈ t.columns then t.columns else t.columns ++ [k] := by
  induction t with
  | nil => simp [Table.append, Table.columns]
  | cons c t ih =>
    obtain ⟨k0, col⟩ := c
    by_cases h0 : k0 = k
    · subst h0; simp [Table.append, Table.columns]
    · have h1 : k ≠ k0 := fun h => h0 h.symm
      by_cases hk : k ∈ Table.columns t
      · rw [if_pos hk] at ih
        rw [columns_cons, if_pos (by simp [hk])]
        simp only [Table.append, h0, if_false, columns_cons, ih]
      · rw [if_neg hk] at ih
        rw [columns_cons, if_neg (by simp [h1, hk])]
        simp only [Table.append, h0, if_false, columns_cons, ih, List.cons_append]

theorem columns_set (t : Table) (k : String) (col : List ℚ) :
    (t.set k col).columns = if k ∈ t.columns then t.columns else t.columns ++ [k] := by
  induction t with
  | nil => simp [Table.set, Table.columns]
  | cons c t ih =>
    obtain ⟨k0, col0⟩ := c
    by_cases h0 : k0 = k
    · subst h0; simp [Table.set, Table.columns]
    · have h1 : k ≠ k0 := fun h => h0 h.symm
      by_cases hk : k ∈ Table.columns t
      · rw [if_pos hk] at ih
        rw [columns_cons, if_pos (by simp [hk])]
        simp only [Table.set, h0, if_false, columns_cons, ih]
      · rw [if_neg hk] at ih
        rw [columns_cons, if_neg (by simp [h1, hk])]
        simp only [Table.set, h0, if_false, columns_cons, ih, List.cons_append]

theorem columns_append_nodup {t : Table} (h : t.columns.Nodup) (c : String × ℚ) : (t.append c).columns.Nodup := by
  obtain ⟨k, v⟩ := c
  rw [columns_append]
  split
  · exact h
  · rename_i hk
    rw [List.nodup_append]
    refine ⟨h, by simp, ?_⟩
    intro a ha b hb he
    rw [List.mem_singleton] at hb
    subst hb
    subst he
    exact hk ha

theorem columns_set_nodup {t : Table} (h : t.columns.Nodup) (k : String) (col : List ℚ) : (t.set k col).columns.Nodup := by
  rw [columns_set]
  split
  · exact h
  · rename_i hk
    rw [List.nodup_append]
    refine ⟨h, by simp, ?_⟩
    intro a ha b hb he
    rw [List.mem_singleton] at hb
    subst hb
    subst he
    exact hk ha

theorem columns_foldl_nodup (cells : List (String × ℚ)) {t : Table} (h : t.columns.Nodup) :
    (cells.foldl Table.append t).columns.Nodup := by
  induction cells generalizing t with
  | nil => exact h
  | cons c cells ih => exact ih (columns_append_nodup h c)

theorem mem_columns_foldl (cells : List (String × ℚ)) (t : Table) (k : String) :
    k ∈ (cells.foldl Table.append t).columns ↔ k ∈ t.columns ∨ k ∈ cells.map Prod.fst := by
  induction cells generalizing t with
  | nil => simp
  | cons c cells ih =>
    obtain ⟨k0, v⟩ := c
    rw [List.foldl_cons, ih, columns_append]
    split
    · rename_i hk
      simp only [List.map_cons, List.mem_cons]
      constructor
      · rintro (h | h)
        · exact .inl h
        · exact .inr (.inr h)
      · rintro (h | rfl | h)
        · exact .inl h
        · exact .inl hk
        · exact .inr h
    · simp only [List.mem_append, List.map_cons, List.mem_cons, List.not_mem_nil, or_false, or_assoc]

theorem lookup_isSome_iff (t : Table) (k : String) : (t.lookup k).isSome ↔ k ∈ t.columns := by
  induction t with
  | nil => simp [Table.columns]
  | cons c t ih =>
    obtain ⟨k0, col⟩ := c
    simp only [Table.columns] at ih
    by_cases h : k = k0
    · simp [h, Table.columns]
    · have hb : (k == k0) = false := by simpa using h
      simp only [List.lookup_cons, Table.columns, List.map_cons, List.mem_cons, hb, h, false_or]
      exact ih

theorem lookup_eq_none (t : Table) (k : String) : t.lookup k = none ↔ k ∉ t.columns := by
  rw [← lookup_isSome_iff]
  cases t.lookup k <;> simp

theorem lookup_mem {t : Table} {k : String} {col : List ℚ} (h : t.lookup k = some col) : (k, col) ∈ t := by
  induction t with
  | nil => simp at h
  | cons c t ih =>
    obtain ⟨k0, col0⟩ := c
    by_cases hk : k = k0
    · subst hk; simp at h; simp [h]
    · have hb : (k == k0) = false := by simpa using hk
      rw [List.lookup_cons, hb] at h
      exact List.mem_cons_of_mem _ (ih h)

theorem mem_lookup {t : Table} (hn : t.columns.Nodup) {k : String} {col : List ℚ} (h : (k, col) ∈ t) :
    t.lookup k = some col := by
  induction t with
  | nil => simp at h
  | cons c t ih =>
    obtain ⟨k0, col0⟩ := c
    simp only [Table.columns, List.map_cons, List.nodup_cons] at hn
    rcases List.mem_cons.1 h with he | h
    · cases he; simp
    · have hk : k ≠ k0 := by
        intro he
        exact hn.1 (List.mem_map.2 ⟨(k, col), h, he⟩)
      have hb : (k == k0) = false := by simpa using hk
      rw [List.lookup_cons, hb]
      exact ih hn.2 h

theorem lookup_foldl (cells : List (String × ℚ)) (t : Table) (k : String) :
    (cells.foldl Table.append t).lookup k =
      if k ∈ t.columns ∨ k ∈ cells.map Prod.fst then
        some ((t.lookup k).getD [] ++ (cells.filter (fun c => c.1 = k)).map Prod.snd) else none := by
  induction cells generalizing t with
  | nil =>
    by_cases h : k ∈ t.columns
    · have := (lookup_isSome_iff t k).2 h
      obtain ⟨col, hc⟩ := Option.isSome_iff_exists.1 this
      simp [h, hc]
    · simp [h, (lookup_eq_none t k).2 h]
  | cons c cells ih =>
    obtain ⟨k0, v⟩ := c
    rw [List.foldl_cons, ih, lookup_append]
    by_cases hk : k = k0
    · subst hk
      have : k ∈ (t.append (k, v)).columns := by
        rw [columns_append]; split <;> simp_all
      simp [this]
    · have h1 : (k ∈ (t.append (k0, v)).columns) ↔ k ∈ t.columns := by
        rw [columns_append]; split <;> simp [hk]
      have h2 : k0 ≠ k := fun h => hk h.symm
      have h3 : (k ∈ (t.append (k0, v)).columns ∨ k ∈ cells.map Prod.fst) ↔
          (k ∈ t.columns ∨ k ∈ ((k0, v) :: cells).map Prod.fst) := by
        rw [h1, List.map_cons, List.mem_cons]
        simp only [hk, false_or]
      rw [if_congr h3 rfl rfl]
      simp [hk, h2]

/-- Cells appended row by row: every row brings the same keys (in some order). -/
structure RowsSpec (n : Nat) (E : Nat → List (String × ℚ)) (K : List String) (t : Table) : Prop where
  keys : ∀ i < n, ((E i).map Prod.fst).Perm K
  table : t = ((List.range n).flatMap E).foldl Table.append []

theorem count_flatMap_const {n : Nat} {E : Nat → List (String × ℚ)} {K : List String} (h : ∀ i < n, ((E i).map Prod.fst).Perm K)
    (k : String) : ((List.range n).flatMap E |>.filter (fun c => c.1 = k)).length = n * K.count k := by
  induction n with
  | zero => simp
  | succ n ih =>
    rw [List.range_succ, List.flatMap_append, List.filter_append, List.length_append,
      ih (fun i hi => h i (by omega))]
    have : (List.filter (fun c => decide (c.1 = k)) (List.flatMap E [n])).length = K.count k := by
      rw [← (h n (by omega)).count_eq k, List.count_eq_countP, List.countP_map, List.countP_eq_length_filter]
      simp [Function.comp_def]
      rfl
    rw [this]
    ring

/-- The filtered column of a key that every row has exactly once. -/
theorem filter_rows {n : Nat} {E : Nat → List (String × ℚ)} {k : String} {f : Nat → ℚ}
    (h : ∀ i < n, (E i).filter (fun c => c.1 = k) = [(k, f i)]) :
    (((List.range n).flatMap E).filter (fun c => c.1 = k)).map Prod.snd = (List.range n).map f := by
  induction n with
  | zero => simp
  | succ n ih =>
    rw [List.range_succ, List.flatMap_append, List.filter_append, List.map_append, ih (fun i hi => h i (by omega))]
    simp [h n (by omega)]

theorem filter_key_of_nodup {l : List (String × ℚ)} (hn : (l.map Prod.fst).Nodup) {k : String} {v : ℚ} (h : (k, v) ∈ l) :
    l.filter (fun c => c.1 = k) = [(k, v)] := by
  induction l with
  | nil => simp at h
  | cons c l ih =>
    obtain ⟨k0, v0⟩ := c
    simp only [List.map_cons, List.nodup_cons] at hn
    rcases List.mem_cons.1 h with he | h
    · cases he
      rw [List.filter_cons_of_pos (by simp), List.filter_eq_nil_iff.2]
      intro c hc hck
      simp only [decide_eq_true_eq] at hck
      exact hn.1 (List.mem_map.2 ⟨c, hc, hck⟩)
    · have hk : k0 ≠ k := by
        rintro rfl
        exact hn.1 (List.mem_map.2 ⟨_, h, rfl⟩)
      rw [List.filter_cons_of_neg (by simpa using hk), ih hn.2 h]

theorem checkArrayLengths_spec {t : Table} {N : Nat} (h : checkArrayLengths t = .ok N) :
    t ≠ [] ∧ ∀ c ∈ t, c.2.length = N := by
  cases t with
  | nil => simp [checkArrayLengths] at h
  | cons c t =>
    obtain ⟨k, col⟩ := c
    simp only [checkArrayLengths] at h
    split at h
    · rename_i hall
      cases h
      refine ⟨by simp, ?_⟩
      intro c hc
      rcases List.mem_cons.1 hc with rfl | hc
      · rfl
      · rw [List.all_eq_true] at hall
        simpa using hall c hc
    · simp at h

theorem checkArrayLengths_ok {t : Table} {N : Nat} (h0 : t ≠ []) (h : ∀ c ∈ t, c.2.length = N) :
    checkArrayLengths t = .ok N := by
  cases t with
  | nil => exact absurd rfl h0
  | cons c t =>
    obtain ⟨k, col⟩ := c
    have hcol : col.length = N := h _ (List.mem_cons_self)
    simp only [checkArrayLengths]
    rw [if_pos]
    · rw [hcol]
    · rw [List.all_eq_true]
      intro c hc
      simp [h c (List.mem_cons_of_mem _ hc), hcol]

/-- Everything known about a table built row by row whose columns have equal lengths. -/
structure Rows (n : Nat) (E : Nat → List (String × ℚ)) (K : List String) (t : Table) : Prop where
  pos : 0 < n
  keysNodup : K.Nodup
  colsNodup : t.columns.Nodup
  colsPerm : t.columns.Perm K
  lengths : ∀ c ∈ t, c.2.length = n
  cell : ∀ i < n, ∀ c ∈ E i, t.cell c.1 i = some c.2
  rowPerm : ∀ i < n, (t.map (fun c => (c.1, c.2.getD i 0))).Perm (E i)

theorem rows_of_spec {n N : Nat} {E : Nat → List (String × ℚ)} {K : List String} {t : Table} (h : RowsSpec n E K t)
    {k0 : String} (hk0 : K.count k0 = 1) (hN : checkArrayLengths t = .ok N) : N = n ∧ Rows n E K t := by
  obtain ⟨hne, hlen⟩ := checkArrayLengths_spec hN
  have hlook : ∀ k, t.lookup k = if k ∈ ((List.range n).flatMap E).map Prod.fst then
      some ((((List.range n).flatMap E).filter (fun c => c.1 = k)).map Prod.snd) else none := by
    intro k
    have h3 : (k ∈ Table.columns [] ∨ k ∈ ((List.range n).flatMap E).map Prod.fst) ↔
        k ∈ ((List.range n).flatMap E).map Prod.fst := by simp [Table.columns]
    rw [h.table, lookup_foldl, if_congr h3 rfl rfl]
    simp
  have hcols : t.columns.Nodup := by
    rw [h.table]
    exact columns_foldl_nodup _ (by simp [Table.columns])
  have hpos : 0 < n := by
    rcases Nat.eq_zero_or_pos n with rfl | h0
    · exact absurd (by rw [h.table]; rfl) hne
    · exact h0
  have hmemK : ∀ k, k ∈ ((List.range n).flatMap E).map Prod.fst ↔ k ∈ K := by
    intro k
    rw [List.map_flatMap, List.mem_flatMap]
    constructor
    · rintro ⟨i, hi, hk⟩
      exact (h.keys i (List.mem_range.1 hi)).mem_iff.1 hk
    · intro hk
      exact ⟨0, List.mem_range.2 hpos, (h.keys 0 hpos).mem_iff.2 hk⟩
  have hcollen : ∀ k ∈ K, ∃ col, t.lookup k = some col ∧ col.length = n * K.count k := by
    intro k hk
    rw [hlook, if_pos ((hmemK k).2 hk)]
    exact ⟨_, rfl, by rw [List.length_map, count_flatMap_const h.keys]⟩
  have hNn : N = n := by
    have hk0m : k0 ∈ K := List.count_pos_iff.1 (by omega)
    obtain ⟨col, h1, h2⟩ := hcollen k0 hk0m
    have := hlen _ (lookup_mem h1)
    simp only at this
    rw [hk0] at h2
    omega
  subst hNn
  have hcount : ∀ k ∈ K, K.count k = 1 := by
    intro k hk
    obtain ⟨col, h1, h2⟩ := hcollen k hk
    have h3 := hlen _ (lookup_mem h1)
    simp only at h3
    rw [h3] at h2
    exact Nat.eq_of_mul_eq_mul_left hpos (by omega)
  have hKn : K.Nodup := List.nodup_iff_count_le_one.2 (fun k => by
    by_cases hk : k ∈ K
    · rw [hcount k hk]
    · rw [List.count_eq_zero_of_not_mem hk]; omega)
  have hEn : ∀ i < N, ((E i).map Prod.fst).Nodup := fun i hi => (h.keys i hi).nodup_iff.2 hKn
  have hcell : ∀ i < N, ∀ c ∈ E i, t.cell c.1 i = some c.2 := by
    intro i hi c hc
    have hkK : c.1 ∈ K := (h.keys i hi).mem_iff.1 (List.mem_map.2 ⟨c, hc, rfl⟩)
    have hall : ∀ j < N, ∃ v, (E j).filter (fun d => d.1 = c.1) = [(c.1, v)] := by
      intro j hj
      have := (h.keys j hj).mem_iff.2 hkK
      obtain ⟨d, hd, hd1⟩ := List.mem_map.1 this
      obtain ⟨k, v⟩ := d
      simp only at hd1
      subst hd1
      exact ⟨v, filter_key_of_nodup (hEn j hj) hd⟩
    classical
    let f : Nat → ℚ := fun j => if hj : j < N then Classical.choose (hall j hj) else 0
    have hf : ∀ j < N, (E j).filter (fun d => d.1 = c.1) = [(c.1, f j)] := by
      intro j hj
      simp only [f, hj, dif_pos]
      exact Classical.choose_spec (hall j hj)
    have h1 : t.lookup c.1 = some ((List.range N).map f) := by
      rw [hlook, if_pos ((hmemK _).2 hkK), filter_rows hf]
    have h2 : f i = c.2 := by
      have h3 := hf i hi
      rw [filter_key_of_nodup (hEn i hi) (k := c.1) (v := c.2) hc] at h3
      simp only [List.cons.injEq, and_true] at h3
      exact (congrArg Prod.snd h3).symm
    simp [Table.cell, h1, hi, h2]
  have hcolsP : t.columns.Perm K := by
    rw [List.perm_ext_iff_of_nodup hcols hKn]
    intro k
    rw [← lookup_isSome_iff, hlook, ← hmemK]
    split <;> simp_all
  refine ⟨rfl, hpos, hKn, hcols, hcolsP, hlen, hcell, ?_⟩
  intro i hi
  have hn1 : (t.map (fun c => (c.1, c.2.getD i 0))).Nodup := by
    apply List.Nodup.of_map Prod.fst
    rw [List.map_map]
    exact hcols
  have hn2 : (E i).Nodup := List.Nodup.of_map Prod.fst (hEn i hi)
  have hget : ∀ k col, (k, col) ∈ t → ∀ v, (k, v) ∈ E i → col.getD i 0 = v := by
    intro k col hk v hv
    have h1 := hcell i hi _ hv
    simp only [Table.cell, mem_lookup hcols hk, Option.bind_some] at h1
    simp [List.getD_eq_getElem?_getD, h1]
  rw [List.perm_ext_iff_of_nodup hn1 hn2]
  rintro ⟨k, v⟩
  constructor
  · intro hm
    obtain ⟨⟨k', col⟩, hc, he⟩ := List.mem_map.1 hm
    simp only [Prod.mk.injEq] at he
    obtain ⟨rfl, rfl⟩ := he
    have hkK : k' ∈ K := hcolsP.mem_iff.1 (List.mem_map.2 ⟨_, hc, rfl⟩)
    obtain ⟨⟨k2, v2⟩, hd, hd1⟩ := List.mem_map.1 ((h.keys i hi).mem_iff.2 hkK)
    simp only at hd1
    subst hd1
    rw [hget _ _ hc _ hd]
    exact hd
  · intro hm
    have hkK : k ∈ K := (h.keys i hi).mem_iff.1 (List.mem_map.2 ⟨_, hm, rfl⟩)
    obtain ⟨⟨k2, col⟩, hd, hd1⟩ := List.mem_map.1 (hcolsP.mem_iff.2 hkK)
    simp only at hd1
    subst hd1
    exact List.mem_map.2 ⟨_, hd, by rw [hget _ _ hd _ hm]⟩

/-- Sums over selected columns are sums over selected cells of the row. -/
theorem Rows.sum {n : Nat} {E : Nat → List (String × ℚ)} {K : List String} {t : Table} (h : Rows n E K t) {i : Nat} (hi : i < n)
    (p : String → Bool) :
    ((t.filter (fun c => p c.1)).map (fun c => c.2.getD i 0)).sum = (((E i).filter (fun c => p c.1)).map Prod.snd).sum := by
  have h1 := ((h.rowPerm i hi).filter (fun c => p c.1)).map Prod.snd
  rw [← h1.sum_eq, List.filter_map, List.map_map]
  rfl

end EPL
