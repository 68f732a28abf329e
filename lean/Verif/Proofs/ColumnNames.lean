/-
The columns of the results have different names when the names of the assets and of custom data are clear.
-/
import Verif.Proofs.Names
import Verif.Spec.Returns

namespace EPL

theorem prefix_snoc {a b : List Char} {x : Char} (h : a <+: b ++ [x]) : a <+: b ∨ a = b ++ [x] := by
  obtain ⟨t, ht⟩ := h
  rcases List.eq_nil_or_concat t with rfl | ⟨t', y, rfl⟩
  · right; simpa using ht
  · left
    rw [List.concat_eq_append, ← List.append_assoc] at ht
    exact ⟨t', (List.append_inj' ht rfl).1⟩

theorem prefix_total {a b l : List Char} (ha : a <+: l) (hb : b <+: l) : a <+: b ∨ b <+: a := List.prefix_or_prefix_of_prefix ha hb

/-- Two different names neither of which continues the other with a dash have no common continuation. -/
theorem dash_prefix {a b : List Char} {l : List Char} (hab : ¬ a ++ ['-'] <+: b) (hba : ¬ b ++ ['-'] <+: a)
    (ha : a ++ ['-'] <+: l) (hb : b ++ ['-'] <+: l) : a = b := by
  rcases prefix_total ha hb with h | h <;> rcases prefix_snoc h with h | h
  · exact absurd h hab
  · exact List.append_cancel_right h
  · exact absurd h hba
  · exact (List.append_cancel_right h).symm

theorem grid_nodup {us qs : List String} (hu : us.Nodup) (hq : qs.Nodup) (hd : ∀ q ∈ qs, NoDash q) :
    (us.flatMap fun u => qs.map fun q => u ++ "-" ++ q).Nodup := by
  rw [List.nodup_flatMap]
  refine ⟨fun u _ => ?_, ?_⟩
  · refine List.Nodup.map_on ?_ hq
    intro x hx y hy h
    exact (dash_inj (hd x hx) (hd y hy) h).2
  · refine hu.imp ?_
    intro u u' hne
    rw [Function.onFun, List.disjoint_left]
    intro k h1 h2
    obtain ⟨q, hq, rfl⟩ := List.mem_map.1 h1
    obtain ⟨q', hq', h⟩ := List.mem_map.1 h2
    exact hne (dash_inj (hd q hq) (hd q' hq') h.symm).1

theorem single_nodup (name : String) {qs : List String} (hq : qs.Nodup) (hd : ∀ q ∈ qs, NoDash q) :
    (qs.map fun q => name ++ "-" ++ q).Nodup := by
  have := grid_nodup (us := [name]) (by simp) hq hd
  simpa using this

/-- What a column of an asset is called. -/
theorem documented_shape {a : Asset} {k : String} (h : k ∈ a.documentedColumns) :
    ∃ pre attr, k = pre ++ "-" ++ attr ∧ NoDash attr ∧ (pre = a.name ∨ ∃ c, a = .evs c ∧ (c.name ++ "-").toList <+: pre.toList) := by
  cases a with
  | evs c =>
    simp only [Asset.documentedColumns, List.mem_append, List.mem_flatMap, List.mem_map, List.mem_singleton] at h
    rcases h with ⟨u, hu, q, hq, rfl⟩ | ⟨u, ⟨e, -, rfl⟩, q, hq, rfl⟩
    · refine ⟨u, q, rfl, ?_, .inr ⟨c, rfl, ?_⟩⟩
      · have : ∀ q ∈ ["electric_charge_mwh", "electric_charge_binary", "electric_discharge_mwh", "electric_discharge_binary",
          "electric_loss_mwh"], NoDash q := by decide
        exact this q hq
      · rcases hu with ⟨k, -, rfl⟩ | rfl
        · exact ⟨("charger-" ++ toString k).toList, by simp [String.toList_append]⟩
        · exact ⟨("charger-spill-" ++ c.name).toList, by simp [String.toList_append]⟩
    · refine ⟨_, q, rfl, ?_, .inr ⟨c, rfl, ⟨("charge-event-" ++ toString e).toList, by simp [String.toList_append]⟩⟩⟩
      have : ∀ q ∈ ["electric_charge_mwh", "electric_discharge_mwh", "electric_loss_mwh", "initial_soc_mwh", "final_soc_mwh"], NoDash q := by
        decide
      exact this q hq
  | battery c | boiler c | chp c | heatPump c | renewable c | spill c | valve c =>
    simp only [Asset.documentedColumns, List.mem_map] at h
    obtain ⟨q, hq, rfl⟩ := h
    refine ⟨_, q, rfl, ?_, .inl rfl⟩
    have : ∀ q ∈ allAttrs, NoDash q := fun q hq => (attr_noEvent hq).2
    refine this q ?_
    revert q
    decide +kernel

theorem documented_nodup (a : Asset) : a.documentedColumns.Nodup := by
  cases a with
  | evs c =>
    simp only [Asset.documentedColumns]
    rw [List.nodup_append]
    have ch : ∀ i j : Nat, c.name ++ "-charger-" ++ toString i = c.name ++ "-charger-" ++ toString j → i = j := by
      intro i j h
      rw [str_eq_iff] at h
      simp only [String.toList_append] at h
      exact digits_inj (List.append_cancel_left h)
    have ev : ∀ i j : Nat, c.name ++ "-charge-event-" ++ toString i = c.name ++ "-charge-event-" ++ toString j → i = j := by
      intro i j h
      rw [str_eq_iff] at h
      simp only [String.toList_append] at h
      exact digits_inj (List.append_cancel_left h)
    refine ⟨grid_nodup ?_ (by decide) (by decide), grid_nodup ?_ (by decide) (by decide), ?_⟩
    · rw [List.nodup_append]
      refine ⟨List.Nodup.map_on (fun x _ y _ h => ch x y h) List.nodup_range, by simp, ?_⟩
      intro x hx y hy he
      obtain ⟨k, -, rfl⟩ := List.mem_map.1 hx
      rw [List.mem_singleton] at hy
      subst hy
      rw [str_eq_iff] at he
      simp only [String.toList_append, List.append_assoc] at he
      have h1 : "-charger-spill-".toList = "-charger-".toList ++ "spill-".toList := by decide
      rw [h1, List.append_assoc] at he
      have h2 := List.append_cancel_left (List.append_cancel_left he)
      exact digits_not (c := 's') (by decide) k (by rw [digits, h2]; simp)
    · exact List.Nodup.map_on (fun x _ y _ h => ev x y h) List.nodup_range
    · intro x hx y hy he
      obtain ⟨u, hu, hx⟩ := List.mem_flatMap.1 hx
      obtain ⟨u', hu', hy⟩ := List.mem_flatMap.1 hy
      obtain ⟨q, hq, rfl⟩ := List.mem_map.1 hx
      obtain ⟨q', hq', rfl⟩ := List.mem_map.1 hy
      have d1 : ∀ q ∈ ["electric_charge_mwh", "electric_charge_binary", "electric_discharge_mwh", "electric_discharge_binary",
          "electric_loss_mwh"], NoDash q := by decide
      have d2 : ∀ q ∈ ["electric_charge_mwh", "electric_discharge_mwh", "electric_loss_mwh", "initial_soc_mwh", "final_soc_mwh"], NoDash q := by
        decide
      obtain ⟨h1, -⟩ := dash_inj (d1 q hq) (d2 q' hq') he
      obtain ⟨e, -, rfl⟩ := List.mem_map.1 hu'
      have key : ∀ l m : List Char, c.name.toList ++ ("-charger-".toList ++ l) ≠ c.name.toList ++ ("-charge-event-".toList ++ m) := by
        intro l m h
        have := congrArg (fun l => l[7]?) (List.append_cancel_left h)
        revert this
        simp
      rcases List.mem_append.1 hu with hu | hu
      · obtain ⟨k, -, rfl⟩ := List.mem_map.1 hu
        rw [str_eq_iff] at h1
        simp only [String.toList_append, List.append_assoc] at h1
        exact key _ _ h1
      · rw [List.mem_singleton] at hu
        subst hu
        rw [str_eq_iff] at h1
        have h2 : "-charger-spill-".toList = "-charger-".toList ++ "spill-".toList := by decide
        simp only [String.toList_append, List.append_assoc, h2] at h1
        exact key _ _ h1
  | _ => exact single_nodup _ (by decide) (by decide)

theorem clear_nodup {s : Site} (hc : s.ClearNames) : s.assets.Pairwise (fun a b => a.name ≠ b.name) := by
  have := List.pairwise_map.1 hc.solver
  exact this.imp fun h he => h (by rw [he])

/-- With clear names all columns have different names. -/
theorem columns_distinct {s : Site} (hc : s.ClearNames) : s.columnNames.Nodup := by
  unfold Site.columnNames
  have toDash : ∀ x : String, (x ++ "-").toList = x.toList ++ ['-'] := fun x => by simp [String.toList_append]
  rw [List.nodup_append]
  refine ⟨?_, ?_, ?_⟩
  · rw [List.nodup_append]
    refine ⟨by decide, ?_, ?_⟩
    · have : s.data.custom.map (fun f => "site-" ++ f.1) = (s.data.custom.map Prod.fst).map (fun x => "site-" ++ x) := by
        rw [List.map_map]; rfl
      rw [this]
      exact hc.customDistinct.map site_prefix_inj
    · rintro x hx y hy rfl
      obtain ⟨f, hf, rfl⟩ := List.mem_map.1 hy
      exact hc.custom f hf hx
  · rw [List.nodup_flatMap]
    refine ⟨fun a _ => documented_nodup a, ?_⟩
    refine List.Pairwise.imp_of_mem ?_ (clear_nodup hc)
    intro a b ha hb hne
    rw [Function.onFun, List.disjoint_left]
    intro k h1 h2
    obtain ⟨pre, attr, rfl, hd, hpre⟩ := documented_shape h1
    obtain ⟨pre', attr', he, hd', hpre'⟩ := documented_shape h2
    obtain ⟨rfl, -⟩ := dash_inj hd hd' he
    rcases hpre with rfl | ⟨c, rfl, hp⟩ <;> rcases hpre' with h | ⟨c', rfl, hp'⟩
    · exact hne h
    · exact hc.evs c' hb a ha hp'
    · exact hc.evs c ha b hb (h ▸ hp)
    · refine hne (str_eq_iff.2 ?_)
      have h1 := hc.evs c ha _ hb
      have h2 := hc.evs c' hb _ ha
      rw [toDash] at hp hp' h1 h2
      exact dash_prefix h1 h2 hp hp'
  · rintro x hx y hy rfl
    obtain ⟨a, ha, hy⟩ := List.mem_flatMap.1 hy
    obtain ⟨pre, attr, rfl, hd, hpre⟩ := documented_shape hy
    have hsite : "site-".toList <+: (pre ++ "-" ++ attr).toList := by
      rcases List.mem_append.1 hx with hx | hx
      · have : ∀ k ∈ siteColumns, "site-".toList <+: k.toList := by decide +kernel
        exact this _ hx
      · obtain ⟨f, -, hf⟩ := List.mem_map.1 hx
        rw [← hf, String.toList_append]
        exact List.prefix_append _ _
    have hp : pre.toList ++ ['-'] <+: (pre ++ "-" ++ attr).toList := by
      rw [toList_dash]
      exact ⟨attr.toList, by simp⟩
    have hno : ∀ l : List Char, ¬ l ++ ['-'] <+: "site".toList := by
      intro l h
      exact absurd (h.subset (by simp : '-' ∈ l ++ ['-'])) (by decide)
    have e : "site-".toList = "site".toList ++ ['-'] := by decide
    have hpre2 : pre = "site" ∨ "site-".toList <+: pre.toList := by
      by_cases h1 : "site-".toList <+: pre.toList
      · exact .inr h1
      · rw [e] at h1 hsite
        exact .inl (str_eq_iff.2 (dash_prefix (hno _) h1 hp hsite))
    obtain ⟨s1, s2⟩ := hc.site a ha
    rcases hpre with rfl | ⟨c, rfl, hcp⟩
    · rcases hpre2 with h | h
      · exact s1 h
      · exact s2 h
    · rw [toDash] at hcp
      rcases hpre2 with h | h
      · rw [h] at hcp
        exact hno _ hcp
      · rw [e] at h s2
        exact s1 (str_eq_iff.2 (dash_prefix (hno _) s2 hcp h))

end EPL
