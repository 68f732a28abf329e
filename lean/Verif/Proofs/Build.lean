/-
What `Site.build` returns: the variables of every interval and exactly which constraints.
-/
import Verif.Proofs.Basic

namespace EPL

/-- The variables of interval `i` (empty if creating them raises). -/
def Site.ones (s : Site) (flags : Flags) (i : Nat) : List OneInterval :=
  match s.intervalVars flags i with
  | .ok l => l
  | .error _ => []

/-- `ivars` after the first `k` intervals. -/
def Site.ivarsTo (s : Site) (flags : Flags) (k : Nat) : IVars := (List.range k).map (s.ones flags)

theorem ivarsTo_succ (s : Site) (flags : Flags) (k : Nat) :
    s.ivarsTo flags (k + 1) = s.ivarsTo flags k ++ [s.ones flags k] := by
  simp [Site.ivarsTo, List.range_succ]

@[simp] theorem ivarsTo_length (s : Site) (flags : Flags) (k : Nat) : (s.ivarsTo flags k).length = k := by
  simp [Site.ivarsTo]

theorem ivarsTo_get (s : Site) (flags : Flags) {k i : Nat} (h : i < k) :
    (s.ivarsTo flags k)[i]? = some (s.ones flags i) := by
  simp [Site.ivarsTo, h]

theorem ivarsTo_index (s : Site) (flags : Flags) {k i : Nat} (h : i < k) :
    pyIndex (s.ivarsTo flags k) (i : Int) = .ok (s.ones flags i) := pyIndex_nat.2 (ivarsTo_get s flags h)

theorem ivarsTo_last (s : Site) (flags : Flags) (k : Nat) :
    pyIndex (s.ivarsTo flags (k + 1)) (-1) = .ok (s.ones flags k) := by
  have := pyIndex_neg (l := s.ivarsTo flags (k + 1)) (k := 1) (by omega) (by simp)
  simpa [Site.ivarsTo] using this

theorem ivarsTo_last2 (s : Site) (flags : Flags) (k : Nat) :
    pyIndex (s.ivarsTo flags (k + 2)) (-2) = .ok (s.ones flags k) := by
  have := pyIndex_neg (l := s.ivarsTo flags (k + 2)) (k := 2) (by omega) (by simp)
  simpa [Site.ivarsTo] using this

/-- What holds after building: every call succeeded and `cs` has exactly the constraints of those calls. -/
structure BuildSpec (s : Site) (flags : Flags) (iv : IVars) (cs : List Con) : Prop where
  iv_eq : iv = s.ivarsTo flags s.data.n
  ones_ok : ∀ i < s.data.n, s.intervalVars flags i = .ok (s.ones flags i)
  site_ok : ∀ i < s.data.n, ∃ l, s.constrainWithin (s.ivarsTo flags (i + 1)) i = .ok l
  asset_ok : ∀ i < s.data.n, ∀ a ∈ s.assets, ∃ l, a.constrainWithin (s.ivarsTo flags (i + 1)) i s.freq flags = .ok l
  after_ok : ∀ a ∈ s.assets, ∃ l, a.constrainAfter iv = .ok l
  mem_iff : ∀ c, c ∈ cs ↔
    (∃ i < s.data.n, ∃ l, s.constrainWithin (s.ivarsTo flags (i + 1)) i = .ok l ∧ c ∈ l) ∨
    (∃ i < s.data.n, ∃ a ∈ s.assets, ∃ l,
      a.constrainWithin (s.ivarsTo flags (i + 1)) i s.freq flags = .ok l ∧ c ∈ l) ∨
    (∃ a ∈ s.assets, ∃ l, a.constrainAfter iv = .ok l ∧ c ∈ l)

theorem buildLoop_spec (s : Site) (flags : Flags) (m k : Nat) (cs : List Con) (iv' : IVars) (cs' : List Con)
    (h : s.buildLoop flags (List.range' k m) (s.ivarsTo flags k) cs = .ok (iv', cs')) :
    iv' = s.ivarsTo flags (k + m) ∧
    (∀ i, k ≤ i → i < k + m → s.intervalVars flags i = .ok (s.ones flags i)) ∧
    (∀ i, k ≤ i → i < k + m → ∃ l, s.constrainWithin (s.ivarsTo flags (i + 1)) i = .ok l) ∧
    (∀ i, k ≤ i → i < k + m → ∀ a ∈ s.assets, ∃ l,
      a.constrainWithin (s.ivarsTo flags (i + 1)) i s.freq flags = .ok l) ∧
    (∀ c, c ∈ cs' ↔ c ∈ cs ∨
      (∃ i, k ≤ i ∧ i < k + m ∧ ∃ l, s.constrainWithin (s.ivarsTo flags (i + 1)) i = .ok l ∧ c ∈ l) ∨
      (∃ i, k ≤ i ∧ i < k + m ∧ ∃ a ∈ s.assets, ∃ l,
        a.constrainWithin (s.ivarsTo flags (i + 1)) i s.freq flags = .ok l ∧ c ∈ l)) := by
  induction m generalizing k cs with
  | zero =>
    simp only [List.range'_zero, Site.buildLoop, Except.ok.injEq, Prod.mk.injEq] at h
    obtain ⟨rfl, rfl⟩ := h
    refine ⟨rfl, by intros; omega, by intros; omega, by intros; omega, ?_⟩
    intro c
    constructor
    · exact .inl
    · rintro (h | ⟨i, h1, h2, _⟩ | ⟨i, h1, h2, _⟩)
      · exact h
      · omega
      · omega
  | succ m ih =>
    simp only [List.range'_succ, Site.buildLoop, bind_ok] at h
    obtain ⟨one, hone, c1, hc1, c2, hc2, h⟩ := h
    have hones : s.ones flags k = one := by simp [Site.ones, hone]
    rw [← hones, ← ivarsTo_succ] at h hc1 hc2
    obtain ⟨h1, h2, h3, h4, h5⟩ := ih (k + 1) _ h
    refine ⟨by rw [h1]; congr 1; omega, ?_, ?_, ?_, ?_⟩
    · intro i hi hi'
      rcases Nat.eq_or_lt_of_le hi with rfl | hlt
      · rw [hone, hones]
      · exact h2 i hlt (by omega)
    · intro i hi hi'
      rcases Nat.eq_or_lt_of_le hi with rfl | hlt
      · exact ⟨_, hc1⟩
      · exact h3 i hlt (by omega)
    · intro i hi hi' a ha
      rcases Nat.eq_or_lt_of_le hi with rfl | hlt
      · exact flatMapE_all_ok hc2 ha
      · exact h4 i hlt (by omega) a ha
    · intro c
      rw [h5 c, List.mem_append, List.mem_append, flatMapE_mem hc2]
      constructor
      · rintro (((h | h) | ⟨a, ha, l, hl, hc⟩) | ⟨i, hi, hi', l, hl, hc⟩ | ⟨i, hi, hi', a, ha, l, hl, hc⟩)
        · exact .inl h
        · exact .inr (.inl ⟨k, le_refl _, by omega, c1, hc1, h⟩)
        · exact .inr (.inr ⟨k, le_refl _, by omega, a, ha, l, hl, hc⟩)
        · exact .inr (.inl ⟨i, by omega, by omega, l, hl, hc⟩)
        · exact .inr (.inr ⟨i, by omega, by omega, a, ha, l, hl, hc⟩)
      · rintro (h | ⟨i, hi, hi', l, hl, hc⟩ | ⟨i, hi, hi', a, ha, l, hl, hc⟩)
        · exact .inl (.inl (.inl h))
        · rcases Nat.eq_or_lt_of_le hi with rfl | hlt
          · rw [hc1] at hl; cases hl
            exact .inl (.inl (.inr hc))
          · exact .inr (.inl ⟨i, hlt, by omega, l, hl, hc⟩)
        · rcases Nat.eq_or_lt_of_le hi with rfl | hlt
          · exact .inl (.inr ⟨a, ha, l, hl, hc⟩)
          · exact .inr (.inr ⟨i, hlt, by omega, a, ha, l, hl, hc⟩)

theorem build_spec {s : Site} {flags : Flags} {iv : IVars} {cs : List Con} (h : s.build flags = .ok (iv, cs)) :
    BuildSpec s flags iv cs := by
  simp only [Site.build, bind_ok, Prod.exists] at h
  obtain ⟨iv', cs', h1, after, h2, h3⟩ := h
  simp only [Except.ok.injEq, Prod.mk.injEq] at h3
  obtain ⟨rfl, rfl⟩ := h3
  rw [List.range_eq_range'] at h1
  have h1' : s.buildLoop flags (List.range' 0 s.data.n) (s.ivarsTo flags 0) [] = .ok (iv', cs') := by
    simpa [Site.ivarsTo] using h1
  obtain ⟨e1, e2, e3, e4, e5⟩ := buildLoop_spec s flags _ 0 _ _ _ h1'
  simp only [Nat.zero_add, Nat.zero_le, true_and, forall_true_left] at e1 e2 e3 e4 e5
  refine ⟨e1, e2, e3, e4, fun a ha => flatMapE_all_ok h2 ha, ?_⟩
  intro c
  rw [List.mem_append, e5 c, flatMapE_mem h2]
  simp only [List.not_mem_nil, false_or, or_assoc]

theorem flatMapE_of_all_ok {α β : Type} {f : α → Res (List β)} {l : List α} (h : ∀ a ∈ l, ∃ r, f a = .ok r) :
    ∃ r, flatMapE f l = .ok r := by
  induction l with
  | nil => exact ⟨[], rfl⟩
  | cons a as ih =>
    obtain ⟨l, hl⟩ := h a (by simp)
    obtain ⟨l', hl'⟩ := ih (fun a ha => h a (by simp [ha]))
    exact ⟨l ++ l', by rw [flatMapE_cons, hl, ok_bind, hl', ok_bind]⟩

theorem buildLoop_complete (s : Site) (flags : Flags) (m k : Nat) (cs : List Con)
    (h1 : ∀ i, k ≤ i → i < k + m → s.intervalVars flags i = .ok (s.ones flags i))
    (h2 : ∀ i, k ≤ i → i < k + m → ∃ l, s.constrainWithin (s.ivarsTo flags (i + 1)) i = .ok l)
    (h3 : ∀ i, k ≤ i → i < k + m → ∀ a ∈ s.assets, ∃ l,
      a.constrainWithin (s.ivarsTo flags (i + 1)) i s.freq flags = .ok l) :
    ∃ r, s.buildLoop flags (List.range' k m) (s.ivarsTo flags k) cs = .ok r := by
  induction m generalizing k cs with
  | zero => exact ⟨_, rfl⟩
  | succ m ih =>
    simp only [List.range'_succ, Site.buildLoop, h1 k (le_refl _) (by omega), ok_bind]
    obtain ⟨l, hl⟩ := h2 k (le_refl _) (by omega)
    rw [← ivarsTo_succ, hl]
    simp only [ok_bind]
    have := flatMapE_of_all_ok (h3 k (le_refl _) (by omega))
    obtain ⟨l', hl'⟩ := this
    rw [hl']
    simp only [ok_bind]
    exact ih (k + 1) _ (fun i hi hi' => h1 i (by omega) (by omega)) (fun i hi hi' => h2 i (by omega) (by omega))
      (fun i hi hi' => h3 i (by omega) (by omega))

/-- If every call succeeds, so does the building. -/
theorem build_complete (s : Site) (flags : Flags)
    (h1 : ∀ i < s.data.n, s.intervalVars flags i = .ok (s.ones flags i))
    (h2 : ∀ i < s.data.n, ∃ l, s.constrainWithin (s.ivarsTo flags (i + 1)) i = .ok l)
    (h3 : ∀ i < s.data.n, ∀ a ∈ s.assets, ∃ l,
      a.constrainWithin (s.ivarsTo flags (i + 1)) i s.freq flags = .ok l)
    (h4 : ∀ a ∈ s.assets, ∃ l, a.constrainAfter (s.ivarsTo flags s.data.n) = .ok l) :
    ∃ cs, s.build flags = .ok (s.ivarsTo flags s.data.n, cs) := by
  obtain ⟨⟨iv, cs⟩, hr⟩ := buildLoop_complete s flags s.data.n 0 []
    (fun i _ h => h1 i (by omega)) (fun i _ h => h2 i (by omega)) (fun i _ h => h3 i (by omega))
  have := (buildLoop_spec s flags _ 0 _ _ _ hr).1
  rw [Nat.zero_add] at this
  subst this
  have hr' : s.buildLoop flags (List.range s.data.n) [] [] = .ok (s.ivarsTo flags s.data.n, cs) := by
    rw [List.range_eq_range']
    simpa [Site.ivarsTo] using hr
  obtain ⟨l, hl⟩ := flatMapE_of_all_ok h4
  exact ⟨cs ++ l, by simp [Site.build, hr', hl]⟩

end EPL
