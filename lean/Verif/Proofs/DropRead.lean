/-
Reading the results of a program from which variables have been removed.
-/
import Verif.Proofs.Drop

namespace EPL

open Classical

section
variable {G : VarId → Prop} {iv : IVars} {vals vals' : Values}

/-- An array with zero in place of the variables `G`. -/
noncomputable def EvsArray.drop (G : VarId → Prop) (a : EvsArray) : EvsArray where
  cfg := a.cfg
  initialSoc := fun e => (a.initialSoc e).drop G
  finalSoc := fun e => (a.finalSoc e).drop G
  charge := fun e k => (a.charge e k).drop G
  chargeBin := fun e k => (a.chargeBin e k).drop G
  discharge := fun e k => (a.discharge e k).drop G
  dischargeBin := fun e k => (a.dischargeBin e k).drop G
  loss := fun e k => (a.loss e k).drop G

theorem set1_drop (a : Nat → Val) (e : Nat) (v : Val) : (fun e' => (set1 a e v e').drop G) = set1 (fun e' => (a e').drop G) e (v.drop G) := by
  funext e'
  simp only [set1]
  split <;> rfl

theorem set2_drop (a : Nat → Nat → Val) (e k : Nat) (v : Val) :
    (fun e' k' => (set2 a e k v e' k').drop G) = set2 (fun e' k' => (a e' k').drop G) e k (v.drop G) := by
  funext e' k'
  simp only [set2]
  split <;> rfl

theorem assign_drop (a : EvsArray) (o : EvOI) : (a.assign o).drop G = (a.drop G).assign (o.drop G) := by
  simp only [EvsArray.drop, EvsArray.assign, EvOI.drop, set1_drop, set2_drop]

theorem foldl_assign_drop (l : List EvOI) (a : EvsArray) :
    (l.map (EvOI.drop G)).foldl EvsArray.assign (a.drop G) = (l.foldl EvsArray.assign a).drop G := by
  induction l generalizing a with
  | nil => rfl
  | cons o l ih => rw [List.map_cons, List.foldl_cons, List.foldl_cons, ← assign_drop, ih]

theorem zeros_drop (c : EvsCfg) : (EvsArray.zeros c).drop G = EvsArray.zeros c := rfl

theorem evData_drop (l : List OneInterval) : evData (l.map (OneInterval.drop G)) = (evData l).map (EvOI.drop G) := by
  induction l with
  | nil => rfl
  | cons o l ih => cases o <;> simp only [List.map_cons, OneInterval.drop, evData, ih]

theorem createEvsArray_drop (i : Int) (name : String) (isSpill : Bool) :
    createEvsArray (iv.drop G) i name isSpill = (createEvsArray iv i name isSpill).map (EvsArray.drop G) := by
  unfold createEvsArray
  rw [IVars.filter_drop]
  cases iv.filter i (some (if isSpill then .evSpill else .ev)) (some name) with
  | error e => rfl
  | ok l =>
    simp only [map_ok, ok_bind, evData_drop, pyIndex_map]
    cases pyIndex (evData l) 0 with
    | error e => rfl
    | ok o =>
      simp only [map_ok, ok_bind, List.length_map]
      rw [show (o.drop G).cfg = o.cfg from rfl]
      cases pyAssert (decide ((evData l).length = o.cfg.events.length * (if isSpill then 1 else o.cfg.chargers.length))) "one_intervals" with
      | error e => rfl
      | ok u =>
        simp only [ok_bind, List.all_map]
        rw [show ((fun (o' : EvOI) => decide (o'.eventIdx < o.cfg.events.length) && decide (o'.chargerIdx < o.cfg.chargers.length)) ∘ EvOI.drop G) =
          (fun (o' : EvOI) => decide (o'.eventIdx < o.cfg.events.length) && decide (o'.chargerIdx < o.cfg.chargers.length)) from rfl]
        split
        · rw [map_ok, ← foldl_assign_drop, zeros_drop]
        · rfl

/-- What reading the dropped objects needs. -/
structure IVars.Readable (G : VarId → Prop) (vals vals' : Values) (iv : IVars) : Prop where
  agree : ∀ id, ¬ G id → vals' id = vals id
  zero : ∀ l ∈ iv, ∀ o ∈ l, o.Over (fun v => G v.id → vals v.id = some 0)
  plain : ∀ l ∈ iv, ∀ o ∈ l, o.kind ≠ .ev → o.kind ≠ .evSpill → o.Over (fun v => ¬ G v.id)
  soc : ∀ l ∈ iv, ∀ e, OneInterval.ev e ∈ l ∨ OneInterval.evSpill e ∈ l → e.initialSoc.Over (fun v => ¬ G v.id) ∧
    e.finalSoc.Over (fun v => ¬ G v.id)

theorem optimizerValue_drop (ha : ∀ id, ¬ G id → vals' id = vals id) {x : Val} (hx : x.Over (fun v => G v.id → vals v.id = some 0)) (clip : Bool) :
    optimizerValue vals' clip (x.drop G) = optimizerValue vals clip x := by
  cases x with
  | var v =>
    by_cases hg : G v.id
    · have h0 : vals v.id = some 0 := hx hg
      by_cases hb : v.isBinary <;> cases clip <;> simp [Val.drop, hg, hb, optimizerValue, h0]
    · simp [Val.drop, hg, optimizerValue, ha v.id hg]
  | _ => rfl

theorem directValue_drop (ha : ∀ id, ¬ G id → vals' id = vals id) {x : Val} (hx : x.Over (fun v => ¬ G v.id)) :
    directValue vals' (x.drop G) = directValue vals x := by
  rw [Val.drop_kept G hx]
  cases x with
  | var v => simp only [directValue, ha v.id hx]
  | _ => rfl

/-- The arrays hold values that can be read. -/
structure ArrayReadable (G : VarId → Prop) (vals : Values) (a : EvsArray) : Prop where
  over : a.Over (fun v => G v.id → vals v.id = some 0)
  initialSoc : ∀ e, (a.initialSoc e).Over (fun v => ¬ G v.id)
  finalSoc : ∀ e, (a.finalSoc e).Over (fun v => ¬ G v.id)

theorem set1_over {P : LpVar → Prop} {a : Nat → Val} {v : Val} (ha : ∀ e, (a e).Over P) (hv : v.Over P) (k e : Nat) : (set1 a k v e).Over P := by
  unfold set1
  split
  · exact hv
  · exact ha e

theorem set2_over {P : LpVar → Prop} {a : Nat → Nat → Val} {v : Val} (ha : ∀ e k, (a e k).Over P) (hv : v.Over P) (i j e k : Nat) :
    (set2 a i j v e k).Over P := by
  unfold set2
  split
  · exact hv
  · exact ha e k

theorem evData_mem {l : List OneInterval} {e : EvOI} : e ∈ evData l → OneInterval.ev e ∈ l ∨ OneInterval.evSpill e ∈ l := by
  induction l with
  | nil => simp [evData]
  | cons o l ih =>
    intro h
    have rest : e ∈ evData l → OneInterval.ev e ∈ o :: l ∨ OneInterval.evSpill e ∈ o :: l := fun h =>
      (ih h).imp (List.mem_cons_of_mem _) (List.mem_cons_of_mem _)
    cases o with
    | ev e' =>
      rcases List.mem_cons.1 h with rfl | h
      · exact .inl (List.mem_cons_self ..)
      · exact rest h
    | evSpill e' =>
      rcases List.mem_cons.1 h with rfl | h
      · exact .inr (List.mem_cons_self ..)
      · exact rest h
    | _ => exact rest h

theorem array_readable (h : iv.Readable G vals vals') {i : Nat} {name : String} {isSpill : Bool} {a : EvsArray}
    (ha : createEvsArray iv i name isSpill = .ok a) : ArrayReadable G vals a := by
  simp only [createEvsArray, bind_ok] at ha
  obtain ⟨l, hl, first, _, _, _, ha⟩ := ha
  have hm : ∀ e ∈ evData l, (OneInterval.ev e).Over (fun v => G v.id → vals v.id = some 0) ∧ e.initialSoc.Over (fun v => ¬ G v.id) ∧
      e.finalSoc.Over (fun v => ¬ G v.id) := by
    intro e he
    rcases evData_mem he with h1 | h1
    · obtain ⟨l', h2, h3⟩ := mem_filter hl h1
      exact ⟨h.zero l' h2 _ h3, h.soc l' h2 e (.inl h3)⟩
    · obtain ⟨l', h2, h3⟩ := mem_filter hl h1
      exact ⟨fun attr v hv => h.zero l' h2 _ h3 attr v hv, h.soc l' h2 e (.inr h3)⟩
  split at ha
  · cases ha
    have key : ∀ (l : List EvOI) (a : EvsArray), (∀ e ∈ l, (OneInterval.ev e).Over (fun v => G v.id → vals v.id = some 0) ∧
        e.initialSoc.Over (fun v => ¬ G v.id) ∧ e.finalSoc.Over (fun v => ¬ G v.id)) → ArrayReadable G vals a →
        ArrayReadable G vals (l.foldl EvsArray.assign a) := by
      intro l
      induction l with
      | nil => intro a _ ha; exact ha
      | cons o l ih =>
        intro a hl ha
        refine ih _ (fun e he => hl e (by simp [he])) ?_
        obtain ⟨h1, h2, h3⟩ := hl o (by simp)
        exact {
          over := {
            initialSoc := set1_over ha.over.initialSoc (h1 "initial_soc_mwh" _ rfl) _
            finalSoc := set1_over ha.over.finalSoc (h1 "final_soc_mwh" _ rfl) _
            charge := set2_over ha.over.charge (h1 "electric_charge_mwh" _ rfl) _ _
            chargeBin := set2_over ha.over.chargeBin (h1 "electric_charge_binary" _ rfl) _ _
            discharge := set2_over ha.over.discharge (h1 "electric_discharge_mwh" _ rfl) _ _
            dischargeBin := set2_over ha.over.dischargeBin (h1 "electric_discharge_binary" _ rfl) _ _
            loss := set2_over ha.over.loss (h1 "electric_loss_mwh" _ rfl) _ _ }
          initialSoc := set1_over ha.initialSoc h2 _
          finalSoc := set1_over ha.finalSoc h3 _ }
    exact key _ _ hm ⟨⟨fun _ => trivial, fun _ => trivial, fun _ _ => trivial, fun _ _ => trivial, fun _ _ => trivial, fun _ _ => trivial,
      fun _ _ => trivial⟩, fun _ => trivial, fun _ => trivial⟩
  · cases ha

theorem get2_drop (a : EvsArray) (attr : String) (e k : Nat) : (a.drop G).get2 attr e k = (a.get2 attr e k).drop G := by
  unfold EvsArray.get2
  split_ifs <;> rfl

theorem get2_over {P : LpVar → Prop} {a : EvsArray} (h : a.Over P) (attr : String) (e k : Nat) : (a.get2 attr e k).Over P := by
  unfold EvsArray.get2
  split_ifs
  · exact h.charge e k
  · exact h.chargeBin e k
  · exact h.discharge e k
  · exact h.dischargeBin e k
  · exact h.loss e k

theorem sumValues_drop (ha : ∀ id, ¬ G id → vals' id = vals id) {xs : List Val} (h : ∀ x ∈ xs, x.Over (fun v => G v.id → vals v.id = some 0)) :
    sumValues vals' (xs.map (Val.drop G)) = sumValues vals xs := by
  unfold sumValues
  have := mapE_natural (f := optimizerValue vals false) (f' := optimizerValue vals' false) (g := Val.drop G) (h := id) (l := xs)
    fun x hx => by
      rw [optimizerValue_drop ha (h x hx)]
      cases optimizerValue vals false x <;> rfl
  rw [this]
  cases mapE (optimizerValue vals false) xs <;> simp

theorem emitChargers_drop (ha : ∀ id, ¬ G id → vals' id = vals id) {a : EvsArray} (hr : ArrayReadable G vals a) (chs : List ChargerCfg) :
    emitChargers vals' (a.drop G) chs = emitChargers vals a chs := by
  unfold emitChargers
  congr 1
  funext ch
  congr 1
  funext attr
  have := sumValues_drop ha (xs := (List.range a.cfg.events.length).map (fun e => a.get2 attr e ch.2)) (by
    intro x hx
    obtain ⟨e, _, rfl⟩ := List.mem_map.1 hx
    exact get2_over hr.over _ _ _)
  rw [List.map_map] at this
  simp only [get2_drop]
  rw [← this]
  rfl

theorem emitEvents_drop (ha : ∀ id, ¬ G id → vals' id = vals id) {a : EvsArray} (hr : ArrayReadable G vals a) :
    emitEvents vals' (a.drop G) = emitEvents vals a := by
  unfold emitEvents
  congr 1
  funext ev
  congr 1
  funext attr
  have := sumValues_drop ha (xs := (List.range a.cfg.chargers.length).map (fun c => a.get2 attr ev.2 c)) (by
    intro x hx
    obtain ⟨e, _, rfl⟩ := List.mem_map.1 hx
    exact get2_over hr.over _ _ _)
  rw [List.map_map] at this
  simp only [get2_drop]
  rw [← this]
  rfl

theorem emitSocs_drop (ha : ∀ id, ¬ G id → vals' id = vals id) {a : EvsArray} (hr : ArrayReadable G vals a) :
    emitSocs vals' (a.drop G) = emitSocs vals a := by
  have h1 : ∀ e, directValue vals' ((a.drop G).initialSoc e) = directValue vals (a.initialSoc e) := fun e => directValue_drop ha (hr.initialSoc e)
  have h2 : ∀ e, directValue vals' ((a.drop G).finalSoc e) = directValue vals (a.finalSoc e) := fun e => directValue_drop ha (hr.finalSoc e)
  unfold emitSocs
  simp only [h1, h2]
  rfl

theorem flatMapE_congr {α β : Type} {f g : α → Res (List β)} {l : List α} (h : ∀ a ∈ l, f a = g a) : flatMapE f l = flatMapE g l := by
  unfold flatMapE
  rw [mapE_congr h]

theorem flatMapE_map {α α' β : Type} (f : α' → Res (List β)) (g : α → α') (l : List α) :
    flatMapE f (l.map g) = flatMapE (fun a => f (g a)) l := by
  unfold flatMapE
  have := mapE_natural (f := fun a => f (g a)) (f' := f) (g := g) (h := id) (l := l) fun a _ => by
    cases f (g a) <;> rfl
  rw [this]
  cases mapE (fun a => f (g a)) l <;> simp

theorem emitEvs_drop (h : iv.Readable G vals vals') (i : Nat) (names : List String) :
    emitEvs (iv.drop G) vals' i names = emitEvs iv vals i names := by
  unfold emitEvs
  rw [IVars.filter_drop]
  cases iv.filter i (some .ev) none with
  | error e => rfl
  | ok l =>
    simp only [map_ok, ok_bind, List.isEmpty_map]
    split
    · rfl
    · have hp : ∀ sp, mapE (fun n => createEvsArray (iv.drop G) i n sp) (names.filter (pyIn "evs")) =
          (mapE (fun n => createEvsArray iv i n sp) (names.filter (pyIn "evs"))).map (List.map (EvsArray.drop G)) := fun sp =>
        mapE_natural_id fun n _ => createEvsArray_drop (iv := iv) (i : Int) n sp
      rw [hp, hp]
      cases hp1 : mapE (fun n => createEvsArray iv i n false) (names.filter (pyIn "evs")) with
      | error e => rfl
      | ok pkg =>
        have r1 : ∀ a ∈ pkg, ArrayReadable G vals a := by
          intro a ha
          obtain ⟨n, _, hn⟩ := (mapE_mem hp1).1 ha
          exact array_readable h hn
        simp only [map_ok, ok_bind, flatMapE_map]
        have e1 : flatMapE (fun (a : EvsArray) => do
              let c ← emitChargers vals' (a.drop G) (a.drop G).cfg.chargers
              let e ← emitEvents vals' (a.drop G)
              let s ← emitSocs vals' (a.drop G)
              (.ok (c ++ e ++ s) : Res (List (String × ℚ)))) pkg =
            flatMapE (fun (a : EvsArray) => do
              let c ← emitChargers vals a a.cfg.chargers
              let e ← emitEvents vals a
              let s ← emitSocs vals a
              (.ok (c ++ e ++ s) : Res (List (String × ℚ)))) pkg := by
          apply flatMapE_congr
          intro a ha
          rw [show (a.drop G).cfg.chargers = a.cfg.chargers from rfl, emitChargers_drop h.agree (r1 a ha), emitEvents_drop h.agree (r1 a ha),
            emitSocs_drop h.agree (r1 a ha)]
        rw [e1]
        congr 1
        funext rows
        cases hp2 : mapE (fun n => createEvsArray iv i n true) (names.filter (pyIn "evs")) with
        | error e => rfl
        | ok spkg =>
          have r2 : ∀ a ∈ spkg, ArrayReadable G vals a := by
            intro a ha
            obtain ⟨n, _, hn⟩ := (mapE_mem hp2).1 ha
            exact array_readable h hn
          simp only [map_ok, ok_bind, flatMapE_map]
          congr 1
          apply flatMapE_congr
          intro a ha
          exact emitChargers_drop h.agree (r2 a ha) _

theorem emitKind_drop (h : iv.Readable G vals vals') (i : Nat) {k : Kind} (h1 : k ≠ .ev) (h2 : k ≠ .evSpill) {read read' : Val → Res ℚ}
    (hread : ∀ x : Val, x.Over (fun v => ¬ G v.id) → read' x = read x) (attrs : List String) :
    emitKind (iv.drop G) i k read' attrs = emitKind iv i k read attrs := by
  unfold emitKind
  rw [IVars.filter_drop]
  cases hl : iv.filter i (some k) none with
  | error e => rfl
  | ok l =>
    simp only [map_ok, ok_bind, flatMapE_map]
    apply flatMapE_congr
    intro o ho
    have hk : o.kind = k := by
      simp only [IVars.filter, bind_ok, Except.ok.injEq] at hl
      obtain ⟨l', _, rfl⟩ := hl
      have := (List.mem_filter.1 ho).2
      simpa [matchesFilter] using this
    obtain ⟨l', m1, m2⟩ := mem_filter hl ho
    have hov := h.plain l' m1 o m2 (hk ▸ h1) (hk ▸ h2)
    have hd : o.drop G = o := by
      cases o <;> first | rfl | exact absurd hk.symm h1 | exact absurd hk.symm h2
    rw [hd]
    unfold emitAttrs
    apply mapE_congr
    intro attr _
    apply bind_congr_ok
    intro v hv
    rw [hread v (hov attr v hv)]

theorem emitSite_drop (h : iv.Readable G vals vals') (d : SiteData) (i : Nat) : emitSite d (iv.drop G) vals' i = emitSite d iv vals i := by
  unfold emitSite
  rw [IVars.filter_drop]
  cases hl : iv.filter i (some .site) (some "site") with
  | error e => rfl
  | ok l =>
    simp only [map_ok, ok_bind, List.length_map]
    congr 1
    funext _
    have hov : ∀ x, OneInterval.site x ∈ l → (OneInterval.site x).Over (fun v => ¬ G v.id) := by
      intro x hx
      obtain ⟨l', m1, m2⟩ := mem_filter hl hx
      exact h.plain l' m1 _ m2 (by simp [OneInterval.kind]) (by simp [OneInterval.kind])
    cases l with
    | nil => rfl
    | cons o l =>
      cases o with
      | site x =>
        have hx := hov x (by simp)
        have e1 : vals' x.importPower.id = vals x.importPower.id := h.agree _ (hx "import_power_mwh" (.var x.importPower) rfl)
        have e2 : vals' x.exportPower.id = vals x.exportPower.id := h.agree _ (hx "export_power_mwh" (.var x.exportPower) rfl)
        simp only [List.map_cons, OneInterval.drop, directValue, e1, e2]
      | _ => rfl

theorem emitInterval_drop (h : iv.Readable G vals vals') (s : Site) (i : Nat) : emitInterval s (iv.drop G) vals' i = emitInterval s iv vals i := by
  have ho : ∀ clip, ∀ x : Val, x.Over (fun v => ¬ G v.id) → optimizerValue vals' clip x = optimizerValue vals clip x := by
    intro clip x hx
    cases x with
    | var v => simp only [optimizerValue, h.agree v.id hx]
    | _ => rfl
  have hd : ∀ x : Val, x.Over (fun v => ¬ G v.id) → directValue vals' x = directValue vals x := by
    intro x hx
    cases x with
    | var v => simp only [directValue, h.agree v.id hx]
    | _ => rfl
  unfold emitInterval
  rw [emitSite_drop h, emitKind_drop h i (by simp) (by simp) (ho false), emitKind_drop h i (by simp) (by simp) (ho true),
    emitKind_drop h i (by simp) (by simp) hd, emitKind_drop h i (by simp) (by simp) hd, emitKind_drop h i (by simp) (by simp) (ho false),
    emitEvs_drop h, emitKind_drop h i (by simp) (by simp) (ho false), emitKind_drop h i (by simp) (by simp) (ho false)]

theorem extractResults_drop (h : iv.Readable G vals vals') (s : Site) (status : Status) (flags flags' : Flags)
    (hf : flags.failOnSpill = flags'.failOnSpill) :
    extractResults s (iv.drop G) status vals' flags' = extractResults s iv status vals flags := by
  unfold extractResults extractTable warnSpills
  rw [show (emitInterval s (iv.drop G) vals') = emitInterval s iv vals from funext fun i => emitInterval_drop h s i, hf]

end

end EPL
