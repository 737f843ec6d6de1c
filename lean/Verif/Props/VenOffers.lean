import Verif.Model.VenReports
import Verif.Lemmas.Callbacks
/-!
C57: the offer of the VEN; C72: offers do not influence each other.
-/
namespace Openleadr

/-! ### What an accepted call does -/

/-- Everything about an accepted call: the checks passed, and the two ways to enter the data point. -/
theorem addReport_ok (fresh : Nat → String) (s s' : VenReports) (a : AddReport) (out : Option String × String)
    (h : addReport fresh s a = (s', .ok out)) :
    ∃ heap heap' ref, itemBase s.heap a = .ok (heap, ref) ∧ applyScale heap ref a.scale = .ok heap' ∧
      ((∃ offer r, findOffer s.reports a = some offer ∧ r = orFresh fresh s.ids a.rId ∧ out = (a.specifierId, r.1) ∧
          s' = { s with heap := heap', ids := r.2, callbacks := setCallback s.callbacks (.str offer.specifierId, .str r.1) a.callback,
                        reports := addPoint (fun x => decide (x.name = offer.name) && decide (x.specifierId = offer.specifierId))
                          ⟨.str r.1, a.resourceId, a.readingType, a.reportType, a.rate.rate, ref⟩ s.reports }) ∨
       (∃ sid r, findOffer s.reports a = none ∧ sid = orFresh fresh s.ids a.specifierId ∧ r = orFresh fresh sid.2 a.rId ∧ out = (some sid.1, r.1) ∧
          s' = { s with heap := heap', ids := r.2, callbacks := setCallback s.callbacks (.str sid.1, .str r.1) a.callback,
                        reports := s.reports ++ [⟨a.name, sid.1, decide (a.mode = "full"),
                          [⟨.str r.1, a.resourceId, a.readingType, a.reportType, a.rate.rate, ref⟩]⟩] })) := by
  unfold addReport at h
  cases hc : checkAdd a with
  | error e => rw [hc] at h; simp at h
  | ok u =>
    rw [hc] at h
    simp only [] at h
    cases hi : itemBase s.heap a with
    | error e => rw [hi] at h; simp at h
    | ok p =>
      obtain ⟨heap, ref⟩ := p
      rw [hi] at h
      simp only [] at h
      cases hs : applyScale heap ref a.scale with
      | error e => rw [hs] at h; simp at h
      | ok heap' =>
        rw [hs] at h
        simp only [] at h
        refine ⟨heap, heap', ref, rfl, hs, ?_⟩
        by_cases hu : ref = none ∧ a.unit ≠ none
        · rw [if_pos hu] at h; simp at h
        · rw [if_neg hu] at h
          cases hf : findOffer s.reports a with
          | some offer =>
            rw [hf] at h
            simp only [Prod.mk.injEq, Except.ok.injEq] at h
            exact Or.inl ⟨offer, _, rfl, rfl, h.2.symm, h.1.symm⟩
          | none =>
            rw [hf] at h
            simp only [Prod.mk.injEq, Except.ok.injEq] at h
            exact Or.inr ⟨_, _, rfl, rfl, rfl, h.2.symm, h.1.symm⟩

/-- **C57.** A refused call changes nothing at all: not the offer, not the callbacks, not the measurements. -/
theorem c57_refused_unchanged (fresh : Nat → String) (s s' : VenReports) (a : AddReport) (e : Err) (h : addReport fresh s a = (s', .error e)) :
    s' = s := by
  unfold addReport at h
  cases hc : checkAdd a with
  | error e => rw [hc] at h; simp only [Prod.mk.injEq] at h; exact h.1.symm
  | ok u =>
    rw [hc] at h
    simp only [] at h
    cases hi : itemBase s.heap a with
    | error e => rw [hi] at h; simp only [Prod.mk.injEq] at h; exact h.1.symm
    | ok p =>
      obtain ⟨heap, ref⟩ := p
      rw [hi] at h
      simp only [] at h
      cases hs : applyScale heap ref a.scale with
      | error e => rw [hs] at h; simp only [Prod.mk.injEq] at h; exact h.1.symm
      | ok heap' =>
        rw [hs] at h
        simp only [] at h
        by_cases hu : ref = none ∧ a.unit ≠ none
        · rw [if_pos hu] at h; simp only [Prod.mk.injEq] at h; exact h.1.symm
        · rw [if_neg hu] at h
          cases hf : findOffer s.reports a with
          | some offer => rw [hf] at h; simp at h
          | none => rw [hf] at h; simp at h

/-! ### Validity of what is offered -/

/-- The rules for the texts of an offer, stated on their own. -/
def ValidTexts (a : AddReport) : Prop :=
  (a.name ∈ reportNames ∨ a.name.startsWith "x-") ∧ (a.readingType ∈ readingTypes ∨ a.readingType.startsWith "x-") ∧
  (a.reportType ∈ reportTypes ∨ a.reportType.startsWith "x-") ∧ (∃ sc ∈ siScaleCodes, a.scale = some sc) ∧
  (a.mode = "incremental" ∨ (a.mode = "full" ∧ ∀ p ∈ ["date_from", "date_to", "sampling_interval"], p ∈ a.accepts))

theorem knownOrExtension_iff (l : List String) (v : String) : knownOrExtension l v = true ↔ (v ∈ l ∨ v.startsWith "x-") := by
  simp [knownOrExtension]

theorem checkAdd_iff (a : AddReport) : checkAdd a = .ok () ↔ ValidTexts a := by
  unfold checkAdd ValidTexts
  rw [← knownOrExtension_iff, ← knownOrExtension_iff, ← knownOrExtension_iff]
  cases h1 : knownOrExtension reportNames a.name with
  | false => simp
  | true =>
    cases h2 : knownOrExtension readingTypes a.readingType with
    | false => simp
    | true =>
      cases h3 : knownOrExtension reportTypes a.reportType with
      | false => simp
      | true =>
        simp only [Bool.true_eq_false, if_false]
        cases hsc : a.scale with
        | none => simp
        | some sc =>
          by_cases hin : sc ∈ siScaleCodes
          · have : (!siScaleCodes.contains sc) = false := by simp [hin]
            simp only [this, Bool.false_eq_true, if_false, true_and, Option.some.injEq, exists_eq_right', hin]
            by_cases hm : a.mode = "incremental"
            · simp [hm]
            · by_cases hf : a.mode = "full"
              · simp only [hf, List.contains_eq_mem, decide_eq_true_eq]
                simp
              · simp [hm, hf]
          · have : (!siScaleCodes.contains sc) = true := by simp [hin]
            simp only [this, if_true]
            constructor
            · intro h; cases h
            · rintro ⟨-, -, -, ⟨x, hx, he⟩, -⟩
              simp only [Option.some.injEq] at he
              rw [he] at hin
              exact absurd hx hin

/-- **C57.** What is offered is valid: a call is only accepted with valid names, types, scale and collection mode. -/
theorem c57_accepted_valid (fresh : Nat → String) (s s' : VenReports) (a : AddReport) (out : Option String × String)
    (h : addReport fresh s a = (s', .ok out)) : ValidTexts a := by
  rw [← checkAdd_iff]
  unfold addReport at h
  cases hc : checkAdd a with
  | error e => rw [hc] at h; simp at h
  | ok u => rfl

/-! ### The offer after any calls -/

/-- A number of calls; refused ones are ignored by the user. -/
def addAll (fresh : Nat → String) (s : VenReports) : List AddReport → VenReports
  | [] => s
  | a :: l => addAll fresh (addReport fresh s a).1 l

/-- All offered data points with the specifier id of their report. -/
def offeredKeys (s : VenReports) : List (String × Value) := s.reports.flatMap (fun r => r.points.map (fun p => (r.specifierId, p.rId)))

theorem mem_offeredKeys (s : VenReports) (k : String × Value) :
    k ∈ offeredKeys s ↔ ∃ r ∈ s.reports, r.specifierId = k.1 ∧ ∃ p ∈ r.points, p.rId = k.2 := by
  obtain ⟨a, b⟩ := k
  simp only [offeredKeys, List.mem_flatMap, List.mem_map, Prod.mk.injEq]
  constructor
  · rintro ⟨r, hr, p, hp, h1, h2⟩; exact ⟨r, hr, h1, p, hp, h2⟩
  · rintro ⟨r, hr, h1, p, hp, h2⟩; exact ⟨r, hr, p, hp, h1, h2⟩

theorem addPoint_keys (p : VenReport → Bool) (pt : VenPoint) (rs : List VenReport) (k : String × Value) :
    (∃ r ∈ addPoint p pt rs, r.specifierId = k.1 ∧ ∃ x ∈ r.points, x.rId = k.2) ↔
    (∃ r ∈ rs, r.specifierId = k.1 ∧ ∃ x ∈ r.points, x.rId = k.2) ∨ (∃ r, rs.find? p = some r ∧ k = (r.specifierId, pt.rId)) := by
  induction rs with
  | nil => simp [addPoint]
  | cons r rs ih =>
    cases hp : p r with
    | true =>
      simp only [addPoint, hp, if_true, List.mem_cons, exists_eq_or_imp, List.mem_append, List.not_mem_nil, or_false, List.find?_cons]
      obtain ⟨a, b⟩ := k
      constructor
      · rintro (⟨h1, x, hx | rfl, h2⟩ | h)
        · exact Or.inl (Or.inl ⟨h1, x, hx, h2⟩)
        · exact Or.inr ⟨r, rfl, by simp only [Prod.mk.injEq]; exact ⟨h1.symm, h2.symm⟩⟩
        · exact Or.inl (Or.inr h)
      · rintro ((⟨h1, x, hx, h2⟩ | h) | ⟨r', hr', hk⟩)
        · exact Or.inl ⟨h1, x, Or.inl hx, h2⟩
        · exact Or.inr h
        · simp only [Option.some.injEq] at hr'
          subst hr'
          simp only [Prod.mk.injEq] at hk
          exact Or.inl ⟨hk.1.symm, pt, Or.inr rfl, hk.2.symm⟩
    | false =>
      simp only [addPoint, hp, Bool.false_eq_true, if_false, List.mem_cons, exists_eq_or_imp, List.find?_cons]
      rw [ih, or_assoc]

theorem findOffer_mem (rs : List VenReport) (a : AddReport) (o : VenReport) (h : findOffer rs a = some o) :
    rs.find? (fun x => decide (x.name = o.name) && decide (x.specifierId = o.specifierId)) = some o ∧ o.name = a.name ∧
    (∀ sid, a.specifierId = some sid → sid ≠ "" → o.specifierId = sid) := by
  have key : ∀ (p : VenReport → Bool), (∀ x, p x = true → x.name = a.name) → (∀ x, x.name = o.name → x.specifierId = o.specifierId → p o = true → p x = true) →
      rs.find? p = some o → rs.find? (fun x => decide (x.name = o.name) && decide (x.specifierId = o.specifierId)) = some o ∧ o.name = a.name := by
    intro p hp1 hp2 hf
    have hpo := List.find?_some hf
    refine ⟨?_, hp1 o hpo⟩
    have key2 : ∀ l : List VenReport, l.find? p = some o → l.find? (fun x => decide (x.name = o.name) && decide (x.specifierId = o.specifierId)) = some o := by
      intro l
      induction l with
      | nil => simp
      | cons x l ih =>
        intro hf
        rw [List.find?_cons] at hf
        rw [List.find?_cons]
        by_cases hx : x = o
        · subst hx; simp
        · cases hpx : p x with
          | true => rw [hpx] at hf; simp only [Option.some.injEq] at hf; exact absurd hf hx
          | false =>
            rw [hpx] at hf
            have : (decide (x.name = o.name) && decide (x.specifierId = o.specifierId)) = false := by
              cases hd : (decide (x.name = o.name) && decide (x.specifierId = o.specifierId)) with
              | false => rfl
              | true =>
                simp only [Bool.and_eq_true, decide_eq_true_eq] at hd
                rw [hp2 x hd.1 hd.2 hpo] at hpx
                cases hpx
            rw [this]
            exact ih hf
    exact key2 rs hf
  unfold findOffer at h
  cases hsid : a.specifierId with
  | none =>
    rw [hsid] at h
    simp only [] at h
    obtain ⟨h1, h2⟩ := key _ (by simp) (by simp; intro x h1 _ h2; exact h1.trans h2) h
    exact ⟨h1, h2, by simp⟩
  | some sid =>
    rw [hsid] at h
    simp only [] at h
    by_cases he : sid = ""
    · rw [if_pos he] at h
      obtain ⟨h1, h2⟩ := key _ (by simp) (by simp; intro x h1 _ h2; exact h1.trans h2) h
      exact ⟨h1, h2, by intro x hx hne; simp only [Option.some.injEq] at hx; exact absurd (hx ▸ he) hne⟩
    · rw [if_neg he] at h
      have hpo := List.find?_some h
      simp only [Bool.and_eq_true, decide_eq_true_eq] at hpo
      obtain ⟨h1, h2⟩ := key _ (by simp; intro x h _; exact h) (by simp; intro x h1 h2 h3 h4; exact ⟨h1.trans h3, h2.trans h4⟩) h
      exact ⟨h1, h2, by intro x hx _; simp only [Option.some.injEq] at hx; rw [← hx]; exact hpo.2⟩

/-- The keys after an accepted call: those before, and one more, whose callback is the given one. -/
theorem addReport_keys (fresh : Nat → String) (s s' : VenReports) (a : AddReport) (out : Option String × String)
    (h : addReport fresh s a = (s', .ok out)) :
    ∃ sid, (∀ k, k ∈ offeredKeys s' ↔ k ∈ offeredKeys s ∨ k = (sid, .str out.2)) ∧
      s'.callbacks = setCallback s.callbacks (.str sid, .str out.2) a.callback ∧
      (∀ x, a.specifierId = some x → x ≠ "" → sid = x) ∧
      (out.1 = some sid ∨ ∃ r ∈ s.reports, r.name = a.name ∧ r.specifierId = sid) := by
  obtain ⟨heap, heap', ref, h1, h2, h3⟩ := addReport_ok fresh s s' a out h
  rcases h3 with ⟨offer, r, hf, hr, hout, hs'⟩ | ⟨sid, r, hf, hsid, hr, hout, hs'⟩
  · obtain ⟨f1, f2, f3⟩ := findOffer_mem s.reports a offer hf
    refine ⟨offer.specifierId, ?_, by rw [hs', hout], fun x hx hne => f3 x hx hne, Or.inr ⟨offer, List.mem_of_find?_eq_some f1, f2, rfl⟩⟩
    intro k
    rw [mem_offeredKeys, mem_offeredKeys, hs']
    simp only []
    rw [addPoint_keys]
    rw [f1, hout]
    simp
  · refine ⟨sid.1, ?_, by rw [hs', hout], ?_, Or.inl (by rw [hout])⟩
    · intro k
      rw [mem_offeredKeys, mem_offeredKeys, hs']
      obtain ⟨k1, k2⟩ := k
      simp only [List.mem_append, List.mem_singleton, hout, Prod.mk.injEq]
      constructor
      · rintro ⟨x, hx | rfl, e1, p, hp, e2⟩
        · exact Or.inl ⟨x, hx, e1, p, hp, e2⟩
        · simp only [List.mem_singleton] at hp
          subst hp
          exact Or.inr ⟨e1.symm, e2.symm⟩
      · rintro (⟨x, hx, e1, p, hp, e2⟩ | ⟨rfl, rfl⟩)
        · exact ⟨x, Or.inl hx, e1, p, hp, e2⟩
        · exact ⟨_, Or.inr rfl, rfl, _, List.mem_singleton.mpr rfl, rfl⟩
    · intro x hx hne
      rw [hsid, hx]
      simp [orFresh, hne]

/-- **C57.** After any sequence of calls, every offered data point has a callback, and every callback belongs to an offered data point: the offer is
    addressable. -/
theorem c57_addressable (fresh : Nat → String) (calls : List AddReport) (sid : String) (r : Value) :
    (sid, r) ∈ offeredKeys (addAll fresh newVenReports calls) ↔ (getCallback (addAll fresh newVenReports calls).callbacks (.str sid, r)).isSome := by
  have inv : ∀ (s : VenReports), (∀ sid r, (sid, r) ∈ offeredKeys s ↔ (getCallback s.callbacks (.str sid, r)).isSome) →
      ∀ sid r, (sid, r) ∈ offeredKeys (addAll fresh s calls) ↔ (getCallback (addAll fresh s calls).callbacks (.str sid, r)).isSome := by
    induction calls with
    | nil => intro s h; exact h
    | cons a l ih =>
      intro s h
      apply ih
      intro sid r
      cases hr : addReport fresh s a with
      | mk s' res =>
        cases res with
        | error e => rw [c57_refused_unchanged fresh s s' a e hr]; exact h sid r
        | ok out =>
          obtain ⟨x, hx, hcb, -, -⟩ := addReport_keys fresh s s' a out hr
          simp only []
          rw [hx, hcb]
          by_cases hk : (Value.str sid, r) = (Value.str x, Value.str out.2)
          · rw [hk, getCallback_set_self]
            simp only [Prod.mk.injEq, Value.str.injEq] at hk
            simp [hk.1, hk.2]
          · rw [getCallback_set_other _ _ _ _ hk, ← h]
            simp only [Prod.mk.injEq, Value.str.injEq] at hk
            constructor
            · rintro (h | h)
              · exact h
              · simp only [Prod.mk.injEq] at h; exact absurd h hk
            · exact Or.inl
  exact inv newVenReports (by intro sid r; simp [newVenReports, offeredKeys, getCallback]) sid r

/-- **C57** (partial: a specifier id is given, and the data point id is generated or new for this specifier id). The data point is offered under the given specifier id and the returned data point id; both are returned; its callback is the given
    one; all data points offered before stay as they are, with their callbacks. -/
theorem c57_offered_as_returned_partial (fresh : Nat → String) (s s' : VenReports) (a : AddReport) (sid : String) (hsid : a.specifierId = some sid)
    (hne : sid ≠ "") (out : Option String × String) (h : addReport fresh s a = (s', .ok out)) (hnew : (sid, .str out.2) ∉ offeredKeys s) :
    out.1 = some sid ∧ (sid, .str out.2) ∈ offeredKeys s' ∧ getCallback s'.callbacks (.str sid, .str out.2) = some a.callback ∧
    (∀ k, k ∈ offeredKeys s' ↔ k ∈ offeredKeys s ∨ k = (sid, .str out.2)) ∧
    (∀ k ∈ offeredKeys s, getCallback s'.callbacks (.str k.1, k.2) = getCallback s.callbacks (.str k.1, k.2)) ∧
    (∀ r, a.rId = some r → r ≠ "" → out.2 = r) := by
  obtain ⟨x, hk, hcb, hx, -⟩ := addReport_keys fresh s s' a out h
  have := hx sid hsid hne
  subst this
  refine ⟨?_, (hk _).mpr (Or.inr rfl), by rw [hcb, getCallback_set_self], hk, ?_, ?_⟩
  · obtain ⟨_, _, _, -, -, h3⟩ := addReport_ok fresh s s' a out h
    rcases h3 with ⟨offer, r, hf, hr, hout, hs'⟩ | ⟨x', r, hf, hsid', hr, hout, hs'⟩
    · rw [hout, hsid]
    · rw [hout, hsid', hsid]; simp [orFresh, hne]
  · intro k hmem
    rw [hcb]
    apply getCallback_set_other
    intro heq
    simp only [Prod.mk.injEq, Value.str.injEq] at heq
    apply hnew
    have : k = (x, Value.str out.2) := Prod.ext heq.1 heq.2
    rw [← this]; exact hmem
  · intro r hr hrne
    obtain ⟨_, _, _, -, -, h3⟩ := addReport_ok fresh s s' a out h
    rcases h3 with ⟨offer, r', hf, hr', hout, hs'⟩ | ⟨x', r', hf, hsid', hr', hout, hs'⟩ <;> rw [hout, hr', hr] <;> simp [orFresh, hrne]

/-- The reports after an accepted call: a data point was added to the report of the same name and specifier id, or a new report was added; nothing
    else changed. -/
def Joined (a : AddReport) (pt : VenPoint) (rs rs' : List VenReport) : Prop :=
  (∃ pre r post, rs = pre ++ r :: post ∧ rs' = pre ++ { r with points := r.points ++ [pt] } :: post ∧ r.name = a.name) ∨
  (∃ sid, rs' = rs ++ [⟨a.name, sid, decide (a.mode = "full"), [pt]⟩])

/-- **C57.** Whatever the call: exactly one data point with the given properties is added, at the end of one report of that name; all other offered
    data points, reports and their order stay as they are. -/
theorem c57_joined (fresh : Nat → String) (s s' : VenReports) (a : AddReport) (out : Option String × String) (h : addReport fresh s a = (s', .ok out)) :
    ∃ pt : VenPoint, pt.rId = .str out.2 ∧ pt.resourceId = a.resourceId ∧ pt.readingType = a.readingType ∧ pt.reportType = a.reportType ∧
      pt.rate = a.rate.rate ∧ Joined a pt s.reports s'.reports := by
  have hsplit : ∀ (p : VenReport → Bool) (pt : VenPoint) (rs : List VenReport) (o : VenReport), rs.find? p = some o →
      ∃ pre post, rs = pre ++ o :: post ∧ addPoint p pt rs = pre ++ { o with points := o.points ++ [pt] } :: post := by
    intro p pt rs o
    induction rs with
    | nil => simp
    | cons r rs ih =>
      intro hf
      rw [List.find?_cons] at hf
      cases hp : p r with
      | true =>
        rw [hp] at hf; simp only [Option.some.injEq] at hf; subst hf
        exact ⟨[], rs, rfl, by simp [addPoint, hp]⟩
      | false =>
        rw [hp] at hf
        obtain ⟨pre, post, e1, e2⟩ := ih hf
        exact ⟨r :: pre, post, by rw [e1]; rfl, by simp [addPoint, hp, e2]⟩
  obtain ⟨_, _, ref, -, -, h3⟩ := addReport_ok fresh s s' a out h
  rcases h3 with ⟨offer, r, hf, hr, hout, hs'⟩ | ⟨sid, r, hf, hsid, hr, hout, hs'⟩
  · refine ⟨⟨.str r.1, a.resourceId, a.readingType, a.reportType, a.rate.rate, ref⟩, by rw [hout], rfl, rfl, rfl, rfl, Or.inl ?_⟩
    obtain ⟨f1, f2, -⟩ := findOffer_mem s.reports a offer hf
    obtain ⟨pre, post, e1, e2⟩ := hsplit _ ⟨.str r.1, a.resourceId, a.readingType, a.reportType, a.rate.rate, ref⟩ s.reports offer f1
    exact ⟨pre, offer, post, e1, by rw [hs', ← e2], f2⟩
  · exact ⟨⟨.str r.1, a.resourceId, a.readingType, a.reportType, a.rate.rate, ref⟩, by rw [hout], rfl, rfl, rfl, rfl,
      Or.inr ⟨sid.1, by rw [hs']⟩⟩

/-! ### Uniqueness of generated ids -/

/-- All data point ids of the offer. -/
def offeredIds (s : VenReports) : List Value := s.reports.flatMap (fun r => r.points.map VenPoint.rId)

theorem joined_ids (a : AddReport) (pt : VenPoint) (rs rs' : List VenReport) (h : Joined a pt rs rs') :
    List.Perm (rs'.flatMap (fun r => r.points.map VenPoint.rId)) (pt.rId :: rs.flatMap (fun r => r.points.map VenPoint.rId)) := by
  rcases h with ⟨pre, r, post, rfl, rfl, -⟩ | ⟨sid, rfl⟩
  · simp only [List.flatMap_append, List.flatMap_cons, List.map_append, List.map_cons, List.map_nil]
    have := @List.perm_middle _ pt.rId (List.flatMap (fun r => List.map VenPoint.rId r.points) pre ++ List.map VenPoint.rId r.points)
      (List.flatMap (fun r => List.map VenPoint.rId r.points) post)
    simpa [List.append_assoc] using this
  · simp only [List.flatMap_append, List.flatMap_cons, List.flatMap_nil, List.map_cons, List.map_nil, List.append_nil]
    exact List.perm_append_comm

/-- **C57.** If the user leaves the data point ids to the library, they are all different, over all reports of the offer and for any number of calls
    (ids are never generated twice). -/
theorem c57_generated_ids_unique (fresh : Nat → String) (hf : Function.Injective fresh) (calls : List AddReport) (hg : ∀ a ∈ calls, a.rId = none) :
    (offeredIds (addAll fresh newVenReports calls)).Nodup := by
  have inv : ∀ (s : VenReports), (offeredIds s).Nodup → (∀ v ∈ offeredIds s, ∃ n < s.ids, v = .str (fresh n)) →
      (offeredIds (addAll fresh s calls)).Nodup := by
    induction calls with
    | nil => intro s h _; exact h
    | cons a l ih =>
      intro s h1 h2
      have hrid := hg a (by simp)
      apply ih (fun x hx => hg x (by simp [hx]))
      all_goals
        cases hr : addReport fresh s a with
        | mk s' res =>
          cases res with
          | error e => rw [c57_refused_unchanged fresh s s' a e hr]; assumption
          | ok out =>
            simp only []
            obtain ⟨pt, hpt, -, -, -, -, hj⟩ := c57_joined fresh s s' a out hr
            have hperm := joined_ids a pt s.reports s'.reports hj
            have hid : ∃ n, s.ids ≤ n ∧ s'.ids = n + 1 ∧ out.2 = fresh n := by
              obtain ⟨_, _, ref, -, -, h3⟩ := addReport_ok fresh s s' a out hr
              rcases h3 with ⟨offer, r, hf, hr', hout, hs'⟩ | ⟨sid, r, hf, hsid, hr', hout, hs'⟩
              · exact ⟨s.ids, Nat.le_refl _, by rw [hs', hr', hrid]; rfl, by rw [hout, hr', hrid]; rfl⟩
              · refine ⟨sid.2, ?_, by rw [hs', hr', hrid]; rfl, by rw [hout, hr', hrid]; rfl⟩
                rw [hsid]; unfold orFresh
                split
                · split <;> simp
                · simp
            obtain ⟨n, hn1, hn2, hn3⟩ := hid
            unfold offeredIds at *
            first
            | (rw [hperm.nodup_iff, List.nodup_cons]
               refine ⟨?_, h1⟩
               intro hm
               obtain ⟨m, hm1, hm2⟩ := h2 _ hm
               rw [hpt, hn3] at hm2
               have := hf (Value.str.inj hm2)
               omega)
            | (intro v hv
               rcases List.mem_cons.mp (hperm.mem_iff.mp hv) with rfl | hv
               · exact ⟨n, by omega, by rw [hpt, hn3]⟩
               · obtain ⟨m, hm1, hm2⟩ := h2 v hv
                 exact ⟨m, by omega, hm2⟩)
  exact inv newVenReports (by simp [newVenReports, offeredIds]) (by simp [newVenReports, offeredIds])

/-! ### What is not kept -/

/-- A call for the examples. -/
def addVoltage : AddReport := { callback := .func 1, accepts := [], resourceId := some "dev", measurement := .name "voltage" }
def newId (n : Nat) : String := String.ofList ('x' :: List.replicate n 'i')

/-- non-vacuity: two data points in one report, one in another. -/
example : offeredKeys (addAll newId newVenReports [{ addVoltage with specifierId := some "s", rId := some "a" },
    { addVoltage with specifierId := some "s", rId := some "b" }, { addVoltage with specifierId := some "t", rId := some "a" }]) =
    [("s", .str "a"), ("s", .str "b"), ("t", .str "a")] := by decide +kernel

/-- **C57, refuted** when no specifier id is given: the second call returns no specifier id at all, although the data point is offered under one. -/
theorem c57_no_specifier_violated :
    let s := (addReport newId newVenReports addVoltage).1
    (addReport newId newVenReports addVoltage).2 = .ok (some "x", "xi") ∧
    (addReport newId s addVoltage).2 = .ok (none, "xii") ∧ offeredKeys (addReport newId s addVoltage).1 = [("x", .str "xi"), ("x", .str "xii")] := by
  decide +kernel

/-- **C57, refuted** when the data point id is given twice: the report then offers two data points with the same id, and the first callback is lost. -/
theorem c57_same_point_id_violated :
    let a : AddReport := { addVoltage with specifierId := some "s", rId := some "a" }
    let s := addAll newId newVenReports [a, { a with callback := .func 2 }]
    offeredKeys s = [("s", .str "a"), ("s", .str "a")] ∧ s.callbacks = [((.str "s", .str "a"), .func 2)] := by
  decide +kernel

/-- **C57, refuted** when the specifier id is used for another report name: the reports are not merged, two are offered under one specifier id. -/
theorem c57_same_specifier_violated :
    let a : AddReport := { addVoltage with specifierId := some "s", rId := some "a" }
    let s := addAll newId newVenReports [a, { a with name := "HISTORY_USAGE", rId := some "b" }]
    s.reports.map (fun r => (r.name, r.specifierId)) = [("TELEMETRY_USAGE", "s"), ("HISTORY_USAGE", "s")] := by
  decide +kernel

/-- **C57, refuted** for valid measurements: a measurement given as a dict is always refused, also if it passes the validation. -/
theorem c57_dict_measurement_violated (fresh : Nat → String) (s : VenReports) (a : AddReport) (d : Dict) (hd : a.measurement = .dict d)
    (hn : a.name ≠ "TELEMETRY_STATUS") : ∃ e, addReport fresh s a = (s, .error e) := by
  unfold addReport
  cases checkAdd a with
  | error e => exact ⟨e, rfl⟩
  | ok u =>
    simp only [itemBase, if_neg hn, hd]
    cases (validateMeasurement d).2 with
    | error e => exact ⟨e, rfl⟩
    | ok u => exact ⟨_, rfl⟩

/-- **C57, refuted** for the standard measurement of pulses, which has no scale: it cannot be offered at all. -/
theorem c57_pulse_count_violated (a : AddReport) (ha : a.measurement = .name "pulse_count") (hn : a.name ≠ "TELEMETRY_STATUS") (fresh : Nat → String) :
    ∃ e, (addReport fresh newVenReports a).2 = .error e := by
  unfold addReport
  cases hc : checkAdd a with
  | error e => exact ⟨e, rfl⟩
  | ok u =>
    obtain ⟨-, -, -, ⟨sc, -, hsc⟩, -⟩ := (checkAdd_iff a).mp hc
    have h1 : standardRef (upperString "pulse_count") standardMeasurements = some 17 := by decide +kernel
    have h2 : (newVenReports.heap[17]?).map Measurement.scale = some none := by decide +kernel
    simp only [itemBase, if_neg hn, ha, h1, applyScale, hsc]
    cases hm : newVenReports.heap[17]? with
    | none => exact ⟨_, rfl⟩
    | some m =>
      rw [hm] at h2
      simp only [Option.map_some, Option.some.injEq] at h2
      simp only [h2]
      exact ⟨_, rfl⟩

/-! ### C72 -/

/-- What an offered data point says about its measurement. -/
def measurementOf (s : VenReports) (p : VenPoint) : Option Measurement := p.measurement.bind (fun r => s.heap[r]?)

/-- All data points refer to existing measurements. -/
def Referenced (s : VenReports) : Prop := ∀ r ∈ s.reports, ∀ p ∈ r.points, ∀ i, p.measurement = some i → i < s.heap.length

/-- The measurement object that the call uses. -/
def usedRef (s : VenReports) (a : AddReport) : Option Nat :=
  match itemBase s.heap a with
  | .ok (_, ref) => ref
  | .error _ => none

theorem itemBase_heap (heap heap' : List Measurement) (a : AddReport) (ref : Option Nat) (h : itemBase heap a = .ok (heap', ref)) :
    ∃ ext, heap' = heap ++ ext := by
  unfold itemBase at h
  split at h
  · simp only [Except.ok.injEq, Prod.mk.injEq] at h; exact ⟨[], by simp [h.1]⟩
  · split at h
    · simp only [Except.ok.injEq, Prod.mk.injEq] at h; exact ⟨[], by simp [h.1]⟩
    · split at h <;> simp at h
    · simp at h
    · split at h
      · simp only [Except.ok.injEq, Prod.mk.injEq] at h; exact ⟨[], by simp [h.1]⟩
      · simp only [Except.ok.injEq, Prod.mk.injEq] at h; exact ⟨_, h.1.symm⟩

theorem applyScale_other (heap heap' : List Measurement) (ref : Option Nat) (sc : Option String) (h : applyScale heap ref sc = .ok heap') (i : Nat)
    (hi : ref ≠ some i ∨ (heap[i]?).map Measurement.scale = some sc) : heap'[i]? = heap[i]? := by
  unfold applyScale at h
  split at h
  · rename_i r x
    split at h
    · simp at h
    · rename_i m hm
      split at h
      · simp only [Except.ok.injEq] at h
        rw [← h, List.getElem?_set]
        split
        · rename_i hri
          subst hri
          rcases hi with hi | hi
          · exact absurd rfl hi
          · have hlt : r < heap.length := by
              have := List.getElem?_eq_some_iff.mp hm; exact this.1
            rw [hm] at hi
            simp only [Option.map_some, Option.some.injEq] at hi
            rw [if_pos hlt, hm, ← hi]
        · rfl
      · simp at h
  · simp only [Except.ok.injEq] at h; rw [h]

/-- **C72** (partial: the new data point does not use the measurement object of the earlier one, or gives the scale that is set already). Adding a report
    leaves what is announced about an earlier data point unchanged. -/
theorem c72_earlier_offer_unchanged_partial (fresh : Nat → String) (s s' : VenReports) (a : AddReport) (res : Res (Option String × String))
    (h : addReport fresh s a = (s', res)) (hr : Referenced s) (r : VenReport) (hrm : r ∈ s.reports) (p : VenPoint) (hp : p ∈ r.points)
    (hother : p.measurement ≠ usedRef s a ∨ (measurementOf s p).map Measurement.scale = some a.scale) : measurementOf s' p = measurementOf s p := by
  cases res with
  | error e => rw [c57_refused_unchanged fresh s s' a e h]
  | ok out =>
    obtain ⟨heap, heap', ref, h1, h2, h3⟩ := addReport_ok fresh s s' a out h
    have hheap : s'.heap = heap' := by
      rcases h3 with ⟨offer, r, -, -, -, hs'⟩ | ⟨sid, r, -, -, -, -, hs'⟩ <;> rw [hs']
    unfold measurementOf at *
    rw [hheap]
    cases hpm : p.measurement with
    | none => rfl
    | some i =>
      simp only [Option.bind_some]
      have hlt := hr r hrm p hp i hpm
      obtain ⟨ext, rfl⟩ := itemBase_heap s.heap heap a ref h1
      have hget : (s.heap ++ ext)[i]? = s.heap[i]? := List.getElem?_append_left hlt
      rw [hpm] at hother
      simp only [Option.bind_some, usedRef, h1] at hother
      rw [applyScale_other _ _ _ _ h2 i, hget]
      rcases hother with h | h
      · exact Or.inl (fun e => h e.symm)
      · exact Or.inr (by rw [hget]; exact h)

/-- **C72, refuted**: the standard measurements are shared. Offering a second voltage report with another scale changes the scale announced for the first. -/
theorem c72_shared_measurement_violated :
    let s := (addReport newId newVenReports { addVoltage with specifierId := some "s", rId := some "a" }).1
    let s' := (addReport newId s { addVoltage with specifierId := some "s", rId := some "b", scale := some "k" }).1
    (s.reports.flatMap VenReport.points).map (fun p => (p.rId, (measurementOf s p).map Measurement.scale)) = [(.str "a", some (some "none"))] ∧
    (s'.reports.flatMap VenReport.points).map (fun p => (p.rId, (measurementOf s' p).map Measurement.scale)) =
      [(.str "a", some (some "k")), (.str "b", some (some "k"))] := by
  decide +kernel

end Openleadr
