import Verif.Lemmas.Emix
/-!
Reports: descriptions and values.
-/
namespace Openleadr

variable {lib : Lib} {n : Nat} {env : Dict}

/-- A part that is written if it is there and not empty. -/
theorem carries_truth {t : Tmpl} {key key' : String} {path : List String} {v w : Option Value}
    (hl : lookup env path = .ok v) (hv : ∀ y, v = some y → y.truthy = true ∧ Carries lib n env t key [key'] (entry? key' w)) (hw : v = none → w = none) :
    Carries lib n env (ifTrue path [t]) key [key'] (entry? key' w) := by
  cases v with
  | none =>
    rw [hw rfl]
    exact carries_skip _ _ (surely_truthy hl (by simp))
  | some v =>
    obtain ⟨h1, h2⟩ := hv v rfl
    exact carries_yes (surely_truthy hl (by simpa using h1)) h2

theorem surely_nothing {path : List String} (hl : lookup env path = .ok (some (.list []))) : surely env (.truthy path) = .ok false := by
  simp [surely, hl, Value.truthy]

/-- A text that is written if it is there and not empty. -/
theorem carries_trueText? {name : String} (key key' : String) {path : List String} {attrs : List (String × String)} {s : Option String}
    (hl : lookup env path = .ok (text? s)) (hs : ∀ x, s = some x → Ordinary lib x) (hk : textKey key' = true := by decide +kernel)
    (hf : leafFacts name attrs key key' = true := by decide +kernel) :
    Carries lib n env (ifTrue path [leaf name path .plain attrs]) key [key'] (entry? key' (text? s)) := by
  refine carries_true key key' hl (fun y hy => ⟨wired_text? hs hk y hy, ?_⟩) hf
  simp only [text?, Option.map_eq_some_iff] at hy
  obtain ⟨x, hx, rfl⟩ := hy
  simp [Value.truthy, (hs x hx).notEmpty]

/-! ### Targets of descriptions -/

theorem TargetP.get_others {r : TargetP} (h : r.Good lib) (k : String)
    (hk : k ∈ ["end_device_asset", "emix_interfaces", "group_id", "group_name", "resource_id", "ven_id", "party_id"] := by simp) :
    Dict.get? r.others k = none := h.others k hk

theorem settled_members {r : TargetP} (h : r.Good lib) : Settled lib 1 r.members := by
  have h1 : Settles lib 0 ["group_id", "group_name", "resource_id", "ven_id", "party_id"] r.members := by
    simp only [TargetP.members, List.nil_append, List.cons_append, List.append_assoc]
    exact .opt (settled_text? 0 h.groupId) (.opt (settled_text? 0 h.groupName) (.opt (settled_text? 0 h.resourceId) (.opt (settled_text? 0 h.venId)
      (.last (settled_text? 0 h.partyId)))))
  exact settled_of h1

theorem keeps_of {key : String} {d : Dict} (hne : d ≠ []) (h : ∀ k ∈ Dict.keys d, hollow key k = false) : Keeps key d := by
  match d, hne with
  | [(k, x)], _ => exact .inr ⟨k, x, rfl, h k (by simp [Dict.keys])⟩
  | e :: e' :: r, _ =>
    refine .inl ⟨by simp, ?_⟩
    cases hh : Dict.has (e :: e' :: r) "properties" with
    | false => rfl
    | true =>
      have := h "properties" ((Dict.get?_isSome _ _).mp hh)
      simp [hollow] at this

theorem keys_entry? {k k' : String} {v : Option Value} (h : k ∈ Dict.keys (entry? k' v)) : k = k' := by
  cases v <;> simp [entry?, Dict.keys] at h
  exact h

theorem keys_append (a b : Dict) (k : String) : k ∈ Dict.keys (a ++ b) ↔ k ∈ Dict.keys a ∨ k ∈ Dict.keys b := by
  simp [Dict.keys, List.mem_append, List.map_append]

theorem keeps_members {r : TargetP} (hne : r.members ≠ []) : Keeps "report_data_source" r.members := by
  refine keeps_of hne (fun k hk => ?_)
  simp only [TargetP.members, keys_append] at hk
  rcases hk with (((hk | hk) | hk) | hk) | hk <;> (rw [keys_entry? hk]; decide +kernel)

theorem settled_source {r : TargetP} (h : r.Good lib) : SettledEntry lib 1 "report_data_source" r.source := by
  unfold TargetP.source
  split
  · exact settled_other 1 (by simp [isLeaf])
  · rename_i hne
    exact settled_dict (settled_members h) (keeps_members hne)

theorem settled_subject {r : TargetP} (h : r.Good lib) : ∀ x, r.subject = some x → SettledEntry lib 2 "report_subject" x := by
  intro x hx
  simp only [TargetP.subject, Option.map_eq_some_iff] at hx
  obtain ⟨m, hm, rfl⟩ := hx
  refine settled_dict (settled_of (ks := ["end_device_asset"]) (.cons (settled_dict (settled_of (ks := ["mrid"]) (.cons (settled_text 0 (h.mrid m hm)) .nil)) ?_) .nil)) ?_
  · exact .inr ⟨_, _, rfl, by decide +kernel⟩
  · exact .inr ⟨_, _, rfl, by decide +kernel⟩

theorem carries_keeps {t : Tmpl} {key : String} (key' : String) {d : Dict} (h : Inside lib n env t key d) (hk : Keeps key' d)
    (hf : nestFacts key key' = true := by decide +kernel) : Carries lib n env t key [key'] [(key', .dict d)] := by
  rcases hk with ⟨h1, h2⟩ | ⟨k, x, rfl, hg⟩
  · exact carries_dict key' h h1 h2 hf
  · exact carries_single key' h hf hg

theorem sureAll_allSkipped {c : Cond} {body ts : List Tmpl} (h : surely env c = .ok false) : sureAll lib env (.cond c body [] :: ts) = sureAll lib env ts := by
  simp only [sureAll, sure, h, List.nil_append]
  cases sureAll lib env ts <;> rfl

theorem TargetP.truthy (r : TargetP) : (Value.dict r.dict).truthy = true := by simp [TargetP.dict, Value.truthy]

theorem carries_subject {x : Option TargetP} {d : Dict} (hv : Dict.get? env "report_description" = some (.dict d))
    (hx : Dict.get? d "report_subject" = x.map (fun t => .dict t.dict)) (hg : ∀ t, x = some t → t.Good lib) :
    Carries lib (n + 2) env (.cond (.both (.truthy ["report_description", "report_subject"])
        (.truthy ["report_description", "report_subject", "end_device_asset", "mrid"])) [
      el "ei:reportSubject" [
        el "power:endDeviceAsset" [leaf "power:mrid" ["report_description", "report_subject", "end_device_asset", "mrid"]]]] [])
      "reportSubject" ["report_subject"] (entry? "report_subject" (x.bind TargetP.subject)) := by
  cases x with
  | none =>
    refine carries_skip _ _ ?_
    have h1 := surely_truthy (env := env) (path := ["report_description", "report_subject"]) (v := none) (by simp [lookup, walk, hv, attrOf, hx]) (by simp)
    rw [surely, h1]
    rfl
  | some t =>
    have h1 := surely_truthy (env := env) (path := ["report_description", "report_subject"]) (v := some (.dict t.dict))
      (by simp [lookup, walk, hv, attrOf, hx]) (by simp [t.truthy])
    have hl : lookup env ["report_description", "report_subject", "end_device_asset", "mrid"] = .ok (text? t.mrid) := by
      simp only [lookup, walk, hv, attrOf, hx, Option.map_some, TargetP.dict]
      cases t.mrid <;> simp [Dict.get?, text?]
    cases hm : t.mrid with
    | none =>
      rw [hm] at hl
      have h2 := surely_truthy hl (by simp [text?])
      rw [Option.bind_some, TargetP.subject, hm]
      refine carries_skip _ _ ?_
      rw [surely, h1]
      exact h2
    | some m =>
      rw [hm] at hl
      have ho := (hg t rfl).mrid m hm
      have h2 := surely_truthy hl (by simp [text?, Value.truthy, ho.notEmpty])
      rw [Option.bind_some, TargetP.subject, hm]
      refine carries_yes (by rw [surely, h1]; exact h2) (carries_single "report_subject" (inside_elem (.cons
        (carries_single "end_device_asset" (key := "endDeviceAsset") (k := "mrid") (x := .str m) (inside_elem (.cons (carries_text "mrid" "mrid" hl ho) .nil) (by simp) (by simp))) .nil) (by simp) (by simp)))

theorem carries_source {x : Option TargetP} {d : Dict} (hv : Dict.get? env "report_description" = some (.dict d))
    (hx : Dict.get? d "report_data_source" = x.map (fun t => .dict t.dict)) (hg : ∀ t, x = some t → t.Good lib) :
    Carries lib (n + 2) env (ifTrue ["report_description", "report_data_source"] [
      el "ei:reportDataSource" [
        ifTrue ["report_description", "report_data_source", "emix_interfaces"] [.loop "emix_interface" ["target", "emix_interface"] emixInterface],
        ifTrue ["report_description", "report_data_source", "group_id"] [leaf "ei:groupID" ["report_description", "report_data_source", "group_id"]],
        ifTrue ["report_description", "report_data_source", "group_name"] [
          leaf "ei:groupName" ["report_description", "report_data_source", "group_name"]],
        ifTrue ["report_description", "report_data_source", "resource_id"] [
          leaf "ei:resourceID" ["report_description", "report_data_source", "resource_id"]],
        ifTrue ["report_description", "report_data_source", "ven_id"] [leaf "ei:venID" ["report_description", "report_data_source", "ven_id"]],
        ifTrue ["report_description", "report_data_source", "party_id"] [leaf "ei:partyID" ["report_description", "report_data_source", "party_id"]]]])
      "reportDataSource" ["report_data_source"] (entry? "report_data_source" (x.map TargetP.source)) := by
  refine carries_truth (v := x.map (fun t => .dict t.dict)) (by simp [lookup, walk, hv, attrOf, hx]) (fun y hy => ?_) (by cases x <;> simp)
  simp only [Option.map_eq_some_iff] at hy
  obtain ⟨t, rfl, rfl⟩ := hy
  have h := hg t rfl
  refine ⟨t.truthy, ?_⟩
  have lt : ∀ k, lookup env ["report_description", "report_data_source", k] = .ok (Dict.get? t.dict k) := by
    intro k
    simp only [lookup, walk, hv, attrOf, hx, Option.map_some]
  have l0 : lookup env ["report_description", "report_data_source", "emix_interfaces"] = .ok none := by
    rw [lt]; simp [TargetP.dict, Dict.get?, Dict.get?_append, Dict.get?_entry?, TargetP.get_others h "emix_interfaces"]
  have l1 : lookup env ["report_description", "report_data_source", "group_id"] = .ok (text? t.groupId) := by
    rw [lt]; simp [TargetP.dict, Dict.get?, Dict.get?_append, Dict.get?_entry?, TargetP.get_others h "group_id"]
  have l2 : lookup env ["report_description", "report_data_source", "group_name"] = .ok (text? t.groupName) := by
    rw [lt]; simp [TargetP.dict, Dict.get?, Dict.get?_append, Dict.get?_entry?, TargetP.get_others h "group_name"]
  have l3 : lookup env ["report_description", "report_data_source", "resource_id"] = .ok (text? t.resourceId) := by
    rw [lt]; simp [TargetP.dict, Dict.get?, Dict.get?_append, Dict.get?_entry?, TargetP.get_others h "resource_id"]
  have l4 : lookup env ["report_description", "report_data_source", "ven_id"] = .ok (text? t.venId) := by
    rw [lt]; simp [TargetP.dict, Dict.get?, Dict.get?_append, Dict.get?_entry?, TargetP.get_others h "ven_id"]
  have l5 : lookup env ["report_description", "report_data_source", "party_id"] = .ok (text? t.partyId) := by
    rw [lt]; simp [TargetP.dict, Dict.get?, Dict.get?_append, Dict.get?_entry?, TargetP.get_others h "party_id"]
  simp only [Option.map_some, TargetP.source, entry?]
  by_cases hne : t.members = []
  · rw [if_pos hne]
    refine carries_void "reportDataSource" "report_data_source" ?_
    have hn : t.groupId = none ∧ t.groupName = none ∧ t.resourceId = none ∧ t.venId = none ∧ t.partyId = none := by
      have hnil : ∀ k (v : Option String), entry? k (text? v) = [] → v = none := by
        intro k v hv
        cases v <;> simp [entry?, text?] at hv ⊢
      simp only [TargetP.members, List.append_eq_nil_iff] at hne
      exact ⟨hnil _ _ hne.1.1.1.1, hnil _ _ hne.1.1.1.2, hnil _ _ hne.1.1.2, hnil _ _ hne.1.2, hnil _ _ hne.2⟩
    simp only [hn] at l1 l2 l3 l4 l5
    rw [ifTrue, sureAll_allSkipped (surely_truthy l0 (by simp)), ifTrue, sureAll_allSkipped (surely_truthy l1 (by simp [text?])),
      ifTrue, sureAll_allSkipped (surely_truthy l2 (by simp [text?])), ifTrue, sureAll_allSkipped (surely_truthy l3 (by simp [text?])),
      ifTrue, sureAll_allSkipped (surely_truthy l4 (by simp [text?])), ifTrue, sureAll_allSkipped (surely_truthy l5 (by simp [text?]))]
    simp [sureAll]
  · rw [if_neg hne]
    refine carries_keeps "report_data_source" (inside_elem (.cons (carries_skip "none" ["none"] (surely_truthy l0 (by simp)))
      (.cons (carries_trueText? "groupID" "group_id" l1 h.groupId) (.cons (carries_trueText? "groupName" "group_name" l2 h.groupName)
      (.cons (carries_trueText? "resourceID" "resource_id" l3 h.resourceId) (.cons (carries_trueText? "venID" "ven_id" l4 h.venId)
      (.cons (carries_trueText? "partyID" "party_id" l5 h.partyId) .nil)))))) (by simp [TargetP.members]) hne) (keeps_members hne)

/-! ### Descriptions -/

theorem settled_sampling {s : SamplingP} : Settled lib 1 s.dict :=
  settled_of (ks := ["min_period", "max_period", "on_change"]) (.cons (settled_duration 0) (.cons (settled_duration 0) (.cons (settled_bool 0) .nil)))

theorem settled_sampling? {s : Option SamplingP} : ∀ x, s.map (fun s => Value.dict s.dict) = some x → SettledEntry lib 1 "sampling_rate" x := by
  intro x hx
  simp only [Option.map_eq_some_iff] at hx
  obtain ⟨s, -, rfl⟩ := hx
  exact settled_dict settled_sampling (.inl (by simp [SamplingP.dict, Dict.has, Dict.get?]))

theorem carries_sampling {x : Option SamplingP} {d : Dict} (hv : Dict.get? env "report_description" = some (.dict d))
    (hx : Dict.get? d "sampling_rate" = x.map (fun s => .dict s.dict)) (hg : ∀ s, x = some s → s.Good) :
    Carries lib (n + 1) env (ifTrue ["report_description", "sampling_rate"] [
      el "oadr:oadrSamplingRate" [
        leaf "oadr:oadrMinPeriod" ["report_description", "sampling_rate", "min_period"] .timedeltaformat,
        leaf "oadr:oadrMaxPeriod" ["report_description", "sampling_rate", "max_period"] .timedeltaformat,
        leaf "oadr:oadrOnChange" ["report_description", "sampling_rate", "on_change"] .booleanformat]])
      "oadrSamplingRate" ["sampling_rate"] (entry? "sampling_rate" (x.map (fun s => .dict s.dict))) := by
  refine carries_truth (v := x.map (fun t => .dict t.dict)) (by simp [lookup, walk, hv, attrOf, hx]) (fun y hy => ?_) id
  simp only [Option.map_eq_some_iff] at hy
  obtain ⟨t, rfl, rfl⟩ := hy
  have h := hg t rfl
  refine ⟨by simp [SamplingP.dict, Value.truthy], ?_⟩
  refine carries_dict "sampling_rate" (inside_elem (.cons (carries_span "oadrMinPeriod" "min_period" (us := t.minPeriod) ?_ h.minPeriod)
    (.cons (carries_span "oadrMaxPeriod" "max_period" (us := t.maxPeriod) ?_ h.maxPeriod) (.cons (carries_bool "oadrOnChange" "on_change" t.onChange ?_) .nil)))
    (by simp [SamplingP.dict]) (by simp [SamplingP.dict])) (by simp [SamplingP.dict]) (by simp [SamplingP.dict, Dict.has, Dict.get?])
  all_goals lkd [hv, hx, SamplingP.dict]

/-- The name of the element of the measurement, or of any other if there is none. -/
def measurementKey (m : Option MeasurementP) : String := (m.map (·.name)).getD "voltage"

theorem measurementKey_mem {m : Option MeasurementP} (h : ∀ x, m = some x → x.Good lib) : measurementKey m ∈ measurementNamespaces.map (·.1) := by
  cases m with
  | none => exact (by decide +kernel : "voltage" ∈ measurementNamespaces.map (·.1))
  | some m => exact List.mem_map.mpr ⟨_, (h m rfl).name, rfl⟩

/-- Entries for a measurement. -/
def measurementEntry (m : Option MeasurementP) : Dict :=
  match m with
  | some m => [(m.name, .dict m.raw)]
  | none => []

theorem carries_measurement (sound : lib.Sound) {var : String} {m : Option MeasurementP} (h : ∀ x, m = some x → x.Good lib) {d : Dict}
    (hv : Dict.get? env var = some (.dict d)) (hm : Dict.get? d "measurement" = m.map (fun m => .dict m.dict)) :
    Carries lib (n + 2) env (tEmix var) (measurementKey m) [measurementKey m] (measurementEntry m) := by
  cases m with
  | none => exact carries_skip _ _ (surely_given (v := none) (by simp [lookup, walk, hv, attrOf, hm]) (by simp))
  | some m => exact carries_emix sound (h m rfl) hv hm

theorem settled_measurementRaw {m : MeasurementP} (h : m.Good lib) : SettledEntry lib 2 m.name (.dict m.raw) :=
  settled_dict (settled_rawMeasurement h) (.inl (raw_measurement_length m)) (measurement_facts h.name).2.2.1

/-- What holds of all names of measurements. -/
theorem for_measurements {P : String → Bool} (h : measurementNamespaces.all (fun p => P p.1) = true := by decide +kernel) {name : String}
    (hm : name ∈ measurementNamespaces.map (·.1)) : P name = true := by
  rw [List.all_eq_true] at h
  simp only [List.mem_map] at hm
  obtain ⟨p, hp, rfl⟩ := hm
  exact h p hp

theorem DescriptionP.raw_eq (r : DescriptionP) : r.raw = r.before ++ measurementEntry r.measurement ++ r.after := by
  cases h : r.measurement <;> simp [DescriptionP.raw, measurementEntry, h]

theorem inside_description (sound : lib.Sound) {r : DescriptionP} (hr : r.Good lib) (hv : Dict.get? env "report_description" = some (.dict r.dict)) :
    Inside lib (n + 3) env tReportDescription "oadrReportDescription" r.raw := by
  have hf : elemFacts [("xmlns:emix", nsEmix), ("xmlns:power", nsPower)] [("rID", ["r_id"]), ("reportSubject", ["report_subject"]),
      ("reportDataSource", ["report_data_source"]), ("reportType", ["report_type"]), (measurementKey r.measurement, [measurementKey r.measurement]),
      ("readingType", ["reading_type"]), ("marketContext", ["market_context"]), ("oadrSamplingRate", ["sampling_rate"])] = true :=
    for_measurements (P := fun k => elemFacts [("xmlns:emix", nsEmix), ("xmlns:power", nsPower)] [("rID", ["r_id"]), ("reportSubject", ["report_subject"]),
      ("reportDataSource", ["report_data_source"]), ("reportType", ["report_type"]), (k, [k]),
      ("readingType", ["reading_type"]), ("marketContext", ["market_context"]), ("oadrSamplingRate", ["sampling_rate"])]) (by decide +kernel)
      (measurementKey_mem hr.measurement)
  refine inside_elem (.cons (carries_text "rID" "r_id" (s := r.rId) (by lkd [hv, DescriptionP.dict]) hr.rId)
    (.cons (carries_subject (x := r.subject) hv (by lkd [DescriptionP.dict]) hr.subject)
    (.cons (carries_source (x := r.source) hv (by lkd [DescriptionP.dict]) hr.source)
    (.cons (carries_text "reportType" "report_type" (s := r.reportType) (by lkd [hv, DescriptionP.dict]) hr.reportType)
    (.cons (carries_measurement sound hr.measurement hv (by lkd [DescriptionP.dict]))
    (.cons (carries_text "readingType" "reading_type" (s := r.readingType) (by lkd [hv, DescriptionP.dict]) hr.readingType)
    (.cons (carries_trueText? "marketContext" "market_context" (s := r.marketContext) (by lkd [hv, DescriptionP.dict]) hr.marketContext)
    (.cons (carries_sampling (x := r.sampling) hv (by lkd [DescriptionP.dict]) hr.sampling) .nil)))))))) ?_ ?_ (by decide +kernel) hf
  · rw [r.raw_eq]
    simp [DescriptionP.before, DescriptionP.after]
  · simp [r.raw_eq, DescriptionP.before]

theorem settled_subject? {x : Option TargetP} (h : ∀ t, x = some t → t.Good lib) :
    ∀ v, x.bind TargetP.subject = some v → SettledEntry lib 2 "report_subject" v := by
  intro v hv
  cases x with
  | none => simp at hv
  | some t => exact settled_subject (h t rfl) v hv

theorem settled_source? {x : Option TargetP} (h : ∀ t, x = some t → t.Good lib) :
    ∀ v, x.map TargetP.source = some v → SettledEntry lib 2 "report_data_source" v := by
  intro v hv
  cases x with
  | none => simp at hv
  | some t =>
    simp only [Option.map_some, Option.some.injEq] at hv
    subst hv
    obtain ⟨h1, h2⟩ := settled_source (h t rfl)
    exact ⟨h1, fun n hn => h2 n (by omega)⟩

theorem SettledEntry.mono {m m' : Nat} {k : String} {v : Value} (h : SettledEntry lib m k v) (hm : m ≤ m' := by omega) : SettledEntry lib m' k v :=
  ⟨h.1, fun n hn => h.2 n (by omega)⟩

theorem Settled.mono {m m' : Nat} {d : Dict} (h : Settled lib m d) (hm : m ≤ m' := by omega) : Settled lib m' d := fun n hn => h n (by omega)

theorem settled_rawDescription {r : DescriptionP} (h : r.Good lib) : Settled lib 3 r.raw := by
  have hk := measurementKey_mem h.measurement
  have hnd : ["r_id", "report_subject", "report_data_source", "report_type", measurementKey r.measurement, "reading_type", "market_context", "sampling_rate"].Nodup := by
    have := for_measurements (P := fun k => decide (["r_id", "report_subject", "report_data_source", "report_type", k, "reading_type", "market_context",
      "sampling_rate"].Nodup)) (by decide +kernel) hk
    simpa using this
  have h1 : Settles lib 2 ["r_id", "report_subject", "report_data_source", "report_type", measurementKey r.measurement, "reading_type", "market_context",
      "sampling_rate"] r.raw := by
    have hm : measurementEntry r.measurement = entry? (measurementKey r.measurement) (r.measurement.map (fun m => .dict m.raw)) := by
      cases r.measurement <;> rfl
    rw [r.raw_eq, hm]
    simp only [DescriptionP.before, DescriptionP.after, List.nil_append, List.cons_append, List.append_assoc]
    refine .cons (settled_text 2 h.rId) (.opt (settled_subject? h.subject) (.opt (settled_source? h.source) (.cons (settled_text 2 h.reportType)
      (.opt (fun x hx => ?_) (.cons (settled_text 2 h.readingType) (.opt (settled_text? 2 h.marketContext) (.last (fun x hx => (settled_sampling? x hx).mono))))))))
    cases hm : r.measurement with
    | none => simp [hm] at hx
    | some m =>
      simp only [hm, Option.map_some, Option.some.injEq] at hx
      subst hx
      exact settled_measurementRaw (h.measurement m hm)
  exact settled_of h1 hnd

theorem settled_doneDescription (sound : lib.Sound) {r : DescriptionP} (h : r.Good lib) : ∀ d, r.done = some d → Settled lib 3 d := by
  intro d hd
  simp only [DescriptionP.done, Option.map_eq_some_iff] at hd
  obtain ⟨m, hm, rfl⟩ := hd
  have h1 : Settles lib 2 ["r_id", "report_subject", "report_data_source", "report_type", "reading_type", "market_context", "sampling_rate", "measurement"]
      (r.before ++ r.after ++ [("measurement", .dict m.received)]) := by
    simp only [DescriptionP.before, DescriptionP.after, List.nil_append, List.cons_append, List.append_assoc]
    refine .cons (settled_text 2 h.rId) (.opt (settled_subject? h.subject) (.opt (settled_source? h.source) (.cons (settled_text 2 h.reportType)
      (.cons (settled_text 2 h.readingType) (.opt (settled_text? 2 h.marketContext) (.opt (fun x hx => (settled_sampling? x hx).mono)
      (.cons (settled_dict (settled_measurement sound (h.measurement m hm)) (.inl ?_)) .nil)))))))
    cases hs : m.size <;> cases hp : m.power <;> simp [MeasurementP.received, hs, hp, SizeP.entry, entry?, Dict.has, Dict.get?]
  exact settled_of h1

theorem erase_middle (a b : Dict) (k : String) (v : Value) (h : k ∉ Dict.keys a) : Dict.erase (a ++ (k, v) :: b) k = a ++ b := by
  induction a with
  | nil => simp [Dict.erase]
  | cons e a ih =>
    simp only [Dict.keys, List.map_cons, List.mem_cons, not_or] at h
    simp [Dict.erase, Ne.symm h.1, ih h.2]

theorem get?_middle (a b : Dict) (k : String) (v : Value) (h : k ∉ Dict.keys a) : Dict.get? (a ++ (k, v) :: b) k = some v := by
  rw [Dict.get?_append, (Dict.get?_none a k).mpr h]
  simp [Dict.get?]

/-- A dict with a measurement among entries that are none. -/
theorem describe_middle (a b : Dict) (m : Option MeasurementP) (hm : ∀ x, m = some x → (x.name, x.ns) ∈ measurementNamespaces)
    (h : ∀ k ∈ Dict.keys (a ++ b), k ∉ measurementNamespaces.map (·.1) ∧ k ≠ "measurement") :
    describe (.dict (a ++ measurementEntry m ++ b)) = .ok (m.map (fun x => .dict (a ++ b ++ [("measurement", .dict x.received)]))) := by
  cases m with
  | none =>
    simp only [measurementEntry, List.append_nil, Option.map_none]
    refine describe_none _ (fun k hk => ?_)
    cases e : Dict.has (a ++ b) k with
    | false => rfl
    | true => exact absurd hk (h k ((Dict.get?_isSome _ _).mp e)).1
  | some x =>
    have hx := hm x rfl
    have hx' : x.name ∈ measurementNamespaces.map (·.1) := List.mem_map.mpr ⟨_, hx, rfl⟩
    have ha : x.name ∉ Dict.keys a := fun e => (h _ ((keys_append a b _).mpr (.inl e))).1 hx'
    simp only [measurementEntry, List.append_assoc, List.cons_append, List.nil_append, Option.map_some]
    rw [describe_some _ x hx (get?_middle a b x.name _ ha)]
    · rw [erase_middle a b x.name _ ha, Dict.set_new _ _ _ (fun e => (h _ e).2 rfl)]
      simp
    · intro k hk hne
      cases e : Dict.has (a ++ (x.name, Value.dict x.raw) :: b) k with
      | false => rfl
      | true =>
        have e' := (Dict.get?_isSome _ _).mp e
        rw [keys_append] at e'
        simp only [Dict.keys, List.map_cons, List.mem_cons] at e'
        rcases e' with e' | e' | e'
        · exact absurd hk (h _ ((keys_append a b _).mpr (.inl e'))).1
        · exact absurd e' hne
        · exact absurd hk (h _ ((keys_append a b _).mpr (.inr e'))).1

theorem keys_before_after (r : DescriptionP) : ∀ k ∈ Dict.keys (r.before ++ r.after), k ∈ ["r_id", "report_subject", "report_data_source", "report_type",
    "reading_type", "market_context", "sampling_rate"] := by
  intro k hk
  simp only [DescriptionP.before, DescriptionP.after, keys_append] at hk
  rcases hk with (((hk | hk) | hk) | hk) | ((hk | hk) | hk)
  all_goals first
    | (rw [keys_entry? hk]; simp)
    | (simp [Dict.keys] at hk; simp [hk])

theorem describe_description {r : DescriptionP} (h : r.Good lib) : describe (.dict r.raw) = .ok (r.done.map .dict) := by
  rw [r.raw_eq, describe_middle _ _ _ (fun x hx => (h.measurement x hx).name)]
  · simp [DescriptionP.done, Option.map_map, Function.comp_def]
  · intro k hk
    have hall : ["r_id", "report_subject", "report_data_source", "report_type", "reading_type", "market_context", "sampling_rate"].all
      (fun k => decide (k ∉ measurementNamespaces.map (·.1) ∧ k ≠ "measurement")) = true := by decide +kernel
    rw [List.all_eq_true] at hall
    simpa using hall k (keys_before_after r k hk)

theorem carries_reportDescriptions (sound : lib.Sound) {rs : List DescriptionP} (hr : ∀ r ∈ rs, r.Good lib)
    {over : List String} (hl : lookup env over = .ok (some (.list ((rs.map DescriptionP.dict).map .dict)))) :
    Carries lib (n + 3) env (.loop "report_description" over [tReportDescription]) "oadrReportDescription" ["report_descriptions"]
      (entry? "report_descriptions" (dicts? (upToFirst DescriptionP.raw DescriptionP.done rs))) :=
  carries_descriptions "oadrReportDescription" "report_description" "report_descriptions" (F := DescriptionP.dict) DescriptionP.raw DescriptionP.done hl
    (fun r hm _ => inside_description sound (hr r hm) (by simp [loopEnv, Dict.get?])) (fun r hm => settled_rawDescription (hr r hm) _ (by omega))
    (fun r hm => describe_description (hr r hm))

theorem upToFirst_mem {α : Type} {raw : α → Dict} {done : α → Option Dict} {xs : List α} {d : Dict} (h : d ∈ upToFirst raw done xs) :
    ∃ x ∈ xs, d = raw x ∨ done x = some d := by
  induction xs with
  | nil => simp [upToFirst] at h
  | cons x xs ih =>
    simp only [upToFirst] at h
    split at h
    · rename_i d' hd
      simp only [List.mem_cons] at h
      rcases h with rfl | h
      · exact ⟨x, by simp, .inr hd⟩
      · obtain ⟨y, hy, h⟩ := ih h
        exact ⟨y, by simp [hy], h⟩
    · simp only [List.mem_map] at h
      obtain ⟨y, hy, rfl⟩ := h
      exact ⟨y, hy, .inl rfl⟩

theorem settled_dicts? {m : Nat} {k : String} {ds : List Dict} (h : ∀ d ∈ ds, Settled lib m d)
    (hf : steadyList k = true := by decide +kernel) : ∀ x, dicts? ds = some x → SettledEntry lib m k x := by
  intro x hx
  unfold dicts? at hx
  split at hx
  · simp at hx
  · simp only [Option.some.injEq] at hx
    subst hx
    exact settled_dicts h hf

/-! ### Values of reports -/

theorem carries_int? (sound : lib.Sound) {name : String} (key key' : String) {path : List String} {attrs : List (String × String)} {i : Option Int}
    (hl : lookup env path = .ok (int? i)) (hk : textKey key' = true := by decide +kernel) (hf : leafFacts name attrs key key' = true := by decide +kernel) :
    Carries lib n env (ifGiven path [leaf name path .plain attrs]) key [key'] (entry? key' (int? i)) := by
  refine carries_given key key' hl (fun y hy => ?_) hf
  simp only [int?, Option.map_eq_some_iff] at hy
  obtain ⟨i, -, rfl⟩ := hy
  exact wired_int sound i hk

theorem settled_int? {k : String} {i : Option Int} (m : Nat) (ht : durationKeys.contains k = false := by decide +kernel)
    (hf : steadyKey k = true := by decide +kernel) : ∀ x, int? i = some x → SettledEntry lib m k x := by
  intro x hx
  simp only [int?, Option.map_eq_some_iff] at hx
  obtain ⟨i, -, rfl⟩ := hx
  exact settled_int m ht hf

theorem settled_date? {k : String} {d : Option Int} (m : Nat) (ht : durationKeys.contains k = false := by decide +kernel)
    (hf : steadyKey k = true := by decide +kernel) : ∀ x, date? d = some x → SettledEntry lib m k x := by
  intro x hx
  simp only [date?, Option.map_eq_some_iff] at hx
  obtain ⟨i, -, rfl⟩ := hx
  exact settled_other m (by simp [isLeaf]) ht hf

theorem carries_spanIn? {outer inner : String} (key key' : String) {path : List String}
    {attrs attrs' : List (String × String)} {us : Option Int} (hl : lookup env path = .ok (span? us)) (hd : ∀ d, us = some d → Spans d)
    (h0 : localName outer = key := by decide +kernel) (h1 : leafFacts inner attrs' "duration" "duration" = true := by decide +kernel)
    (h2 : elemFacts attrs [("duration", ["duration"])] = true := by decide +kernel) (hf : nestFacts key key' = true := by decide +kernel) :
    Carries lib (n + 1) env (ifGiven path [el outer [leaf inner path .timedeltaformat attrs'] attrs]) key [key'] (entry? key' (span? us)) := by
  refine carries_opt hl (fun y hy => ?_)
  simp only [span?, Option.map_eq_some_iff] at hy
  obtain ⟨d, rfl, rfl⟩ := hy
  exact ⟨by simp, carries_spanIn key key' hl (hd d rfl) h0 h1 h2 hf⟩

theorem carries_dateIn? {outer inner : String} (key key' : String) {path : List String}
    {attrs attrs' : List (String × String)} {us : Option Int} (hl : lookup env path = .ok (date? us)) (hd : ∀ d, us = some d → Datable d)
    (h0 : localName outer = key := by decide +kernel) (h1 : leafFacts inner attrs' "date-time" "date_time" = true := by decide +kernel)
    (h2 : elemFacts attrs [("date-time", ["date_time"])] = true := by decide +kernel) (hf : nestFacts key key' = true := by decide +kernel)
    (hg : (decide ("date_time" ≠ key') && decide ("date_time" ≠ singular key')) = true := by decide +kernel) :
    Carries lib (n + 1) env (ifGiven path [el outer [leaf inner path .datetimeformat attrs'] attrs]) key [key'] (entry? key' (date? us)) := by
  refine carries_opt hl (fun y hy => ?_)
  simp only [date?, Option.map_eq_some_iff] at hy
  obtain ⟨d, rfl, rfl⟩ := hy
  exact ⟨by simp, carries_dateIn key key' hl (hd d rfl) h0 h1 h2 hf hg⟩

/-- The payload of a value. -/
def ReadingP.payload (r : ReadingP) (v : Value) : Dict :=
  [("r_id", .str r.rId)] ++ entry? "confidence" (int? r.confidence) ++ entry? "accuracy" (int? r.accuracy) ++ entry? "data_quality" (text? r.quality) ++
  [("value", v)]

theorem settled_payload {r : ReadingP} (h : r.Good lib) : Settled lib 1 (r.payload (.float r.value)) := by
  have h1 : Settles lib 0 ["r_id", "confidence", "accuracy", "data_quality", "value"] (r.payload (.float r.value)) := by
    simp only [ReadingP.payload, List.nil_append, List.cons_append, List.append_assoc]
    exact .cons (settled_text 0 h.rId) (.opt (settled_int? 0) (.opt (settled_int? 0) (.opt (settled_text? 0 h.quality)
      (.cons (settled_other 0 (by simp [isLeaf])) .nil))))
  exact settled_of h1

theorem settled_reading {r : ReadingP} (h : r.Good lib) : Settled lib 2 r.received := by
  have h1 : Settles lib 1 ["dtstart", "duration", "report_payload"] r.received := by
    have e : r.received = [("dtstart", .datetime r.start)] ++ entry? "duration" (span? r.duration) ++
      [("report_payload", .dict (r.payload (.float r.value)))] := rfl
    rw [e]
    simp only [List.nil_append, List.cons_append, List.append_assoc]
    refine .cons (settled_other 1 (by simp [isLeaf])) (.opt (settled_span? 1) (.cons (settled_report (p := r.payload (.float r.value)) (settled_payload h) ?_ ?_ ?_) .nil))
    · simp [ReadingP.payload]; omega
    · simp [ReadingP.payload, Dict.get?, Dict.get?_append, Dict.get?_entry?]
    · simp [ReadingP.payload, Dict.get?, Dict.get?_append, Dict.get?_entry?]
  exact settled_of h1

theorem carries_reportPayload (sound : lib.Sound) {r : ReadingP} (hr : r.Good lib) (hv : Dict.get? env "interval" = some (.dict r.dict)) :
    Carries lib (n + 2) env (el "oadr:oadrReportPayload" [
        leaf "ei:rID" ["interval", "report_payload", "r_id"],
        ifGiven ["interval", "report_payload", "confidence"] [leaf "ei:confidence" ["interval", "report_payload", "confidence"]],
        ifGiven ["interval", "report_payload", "accuracy"] [leaf "ei:accuracy" ["interval", "report_payload", "accuracy"]],
        el "ei:payloadFloat" [leaf "ei:value" ["interval", "report_payload", "value"]],
        ifGiven ["interval", "report_payload", "data_quality"] [leaf "oadr:oadrDataQuality" ["interval", "report_payload", "data_quality"]]])
      "oadrReportPayload" ["report_payload"] [("report_payload", .dict (r.payload (.float r.value)))] := by
  obtain ⟨x, hx, -, hc⟩ := carries_payloadFloat (lib := lib) (n := n) (env := env) sound (path := ["interval", "report_payload", "value"]) (v := r.number)
    (by lkd [hv, ReadingP.dict]) hr.number
  have hi : Inside lib (n + 2) env _ "oadrReportPayload" _ := inside_elem (name := "oadr:oadrReportPayload") (attrs := [])
    (.cons (carries_text "rID" "r_id" (name := "ei:rID") (attrs := []) (path := ["interval", "report_payload", "r_id"]) (s := r.rId) (by lkd [hv, ReadingP.dict]) hr.rId)
    (.cons (carries_int? sound "confidence" "confidence" (name := "ei:confidence") (attrs := []) (path := ["interval", "report_payload", "confidence"])
      (i := r.confidence) (by lkd [hv, ReadingP.dict]))
    (.cons (carries_int? sound "accuracy" "accuracy" (name := "ei:accuracy") (attrs := []) (path := ["interval", "report_payload", "accuracy"])
      (i := r.accuracy) (by lkd [hv, ReadingP.dict]))
    (.cons hc
    (.cons (carries_text? "oadrDataQuality" "data_quality" (name := "oadr:oadrDataQuality") (attrs := []) (path := ["interval", "report_payload", "data_quality"])
      (s := r.quality) (by lkd [hv, ReadingP.dict]) hr.quality) .nil))))) rfl (by simp)
  refine carries_inside hi (fun raw hn => appends_inPlace lib _ "oadrReportPayload" "report_payload" _ (.dict _) _ (by decide +kernel) (by decide +kernel)
    (by simp [entryValue, hn, Except.map]; rfl) (fun d hd => ?_)) (by simp [Dict.keys])
  rw [settle_report d _ hd (by simp; omega), reportPayload_float _ x r.value ?_ hx]
  · simp only [Except.map]
    have e : ("r_id", Value.str r.rId) :: (entry? "confidence" (int? r.confidence) ++ (entry? "accuracy" (int? r.accuracy) ++
        ("payload_float", .dict [("value", x)]) :: entry? "data_quality" (text? r.quality))) = ([("r_id", Value.str r.rId)] ++ entry? "confidence" (int? r.confidence) ++ entry? "accuracy" (int? r.accuracy)) ++
        ("payload_float", .dict [("value", x)]) :: entry? "data_quality" (text? r.quality) := by simp
    rw [e, erase_middle, Dict.set_new _ "value"]
    · simp [ReadingP.payload]
    · intro hk
      simp only [keys_append] at hk
      rcases hk with ((hk | hk) | hk) | hk
      · simp [Dict.keys] at hk
      all_goals exact absurd (keys_entry? hk) (by decide)
    · intro hk
      simp only [keys_append] at hk
      rcases hk with (hk | hk) | hk
      · simp [Dict.keys] at hk
      all_goals exact absurd (keys_entry? hk) (by decide)
  · simp [Dict.get?, Dict.get?_append, Dict.get?_entry?]

theorem inside_reading (sound : lib.Sound) {r : ReadingP} (hr : r.Good lib) (hv : Dict.get? env "interval" = some (.dict r.dict)) :
    Inside lib (n + 3) env (el "ei:interval" [
        el "xcal:dtstart" [leaf "xcal:date-time" ["interval", "dtstart"] .datetimeformat],
        ifGiven ["interval", "duration"] [el "xcal:duration" [leaf "xcal:duration" ["interval", "duration"] .timedeltaformat]],
        el "oadr:oadrReportPayload" [
          leaf "ei:rID" ["interval", "report_payload", "r_id"],
          ifGiven ["interval", "report_payload", "confidence"] [leaf "ei:confidence" ["interval", "report_payload", "confidence"]],
          ifGiven ["interval", "report_payload", "accuracy"] [leaf "ei:accuracy" ["interval", "report_payload", "accuracy"]],
          el "ei:payloadFloat" [leaf "ei:value" ["interval", "report_payload", "value"]],
          ifGiven ["interval", "report_payload", "data_quality"] [
            leaf "oadr:oadrDataQuality" ["interval", "report_payload", "data_quality"]]]]) "interval" r.received := by
  refine inside_elem (.cons (carries_dateIn "dtstart" "dtstart" (us := r.start) (by lkd [hv, ReadingP.dict]) hr.start)
    (.cons (carries_spanIn? "duration" "duration" (us := r.duration) (by lkd [hv, ReadingP.dict]) hr.duration)
    (.cons (carries_reportPayload sound hr hv) .nil))) ?_ ?_
  · simp [ReadingP.received, ReadingP.dict, ReadingP.payload]
  · simp [ReadingP.received, ReadingP.dict]

/-- `{{ path }}` where nothing is there -/
theorem carries_bare {name : String} (key key' : String) {path : List String} {attrs : List (String × String)} (hl : lookup env path = .ok none)
    (hb : (path.getLast?.any bareKey) = true := by decide +kernel) (hf : emptyFacts name attrs key key' = true := by decide +kernel) :
    Carries lib n env (leaf name path .plain attrs) key [key'] [(key', .none)] := by
  simp only [emptyFacts, Bool.and_eq_true, decide_eq_true_eq, Bool.not_eq_true'] at hf
  obtain ⟨⟨⟨⟨⟨f1, f2⟩, f3⟩, f4⟩, f5⟩, f6⟩ := hf
  refine carries_one .none ?_ (by simp) (appends_none lib _ key key' f2 f3 f4 f6) (by simp [Dict.keys])
  simp [leaf, sure, sureAll, bare, hb, hl, leafAt, sureKey, f1, elementValue, f5, charsOf, childDict, closeValue, strip]

theorem settled_reportValues (sound : lib.Sound) {r : ReportP} (h : r.Good lib) : Settled lib 4 r.received := by
  have h1 : Settles lib 3 ["dtstart", "intervals", "report_id", "report_descriptions", "report_request_id", "report_specifier_id", "report_name", "created_date_time"]
      r.received := by
    simp only [ReportP.received, List.nil_append, List.cons_append, List.append_assoc]
    refine .opt (settled_date? 3) (.opt (settled_dicts? (fun d hd => ?_)) (.cons ?_ (.opt (settled_dicts? (fun d hd => ?_)) (.cons (settled_text 3 h.requestId)
      (.cons (settled_text 3 h.specifierId) (.opt (settled_text? 3 h.name) (.cons (settled_other 3 (by simp [isLeaf])) .nil)))))))
    · simp only [List.mem_map] at hd
      obtain ⟨x, hx, rfl⟩ := hd
      cases hr : r.readings with
      | none => simp [hr] at hx
      | some l => exact (settled_reading (h.readings l hr x (by simpa [hr] using hx))).mono
    · cases hr : r.reportId with
      | none => exact settled_other 3 (by simp [isLeaf, text?])
      | some x => exact settled_text 3 (h.reportId x hr)
    · obtain ⟨x, hx, hd⟩ := upToFirst_mem hd
      cases hr : r.descriptions with
      | none => simp [hr] at hx
      | some l =>
        have hg := h.descriptions l hr x (by simpa [hr] using hx)
        rcases hd with rfl | hd
        · exact settled_rawDescription hg
        · exact settled_doneDescription sound hg _ hd
  exact settled_of h1

/-- A report of oadrUpdateReport.xml. -/
def tReportValues : Tmpl :=
  el "oadr:oadrReport" [
    ifGiven ["report", "dtstart"] [el "xcal:dtstart" [leaf "xcal:date-time" ["report", "dtstart"] .datetimeformat]],
    ifTrue ["report", "intervals"] [
      el "strm:intervals" [
        .loop "interval" ["report", "intervals"] [
          el "ei:interval" [
            el "xcal:dtstart" [leaf "xcal:date-time" ["interval", "dtstart"] .datetimeformat],
            ifGiven ["interval", "duration"] [el "xcal:duration" [leaf "xcal:duration" ["interval", "duration"] .timedeltaformat]],
            el "oadr:oadrReportPayload" [
              leaf "ei:rID" ["interval", "report_payload", "r_id"],
              ifGiven ["interval", "report_payload", "confidence"] [leaf "ei:confidence" ["interval", "report_payload", "confidence"]],
              ifGiven ["interval", "report_payload", "accuracy"] [leaf "ei:accuracy" ["interval", "report_payload", "accuracy"]],
              el "ei:payloadFloat" [leaf "ei:value" ["interval", "report_payload", "value"]],
              ifGiven ["interval", "report_payload", "data_quality"] [
                leaf "oadr:oadrDataQuality" ["interval", "report_payload", "data_quality"]]]]]]
        [("xmlns:strm", nsStrm), ("xmlns:xcal", nsXcal)]],
    leaf "ei:eiReportID" ["report", "report_id"],
    ifTrue ["report", "report_descriptions"] [.loop "report_description" ["report", "report_descriptions"] [tReportDescription]],
    leaf "ei:reportRequestID" ["report", "report_request_id"],
    leaf "ei:reportSpecifierID" ["report", "report_specifier_id"],
    ifTrue ["report", "report_name"] [leaf "ei:reportName" ["report", "report_name"]],
    leaf "ei:createdDateTime" ["report", "created_date_time"] .datetimeformat] [("xmlns:xcal", nsXcal)]

theorem inside_reportValues (sound : lib.Sound) {r : ReportP} (hr : r.Good lib) (hv : Dict.get? env "report" = some (.dict r.dict)) :
    Inside lib (n + 5) env tReportValues "oadrReport" r.received := by
  have hi : lookup env ["report", "intervals"] = .ok (r.readings.map (fun l => .list ((l.map ReadingP.dict).map .dict))) := by
    lkd [hv, ReportP.dict]
  have hd : lookup env ["report", "report_descriptions"] = .ok (r.descriptions.map (fun l => .list ((l.map DescriptionP.dict).map .dict))) := by
    lkd [hv, ReportP.dict]
  refine inside_elem (.cons (carries_dateIn? "dtstart" "dtstart" (us := r.start) (by lkd [hv, ReportP.dict]) hr.start)
    (.cons (key := "intervals") (keys := ["intervals"]) (out := entry? "intervals" (dicts? ((r.readings.getD []).map ReadingP.received))) ?_
    (.cons (key := "eiReportID") (keys := ["report_id"]) (out := [("report_id", (text? r.reportId).getD .none)]) ?_
    (.cons (key := "oadrReportDescription") (keys := ["report_descriptions"])
      (out := entry? "report_descriptions" (dicts? (upToFirst DescriptionP.raw DescriptionP.done (r.descriptions.getD [])))) ?_
    (.cons (carries_text "reportRequestID" "report_request_id" (s := r.requestId) (by lkd [hv, ReportP.dict]) hr.requestId)
    (.cons (carries_text "reportSpecifierID" "report_specifier_id" (s := r.specifierId) (by lkd [hv, ReportP.dict]) hr.specifierId)
    (.cons (carries_trueText? "reportName" "report_name" (s := r.name) (by lkd [hv, ReportP.dict]) hr.name)
    (.cons (carries_date "createdDateTime" "created_date_time" (us := r.created) (by lkd [hv, ReportP.dict]) hr.created) .nil)))))))) ?_ ?_
  · cases hx : r.readings with
    | none =>
      rw [hx] at hi
      exact carries_skip _ _ (surely_truthy hi (by simp))
    | some l =>
      rw [hx] at hi
      by_cases hne : l = []
      · subst hne
        exact carries_skip _ _ (surely_nothing hi)
      · refine carries_yes (surely_truthy hi (by simp [Value.truthy, hne])) ?_
        have := carries_list (lib := lib) (n := n + 3) (env := env) "intervals" "intervals" "interval" "interval" (outer := "strm:intervals")
          (attrs := [("xmlns:strm", nsStrm), ("xmlns:xcal", nsXcal)]) (var := "interval") (over := ["report", "intervals"]) (F := ReadingP.dict)
          ReadingP.received hi hne
          (fun x hm i => inside_reading (n := n) sound (hr.readings l hx x hm) (by simp [loopEnv, Dict.get?]))
          (fun x hm => settled_reading (hr.readings l hx x hm) _ (by omega))
          (fun x hm => .inl (by simp [ReadingP.received, ReadingP.dict, Dict.has, Dict.get?, Dict.get?_append, Dict.get?_entry?]))
        simpa [dicts?, hne, entry?] using this
  · cases hx : r.reportId with
    | none => exact carries_bare "eiReportID" "report_id" (by lkd [hv, ReportP.dict, hx, text?])
    | some x => exact carries_text "eiReportID" "report_id" (s := x) (by lkd [hv, ReportP.dict, hx, text?]) (hr.reportId x hx)
  · cases hx : r.descriptions with
    | none =>
      rw [hx] at hd
      exact carries_skip _ _ (surely_truthy hd (by simp))
    | some l =>
      rw [hx] at hd
      by_cases hne : l = []
      · subst hne
        exact carries_skip _ _ (surely_nothing hd)
      · exact carries_yes (surely_truthy hd (by simp [Value.truthy, hne])) (carries_reportDescriptions (n := n + 1) sound (hr.descriptions l hx) hd)
  · simp [ReportP.received]
  · simp [ReportP.received]

theorem carries_reportValues (sound : lib.Sound) {rs : List ReportP} (hr : ∀ r ∈ rs, r.Good lib)
    (hl : Dict.get? env "reports" = some (.list ((rs.map ReportP.dict).map .dict))) :
    Carries lib (n + 5) env (ifTrue ["reports"] [.loop "report" ["reports"] [tReportValues]]) "oadrReport" ["reports"]
      (entry? "reports" (dicts? (rs.map ReportP.received))) := by
  have hl' : lookup env ["reports"] = .ok (some (.list ((rs.map ReportP.dict).map .dict))) := by lkd [hl]
  by_cases hne : rs = []
  · subst hne
    exact carries_skip _ _ (surely_nothing hl')
  · exact carries_yes (surely_truthy hl' (by simp [Value.truthy, hne])) (carries_collects "oadrReport" "report" "reports" (F := ReportP.dict) ReportP.received hl'
      (fun x hm i => inside_reportValues sound (hr x hm) (by simp [loopEnv, Dict.get?])) (fun x hm => settled_reportValues sound (hr x hm) _ (by omega)))

end Openleadr
