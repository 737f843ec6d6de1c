import Verif.Lemmas.Values
/-!
Measurements, whose elements have the name of the measurement.
-/
namespace Openleadr

variable {lib : Lib} {n : Nat} {env : Dict}

/-- An element that holds one value, with any tag. -/
theorem carries_tagged {tag : Tag} (key key' : String) {path : List String} {filter : Filter} {v x : Value} (hl : lookup env path = .ok (some v))
    (hw : Wired lib key' filter v x) (htag : sureKey env tag = some key)
    (hf : (decide (normalizeKey key = key') && !(isAttribute key) && plainKey key') = true := by decide +kernel) :
    Carries lib n env (.elem tag [] [.out path filter]) key [key'] [(key', x)] := by
  simp only [Bool.and_eq_true, decide_eq_true_eq, Bool.not_eq_true'] at hf
  obtain ⟨⟨f2, f3⟩, f4⟩ := hf
  obtain ⟨w, s, h1, h2, h3, h4⟩ := hw.text
  obtain ⟨x1, x2⟩ := isLeaf_spec hw.read
  have hs : sure lib env (.elem tag [] [.out path filter]) = .ok [.entry key (.str s)] := by
    have hla : leafAt env path = .ok v := by simp [leafAt, hl, hw.leaf]
    simp only [sure, htag, sureAll, hla, h1, h2, h3.clean, if_true, List.append_nil]
    have hv : elementValue [] [.chars s.toList] = .str s := by
      simp only [elementValue, show attrItem [] = [] from rfl, if_true, charsOf, List.flatMap_cons, List.flatMap_nil, List.append_nil]
      exact h3.close
    rw [hv]
  exact carries_one _ hs (by simp) (appends_leaf lib _ key key' _ x f2 f3 f4 h4 (by simp) (by simp) x1 x2) (by simp [Dict.keys])

theorem settled_bool {k : String} {b : Bool} (m : Nat) (ht : durationKeys.contains k = false := by decide +kernel)
    (hf : steadyKey k = true := by decide +kernel) : SettledEntry lib m k (.bool b) := settled_other m (by simp [isLeaf]) ht hf

theorem settled_power {p : PowerP} : Settled lib 1 p.dict :=
  settled_of (ks := ["hertz", "voltage", "ac"]) (.cons (settled_int 0) (.cons (settled_int 0) (.cons (settled_bool 0) .nil)))

theorem settled_power? {p : Option PowerP} : ∀ x, p.map (fun p => Value.dict p.dict) = some x → SettledEntry lib 1 "power_attributes" x := by
  intro x hx
  simp only [Option.map_eq_some_iff] at hx
  obtain ⟨p, -, rfl⟩ := hx
  exact settled_dict settled_power (.inl (by simp [PowerP.dict, Dict.has, Dict.get?]))

theorem settled_rawMeasurement {r : MeasurementP} (h : r.Good lib) : Settled lib 2 r.raw := by
  have hsize := h.size
  cases hs : r.size with
  | scale c =>
    rw [hs] at hsize
    have h1 : Settles lib 1 ["item_description", "item_units", "si_scale_code", "power_attributes"] r.raw := by
      simp only [MeasurementP.raw, hs, List.nil_append, List.cons_append]
      exact .cons (settled_text 1 h.description) (.cons (settled_text 1 h.unit) (.cons (settled_text 1 hsize) (.last settled_power?)))
    exact settled_of h1
  | pulse f =>
    have h1 : Settles lib 1 ["item_description", "item_units", "pulse_factor", "power_attributes"] r.raw := by
      simp only [MeasurementP.raw, hs, List.nil_append, List.cons_append]
      exact .cons (settled_text 1 h.description) (.cons (settled_text 1 h.unit) (.cons (settled_int 1) (.last settled_power?)))
    exact settled_of h1

/-- The names of measurements are ordinary texts. -/
theorem measurement_name {name ns : String} (sound : lib.Sound) (h : (name, ns) ∈ measurementNamespaces) : Ordinary lib name := by
  have hall : measurementNamespaces.all (fun p => decide (p.1 ≠ "") && decide (p.1 ≠ "true") && decide (p.1 ≠ "false") &&
      p.1.toList.all Char.isAlpha && p.1.toList.all safeChar) = true := by decide +kernel
  rw [List.all_eq_true] at hall
  have := hall _ h
  simp only [Bool.and_eq_true, decide_eq_true_eq, List.all_eq_true] at this
  obtain ⟨⟨⟨⟨h1, h2⟩, h3⟩, h4⟩, h5⟩ := this
  have hw := safe_onWire name.toList (by simpa using h1) h5
  rw [String.ofList_toList] at hw
  refine ⟨hw, ?_, h2, h3⟩
  rintro ⟨sign, body, e, hs, hb, hc⟩
  obtain ⟨c, hm⟩ := List.exists_mem_of_ne_nil body hb
  have ha := h4 c (by rw [e]; simp [hm])
  rcases hc c hm with hd | rfl
  · rw [sound.letters c ha] at hd
    exact absurd hd (by simp)
  · exact absurd ha (by decide)

theorem settled_measurement (sound : lib.Sound) {r : MeasurementP} (h : r.Good lib) : Settled lib 2 r.received := by
  have hsize := h.size
  cases hs : r.size with
  | scale c =>
    rw [hs] at hsize
    have h1 : Settles lib 1 ["name", "power_attributes", "description", "unit", "scale"] r.received := by
      simp only [MeasurementP.received, hs, List.nil_append, List.cons_append, SizeP.entry]
      exact .cons (settled_text 1 (measurement_name sound h.name)) (.opt settled_power? (.cons (settled_text 1 h.description)
        (.cons (settled_text 1 h.unit) (.cons (settled_text 1 hsize) .nil))))
    exact settled_of h1
  | pulse f =>
    have h1 : Settles lib 1 ["name", "power_attributes", "description", "unit", "pulse_factor"] r.received := by
      simp only [MeasurementP.received, hs, List.nil_append, List.cons_append, SizeP.entry]
      exact .cons (settled_text 1 (measurement_name sound h.name)) (.opt settled_power? (.cons (settled_text 1 h.description)
        (.cons (settled_text 1 h.unit) (.cons (settled_int 1) .nil))))
    exact settled_of h1

/-! ### From the template -/

theorem measurement_facts {name ns : String} (h : (name, ns) ∈ measurementNamespaces) :
    nestFacts name name = true ∧ normalizeKey name = name ∧ steadyNest name = true ∧ dynamicPrefix (some (.str ns)) = some ns ∧ dynamicName (some (.str name)) = some name := by
  have hall : measurementNamespaces.all (fun p => nestFacts p.1 p.1 && decide (normalizeKey p.1 = p.1) && steadyNest p.1 &&
      decide (dynamicPrefix (some (.str p.2)) = some p.2) && decide (dynamicName (some (.str p.1)) = some p.1)) = true := by decide +kernel
  rw [List.all_eq_true] at hall
  have := hall _ h
  simp only [Bool.and_eq_true, decide_eq_true_eq] at this
  exact ⟨this.1.1.1.1, this.1.1.1.2, this.1.1.2, this.1.2, this.2⟩

theorem raw_measurement_length (r : MeasurementP) : 2 ≤ r.raw.length ∧ Dict.has r.raw "properties" = false := by
  cases hs : r.size <;> cases hp : r.power <;> simp [MeasurementP.raw, hs, hp, entry?, Dict.has, Dict.get?]

/-- The element of a measurement. -/
theorem carries_emix (sound : lib.Sound) {var : String} {r : MeasurementP} (h : r.Good lib) {d : Dict} (hv : Dict.get? env var = some (.dict d))
    (hm : Dict.get? d "measurement" = some (.dict r.dict)) :
    Carries lib (n + 2) env (tEmix var) r.name [r.name] [(r.name, .dict r.raw)] := by
  obtain ⟨f1, f2, f3, f4, f5⟩ := measurement_facts h.name
  have lm : ∀ k, lookup env [var, "measurement", k] = .ok (Dict.get? r.dict k) := by
    intro k
    simp only [lookup, walk, hv, attrOf, hm]
  have l1 : Dict.get? r.dict "name" = some (.str r.name) := by simp [MeasurementP.dict, Dict.get?]
  have l2 : Dict.get? r.dict "ns" = some (.str r.ns) := by simp [MeasurementP.dict, Dict.get?]
  have l3 : Dict.get? r.dict "description" = some (.str r.description) := by simp [MeasurementP.dict, Dict.get?]
  have l4 : Dict.get? r.dict "unit" = some (.str r.unit) := by simp [MeasurementP.dict, Dict.get?]
  have l5 : Dict.get? r.dict "power_attributes" = r.power.map (fun p => .dict p.dict) := by
    cases hs : r.size <;> simp [MeasurementP.dict, hs, SizeP.entry, Dict.get?, Dict.get?_append, Dict.get?_entry?]
  refine carries_yes (surely_given (v := some (.dict r.dict)) (by simp [lookup, walk, hv, attrOf, hm]) (by simp)) ?_
  have hq : ∀ name, sureKey env (.qualified [var, "measurement", "ns"] name) = some name := by
    intro name
    simp [sureKey, lm, l2, f4]
  have hd : sureKey env (.dynamic [var, "measurement", "ns"] [var, "measurement", "name"]) = some r.name := by
    simp [sureKey, lm, l1, l2, f4, f5]
  have hpower : Carries lib (n + 1) env (ifTrue [var, "measurement", "power_attributes"] [
        el "power:powerAttributes" [
          leaf "power:hertz" [var, "measurement", "power_attributes", "hertz"],
          leaf "power:voltage" [var, "measurement", "power_attributes", "voltage"],
          leaf "power:ac" [var, "measurement", "power_attributes", "ac"] .booleanformat]]) "powerAttributes" ["power_attributes"]
      (entry? "power_attributes" (r.power.map (fun p => .dict p.dict))) := by
    have hl := lm "power_attributes"
    rw [l5] at hl
    cases hp : r.power with
    | none =>
      rw [hp] at hl
      exact carries_skip _ _ (surely_truthy hl (by simp))
    | some p =>
      rw [hp] at hl
      refine carries_yes (surely_truthy hl (by simp [PowerP.dict, Value.truthy])) ?_
      have lp : ∀ k, lookup env [var, "measurement", "power_attributes", k] = .ok (Dict.get? p.dict k) := by
        intro k
        simp only [lookup, walk, hv, attrOf, hm, l5, hp, Option.map_some]
      exact carries_dict "power_attributes" (inside_elem (.cons (carries_int sound "hertz" "hertz" (i := p.hertz) (by rw [lp]; simp [PowerP.dict, Dict.get?]))
        (.cons (carries_int sound "voltage" "voltage" (i := p.voltage) (by rw [lp]; simp [PowerP.dict, Dict.get?]))
        (.cons (carries_bool "ac" "ac" p.ac (by rw [lp]; simp [PowerP.dict, Dict.get?])) .nil))) (by simp [PowerP.dict]) (by simp [PowerP.dict]))
        (by simp [PowerP.dict]) (by simp [PowerP.dict, Dict.has, Dict.get?])
  have hdesc : Carries lib (n + 1) env (.elem (.qualified [var, "measurement", "ns"] "itemDescription") [] [.out [var, "measurement", "description"] .plain])
      "itemDescription" ["item_description"] [("item_description", .str r.description)] :=
    carries_tagged _ _ (by rw [lm, l3]) (wired_text h.description (by decide +kernel)) (hq _)
  have hunit : Carries lib (n + 1) env (.elem (.qualified [var, "measurement", "ns"] "itemUnits") [] [.out [var, "measurement", "unit"] .plain])
      "itemUnits" ["item_units"] [("item_units", .str r.unit)] :=
    carries_tagged _ _ (by rw [lm, l4]) (wired_text h.unit (by decide +kernel)) (hq _)
  refine carries_dict r.name ?_ (raw_measurement_length r).1 (raw_measurement_length r).2 f1
  have hsize := h.size
  cases hs : r.size with
  | scale c =>
    rw [hs] at hsize
    have hp0 : Dict.get? r.dict "pulse_factor" = none := by
      simp [MeasurementP.dict, hs, SizeP.entry, Dict.get?, Dict.get?_append, Dict.get?_entry?]
    have hc : Carries lib (n + 1) env (.cond (.truthy [var, "measurement", "pulse_factor"])
        [leaf "oadr:pulseFactor" [var, "measurement", "pulse_factor"]]
        [leaf "scale:siScaleCode" [var, "measurement", "scale"]]) "siScaleCode" ["si_scale_code"] [("si_scale_code", .str c)] := by
      refine carries_no (surely_truthy (v := none) (by rw [lm, hp0]) (by simp)) (carries_text "siScaleCode" "si_scale_code" ?_ hsize)
      rw [lm]
      simp [MeasurementP.dict, hs, SizeP.entry, Dict.get?]
    exact inside_of (.cons hdesc (.cons hunit (.cons hc (.cons hpower .nil)))) (by simp [MeasurementP.raw, hs]) (by simp [MeasurementP.raw]) hd (by decide +kernel)
  | pulse f =>
    rw [hs] at hsize
    have hp0 : Dict.get? r.dict "pulse_factor" = some (.int f) := by simp [MeasurementP.dict, hs, SizeP.entry, Dict.get?]
    have hc : Carries lib (n + 1) env (.cond (.truthy [var, "measurement", "pulse_factor"])
        [leaf "oadr:pulseFactor" [var, "measurement", "pulse_factor"]]
        [leaf "scale:siScaleCode" [var, "measurement", "scale"]]) "pulseFactor" ["pulse_factor"] [("pulse_factor", .int f)] :=
      carries_yes (surely_truthy (v := some (.int f)) (by rw [lm, hp0]) (by simpa [Value.truthy, SizeP.Good] using hsize))
        (carries_int sound "pulseFactor" "pulse_factor" (by rw [lm, hp0]))
    exact inside_of (.cons hdesc (.cons hunit (.cons hc (.cons hpower .nil)))) (by simp [MeasurementP.raw, hs]) (by simp [MeasurementP.raw]) hd (by decide +kernel)

/-! ### Under one name for all -/

theorem measurementItem_raw (r : MeasurementP) : measurementItem r.name r.raw = r.received := by
  cases hs : r.size <;> cases hp : r.power <;>
    simp [MeasurementP.raw, MeasurementP.received, measurementItem, mergeName, moveEntry, takeEntry, hs, hp, entry?, Dict.get?, Dict.erase, Dict.set, SizeP.entry]

theorem findMeasurement_none (names : List String) (d : Dict) (h : ∀ k ∈ names, Dict.has d k = false) : findMeasurement names (.dict d) = .ok none := by
  induction names with
  | nil => rfl
  | cons k names ih => simp [findMeasurement, keyIn, h k (by simp), ih (fun k' hk' => h k' (by simp [hk']))]

theorem findMeasurement_some (names : List String) (d : Dict) (name : String) (hm : name ∈ names) (hn : Dict.has d name = true)
    (h : ∀ k ∈ names, k ≠ name → Dict.has d k = false) : findMeasurement names (.dict d) = .ok (some name) := by
  induction names with
  | nil => simp at hm
  | cons k names ih =>
    by_cases e : k = name
    · subst e; simp [findMeasurement, keyIn, hn]
    · simp only [List.mem_cons] at hm
      rcases hm with rfl | hm
      · exact absurd rfl e
      · simp [findMeasurement, keyIn, h k (by simp) e, ih hm (fun k' hk' => h k' (by simp [hk']))]

theorem describe_none (d : Dict) (h : ∀ k ∈ measurementNamespaces.map (·.1), Dict.has d k = false) : describe (.dict d) = .ok none := by
  simp [describe, findMeasurement_none _ d h]

theorem describe_some (d : Dict) (r : MeasurementP) (hr : (r.name, r.ns) ∈ measurementNamespaces) (hd : Dict.get? d r.name = some (.dict r.raw))
    (h : ∀ k ∈ measurementNamespaces.map (·.1), k ≠ r.name → Dict.has d k = false) :
    describe (.dict d) = .ok (some (.dict (Dict.set (Dict.erase d r.name) "measurement" (.dict r.received)))) := by
  have hf := findMeasurement_some (measurementNamespaces.map (·.1)) d r.name (List.mem_map.mpr ⟨_, hr, rfl⟩) (by simp [Dict.has, hd]) h
  simp [describe, hf, hd, measurementItem_raw]

theorem describeAll_upTo {α : Type} (raw : α → Dict) (done : α → Option Dict) (xs : List α)
    (h : ∀ x ∈ xs, describe (.dict (raw x)) = .ok ((done x).map .dict)) :
    describeAll ((xs.map raw).map .dict) = .ok ((upToFirst raw done xs).map .dict) := by
  induction xs with
  | nil => rfl
  | cons x xs ih =>
    have hx := h x (by simp)
    simp only [List.map_cons, describeAll, hx]
    cases hd : done x with
    | none => simp [upToFirst, hd]
    | some d =>
      simp only [Option.map_some, upToFirst, hd, List.map_cons]
      rw [ih (fun y hy => h y (by simp [hy]))]

theorem settle_describe (d : Dict) (k : String) (v : Value) (l : List Value) (hk : k = "report_description" ∨ k = "event_signal")
    (hd : Dict.get? d k = some v) (hl : describeAll (asListV v) = .ok l) : settle lib d k = .ok (Dict.set (Dict.erase d k) (k ++ "s") (.list l)) := by
  have hcur : currentOf d k = v := by simp [currentOf, hd]
  have hx : "x_ei_".toList.isPrefixOf k.toList = false := by rcases hk with rfl | rfl <;> decide +kernel
  have h1 : k ≠ "target" ∧ k ≠ "pending_reports" ∧ k ≠ "event" ∧ k ≠ "request_event" ∧ k ≠ "created_event" ∧ k ≠ "report_request" ∧ k ≠ "report" ∧
      k ≠ "specifier_payload" := by
    rcases hk with rfl | rfl <;> decide +kernel
  obtain ⟨h1, h2, h3, h4, h5, h7, h8, h9⟩ := h1
  have h6 : (k = "report_description" || k = "event_signal") = true := by
    rcases hk with h | h <;> simp [h]
  simp only [settle, renameEntry, hx, Bool.false_eq_true, if_false, groupTargetEntry, h1, arrangeEntry, hcur, h2, h3, h4, h5, h6, h7, h8, h9, if_true,
    decide_false, Bool.false_and, Bool.or_self, hl]

/-- What has to be checked of the name of an element with a description. -/
def describeFacts (key key' : String) : Bool :=
  decide (normalizeKey key = key') && !(isAttribute key) && decide (key' = "report_description" ∨ key' = "event_signal")

/-- A loop over descriptions. -/
theorem carries_descriptions {α : Type} {var : String} {over : List String} {t : Tmpl} (key key' key'' : String) {xs : List α} {F : α → Dict}
    (raw : α → Dict) (done : α → Option Dict)
    (hl : lookup env over = .ok (some (.list ((xs.map F).map .dict))))
    (each : ∀ x ∈ xs, ∀ i, Inside lib n (loopEnv env var i (.dict (F x))) t key (raw x))
    (stable : ∀ x ∈ xs, normalize lib n (raw x) = .ok (raw x))
    (hdesc : ∀ x ∈ xs, describe (.dict (raw x)) = .ok ((done x).map .dict))
    (hf : describeFacts key key' = true := by decide +kernel) (hs : key' ++ "s" = key'' := by decide +kernel) :
    Carries lib n env (.loop var over [t]) key [key''] (entry? key'' (dicts? (upToFirst raw done xs))) := by
  by_cases hne : xs = []
  · subst hne
    exact carries_nothing key [key''] hl
  · simp only [describeFacts, Bool.and_eq_true, decide_eq_true_eq, Bool.not_eq_true'] at hf
    obtain ⟨⟨f1, f2⟩, f3⟩ := hf
    have hne' : upToFirst raw done xs ≠ [] := by
      cases xs with
      | nil => exact absurd rfl hne
      | cons x xs => simp only [upToFirst]; split <;> simp
    simp only [dicts?, hne', if_false, entry?]
    refine carries_loop key' hl (by simp) (each_map (G := raw) each) (fun d hd _ => ?_) (fun e => absurd (List.map_eq_nil_iff.mp e) hne) (by simp [Dict.keys])
      (fun _ v hv => ?_)
    · simp only [List.mem_map] at hd
      obtain ⟨x, hx, rfl⟩ := hd
      exact stable x hx
    · refine appends_rename lib _ key key' key'' v (wrapDicts (xs.map raw)) _ f1 f2 hv ?_
      intro acc hg
      rw [settle_describe acc key' _ _ f3 hg (by rw [asListV_wrap]; exact describeAll_upTo raw done xs hdesc), hs]

end Openleadr
