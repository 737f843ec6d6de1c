import Verif.Spec.Schema
import Verif.Props.Measurements
import Verif.Props.VenOffers
/-!
C78: measurements and reports agree with the OpenADR schema.
-/
namespace Openleadr

/-! ### The tables -/

theorem schema_of_table (name required : String) (h : Dict.get? measurementDescriptions name = some required) :
    ∃ item, schemaItem name = some item ∧ required ∈ item.descriptions ∧ ∀ us, Dict.get? acceptableUnits name = some us → ∀ u ∈ us, u ∈ item.units := by
  have hall : (measurementDescriptions.all (fun p =>
      match schemaItem p.1, Dict.get? acceptableUnits p.1 with
      | some item, some us => item.descriptions.contains p.2 && us.all (fun u => item.units.contains u)
      | _, _ => false)) = true := by decide +kernel
  have h' := List.all_eq_true.mp hall (name, required) (Dict.mem_of_get? _ _ _ h)
  simp only [] at h'
  cases hi : schemaItem name with
  | none => rw [hi] at h'; cases h'
  | some item =>
    cases hu : Dict.get? acceptableUnits name with
    | none => rw [hi, hu] at h'; cases h'
    | some us =>
      rw [hi, hu] at h'
      simp only [Bool.and_eq_true, List.contains_iff_mem, List.all_eq_true] at h'
      refine ⟨item, rfl, h'.1, ?_⟩
      intro us' hus u hmem
      cases hus
      exact h'.2 u hmem

/-- **C78.** Whatever dict is validated: if it is accepted, then its description and its unit are ones that the schema allows in the element with its
    name, or it is a custom unit. -/
theorem c78_accepted_allowed (m m' : Dict) (h : validateMeasurement m = (m', .ok ())) :
    Dict.get? m' "name" = some (.str "customUnit") ∨
    ∃ name desc unit, Dict.get? m' "name" = some (.str name) ∧ Dict.get? m' "description" = some (.str desc) ∧
      Dict.get? m' "unit" = some (.str unit) ∧ SchemaAllows name desc unit := by
  rcases (c56_accepted_form m m' h).1 with ⟨name, desc, unit, units, h1, h2, h3, h4, h5, h6⟩ | h
  · right
    obtain ⟨item, hi, hd, hu⟩ := schema_of_table name desc (Dict.get?_of_mem _ descriptions_nodup _ _ h4)
    exact ⟨name, desc, unit, h1, h2, h3, Or.inr ⟨item, hi, hd, hu units (Dict.get?_of_mem _ units_nodup _ _ h5) unit h6⟩⟩
  · exact Or.inl h

/-- The units of the schema that the library has left out. -/
def LeftOut (name unit : String) : Prop := (name = "powerReal" ∧ unit = "J/s") ∨ (unit = "AED")

/-- The description that the schema fixes; for currencies, where it lists three, the one that is named like the element, and `currency` for the
    element without one. -/
def schemaDescription (name : String) : Option String :=
  match schemaItem name with
  | some item => if item.descriptions.contains name then some name else item.descriptions.head?
  | none => none

theorem table_of_schema (name : String) (item : SchemaItem) (h : schemaItem name = some item) :
    ∃ required us, Dict.get? measurementDescriptions name = some required ∧ schemaDescription name = some required ∧
      Dict.get? acceptableUnits name = some us ∧ ∀ u ∈ item.units, ¬ LeftOut name u → u ∈ us := by
  have key : ∀ (n : String) (it : SchemaItem), schemaItem n = some it →
      (match Dict.get? measurementDescriptions n, Dict.get? acceptableUnits n with
       | some r, some us => schemaDescription n == some r && it.units.all (fun u => decide (n = "powerReal" ∧ u = "J/s") || u == "AED" || us.contains u)
       | _, _ => false) = true →
      ∃ required us, Dict.get? measurementDescriptions n = some required ∧ schemaDescription n = some required ∧
        Dict.get? acceptableUnits n = some us ∧ ∀ u ∈ it.units, ¬ LeftOut n u → u ∈ us := by
    intro n it hn hb
    cases h1 : Dict.get? measurementDescriptions n with
    | none => rw [h1] at hb; cases hb
    | some r =>
      cases h2 : Dict.get? acceptableUnits n with
      | none => rw [h1, h2] at hb; cases hb
      | some us =>
        rw [h1, h2] at hb
        simp only [Bool.and_eq_true, beq_iff_eq, List.all_eq_true, Bool.or_eq_true, decide_eq_true_eq, List.contains_iff_mem] at hb
        refine ⟨r, us, rfl, hb.1, rfl, fun u hu hl => ?_⟩
        rcases hb.2 u hu with (h | h) | h
        · exact absurd (Or.inl h) hl
        · exact absurd (Or.inr h) hl
        · exact h
  apply key name item h
  revert h
  unfold schemaItem
  split <;> intro h <;> first | (cases h; decide +kernel) | cases h

/-- **C78** (partial: not the unit `J/s` of real power, and not the currency `AED`). What the schema allows is accepted: for every measurement
    element of the schema, the description of the schema and each of its units; for power, with the power attributes. -/
theorem c78_allowed_accepted_partial (m : Dict) (name desc unit : String) (item : SchemaItem) (hi : schemaItem name = some item)
    (hdesc : schemaDescription name = some desc) (hunit : unit ∈ item.units) (hl : ¬ LeftOut name unit)
    (hn : Dict.get? m "name" = some (.str name)) (hd : Dict.get? m "description" = some (.str desc)) (hu : Dict.get? m "unit" = some (.str unit))
    (hp : AboutPower name → HasPowerAttributes m) : validateMeasurement m = (m, .ok ()) := by
  obtain ⟨required, us, h1, h2, h3, h4⟩ := table_of_schema name item hi
  have hreq : required = desc := by rw [h2] at hdesc; exact Option.some.inj hdesc
  subst hreq
  have hc : checkNamed name (.str required) (.str unit) m = (m, .ok ()) := by
    unfold checkNamed
    rw [h1, h3]
    simp only [if_pos]
    rw [if_pos (by simpa using h4 unit hunit hl)]
  unfold validateMeasurement
  rw [hn, hd, hu]
  simp only [hc]
  rw [(checkPower_about name m).mpr hp]

/-- **C78, refuted** for joules per second: the schema allows this unit of real power, the library refuses it, whatever else is said. -/
theorem c78_joules_violated (m : Dict) (hn : Dict.get? m "name" = some (.str "powerReal")) (hd : Dict.get? m "description" = some (.str "RealPower"))
    (hu : Dict.get? m "unit" = some (.str "J/s")) :
    SchemaAllows "powerReal" "RealPower" "J/s" ∧ validateMeasurement m = (m, .error .valueError) := by
  refine ⟨Or.inr ⟨_, rfl, by decide, by decide⟩, ?_⟩
  unfold validateMeasurement
  rw [hn, hd, hu]
  rfl

/-- **C78, refuted** for the dirham of the Emirates: it is the first currency of the schema, and the only one that the library does not know. -/
theorem c78_dirham_violated (m : Dict) (hn : Dict.get? m "name" = some (.str "currency")) (hd : Dict.get? m "description" = some (.str "currency"))
    (hu : Dict.get? m "unit" = some (.str "AED")) :
    SchemaAllows "currency" "currency" "AED" ∧ validateMeasurement m = (m, .error .valueError) ∧
    ∀ c ∈ isoCurrencies, c ≠ "AED" → c ∈ currencies := by
  refine ⟨Or.inr ⟨_, rfl, by decide, by decide +kernel⟩, ?_, by decide +kernel⟩
  have hc : checkNamed "currency" (.str "currency") (.str "AED") m = (m, .error .valueError) := by
    unfold checkNamed
    have h1 : Dict.get? measurementDescriptions "currency" = some "currency" := by decide +kernel
    have h2 : Dict.get? acceptableUnits "currency" = some currencies := by decide +kernel
    have h3 : currencies.contains "AED" = false := by decide +kernel
    rw [h1, h2]
    simp only [if_pos, h3, Bool.false_eq_true, if_false]
  unfold validateMeasurement
  rw [hn, hd, hu]
  simp only [hc]

/-- **C78, refuted** for scales: the validation of a measurement dict does not look at the scale, also not at one that the schema does not know. -/
theorem c78_scale_violated (scale : String) (_ : scale ∉ siScales) :
    let m : Dict := [("name", .str "voltage"), ("description", .str "Voltage"), ("unit", .str "V"), ("scale", .str scale)]
    validateMeasurement m = (m, .ok ()) := rfl

/-! ### What is offered -/

/-- The texts of a data point that the schema restricts (openleadr/schema/oadr_ei_20b.xsd:642-661, 684-822, 823-905): either listed or an extension. -/
def SchemaTexts (name readingType reportType scale : String) : Prop :=
  (name ∈ ["METADATA_HISTORY_USAGE", "METADATA_HISTORY_GREENBUTTON", "METADATA_TELEMETRY_USAGE", "METADATA_TELEMETRY_STATUS", "HISTORY_USAGE",
     "HISTORY_GREENBUTTON", "TELEMETRY_USAGE", "TELEMETRY_STATUS"] ∨ name.startsWith "x-") ∧
  (readingType ∈ ["Direct Read", "Net", "Allocated", "Estimated", "Summed", "Derived", "Mean", "Peak", "Hybrid", "Contract", "Projected", "x-RMS",
     "x-notApplicable"] ∨ readingType.startsWith "x-") ∧
  (reportType ∈ ["reading", "usage", "demand", "setPoint", "deltaUsage", "deltaSetPoint", "deltaDemand", "baseline", "deviation", "avgUsage",
     "avgDemand", "operatingState", "upRegulationCapacityAvailable", "downRegulationCapacityAvailable", "regulationSetpoint", "storedEnergy",
     "targetEnergyStorage", "availableEnergyStorage", "price", "level", "powerFactor", "percentUsage", "percentDemand", "x-resourceStatus"] ∨
    reportType.startsWith "x-") ∧
  scale ∈ siScales

/-- **C78.** A report is offered exactly under the names, with the reading types, report types and scales that the schema allows: a call is refused for
    its texts if and only if one of them is not allowed (the collection mode and the callback being in order). -/
theorem c78_texts (a : AddReport) (scale : String) (hs : a.scale = some scale) (hm : a.mode = "incremental") :
    checkAdd a = .ok () ↔ SchemaTexts a.name a.readingType a.reportType scale := by
  have hnames : ∀ x, x ∈ reportNames ↔ x ∈ ["METADATA_HISTORY_USAGE", "METADATA_HISTORY_GREENBUTTON", "METADATA_TELEMETRY_USAGE",
      "METADATA_TELEMETRY_STATUS", "HISTORY_USAGE", "HISTORY_GREENBUTTON", "TELEMETRY_USAGE", "TELEMETRY_STATUS"] := by
    intro x
    constructor
    · intro h
      exact (show ∀ x ∈ reportNames, x ∈ ["METADATA_HISTORY_USAGE", "METADATA_HISTORY_GREENBUTTON", "METADATA_TELEMETRY_USAGE",
        "METADATA_TELEMETRY_STATUS", "HISTORY_USAGE", "HISTORY_GREENBUTTON", "TELEMETRY_USAGE", "TELEMETRY_STATUS"] by decide +kernel) x h
    · intro h
      exact (show ∀ x ∈ ["METADATA_HISTORY_USAGE", "METADATA_HISTORY_GREENBUTTON", "METADATA_TELEMETRY_USAGE",
        "METADATA_TELEMETRY_STATUS", "HISTORY_USAGE", "HISTORY_GREENBUTTON", "TELEMETRY_USAGE", "TELEMETRY_STATUS"], x ∈ reportNames by decide +kernel) x h
  rw [checkAdd_iff]
  unfold ValidTexts SchemaTexts
  rw [hnames, hs, hm]
  have hsc : siScaleCodes = siScales := rfl
  constructor
  · rintro ⟨h1, h2, h3, ⟨sc, h4, h5⟩, -⟩
    cases h5
    exact ⟨h1, h2, h3, hsc ▸ h4⟩
  · rintro ⟨h1, h2, h3, h4⟩
    exact ⟨h1, h2, h3, ⟨scale, hsc ▸ h4, rfl⟩, Or.inl rfl⟩

/-- A measurement object that the schema allows in a message: a custom unit, or an element of the schema in its namespace with a description and a unit
    that are allowed; and a scale of the schema, or none. -/
def SchemaMeasurement (m : Measurement) : Prop :=
  ((m.name = "customUnit" ∧ m.ns = "oadr") ∨
   ∃ item unit, schemaItem m.name = some item ∧ m.ns = item.ns ∧ m.description ∈ item.descriptions ∧ m.unit = some unit ∧ unit ∈ item.units) ∧
  ∀ sc, m.scale = some sc → sc ∈ siScales

/-- The same as a check. -/
def schemaMeasurementB (m : Measurement) : Bool :=
  (decide (m.name = "customUnit" ∧ m.ns = "oadr") ||
   match schemaItem m.name, m.unit with
   | some item, some u => decide (m.ns = item.ns) && item.descriptions.contains m.description && item.units.contains u
   | _, _ => false) &&
  (match m.scale with | some sc => siScales.contains sc | none => true)

theorem schemaMeasurement_of (m : Measurement) (h : schemaMeasurementB m = true) : SchemaMeasurement m := by
  unfold schemaMeasurementB at h
  simp only [Bool.and_eq_true, Bool.or_eq_true, decide_eq_true_eq] at h
  obtain ⟨h1, h2⟩ := h
  refine ⟨?_, ?_⟩
  · rcases h1 with h1 | h1
    · exact Or.inl h1
    · right
      cases hi : schemaItem m.name with
      | none => rw [hi] at h1; cases h1
      | some item =>
        cases hu : m.unit with
        | none => rw [hi, hu] at h1; cases h1
        | some u =>
          rw [hi, hu] at h1
          simp only [Bool.and_eq_true, decide_eq_true_eq, List.contains_iff_mem] at h1
          exact ⟨item, u, rfl, h1.1.1, h1.1.2, rfl, h1.2⟩
  · intro sc hsc
    rw [hsc] at h2
    simpa using h2

/-- **C78.** All standard measurements of the library are elements of the schema, in the right namespace, with description and unit of the schema;
    `CURRENCY_PER_KW` is only a custom unit. -/
theorem c78_standard : ∀ p ∈ standardMeasurements, SchemaMeasurement p.2 ∧ (p.1 ≠ "CURRENCY_PER_KW" → (schemaItem p.2.name).isSome = true) := by
  have h : (standardMeasurements.all (fun p => schemaMeasurementB p.2 && (p.1 == "CURRENCY_PER_KW" || (schemaItem p.2.name).isSome))) = true := by
    decide +kernel
  intro p hp
  have h' := List.all_eq_true.mp h p hp
  simp only [Bool.and_eq_true, Bool.or_eq_true, beq_iff_eq] at h'
  exact ⟨schemaMeasurement_of _ h'.1, fun hne => h'.2.resolve_left hne⟩

/-- A measurement object created by `add_report` or left as it is. -/
theorem schema_step (fresh : Nat → String) (s : VenReports) (a : AddReport) (hs : ∀ m ∈ s.heap, SchemaMeasurement m) :
    ∀ m ∈ (addReport fresh s a).1.heap, SchemaMeasurement m := by
  cases hr : addReport fresh s a with
  | mk s' res =>
    cases res with
    | error e => rw [c57_refused_unchanged fresh s s' a e hr]; exact hs
    | ok out =>
      have hv := (c57_accepted_valid fresh s s' a out hr).2.2.2.1
      obtain ⟨sc, hsc, hscale⟩ := hv
      have hsc' : sc ∈ siScales := hsc
      obtain ⟨heap, heap', ref, h1, h2, h3⟩ := addReport_ok fresh s s' a out hr
      have hheap : s'.heap = heap' := by
        rcases h3 with ⟨offer, r, -, -, -, he⟩ | ⟨sid, r, -, -, -, -, he⟩ <;> rw [he]
      show ∀ m ∈ s'.heap, SchemaMeasurement m
      rw [hheap]
      have hbase : ∀ m ∈ heap, SchemaMeasurement m := by
        unfold itemBase at h1
        split at h1
        · simp only [Except.ok.injEq, Prod.mk.injEq] at h1; rw [← h1.1]; exact hs
        · split at h1
          · simp only [Except.ok.injEq, Prod.mk.injEq] at h1; rw [← h1.1]; exact hs
          · split at h1 <;> simp at h1
          · simp at h1
          · split at h1
            · simp only [Except.ok.injEq, Prod.mk.injEq] at h1; rw [← h1.1]; exact hs
            · rename_i x hx text ht
              simp only [Except.ok.injEq, Prod.mk.injEq] at h1
              rw [← h1.1]
              intro m hm
              rcases List.mem_append.mp hm with hm | hm
              · exact hs m hm
              · rw [List.mem_singleton.mp hm]
                have hcu : Dict.get? measurementNamespaces "customUnit" = some "oadr" := by decide +kernel
                unfold Measurement.init
                rw [hcu]
                refine ⟨Or.inl ⟨rfl, rfl⟩, ?_⟩
                intro sc' hsc''
                rw [hscale] at hsc''
                cases hsc''
                exact hsc'
      rw [hscale] at h2
      unfold applyScale at h2
      split at h2
      · rename_i x1 x2 r sc0 hsome
        cases hsome
        split at h2
        · simp at h2
        · rename_i m hm
          split at h2
          · simp only [Except.ok.injEq] at h2
            rw [← h2]
            intro m' hm'
            rcases List.mem_or_eq_of_mem_set hm' with hm' | hm'
            · exact hbase m' hm'
            · rw [hm']
              refine ⟨(hbase m (List.mem_of_getElem? hm)).1, ?_⟩
              intro sc' hsc''
              cases hsc''
              exact hsc'
          · simp at h2
      · simp only [Except.ok.injEq] at h2; rw [← h2]; exact hbase

/-- **C78.** After any calls of `add_report`, every measurement that can occur in the offer is one that the schema allows. -/
theorem c78_offered (fresh : Nat → String) (calls : List AddReport) : ∀ m ∈ (addAll fresh newVenReports calls).heap, SchemaMeasurement m := by
  have hall : ∀ (calls : List AddReport) (s : VenReports), (∀ m ∈ s.heap, SchemaMeasurement m) → ∀ m ∈ (addAll fresh s calls).heap, SchemaMeasurement m := by
    intro calls
    induction calls with
    | nil => intro s hs; exact hs
    | cons a l ih => intro s hs; exact ih _ (schema_step fresh s a hs)
  apply hall
  intro m hm
  obtain ⟨p, hp, rfl⟩ := List.mem_map.mp hm
  exact (c78_standard p hp).1

/-- non-vacuity: two offers, one with a standard measurement in kilovolts and one with a unit of the user; the measurements announced with them. -/
example : let calls : List AddReport := [{ callback := .func 0, accepts := [], resourceId := some "meter", measurement := .name "voltage", scale := some "k" },
      { callback := .func 1, accepts := [], resourceId := some "fan", measurement := .name "speed", unit := some "rpm" }]
    let s := addAll (fun n => toString n) newVenReports calls
    (s.reports.flatMap (fun r => r.points.map (fun p => (p.measurement.bind (fun i => s.heap[i]?)).map (fun m => (m.ns, m.name, m.unit, m.scale))))) =
      [some ("power", "voltage", some "V", some "k"), some ("oadr", "customUnit", some "rpm", some "none")] := by decide +kernel

/-- non-vacuity: an allowed measurement with one of several units. -/
example : let m : Dict := [("name", .str "temperature"), ("description", .str "temperature"), ("unit", .str "fahrenheit")]
    validateMeasurement m = (m, .ok ()) :=
  c78_allowed_accepted_partial _ "temperature" "temperature" "fahrenheit" _ rfl (by decide +kernel) (by decide) (by rintro (h | h) <;> simp_all) rfl rfl rfl
    (by rw [← mentionsPower_iff]; intro h; exact absurd h (by decide +kernel))

end Openleadr
