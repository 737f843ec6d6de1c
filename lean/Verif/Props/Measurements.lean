import Verif.Model.Measurements
import Verif.Lemmas.Dict
import Verif.Lemmas.Infix
/-!
C56: measurement descriptions. C71: the standard measurements.
-/
namespace Openleadr

/-- Two texts are equal up to the case of their letters. -/
def SameIgnoringCase (a b : String) : Prop := a.toList.map Char.toLower = b.toList.map Char.toLower

/-- A well-formed standard measurement: the description belongs to the name and the unit is acceptable for it. -/
def StandardForm (m : Dict) : Prop :=
  ∃ name desc unit units, Dict.get? m "name" = some (.str name) ∧ Dict.get? m "description" = some (.str desc) ∧
    Dict.get? m "unit" = some (.str unit) ∧ (name, desc) ∈ measurementDescriptions ∧ (name, units) ∈ acceptableUnits ∧ unit ∈ units

/-- The value names the key: a dict has an entry for it, a list or tuple has it as a member, or it occurs in a text. -/
inductive NamesKey (key : String) : Value → Prop
  | dict (d : Dict) (v : Value) : (key, v) ∈ d → NamesKey key (.dict d)
  | list (l : List Value) : .str key ∈ l → NamesKey key (.list l)
  | tuple (l : List Value) : .str key ∈ l → NamesKey key (.tuple l)
  | text (s : String) : Occurs key.toList s.toList → NamesKey key (.str s)

theorem pyIn_iff (key : String) (v : Value) : pyIn key v = .ok true ↔ NamesKey key v := by
  cases v <;> simp only [pyIn, Except.ok.injEq, reduceCtorEq, false_iff]
  case str s => rw [isInfix_iff]; exact ⟨.text s, fun h => by cases h; assumption⟩
  case list l => rw [List.contains_iff_mem]; exact ⟨.list l, fun h => by cases h; assumption⟩
  case tuple l => rw [List.contains_iff_mem]; exact ⟨.tuple l, fun h => by cases h; assumption⟩
  case dict d =>
    rw [show (Dict.has d key = true) ↔ key ∈ Dict.keys d from Dict.get?_isSome d key]
    constructor
    · intro h
      obtain ⟨e, he, rfl⟩ := List.mem_map.mp h
      exact .dict d e.2 he
    · rintro (⟨_, v, h⟩)
      exact List.mem_map.mpr ⟨_, h, rfl⟩
  all_goals intro h; cases h

/-- It has the attributes of a power measurement. -/
def HasPowerAttributes (m : Dict) : Prop :=
  ∃ a, Dict.get? m "power_attributes" = some a ∧ NamesKey "voltage" a ∧ NamesKey "ac" a ∧ NamesKey "hertz" a

/-- The name speaks of power. -/
def AboutPower (name : String) : Prop := ∃ pre post, name.toList = pre ++ "power".toList ++ post

theorem mentionsPower_iff (name : String) : mentionsPower name = true ↔ AboutPower name := isInfix_iff "power".toList name.toList

theorem checkPower_ok (name : String) (m : Dict) : checkPower name m = .ok () ↔ (mentionsPower name = true → HasPowerAttributes m) := by
  unfold checkPower HasPowerAttributes
  simp only [← pyIn_iff]
  by_cases hp : mentionsPower name = true
  · rw [if_pos hp]
    cases ha : Dict.get? m "power_attributes" with
    | none => simp [hp]
    | some a =>
      simp only []
      constructor
      · intro h _
        refine ⟨a, rfl, ?_⟩
        revert h
        cases pyIn "voltage" a with
        | error e => simp
        | ok b1 =>
          cases b1 with
          | false => simp
          | true =>
            cases pyIn "ac" a with
            | error e => simp
            | ok b2 =>
              cases b2 with
              | false => simp
              | true =>
                cases pyIn "hertz" a with
                | error e => simp
                | ok b3 => cases b3 <;> simp
      · intro h
        obtain ⟨a', h1, h2, h3, h4⟩ := h hp
        obtain rfl : a = a' := by simpa using h1
        rw [h2, h3, h4]
  · simp [hp]

theorem checkPower_about (name : String) (m : Dict) : checkPower name m = .ok () ↔ (AboutPower name → HasPowerAttributes m) := by
  rw [checkPower_ok, mentionsPower_iff]

theorem descriptions_nodup : (Dict.keys measurementDescriptions).Nodup := by decide +kernel
theorem units_nodup : (Dict.keys acceptableUnits).Nodup := by decide +kernel

/-- **C56**, both directions for texts: which measurements are accepted. -/
def Acceptable (name desc unit : String) (m : Dict) : Prop :=
  ((∃ required units, (name, required) ∈ measurementDescriptions ∧ SameIgnoringCase desc required ∧ (name, units) ∈ acceptableUnits ∧ unit ∈ units) ∨
    ∀ required, (name, required) ∉ measurementDescriptions) ∧
  (AboutPower name → HasPowerAttributes m)

theorem hasPower_set (m : Dict) (k : String) (v : Value) (hk : k ≠ "power_attributes") : HasPowerAttributes (Dict.set m k v) ↔ HasPowerAttributes m := by
  unfold HasPowerAttributes
  rw [Dict.get?_set_other _ _ _ _ (Ne.symm hk)]

theorem units_known (name required : String) (h : Dict.get? measurementDescriptions name = some required) :
    ∃ units, Dict.get? acceptableUnits name = some units := by
  have h1 : name ∈ Dict.keys measurementDescriptions := (Dict.get?_isSome _ _).mp (by rw [h]; rfl)
  have h2 : name ∈ Dict.keys acceptableUnits := by
    revert h1
    have : ∀ n ∈ Dict.keys measurementDescriptions, n ∈ Dict.keys acceptableUnits := by decide +kernel
    exact this name
  have h3 := (Dict.get?_isSome acceptableUnits name).mpr h2
  exact Option.isSome_iff_exists.mp h3

/-- **C56.** A measurement description with textual name, description and unit is accepted exactly if its name is known, the description is
    the prescribed one up to case and the unit is acceptable, or its name is unknown; and, if it is about power, it has its attributes. -/
theorem c56_accepted_iff (m : Dict) (name desc unit : String) (hn : Dict.get? m "name" = some (.str name))
    (hd : Dict.get? m "description" = some (.str desc)) (hu : Dict.get? m "unit" = some (.str unit)) :
    (validateMeasurement m).2 = .ok () ↔ Acceptable name desc unit m := by
  unfold validateMeasurement Acceptable checkNamed SameIgnoringCase
  simp only [hn, hd, hu]
  cases hr : Dict.get? measurementDescriptions name with
  | none =>
    have hno : ∀ required, (name, required) ∉ measurementDescriptions := by
      intro r hmem
      have := Dict.get?_of_mem _ descriptions_nodup _ _ hmem
      rw [hr] at this; cases this
    by_cases hc : name = "customUnit"
    · simp only [if_pos hc]
      rw [checkPower_about]
      exact ⟨fun h => ⟨Or.inr hno, h⟩, fun h => h.2⟩
    · simp only [if_neg hc]
      rw [checkPower_about, hasPower_set _ _ _ (by decide)]
      exact ⟨fun h => ⟨Or.inr hno, h⟩, fun h => h.2⟩
  | some required =>
    have hmem := Dict.mem_of_get? _ _ _ hr
    obtain ⟨units, hunits⟩ := units_known name required hr
    have humem := Dict.mem_of_get? _ _ _ hunits
    simp only [hunits]
    have hreq : ∀ r, (name, r) ∈ measurementDescriptions → r = required := by
      intro r hm
      have := Dict.get?_of_mem _ descriptions_nodup _ _ hm
      rw [hr] at this; exact (Option.some.inj this).symm
    have hunit : ∀ u, (name, u) ∈ acceptableUnits → u = units := by
      intro u hm
      have := Dict.get?_of_mem _ units_nodup _ _ hm
      rw [hunits] at this; exact (Option.some.inj this).symm
    have key : (desc.toList.map Char.toLower = required.toList.map Char.toLower ∧ unit ∈ units) ↔
        ((∃ r us, (name, r) ∈ measurementDescriptions ∧ desc.toList.map Char.toLower = r.toList.map Char.toLower ∧
          (name, us) ∈ acceptableUnits ∧ unit ∈ us) ∨ ∀ r, (name, r) ∉ measurementDescriptions) := by
      constructor
      · rintro ⟨h1, h2⟩; exact Or.inl ⟨required, units, hmem, h1, humem, h2⟩
      · rintro (⟨r, us, h1, h2, h3, h4⟩ | h)
        · rw [hreq r h1] at h2; rw [hunit us h3] at h4; exact ⟨h2, h4⟩
        · exact absurd hmem (h required)
    rw [← key]
    by_cases hde : desc = required
    · simp only [if_pos hde]
      by_cases hun : units.contains unit = true
      · simp only [hun, if_true]
        rw [checkPower_about]
        exact ⟨fun h => ⟨⟨by rw [hde], by simpa using hun⟩, h⟩, fun h => h.2⟩
      · simp only [hun, Bool.false_eq_true, if_false]
        constructor
        · intro h; cases h
        · intro h; exact absurd (by simpa using h.1.2) hun
    · simp only [if_neg hde]
      by_cases hlo : lowerText desc = lowerText required
      · simp only [if_pos hlo]
        by_cases hun : units.contains unit = true
        · simp only [hun, if_true]
          rw [checkPower_about, hasPower_set _ _ _ (by decide)]
          exact ⟨fun h => ⟨⟨hlo, by simpa using hun⟩, h⟩, fun h => h.2⟩
        · simp only [hun, Bool.false_eq_true, if_false]
          constructor
          · intro h; cases h
          · intro h; exact absurd (by simpa using h.1.2) hun
      · simp only [if_neg hlo]
        constructor
        · intro h; cases h
        · intro h; exact absurd h.1.1 hlo

/-- **C56.** Whatever the dict, once accepted it is a well-formed standard measurement or a custom unit, and has its power attributes if the name
    it was given mentions power; nothing but the name and the description was changed. -/
theorem c56_accepted_form (m m' : Dict) (h : validateMeasurement m = (m', .ok ())) :
    (StandardForm m' ∨ Dict.get? m' "name" = some (.str "customUnit")) ∧
    (∀ name, Dict.get? m "name" = some (.str name) → AboutPower name → HasPowerAttributes m') ∧
    ∀ k, k ≠ "name" → k ≠ "description" → Dict.get? m' k = Dict.get? m k := by
  unfold validateMeasurement at h
  split at h
  · rename_i name description unit hn hd hu
    split at h
    · rename_i name
      cases hc : checkNamed name description unit m with
      | mk m1 r =>
        rw [hc] at h
        cases r with
        | error e => simp at h
        | ok u =>
          simp only [Prod.mk.injEq] at h
          obtain ⟨rfl, hpow⟩ := h
          have hpw := (checkPower_about name m1).mp hpow
          refine ⟨?_, ?_, ?_⟩
          · unfold checkNamed at hc
            cases hr : Dict.get? measurementDescriptions name with
            | none =>
              rw [hr] at hc
              simp only [] at hc
              by_cases hcu : name = "customUnit"
              · simp only [if_pos hcu, Prod.mk.injEq] at hc
                rw [← hc.1, hn, hcu]; exact Or.inr rfl
              · simp only [if_neg hcu, Prod.mk.injEq] at hc
                rw [← hc.1, Dict.get?_set_self]; exact Or.inr rfl
            | some required =>
              rw [hr] at hc
              obtain ⟨units, hunits⟩ := units_known name required hr
              simp only [hunits] at hc
              left
              cases description with
              | str d =>
                cases unit with
                | str u =>
                  simp only [] at hc
                  by_cases hun : units.contains u = true
                  · simp only [hun, if_true] at hc
                    by_cases hde : d = required
                    · simp only [if_pos hde, Prod.mk.injEq] at hc
                      rw [← hc.1]
                      exact ⟨name, required, u, units, hn, by rw [hd, hde], hu, Dict.mem_of_get? _ _ _ hr, Dict.mem_of_get? _ _ _ hunits, by simpa using hun⟩
                    · simp only [if_neg hde] at hc
                      by_cases hlo : lowerText d = lowerText required
                      · simp only [if_pos hlo, Prod.mk.injEq] at hc
                        rw [← hc.1]
                        refine ⟨name, required, u, units, ?_, ?_, ?_, Dict.mem_of_get? _ _ _ hr, Dict.mem_of_get? _ _ _ hunits, by simpa using hun⟩
                        · rw [Dict.get?_set_other _ _ _ _ (by decide), hn]
                        · rw [Dict.get?_set_self]
                        · rw [Dict.get?_set_other _ _ _ _ (by decide), hu]
                      · simp only [if_neg hlo, Prod.mk.injEq, reduceCtorEq, and_false] at hc
                  · simp only [hun, Bool.false_eq_true, if_false] at hc
                    split at hc
                    · simp at hc
                    · split at hc <;> simp at hc
                | _ =>
                  simp only [] at hc
                  split at hc
                  · simp at hc
                  · split at hc <;> simp at hc
              | _ => simp at hc
          · intro name' hn' hp
            rw [hn] at hn'
            have : name = name' := by simpa using hn'
            subst this
            exact hpw hp
          · intro k hk1 hk2
            unfold checkNamed at hc
            have hset1 : ∀ v, Dict.get? (Dict.set m "name" v) k = Dict.get? m k := fun v => Dict.get?_set_other _ _ _ _ hk1
            have hset2 : ∀ v, Dict.get? (Dict.set m "description" v) k = Dict.get? m k := fun v => Dict.get?_set_other _ _ _ _ hk2
            cases hr : Dict.get? measurementDescriptions name with
            | none =>
              rw [hr] at hc
              simp only [] at hc
              split at hc
              · simp only [Prod.mk.injEq] at hc; rw [← hc.1]
              · simp only [Prod.mk.injEq] at hc; rw [← hc.1, hset1]
            | some required =>
              rw [hr] at hc
              obtain ⟨units, hunits⟩ := units_known name required hr
              simp only [hunits] at hc
              cases description with
              | str d =>
                cases unit with
                | str u =>
                  simp only [] at hc
                  by_cases hun : units.contains u = true
                  · simp only [hun, if_true] at hc
                    split at hc
                    · simp only [Prod.mk.injEq] at hc; rw [← hc.1]
                    · split at hc
                      · simp only [Prod.mk.injEq] at hc; rw [← hc.1, hset2]
                      · simp at hc
                  · simp only [hun, Bool.false_eq_true, if_false] at hc
                    split at hc
                    · simp at hc
                    · split at hc <;> simp at hc
                | _ =>
                  simp only [] at hc
                  split at hc
                  · simp at hc
                  · split at hc <;> simp at hc
              | _ => simp at hc
    · simp at h
  · simp at h

/-- non-vacuity: a description in the wrong case is corrected, an unknown name becomes a custom unit, a wrong unit and missing power attributes
    are refused. -/
example : let m (n d u : String) : Dict := [("name", .str n), ("description", .str d), ("unit", .str u)]
    validateMeasurement (m "voltage" "VOLTAGE" "V") = (m "voltage" "Voltage" "V", .ok ()) ∧
    validateMeasurement (m "noise" "loudness" "dB") = (m "customUnit" "loudness" "dB", .ok ()) ∧
    (validateMeasurement (m "voltage" "Voltage" "kV")).2 = .error .valueError ∧
    (validateMeasurement (m "powerReal" "RealPower" "W")).2 = .error .valueError ∧
    (validateMeasurement (m "powerReal" "RealPower" "W" ++ [("power_attributes", .dict [("voltage", .int 230), ("ac", .bool true), ("hertz", .int 50)])])).2 = .ok () := by
  decide +kernel

/-! ### C71 -/

/-- The dict of a measurement object. -/
def Measurement.asDict (m : Measurement) : Dict :=
  [("name", .str m.name), ("description", .str m.description), ("unit", match m.unit with | some u => .str u | none => .none)] ++
  (match m.power with
   | some (h, v, ac) => [("power_attributes", .dict [("hertz", .int h), ("voltage", .int v), ("ac", .bool ac)])]
   | none => [])

/-- **C71** (partial: all but `CURRENCY_PER_KW`). Every standard measurement has the name it is declared with, with its description, a unit that
    is acceptable for it and a namespace; its unit is the first of the acceptable ones, all of which it offers; and its description passes the library's own validation. -/
theorem c71_standard_valid_partial : ∀ p ∈ standardMeasurements, p.1 ≠ "CURRENCY_PER_KW" →
    (validateMeasurement p.2.asDict).2 = .ok () ∧ StandardForm p.2.asDict ∧ p.2.name ≠ "customUnit" ∧ (p.2.name, p.2.ns) ∈ measurementNamespaces ∧
    ∃ u us, p.2.unit = some u ∧ (p.2.name, u :: us) ∈ acceptableUnits ∧ p.2.acceptable = u :: us := by
  have hform : ∀ p ∈ standardMeasurements, p.1 ≠ "CURRENCY_PER_KW" → ∃ u us, p.2.unit = some u ∧ (p.2.name, p.2.description) ∈ measurementDescriptions ∧
      Dict.get? acceptableUnits p.2.name = some us ∧ u ∈ us := by
    intro p hp hne
    have h : (standardMeasurements.all (fun p => p.1 == "CURRENCY_PER_KW" ||
        match p.2.unit, Dict.get? acceptableUnits p.2.name with
        | some u, some us => measurementDescriptions.contains (p.2.name, p.2.description) && us.contains u
        | _, _ => false)) = true := by decide +kernel
    have h' := List.all_eq_true.mp h p hp
    cases hu : p.2.unit with
    | none => rw [hu] at h'; simp [hne] at h'
    | some u =>
      cases hus : Dict.get? acceptableUnits p.2.name with
      | none => rw [hu, hus] at h'; simp [hne] at h'
      | some us =>
        rw [hu, hus] at h'
        simp only [Bool.or_eq_true, beq_iff_eq, hne, false_or, Bool.and_eq_true, List.contains_iff_mem] at h'
        exact ⟨u, us, rfl, h'.1, rfl, h'.2⟩
  intro p hp hne
  obtain ⟨u, us, h1, h2, h3, h4⟩ := hform p hp hne
  have hrest : (standardMeasurements.all (fun p => p.1 == "CURRENCY_PER_KW" ||
      (decide ((validateMeasurement p.2.asDict).2 = .ok ()) && p.2.name != "customUnit" && measurementNamespaces.contains (p.2.name, p.2.ns) &&
        decide (acceptableUnits.contains (p.2.name, p.2.acceptable) ∧ p.2.acceptable.head? = p.2.unit)))) = true := by
    decide +kernel
  have hr := List.all_eq_true.mp hrest p hp
  simp only [Bool.or_eq_true, beq_iff_eq, hne, false_or, Bool.and_eq_true, decide_eq_true_eq, bne_iff_ne, ne_eq, List.contains_iff_mem] at hr
  refine ⟨hr.1.1.1, ⟨p.2.name, p.2.description, u, us, by simp [Measurement.asDict, Dict.get?], by simp [Measurement.asDict, Dict.get?],
    by simp [Measurement.asDict, Dict.get?, h1], h2, Dict.mem_of_get? _ _ _ h3, h4⟩, hr.1.1.2, hr.1.2, ?_⟩
  obtain ⟨h5, h6⟩ := hr.2
  rw [h1] at h6
  cases hac : p.2.acceptable with
  | nil => rw [hac] at h6; cases h6
  | cons x xs =>
    rw [hac] at h5 h6
    simp only [List.head?_cons, Option.some.injEq] at h6
    exact ⟨x, xs, by rw [h1, h6], h5, rfl⟩

/-- **C71, refuted** for `CURRENCY_PER_KW`: because of the misspelt key in the table of namespaces it is offered as a custom unit. -/
theorem c71_currency_per_kw_violated :
    ∃ m, ("CURRENCY_PER_KW", m) ∈ standardMeasurements ∧ m.name = "customUnit" ∧ m.description = "currencyPerKW" ∧ ¬ StandardForm m.asDict := by
  refine ⟨standardMeasurement "currencyPerKW" (some "none") none none, by decide +kernel, by decide +kernel, by decide +kernel, ?_⟩
  rintro ⟨name, desc, unit, units, h1, -, -, h4, -⟩
  have hn : name = "customUnit" := by
    have : Dict.get? (standardMeasurement "currencyPerKW" (some "none") none none).asDict "name" = some (.str "customUnit") := by decide +kernel
    rw [this] at h1
    simpa using h1.symm
  have : "customUnit" ∉ Dict.keys measurementDescriptions := by decide +kernel
  exact this (by rw [← hn]; exact List.mem_map.mpr ⟨_, h4, rfl⟩)

/-- non-vacuity -/
example : standardMeasurements.length = 24 ∧ (Dict.get? standardMeasurements "REAL_POWER").map (fun m => (m.name, m.unit, m.ns)) =
    some ("powerReal", some "W", "power") := by decide +kernel

end Openleadr
