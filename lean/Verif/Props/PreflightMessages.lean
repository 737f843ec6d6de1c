import Verif.Props.Preflight
/-! Property C66 for all messages, with the preparation of report offers; examples for C64–C66. -/
namespace Openleadr

theorem unitOk {name : String} {unit : Value} {x y : Dict} (hxy : (match Dict.get? acceptableUnits name with
    | some units => match unit with
      | .str u => if units.contains u then (x, Except.ok ()) else (x, .error Err.valueError)
      | _ => (x, .error .valueError)
    | none => (x, .error .keyError)) = (y, .ok ())) :
    y = x ∧ ∃ units u, Dict.get? acceptableUnits name = some units ∧ unit = .str u ∧ units.contains u = true := by
  split at hxy
  · rename_i units hun
    split at hxy
    · rename_i u
      split at hxy
      · rename_i hcon
        cases hxy
        exact ⟨rfl, units, u, hun, rfl, hcon⟩
      · cases hxy
    · cases hxy
  · cases hxy

theorem validateMeasurement_again {m m' : Dict} (h : validateMeasurement m = (m', .ok ())) (d : Dict)
    (h1 : Dict.get? d "name" = Dict.get? m' "name") (h2 : Dict.get? d "description" = Dict.get? m' "description")
    (h3 : Dict.get? d "unit" = Dict.get? m' "unit") (h4 : Dict.get? d "power_attributes" = Dict.get? m' "power_attributes") :
    validateMeasurement d = (d, .ok ()) := by
  unfold validateMeasurement at h
  split at h
  · rename_i name description unit hn hd hu
    split at h
    · rename_i name
      split at h
      · cases h
      · rename_i m1 hc
        simp only [Prod.mk.injEq] at h
        obtain ⟨rfl, hp⟩ := h
        have hpow : ∀ x, Dict.get? x "power_attributes" = Dict.get? m1 "power_attributes" → checkPower name x = .ok () := by
          intro x hx
          unfold checkPower at hp ⊢
          rw [hx]
          exact hp
        unfold checkNamed at hc
        split at hc
        · rename_i required hreq
          have finish : ∀ units u, Dict.get? acceptableUnits name = some units → unit = .str u → units.contains u = true →
              Dict.get? m1 "name" = some (.str name) → Dict.get? m1 "description" = some (.str required) → Dict.get? m1 "unit" = some unit →
              validateMeasurement d = (d, .ok ()) := by
            intro units u hun huu hcon e1 e2 e3
            unfold validateMeasurement
            rw [h1, h2, h3, e1, e2, e3, huu]
            simp only [checkNamed, hreq, if_true, hun, hcon, hpow d h4]
          simp only at hc
          split at hc
          · rename_i desc
            split at hc
            · rename_i heq
              obtain ⟨rfl, units, u, hun, huu, hcon⟩ := unitOk hc
              exact finish units u hun huu hcon hn (by rw [hd, heq]) hu
            · split at hc
              · obtain ⟨hm1, units, u, hun, huu, hcon⟩ := unitOk hc
                refine finish units u hun huu hcon ?_ ?_ ?_
                · rw [hm1, Dict.get?_set_other _ _ _ _ (by decide)]; exact hn
                · rw [hm1]; exact Dict.get?_set_self _ _ _
                · rw [hm1, Dict.get?_set_other _ _ _ _ (by decide)]; exact hu
              · cases hc
          · cases hc
        · rename_i hreq
          have hcu : Dict.get? measurementDescriptions "customUnit" = none := by decide
          have hmp : mentionsPower "customUnit" = false := by decide
          have finish : Dict.get? m1 "name" = some (.str "customUnit") → (∃ de, Dict.get? m1 "description" = some de) → (∃ un, Dict.get? m1 "unit" = some un) →
              validateMeasurement d = (d, .ok ()) := by
            rintro e1 ⟨de, e2⟩ ⟨un, e3⟩
            unfold validateMeasurement
            rw [h1, h2, h3, e1, e2, e3]
            simp only [checkNamed, hcu, if_true, checkPower, hmp, Bool.false_eq_true, if_false]
          split at hc
          · rename_i heq
            cases hc
            subst heq
            exact finish hn ⟨_, hd⟩ ⟨_, hu⟩
          · cases hc
            exact finish (Dict.get?_set_self _ _ _) ⟨_, by rw [Dict.get?_set_other _ _ _ _ (by decide)]; exact hd⟩
              ⟨_, by rw [Dict.get?_set_other _ _ _ _ (by decide)]; exact hu⟩
    · cases h
  · cases h

theorem setNamespace_keeps {m m' : Value} (h : setNamespace m = .ok m') :
    ∃ d d', m = .dict d ∧ m' = .dict d' ∧ OnlyKey "ns" d d' := by
  obtain ⟨d, name, ns, rfl, _, _, rfl⟩ := setNamespace_ok h
  exact ⟨d, _, rfl, rfl, onlyKey_set _ _ _⟩

/-- A measurement that was validated and given its namespace stays as it is. -/
theorem measurement_again {m m1 m2 : Value} (h1 : validateV m = .ok m1) (h2 : setNamespace m1 = .ok m2) :
    validateV m2 = .ok m2 ∧ setNamespace m2 = .ok m2 := by
  refine ⟨?_, setNamespace_id h2⟩
  obtain ⟨d1, d2, rfl, rfl, hk⟩ := setNamespace_keeps h2
  unfold validateV at h1
  split at h1
  · rename_i d
    split at h1
    · rename_i d' hv
      cases h1
      have := validateMeasurement_again hv d2 (hk _ (by decide)) (hk _ (by decide)) (hk _ (by decide)) (hk _ (by decide))
      simp [validateV, this]
    · cases h1
  · cases h1

theorem validateV_ne_none {m m1 : Value} (h1 : validateV m = .ok m1) : m1 ≠ .none := by
  unfold validateV at h1
  split at h1
  · split at h1
    · cases h1; simp
    · cases h1
  · cases h1

/-- A report description that was prepared stays as it is (also the texts that loops over other values than lists go through). -/
theorem description_again {x y z : Value} (h1 : onMeasurement validateV x = .ok y) (h2 : onMeasurement setNamespace y = .ok z) :
    onMeasurement validateV z = .ok z ∧ onMeasurement setNamespace z = .ok z := by
  by_cases hx : ∃ d, x = .dict d
  · obtain ⟨d, rfl⟩ := hx
    obtain ⟨d1, rfl, hk1, hm1⟩ := onMeasurement_ok h1 rfl
    obtain ⟨d2, rfl, hk2, hm2⟩ := onMeasurement_ok h2 rfl
    rcases hm1 with ⟨rfl, hm1⟩ | ⟨m, m', hm, hne, hf, hm'⟩
    · rcases hm2 with ⟨rfl, hm2⟩ | ⟨m, m', hm, hne, hf, hm'⟩
      · rcases hm2 with hm2 | hm2
        · exact ⟨onMeasurement_id (.inl hm2), onMeasurement_id (.inl hm2)⟩
        · exact ⟨onMeasurement_id (.inr (.inl hm2)), onMeasurement_id (.inr (.inl hm2))⟩
      · rcases hm1 with hm1 | hm1 <;> rw [hm1] at hm
        · cases hm
        · cases hm; exact absurd rfl hne
    · rcases hm2 with ⟨rfl, hm2⟩ | ⟨n, n', hn, hnn, hg, hn'⟩
      · rcases hm2 with hm2 | hm2 <;> rw [hm'] at hm2
        · cases hm2
        · cases hm2
          exact absurd rfl (validateV_ne_none hf)
      · rw [hm'] at hn
        cases hn
        obtain ⟨a1, a2⟩ := measurement_again hf hg
        exact ⟨onMeasurement_id (.inr (.inr ⟨_, hn', a1⟩)), onMeasurement_id (.inr (.inr ⟨_, hn', a2⟩))⟩
  · -- nothing happens to other values
    have other : ∀ (f : Value → Res Value) (w w' : Value), (¬ ∃ d, w = .dict d) → onMeasurement f w = .ok w' → w' = w ∧ ∀ g, onMeasurement g w = .ok w := by
      intro f w w' hw h
      unfold onMeasurement at h
      split at h
      · cases h
      · rename_i hp
        cases h
        exact ⟨rfl, fun g => by simp [onMeasurement, hp]⟩
      · split at h
        · cases h
        · rename_i m hm
          obtain ⟨d, hd, _⟩ := item_ok hm
          exact absurd ⟨d, hd⟩ hw
    obtain ⟨rfl, ha⟩ := other _ _ _ hx h1
    obtain ⟨rfl, hb⟩ := other _ _ _ hx h2
    exact ⟨ha _, ha _⟩

theorem eachOk_elements {f : Value → Res Value} {v v' : Value} (h : forEach f v = .ok v') :
    (∃ l l', v = .list l ∧ v' = .list l' ∧ eachOk f l = .ok l') ∨ (∃ l l', v = .tuple l ∧ v' = .tuple l' ∧ eachOk f l = .ok l') ∨
      (v' = v ∧ ∃ l l', elements v = .ok l ∧ eachOk f l = .ok l' ∧ (∀ w, v ≠ .list w) ∧ ∀ w, v ≠ .tuple w) := by
  unfold forEach at h
  split at h
  · cases h
  rename_i l hl
  split at h
  · cases h
  rename_i l' hl'
  split at h
  · cases h
    cases hl
    exact .inl ⟨_, _, rfl, rfl, hl'⟩
  · cases h
    cases hl
    exact .inr (.inl ⟨_, _, rfl, rfl, hl'⟩)
  · rename_i h1 h2
    cases h
    exact .inr (.inr ⟨rfl, l, l', hl, hl', h1, h2⟩)

/-- Two loops, one after the other, whose bodies leave their common result alone. -/
theorem loops_again {f g : Value → Res Value} {v v1 v2 : Value} (hfg : ∀ x y z, f x = .ok y → g y = .ok z → f z = .ok z ∧ g z = .ok z)
    (h1 : forEach f v = .ok v1) (h2 : forEach g v1 = .ok v2) : forEach f v2 = .ok v2 ∧ forEach g v2 = .ok v2 := by
  have each : ∀ l l1 l2, eachOk f l = .ok l1 → eachOk g l1 = .ok l2 → eachOk f l2 = .ok l2 ∧ eachOk g l2 = .ok l2 := by
    intro l l1 l2 ha hb
    have := Each.comp ((eachOk_iff _ _ _).mp ha) ((eachOk_iff _ _ _).mp hb)
    constructor
    · refine eachOk_id _ _ ?_
      intro z hz
      obtain ⟨x, _, y, hx, hy⟩ := this.right z hz
      exact (hfg x y z hx hy).1
    · refine eachOk_id _ _ ?_
      intro z hz
      obtain ⟨x, _, y, hx, hy⟩ := this.right z hz
      exact (hfg x y z hx hy).2
  rcases eachOk_elements h1 with ⟨l, l1, rfl, rfl, ha⟩ | ⟨l, l1, rfl, rfl, ha⟩ | ⟨rfl, l, l1, hl, ha, hn1, hn2⟩
  · rcases eachOk_elements h2 with ⟨k, l2, hk, rfl, hb⟩ | ⟨k, l2, hk, rfl, hb⟩ | ⟨_, _, _, _, _, hn, _⟩
    · cases hk
      obtain ⟨a, b⟩ := each _ _ _ ha hb
      simp [forEach, elements, a, b]
    · cases hk
    · exact absurd rfl (hn _)
  · rcases eachOk_elements h2 with ⟨k, l2, hk, rfl, hb⟩ | ⟨k, l2, hk, rfl, hb⟩ | ⟨_, _, _, _, _, _, hn⟩
    · cases hk
    · cases hk
      obtain ⟨a, b⟩ := each _ _ _ ha hb
      simp [forEach, elements, a, b]
    · exact absurd rfl (hn _)
  · rcases eachOk_elements h2 with ⟨k, l2, hk, rfl, hb⟩ | ⟨k, l2, hk, rfl, hb⟩ | ⟨rfl, _⟩
    · exact absurd hk (hn1 _)
    · exact absurd hk (hn2 _)
    · exact ⟨h1, h2⟩

theorem metadataName_ok {r r1 : Value} (h : metadataName r = .ok r1) :
    ∃ d d1, r = .dict d ∧ r1 = .dict d1 ∧ OnlyKey "report_name" d d1 ∧ ∀ d2, Dict.get? d2 "report_name" = Dict.get? d1 "report_name" →
      metadataName (.dict d2) = .ok (.dict d2) := by
  unfold metadataName at h
  split at h
  · cases h
  · rename_i name hname
    obtain ⟨d, rfl, hg⟩ := item_ok hname
    split at h
    · rename_i hc
      obtain ⟨d0, hd0, rfl⟩ := setItem_ok h
      cases hd0
      refine ⟨d, _, rfl, rfl, onlyKey_set _ _ _, ?_⟩
      intro d2 h2
      rw [Dict.get?_set_self] at h2
      unfold metadataName
      rw [item_dict h2]
      have : "METADATA".toList.isPrefixOf ("METADATA_" ++ name).toList = true := by
        simp [String.toList_append, List.isPrefixOf]
      simp only [this, Bool.not_true, Bool.and_false, Bool.false_eq_true, if_false]
    · rename_i hc
      cases h
      refine ⟨d, d, rfl, rfl, fun _ _ => rfl, ?_⟩
      intro d2 h2
      unfold metadataName
      rw [item_dict (h2.trans hg)]
      simp only [if_neg hc]
  · rename_i v hne hv
    obtain ⟨d, rfl, hg⟩ := item_ok hv
    cases h
    refine ⟨d, d, rfl, rfl, fun _ _ => rfl, ?_⟩
    intro d2 h2
    unfold metadataName
    rw [item_dict (h2.trans hg)]
    cases v <;> simp_all

/-- A report that was prepared stays as it is. -/
theorem prepareReport_again {r r' : Value} (h : prepareReport r = .ok r') : prepareReport r' = .ok r' := by
  unfold prepareReport at h
  split at h
  · cases h
  rename_i r1 hr1
  obtain ⟨d, d1, rfl, rfl, hk, hmeta⟩ := metadataName_ok hr1
  split at h
  · cases h
  rename_i r2 hr2
  obtain ⟨d0, x, x1, hd0, hx, hf, rfl⟩ := modifyItem_ok hr2
  cases hd0
  obtain ⟨d0, y, y1, hd0, hy, hg, rfl⟩ := modifyItem_ok h
  cases hd0
  rw [Dict.get?_set_self] at hy
  cases hy
  obtain ⟨a, b⟩ := loops_again (fun x y z => description_again) hf hg
  unfold prepareReport
  rw [hmeta _ (by rw [Dict.get?_set_other _ _ _ _ (by decide), Dict.get?_set_other _ _ _ _ (by decide)])]
  simp only [modifyItem_id (Dict.get?_set_self _ _ _) a, modifyItem_id (Dict.get?_set_self _ _ _) b]

theorem preflightRegisterReport_again {m m' : Value} (h : preflightRegisterReport m = .ok m') : preflightRegisterReport m' = .ok m' := by
  obtain ⟨d, x, x', rfl, hx, hf, rfl⟩ := modifyItem_ok h
  have hid : forEach prepareReport x' = .ok x' := by
    rcases eachOk_elements hf with ⟨l, l1, rfl, rfl, ha⟩ | ⟨l, l1, rfl, rfl, ha⟩ | ⟨rfl, _⟩
    · have := eachOk_id prepareReport l1 (by
        intro z hz
        obtain ⟨w, _, hw⟩ := ((eachOk_iff _ _ _).mp ha).right z hz
        exact prepareReport_again hw)
      simp [forEach, elements, this]
    · have := eachOk_id prepareReport l1 (by
        intro z hz
        obtain ⟨w, _, hw⟩ := ((eachOk_iff _ _ _).mp ha).right z hz
        exact prepareReport_again hw)
      simp [forEach, elements, this]
    · exact hf
  exact modifyItem_id (Dict.get?_set_self _ _ _) hid

/-! ### whole messages -/

theorem asPlain_again (v : Value) : v.asPlain.asPlain = v.asPlain := by
  cases v <;> simp [Value.asPlain, Value.plain]

theorem plainEntry_again (v : Value) : plainEntry (plainEntry v) = plainEntry v := by
  cases v with
  | list l => simp [plainEntry, List.map_map, Function.comp_def, asPlain_again]
  | obj c d => simp [plainEntry, Value.asPlain, Value.plain]
  | _ => rfl

/-- The first step of the preparation: no dataclasses. -/
def plainPayload (p : Dict) : Dict := p.map (fun e => (e.1, plainEntry e.2))

theorem plainPayload_set (p : Dict) (k : String) (v : Value) (h : plainEntry v = v) :
    plainPayload (Dict.set (plainPayload p) k v) = Dict.set (plainPayload p) k v := by
  induction p with
  | nil => simp [plainPayload, Dict.set, h]
  | cons e p ih =>
    obtain ⟨k0, v0⟩ := e
    simp only [plainPayload, List.map_cons, Dict.set] at ih ⊢
    split
    · simp only [List.map_cons, List.map_map, Function.comp_def, plainEntry_again, h]
    · simp only [List.map_cons, plainEntry_again, ih]

theorem get?_plainPayload (p : Dict) (k : String) : Dict.get? (plainPayload p) k = (Dict.get? p k).map plainEntry := by
  induction p with
  | nil => rfl
  | cons e p ih =>
    obtain ⟨k0, v0⟩ := e
    simp only [plainPayload, List.map_cons, Dict.get?] at ih ⊢
    split
    · rfl
    · exact ih

theorem asPlain_dict (v : Value) (d : Dict) (h : v = .dict d) : v.asPlain = v := by subst h; rfl

/-- **C66**: preparing a message that was prepared changes nothing, whatever its type, also when it is prepared again at another time (for event messages:
    with targets by type as they should be). -/
theorem c66_idempotent (now now' : Int) (type : String) (payload : Dict) (m' : Value) (h : preflightMessage now type payload = .ok m')
    (hg : type = "oadrDistributeEvent" → GoodTargets (.dict (plainPayload payload))) :
    ∃ p', m' = .dict p' ∧ preflightMessage now' type p' = .ok m' := by
  unfold preflightMessage at h
  split at h
  · rename_i ht
    subst ht
    have h0 : preflightDistributeEvent now (.dict (plainPayload payload)) = .ok m' := h
    have hagain := c66_events now now' _ _ h0 (hg rfl)
    obtain ⟨d, v, v', hd, hv, _, rfl, hi, heach⟩ := preflight_events h0
    cases hd
    refine ⟨_, rfl, ?_⟩
    unfold preflightMessage
    rw [if_pos rfl]
    have hplain : plainEntry v' = v' := by
      cases v' with
      | list l =>
        simp only [plainEntry, Value.list.injEq]
        refine (List.map_congr_left ?_).trans (List.map_id l)
        intro x hx
        obtain ⟨x0, _, hp⟩ := heach.right x hx
        obtain ⟨_, d', _, _, _, _, _, _, _, _, _, rfl, _⟩ := hp.prepared
        rfl
      | obj c d => simp [Iter, elements] at hi
      | _ => rfl
    have := plainPayload_set payload "events" v' hplain
    show preflightDistributeEvent now' (.dict (plainPayload (Dict.set (plainPayload payload) "events" v'))) = _
    rw [this]
    exact hagain
  · rename_i ht
    split at h
    · rename_i ht2
      subst ht2
      have h0 : preflightRegisterReport (.dict (plainPayload payload)) = .ok m' := h
      have hagain := preflightRegisterReport_again h0
      obtain ⟨d, x, x', hd, hx, hf, rfl⟩ := modifyItem_ok h0
      cases hd
      refine ⟨_, rfl, ?_⟩
      unfold preflightMessage
      rw [if_neg (by decide), if_pos rfl]
      have hplain : plainEntry x' = x' := by
        rcases eachOk_elements hf with ⟨l, l1, rfl, rfl, ha⟩ | ⟨l, l1, rfl, rfl, ha⟩ | ⟨rfl, _⟩
        · simp only [plainEntry, Value.list.injEq]
          refine (List.map_congr_left ?_).trans (List.map_id l1)
          intro z hz
          obtain ⟨w, _, hw⟩ := ((eachOk_iff _ _ _).mp ha).right z hz
          unfold prepareReport at hw
          split at hw
          · cases hw
          split at hw
          · cases hw
          obtain ⟨_, _, _, _, _, _, rfl⟩ := modifyItem_ok hw
          rfl
        · rfl
        · rw [get?_plainPayload] at hx
          obtain ⟨y, _, rfl⟩ := Option.map_eq_some_iff.mp hx
          exact plainEntry_again y
      have := plainPayload_set payload "reports" x' hplain
      show preflightRegisterReport (.dict (plainPayload (Dict.set (plainPayload payload) "reports" x'))) = _
      rw [this]
      exact hagain
    · rename_i ht2
      cases h
      exact ⟨payload, rfl, by simp [preflightMessage, ht, ht2]⟩

/-! ### examples -/

/-- An active event of two intervals whose active period is too long, with a SIMPLE signal at level 2. -/
def sampleEventMessage (status : String) (current : Value) : Dict :=
  [("events", .list [.obj "Event" [
    ("event_descriptor", .obj "EventDescriptor" [("event_id", .str "e1"), ("event_status", .str status), ("created_date_time", .none)]),
    ("active_period", .obj "ActivePeriod" [("dtstart", .datetime 0), ("duration", .timedelta 7200000000)]),
    ("event_signals", .list [.obj "EventSignal" [("intervals", .list [
        .obj "Interval" [("duration", .timedelta 1800000000), ("signal_payload", .int 2)],
        .dict [("duration", .str "PT30M"), ("signal_payload", .float "1.0")]]),
      ("signal_name", .str "SIMPLE"), ("current_value", current)]]),
    ("targets_by_type", .dict [("ven_id", .list [.str "v1", .str "v2"])])]])]

/-- The one event of a message. -/
def onlyEvent (r : Res Value) : Value :=
  match r with
  | .ok m => match kids (field m "events") with
    | [e] => e
    | _ => .none
  | .error _ => .none

/-- Beside C64 and C66: the message passes; its duration is corrected to one hour, response requirement and targets are added. -/
example : field (field (onlyEvent (preflightMessage 5 "oadrDistributeEvent" (sampleEventMessage "near" (.int 0)))) "active_period") "duration" =
      .timedelta 3600000000 ∧
    field (onlyEvent (preflightMessage 5 "oadrDistributeEvent" (sampleEventMessage "near" (.int 0)))) "response_required" = .str "always" ∧
    field (onlyEvent (preflightMessage 5 "oadrDistributeEvent" (sampleEventMessage "near" (.int 0)))) "targets" =
      .list [.dict [("ven_id", .str "v1")], .dict [("ven_id", .str "v2")]] ∧
    field (field (onlyEvent (preflightMessage 5 "oadrDistributeEvent" (sampleEventMessage "near" (.int 0)))) "event_descriptor") "created_date_time" =
      .datetime 5 := by
  decide +kernel

/-- Beside C65: the current value 2 of an active event is sent as 0. -/
example : (kids (field (onlyEvent (preflightMessage 5 "oadrDistributeEvent" (sampleEventMessage "active" (.int 2)))) "event_signals")).map
    (fun s => field s "current_value") = [.int 0] := by
  decide +kernel

end Openleadr
