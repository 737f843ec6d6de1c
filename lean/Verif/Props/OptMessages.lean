import Verif.Lemmas.OptMessage
import Verif.Lemmas.PlainLib
import Verif.Lemmas.PlainTexts
/-!
C67 for oadrCreateOpt.
-/
namespace Openleadr

variable {lib : Lib} {now : Int}

theorem OptP.lookups (r : OptP) : Dict.get? r.dict "vavailability" =
      r.availability.map (fun l => .dict [("components", .list ((l.map PeriodP.dict).map .dict))]) ∧
    Dict.get? r.dict "event_id" = text? r.eventId ∧ Dict.get? r.dict "modification_number" = int? r.modification ∧
    Dict.get? r.dict "targets" = r.targets.map (fun l => .list ((l.map EventTargetP.dict).map .dict)) ∧
    Dict.get? r.dict "signal_target_mrid" = text? r.signalTarget ∧ Dict.get? r.dict "market_context" = text? r.marketContext := by
  simp [OptP.dict, Dict.get?_append, Dict.get?_entry?, Dict.get?]

/-- The parts before the targets. -/
theorem carries_optHead (sound : lib.Sound) {r : OptP} (h : r.Good lib) (n : Nat) :
    CarriesAll lib (n + 20) r.dict [
      leaf "ei:optID" ["opt_id"], leaf "ei:optType" ["opt_type"], leaf "ei:optReason" ["opt_reason"],
      ifGiven ["market_context"] [leaf "emix:marketContext" ["market_context"]],
      leaf "ei:venID" ["ven_id"],
      ifGiven ["vavailability"] [
        el "xcal:vavailability" [el "xcal:components" [
          .loop "component" ["vavailability", "components"] [
            el "xcal:available" [el "xcal:properties" [
              el "xcal:dtstart" [leaf "xcal:date-time" ["component", "dtstart"] .datetimeformat],
              el "xcal:duration" [leaf "xcal:duration" ["component", "duration"] .timedeltaformat]]]]]]],
      leaf "ei:createdDateTime" ["created_date_time"] .datetimeformat,
      requestId ["request_id"],
      ifGiven ["event_id"] [el "ei:qualifiedEventID" [leaf "ei:eventID" ["event_id"], leaf "ei:modificationNumber" ["modification_number"]]]]
    [("optID", ["opt_id"]), ("optType", ["opt_type"]), ("optReason", ["opt_reason"]), ("marketContext", ["market_context"]), ("venID", ["ven_id"]),
      ("vavailability", ["vavailability"]), ("createdDateTime", ["created_date_time"]), ("requestID", ["request_id"]),
      ("qualifiedEventID", ["event_id", "modification_number"])]
    [[("opt_id", .str r.optId)], [("opt_type", .str r.optType)], [("opt_reason", .str r.reason)], entry? "market_context" (text? r.marketContext),
      [("ven_id", .str r.venId)], entry? "vavailability" (r.availability.map (fun l => .dict [("components", periodsReceived l)])),
      [("created_date_time", .datetime r.created)], [("request_id", .str r.requestId)],
      entry? "event_id" (text? r.eventId) ++ (if r.eventId = none then [] else entry? "modification_number" (int? r.modification))] := by
  obtain ⟨l1, l2, l3, -, -, l6⟩ := r.lookups
  refine .cons (carries_text "optID" "opt_id" (by lkd [OptP.dict]) h.optId)
    (.cons (carries_text "optType" "opt_type" (by lkd [OptP.dict]) h.optType)
    (.cons (carries_text "optReason" "opt_reason" (by lkd [OptP.dict]) h.reason)
    (.cons (carries_text? "marketContext" "market_context" (by simp [lookup, walk, l6]) h.marketContext)
    (.cons (carries_text "venID" "ven_id" (by lkd [OptP.dict]) h.venId)
    (.cons ?_
    (.cons (carries_date "createdDateTime" "created_date_time" (by lkd [OptP.dict]) h.created)
    (.cons (carries_text "requestID" "request_id" (by lkd [OptP.dict]) h.requestId)
    (.cons ?_ .nil))))))))
  · cases ha : r.availability with
    | none => exact carries_skip _ _ (surely_given (v := none) (by simp [lookup, walk, l1, ha]) (by simp))
    | some ps =>
      simp only [Option.map_some, entry?]
      exact carries_yes (surely_given (v := some (.dict [("components", .list ((ps.map PeriodP.dict).map .dict))])) (by simp [lookup, walk, l1, ha])
        (by simp)) (carries_availability (n := n + 15) (h.availability ps ha) (by simp [lookup, walk, l1, ha, attrOf, Dict.get?]))
  · cases he : r.eventId with
    | none =>
      simp only [text?, Option.map_none, entry?, if_true, List.append_nil]
      exact carries_skip _ _ (surely_given (v := none) (by simp [lookup, walk, l2, he, text?]) (by simp))
    | some e =>
      obtain ⟨m, hm⟩ := Option.ne_none_iff_exists'.1 (h.modification (by simp [he]))
      simp only [text?, Option.map_some, entry?, int?, hm, reduceCtorEq, if_false, List.singleton_append]
      exact carries_yes (surely_given (v := some (.str e)) (by simp [lookup, walk, l2, he, text?]) (by simp))
        (carries_qualified (n := n + 19) sound (by simp [lookup, walk, l2, he, text?]) (h.eventId e he) (by simp [lookup, walk, l3, hm, int?]))

/-- The part after the targets. -/
theorem carries_optTail {r : OptP} (h : r.Good lib) (n : Nat) :
    CarriesAll lib (n + 20) r.dict [
      ifGiven ["signal_target_mrid"] [el "oadr:oadrDeviceClass" [el "power:endDeviceAsset" [leaf "power:mrid" ["signal_target_mrid"]]]]]
      [("oadrDeviceClass", ["device_class"])]
      [entry? "device_class" (r.signalTarget.map (fun s => .dict [("end_device_asset", .dict [("mrid", .str s)])]))] := by
  obtain ⟨-, -, -, -, l5, -⟩ := r.lookups
  refine .cons ?_ .nil
  cases hs : r.signalTarget with
  | none => exact carries_skip _ _ (surely_given (v := none) (by simp [lookup, walk, l5, hs, text?]) (by simp))
  | some s =>
    refine carries_yes (surely_given (v := some (.str s)) (by simp [lookup, walk, l5, hs, text?]) (by simp))
      (carries_single "device_class" (inside_elem (n := n + 19) (.cons (carries_single (key := "endDeviceAsset") "end_device_asset"
        (k := "mrid") (x := .str s)
        (inside_elem (n := n + 18) (.cons (carries_text "mrid" "mrid" (by simp [lookup, walk, l5, hs, text?]) (h.signalTarget s hs)) .nil) (by simp) (by simp)))
        .nil) rfl (by simp)))

/-- **C67** for oadrCreateOpt: what is received of it, if it has at most one target. -/
theorem c67_create_opt_arrives (sound : lib.Sound) {r : OptP} (h : r.Good lib) (h1 : r.meantTargets.length ≤ 1) :
    Arrives lib now "oadrCreateOpt" r.dict r.received := by
  obtain ⟨-, -, -, l4, -, -⟩ := r.lookups
  have app : ∀ (n : Nat) (ts ts' : List Tmpl) (ns ns' : List (String × List String)) (os os' : List Dict), CarriesAll lib n r.dict ts ns os →
      CarriesAll lib n r.dict ts' ns' os' → CarriesAll lib n r.dict (ts ++ ts') (ns ++ ns') (os ++ os') := by
    intro n ts ts' ns ns' os os' ha hb
    induction ha with
    | nil => exact hb
    | cons h _ ih => exact .cons h ih
  exact arrives_of (by rfl) (fun n => app _ _ _ _ _ _ _ (carries_optHead sound h n)
    (.cons (carries_optTargets (n := n + 19) h.targets h1 (by simp [lookup, walk, l4])) (carries_optTail h n)))
    (by simp [OptP.received, OptP.meantTargets]) (by simp [OptP.received])

/-- **C67, refuted** for oadrCreateOpt with two or more targets: the VTN cannot read such a message. -/
theorem c67_create_opt_violated (sound : lib.Sound) {r : OptP} (h : r.Good lib) (h2 : 2 ≤ r.meantTargets.length) (p : Dict)
    (hc : Conforms (.dict p) (.dict r.dict)) : Refused lib now "oadrCreateOpt" p .typeError := by
  obtain ⟨-, -, -, l4, -, -⟩ := r.lookups
  obtain ⟨ts, hts⟩ : ∃ ts, r.targets = some ts := by
    cases ht : r.targets with
    | none => simp [OptP.meantTargets, ht] at h2
    | some ts => exact ⟨ts, rfl⟩
  simp only [OptP.meantTargets, hts, Option.getD_some] at h2
  have hl : lookup r.dict ["targets"] = .ok (r.targets.map (fun l => .list ((l.map EventTargetP.dict).map .dict))) := by simp [lookup, walk, l4]
  obtain ⟨vals, v1, v2, v3, v4⟩ := sure_severalTargets (lib := lib) (env := r.dict) ts (h.targets ts hts) 0
  have hs : sure lib r.dict optTargets = .ok (vals.map (.entry "eiTarget")) := by
    have hc := surely_optTargets hl
    have hne : (!(r.targets.getD []).isEmpty) = true := by
      rw [hts]
      cases ts <;> simp at h2 ⊢
    rw [hne] at hc
    rw [hts] at hl
    have hloop : sure lib r.dict (.loop "target" ["targets"] [tTarget]) = .ok (vals.map (.entry "eiTarget")) := by
      simp only [sure, hl, Option.map_some, v1]
    simp only [optTargets, sure, hc]
    rw [show sureAll lib r.dict [.loop "target" ["targets"] [tTarget]] = match sure lib r.dict (.loop "target" ["targets"] [tTarget]) with
      | .ok a => match sureAll lib r.dict [] with
        | .ok b => .ok (a ++ b)
        | .error e => .error e
      | .error e => .error e from rfl, hloop]
    simp [sureAll]
  have hwrap : wrapVals vals = some (.list vals) := by
    match vals, v2 with
    | [], e => simp at e; omega
    | [_], e => simp at e; omega
    | _ :: _ :: _, _ => rfl
  refine refused_part (before := _) (after := _) hc (by rfl) (carries_optHead sound h) hs v3 hwrap (carries_optTail h 0) (fun n acc => ?_)
  obtain ⟨l, t1, t2⟩ := v4 (n + 19)
  have hkey : normalizeKey "eiTarget" = "target" := by decide +kernel
  have hat : isAttribute "eiTarget" = false := by decide +kernel
  have hx : "x_ei_".toList.isPrefixOf "target".toList = false := by decide +kernel
  have hcur : currentOf (Dict.set acc "target" (.list l)) "target" = .list l := by simp [currentOf, Dict.get?_set_self]
  have htr : (Value.list l).truthy = true := by cases l <;> simp [Value.truthy] at t2 ⊢; omega
  simp only [stepEntry, hat, hkey, entryValue, t1, Except.map, Bool.false_eq_true, if_false, settle, renameEntry, hx, groupTargetEntry, if_true, hcur,
    newTargets, htr]

end Openleadr
