import Verif.Lemmas.Reports
import Verif.Props.PreflightMessages
/-!
Offers of reports.
-/
namespace Openleadr

variable {lib : Lib} {n : Nat} {env : Dict}

/-- An element with a fixed number. -/
theorem carries_zero (sound : lib.Sound) {name : String} (key key' : String) (hk : textKey key' = true := by decide +kernel)
    (hf : leafFacts name [] key key' = true := by decide +kernel) : Carries lib n env (el name [.text "0"]) key [key'] [(key', .int 0)] := by
  simp only [leafFacts, Bool.and_eq_true, decide_eq_true_eq, Bool.not_eq_true'] at hf
  obtain ⟨⟨⟨⟨f1, f2⟩, f3⟩, f4⟩, f5⟩ := hf
  have h0 : String.ofList (intText 0) = "0" := by decide +kernel
  have h1 : sure lib env (el name [.text "0"]) = .ok [.entry key (.str "0")] := by
    have hc : clean ['0'] = true := by decide +kernel
    have hs : strip ['0'] = ['0'] := by decide +kernel
    simp [el, sure, sureAll, sureKey, f1, hc, elementValue, f5, charsOf, childDict, closeValue, hs]
  have h2 : leafValue lib key' (.str "0") = .ok (.int 0) := by
    rw [leafValue_text lib key' _ hk, if_neg (by decide), ← h0, plainText_int sound]
  exact carries_one _ h1 (by simp) (appends_leaf lib _ key key' _ (.int 0) f2 f3 f4 h2 (by simp) (by simp) (by simp) (by simp)) (by simp [Dict.keys])

/-- A report of oadrRegisterReport.xml. -/
def tOffer : Tmpl :=
  el "oadr:oadrReport" [
    ifGiven ["report", "duration"] [el "xcal:duration" [leaf "xcal:duration" ["report", "duration"] .timedeltaformat]],
    .cond (.both (.given ["report", "report_id"]) (.neg (.startsWith ["report", "report_name"] "METADATA")))
      [leaf "ei:eiReportID" ["report", "report_id"]] [],
    .loop "report_description" ["report", "report_descriptions"] [tReportDescription],
    .cond (.given ["report", "report_request_id"]) [leaf "ei:reportRequestID" ["report", "report_request_id"]]
      [el "ei:reportRequestID" [.text "0"]],
    leaf "ei:reportSpecifierID" ["report", "report_specifier_id"],
    leaf "ei:reportName" ["report", "report_name"],
    leaf "ei:createdDateTime" ["report", "created_date_time"] .datetimeformat] [("xmlns:xcal", nsXcal), ("xmlns:strm", nsStrm)]

theorem inside_offer (sound : lib.Sound) {r : OfferP} (hr : r.Good lib) (hv : Dict.get? env "report" = some (.dict r.dict)) :
    Inside lib (n + 5) env tOffer "oadrReport" r.received := by
  have hn : lookup env ["report", "report_name"] = .ok (some (.str r.name)) := by lkd [hv, OfferP.dict]
  have hi : lookup env ["report", "report_id"] = .ok (text? r.reportId) := by lkd [hv, OfferP.dict]
  have hq : lookup env ["report", "report_request_id"] = .ok r.requestId := by lkd [hv, OfferP.dict]
  have hm : surely env (.neg (.startsWith ["report", "report_name"] "METADATA")) = .ok (!(Metadata r.name)) := by
    simp [surely, hn, Metadata, Except.map]
  refine inside_elem (.cons (carries_spanIn? "duration" "duration" (us := r.duration) (by lkd [hv, OfferP.dict]) hr.duration)
    (.cons (key := "eiReportID") (keys := ["report_id"]) (out := entry? "report_id" (if Metadata r.name then none else text? r.reportId)) ?_
    (.cons (carries_reportDescriptions (n := n + 1) sound (rs := r.descriptions) hr.descriptions (by lkd [hv, OfferP.dict]))
    (.cons (key := "reportRequestID") (keys := ["report_request_id"]) (out := [("report_request_id", r.requestId.getD (.int 0))]) ?_
    (.cons (carries_text "reportSpecifierID" "report_specifier_id" (s := r.specifierId) (by lkd [hv, OfferP.dict]) hr.specifierId)
    (.cons (carries_text "reportName" "report_name" (s := r.name) hn hr.name)
    (.cons (carries_date "createdDateTime" "created_date_time" (us := r.created) (by lkd [hv, OfferP.dict]) hr.created) .nil))))))) ?_ ?_
  · cases hx : r.reportId with
    | none =>
      rw [hx] at hi
      have : (if Metadata r.name = true then none else text? none) = none := by simp [text?]
      rw [this]
      refine carries_skip _ _ ?_
      have := surely_given hi (by simp [text?])
      rw [surely, this]
      rfl
    | some x =>
      rw [hx] at hi
      have h1 := surely_given hi (by simp [text?])
      cases hd : Metadata r.name with
      | true =>
        refine carries_skip _ _ ?_
        rw [surely, h1]
        simpa [hd, text?] using hm
      | false =>
        refine carries_yes ?_ (carries_text "eiReportID" "report_id" (s := x) hi (hr.reportId x hx))
        rw [surely, h1]
        simpa [hd, text?] using hm
  · cases hx : r.requestId with
    | none =>
      rw [hx] at hq
      exact carries_no (surely_given hq (by simp)) (carries_zero sound "reportRequestID" "report_request_id")
    | some x =>
      rw [hx] at hq
      rcases hr.requestId x hx with ⟨i, rfl⟩ | ⟨x, rfl, ho⟩
      · exact carries_yes (surely_given hq (by simp)) (carries_int sound "reportRequestID" "report_request_id" hq)
      · exact carries_yes (surely_given hq (by simp)) (carries_text "reportRequestID" "report_request_id" (s := x) hq ho)
  · simp [OfferP.received]
  · simp [OfferP.received]

theorem settled_offer (sound : lib.Sound) {r : OfferP} (h : r.Good lib) : Settled lib 4 r.received := by
  have h1 : Settles lib 3 ["duration", "report_id", "report_descriptions", "report_request_id", "report_specifier_id", "report_name", "created_date_time"]
      r.received := by
    simp only [OfferP.received, List.nil_append, List.cons_append, List.append_assoc]
    refine .opt (settled_span? 3) (.opt (fun x hx => ?_) (.opt (settled_dicts? (fun d hd => ?_)) (.cons ?_
      (.cons (settled_text 3 h.specifierId) (.cons (settled_text 3 h.name) (.cons (settled_other 3 (by simp [isLeaf])) .nil))))))
    · split at hx
      · simp at hx
      · exact settled_text? (k := "report_id") 3 h.reportId (by decide +kernel) (by decide +kernel) x hx
    · obtain ⟨x, hx, hd⟩ := upToFirst_mem hd
      have hg := h.descriptions x hx
      rcases hd with rfl | hd
      · exact settled_rawDescription hg
      · exact settled_doneDescription sound hg _ hd
    · cases hr : r.requestId with
      | none => exact settled_other 3 (by simp [isLeaf])
      | some x =>
        rcases h.requestId x hr with ⟨i, rfl⟩ | ⟨x, rfl, ho⟩
        · exact settled_other 3 (by simp [isLeaf])
        · exact settled_text 3 ho
  exact settled_of h1

theorem carries_offers (sound : lib.Sound) {rs : List OfferP} (hr : ∀ r ∈ rs, r.Good lib)
    (hl : Dict.get? env "reports" = some (.list ((rs.map OfferP.dict).map .dict))) :
    Carries lib (n + 5) env (.loop "report" ["reports"] [tOffer]) "oadrReport" ["reports"] (entry? "reports" (dicts? (rs.map OfferP.received))) :=
  carries_collects "oadrReport" "report" "reports" (F := OfferP.dict) OfferP.received (by lkd [hl])
    (fun x hm i => inside_offer sound (hr x hm) (by simp [loopEnv, Dict.get?])) (fun x hm => settled_offer sound (hr x hm) _ (by omega))

/-! ### Preparation -/

/-- An offer that is left as it is when it is prepared. -/
structure OfferP.Ready (r : OfferP) : Prop where
  name : Metadata r.name = true ∨ r.name ∉ reportNames
  accepted : ∀ d ∈ r.descriptions, ∀ m, d.measurement = some m → validateMeasurement m.dict = (m.dict, .ok ())
  namespaces : ∀ d ∈ r.descriptions, ∀ m, d.measurement = some m → (m.name, m.ns) ∈ measurementNamespaces

theorem namespace_of {name ns : String} (h : (name, ns) ∈ measurementNamespaces) : Dict.get? measurementNamespaces name = some ns := by
  have hall : measurementNamespaces.all (fun e => decide (Dict.get? measurementNamespaces e.1 = some e.2)) = true := by decide +kernel
  rw [List.all_eq_true] at hall
  simpa using hall _ h

theorem eachOk_same {α : Type} {f : α → Res α} {l : List α} (h : ∀ x ∈ l, f x = .ok x) : eachOk f l = .ok l := by
  induction l with
  | nil => rfl
  | cons x l ih => simp [eachOk, h x (by simp), ih (fun y hy => h y (by simp [hy]))]

theorem forEach_same {f : Value → Res Value} {l : List Value} (h : ∀ x ∈ l, f x = .ok x) : forEach f (.list l) = .ok (.list l) := by
  simp [forEach, elements, eachOk_same h]

theorem modifyItem_same {d : Dict} {key : String} {v : Value} {f : Value → Res Value} (hg : Dict.get? d key = some v) (hf : f v = .ok v) :
    modifyItem (.dict d) key f = .ok (.dict d) := by
  simp [modifyItem, item, hg, hf, setItem, Dict.set_get?_self _ _ _ hg]

theorem onMeasurement_same {d : DescriptionP} {f : Value → Res Value} (h : ∀ m, d.measurement = some m → f (.dict m.dict) = .ok (.dict m.dict)) :
    onMeasurement f (.dict d.dict) = .ok (.dict d.dict) := by
  have hg : Dict.get? d.dict "measurement" = d.measurement.map (fun m => .dict m.dict) := by
    simp [DescriptionP.dict, Dict.get?, Dict.get?_append, Dict.get?_entry?]
  cases hm : d.measurement with
  | none =>
    rw [hm] at hg
    simp [onMeasurement, pyIn, Dict.has, hg]
  | some m =>
    rw [hm] at hg
    simp only [onMeasurement, pyIn, Dict.has, hg, Option.map_some, Option.isSome_some, item]
    simp [modifyItem_same hg (h m hm)]

theorem preflight_offer {r : OfferP} (h : r.Ready) : prepareReport (.dict r.dict) = .ok (.dict r.dict) := by
  have hn : Dict.get? r.dict "report_name" = some (.str r.name) := by
    simp [OfferP.dict, Dict.get?, Dict.get?_append, Dict.get?_entry?]
  have hd : Dict.get? r.dict "report_descriptions" = some (.list ((r.descriptions.map DescriptionP.dict).map .dict)) := by
    simp [OfferP.dict, Dict.get?, Dict.get?_append, Dict.get?_entry?]
  have h1 : metadataName (.dict r.dict) = .ok (.dict r.dict) := by
    simp only [metadataName, item, hn]
    rw [if_neg]
    simp only [Bool.and_eq_true, List.contains_eq_mem, decide_eq_true_eq, Bool.not_eq_true', not_and, Bool.not_eq_false]
    intro hmem
    rcases h.name with hname | hname
    · exact hname
    · exact absurd hmem hname
  have each : ∀ f : Value → Res Value, (∀ d ∈ r.descriptions, ∀ m, d.measurement = some m → f (.dict m.dict) = .ok (.dict m.dict)) →
      modifyItem (.dict r.dict) "report_descriptions" (forEach (onMeasurement f)) = .ok (.dict r.dict) := by
    intro f hf
    refine modifyItem_same hd (forEach_same (fun x hx => ?_))
    simp only [List.map_map, List.mem_map, Function.comp_apply] at hx
    obtain ⟨d, hm, rfl⟩ := hx
    exact onMeasurement_same (hf d hm)
  simp only [prepareReport, h1, each validateV (fun d hd m hm => by simp [validateV, h.accepted d hd m hm])]
  refine each setNamespace (fun d hd m hm => ?_)
  have hns := h.namespaces d hd m hm
  have hg : Dict.get? m.dict "ns" = some (.str m.ns) := by simp [MeasurementP.dict, Dict.get?]
  have hg' : Dict.get? m.dict "name" = some (.str m.name) := by simp [MeasurementP.dict, Dict.get?]
  simp [setNamespace, item, hg', namespace_of hns, setItem, Dict.set_get?_self _ _ _ hg]

theorem plainEntry_dicts (l : List Dict) : plainEntry (.list (l.map .dict)) = .list (l.map .dict) := by
  simp [plainEntry, Value.asPlain]

theorem preflight_offers {now : Int} {r : RegisterReportP} (h : ∀ x ∈ r.reports, x.Ready) :
    preflightMessage now "oadrRegisterReport" r.dict = .ok (.dict r.dict) := by
  have hp : r.dict.map (fun e => (e.1, plainEntry e.2)) = r.dict := by
    have : (text? r.venId).map plainEntry = text? r.venId := by cases r.venId <;> rfl
    cases hv : r.venId <;> simp [RegisterReportP.dict, entry?, text?, hv, plainEntry, Value.asPlain]
  have hg : Dict.get? r.dict "reports" = some (.list ((r.reports.map OfferP.dict).map .dict)) := by simp [RegisterReportP.dict, Dict.get?]
  simp only [preflightMessage, hp, preflightRegisterReport]
  simp only [show ("oadrRegisterReport" = "oadrDistributeEvent") = False by simp, if_false, if_true]
  refine modifyItem_same hg (forEach_same (fun x hx => ?_))
  simp only [List.map_map, List.mem_map, Function.comp_apply] at hx
  obtain ⟨d, hm, rfl⟩ := hx
  exact preflight_offer (h d hm)

end Openleadr
