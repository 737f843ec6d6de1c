import Verif.Lemmas.Offers
/-!
C67 for messages with reports.
-/
namespace Openleadr

variable {lib : Lib} {now : Int}

/-- **C67** for oadrUpdateReport: exactly what is received. All values are received as floats, a report without an id is received with the id `None`,
    empty lists are not received, and neither are the duration and the collection mode of a report. -/
theorem c67_update_report_arrives (sound : lib.Sound) {r : UpdateReportP} (h : r.Good lib) : Arrives lib now "oadrUpdateReport" r.dict r.received :=
  arrives_of (by rfl) (fun n => .cons (carries_text "requestID" "request_id" (by lkd [UpdateReportP.dict]) h.requestId)
    (.cons (carries_reportValues (n := n + 15) sound h.reports (by lkd [UpdateReportP.dict]))
    (.cons (carries_text? "venID" "ven_id" (by lkd [UpdateReportP.dict]) h.venId) .nil))) (by simp [UpdateReportP.received]) (by simp [UpdateReportP.received])

/-- Nothing of a report gets lost: its id is given, its values are floats, it has no empty list of values, no descriptions, and nothing that is not sent. -/
structure ReportP.Plain (r : ReportP) : Prop where
  reportId : r.reportId ≠ none
  nonempty : r.readings ≠ some []
  floats : ∀ l, r.readings = some l → ∀ x ∈ l, x.number = .float x.value
  descriptions : r.descriptions = none
  duration : r.duration = none
  mode : r.mode = none

theorem ReportP.Plain.same {r : ReportP} (h : r.Plain) : r.received = r.dict := by
  obtain ⟨x, hx⟩ := Option.ne_none_iff_exists'.mp h.reportId
  have e : dicts? ((r.readings.getD []).map ReadingP.received) = r.readings.map (fun l => .list ((l.map ReadingP.dict).map .dict)) := by
    cases hr : r.readings with
    | none => simp [dicts?]
    | some l =>
      have hne : l ≠ [] := fun e => h.nonempty (by rw [hr, e])
      have : l.map ReadingP.received = l.map ReadingP.dict := List.map_congr_left (fun x hm => by
        simp [ReadingP.received, ReadingP.dict, h.floats l hr x hm])
      simp [dicts?, this, hne]
  have e' : dicts? [] = none := rfl
  rw [ReportP.received, e]
  simp [ReportP.dict, h.descriptions, h.duration, h.mode, hx, upToFirst, e', text?, entry?]

/-- **C67** for oadrUpdateReport. -/
theorem c67_update_report (sound : lib.Sound) {r : UpdateReportP} (h : r.Good lib) (hne : r.reports ≠ []) (hp : ∀ x ∈ r.reports, x.Plain) :
    Survives lib now "oadrUpdateReport" r.dict := by
  have := c67_update_report_arrives (now := now) sound h
  have e : r.received = r.dict := by
    have : r.reports.map ReportP.received = r.reports.map ReportP.dict := List.map_congr_left (fun x hm => (hp x hm).same)
    simp [UpdateReportP.received, UpdateReportP.dict, this, dicts?, hne, entry?]
  rwa [e] at this

/-- **C67** for oadrRegisterReport: exactly what is received of a message that can be prepared. The id of a report with a name of metadata is not
    received, a missing id of the request is received as zero, and a description is received without the parts of its subject and source of data
    that are not sent, with its measurement under the name of the measurement if a description before it has none. -/
theorem c67_register_report_arrives (sound : lib.Sound) {r : RegisterReportP} (h : r.Good lib) (p sent : Dict)
    (hp : preflightMessage now "oadrRegisterReport" p = .ok (.dict sent)) (hc : Conforms (.dict sent) (.dict r.dict)) :
    Received lib now "oadrRegisterReport" p r.received :=
  received_of sent hp hc (by rfl) (template_ok "oadrRegisterReport" _ (by rfl)) (fun n => inside_elem
    (.cons (carries_text "requestID" "request_id" (by lkd [RegisterReportP.dict]) h.requestId)
    (.cons (carries_offers (n := n + 15) sound h.reports (by lkd [RegisterReportP.dict]))
    (.cons (carries_text? "venID" "ven_id" (by lkd [RegisterReportP.dict]) h.venId) .nil))) (by simp [RegisterReportP.received]) (by simp [RegisterReportP.received]))
    (by decide +kernel)

/-- **C67** for oadrRegisterReport: exactly what is received of offers that are left as they are when they are prepared. -/
theorem c67_ready_report_arrives (sound : lib.Sound) {r : RegisterReportP} (h : r.Good lib) (hr : ∀ x ∈ r.reports, x.Ready) :
    Received lib now "oadrRegisterReport" r.dict r.received :=
  c67_register_report_arrives sound h r.dict r.dict (preflight_offers hr) (.same _)

/-- Nothing of an offer gets lost. -/
structure OfferP.Plain (r : OfferP) : Prop where
  reportId : r.reportId = none ∨ Metadata r.name = false
  requestId : r.requestId ≠ none
  nonempty : r.descriptions ≠ []
  descriptions : ∀ d ∈ r.descriptions, d.subject = none ∧ d.source = none ∧ d.measurement = none
  start : r.start = none
  intervals : r.intervals = none
  mode : r.mode = none

theorem OfferP.Plain.same {r : OfferP} (h : r.Plain) : r.received = r.dict := by
  obtain ⟨x, hx⟩ := Option.ne_none_iff_exists'.mp h.requestId
  have e1 : (if Metadata r.name = true then none else text? r.reportId) = text? r.reportId := by
    rcases h.reportId with e | e <;> simp [e, text?]
  have e2 : upToFirst DescriptionP.raw DescriptionP.done r.descriptions = r.descriptions.map DescriptionP.dict := by
    have hd := h.descriptions
    match hl : r.descriptions with
    | [] => exact absurd hl h.nonempty
    | d :: l =>
      rw [hl] at hd
      have h1 : DescriptionP.done d = none := by simp [DescriptionP.done, (hd d (by simp)).2.2]
      simp only [upToFirst, h1]
      refine List.map_congr_left (fun x hm => ?_)
      obtain ⟨a, b, c⟩ := hd x hm
      simp [DescriptionP.raw, DescriptionP.before, DescriptionP.after, DescriptionP.dict, a, b, c, entry?]
  rw [OfferP.received, e1, e2]
  simp [OfferP.dict, dicts?, h.nonempty, h.start, h.intervals, h.mode, hx, text?, entry?]

/-- **C67** for oadrRegisterReport, for offers with descriptions that have no subject, source of data or measurement. -/
theorem c67_register_report_partial (sound : lib.Sound) {r : RegisterReportP} (h : r.Good lib) (hne : r.reports ≠ []) (hr : ∀ x ∈ r.reports, x.Ready)
    (hp : ∀ x ∈ r.reports, x.Plain) : Received lib now "oadrRegisterReport" r.dict r.dict := by
  have := c67_ready_report_arrives (now := now) sound h hr
  have e : r.received = r.dict := by
    have : r.reports.map OfferP.received = r.reports.map OfferP.dict := List.map_congr_left (fun x hm => (hp x hm).same)
    simp [RegisterReportP.received, RegisterReportP.dict, this, dicts?, hne, entry?]
  rwa [e] at this

end Openleadr
