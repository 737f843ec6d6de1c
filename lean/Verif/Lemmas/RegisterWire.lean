import Verif.Model.RegisterExchange
import Verif.Lemmas.ReportWire
import Verif.Props.VenOffers
import Verif.Props.ReportExchange
/-!
Offers of reports on the wire.
-/
namespace Openleadr
open Spec

variable {lib : Lib} {now : Int}

/-! ### What can be offered -/

/-- The name under which a report is offered (openleadr/preflight.py:48-50). -/
def offeredName (name : String) : String :=
  if reportNames.contains name && !("METADATA".toList.isPrefixOf name.toList) then "METADATA_" ++ name else name

/-- A measurement that can be offered: one of the standard with its description and one of its units, or a custom one, with a unit and a scale. -/
structure Measurement.Offerable (lib : Lib) (m : Measurement) : Prop where
  ns : (m.name, m.ns) ∈ measurementNamespaces
  accepted : m.name = "customUnit" ∨ (Dict.get? measurementDescriptions m.name = some m.description ∧
    ∃ units u, Dict.get? acceptableUnits m.name = some units ∧ m.unit = some u ∧ u ∈ units)
  description : Ordinary lib m.description
  unit : ∃ u, m.unit = some u ∧ Ordinary lib u
  scale : ∃ x, m.scale = some x ∧ Ordinary lib x
  pulse : m.pulseFactor = none
  power : mentionsPower m.name = true → m.power ≠ none

/-- The measurement of a data point. -/
def VenPoint.measured (heap : List Measurement) (p : VenPoint) : Option Measurement := p.measurement.bind (fun i => heap[i]?)

/-- A data point that can be offered: its texts are read as texts, and its durations can be written. -/
structure VenPoint.Offerable (lib : Lib) (heap : List Measurement) (a : Along) (p : VenPoint) : Prop where
  rId : ∃ r, p.rId = .str r ∧ Ordinary lib r
  resource : ∀ x, p.resourceId = some x → Ordinary lib x
  readingType : Ordinary lib p.readingType
  reportType : Ordinary lib p.reportType
  market : ∀ x, a.market p = some x → Ordinary lib x
  minPeriod : Spans p.rate.minPeriod
  maxPeriod : Spans p.rate.maxPeriod
  measurement : ∀ m, p.measured heap = some m → m.Offerable lib

/-- A report that can be offered. Its data points all have a measurement, or none of them has. -/
structure VenReport.Offerable (lib : Lib) (heap : List Measurement) (a : Along) (r : VenReport) : Prop where
  specifierId : Ordinary lib r.specifierId
  name : Ordinary lib (offeredName r.name)
  duration : ∀ d, a.duration r = some d → Spans d
  some : r.points ≠ []
  points : ∀ p ∈ r.points, p.Offerable lib heap a
  alike : (∀ p ∈ r.points, p.measured heap ≠ none) ∨ (∀ p ∈ r.points, p.measured heap = none)

/-! ### What is put before the VTN -/

/-- The data of a point, as it was offered. -/
def VenPoint.offered (heap : List Measurement) (p : VenPoint) : OfferedPoint :=
  { rId := p.rId
    readingType := some (.str p.readingType)
    measurement := (p.measured heap).map (fun m => (.str m.description, .str (m.unit.getD ""), .str (m.scale.getD "")))
    samplingRate := some (.timedelta p.rate.minPeriod, .timedelta p.rate.maxPeriod)
    resourceId := textOrNone p.resourceId
    noSource := p.resourceId.isNone }

/-- A report, as it was offered. -/
def VenReport.offered (heap : List Measurement) (r : VenReport) : OfferedReport :=
  ⟨offeredName r.name, .str r.specifierId, r.points.map (VenPoint.offered heap), false⟩

/-! ### On the wire -/

def wireMeasurement (m : Measurement) : MeasurementP :=
  ⟨m.name, m.ns, m.description, m.unit.getD "", .scale (m.scale.getD ""), m.power.map (fun p => ⟨p.1, p.2.1, p.2.2⟩), some (.list (m.acceptable.map .str))⟩

def wireTarget (resource : Option String) : TargetP := ⟨none, none, none, resource, none, none, []⟩

def wirePoint (heap : List Measurement) (a : Along) (p : VenPoint) : DescriptionP :=
  ⟨(p.rId.text?).getD "", some (wireTarget p.resourceId), some (wireTarget p.resourceId), p.reportType, (p.measured heap).map wireMeasurement, p.readingType,
    a.market p, some ⟨p.rate.minPeriod, p.rate.maxPeriod, a.onChange p⟩⟩

def wireOffer (heap : List Measurement) (a : Along) (r : VenReport) : OfferP :=
  ⟨a.duration r, none, r.points.map (wirePoint heap a), some (.int 0), r.specifierId, offeredName r.name, a.created, (a.start r).map .datetime, none,
    some (.str (if r.full then "full" else "incremental"))⟩

def wireOffers (ven requestId : String) (heap : List Measurement) (a : Along) (rs : List VenReport) : RegisterReportP :=
  ⟨requestId, rs.map (wireOffer heap a), some ven⟩

/-! ### Preparation -/

/-- The dict of a measurement (`asdict`). -/
def plainMeasurement (m : Measurement) : Dict :=
  [("name", .str m.name), ("description", .str m.description), ("unit", textOrNone m.unit), ("acceptable_units", .list (m.acceptable.map .str)),
    ("scale", textOrNone m.scale), ("power_attributes", orNone (m.power.map (fun p => .dict [("hertz", .int p.1), ("voltage", .int p.2.1), ("ac", .bool p.2.2)]))),
    ("pulse_factor", orNone (m.pulseFactor.map .int)), ("ns", .str m.ns)]

def plainTarget (resource : Option String) : Dict :=
  [("aggregated_p_node", .none), ("end_device_asset", .none), ("meter_asset", .none), ("p_node", .none), ("service_area", .none),
    ("service_delivery_point", .none), ("service_location", .none), ("transport_interface", .none), ("group_id", .none), ("group_name", .none),
    ("resource_id", textOrNone resource), ("ven_id", .none), ("party_id", .none)]

def plainPoint (heap : List Measurement) (a : Along) (p : VenPoint) : Dict :=
  [("r_id", p.rId), ("market_context", textOrNone (a.market p)), ("reading_type", .str p.readingType), ("report_subject", .dict (plainTarget p.resourceId)),
    ("report_data_source", .dict (plainTarget p.resourceId)), ("report_type", .str p.reportType),
    ("sampling_rate", .dict [("min_period", .timedelta p.rate.minPeriod), ("max_period", .timedelta p.rate.maxPeriod), ("on_change", .bool (a.onChange p))]),
    ("measurement", orNone ((p.measured heap).map (fun m => .dict (plainMeasurement m))))]

def plainReport (heap : List Measurement) (a : Along) (name : String) (r : VenReport) : Dict :=
  [("report_specifier_id", .str r.specifierId), ("report_name", .str name), ("report_request_id", .int 0),
    ("report_descriptions", .list ((r.points.map (plainPoint heap a)).map .dict)), ("created_date_time", .datetime a.created),
    ("dtstart", orNone ((a.start r).map .datetime)), ("duration", orNone ((a.duration r).map .timedelta)), ("intervals", .none),
    ("data_collection_mode", .str (if r.full then "full" else "incremental"))]

theorem plainList_maps {α : Type} (f : α → Value) (g : α → Value) (l : List α) (h : ∀ x ∈ l, (f x).plain = g x) : plainList (l.map f) = l.map g := by
  induction l with
  | nil => rfl
  | cons x l ih => simp [plainList, h x (by simp), ih (fun y hy => h y (by simp [hy]))]

theorem plain_measurement (m : Measurement) : m.object.plain = .dict (plainMeasurement m) := by
  have h1 : plainList (m.acceptable.map .str) = m.acceptable.map .str := plainList_maps _ _ _ (fun x _ => by simp [Value.plain])
  have h2 : (orNone (m.power.map (fun p => .obj "PowerAttributes" [("hertz", .int p.1), ("voltage", .int p.2.1), ("ac", .bool p.2.2)]))).plain =
      orNone (m.power.map (fun p => .dict [("hertz", .int p.1), ("voltage", .int p.2.1), ("ac", .bool p.2.2)])) := by
    cases m.power <;> simp [orNone, Value.plain, plainDict]
  have h3 : (orNone (m.pulseFactor.map .int)).plain = orNone (m.pulseFactor.map .int) := by cases m.pulseFactor <;> simp [orNone, Value.plain]
  simp [Measurement.object, Value.plain, plainDict, plainMeasurement, plain_textOrNone, h1, h2, h3]

theorem plain_target (resource : Option String) : (targetObject resource).plain = .dict (plainTarget resource) := by
  simp [targetObject, plainTarget, Value.plain, plainDict, plain_textOrNone]

theorem plain_point {heap : List Measurement} {a : Along} {p : VenPoint} (h : p.Offerable lib heap a) :
    (p.object heap a).plain = .dict (plainPoint heap a p) := by
  obtain ⟨r, hr, -⟩ := h.rId
  have h1 : (orNone ((p.measured heap).map Measurement.object)).plain = orNone ((p.measured heap).map (fun m => .dict (plainMeasurement m))) := by
    cases p.measured heap <;> simp [orNone, Value.plain, plain_measurement]
  have h2 : p.measurement.bind (fun i => heap[i]?) = p.measured heap := rfl
  simp [VenPoint.object, Value.plain, plainDict, plainPoint, plain_textOrNone, plain_target, h1, h2, hr]

theorem plain_report {heap : List Measurement} {a : Along} {r : VenReport} (h : r.Offerable lib heap a) :
    (r.object heap a).plain = .dict (plainReport heap a r.name r) := by
  have h1 : plainList (r.points.map (VenPoint.object heap a)) = (r.points.map (plainPoint heap a)).map .dict := by
    rw [List.map_map]
    exact plainList_maps _ _ _ (fun p hp => plain_point (h.points p hp))
  have h2 : (orNone ((a.start r).map .datetime)).plain = orNone ((a.start r).map .datetime) := by cases a.start r <;> simp [orNone, Value.plain]
  have h3 : (orNone ((a.duration r).map .timedelta)).plain = orNone ((a.duration r).map .timedelta) := by cases a.duration r <;> simp [orNone, Value.plain]
  simp [VenReport.object, Value.plain, plainDict, plainReport, h1, h2, h3]

/-- A measurement that can be offered is accepted as it is. -/
theorem accepted_measurement {m : Measurement} (h : m.Offerable lib) : validateMeasurement (plainMeasurement m) = (plainMeasurement m, .ok ()) := by
  obtain ⟨u, hu, -⟩ := h.unit
  have g1 : Dict.get? (plainMeasurement m) "name" = some (.str m.name) := by simp [plainMeasurement, Dict.get?]
  have g2 : Dict.get? (plainMeasurement m) "description" = some (.str m.description) := by simp [plainMeasurement, Dict.get?]
  have g3 : Dict.get? (plainMeasurement m) "unit" = some (.str u) := by simp [plainMeasurement, Dict.get?, hu, textOrNone]
  have hn : checkNamed m.name (.str m.description) (.str u) (plainMeasurement m) = (plainMeasurement m, .ok ()) := by
    rcases h.accepted with hc | ⟨h1, units, u', h2, h3, h4⟩
    · have : Dict.get? measurementDescriptions m.name = none := by rw [hc]; decide +kernel
      simp only [checkNamed, this, if_pos hc]
    · rw [hu] at h3
      cases h3
      simp [checkNamed, h1, h2, h4]
  have hp : checkPower m.name (plainMeasurement m) = .ok () := by
    unfold checkPower
    cases hm : mentionsPower m.name with
    | false => simp
    | true =>
      obtain ⟨p, hp⟩ := Option.ne_none_iff_exists'.mp (h.power hm)
      have g4 : Dict.get? (plainMeasurement m) "power_attributes" = some (.dict [("hertz", .int p.1), ("voltage", .int p.2.1), ("ac", .bool p.2.2)]) := by
        simp [plainMeasurement, Dict.get?, hp, orNone]
      simp [g4, pyIn, Dict.has, Dict.get?]
  simp [validateMeasurement, g1, g2, g3, hn, hp]

theorem namespaced_measurement {m : Measurement} (h : m.Offerable lib) : setNamespace (.dict (plainMeasurement m)) = .ok (.dict (plainMeasurement m)) := by
  have g1 : Dict.get? (plainMeasurement m) "name" = some (.str m.name) := by simp [plainMeasurement, Dict.get?]
  have g2 : Dict.get? (plainMeasurement m) "ns" = some (.str m.ns) := by simp [plainMeasurement, Dict.get?]
  simp [setNamespace, item, g1, namespace_of h.ns, setItem, Dict.set_get?_self _ _ _ g2]

theorem prepared_point {heap : List Measurement} {a : Along} {p : VenPoint} {f : Value → Res Value}
    (h : ∀ m, p.measured heap = some m → f (.dict (plainMeasurement m)) = .ok (.dict (plainMeasurement m))) :
    onMeasurement f (.dict (plainPoint heap a p)) = .ok (.dict (plainPoint heap a p)) := by
  have hg : Dict.get? (plainPoint heap a p) "measurement" = some (orNone ((p.measured heap).map (fun m => .dict (plainMeasurement m)))) := by
    simp [plainPoint, Dict.get?]
  cases hm : p.measured heap with
  | none =>
    rw [hm] at hg
    simp [onMeasurement, pyIn, Dict.has, hg, item, orNone]
  | some m =>
    rw [hm] at hg
    simp only [Option.map_some, orNone, Option.getD_some] at hg
    simp [onMeasurement, pyIn, Dict.has, hg, item, modifyItem_same hg (h m hm)]

theorem prepared_report {heap : List Measurement} {a : Along} {r : VenReport} (h : r.Offerable lib heap a) :
    prepareReport (.dict (plainReport heap a r.name r)) = .ok (.dict (plainReport heap a (offeredName r.name) r)) := by
  have h1 : metadataName (.dict (plainReport heap a r.name r)) = .ok (.dict (plainReport heap a (offeredName r.name) r)) := by
    have hn : Dict.get? (plainReport heap a r.name r) "report_name" = some (.str r.name) := by simp [plainReport, Dict.get?]
    simp only [metadataName, item, hn, offeredName]
    split
    · simp [setItem, plainReport, Dict.set]
    · rfl
  have hd : Dict.get? (plainReport heap a (offeredName r.name) r) "report_descriptions" = some (.list ((r.points.map (plainPoint heap a)).map .dict)) := by
    simp [plainReport, Dict.get?]
  have each : ∀ f : Value → Res Value, (∀ p ∈ r.points, ∀ m, p.measured heap = some m → f (.dict (plainMeasurement m)) = .ok (.dict (plainMeasurement m))) →
      modifyItem (.dict (plainReport heap a (offeredName r.name) r)) "report_descriptions" (forEach (onMeasurement f)) =
        .ok (.dict (plainReport heap a (offeredName r.name) r)) := by
    intro f hf
    refine modifyItem_same hd (forEach_same (fun x hx => ?_))
    simp only [List.map_map, List.mem_map, Function.comp_apply] at hx
    obtain ⟨p, hp, rfl⟩ := hx
    exact prepared_point (hf p hp)
  simp only [prepareReport, h1, each validateV (fun p hp m hm => by simp [validateV, accepted_measurement ((h.points p hp).measurement m hm)])]
  exact each setNamespace (fun p hp m hm => namespaced_measurement ((h.points p hp).measurement m hm))

theorem eachOk_map {α : Type} {β : Type} {f : β → Res β} {g g' : α → β} {l : List α} (h : ∀ x ∈ l, f (g x) = .ok (g' x)) : eachOk f (l.map g) = .ok (l.map g') := by
  induction l with
  | nil => rfl
  | cons x l ih => simp [eachOk, h x (by simp), ih (fun y hy => h y (by simp [hy]))]

/-- What is prepared of the message. -/
theorem prepared_message {heap : List Measurement} {a : Along} {rs : List VenReport} (h : ∀ r ∈ rs, r.Offerable lib heap a) (ven rid : String) (rest : Dict)
    (hrest : rest = [] ∨ rest = [("report_request_id", .int 0)]) :
    preflightMessage now "oadrRegisterReport" ([("request_id", .str rid), ("ven_id", .str ven), ("reports", .list (rs.map (VenReport.object heap a)))] ++ rest) =
      .ok (.dict ([("request_id", .str rid), ("ven_id", .str ven),
        ("reports", .list ((rs.map (fun r => plainReport heap a (offeredName r.name) r)).map .dict))] ++ rest)) := by
  have hp : (rs.map (VenReport.object heap a)).map Value.asPlain = rs.map (fun r => .dict (plainReport heap a r.name r)) := by
    rw [List.map_map]
    exact List.map_congr_left (fun r hr => plain_report (h r hr))
  have he : forEach prepareReport (.list (rs.map (fun r => .dict (plainReport heap a r.name r)))) =
      .ok (.list ((rs.map (fun r => plainReport heap a (offeredName r.name) r)).map .dict)) := by
    rw [List.map_map]
    simp only [forEach, elements]
    rw [eachOk_map (g' := fun r => .dict (plainReport heap a (offeredName r.name) r)) (fun r hr => prepared_report (h r hr))]
    rfl
  rcases hrest with rfl | rfl <;>
    simp [preflightMessage, preflightRegisterReport, plainEntry, hp, Value.asPlain, modifyItem, item, Dict.get?, he, setItem, Dict.set]

/-! ### What is sent -/

theorem conforms_wireMeasurement {m : Measurement} (h : m.Offerable lib) : Conforms (.dict (plainMeasurement m)) (.dict (wireMeasurement m).dict) := by
  obtain ⟨u, hu, -⟩ := h.unit
  obtain ⟨sc, hs, -⟩ := h.scale
  refine conforms_entries (ks := ["name", "description", "unit", "acceptable_units", "scale", "power_attributes", "pulse_factor", "ns"]) rfl (by decide)
    (within_append (within_append (within_cons (within_cons (within_cons (within_cons (within_cons (within_nil _)))))) within_entry) within_entry) ?_
  have hp : Accounted (wireMeasurement m).dict ("power_attributes", orNone (m.power.map (fun p => .dict [("hertz", .int p.1), ("voltage", .int p.2.1), ("ac", .bool p.2.2)]))) := by
    refine accounted_as ?_
    cases hm : m.power <;>
      simp [wireMeasurement, MeasurementP.dict, SizeP.entry, PowerP.dict, Dict.get?, Dict.get?_append, Dict.get?_entry?, hm]
  refine all_cons (accounted_as (v := some _) ?_) (all_cons (accounted_as (v := some _) ?_) (all_cons (accounted_text ?_) (all_cons (accounted_as (v := some _) ?_)
    (all_cons (accounted_text ?_) (all_cons hp (all_cons (accounted_as ?_) (all_cons (accounted_as (v := some _) ?_) all_nil))))))) <;>
    simp [wireMeasurement, MeasurementP.dict, SizeP.entry, Dict.get?, Dict.get?_append, Dict.get?_entry?, hu, hs, text?, h.pulse]

theorem conforms_wireTarget (resource : Option String) : Conforms (.dict (plainTarget resource)) (.dict (wireTarget resource).dict) := by
  refine conforms_entries (ks := ["aggregated_p_node", "end_device_asset", "meter_asset", "p_node", "service_area", "service_delivery_point", "service_location",
    "transport_interface", "group_id", "group_name", "resource_id", "ven_id", "party_id"]) rfl (by decide) ?_ ?_
  · exact within_append (within_append (within_append (within_append (within_append (within_append (within_cons (within_nil _)) within_entry) within_entry) within_entry)
      within_entry) within_entry) (within_nil _)
  · refine all_cons (.inr ⟨?_, rfl, by decide⟩) (all_cons (.inl ⟨.none, ?_, .same _⟩) (all_cons (.inr ⟨?_, rfl, by decide⟩) (all_cons (.inr ⟨?_, rfl, by decide⟩)
      (all_cons (.inr ⟨?_, rfl, by decide⟩) (all_cons (.inr ⟨?_, rfl, by decide⟩) (all_cons (.inr ⟨?_, rfl, by decide⟩) (all_cons (.inr ⟨?_, rfl, by decide⟩)
      (all_cons (.inr ⟨?_, rfl, by decide⟩) (all_cons (.inr ⟨?_, rfl, by decide⟩) (all_cons (accounted_text ?_) (all_cons (.inr ⟨?_, rfl, by decide⟩)
      (all_cons (.inr ⟨?_, rfl, by decide⟩) all_nil)))))))))))) <;>
      simp [wireTarget, TargetP.dict, Dict.get?, Dict.get?_append, Dict.get?_entry?, text?]

theorem conforms_wirePoint {heap : List Measurement} {a : Along} {p : VenPoint} (h : p.Offerable lib heap a) :
    Conforms (.dict (plainPoint heap a p)) (.dict (wirePoint heap a p).dict) := by
  obtain ⟨r, hr, -⟩ := h.rId
  refine conforms_entries (ks := ["r_id", "market_context", "reading_type", "report_subject", "report_data_source", "report_type", "sampling_rate",
    "measurement"]) rfl (by decide) ?_ ?_
  · exact within_append (within_append (within_append (within_append (within_append (within_append (within_append (within_cons (within_nil _)) within_entry) within_entry)
      (within_cons (within_nil _))) within_entry) (within_cons (within_nil _))) within_entry) within_entry
  · have hm : Accounted (wirePoint heap a p).dict ("measurement", orNone ((p.measured heap).map (fun m => .dict (plainMeasurement m)))) := by
      cases hm : p.measured heap with
      | none =>
        refine .inr ⟨?_, rfl, by decide⟩
        simp [wirePoint, DescriptionP.dict, Dict.get?, Dict.get?_append, Dict.get?_entry?, hm]
      | some m =>
        refine .inl ⟨.dict (wireMeasurement m).dict, ?_, conforms_wireMeasurement (h.measurement m hm)⟩
        simp [wirePoint, DescriptionP.dict, Dict.get?, Dict.get?_append, Dict.get?_entry?, hm]
    refine all_cons (.inl ⟨_, ?_, .same _⟩) (all_cons (accounted_text ?_) (all_cons (accounted_as (v := some _) ?_) (all_cons (.inl ⟨_, ?_, conforms_wireTarget _⟩)
      (all_cons (.inl ⟨_, ?_, conforms_wireTarget _⟩) (all_cons (accounted_as (v := some _) ?_) (all_cons (accounted_as (v := some _) ?_) (all_cons hm all_nil))))))) <;>
      simp [wirePoint, DescriptionP.dict, SamplingP.dict, Dict.get?, Dict.get?_append, Dict.get?_entry?, hr, Value.text?]

theorem conforms_wireOffer {heap : List Measurement} {a : Along} {r : VenReport} (h : r.Offerable lib heap a) :
    Conforms (.dict (plainReport heap a (offeredName r.name) r)) (.dict (wireOffer heap a r).dict) := by
  refine conforms_entries (ks := ["report_specifier_id", "report_name", "report_request_id", "report_descriptions", "created_date_time", "dtstart", "duration",
    "intervals", "data_collection_mode"]) rfl (by decide) ?_ ?_
  · exact within_append (within_append (within_append (within_append (within_append (within_append (within_append within_entry (within_nil _)) (within_cons (within_nil _)))
      within_entry) (within_cons (within_cons (within_cons (within_nil _))))) within_entry) (within_nil _)) within_entry
  · have hl : Conforms (.list ((r.points.map (plainPoint heap a)).map .dict)) (.list (((r.points.map (wirePoint heap a)).map DescriptionP.dict).map .dict)) := by
      rw [List.map_map (g := DescriptionP.dict)]
      exact conforms_each (fun p hp => conforms_wirePoint (h.points p hp))
    refine all_cons (accounted_as (v := some _) ?_) (all_cons (accounted_as (v := some _) ?_) (all_cons (accounted_as (v := some _) ?_) (all_cons (.inl ⟨_, ?_, hl⟩)
      (all_cons (accounted_as (v := some _) ?_) (all_cons (accounted_as ?_) (all_cons (accounted_as ?_) (all_cons (.inr ⟨?_, rfl, by decide⟩)
      (all_cons (accounted_as (v := some _) ?_) all_nil)))))))) <;>
      simp [wireOffer, OfferP.dict, Dict.get?, Dict.get?_append, Dict.get?_entry?, entry_missing, text?, span?]

theorem good_wireOffer {heap : List Measurement} {a : Along} {r : VenReport} (hc : Datable a.created) (h : r.Offerable lib heap a) : (wireOffer heap a r).Good lib := by
  refine ⟨h.duration, by simp [wireOffer], ?_, ?_, h.specifierId, h.name, hc⟩
  · intro d hd
    simp only [wireOffer, List.mem_map] at hd
    obtain ⟨p, hp, rfl⟩ := hd
    have g := h.points p hp
    obtain ⟨x, hx, ho⟩ := g.rId
    have ht : (wireTarget p.resourceId).Good lib := by
      refine ⟨by simp [wireTarget], by simp [wireTarget], by simp [wireTarget], ?_, by simp [wireTarget], by simp [wireTarget], by simp [wireTarget, Dict.get?]⟩
      exact fun y hy => g.resource y hy
    refine ⟨by simpa [wirePoint, hx, Value.text?] using ho, ?_, ?_, g.reportType, ?_, g.readingType, g.market, ?_⟩
    · intro t htt
      simp only [wirePoint, Option.some.injEq] at htt
      exact htt ▸ ht
    · intro t htt
      simp only [wirePoint, Option.some.injEq] at htt
      exact htt ▸ ht
    · intro m hm
      simp only [wirePoint, Option.map_eq_some_iff] at hm
      obtain ⟨m', hm', rfl⟩ := hm
      have gm := g.measurement m' hm'
      obtain ⟨u, hu, hou⟩ := gm.unit
      obtain ⟨sc, hs, hos⟩ := gm.scale
      exact ⟨gm.ns, gm.description, by simpa [wireMeasurement, hu] using hou, by simpa [wireMeasurement, hs, SizeP.Good] using hos⟩
    · intro s hs
      simp only [wirePoint, Option.some.injEq] at hs
      subst hs
      exact ⟨g.minPeriod, g.maxPeriod⟩
  · intro x hx
    simp only [wireOffer, Option.some.injEq] at hx
    exact .inl ⟨0, hx.symm⟩

theorem good_wireOffers {heap : List Measurement} {a : Along} {rs : List VenReport} {ven rid : String} (hv : Ordinary lib ven)
    (hr : Ordinary lib rid) (hc : Datable a.created) (h : ∀ r ∈ rs, r.Offerable lib heap a) : (wireOffers ven rid heap a rs).Good lib := by
  refine ⟨hr, fun x hx => ?_, fun x hx => ?_⟩
  · simp only [wireOffers, List.mem_map] at hx
    obtain ⟨r, hm, rfl⟩ := hx
    exact good_wireOffer hc (h r hm)
  · simp only [wireOffers, Option.some.injEq] at hx
    exact hx ▸ hv

/-- What is prepared. -/
def plainOffers (ven rid : String) (heap : List Measurement) (a : Along) (rs : List VenReport) : Dict :=
  [("request_id", .str rid), ("ven_id", .str ven), ("reports", .list ((rs.map (fun r => plainReport heap a (offeredName r.name) r)).map .dict))]

theorem conforms_wireOffers {heap : List Measurement} {a : Along} {rs : List VenReport} (ven rid : String) (h : ∀ r ∈ rs, r.Offerable lib heap a) :
    Conforms (.dict (plainOffers ven rid heap a rs)) (.dict (wireOffers ven rid heap a rs).dict) := by
  have hl : Conforms (.list ((rs.map (fun r => plainReport heap a (offeredName r.name) r)).map .dict))
      (.list (((rs.map (wireOffer heap a)).map OfferP.dict).map .dict)) := by
    rw [List.map_map (g := OfferP.dict)]
    exact conforms_each (fun r hm => conforms_wireOffer (h r hm))
  refine conforms_entries (ks := ["request_id", "ven_id", "reports"]) rfl (by decide)
    (within_append (within_cons (within_cons (within_nil _))) within_entry) ?_
  refine all_cons (.inl ⟨_, ?_, .same _⟩) (all_cons (.inl ⟨_, ?_, .same _⟩) (all_cons (.inl ⟨_, ?_, hl⟩) all_nil)) <;>
    simp [wireOffers, RegisterReportP.dict, Dict.get?, Dict.get?_append, Dict.get?_entry?, text?]

theorem reads_registerReport : ∀ k ∈ tRegisterReport.reads, k ≠ "report_request_id" := by
  have hreads : tRegisterReport.reads.all (fun j => j != "report_request_id") = true := by decide +kernel
  intro k hk
  simpa using List.all_eq_true.mp hreads k hk

/-- The request id 0 that is sent along is not read. -/
theorem created_registerReport {p : Dict} {txt : Text} {pre : Dict} (h1 : preflightMessage now "oadrRegisterReport" p = .ok (.dict pre))
    {p' : Dict} (h2 : preflightMessage now "oadrRegisterReport" p' = .ok (.dict (pre ++ [("report_request_id", .int 0)])))
    (h : createMessage lib now "oadrRegisterReport" p = .ok txt) : createMessage lib now "oadrRegisterReport" p' = .ok txt := by
  have ht : Dict.get? templates "oadrRegisterReport" = some tRegisterReport := rfl
  simp only [createMessage, h1, h2, renderMessage, ht] at h ⊢
  rw [render_agree lib tRegisterReport _ pre (fun k hk => ?_)]
  · exact h
  · have hne := reads_registerReport k hk
    simp [Dict.get?_append, Dict.get?, Ne.symm hne]

/-- What the VTN receives of the offers of a VEN. -/
theorem offers_received {heap : List Measurement} {a : Along} {rs : List VenReport} {ven rid : String} (sound : lib.Sound) (hv : Ordinary lib ven)
    (hr : Ordinary lib rid) (hc : Datable a.created) (h : ∀ r ∈ rs, r.Offerable lib heap a) :
    Received lib now "oadrRegisterReport" (registerPayload (.str ven) rid heap a rs) (wireOffers ven rid heap a rs).received := by
  have p1 := prepared_message (now := now) h ven rid [] (.inl rfl)
  have p2 := prepared_message (now := now) h ven rid [("report_request_id", .int 0)] (.inr rfl)
  obtain ⟨txt, h2, h3⟩ := c67_register_report_arrives (now := now) sound (good_wireOffers hv hr hc h) _ _ p1 (conforms_wireOffers ven rid h)
  exact ⟨txt, created_registerReport p1 p2 h2, h3⟩

end Openleadr
