import Verif.Model.ReportExchange
import Verif.Props.EventRound
import Verif.Props.ReportMessages
import Verif.Props.ServerReports
/-!
Reports with values on the wire.
-/
namespace Openleadr
open Spec

variable {lib : Lib} {now : Int}

theorem entry_missing (k : String) : entry? k none = [] := rfl

/-- A value that can be sent: its data point has an ordinary id, and it is a number. -/
structure OutInterval.Sendable (lib : Lib) (i : OutInterval) : Prop where
  start : Datable i.dtstart
  rId : ∃ r, i.rId = .str r ∧ Ordinary lib r
  value : AsFloat lib i.value (floatOf lib i.value)
  duration : ∀ d, i.duration = some d → Spans d

/-- A report that can be sent: its ids are ordinary texts, and there are values. -/
structure OutReport.Sendable (lib : Lib) (o : OutReport) : Prop where
  requestId : ∃ q, o.requestId = .str q ∧ Ordinary lib q
  specifierId : Ordinary lib o.specifierId
  name : Ordinary lib o.name
  start : ∀ d, o.dtstart = some d → Datable d
  some : o.intervals ≠ []
  each : ∀ i ∈ o.intervals, i.Sendable lib

/-- A value on the wire. -/
def readingP (lib : Lib) (i : OutInterval) : ReadingP := ⟨i.dtstart, i.duration, (i.rId.text?).getD "", none, none, none, i.value, floatOf lib i.value⟩

/-- A report on the wire. -/
def reportP (lib : Lib) (created : Int) (o : OutReport) : ReportP :=
  ⟨o.dtstart, some (o.intervals.map (readingP lib)), none, some [], (o.requestId.text?).getD "", o.specifierId, some o.name, created, none,
    some (.str "incremental")⟩

/-- The message on the wire. -/
def updateP (lib : Lib) (ven requestId : String) (created : Int) (o : OutReport) : UpdateReportP := ⟨requestId, [reportP lib created o], some ven⟩

/-- An object is like the dict of its members. -/
theorem conforms_object {c : String} {f q : Dict} (h : Conforms (.dict f) (.dict q)) : Conforms (.obj c f) (.dict q) := by
  cases h with
  | same =>
    refine .members _ _ (.inr ⟨_, _, rfl⟩) (fun k y hy => ⟨y, hy⟩) (fun k x y hy hx => ?_) (fun k hk => .inl hk)
    have : Option.some x = Option.some y := by rw [← hx, ← hy]; rfl
    cases this
    exact .same _
  | members _ _ kind there each other => exact .members _ _ (.inr ⟨_, _, rfl⟩) there each other

theorem conforms_reading {i : OutInterval} (h : i.Sendable lib) : Conforms i.object (.dict (readingP lib i).dict) := by
  obtain ⟨r, hr, -⟩ := h.rId
  refine conforms_object (conforms_entries (ks := ["dtstart", "report_payload", "duration"]) rfl (by decide)
    (within_append (within_append (within_cons (within_nil _)) within_entry) (within_cons (within_nil _))) ?_)
  have hp : Conforms (.obj "ReportPayload" [("r_id", i.rId), ("value", i.value), ("confidence", .none), ("accuracy", .none)])
      (.dict [("r_id", .str r), ("value", i.value)]) := by
    refine conforms_object (conforms_entries (ks := ["r_id", "value", "confidence", "accuracy"]) rfl (by decide) (within_cons (within_cons (within_nil _))) ?_)
    refine all_cons (.inl ⟨_, ?_, .same _⟩) (all_cons (.inl ⟨_, ?_, .same _⟩) (all_cons (.inr ⟨?_, rfl, by decide⟩) (all_cons (.inr ⟨?_, rfl, by decide⟩) all_nil))) <;>
      simp [Dict.get?, hr]
  refine all_cons (accounted_as (v := some _) ?_) (all_cons (.inl ⟨_, ?_, hp⟩) (all_cons (accounted_as ?_) all_nil)) <;>
    simp [readingP, ReadingP.dict, Dict.get?, Dict.get?_append, Dict.get?_entry?, hr, Value.text?, entry_missing, int?, text?, span?]

theorem conforms_report {o : OutReport} (created : Int) (h : o.Sendable lib) : Conforms (o.object created) (.dict (reportP lib created o).dict) := by
  obtain ⟨q, hq, -⟩ := h.requestId
  refine conforms_object (conforms_entries (ks := ["report_specifier_id", "report_name", "report_request_id", "report_descriptions", "created_date_time",
    "dtstart", "duration", "intervals", "data_collection_mode"]) rfl (by decide) ?_ ?_)
  · exact within_append (within_append (within_append (within_append (within_append (within_append (within_append (within_append within_entry within_entry) (within_nil _))
      within_entry) (within_cons (within_cons (within_nil _)))) within_entry) (within_cons (within_nil _))) within_entry) within_entry
  · have hl : Conforms (.list (o.intervals.map OutInterval.object)) (.list (((o.intervals.map (readingP lib)).map ReadingP.dict).map .dict)) := by
      refine .list _ _ (by simp) (fun i x y hx hy => ?_)
      simp only [List.getElem?_map, Option.map_map, Option.map_eq_some_iff, Function.comp_apply] at hx hy
      obtain ⟨r, hr, rfl⟩ := hx
      obtain ⟨r', hr', rfl⟩ := hy
      rw [hr] at hr'
      cases hr'
      exact conforms_reading (h.each r (List.mem_of_getElem? hr))
    refine all_cons (accounted_as (v := some _) ?_) (all_cons (accounted_as (v := some _) ?_) (all_cons (.inl ⟨_, ?_, .same _⟩)
      (all_cons (accounted_as (v := some _) ?_) (all_cons (accounted_as (v := some _) ?_) (all_cons (accounted_as ?_) (all_cons (.inr ⟨?_, rfl, by decide⟩)
      (all_cons (.inl ⟨_, ?_, hl⟩) (all_cons (accounted_as (v := some _) ?_) all_nil)))))))) <;>
      simp [reportP, ReportP.dict, Dict.get?, Dict.get?_append, Dict.get?_entry?, hq, Value.text?, text?, date?]

theorem good_report {o : OutReport} {created : Int} (hc : Datable created) (h : o.Sendable lib) : (reportP lib created o).Good lib := by
  obtain ⟨q, hq, hoq⟩ := h.requestId
  refine ⟨h.start, ?_, by simp [reportP], by simp [reportP], ?_, h.specifierId, ?_, hc⟩
  · intro l hl i hi
    simp only [reportP, Option.some.injEq] at hl
    subst hl
    simp only [List.mem_map] at hi
    obtain ⟨j, hj, rfl⟩ := hi
    have g := h.each j hj
    obtain ⟨r, hr, hor⟩ := g.rId
    exact ⟨g.start, g.duration, by simpa [readingP, hr, Value.text?] using hor, by simp [readingP], g.value⟩
  · simpa [reportP, hq, Value.text?] using hoq
  · intro x hx
    simp only [reportP, Option.some.injEq] at hx
    exact hx ▸ h.name

/-- What the VTN receives of the message of a report. -/
theorem update_received {o : OutReport} {ven rid : String} {created : Int} (sound : lib.Sound) (hv : Ordinary lib ven) (hr : Ordinary lib rid)
    (hc : Datable created) (h : o.Sendable lib) :
    Received lib now "oadrUpdateReport" (updatePayload (.str ven) rid created o) (updateP lib ven rid created o).received := by
  refine c67_update_report_arrives sound (r := updateP lib ven rid created o) ⟨hr, ?_, ?_⟩ _ ?_
  · intro x hx
    simp only [updateP, List.mem_singleton] at hx
    subst hx
    exact good_report hc h
  · intro x hx
    simp only [updateP, Option.some.injEq] at hx
    exact hx ▸ hv
  · have hl : Conforms (.list [o.object created]) (.list (([reportP lib created o].map ReportP.dict).map .dict)) := by
      refine .list _ _ (by simp) (fun i x y hx hy => ?_)
      match i with
      | 0 =>
        simp only [List.map_cons, List.map_nil, List.getElem?_cons_zero, Option.some.injEq] at hx hy
        subst hx; subst hy
        exact conforms_report created h
      | i + 1 => simp at hx
    refine conforms_entries (ks := ["ven_id", "request_id", "reports"]) rfl (by decide)
      (within_append (within_cons (within_cons (within_nil _))) within_entry) ?_
    refine all_cons (.inl ⟨_, ?_, .same _⟩) (all_cons (.inl ⟨_, ?_, .same _⟩) (all_cons (.inl ⟨_, ?_, hl⟩) all_nil)) <;>
      simp [updateP, UpdateReportP.dict, Dict.get?, Dict.get?_append, Dict.get?_entry?, text?]

/-- The report in the message as it is received. -/
def OutReport.arrived (lib : Lib) (created : Int) (o : OutReport) : Dict := (reportP lib created o).received

theorem update_entries (ven rid : String) (created : Int) (o : OutReport) :
    Dict.get? (updateP lib ven rid created o).received "ven_id" = some (.str ven) ∧
    Dict.get? (updateP lib ven rid created o).received "request_id" = some (.str rid) ∧
    Dict.get? (updateP lib ven rid created o).received "vtn_id" = none ∧
    Dict.get? (updateP lib ven rid created o).received "reports" = some (.list [.dict (o.arrived lib created)]) := by
  refine ⟨?_, ?_, ?_, ?_⟩ <;> simp [updateP, UpdateReportP.received, Dict.get?, Dict.get?_append, Dict.get?_entry?, text?, dicts?, OutReport.arrived]

/-- The intervals of a report as they are received. -/
def OutReport.readings (lib : Lib) (o : OutReport) : List Value := o.intervals.map (fun i => .dict (readingP lib i).received)

theorem arrived_wellFormed {o : OutReport} (created : Int) (h : o.Sendable lib) : WellFormedReport (o.arrived lib created) o.requestId (o.readings lib) := by
  obtain ⟨q, hq, -⟩ := h.requestId
  refine ⟨?_, ?_, ?_⟩
  · simp [OutReport.arrived, reportP, ReportP.received, Dict.get?, Dict.get?_append, Dict.get?_entry?, hq, Value.text?]
  · have : dicts? ((o.intervals.map (readingP lib)).map ReadingP.received) = some (.list (o.readings lib)) := by
      rw [dicts?, if_neg (by simp [h.some])]
      simp [OutReport.readings, Function.comp_def]
    simp only [OutReport.arrived, reportP, ReportP.received, Option.getD_some, this]
    simp [Dict.get?, Dict.get?_append, Dict.get?_entry?]
  · intro i hi
    simp only [OutReport.readings, List.mem_map] at hi
    obtain ⟨j, hj, rfl⟩ := hi
    obtain ⟨r, hr, -⟩ := (h.each j hj).rId
    refine ⟨.datetime j.dtstart, .str r, .float (floatOf lib j.value), _, [("r_id", .str r), ("value", .float (floatOf lib j.value))], rfl, ?_, ?_, ?_, ?_, (by intro hu; cases hu)⟩ <;>
      simp [readingP, ReadingP.received, ReadingP.dict, Dict.get?, Dict.get?_append, Dict.get?_entry?, hr, Value.text?, entry_missing, int?, text?]

/-- The samples of one data point of a report: the instants, and the values as floats. -/
def OutReport.samples (lib : Lib) (o : OutReport) (r : Value) : List (Value × Value) :=
  (o.intervals.filter (fun i => decide (i.rId = r))).map (fun i => (.datetime i.dtstart, .float (floatOf lib i.value)))

theorem samples_arrived {o : OutReport} (h : o.Sendable lib) (r : Value) : samplesFor r (o.readings lib) = o.samples lib r := by
  have : ∀ l : List OutInterval, (∀ i ∈ l, i.Sendable lib) → samplesFor r (l.map (fun i => .dict (readingP lib i).received)) =
      (l.filter (fun i => decide (i.rId = r))).map (fun i => (.datetime i.dtstart, .float (floatOf lib i.value))) := by
    intro l
    induction l with
    | nil => intro _; rfl
    | cons i l ih =>
      intro hl
      obtain ⟨x, hx, -⟩ := (hl i (by simp)).rId
      have ih := ih (fun j hj => hl j (by simp [hj]))
      have g1 : Dict.get? (readingP lib i).received "dtstart" = some (.datetime i.dtstart) := by
        simp [readingP, ReadingP.received, ReadingP.dict, Dict.get?]
      have g2 : Dict.get? (readingP lib i).received "report_payload" = some (.dict [("r_id", .str x), ("value", .float (floatOf lib i.value))]) := by
        simp [readingP, ReadingP.received, ReadingP.dict, Dict.get?, Dict.get?_append, Dict.get?_entry?, hx, Value.text?, entry_missing, int?, text?]
      have c1 : chainValue (.dict (readingP lib i).received) ["report_payload", "r_id"] = some (.str x) := by
        simp [chainValue, find_get, g2, Dict.get?]
      have c2 : chainValue (.dict (readingP lib i).received) ["dtstart"] = some (.datetime i.dtstart) := by
        simp [chainValue, find_get, g1]
      have c3 : chainValue (.dict (readingP lib i).received) ["report_payload", "value"] = some (.float (floatOf lib i.value)) := by
        simp [chainValue, find_get, g2, Dict.get?]
      simp only [samplesFor, List.map_cons, List.filterMap_cons, c1, c2, c3] at ih ⊢
      by_cases hr : i.rId = r
      · have e : (Option.some (Value.str x) = Option.some r) := by rw [← hx, hr]
        rw [if_pos e]
        simp only [ih, List.filter_cons, hr, decide_true, if_true, List.map_cons]
      · have e : ¬ (Option.some (Value.str x) = Option.some r) := by rw [← hx]; simpa using hr
        rw [if_neg e]
        simp only [ih, List.filter_cons, hr, decide_false, Bool.false_eq_true, if_false]
  exact this _ h.each

end Openleadr
