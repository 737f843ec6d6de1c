import Verif.Props.ServerReports
/-!
C79: confirmations of created reports.
-/
namespace Openleadr

/-! ### Histories -/

/-- What happens to the service: a VEN registers its reports, with the user's handler for this time, or confirms reports. -/
inductive ReportMessage
  | register (h : ReportAsk → Res Value) (compact : Bool) (ven : String) (reports : Option (List OfferedReport))
  | created (ven : String) (pending : Option (List Value))

/-- What is known about a message afterwards: the requests of the reply, or the ids confirmed, the request ids warned about and how it ended. -/
inductive ReportOutcome
  | requested (ven : String) (out : List RequestOut)
  | refused (ven : String)
  | confirmed (ven : String) (ids : List Value) (warned : List String) (res : Res Unit)

/-- One message. A registration without reports is answered before anything is stored (report_service.py:87-89). -/
def reportStep (fresh : Nat → String) (s : ReportServer) : ReportMessage → ReportServer × ReportOutcome
  | .register h compact ven reports =>
    match registerReport h compact fresh s ven reports with
    | (s', .ok out) => (s', if reports.isSome then .requested ven out else .refused ven)
    | (s', .error _) => (s', .refused ven)
  | .created ven pending =>
    match createdReport s ven pending with
    | (s', warned, res) => (s', .confirmed ven (pending.getD []) warned res)

/-- All messages since the start of the server. -/
def reportHistory (fresh : Nat → String) (s : ReportServer) : List ReportMessage → ReportServer × List ReportOutcome
  | [] => (s, [])
  | m :: ms =>
    match reportStep fresh s m with
    | (s', o) => match reportHistory fresh s' ms with | (s'', os) => (s'', o :: os)

/-! ### What the history says -/

/-- The ids that a VEN confirmed, in order. -/
def confirmedIn (ven : String) : List ReportOutcome → List Value
  | [] => []
  | .confirmed v ids _ _ :: os => if v = ven then ids ++ confirmedIn ven os else confirmedIn ven os
  | _ :: os => confirmedIn ven os

/-- The requests that a VEN was answered with last. -/
def requestedIn (ven : String) : List ReportOutcome → Option (List RequestOut)
  | [] => none
  | .requested v out :: os => (requestedIn ven os).or (if v = ven then some out else none)
  | _ :: os => requestedIn ven os

/-! ### What registration leaves alone -/

theorem makeRequests_keeps (fresh : Nat → String) (l : List (OfferedReport × Option (List Value))) (s s' : ReportServer) (out : Res (List RequestOut))
    (h : makeRequests fresh s l = (s', out)) : s'.requested = s.requested ∧ s'.created = s.created := by
  induction l generalizing s s' out with
  | nil => simp only [makeRequests, Prod.mk.injEq] at h; obtain ⟨rfl, -⟩ := h; exact ⟨rfl, rfl⟩
  | cons p l ih =>
    obtain ⟨r, c⟩ := p
    cases c with
    | none => simp only [makeRequests] at h; exact ih _ _ _ h
    | some cs =>
      simp only [makeRequests] at h
      split at h
      · exact ih _ _ _ h
      · cases he : enterChoices (fresh s.ids) r.points s.callbacks .none .none cs with
        | mk cbs res =>
          rw [he] at h
          cases res with
          | error e => simp only [Prod.mk.injEq] at h; rw [← h.1]; exact ⟨rfl, rfl⟩
          | ok q =>
            obtain ⟨ps, g, b⟩ := q
            simp only [] at h
            cases hm : makeRequests fresh { s with callbacks := cbs, ids := s.ids + 1 } l with
            | mk s2 o2 =>
              rw [hm] at h
              have hk := ih _ _ _ hm
              cases o2 with
              | error e => simp only [Prod.mk.injEq] at h; rw [← h.1]; exact hk
              | ok o => simp only [Prod.mk.injEq] at h; rw [← h.1]; exact hk

theorem registerReport_keeps (h : ReportAsk → Res Value) (compact : Bool) (fresh : Nat → String) (s s' : ReportServer) (ven : String)
    (reports : Option (List OfferedReport)) (out : Res (List RequestOut)) (hr : registerReport h compact fresh s ven reports = (s', out)) :
    s'.created = s.created ∧
    (∀ o, out = .ok o → reports.isSome = true → s'.requested = Dict.set s.requested ven o) ∧
    ((∀ o, out ≠ .ok o) ∨ reports = none → s'.requested = s.requested) := by
  unfold registerReport at hr
  cases reports with
  | none =>
    simp only [Prod.mk.injEq] at hr
    obtain ⟨rfl, rfl⟩ := hr
    exact ⟨rfl, by intro o _ h; simp at h, fun _ => rfl⟩
  | some rs =>
    simp only [] at hr
    cases hc : collectChoices h compact ven s rs with
    | mk s1 o1 =>
      rw [hc] at hr
      obtain ⟨-, -, k1, k2⟩ := collectChoices_registered h compact ven rs s s1 o1 hc
      cases o1 with
      | error e =>
        simp only [Prod.mk.injEq] at hr
        obtain ⟨rfl, rfl⟩ := hr
        exact ⟨k2, by simp, fun _ => k1⟩
      | ok cs =>
        simp only [] at hr
        cases hm : makeRequests fresh s1 (rs.zip (validateChoices cs)) with
        | mk s2 o2 =>
          rw [hm] at hr
          obtain ⟨k3, k4⟩ := makeRequests_keeps fresh _ s1 s2 o2 hm
          cases o2 with
          | error e =>
            simp only [Prod.mk.injEq] at hr
            obtain ⟨rfl, rfl⟩ := hr
            exact ⟨k4.trans k2, by simp, fun _ => k3.trans k1⟩
          | ok out2 =>
            simp only [Prod.mk.injEq] at hr
            obtain ⟨rfl, rfl⟩ := hr
            refine ⟨k4.trans k2, ?_, by simp⟩
            intro o ho _
            cases ho
            simp only [k3, k1]

/-- What is stored for a VEN agrees with what the messages so far said. -/
def Recorded (s : ReportServer) (conf : String → List Value) (req : String → Option (List RequestOut)) : Prop :=
  ∀ ven, (Dict.get? s.created ven).getD [] = conf ven ∧ Dict.get? s.requested ven = req ven

theorem reportHistory_recorded (fresh : Nat → String) (ms : List ReportMessage) (s : ReportServer) (conf : String → List Value)
    (req : String → Option (List RequestOut)) (hs : Recorded s conf req) :
    Recorded (reportHistory fresh s ms).1 (fun v => conf v ++ confirmedIn v (reportHistory fresh s ms).2)
      (fun v => (requestedIn v (reportHistory fresh s ms).2).or (req v)) := by
  induction ms generalizing s conf req with
  | nil => intro v; simpa [reportHistory, confirmedIn, requestedIn] using hs v
  | cons m ms ih =>
    cases m with
    | register h compact ven reports =>
      cases hr : registerReport h compact fresh s ven reports with
      | mk s' out =>
        obtain ⟨k1, k2, k3⟩ := registerReport_keeps h compact fresh s s' ven reports out hr
        have plain : s'.requested = s.requested → Recorded s' conf req := by
          intro hq v
          rw [hq, k1]; exact hs v
        cases out with
        | error e =>
          have := ih s' conf req (plain (k3 (Or.inl (by simp))))
          simpa [reportHistory, reportStep, hr, confirmedIn, requestedIn] using this
        | ok out =>
          cases reports with
          | none =>
            have := ih s' conf req (plain (k3 (Or.inr rfl)))
            simpa [reportHistory, reportStep, hr, confirmedIn, requestedIn] using this
          | some rs =>
            have hreq := k2 out rfl rfl
            have := ih s' conf (fun v => if v = ven then some out else req v) (by
              intro v
              rw [hreq, k1]
              refine ⟨(hs v).1, ?_⟩
              by_cases hv : v = ven
              · subst hv; rw [Dict.get?_set_self]; simp
              · rw [Dict.get?_set_other _ _ _ _ hv, (hs v).2]; simp [hv])
            intro v
            have hv := this v
            simp only [reportHistory, reportStep, hr, Option.isSome_some, if_true, confirmedIn, requestedIn]
            refine ⟨hv.1, ?_⟩
            refine hv.2.trans ?_
            show (requestedIn v (reportHistory fresh s' ms).2).or (if v = ven then some out else req v) = _
            cases requestedIn v (reportHistory fresh s' ms).2 with
            | some x => simp
            | none =>
              by_cases hve : v = ven
              · simp [hve]
              · have hev : ¬ ven = v := fun h => hve h.symm
                simp [hve, hev]
    | created ven pending =>
      have hst : ∀ w r, createdReport s ven pending = ((createdReport s ven pending).1, w, r) →
          Recorded (createdReport s ven pending).1 (fun v => if ven = v then conf v ++ pending.getD [] else conf v) req := by
        intro w r _ v
        have hc : (createdReport s ven pending).1 = { s with created := Dict.set s.created ven ((Dict.get? s.created ven).getD [] ++ pending.getD []) } := by
          unfold createdReport
          simp only []
          split <;> rfl
        rw [hc]
        refine ⟨?_, (hs v).2⟩
        by_cases hv : ven = v
        · subst hv
          simp only [Dict.get?_set_self, Option.getD_some, if_true]
          rw [(hs ven).1]
        · simp only [if_neg hv]
          rw [Dict.get?_set_other _ _ _ _ (fun h => hv h.symm)]
          exact (hs v).1
      cases hcr : createdReport s ven pending with
      | mk s' p =>
        obtain ⟨w, r⟩ := p
        have hrec := hst w r (by rw [hcr])
        rw [hcr] at hrec
        have := ih s' _ req hrec
        intro v
        have hv := this v
        simp only [reportHistory, reportStep, hcr, confirmedIn, requestedIn]
        refine ⟨?_, hv.2⟩
        rw [hv.1]
        by_cases hve : ven = v <;> simp [hve]

/-! ### The property -/

/-- **C79** (partial: reports were requested from the VEN). After any history, when a VEN confirms reports, exactly those requests of the last reply to its
    registration are warned about that it has confirmed neither now nor before, in their order, whatever other VENs did; and what it confirms is added
    to what it confirmed before. -/
theorem c79_warned_exactly_partial (fresh : Nat → String) (ms : List ReportMessage) (ven : String) (pending : Option (List Value)) (qs : List RequestOut)
    (hq : requestedIn ven (reportHistory fresh noReports ms).2 = some qs) :
    ∃ s' warned, createdReport (reportHistory fresh noReports ms).1 ven pending = (s', warned, .ok ()) ∧
      (∀ q, (q ∈ warned ↔ (∃ r ∈ qs, r.requestId = q) ∧
        .str q ∉ confirmedIn ven (reportHistory fresh noReports ms).2 ∧ .str q ∉ pending.getD [])) ∧
      warned.Sublist (qs.map RequestOut.requestId) ∧
      Dict.get? s'.created ven = some (confirmedIn ven (reportHistory fresh noReports ms).2 ++ pending.getD []) ∧
      (∀ v, v ≠ ven → Dict.get? s'.created v = Dict.get? (reportHistory fresh noReports ms).1.created v) ∧
      s'.requested = (reportHistory fresh noReports ms).1.requested := by
  have hrec := reportHistory_recorded fresh ms noReports (fun _ => []) (fun _ => none) (by intro v; exact ⟨rfl, rfl⟩) ven
  simp only [List.nil_append, Option.or_none] at hrec
  rw [hq] at hrec
  unfold createdReport
  rw [hrec.1, hrec.2]
  refine ⟨_, _, rfl, ?_, ?_, Dict.get?_set_self _ _ _, ?_, rfl⟩
  · intro q
    simp only [List.mem_map, List.mem_filter, Bool.not_eq_true', List.contains_eq_mem, decide_eq_false_iff_not, List.mem_append, not_or]
    constructor
    · rintro ⟨r, ⟨h1, h2, h3⟩, rfl⟩; exact ⟨⟨r, h1, rfl⟩, h2, h3⟩
    · rintro ⟨⟨r, h1, rfl⟩, h2, h3⟩; exact ⟨r, ⟨h1, h2, h3⟩, rfl⟩
  · exact List.Sublist.map _ List.filter_sublist
  · intro v hv
    exact Dict.get?_set_other _ _ _ _ hv

/-- **C79, refuted** for a VEN that was never answered with report requests, for example since its registration failed or it only registered with the
    server before it was restarted: the confirmation is an error, although its ids are noted. -/
theorem c79_without_request_violated (fresh : Nat → String) (ms : List ReportMessage) (ven : String) (ids : List Value)
    (hq : requestedIn ven (reportHistory fresh noReports ms).2 = none) :
    ∃ s', createdReport (reportHistory fresh noReports ms).1 ven (some ids) = (s', [], .error .keyError) ∧
      Dict.get? s'.created ven = some (confirmedIn ven (reportHistory fresh noReports ms).2 ++ ids) := by
  have hrec := reportHistory_recorded fresh ms noReports (fun _ => []) (fun _ => none) (by intro v; exact ⟨rfl, rfl⟩) ven
  simp only [List.nil_append, Option.or_none] at hrec
  rw [hq] at hrec
  unfold createdReport
  rw [hrec.1, hrec.2]
  exact ⟨_, rfl, Dict.get?_set_self _ _ _⟩

/-- Data for the example: a VEN with two reports from which one data point each is wanted. -/
def wantA : ReportAsk → Res Value
  | .full r => .ok (.list (r.points.take 1 |>.map (fun p => .tuple [p.rId, .func 7, .timedelta 10])))
  | _ => .ok .none
def twoRegistered : List ReportMessage :=
  [.register wantA false "ven" (some [offeredReport, { offeredReport with specifierId := .str "spec2" }]), .created "other" (some [.str "x"])]

/-- non-vacuity: two requests are made, with the ids `""` and `"x"` here; the VEN confirms the first, and is warned about the second; another VEN's
    confirmation (an error, nothing was requested from it) does not count. When it confirms the second, no warning is left. -/
example : ((reportHistory freshId noReports (twoRegistered ++ [.created "ven" (some [.str ""]), .created "ven" (some [.str "x"])])).2.map (fun o =>
      match o with
      | .requested v out => (v, out.map RequestOut.requestId, (none : Option (Res Unit)))
      | .refused v => (v, [], none)
      | .confirmed v _ w r => (v, w, some r))) =
    [("ven", ["", "x"], none), ("other", [], some (.error .keyError)), ("ven", ["x"], some (.ok ())), ("ven", [], some (.ok ()))] := by decide +kernel

end Openleadr
