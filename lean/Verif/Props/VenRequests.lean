import Verif.Lemmas.VenReports
import Verif.Lemmas.Infix
import Verif.Props.VenOffers
/-!
C58: report requests of the VTN.
-/
namespace Openleadr

/-- The request asks for something whose id says that it is invalid. -/
def AsksInvalid (rr : ReportRequest) : Prop :=
  (∃ t, rr.specifierId = .str t ∧ Occurs "INVALID".toList t.toList) ∨
  (∃ p t, rr.payloads.head? = some p ∧ p.rId = .str t ∧ Occurs "INVALID".toList t.toList)

/-! ### One request -/

/-- What handling one request can do to the list of requests. -/
theorem handleRequest_requests (user : Sampler) (now : Int) (first lst : Nat) (single : Bool) (s : VenReports) (rr : ReportRequest) (t : String)
    (ht : rr.specifierId = .str t) (s' : VenReports) (calls : List SampleCall) (single' r : Bool)
    (h : handleRequest user now first lst single s rr = (s', calls, single', .ok r)) :
    (r = true ↔ AsksInvalid rr) ∧ (r = true → s' = s ∧ calls = [] ∧ single' = single) ∧
    (r = false → ∃ g job, s'.requests = s.requests ++ [⟨rr.requestId, rr.specifierId, rr.reportBack, lst, g, job⟩]) := by
  unfold handleRequest at h
  cases hp : rr.payloads with
  | nil => rw [hp] at h; simp at h
  | cons p0 ps =>
    rw [hp] at h
    simp only [namesInvalid, ht, pyIn] at h
    have hinv : (isInfix "INVALID".toList t.toList || pointNamesInvalid p0.rId) = true ↔ AsksInvalid rr := by
      unfold AsksInvalid
      rw [Bool.or_eq_true, isInfix_iff, ht, hp]
      simp only [List.head?_cons, Option.some.injEq, Value.str.injEq, exists_eq_left']
      refine or_congr_right ?_
      constructor
      · intro h
        cases hr : p0.rId with
        | str x => rw [hr] at h; simp only [pointNamesInvalid, isInfix_iff] at h; exact ⟨p0, x, rfl, hr, h⟩
        | _ => rw [hr] at h; simp [pointNamesInvalid] at h
      · rintro ⟨p, x, rfl, hx, ho⟩
        rw [hx]; simp only [pointNamesInvalid, isInfix_iff]; exact ho
    cases hb : (isInfix "INVALID".toList t.toList || pointNamesInvalid p0.rId) with
    | true =>
      rw [hb] at h hinv
      simp only [if_true, Prod.mk.injEq, Except.ok.injEq] at h
      obtain ⟨h1, h2, h3, h4⟩ := h
      subst h4
      exact ⟨by simp [← hinv], fun _ => ⟨h1.symm, h2.symm, h3.symm⟩, by simp⟩
    | false =>
      rw [hb] at h hinv
      simp only [Bool.false_eq_true, if_false] at h
      have hnot : ¬ AsksInvalid rr := by rw [← hinv]; simp
      suffices hs : r = false ∧ ∃ g job, s'.requests = s.requests ++ [⟨rr.requestId, rr.specifierId, rr.reportBack, lst, g, job⟩] by
        obtain ⟨rfl, hs⟩ := hs
        exact ⟨by simp [hnot], by simp, fun _ => hs⟩
      cases hg : rr.granularity with
      | none => rw [hg] at h; simp at h
      | some g =>
        rw [hg] at h
        simp only [] at h
        rw [← ht] at h
        cases hf : s.reports.find? (fun r => decide (Value.str r.specifierId = rr.specifierId)) with
        | none =>
          rw [hf] at h
          simp only [Prod.mk.injEq, Except.ok.injEq] at h
          exact ⟨h.2.2.2.symm, g, none, by rw [← h.1]⟩
        | some report =>
          rw [hf] at h
          simp only [] at h
          cases ha : acceptPoints s.heap report.points (p0 :: ps) g single ((s.lists[lst]?).getD []) with
          | mk acc rest =>
            obtain ⟨g', sg, res⟩ := rest
            rw [ha] at h
            cases res with
            | error e => simp at h
            | ok u =>
              simp only [] at h
              generalize jobPeriod sg rr.reportBack g' = per at h
              cases per with
              | error e => simp at h
              | ok o =>
                cases o with
                | some interval =>
                  simp only [] at h
                  split at h
                  · simp only [Prod.mk.injEq, Except.ok.injEq] at h
                    exact ⟨h.2.2.2.symm, g', _, by rw [← h.1]⟩
                  · simp at h
                | none =>
                  simp only [] at h
                  cases hst : rr.start with
                  | some t0 =>
                    rw [hst] at h
                    simp only [Prod.mk.injEq, Except.ok.injEq] at h
                    exact ⟨h.2.2.2.symm, g', none, by rw [← h.1]⟩
                  | none =>
                    rw [hst] at h
                    simp only [] at h
                    generalize hs2 : (VenReports.mk _ _ _ _ _ _ _ _ _ _ : VenReports) = s2 at h
                    have hup := updateReport_sameBut user now s2 rr.requestId
                    cases hu : updateReport user now s2 rr.requestId with
                    | mk s3 rest3 =>
                      obtain ⟨calls3, res3⟩ := rest3
                      rw [hu] at h hup
                      cases res3 with
                      | error e => simp at h
                      | ok u3 =>
                        simp only [Prod.mk.injEq, Except.ok.injEq] at h
                        refine ⟨h.2.2.2.symm, g', none, ?_⟩
                        rw [← h.1]
                        have := hup.requests
                        simp only [] at this
                        rw [this, ← hs2]

/-! ### All requests -/

/-- **C58.** The reply names every request of the message, in order; its code is the invalid-id error exactly if one of the requests asks for something
    with an invalid id; exactly the other requests are remembered, in order. All requests of one message are remembered with the same list of data
    points (see the refutation below). -/
theorem c58_reply (user : Sampler) (now : Int) (s s' : VenReports) (requests : List ReportRequest) (calls : List SampleCall) (reply : CreatedReport)
    (htext : ∀ rr ∈ requests, ∃ t, rr.specifierId = .str t) (h : createReport user now s requests = (s', calls, .ok reply)) :
    reply.pendingIds = requests.map ReportRequest.requestId ∧
    (reply.code = 452 ↔ ∃ rr ∈ requests, AsksInvalid rr) ∧ (reply.code = 200 ↔ ¬ ∃ rr ∈ requests, AsksInvalid rr) ∧
    ∃ new accepted, s'.requests = s.requests ++ new ∧ List.Sublist accepted requests ∧ (∀ rr ∈ requests, rr ∈ accepted ↔ ¬ AsksInvalid rr) ∧
      (∀ rq ∈ new, rq.rIds = s.lists.length) ∧ Pointwise (fun (rq : VenRequest) rr => rq.requestId = rr.requestId ∧ rq.specifierId = rr.specifierId ∧
        rq.reportBack = rr.reportBack) new accepted := by
  have loop : ∀ (first lst : Nat) (rrs : List ReportRequest) (single refused : Bool) (s s' : VenReports) (calls : List SampleCall) (out : Bool),
      (∀ rr ∈ rrs, ∃ t, rr.specifierId = .str t) → handleRequests user now first lst rrs single refused s = (s', calls, .ok out) →
      (out = true ↔ refused = true ∨ ∃ rr ∈ rrs, AsksInvalid rr) ∧
      ∃ new accepted, s'.requests = s.requests ++ new ∧ List.Sublist accepted rrs ∧ (∀ rr ∈ rrs, rr ∈ accepted ↔ ¬ AsksInvalid rr) ∧
        (∀ rq ∈ new, rq.rIds = lst) ∧ Pointwise (fun (rq : VenRequest) rr => rq.requestId = rr.requestId ∧ rq.specifierId = rr.specifierId ∧
          rq.reportBack = rr.reportBack) new accepted := by
    intro first lst rrs
    induction rrs with
    | nil =>
      intro single refused s s' calls out _ h
      simp only [handleRequests, Prod.mk.injEq, Except.ok.injEq] at h
      obtain ⟨rfl, -, rfl⟩ := h
      exact ⟨by simp, [], [], by simp, List.Sublist.refl _, by simp, by simp, Pointwise.nil⟩
    | cons rr rrs ih =>
      intro single refused s s' calls out htx h
      simp only [handleRequests] at h
      obtain ⟨t, ht⟩ := htx rr (by simp)
      cases h1 : handleRequest user now first lst single s rr with
      | mk s1 rest =>
        obtain ⟨calls1, single1, res1⟩ := rest
        rw [h1] at h
        cases res1 with
        | error e => simp at h
        | ok r =>
          simp only [] at h
          obtain ⟨a1, a2, a3⟩ := handleRequest_requests user now first lst single s rr t ht s1 calls1 single1 r h1
          cases h2 : handleRequests user now first lst rrs single1 (refused || r) s1 with
          | mk s2 rest2 =>
            obtain ⟨calls2, res2⟩ := rest2
            rw [h2] at h
            simp only [Prod.mk.injEq] at h
            obtain ⟨rfl, -, rfl⟩ := h
            obtain ⟨b1, new, acc, b2, b3, b4, b5, b6⟩ := ih single1 (refused || r) s1 s2 calls2 out (fun x hx => htx x (by simp [hx])) h2
            constructor
            · rw [b1, Bool.or_eq_true, a1, or_assoc]
              simp
            · cases r with
              | true =>
                have hs := (a2 rfl).1
                have hinv := a1.mp rfl
                refine ⟨new, acc, by rw [b2, hs], List.Sublist.cons _ b3, ?_, b5, b6⟩
                intro x hx
                rcases List.mem_cons.mp hx with rfl | hx
                · constructor
                  · intro hm
                    exact ((b4 x (b3.subset hm)).mp hm)
                  · intro hn; exact absurd hinv hn
                · exact b4 x hx
              | false =>
                obtain ⟨g, job, hq⟩ := a3 rfl
                have hinv : ¬ AsksInvalid rr := fun hc => by have := a1.mpr hc; cases this
                refine ⟨⟨rr.requestId, rr.specifierId, rr.reportBack, lst, g, job⟩ :: new, rr :: acc, by rw [b2, hq]; simp,
                  List.Sublist.cons_cons _ b3, ?_, ?_, Pointwise.cons ⟨rfl, rfl, rfl⟩ b6⟩
                · intro x hx
                  rcases List.mem_cons.mp hx with rfl | hx
                  · simp [hinv]
                  · constructor
                    · intro hm
                      rcases List.mem_cons.mp hm with rfl | hm
                      · exact hinv
                      · exact (b4 x hx).mp hm
                    · intro hn; exact List.mem_cons_of_mem _ ((b4 x hx).mpr hn)
                · intro rq hrq
                  rcases List.mem_cons.mp hrq with rfl | hrq
                  · rfl
                  · exact b5 rq hrq
  unfold createReport at h
  simp only [] at h
  cases hh : handleRequests user now s.jobIds s.lists.length requests false false { s with lists := s.lists ++ [[]] } with
  | mk s1 rest =>
    obtain ⟨calls1, res1⟩ := rest
    rw [hh] at h
    cases res1 with
    | error e => simp at h
    | ok refused =>
      simp only [Prod.mk.injEq, Except.ok.injEq] at h
      obtain ⟨rfl, -, rfl⟩ := h
      obtain ⟨b1, new, acc, b2⟩ := loop _ _ requests false false _ s1 calls1 refused htext hh
      simp only [Bool.false_eq_true, false_or] at b1
      refine ⟨rfl, ?_, ?_, new, acc, b2⟩
      · rw [← b1]; cases refused <;> simp
      · rw [← b1]; cases refused <;> simp

/-! ### A request for offered data points -/

/-- A data point is requested as it is offered: it exists, the measurement is the offered one, and the granularity is within the offered range. -/
def Requestable (s : VenReports) (points : List VenPoint) (g : Int) (p : SpecPayload) : Prop :=
  ∃ rd, points.find? (fun x => decide (x.rId = p.rId)) = some rd ∧ rd.rate.minPeriod ≤ g ∧ g ≤ rd.rate.maxPeriod ∧
    ∀ d u, p.measurement = some (d, u) → ∃ m, measurementOf s rd = some m ∧ d = .str m.description ∧
      u = (match m.unit with | some u => .str u | none => .none)

theorem acceptPoints_ok (s : VenReports) (points : List VenPoint) (g : Int) (hg : g ≠ 0) (single : Bool) (ps : List SpecPayload) (acc : List Value)
    (h : ∀ p ∈ ps, Requestable s points g p) :
    acceptPoints s.heap points ps (some g) single acc = (acc ++ ps.map SpecPayload.rId, some g, single, .ok ()) := by
  induction ps generalizing acc with
  | nil => simp [acceptPoints]
  | cons p ps ih =>
    obtain ⟨rd, h1, h2, h3, h4⟩ := h p (by simp)
    have hag : payloadAgrees s.heap rd.measurement p.measurement = .ok true := by
      cases hm : p.measurement with
      | none => rfl
      | some du =>
        obtain ⟨d, u⟩ := du
        obtain ⟨m, hm1, hm2, hm3⟩ := h4 d u hm
        unfold measurementOf at hm1
        cases hr : rd.measurement with
        | none => rw [hr] at hm1; simp at hm1
        | some r =>
          rw [hr] at hm1
          simp only [Option.bind_some] at hm1
          simp [payloadAgrees, measurementAgrees, hm1, hm2, hm3]
          rfl
    rw [acceptPoints, h1]
    simp only [hag, hg, if_false]
    rw [if_pos ⟨h2, h3⟩, ih (acc ++ [p.rId]) (fun x hx => h x (by simp [hx]))]
    simp

/-- All jobs were made by this client. -/
def JobsNumbered (s : VenReports) : Prop := ∀ j ∈ s.jobs, j.id < s.jobIds

theorem retarget_old (s : VenReports) (h : JobsNumbered s) (q : Value) : retarget s.jobIds q s.jobs = s.jobs := by
  unfold retarget
  have : ∀ j ∈ s.jobs, retargetJob s.jobIds q j = id j := by
    intro j hj
    have := h j hj
    unfold retargetJob
    cases j.trigger with
    | cron c => rfl
    | date t => simp only []; rw [if_neg (by omega)]; rfl
  rw [List.map_congr_left this]; simp

/-- **C58** (partial: the message has one request, for data points as they are offered, and with a report-back interval). One job is made, which runs at the
    requested granularity and updates exactly this report; the request is remembered with exactly the requested data points, granularity and
    report-back interval; the reply is 200; nothing else changes, and nothing is sampled yet. -/
theorem c58_started_partial (user : Sampler) (now : Int) (s : VenReports) (hj : JobsNumbered s) (q : Value) (t : String) (b g : Int) (st : Option Int)
    (payloads : List SpecPayload) (report : VenReport) (hb : 0 < b) (hg : g ≠ 0) (hne : payloads ≠ [])
    (hval : ¬ AsksInvalid ⟨q, .str t, some b, some (some g), st, payloads⟩)
    (hrep : s.reports.find? (fun r => decide (Value.str r.specifierId = Value.str t)) = some report)
    (hpts : ∀ p ∈ payloads, Requestable s report.points g p) (hcron : (cronConfig g false).valid = true) :
    createReport user now s [⟨q, .str t, some b, some (some g), st, payloads⟩] =
      ({ s with lists := s.lists ++ [payloads.map SpecPayload.rId], jobs := s.jobs ++ [⟨s.jobIds, q, .cron (cronConfig g false)⟩],
                jobIds := s.jobIds + 1, requests := s.requests ++ [⟨q, .str t, some b, s.lists.length, some g, some s.jobIds⟩] }, [], .ok ⟨200, [q]⟩) := by
  obtain ⟨p0, ps, rfl⟩ := List.exists_cons_of_ne_nil hne
  have hinv : (isInfix "INVALID".toList t.toList || pointNamesInvalid p0.rId) = false := by
    cases hb : (isInfix "INVALID".toList t.toList || pointNamesInvalid p0.rId) with
    | false => rfl
    | true =>
      exfalso; apply hval
      rw [Bool.or_eq_true, isInfix_iff] at hb
      rcases hb with hb | hb
      · exact Or.inl ⟨t, rfl, hb⟩
      · right
        cases hr : p0.rId with
        | str x => rw [hr] at hb; simp only [pointNamesInvalid, isInfix_iff] at hb; exact ⟨p0, x, rfl, hr, hb⟩
        | _ => rw [hr] at hb; simp [pointNamesInvalid] at hb
  have hacc := acceptPoints_ok s report.points g hg false (p0 :: ps) [] hpts
  unfold createReport
  simp only [handleRequests, handleRequest, namesInvalid, pyIn, hinv, Bool.false_eq_true, if_false, hrep]
  have hl : ((s.lists ++ [[]])[s.lists.length]?).getD ([] : List Value) = [] := by simp
  rw [hl, hacc]
  simp only [jobPeriod, Bool.false_eq_true, if_false, hb, if_true, hg, hcron, List.nil_append, Bool.or_false]
  have hset : (s.lists ++ [([] : List Value)]).set s.lists.length (List.map SpecPayload.rId (p0 :: ps)) = s.lists ++ [List.map SpecPayload.rId (p0 :: ps)] := by
    simp
  rw [hset, retarget_old s hj]
  simp

/-! ### What is sampled -/

/-- **C58.** An update of a report samples only data points of its request, each at most once per occurrence, in order, with the callbacks under which they
    were offered; if no error occurs, it samples all of them (in incremental mode: all that have a callback). -/
theorem c58_samples_requested (user : Sampler) (now : Int) (s : VenReports) (q : Value) (rq : VenRequest) (report : VenReport)
    (hrq : s.requests.find? (fun r => decide (r.requestId = q)) = some rq)
    (hrep : s.reports.find? (fun r => decide (Value.str r.specifierId = rq.specifierId)) = some report) :
    let calls := (updateReport user now s q).2.1
    let points := (s.lists[rq.rIds]?).getD []
    List.Sublist (calls.map SampleCall.rId) points ∧
    (∀ c ∈ calls, getCallback s.callbacks (rq.specifierId, c.rId) = some c.callback) ∧
    ((updateReport user now s q).2.2 = .ok () → (∀ r ∈ points, (getCallback s.callbacks (rq.specifierId, r)).isSome) →
      calls.map SampleCall.rId = points) := by
  have hsplit : ∃ acc, (updateReport user now s q).2.1 = (collect s user now rq report acc).1 ∧
      ((updateReport user now s q).2.2 = .ok () → (collect s user now rq report acc).2.2 = .ok ()) := by
    unfold updateReport
    rw [hrq]; simp only []; rw [hrep]; simp only []
    refine ⟨((getIncomplete s.incomplete q).getD ⟨q, report.specifierId, outName report.name, none, []⟩).intervals, ?_⟩
    cases hc : collect s user now rq report ((getIncomplete s.incomplete q).getD ⟨q, report.specifierId, outName report.name, none, []⟩).intervals with
    | mk calls rest =>
      obtain ⟨intervals, res⟩ := rest
      cases res with
      | error e => exact ⟨rfl, fun h => by simp at h⟩
      | ok u =>
        simp only []
        refine ⟨?_, fun _ => trivial⟩
        cases expectedLen report.full rq.reportBack rq.granularity ((s.lists[rq.rIds]?).getD []).length with
        | error e => rfl
        | ok o =>
          cases o with
          | none => rfl
          | some n =>
            simp only []
            split
            · cases getIncomplete s.incomplete q <;> rfl
            · rfl
  obtain ⟨acc, h1, h2⟩ := hsplit
  simp only [h1]
  unfold collect
  simp only []
  by_cases hf : report.full = true
  · rw [if_pos hf]
    cases hg : rq.granularity with
    | none =>
      refine ⟨by simp, by simp, ?_⟩
      intro hok _
      have := h2 hok
      simp [collect, hf, hg] at this
    | some g =>
      simp only []
      obtain ⟨c1, c2, c3⟩ := collectFull_calls s.callbacks user rq.specifierId (.period (now - max (rq.reportBack.getD g) g) now g)
        ((s.lists[rq.rIds]?).getD []) acc
      refine ⟨c1.sublist, fun c hc => (c3 c hc).2, ?_⟩
      intro hok _
      have := h2 hok
      simp only [collect, hf, if_true, hg] at this
      exact c2 this
  · rw [if_neg hf]
    obtain ⟨c1, c2, c3⟩ := collectIncremental_calls s.callbacks user rq.specifierId now (decide (outName report.name = "TELEMETRY_USAGE"))
      rq.reportBack rq.granularity ((s.lists[rq.rIds]?).getD []) acc
    refine ⟨c1.sublist.trans List.filter_sublist, fun c hc => (c3 c hc).2, ?_⟩
    intro hok hall
    have := h2 hok
    simp only [collect, hf, if_false, Bool.false_eq_true] at this
    rw [c2 this]
    exact List.filter_eq_self.mpr hall

/-! ### What is not kept -/

/-- A client with two reports: "s" with the data points "a", "b"; "t" with the data point "c". -/
def twoReports : VenReports :=
  addAll newId newVenReports [{ addVoltage with specifierId := some "s", rId := some "a" }, { addVoltage with specifierId := some "s", rId := some "b" },
    { addVoltage with name := "HISTORY_USAGE", specifierId := some "t", rId := some "c" }]
/-- Callbacks that all return the number 1. -/
def ones : Sampler := fun _ => .number (.int 1)
def seconds (n : Int) : Int := n * 1000000
def ask (q t : String) (b g : Int) (rs : List String) : ReportRequest :=
  ⟨.str q, .str t, some (seconds b), some (some (seconds g)), none, rs.map (fun r => ⟨.str r, none⟩)⟩

/-- non-vacuity: a single request. -/
example : let r := createReport ones 0 twoReports [ask "q" "s" 60 10 ["a", "b"]]
    (r.1.jobs, r.1.lists, r.1.requests, r.2) =
      ([⟨0, .str "q", .cron (cronConfig (seconds 10) false)⟩], [[.str "a", .str "b"]],
       [⟨.str "q", .str "s", some (seconds 60), 0, some (seconds 10), some 0⟩], ([], .ok ⟨200, [.str "q"]⟩)) := by decide +kernel

/-- The data points that are sampled when the report of a request is updated. -/
def sampledBy (s : VenReports) (q : String) : List Value := (updateReport ones 0 s (.str q)).2.1.map SampleCall.rId

/-- **C58, refuted** for two requests in one message: both share one list of data points. A data point of the first request is also one of the second. -/
theorem c58_shared_points_violated :
    let s := (createReport ones 0 twoReports [ask "q1" "s" 60 10 ["a"], ask "q2" "s" 60 10 ["b"]]).1
    sampledBy s "q1" = [.str "a", .str "b"] ∧ sampledBy s "q2" = [.str "a", .str "b"] := by decide +kernel

/-- **C58, refuted**: a request for a single report makes all later periodic requests of the same message single ones, too: no job is made. -/
theorem c58_single_spreads_violated :
    let r := createReport ones 0 twoReports [ask "q1" "s" 60 0 ["a"], ask "q2" "s" 60 10 ["b"]]
    r.1.jobs = [] ∧ r.2.2 = .ok ⟨200, [.str "q1", .str "q2"]⟩ ∧
    (createReport ones 0 twoReports [ask "q2" "s" 60 10 ["b"]]).1.jobs = [⟨0, .str "q2", .cron (cronConfig (seconds 10) false)⟩] := by decide +kernel

/-- **C58, refuted**: of two single reports that are to start later, both jobs send the report of the second request. -/
theorem c58_late_target_violated :
    let r := createReport ones 0 twoReports [{ ask "q1" "s" 0 0 ["a"] with start := some 100 }, { ask "q2" "s" 0 0 ["b"] with start := some 200 }]
    r.1.jobs = [⟨0, .str "q2", .date 100⟩, ⟨1, .str "q2", .date 200⟩] := by decide +kernel

/-- **C58, refuted**: a request for a report that does not exist is accepted. -/
theorem c58_unknown_report_violated :
    let r := createReport ones 0 twoReports [ask "q" "zzz" 60 10 ["a"]]
    r.2.2 = .ok ⟨200, [.str "q"]⟩ ∧ r.1.requests.map VenRequest.requestId = [.str "q"] ∧ r.1.jobs = [] := by decide +kernel

/-- **C58, refuted**: a data point that does not exist is left out without an error. -/
theorem c58_unknown_point_violated :
    let r := createReport ones 0 twoReports [ask "q" "s" 60 10 ["a", "zzz"]]
    r.2.2 = .ok ⟨200, [.str "q"]⟩ ∧ r.1.lists = [[.str "a"]] := by decide +kernel

/-- **C58, refuted** for numeric-looking specifier ids, which the parser turns into numbers: the request ends in an exception, no reply is sent. -/
theorem c58_numeric_id_violated (user : Sampler) (now : Int) (s : VenReports) (q : Value) (n : Int) (b : Option Int) (g : Option (Option Int))
    (st : Option Int) (p : SpecPayload) (ps : List SpecPayload) :
    (createReport user now s [⟨q, .int n, b, g, st, p :: ps⟩]).2.2 = .error .typeError := by
  simp [createReport, handleRequests, handleRequest, namesInvalid, pyIn]

/-- **C58, refuted** for a request without report-back interval: the request ends in an exception, no reply is sent. -/
theorem c58_no_report_back_violated :
    (createReport ones 0 twoReports [{ ask "q" "s" 60 10 ["a"] with reportBack := none }]).2.2 = .error .attributeError := by decide +kernel

end Openleadr
