import Verif.Props.VenSampling
/-!
C60: a cancelled report stops.  C61: the report sender.
-/
namespace Openleadr

/-! ### What holds in every reachable state -/

/-- Something that happens to the reports of a client. -/
inductive ReportOp
  | add (a : AddReport)
  | create (user : Sampler) (now : Int) (requests : List ReportRequest)
  | tick (user : Sampler) (now : Int) (q : Value)
  | cancel (user user' : Sampler) (now now' : Int) (c : CancelReport)

def ReportOp.apply (newId : Nat → String) (s : VenReports) : ReportOp → VenReports
  | .add a => (addReport newId s a).1
  | .create user now requests => (createReport user now s requests).1
  | .tick user now q => (updateReport user now s q).1
  | .cancel user user' now now' c => (cancelReport user user' now now' s c).1

/-- The states of a client after any history, from its creation. -/
def venState (newId : Nat → String) (ops : List ReportOp) : VenReports := ops.foldl (ReportOp.apply newId) newVenReports

/-- Jobs have different numbers, all below the next one; each belongs to one request at most; reports in progress are filed under their request. -/
structure VenInv (s : VenReports) : Prop where
  jobs : JobsNumbered s
  owned : ∀ rq ∈ s.requests, ∀ j, rq.job = some j → j < s.jobIds
  distinct : (s.requests.filterMap VenRequest.job).Nodup
  keyed : Keyed s

theorem VenInv.sameBut {s s' : VenReports} {q : Value} (h : VenInv s) (hs : SameBut q s s') (hk : Keyed s') : VenInv s' :=
  ⟨by intro j hj; rw [hs.jobs] at hj; rw [hs.jobIds]; exact h.jobs j hj, by rw [hs.requests, hs.jobIds]; exact h.owned,
   by rw [hs.requests]; exact h.distinct, hk⟩

theorem updateReport_inv (user : Sampler) (now : Int) (s : VenReports) (q : Value) (h : VenInv s) : VenInv (updateReport user now s q).1 :=
  h.sameBut (updateReport_sameBut user now s q) (updateReport_keyed user now s q h.keyed).1

theorem retargetJob_id (first : Nat) (q : Value) (j : Job) : (retargetJob first q j).id = j.id := by
  unfold retargetJob
  cases j.trigger with
  | cron c => rfl
  | date t => simp only []; split <;> rfl

theorem retarget_inv (first : Nat) (q : Value) (s : VenReports) (h : VenInv s) : VenInv { s with jobs := retarget first q s.jobs } := by
  refine ⟨?_, h.owned, h.distinct, h.keyed⟩
  intro j hj
  simp only [retarget, List.mem_map] at hj
  obtain ⟨j', hj', rfl⟩ := hj
  rw [retargetJob_id]; exact h.jobs j' hj'

theorem lists_inv (l : List (List Value)) (s : VenReports) (h : VenInv s) : VenInv { s with lists := l } := ⟨h.jobs, h.owned, h.distinct, h.keyed⟩

/-- A new request without a job. -/
theorem request_inv (rq : VenRequest) (hrq : rq.job = none) (s : VenReports) (h : VenInv s) : VenInv { s with requests := s.requests ++ [rq] } := by
  refine ⟨h.jobs, ?_, ?_, h.keyed⟩
  · intro x hx j hj
    rcases List.mem_append.mp hx with hx | hx
    · exact h.owned x hx j hj
    · simp only [List.mem_singleton] at hx; subst hx; rw [hrq] at hj; cases hj
  · simp [List.filterMap_append, hrq, h.distinct]

/-- A new job that belongs to a new request. -/
theorem job_request_inv (rq : VenRequest) (s : VenReports) (hrq : rq.job = some s.jobIds) (target : Value) (trigger : Trigger) (h : VenInv s) :
    VenInv { s with jobs := s.jobs ++ [⟨s.jobIds, target, trigger⟩], jobIds := s.jobIds + 1, requests := s.requests ++ [rq] } := by
  refine ⟨?_, ?_, ?_, h.keyed⟩
  · intro j hj
    simp only [List.mem_append, List.mem_singleton] at hj
    rcases hj with hj | rfl
    · exact Nat.lt_succ_of_lt (h.jobs j hj)
    · exact Nat.lt_succ_self _
  · intro x hx j hj
    simp only [List.mem_append, List.mem_singleton] at hx
    rcases hx with hx | rfl
    · exact Nat.lt_succ_of_lt (h.owned x hx j hj)
    · rw [hrq] at hj; injection hj with hj; subst hj; exact Nat.lt_succ_self _
  · simp only [List.filterMap_append, List.filterMap_cons, hrq, List.filterMap_nil]
    rw [List.nodup_append]
    refine ⟨h.distinct, by simp, ?_⟩
    intro a ha b hb
    simp only [List.mem_singleton] at hb
    subst hb
    obtain ⟨rq', hrq', hj⟩ := List.mem_filterMap.mp ha
    have := h.owned rq' hrq' a hj
    omega

/-- A new job that belongs to no request. -/
theorem job_inv (s : VenReports) (target : Value) (trigger : Trigger) (h : VenInv s) :
    VenInv { s with jobs := s.jobs ++ [⟨s.jobIds, target, trigger⟩], jobIds := s.jobIds + 1 } := by
  refine ⟨?_, ?_, h.distinct, h.keyed⟩
  · intro j hj
    simp only [List.mem_append, List.mem_singleton] at hj
    rcases hj with hj | rfl
    · exact Nat.lt_succ_of_lt (h.jobs j hj)
    · exact Nat.lt_succ_self _
  · intro x hx j hj
    exact Nat.lt_succ_of_lt (h.owned x hx j hj)

theorem handleRequest_inv (user : Sampler) (now : Int) (first lst : Nat) (single : Bool) (s : VenReports) (rr : ReportRequest) (h : VenInv s) :
    VenInv (handleRequest user now first lst single s rr).1 := by
  unfold handleRequest
  cases rr.payloads with
  | nil => exact h
  | cons p0 ps =>
    simp only []
    cases namesInvalid rr.specifierId with
    | error e => exact h
    | ok inv =>
      simp only []
      split
      · exact h
      · have h0 := retarget_inv first rr.requestId s h
        cases rr.granularity with
        | none => exact h0
        | some g =>
          simp only []
          cases s.reports.find? (fun r => decide (Value.str r.specifierId = rr.specifierId)) with
          | none => exact request_inv _ rfl _ h0
          | some report =>
            simp only []
            cases acceptPoints s.heap report.points (p0 :: ps) g single ((s.lists[lst]?).getD []) with
            | mk acc rest =>
              obtain ⟨g', sg, res⟩ := rest
              have h1 := lists_inv (s.lists.set lst acc) _ h0
              cases res with
              | error e => exact h1
              | ok u =>
                simp only []
                cases jobPeriod sg rr.reportBack g' with
                | error e => exact h1
                | ok o =>
                  cases o with
                  | some interval =>
                    simp only []
                    split
                    · exact job_request_inv ⟨rr.requestId, rr.specifierId, rr.reportBack, lst, g', some s.jobIds⟩
                        { s with jobs := retarget first rr.requestId s.jobs, lists := s.lists.set lst acc } rfl _ _ h1
                    · exact h1
                  | none =>
                    simp only []
                    have h2 := request_inv ⟨rr.requestId, rr.specifierId, rr.reportBack, lst, g', none⟩ rfl _ h1
                    cases rr.start with
                    | some t => exact job_inv _ _ _ h2
                    | none =>
                      simp only []
                      have h3 := updateReport_inv user now _ rr.requestId h2
                      generalize updateReport user now _ rr.requestId = u at h3
                      obtain ⟨s3, calls, res⟩ := u
                      cases res with
                      | error e => exact h3
                      | ok u => exact h3

theorem createReport_inv (user : Sampler) (now : Int) (s : VenReports) (requests : List ReportRequest) (h : VenInv s) :
    VenInv (createReport user now s requests).1 := by
  have loop : ∀ (first lst : Nat) (rrs : List ReportRequest) (single refused : Bool) (s : VenReports), VenInv s →
      VenInv (handleRequests user now first lst rrs single refused s).1 := by
    intro first lst rrs
    induction rrs with
    | nil => intro single refused s h; exact h
    | cons rr rrs ih =>
      intro single refused s h
      have h1 := handleRequest_inv user now first lst single s rr h
      simp only [handleRequests]
      generalize handleRequest user now first lst single s rr = u at h1
      obtain ⟨s1, calls, single', res⟩ := u
      cases res with
      | error e => exact h1
      | ok r => exact ih single' (refused || r) s1 h1
  unfold createReport
  simp only []
  have h1 := loop s.jobIds s.lists.length requests false false { s with lists := s.lists ++ [[]] } (lists_inv _ s h)
  generalize handleRequests user now s.jobIds s.lists.length requests false false { s with lists := s.lists ++ [[]] } = u at h1
  obtain ⟨s1, calls, res⟩ := u
  cases res <;> exact h1

theorem removeRequest_sublist (q : Value) (l : List VenRequest) : (removeRequest q l).Sublist l := by
  induction l with
  | nil => exact List.Sublist.refl _
  | cons r rs ih =>
    simp only [removeRequest]
    split
    · exact List.sublist_cons_self _ _
    · exact List.Sublist.cons_cons _ ih

theorem cancelReport_inv (user user' : Sampler) (now now' : Int) (s : VenReports) (c : CancelReport) (h : VenInv s) :
    VenInv (cancelReport user user' now now' s c).1 := by
  have hrem : ∀ (q : Value) (s : VenReports), VenInv s → VenInv { s with requests := removeRequest q s.requests } := by
    intro q s h
    have hsub := removeRequest_sublist q s.requests
    exact ⟨h.jobs, fun rq hrq => h.owned rq (hsub.subset hrq), List.Sublist.nodup (hsub.filterMap _) h.distinct, h.keyed⟩
  unfold cancelReport
  cases s.requests.find? (fun r => decide (r.requestId = c.requestId)) with
  | none => exact h
  | some rq =>
    simp only []
    generalize hfirst : (if ((s.lists[rq.rIds]?).getD []).length > 0 then updateReport user now s c.requestId else (s, [], .ok ())) = first
    have h1 : VenInv first.1 := by
      rw [← hfirst]
      split
      · exact updateReport_inv user now s c.requestId h
      · exact h
    obtain ⟨s1, calls, res⟩ := first
    cases res with
    | error e => exact h1
    | ok u =>
      simp only []
      have h2 : ∀ p : Job → Bool, VenInv { s1 with jobs := s1.jobs.filter p } := fun p =>
        ⟨fun j hj => h1.jobs j (List.mem_filter.mp hj).1, h1.owned, h1.distinct, h1.keyed⟩
      have finish : ∀ s2 : VenReports, VenInv s2 → VenInv (match c.messageId, c.toFollow with
          | none, _ => (s2, calls, (.error .keyError : Res (Option CanceledReport)))
          | _, none => (s2, calls, .error .keyError)
          | some m, some true =>
            match updateReport user' now' s2 c.requestId with
            | (s3, calls', .error e) => (s3, calls ++ calls', .error e)
            | (s3, calls', .ok ()) =>
              ({ s3 with requests := removeRequest c.requestId s3.requests }, calls ++ calls', .ok (some ⟨m, c.requestId, [c.requestId]⟩))
          | some m, some false => ({ s2 with requests := removeRequest c.requestId s2.requests }, calls, .ok (some ⟨m, c.requestId, []⟩))).1 := by
        intro s2 h2
        cases c.messageId with
        | none => exact h2
        | some m =>
          cases c.toFollow with
          | none => exact h2
          | some b =>
            cases b with
            | false => exact hrem _ _ h2
            | true =>
              simp only []
              have h3 := updateReport_inv user' now' s2 c.requestId h2
              generalize updateReport user' now' s2 c.requestId = u at h3
              obtain ⟨s3, calls', res⟩ := u
              cases res with
              | error e => exact h3
              | ok u => exact hrem _ _ h3
      cases rq.job with
      | none => exact finish s1 h1
      | some j =>
        simp only [removeJob]
        by_cases hany : s1.jobs.any (fun x => decide (x.id = j)) = true
        · rw [if_pos hany]; exact finish _ (h2 _)
        · rw [if_neg hany]; exact h1

theorem addReport_inv (newId : Nat → String) (s : VenReports) (a : AddReport) (h : VenInv s) : VenInv (addReport newId s a).1 := by
  unfold addReport
  cases checkAdd a with
  | error e => exact h
  | ok u =>
    simp only []
    cases itemBase s.heap a with
    | error e => exact h
    | ok r =>
      obtain ⟨heap, ref⟩ := r
      simp only []
      cases applyScale heap ref a.scale with
      | error e => exact h
      | ok heap =>
        simp only []
        split
        · exact h
        · cases findOffer s.reports a <;> exact ⟨h.jobs, h.owned, h.distinct, h.keyed⟩

theorem venState_inv (newId : Nat → String) (ops : List ReportOp) : VenInv (venState newId ops) := by
  have : ∀ s, VenInv s → VenInv (ops.foldl (ReportOp.apply newId) s) := by
    induction ops with
    | nil => exact fun s h => h
    | cons op ops ih =>
      intro s h
      refine ih _ ?_
      cases op with
      | add a => exact addReport_inv newId s a h
      | create user now rs => exact createReport_inv user now s rs h
      | tick user now q => exact updateReport_inv user now s q h
      | cancel user user' now now' c => exact cancelReport_inv user user' now now' s c h
  exact this _ ⟨(by intro j hj; cases hj), (by intro rq hrq; cases hrq), (by simp [newVenReports]), (by intro k o hk; cases hk)⟩

/-! ### Cancelling -/

theorem removeRequest_split (q : Value) (l : List VenRequest) (rq : VenRequest) (h : l.find? (fun r => decide (r.requestId = q)) = some rq) :
    ∃ pre post, l = pre ++ rq :: post ∧ rq.requestId = q ∧ (∀ r ∈ pre, r.requestId ≠ q) ∧ removeRequest q l = pre ++ post := by
  induction l with
  | nil => cases h
  | cons r rs ih =>
    simp only [List.find?_cons] at h
    by_cases hr : r.requestId = q
    · simp only [hr, decide_true, Option.some.injEq] at h
      subst h
      exact ⟨[], rs, rfl, hr, by simp, by simp [removeRequest, hr]⟩
    · simp only [hr, decide_false] at h
      obtain ⟨pre, post, h1, h2, h3, h4⟩ := ih h
      refine ⟨r :: pre, post, by rw [h1]; rfl, h2, ?_, by simp [removeRequest, hr, h4]⟩
      intro x hx
      rcases List.mem_cons.mp hx with rfl | hx
      · exact hr
      · exact h3 x hx

/-- The calls of callbacks at the ticks of `q`, in a run of ticks of any reports. -/
def sampleCalls (q : Value) : VenReports → List Tick → List SampleCall
  | _, [] => []
  | s, t :: ts =>
    let r := updateReport t.user t.now s t.request
    (if t.request = q then r.2.1 else []) ++ sampleCalls q r.1 ts

/-- Without a request nothing is sampled. -/
theorem sampleCalls_none (q : Value) (ticks : List Tick) (s : VenReports) (h : ∀ r ∈ s.requests, r.requestId ≠ q) : sampleCalls q s ticks = [] := by
  induction ticks generalizing s with
  | nil => rfl
  | cons t ts ih =>
    simp only [sampleCalls]
    have hs := updateReport_sameBut t.user t.now s t.request
    rw [ih (updateReport t.user t.now s t.request).1 (by rw [hs.requests]; exact h), List.append_nil]
    by_cases htq : t.request = q
    · rw [if_pos htq, htq]
      unfold updateReport
      rw [List.find?_eq_none.mpr (by intro r hr; simp [h r hr])]
    · rw [if_neg htq]

/-- **C60.** A cancellation that ends without an error: the request is no longer there, its job neither; the other requests, their jobs, their reports in
    progress and the offer are as before, and only reports of the cancelled request were queued. The reply answers the message, and names the request
    as pending if and only if a report is to follow. If the ids of the requests are different, nothing
    is sampled for the cancelled one afterwards, whatever jobs still fire. -/
theorem c60_cancelled (user user' : Sampler) (now now' : Int) (s s' : VenReports) (hinv : VenInv s) (c : CancelReport) (calls : List SampleCall)
    (reply : CanceledReport) (h : cancelReport user user' now now' s c = (s', calls, .ok (some reply))) :
    ∃ rq pre post, s.requests = pre ++ rq :: post ∧ rq.requestId = c.requestId ∧ (∀ r ∈ pre, r.requestId ≠ c.requestId) ∧ s'.requests = pre ++ post ∧
      s'.jobs = s.jobs.filter (fun j => decide (some j.id ≠ rq.job)) ∧ (∀ r ∈ pre ++ post, ∀ j ∈ s.jobs, r.job = some j.id → j ∈ s'.jobs) ∧
      (∀ k, k ≠ c.requestId → getIncomplete s'.incomplete k = getIncomplete s.incomplete k) ∧ s'.reports = s.reports ∧ s'.callbacks = s.callbacks ∧
      s'.lists = s.lists ∧ (∃ new, s'.pending = s.pending ++ new ∧ ∀ o ∈ new, o.requestId = c.requestId) ∧
      ((s.requests.map VenRequest.requestId).Nodup → ∀ ticks, sampleCalls c.requestId s' ticks = []) ∧
      c.messageId = some reply.messageId ∧ reply.requestId = c.requestId ∧
      (c.toFollow = some true ∧ reply.pendingIds = [c.requestId] ∨ c.toFollow = some false ∧ reply.pendingIds = []) := by
  unfold cancelReport at h
  cases hf : s.requests.find? (fun r => decide (r.requestId = c.requestId)) with
  | none => rw [hf] at h; simp at h
  | some rq =>
    rw [hf] at h
    simp only [] at h
    generalize hfirst : (if ((s.lists[rq.rIds]?).getD []).length > 0 then updateReport user now s c.requestId else (s, [], .ok ())) = first at h
    have h1 : SameBut c.requestId s first.1 ∧ Keyed first.1 ∧ ∃ new, first.1.pending = s.pending ++ new ∧ ∀ o ∈ new, o.requestId = c.requestId := by
      rw [← hfirst]
      split
      · exact ⟨updateReport_sameBut user now s c.requestId, updateReport_keyed user now s c.requestId hinv.keyed⟩
      · exact ⟨SameBut.refl _ _, hinv.keyed, [], by simp, by simp⟩
    obtain ⟨s1, calls1, res⟩ := first
    obtain ⟨hs1, hk1, new1, hp1, hn1⟩ := h1
    cases res with
    | error e => simp at h
    | ok u =>
      simp only [] at h hs1 hk1 hp1
      generalize hrem : removeJob s1 rq.job = removed at h
      cases removed with
      | error e => simp at h
      | ok s2 =>
        have hs2 : s2 = { s1 with jobs := s1.jobs.filter (fun j => decide (some j.id ≠ rq.job)) } := by
          cases hj : rq.job with
          | none =>
            rw [hj] at hrem
            simp only [removeJob, Except.ok.injEq] at hrem
            rw [← hrem]
            have : s1.jobs.filter (fun j => decide (some j.id ≠ none)) = s1.jobs := List.filter_eq_self.mpr (by simp)
            rw [this]
          | some j =>
            rw [hj] at hrem
            simp only [removeJob] at hrem
            split at hrem
            · simp only [Except.ok.injEq] at hrem
              rw [← hrem]; simp
            · cases hrem
        have hk2 : Keyed s2 := by rw [hs2]; exact hk1
        simp only [] at h
        have hfin : (∃ s3, s' = { s3 with requests := removeRequest c.requestId s3.requests } ∧ SameBut c.requestId s2 s3 ∧
            ∃ new, s3.pending = s2.pending ++ new ∧ ∀ o ∈ new, o.requestId = c.requestId) ∧
            c.messageId = some reply.messageId ∧ reply.requestId = c.requestId ∧
            (c.toFollow = some true ∧ reply.pendingIds = [c.requestId] ∨ c.toFollow = some false ∧ reply.pendingIds = []) := by
          cases hmi : c.messageId with
          | none => rw [hmi] at h; simp at h
          | some m =>
          rw [hmi] at h
          cases htf : c.toFollow with
          | none => rw [htf] at h; simp at h
          | some b =>
            rw [htf] at h
            cases b with
            | false =>
              simp only [Prod.mk.injEq, Except.ok.injEq, Option.some.injEq] at h
              obtain ⟨h1, -, rfl⟩ := h
              exact ⟨⟨s2, h1.symm, SameBut.refl _ _, [], by simp, by simp⟩, rfl, rfl, .inr ⟨rfl, rfl⟩⟩
            | true =>
              simp only [] at h
              have hu := updateReport_sameBut user' now' s2 c.requestId
              have hk3 := (updateReport_keyed user' now' s2 c.requestId hk2).2
              generalize updateReport user' now' s2 c.requestId = u3 at h hu hk3
              obtain ⟨s3, calls3, res3⟩ := u3
              cases res3 with
              | error e => simp at h
              | ok u =>
                simp only [Prod.mk.injEq, Except.ok.injEq, Option.some.injEq] at h
                obtain ⟨h1, -, rfl⟩ := h
                exact ⟨⟨s3, h1.symm, hu, hk3⟩, rfl, rfl, .inl ⟨rfl, rfl⟩⟩
        obtain ⟨⟨s3, rfl, hs3, new3, hp3, hn3⟩, hreply⟩ := hfin
        obtain ⟨pre, post, e1, e2, e3, e4⟩ := removeRequest_split c.requestId s.requests rq hf
        have hreq : removeRequest c.requestId s3.requests = pre ++ post := by
          rw [hs3.requests, hs2]; simp only []; rw [hs1.requests]; exact e4
        have hjobs : s3.jobs = s.jobs.filter (fun j => decide (some j.id ≠ rq.job)) := by
          rw [hs3.jobs, hs2]; simp only []; rw [hs1.jobs]
        refine ⟨rq, pre, post, e1, e2, e3, hreq, hjobs, ?_, ?_, ?_, ?_, ?_, ⟨new1 ++ new3, ?_, ?_⟩, ?_, hreply⟩
        · intro r hr j hj hrj
          simp only []
          rw [hjobs, List.mem_filter]
          refine ⟨hj, ?_⟩
          simp only [ne_eq, decide_eq_true_eq]
          intro hc
          have hd := hinv.distinct
          rw [e1, List.filterMap_append, List.filterMap_cons, ← hc] at hd
          simp only [List.nodup_append, List.nodup_cons, List.mem_cons] at hd
          rcases List.mem_append.mp hr with hr | hr
          · exact hd.2.2 j.id (List.mem_filterMap.mpr ⟨r, hr, hrj⟩) j.id (Or.inl rfl) rfl
          · exact hd.2.1.1 (List.mem_filterMap.mpr ⟨r, hr, hrj⟩)
        · intro k hk
          rw [show getIncomplete ({ s3 with requests := removeRequest c.requestId s3.requests } : VenReports).incomplete k = getIncomplete s3.incomplete k
            from rfl, hs3.incomplete k hk, hs2]
          exact hs1.incomplete k hk
        · rw [show ({ s3 with requests := removeRequest c.requestId s3.requests } : VenReports).reports = s3.reports from rfl, hs3.reports, hs2]
          exact hs1.reports
        · rw [show ({ s3 with requests := removeRequest c.requestId s3.requests } : VenReports).callbacks = s3.callbacks from rfl, hs3.callbacks, hs2]
          exact hs1.callbacks
        · rw [show ({ s3 with requests := removeRequest c.requestId s3.requests } : VenReports).lists = s3.lists from rfl, hs3.lists, hs2]
          exact hs1.lists
        · simp only []; rw [hp3, hs2]; simp only []; rw [hp1]; simp
        · intro o ho
          rcases List.mem_append.mp ho with ho | ho
          · exact hn1 o ho
          · exact hn3 o ho
        · intro hnd ticks
          apply sampleCalls_none
          simp only []
          rw [hreq]
          intro r hr
          rcases List.mem_append.mp hr with hr | hr
          · exact e3 r hr
          · rw [e1, List.map_append, List.map_cons, List.nodup_append, List.nodup_cons] at hnd
            intro hc
            apply hnd.2.1.1
            rw [e2, ← hc]
            exact List.mem_map_of_mem hr

/-- **C60.** Cancelling a request that does not exist changes nothing and samples nothing. -/
theorem c60_unknown (user user' : Sampler) (now now' : Int) (s : VenReports) (c : CancelReport) (h : ∀ r ∈ s.requests, r.requestId ≠ c.requestId) :
    cancelReport user user' now now' s c = (s, [], .ok none) := by
  unfold cancelReport
  rw [List.find?_eq_none.mpr (by intro r hr; simp [h r hr])]

/-- A client with two periodic requests. -/
def twoRequests : VenReports :=
  (createReport ones 0 (createReport ones 0 twoReports [ask "q" "s" 30 10 ["a", "b"]]).1 [ask "p" "t" 30 10 ["c"]]).1

/-- non-vacuity: a cancellation of one of two requests. -/
example : let r := cancelReport ones ones 5 6 twoRequests ⟨.str "q", some true, some (.str "m")⟩
    (r.1.requests.map VenRequest.requestId, r.1.jobs.map Job.target, r.2.1.map SampleCall.rId, r.2.2) =
      ([.str "p"], [.str "p"], [.str "a", .str "b", .str "a", .str "b"], .ok (some ⟨.str "m", .str "q", [.str "q"]⟩)) := by decide +kernel
example : twoRequests = venState newId [.add { addVoltage with specifierId := some "s", rId := some "a" },
    .add { addVoltage with specifierId := some "s", rId := some "b" },
    .add { addVoltage with name := "HISTORY_USAGE", specifierId := some "t", rId := some "c" }, .create ones 0 [ask "q" "s" 30 10 ["a", "b"]],
    .create ones 0 [ask "p" "t" 30 10 ["c"]]] := by rfl

/-- **C60, refuted** if the last update before the cancellation fails: the request and its job stay, and samples are taken for it for ever. -/
theorem c60_last_update_violated :
    let r := cancelReport ones ones 5 6 (asked 15 10 ["a"]) ⟨.str "q", some false, some (.str "m")⟩
    r.2.2 = .error .keyError ∧ r.1.jobs.map Job.target = [.str "q"] ∧ (sampleCalls (.str "q") r.1 (clock 2)).length = 2 := by decide +kernel

/-- **C60, refuted** for a message without `report_to_follow`: the request stays. -/
theorem c60_no_follow_violated :
    let r := cancelReport ones ones 5 6 twoRequests ⟨.str "q", none, some (.str "m")⟩
    r.2.2 = .error .keyError ∧ r.1.requests.map VenRequest.requestId = [.str "q", .str "p"] := by decide +kernel

/-- **C60, refuted** for what was already collected: it is not forgotten. A later request with the same id begins with the samples taken for the
    cancelled one. -/
theorem c60_old_samples_violated :
    let s := (cancelReport ones ones 5 6 (asked 30 10 ["a"]) ⟨.str "q", some false, some (.str "m")⟩).1
    let s' := (createReport ones 100 s [ask "q" "s" 30 10 ["a"]]).1
    sentValues s' ((clock 2).map (fun t => { t with now := t.now + 200 })) = [[.int 1, .int 0, .int 1]] := by decide +kernel

/-- **C60, refuted** for a single report that is to be taken later: its job stays, and fires. (It then fails without a sample.) -/
theorem c60_date_job_violated :
    let s := (createReport ones 0 twoReports [{ ask "q" "s" 0 0 ["a"] with start := some 100 }]).1
    let s' := (cancelReport ones ones 5 6 s ⟨.str "q", some false, some (.str "m")⟩).1
    s'.requests = [] ∧ s'.jobs = [⟨0, .str "q", .date 100⟩] := by decide +kernel

/-! ### The sender -/

/-- Something that happens to the sender. -/
inductive SendStep
  | put (r : OutReport)
  | turn (o : SendOutcome)

def Sender.step (w : Sender) : SendStep → Sender
  | .put r => w.put r
  | .turn o => w.turn o

def Sender.run (w : Sender) (steps : List SendStep) : Sender := steps.foldl Sender.step w

/-- The reports put into the queue. -/
def putReports : List SendStep → List OutReport
  | [] => []
  | .put r :: l => r :: putReports l
  | .turn _ :: l => putReports l

/-- The VTN answered with a message, or the exchange failed. -/
def SendOutcome.Answered : SendOutcome → Prop
  | .failed => True
  | .reply _ _ => True
  | _ => False

theorem cancel_not_found (o : SendOutcome) (ho : o.Answered) (ht : ∀ t p, o = .reply t p → t ≠ "cancel_report") :
    pyIn "cancel_report" o.result = .ok false := by
  cases o with
  | failed => rfl
  | reply t p =>
    have := ht t p rfl
    simp [SendOutcome.result, pyIn, Ne.symm this]
  | noMessage e => cases ho
  | emptyReply => cases ho

/-- **C61** (partial: each turn ends with an answer of the VTN or a failed exchange). Whatever is put into the queue at whatever times, the reports sent and
    those still queued are, together, the reports put there, in order and each exactly once, and the sender is running; every turn with a non-empty queue sends one. -/
theorem c61_in_order_partial (steps : List SendStep)
    (h : ∀ o, .turn o ∈ steps → o.Answered ∧ ∀ t p, o = .reply t p → t ≠ "cancel_report") :
    let w := Sender.run ⟨true, [], [], []⟩ steps
    w.sent ++ w.queue = putReports steps ∧ w.running = true := by
  have key : ∀ (steps : List SendStep) (w : Sender), w.running = true →
      (∀ o, .turn o ∈ steps → o.Answered ∧ ∀ t p, o = .reply t p → t ≠ "cancel_report") →
      (w.run steps).sent ++ (w.run steps).queue = w.sent ++ w.queue ++ putReports steps ∧ (w.run steps).running = true := by
    intro steps
    induction steps with
    | nil => intro w hw _; simp [Sender.run, putReports, hw]
    | cons st steps ih =>
      intro w hw hall
      have hall' : ∀ o, .turn o ∈ steps → o.Answered ∧ ∀ t p, o = .reply t p → t ≠ "cancel_report" := fun o ho => hall o (by simp [ho])
      simp only [Sender.run, List.foldl_cons]
      have ih' := ih (w.step st)
      simp only [Sender.run] at ih'
      cases st with
      | put r =>
        obtain ⟨a, b⟩ := ih' hw hall'
        exact ⟨by rw [a]; simp [Sender.step, Sender.put, putReports], b⟩
      | turn o =>
        obtain ⟨ho, ht⟩ := hall o (by simp)
        have hstep : (w.step (.turn o)).running = true ∧ (w.step (.turn o)).sent ++ (w.step (.turn o)).queue = w.sent ++ w.queue := by
          simp only [Sender.step, Sender.turn, hw, if_true]
          cases hq : w.queue with
          | nil => simp [hw, hq]
          | cons r q =>
            have hin := cancel_not_found o ho ht
            cases o with
            | noMessage e => cases ho
            | emptyReply => cases ho
            | failed => simp only [hin]; simp
            | reply t p => simp only [hin]; simp
        obtain ⟨a, b⟩ := ih' hstep.1 hall'
        exact ⟨by rw [a, hstep.2]; simp [putReports], b⟩
  have := key steps ⟨true, [], [], []⟩ rfl h
  simpa using this

/-- **C61.** A turn with a report in the queue sends the first one, and no other. -/
theorem c61_one_at_a_time (w : Sender) (r : OutReport) (q : List OutReport) (hw : w.running = true) (hq : w.queue = r :: q) (o : SendOutcome)
    (ho : ∀ e, o ≠ .noMessage e) : (w.turn o).sent = w.sent ++ [r] ∧ (w.turn o).queue = q := by
  simp only [Sender.turn, hw, if_true, hq]
  cases o with
  | noMessage e => exact absurd rfl (ho e)
  | _ => split <;> exact ⟨rfl, rfl⟩

/-- **C61.** A report is never sent twice or out of order, whatever happens: what is sent is always an initial part of what was put into the queue, unless
    making a message failed. -/
theorem c61_never_twice (steps : List SendStep) (h : ∀ e, .turn (.noMessage e) ∉ steps) :
    (Sender.run ⟨true, [], [], []⟩ steps).sent <+: putReports steps := by
  have key : ∀ (steps : List SendStep) (w : Sender), (∀ e, .turn (.noMessage e) ∉ steps) →
      (w.run steps).sent ++ (w.run steps).queue = w.sent ++ w.queue ++ putReports steps := by
    intro steps
    induction steps with
    | nil => intro w _; simp [Sender.run, putReports]
    | cons st steps ih =>
      intro w hall
      have ih' := ih (w.step st) (fun e he => hall e (by simp [he]))
      simp only [Sender.run] at ih'
      simp only [Sender.run, List.foldl_cons]
      rw [ih']
      cases st with
      | put r => simp [Sender.step, Sender.put, putReports]
      | turn o =>
        have hstep : (w.step (.turn o)).sent ++ (w.step (.turn o)).queue = w.sent ++ w.queue := by
          simp only [Sender.step]
          cases hw : w.running with
          | false => simp [Sender.turn, hw]
          | true =>
            cases hq : w.queue with
            | nil => simp [Sender.turn, hw, hq]
            | cons r q =>
              obtain ⟨a, b⟩ := c61_one_at_a_time w r q hw hq o (fun e he => hall e (by simp [he]))
              rw [a, b]; simp
        rw [hstep]; simp [putReports]
  have := key steps ⟨true, [], [], []⟩ h
  simp only [List.append_nil, List.nil_append] at this
  exact ⟨_, this⟩

/-- **C61, refuted** for an empty reply: it ends the sender. -/
theorem c61_empty_reply_violated (w : Sender) (r : OutReport) (q : List OutReport) (hw : w.running = true) (hq : w.queue = r :: q) (later : List SendStep) :
    ((w.turn .emptyReply).run later).running = false ∧ ((w.turn .emptyReply).run later).sent = w.sent ++ [r] := by
  have h0 : (w.turn .emptyReply).running = false ∧ (w.turn .emptyReply).sent = w.sent ++ [r] := by
    simp [Sender.turn, hw, hq, SendOutcome.result, pyIn]
  have key : ∀ (later : List SendStep) (w' : Sender), w'.running = false → (w'.run later).running = false ∧ (w'.run later).sent = w'.sent := by
    intro later
    induction later with
    | nil => intro w' h; exact ⟨h, rfl⟩
    | cons st l ih =>
      intro w' h
      simp only [Sender.run, List.foldl_cons]
      have ih' := ih (w'.step st)
      simp only [Sender.run] at ih'
      cases st with
      | put r => exact ih' h
      | turn o =>
        have : w'.step (.turn o) = w' := by simp [Sender.step, Sender.turn, h]
        rw [this] at ih' ⊢
        exact ih' h
  obtain ⟨a, b⟩ := key later _ h0.1
  exact ⟨a, by rw [b, h0.2]⟩

/-- **C61, refuted** for a report that cannot be made into a message: it is lost and ends the sender. -/
theorem c61_no_message_violated (w : Sender) (r : OutReport) (q : List OutReport) (hw : w.running = true) (hq : w.queue = r :: q) (e : Err) :
    (w.turn (.noMessage e)).running = false ∧ (w.turn (.noMessage e)).sent = w.sent ∧ (w.turn (.noMessage e)).queue = q := by
  simp [Sender.turn, hw, hq]

/-- **C73, refuted**: a cancellation that the VTN sends along with its answer to a report is never acted upon. For every payload, also with a
    `cancel_report`, the turn does nothing but send the report. -/
theorem c73_cancel_with_answer_violated (w : Sender) (r : OutReport) (q : List OutReport) (hw : w.running = true) (hq : w.queue = r :: q) (p : Dict) :
    w.turn (.reply "oadrUpdatedReport" p) = { w with queue := q, sent := w.sent ++ [r] } := by
  simp [Sender.turn, hw, hq, SendOutcome.result, pyIn]

/-- non-vacuity: three reports, two turns. -/
example : let o (n : Int) : OutReport := ⟨.int n, "s", "n", none, []⟩
    let w := Sender.run ⟨true, [], [], []⟩ [.put (o 1), .put (o 2), .turn .failed, .put (o 3), .turn (.reply "oadrUpdatedReport" [])]
    (w.sent, w.queue, w.running) = ([o 1, o 2], [o 3], true) := by decide +kernel

end Openleadr
