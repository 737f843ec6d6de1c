import Verif.Model.VenReports
import Verif.Lemmas.Callbacks
/-!
What `update_report` leaves alone, and what it collects.
-/
namespace Openleadr

theorem getIncomplete_set_self (d : List (Value × OutReport)) (k : Value) (v : OutReport) : getIncomplete (setIncomplete d k v) k = some v := by
  induction d with
  | nil => simp [setIncomplete, getIncomplete]
  | cons e r ih =>
    obtain ⟨k', v'⟩ := e
    by_cases h : k' = k <;> simp [setIncomplete, getIncomplete, h, ih]

theorem getIncomplete_set_other (d : List (Value × OutReport)) (k k' : Value) (v : OutReport) (h : k' ≠ k) :
    getIncomplete (setIncomplete d k v) k' = getIncomplete d k' := by
  induction d with
  | nil => simp [setIncomplete, getIncomplete, Ne.symm h]
  | cons e r ih =>
    obtain ⟨k0, v0⟩ := e
    by_cases h0 : k0 = k
    · subst h0; simp [setIncomplete, getIncomplete, Ne.symm h]
    · simp only [setIncomplete, h0, if_false, getIncomplete, ih]

theorem getIncomplete_erase_self (d : List (Value × OutReport)) (k : Value) : getIncomplete (eraseIncomplete d k) k = none := by
  induction d with
  | nil => rfl
  | cons e r ih =>
    obtain ⟨k', v'⟩ := e
    simp only [eraseIncomplete, List.filter_cons]
    by_cases h : k' = k
    · simp only [h, ne_eq, not_true_eq_false, decide_false, Bool.false_eq_true, if_false]; exact ih
    · simp only [h, ne_eq, not_false_eq_true, decide_true, if_true, getIncomplete, if_false]; exact ih

theorem getIncomplete_erase_other (d : List (Value × OutReport)) (k k' : Value) (h : k' ≠ k) :
    getIncomplete (eraseIncomplete d k) k' = getIncomplete d k' := by
  induction d with
  | nil => rfl
  | cons e r ih =>
    obtain ⟨k0, v0⟩ := e
    simp only [eraseIncomplete, List.filter_cons]
    by_cases h0 : k0 = k
    · have h1 : k0 ≠ k' := fun e => h (e.symm.trans h0)
      simp only [h0, ne_eq, not_true_eq_false, decide_false, Bool.false_eq_true, if_false, getIncomplete]
      rw [if_neg (fun e => h e.symm)]; exact ih
    · simp only [h0, ne_eq, not_false_eq_true, decide_true, if_true, getIncomplete]
      by_cases h1 : k0 = k'
      · rw [if_pos h1, if_pos h1]
      · rw [if_neg h1, if_neg h1]; exact ih

/-- Two states that agree on everything but the queue and the report in progress for `q`. -/
structure SameBut (q : Value) (s s' : VenReports) : Prop where
  heap : s'.heap = s.heap
  reports : s'.reports = s.reports
  callbacks : s'.callbacks = s.callbacks
  requests : s'.requests = s.requests
  lists : s'.lists = s.lists
  jobs : s'.jobs = s.jobs
  ids : s'.ids = s.ids
  jobIds : s'.jobIds = s.jobIds
  incomplete : ∀ k, k ≠ q → getIncomplete s'.incomplete k = getIncomplete s.incomplete k
  pending : ∃ new, s'.pending = s.pending ++ new ∧ ∀ o ∈ new, o.requestId = q ∨ getIncomplete s.incomplete q ≠ none

theorem SameBut.refl (q : Value) (s : VenReports) : SameBut q s s :=
  ⟨rfl, rfl, rfl, rfl, rfl, rfl, rfl, rfl, fun _ _ => rfl, [], by simp, by simp⟩

theorem sameBut_incomplete (q : Value) (s : VenReports) (d : List (Value × OutReport))
    (h : ∀ k, k ≠ q → getIncomplete d k = getIncomplete s.incomplete k) : SameBut q s { s with incomplete := d } :=
  ⟨rfl, rfl, rfl, rfl, rfl, rfl, rfl, rfl, h, [], by simp, by simp⟩

/-- `update_report` only touches the queue and the report in progress of its request. -/
theorem updateReport_sameBut (user : Sampler) (now : Int) (s : VenReports) (q : Value) : SameBut q s (updateReport user now s q).1 := by
  unfold updateReport
  cases s.requests.find? (fun r => decide (r.requestId = q)) with
  | none => exact SameBut.refl q s
  | some rq =>
    simp only []
    cases s.reports.find? (fun r => decide (Value.str r.specifierId = rq.specifierId)) with
    | none => exact SameBut.refl q s
    | some report =>
      simp only []
      generalize hout : (getIncomplete s.incomplete q).getD ⟨q, report.specifierId, outName report.name, none, []⟩ = out
      have hnew : out.requestId = q ∨ getIncomplete s.incomplete q ≠ none := by
        cases hg : getIncomplete s.incomplete q with
        | none => rw [hg] at hout; left; rw [← hout]; rfl
        | some x => right; simp
      cases hc : collect s user now rq report out.intervals with
      | mk calls rest =>
        obtain ⟨intervals, res⟩ := rest
        cases res with
        | error e =>
          simp only [keepPartial]
          cases getIncomplete s.incomplete q with
          | none => exact SameBut.refl q s
          | some o =>
            simp only []
            split
            · exact SameBut.refl q s
            · exact sameBut_incomplete q s _ (fun k hk => getIncomplete_set_other _ _ _ _ hk)
        | ok u =>
          simp only []
          cases expectedLen report.full rq.reportBack rq.granularity ((s.lists[rq.rIds]?).getD []).length with
          | error e =>
            simp only []
            cases getIncomplete s.incomplete q with
            | none => exact SameBut.refl q s
            | some o => exact sameBut_incomplete q s _ (fun k hk => getIncomplete_set_other _ _ _ _ hk)
          | ok o =>
            cases o with
            | none =>
              refine ⟨rfl, rfl, rfl, rfl, rfl, rfl, rfl, rfl, ?_, [finished out intervals], rfl, ?_⟩
              · intro k hk
                simp only []
                cases getIncomplete s.incomplete q with
                | none => rfl
                | some o => exact getIncomplete_set_other _ _ _ _ hk
              · intro o ho; simp only [List.mem_singleton] at ho; subst ho; exact hnew
            | some n =>
              simp only []
              split
              · cases hg : getIncomplete s.incomplete q with
                | none => exact SameBut.refl q s
                | some o =>
                  refine ⟨rfl, rfl, rfl, rfl, rfl, rfl, rfl, rfl, ?_, [finished out intervals], rfl, ?_⟩
                  · intro k hk; exact getIncomplete_erase_other _ _ _ hk
                  · intro o' ho; right; rw [hg]; simp
              · exact sameBut_incomplete q s _ (fun k hk => getIncomplete_set_other _ _ _ _ hk)

/-- The calls made while collecting in full mode: an initial part of the requested data points; all of them if nothing is raised. -/
theorem collectFull_calls (callbacks : List ((Value × Value) × Value)) (user : Sampler) (spec : Value) (ask : SampleAsk) (rs : List Value)
    (acc : List OutInterval) :
    (collectFull callbacks user spec ask rs acc).1.map SampleCall.rId <+: rs ∧
    ((collectFull callbacks user spec ask rs acc).2.2 = .ok () → (collectFull callbacks user spec ask rs acc).1.map SampleCall.rId = rs) ∧
    ∀ c ∈ (collectFull callbacks user spec ask rs acc).1, c.ask = ask ∧ getCallback callbacks (spec, c.rId) = some c.callback := by
  induction rs generalizing acc with
  | nil => simp [collectFull]
  | cons r rs ih =>
    simp only [collectFull]
    cases hcb : getCallback callbacks (spec, r) with
    | none => simp
    | some cb =>
      simp only []
      cases user ⟨cb, r, ask⟩ with
      | number v => simp [hcb]
      | series l e =>
        simp only []
        cases e with
        | some e => simp [hcb]
        | none =>
          simp only []
          obtain ⟨ih1, ih2, ih3⟩ := ih (acc ++ l.map (fun p => ⟨p.1, r, p.2, none⟩))
          cases hcf : collectFull callbacks user spec ask rs (acc ++ l.map (fun p => ⟨p.1, r, p.2, none⟩)) with
          | mk calls rest =>
            obtain ⟨acc'', res⟩ := rest
            rw [hcf] at ih1 ih2 ih3
            refine ⟨?_, ?_, ?_⟩
            · simpa using ih1
            · intro h; simp only [List.map_cons]; rw [ih2 h]
            · intro c hc
              rcases List.mem_cons.mp hc with rfl | hc
              · exact ⟨rfl, hcb⟩
              · exact ih3 c hc

/-- The calls made in incremental mode: an initial part of the requested data points with a callback; all of them if nothing is raised. -/
theorem collectIncremental_calls (callbacks : List ((Value × Value) × Value)) (user : Sampler) (spec : Value) (now : Int) (usage : Bool)
    (b g : Option Int) (rs : List Value) (acc : List OutInterval) :
    (collectIncremental callbacks user spec now usage b g rs acc).1.map SampleCall.rId <+: rs.filter (fun r => (getCallback callbacks (spec, r)).isSome) ∧
    ((collectIncremental callbacks user spec now usage b g rs acc).2.2 = .ok () →
      (collectIncremental callbacks user spec now usage b g rs acc).1.map SampleCall.rId = rs.filter (fun r => (getCallback callbacks (spec, r)).isSome)) ∧
    ∀ c ∈ (collectIncremental callbacks user spec now usage b g rs acc).1, c.ask = .now ∧ getCallback callbacks (spec, c.rId) = some c.callback := by
  induction rs generalizing acc with
  | nil => simp [collectIncremental]
  | cons r rs ih =>
    simp only [collectIncremental]
    cases hcb : getCallback callbacks (spec, r) with
    | none =>
      simp only []
      rw [List.filter_cons]
      simp only [hcb, Option.isSome_none, Bool.false_eq_true, if_false]
      exact ih acc
    | some cb =>
      simp only []
      rw [List.filter_cons]
      simp only [hcb, Option.isSome_some, if_true]
      generalize (user ⟨cb, r, .now⟩).pairs now = answer
      have hrec : ∀ acc', (let x := collectIncremental callbacks user spec now usage b g rs acc'
          (List.map SampleCall.rId (⟨cb, r, .now⟩ :: x.1) <+: r :: rs.filter (fun r => (getCallback callbacks (spec, r)).isSome) ∧
            (x.2.2 = .ok () → List.map SampleCall.rId (⟨cb, r, .now⟩ :: x.1) = r :: rs.filter (fun r => (getCallback callbacks (spec, r)).isSome)) ∧
            ∀ c ∈ (⟨cb, r, .now⟩ : SampleCall) :: x.1, c.ask = .now ∧ getCallback callbacks (spec, c.rId) = some c.callback)) := by
        intro acc'
        obtain ⟨ih1, ih2, ih3⟩ := ih acc'
        refine ⟨by simpa using ih1, fun h => by rw [List.map_cons, ih2 h], ?_⟩
        intro c hc
        rcases List.mem_cons.mp hc with rfl | hc
        · exact ⟨rfl, hcb⟩
        · exact ih3 c hc
      cases happ : appendSamples usage b g r answer.1 acc with
      | mk acc' res =>
        cases res with
        | error e => simp [hcb]
        | ok u =>
          simp only []
          have := hrec acc'
          cases hx : collectIncremental callbacks user spec now usage b g rs acc' with
          | mk calls rest =>
            obtain ⟨acc'', res''⟩ := rest
            rw [hx] at this
            cases answer.2 with
            | none => exact this
            | some e =>
              cases e with
              | keyError => exact this
              | _ => simp [hcb]

end Openleadr
