import Verif.Model.VenEvents
import Verif.Lemmas.Dict
import Verif.Lemmas.Events
/-!
Lemmas about the events of the VEN.
-/
namespace Openleadr

/-- The received events with this id. -/
def ofId (id : String) (l : List Event) : List Event := l.filter (fun e => decide (e.id = id))

theorem find_ofId (id : String) (l : List Event) : l.find? (fun r => decide (r.id = id)) = (ofId id l).head? := by
  rw [ofId, List.head?_filter]

theorem ofId_append (id : String) (l m : List Event) : ofId id (l ++ m) = ofId id l ++ ofId id m := by simp [ofId]

theorem ofId_dropFirst_self (id : String) (l : List Event) : ofId id (dropFirst id l) = (ofId id l).tail := by
  induction l with
  | nil => rfl
  | cons e l ih =>
    by_cases h : e.id = id
    · simp [dropFirst, ofId, h]
    · simp only [dropFirst, h, if_false]
      rw [show ofId id (e :: dropFirst id l) = ofId id (dropFirst id l) by simp [ofId, h],
        show ofId id (e :: l) = ofId id l by simp [ofId, h], ih]

theorem ofId_dropFirst_other (id id' : String) (l : List Event) (h : id' ≠ id) : ofId id' (dropFirst id l) = ofId id' l := by
  induction l with
  | nil => rfl
  | cons e l ih =>
    by_cases he : e.id = id
    · have : ¬ e.id = id' := fun h' => h (h'.symm.trans he)
      simp only [dropFirst, ofId, he, if_true, List.filter_cons]
      rw [if_neg (by simpa using Ne.symm h)]
    · simp only [dropFirst, he, if_false]
      simp only [ofId, List.filter_cons] at ih ⊢
      split <;> simp_all

theorem ofId_statusLog (id : String) (clock : Nat → Int) (l : List Event) (i : Nat) :
    (ofId id (statusLog clock i l)).map (fun e => (e.id, e.modnum, e.activePeriod)) =
      (ofId id l).map (fun e => (e.id, e.modnum, e.activePeriod)) := by
  induction l generalizing i with
  | nil => rfl
  | cons e l ih =>
    simp only [statusLog]
    by_cases hc : e.status = .cancelled
    · rw [if_pos hc]
      by_cases h : e.id = id
      · simp only [ofId, List.filter_cons, h, decide_true, if_true, List.map_cons] at ih ⊢; rw [ih]
      · simp only [ofId, List.filter_cons, h, decide_false, Bool.false_eq_true, if_false] at ih ⊢; rw [ih]
    · rw [if_neg hc]
      by_cases h : e.id = id
      · have h' : ({ e with descriptor := { e.descriptor with status := determineStatus (clock i) e.activePeriod } } : Event).id = id := h
        simp only [ofId, List.filter_cons, h, decide_true, if_true, List.map_cons] at ih ⊢; rw [ih]
      · have h' : ¬ ({ e with descriptor := { e.descriptor with status := determineStatus (clock i) e.activePeriod } } : Event).id = id := h
        simp only [ofId, List.filter_cons, h, decide_false, Bool.false_eq_true, if_false] at ih ⊢; rw [ih]

/-- A log entry changes only statuses, and never to cancelled. -/
theorem statusLog_mem (clock : Nat → Int) (l : List Event) (i : Nat) (e' : Event) (h : e' ∈ statusLog clock i l) :
    ∃ e ∈ l, e'.id = e.id ∧ e'.modnum = e.modnum ∧ e'.activePeriod = e.activePeriod ∧ (e'.status = .cancelled → e.status = .cancelled) := by
  induction l generalizing i with
  | nil => simp [statusLog] at h
  | cons e l ih =>
    simp only [statusLog, List.mem_cons] at h
    rcases h with rfl | h
    · by_cases hc : e.status = .cancelled
      · rw [if_pos hc]; exact ⟨e, by simp, rfl, rfl, rfl, fun h => h⟩
      · rw [if_neg hc]
        refine ⟨e, by simp, rfl, rfl, rfl, fun h => ?_⟩
        exfalso
        simp only [Event.status, determineStatus] at h
        split at h
        · cases h
        · split at h
          · cases h
          · split at h
            · split at h <;> cases h
            · cases h
    · obtain ⟨x, hx, hr⟩ := ih _ h
      exact ⟨x, by simp [hx], hr⟩

theorem cleanupFrom_eq_filter (now : Int) (j : Nat) (l : List Event) :
    cleanupFrom (fun _ => now) j l = l.filter (fun e => decide (¬ (e.status = .cancelled ∨ determineStatus now e.activePeriod = .completed))) := by
  induction l generalizing j with
  | nil => rfl
  | cons e l ih =>
    simp only [cleanupFrom, List.filter_cons, ih]
    split <;> simp_all

theorem cleanupFrom_sublist (clock : Nat → Int) (j : Nat) (l : List Event) : (cleanupFrom clock j l).Sublist l := by
  induction l generalizing j with
  | nil => exact List.Sublist.refl _
  | cons e l ih =>
    simp only [cleanupFrom]
    split
    · exact (ih _).cons _
    · exact (ih _).cons_cons _

theorem cleanup_sublist (clock : Nat → Int) (l : List Event) : (cleanup clock l).Sublist l := by
  have := cleanupFrom_sublist clock 0 l.reverse
  unfold cleanup
  have h := this.reverse
  rwa [List.reverse_reverse] at h

/-- What a clean-up keeps: filtering by a condition that kept events meet gives the same. -/
theorem cleanupFrom_keeps (clock : Nat → Int) (p : Event → Bool) (j : Nat) (l : List Event)
    (h : ∀ e ∈ l, p e = true → e.status ≠ .cancelled ∧ ∀ i, determineStatus (clock i) e.activePeriod ≠ .completed) :
    (cleanupFrom clock j l).filter p = l.filter p := by
  induction l generalizing j with
  | nil => rfl
  | cons e l ih =>
    have ih' := fun j => ih j (fun x hx => h x (by simp [hx]))
    simp only [cleanupFrom, List.filter_cons]
    by_cases hp : p e = true
    · have := h e (by simp) hp
      simp [this.1, this.2, hp, ih']
    · split
      · simp [ih']
      · simp [hp, ih']

theorem cleanup_keeps (clock : Nat → Int) (p : Event → Bool) (l : List Event)
    (h : ∀ e ∈ l, p e = true → e.status ≠ .cancelled ∧ ∀ i, determineStatus (clock i) e.activePeriod ≠ .completed) :
    (cleanup clock l).filter p = l.filter p := by
  unfold cleanup
  rw [List.filter_reverse, cleanupFrom_keeps clock p 0 l.reverse (fun e he => h e (List.mem_reverse.mp he)), List.filter_reverse,
    List.reverse_reverse]

/-! ### results and responses -/

theorem decideAll_length (h : VenHandlers) (calls : List VenCall) (s : VenState) (es : List Event) (s' : VenState) (calls' : List VenCall)
    (vs : List Value) (hd : decideAll h calls s es = (s', calls', .ok vs)) : vs.length = es.length := by
  induction es generalizing calls s vs with
  | nil => simp only [decideAll, Prod.mk.injEq, Except.ok.injEq] at hd; simp [← hd.2.2]
  | cons e es ih =>
    simp only [decideAll] at hd
    cases h1 : decideEvent h calls s e with
    | mk s1 x =>
      obtain ⟨c1, r1⟩ := x
      rw [h1] at hd
      cases r1 with
      | error err => simp at hd
      | ok v =>
        simp only at hd
        cases h2 : decideAll h c1 { s1 with responded := remember s1.responded e v } es with
        | mk s2 y =>
          obtain ⟨c2, r2⟩ := y
          rw [h2] at hd
          cases r2 with
          | error err => simp at hd
          | ok ws =>
            simp only [Prod.mk.injEq, Except.ok.injEq] at hd
            obtain ⟨rfl, rfl, rfl⟩ := hd
            simp [ih _ _ _ h2]

theorem fixResults_length (es : List Event) (vs : List Value) (h : vs.length = es.length) : (fixResults es vs).length = es.length := by
  induction es generalizing vs with
  | nil => cases vs <;> simp [fixResults]
  | cons e es ih =>
    cases vs with
    | nil => simp at h
    | cons v vs => simp only [fixResults, List.length_cons]; rw [ih vs (by simpa using h)]

theorem resultsOf_length (h : VenHandlers) (calls : List VenCall) (s : VenState) (m : EventMessage) :
    (resultsOf h calls s m).2.2.2.length = m.events.length := by
  unfold resultsOf
  split
  · split
    · simp
    · split
      · rename_i hd; exact fixResults_length _ _ (decideAll_length _ _ _ _ _ _ _ hd)
      · simp
  · simp

end Openleadr
