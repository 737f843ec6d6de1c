import Verif.Lemmas.Events
/-!
C16 Event status follows the clock. C17 The active period spans the intervals exactly. C18 Ordering events neither loses nor repeats
events. C19 Active events come first. C20 Among active events higher priority comes first. C21 The reply limit bounds the number of events.
C22 Statuses are refreshed before sending and cancellation is final.
-/
namespace Openleadr
open Spec

/-- **C16**: the status is exactly the one that the clock gives. -/
theorem c16_status_by_clock (p : ActivePeriod) (now : Int) (s : Status) : StatusAt p now s ↔ s = determineStatus now p := by
  simp only [StatusAt, determineStatus]
  constructor
  · rintro (⟨rfl, h1, h2⟩ | ⟨rfl, h1, h2⟩ | ⟨rfl, h1, r, h3, h4⟩ | ⟨rfl, h1, h2⟩)
    · rw [if_pos (by omega)]
    · rw [if_neg (by omega), if_pos (by omega)]
    · rw [if_neg (by omega), if_neg (by omega), h3]; simp [h4]
    · rw [if_neg (by omega), if_neg (by omega)]
      cases hr : p.rampUp with
      | none => rfl
      | some r => have := h2 r hr; simp only; rw [if_neg (by omega)]
  · rintro rfl
    split
    · left; exact ⟨rfl, by omega, by omega⟩
    · split
      · right; left; exact ⟨rfl, by omega, by omega⟩
      · cases hr : p.rampUp with
        | none => right; right; right; exact ⟨rfl, by omega, by simp⟩
        | some r =>
          simp only
          split
          · right; right; left; exact ⟨rfl, by omega, r, rfl, by omega⟩
          · right; right; right; exact ⟨rfl, by omega, by intro r' h; cases h; omega⟩

/-- **C16**: as time goes on, the status only moves forward. -/
theorem c16_status_moves_forward (p : ActivePeriod) (t t' : Int) (h : t ≤ t') :
    progress (determineStatus t p) ≤ progress (determineStatus t' p) := by
  have h1 := (c16_status_by_clock p t _).mpr rfl
  have h2 := (c16_status_by_clock p t' _).mpr rfl
  rcases h1 with ⟨e, h1⟩ | ⟨e, h1⟩ | ⟨e, h1, r, h3⟩ | ⟨e, h1⟩ <;>
    rcases h2 with ⟨e', h2⟩ | ⟨e', h2⟩ | ⟨e', h2, r', h4⟩ | ⟨e', h2⟩ <;>
      rw [e, e'] <;> simp only [progress] <;> try omega
  have := h2.2 r h3.1
  omega

/-- non-vacuity: all four statuses occur for one period. -/
example : let p : ActivePeriod := { dtstart := 100, duration := 50, rampUp := some 20 }
    determineStatus 0 p = .far ∧ determineStatus 80 p = .near ∧ determineStatus 100 p = .active ∧ determineStatus 150 p = .completed := by
  decide

/-- **C17**: the period starts at the earliest start and ends at the latest end. -/
theorem c17_period_spans_intervals (intervals : List (Int × Int)) (p : ActivePeriod) (h : activePeriodOf intervals = .ok p) :
    (∃ i ∈ intervals, i.1 = p.dtstart) ∧ (∀ i ∈ intervals, p.dtstart ≤ i.1) ∧
    (∃ i ∈ intervals, i.1 + i.2 = p.dtstart + p.duration) ∧ (∀ i ∈ intervals, i.1 + i.2 ≤ p.dtstart + p.duration) := by
  cases intervals with
  | nil => simp [activePeriodOf] at h
  | cons i rest =>
    simp only [activePeriodOf, Except.ok.injEq] at h
    subst h
    simp only
    obtain ⟨h1, h2⟩ := minList_spec i.1 (rest.map (fun j => j.1))
    obtain ⟨h3, h4⟩ := maxList_spec (i.1 + i.2 - minList i.1 (rest.map (fun j => j.1)))
      (rest.map (fun j => j.1 + j.2 - minList i.1 (rest.map (fun j => j.1))))
    generalize minList i.1 (rest.map (fun j => j.1)) = s at *
    generalize maxList _ _ = d at *
    simp only [List.mem_cons, List.mem_map, forall_eq_or_imp, forall_exists_index, and_imp, forall_apply_eq_imp_iff₂,
      exists_eq_or_imp] at *
    refine ⟨?_, ⟨h2.1, h2.2⟩, ?_, ⟨by omega, fun j hj => by have := h4.2 j hj; omega⟩⟩
    · rcases h1 with h1 | ⟨j, hj, hj'⟩
      · exact .inl h1.symm
      · exact .inr ⟨j, hj, hj'⟩
    · rcases h3 with h3 | ⟨j, hj, hj'⟩
      · exact .inl (by omega)
      · exact .inr ⟨j, hj, by omega⟩

/-- **C17**: every non-empty list has a period, and the order of the intervals does not matter. -/
theorem c17_period_any_order (intervals intervals' : List (Int × Int)) (hne : intervals ≠ []) (hp : intervals.Perm intervals') :
    ∃ p, activePeriodOf intervals = .ok p ∧ activePeriodOf intervals' = .ok p := by
  have ex : ∀ l : List (Int × Int), l ≠ [] → ∃ p, activePeriodOf l = .ok p := by
    intro l hl
    cases l with
    | nil => exact absurd rfl hl
    | cons i rest => exact ⟨_, rfl⟩
  obtain ⟨p, h⟩ := ex _ hne
  obtain ⟨p', h'⟩ := ex intervals' (by rintro rfl; exact hne hp.eq_nil)
  refine ⟨p, h, ?_⟩
  rw [h']
  obtain ⟨⟨a, ha, ha'⟩, h2, ⟨b, hb, hb'⟩, h4⟩ := c17_period_spans_intervals _ _ h
  obtain ⟨⟨c, hc, hc'⟩, h6, ⟨d, hd, hd'⟩, h8⟩ := c17_period_spans_intervals _ _ h'
  have e1 : p.dtstart = p'.dtstart := by
    have := h6 a (hp.mem_iff.mp ha); have := h2 c (hp.mem_iff.mpr hc); omega
  have e2 : p.duration = p'.duration := by
    have := h8 b (hp.mem_iff.mp hb); have := h4 d (hp.mem_iff.mpr hd); omega
  have plain : ∀ l q, activePeriodOf l = .ok q → q = { dtstart := q.dtstart, duration := q.duration } := by
    intro l q hq
    cases l with
    | nil => simp [activePeriodOf] at hq
    | cons i r => simp only [activePeriodOf, Except.ok.injEq] at hq; rw [← hq]
  rw [plain _ _ h, plain _ _ h', e1, e2]

/-- non-vacuity: overlapping intervals out of order. -/
example : activePeriodOf [(100, 10), (50, 100), (120, 5)] = .ok { dtstart := 50, duration := 100 } := by decide

/-- **C22**: each stored event is compared with the clock: a cancelled event is unchanged; any other event has the status that the clock
    gives, gets a new creation time exactly when that is a change, and nothing else in it changes. -/
theorem c22_statuses_refreshed (clock : Nat → Int) (events : List Event) (limit offset : Option Nat) :
    (orderEvents clock events limit offset).stored.length = events.length ∧
    ∀ (n : Nat) (e e' : Event), events[n]? = some e → (orderEvents clock events limit offset).stored[n]? = some e' →
      SameBut e e' ∧
      (e.status = .cancelled → e' = e) ∧
      (e.status ≠ .cancelled → ∃ now now', StatusAt e.activePeriod now e'.status ∧ now = clock (2 * n) ∧ now' = clock (2 * n + 1) ∧
        e'.descriptor.created = if e'.status = e.status then e.descriptor.created else some now') := by
  have hs : (orderEvents clock events limit offset).stored = refreshAll clock 0 events := by
    simp only [orderEvents]; split <;> rfl
  rw [hs]
  refine ⟨refreshAll_length _ _ _, ?_⟩
  intro n e e' he he'
  obtain ⟨hn, rfl⟩ := List.getElem?_eq_some_iff.mp he
  obtain ⟨hn', rfl⟩ := List.getElem?_eq_some_iff.mp he'
  rw [refreshAll_getElem clock 0 events n hn]
  simp only [Nat.zero_add]
  generalize events[n] = e
  refine ⟨refresh_same _ _ _, ?_, ?_⟩
  · intro hc; simp [refresh, hc]
  · intro hc
    refine ⟨_, _, (c16_status_by_clock _ _ _).mpr ?_, rfl, rfl, ?_⟩
    · simp only [refresh]
      rw [if_pos hc]
      split
      · rfl
      · rename_i h; exact Decidable.not_not.mp h
    · simp only [refresh]
      rw [if_pos hc]
      split
      · rename_i h
        have h' : ¬ determineStatus (clock (2 * n)) e.activePeriod = e.status := fun x => h x.symm
        simp [h']
      · simp

/-- **C22**: the returned events are those stored events (cancelled ones stay cancelled whatever the clock). -/
theorem c22_returned_are_stored (clock : Nat → Int) (events : List Event) (limit offset : Option Nat) (e : Event)
    (h : e ∈ (orderEvents clock events limit offset).result) : e ∈ (orderEvents clock events limit offset).stored := by
  simp only [orderEvents] at *
  split at h
  · rename_i h1; rw [if_pos h1]; exact h
  · rename_i h1; rw [if_neg h1]
    have : e ∈ arrange (refreshAll clock 0 events) := by
      simp only [window] at h
      split at h
      · split at h
        · simp only [slice] at h
          exact List.mem_of_mem_drop (List.mem_of_mem_take h)
        · exact h
      · exact h
    exact (arrange_perm _).mem_iff.mp this

/-- non-vacuity: a far event that has become active and a cancelled one. -/
example : let d : Descriptor := { eventId := "a", modificationNumber := 0, marketContext := "oadr://x", status := .far }
    let e : Event := { descriptor := d, signals := [], activePeriod := { dtstart := 10, duration := 5 } }
    let c : Event := { e with descriptor := { d with status := .cancelled } }
    (orderEvents (fun i => 10 + i) [c, e] none none).stored =
      [c, { e with descriptor := { d with status := .active, created := some 13 } }] := by decide

/-- **C18**: without a limit, the returned list contains exactly the stored events, each as often as it is stored. -/
theorem c18_order_is_permutation (clock : Nat → Int) (events : List Event) :
    (orderEvents clock events none none).result.Perm (orderEvents clock events none none).stored := by
  simp only [orderEvents]
  split
  · exact List.Perm.refl _
  · simp only [window]; exact arrange_perm _

/-- **C18**: in terms of identifiers: the list of ids and modification numbers returned is a permutation of that of the queue. -/
theorem c18_same_identifiers (clock : Nat → Int) (events : List Event) :
    ((orderEvents clock events none none).result.map (fun e => (e.id, e.modnum))).Perm
      (events.map (fun e => (e.id, e.modnum))) := by
  refine ((c18_order_is_permutation clock events).map _).trans ?_
  have hs : (orderEvents clock events none none).stored = refreshAll clock 0 events := by
    simp only [orderEvents]; split <;> rfl
  rw [hs]
  have : ∀ i, (refreshAll clock i events).map (fun e => (e.id, e.modnum)) = events.map (fun e => (e.id, e.modnum)) := by
    induction events with
    | nil => intro i; rfl
    | cons e l ih =>
      intro i
      simp only [refreshAll, List.map_cons]
      rw [ih (by simp only [orderEvents]; split <;> rfl)]
      rw [refresh_id, refresh_modnum]
  rw [this]

/-- **C19**: every active event comes before every event that is not active. -/
theorem c19_active_first (clock : Nat → Int) (events : List Event) :
    (orderEvents clock events none none).result.Pairwise (fun a b => b.status = .active → a.status = .active) := by
  simp only [orderEvents]
  split
  · rename_i h
    obtain ⟨x, hx⟩ := List.length_eq_one_iff.mp h
    rw [hx]; simp
  · exact arrange_active_first _

/-- **C19**: among the events that are not active, the earlier start comes first. -/
theorem c19_others_by_start (clock : Nat → Int) (events : List Event) :
    (orderEvents clock events none none).result.Pairwise
      (fun a b => a.status ≠ .active → b.status ≠ .active → a.activePeriod.dtstart ≤ b.activePeriod.dtstart) := by
  simp only [orderEvents]
  split
  · rename_i h
    obtain ⟨x, hx⟩ := List.length_eq_one_iff.mp h
    rw [hx]; simp
  · refine (arrange_start _).imp ?_
    intro a b h ha hb
    exact h ⟨fun x => absurd x ha, fun x => absurd x hb⟩

/-- **C19**: not active events with the same start keep the order of the queue. -/
theorem c19_ties_keep_order (clock : Nat → Int) (events : List Event) (start : Int) :
    (orderEvents clock events none none).result.filter (fun e => decide (e.activePeriod.dtstart = start) && decide (e.status ≠ .active)) =
    (orderEvents clock events none none).stored.filter (fun e => decide (e.activePeriod.dtstart = start) && decide (e.status ≠ .active)) := by
  simp only [orderEvents]
  split
  · rfl
  · exact arrange_stable_other _ _

/-- **C20, refuted**: of two active events the one with the lower priority comes first because it started earlier. -/
theorem c20_priority_order_violated : ∃ (events : List Event) (a b : Event),
    (orderEvents (fun _ => 100) events none none).result = [a, b] ∧ a.status = .active ∧ b.status = .active ∧
    HigherPriority b.descriptor.priority a.descriptor.priority := by
  let high : Event :=
    { descriptor := { eventId := "high", modificationNumber := 0, marketContext := "m", status := .active, priority := some 1 },
      signals := [], activePeriod := { dtstart := 90, duration := 100 } }
  let low : Event :=
    { descriptor := { eventId := "low", modificationNumber := 0, marketContext := "m", status := .active, priority := some 3 },
      signals := [], activePeriod := { dtstart := 80, duration := 100 } }
  exact ⟨[high, low], low, high, by decide +kernel, rfl, rfl, 1, rfl, by decide, .inr (.inr ⟨3, rfl, by decide⟩)⟩

/-- **C20** (partial: active events that start at the same time): the higher priority comes first. Missing: active events with different
    starts are ordered by start, whatever their priorities (`c20_start_first`). -/
theorem c20_priority_order_partial (clock : Nat → Int) (events : List Event) :
    (orderEvents clock events none none).result.Pairwise (fun a b => a.activePeriod.dtstart = b.activePeriod.dtstart →
      a.status = .active → b.status = .active → ¬ HigherPriority b.descriptor.priority a.descriptor.priority) := by
  simp only [orderEvents]
  split
  · rename_i h
    obtain ⟨x, hx⟩ := List.length_eq_one_iff.mp h
    rw [hx]; simp
  · simp only [window]
    have := pairwise_of_filter (fun a b => prioLe a b = true) (fun e : Event => e.activePeriod.dtstart)
      (fun e => decide (e.status = .active)) (arrange (refreshAll clock 0 events)) ?_
    · refine this.imp ?_
      intro a b h h1 h2 h3
      exact not_higher_of_prioLe a b (h h1 (by simpa using h2) (by simpa using h3))
    · intro s
      rw [arrange_active_block]
      refine List.Pairwise.sublist List.filter_sublist ?_
      rw [sortByPriority_eq]
      exact stableSort_pairwise prioLe prioLe_trans prioLe_total _

/-- **C20**, what the code does instead: among active events the earlier start always comes first. -/
theorem c20_start_first (clock : Nat → Int) (events : List Event) :
    (orderEvents clock events none none).result.Pairwise
      (fun a b => a.status = .active → b.status = .active → a.activePeriod.dtstart ≤ b.activePeriod.dtstart) := by
  simp only [orderEvents]
  split
  · rename_i h
    obtain ⟨x, hx⟩ := List.length_eq_one_iff.mp h
    rw [hx]; simp
  · refine (arrange_start _).imp ?_
    intro a b h ha hb
    exact h ⟨fun _ => hb, fun _ => ha⟩

/-- non-vacuity: three active events with one start, priorities 0, 2, 1 come out as 1, 2, 0. -/
example : let e (id : String) (p : Int) : Event :=
      { descriptor := { eventId := id, modificationNumber := 0, marketContext := "m", status := .active, priority := some p },
        signals := [], activePeriod := { dtstart := 90, duration := 100 } }
    (orderEvents (fun _ => 100) [e "a" 0, e "b" 2, e "c" 1] none none).result = [e "c" 1, e "b" 2, e "a" 0] := by decide +kernel

/-- **C21** (partial: limit and offset both given and not zero, and not exactly one event): the result is that window of the ordered list
    and not longer than the limit. -/
theorem c21_window_partial (clock : Nat → Int) (events : List Event) (limit offset : Nat) (hl : limit ≠ 0) (ho : offset ≠ 0)
    (h1 : events.length ≠ 1) :
    (orderEvents clock events (some limit) (some offset)).result =
      ((orderEvents clock events none none).result.drop offset).take limit ∧
    (orderEvents clock events (some limit) (some offset)).result.length ≤ limit := by
  have h : (orderEvents clock events (some limit) (some offset)).result =
      ((orderEvents clock events none none).result.drop offset).take limit := by
    simp only [orderEvents, refreshAll_length, h1, if_false, window, slice]
    rw [if_pos ⟨hl, ho⟩]
    have : offset + limit - offset = limit := by omega
    rw [this]
  refine ⟨h, ?_⟩
  rw [h, List.length_take]; omega

/-- **C21, refuted** for the other cases: a limit without an offset or with offset 0 is ignored, and a lone event is returned whatever
    the offset. -/
theorem c21_limit_ignored_violated :
    (∃ events, 1 < (orderEvents (fun _ => 0) events (some 1) none).result.length) ∧
    (∃ events, 1 < (orderEvents (fun _ => 0) events (some 1) (some 0)).result.length) ∧
    (∃ events, (orderEvents (fun _ => 0) events (some 1) (some 1)).result ≠ (events.drop 1).take 1) := by
  let e : Event := { descriptor := { eventId := "a", modificationNumber := 0, marketContext := "m", status := .far },
                     signals := [], activePeriod := { dtstart := 90, duration := 100 } }
  exact ⟨⟨[e, e], by decide +kernel⟩, ⟨[e, e], by decide +kernel⟩, ⟨[e], by decide +kernel⟩⟩

/-- non-vacuity -/
example : let e (id : String) : Event :=
      { descriptor := { eventId := id, modificationNumber := 0, marketContext := "m", status := .far },
        signals := [], activePeriod := { dtstart := 90, duration := 100 } }
    (orderEvents (fun _ => 0) [e "a", e "b", e "c"] (some 1) (some 1)).result = [e "b"] := by decide +kernel

end Openleadr
