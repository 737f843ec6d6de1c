import Verif.Spec.Events
/-! Helper lemmas for statuses, periods and ordering. -/
namespace Openleadr
open Spec

theorem minList_spec (a : Int) (l : List Int) : minList a l ∈ a :: l ∧ ∀ x ∈ a :: l, minList a l ≤ x := by
  induction l generalizing a with
  | nil => simp [minList]
  | cons b l ih =>
    simp only [minList]
    obtain ⟨h1, h2⟩ := ih (min a b)
    simp only [List.mem_cons, forall_eq_or_imp] at h1 h2 ⊢
    refine ⟨?_, ?_, ?_, h2.2⟩
    · rcases h1 with h1 | h1
      · have : min a b = a ∨ min a b = b := by omega
        rcases this with h | h <;> rw [h1, h] <;> simp
      · exact .inr (.inr h1)
    · omega
    · omega

theorem maxList_spec (a : Int) (l : List Int) : maxList a l ∈ a :: l ∧ ∀ x ∈ a :: l, x ≤ maxList a l := by
  induction l generalizing a with
  | nil => simp [maxList]
  | cons b l ih =>
    simp only [maxList]
    obtain ⟨h1, h2⟩ := ih (max a b)
    simp only [List.mem_cons, forall_eq_or_imp] at h1 h2 ⊢
    refine ⟨?_, ?_, ?_, h2.2⟩
    · rcases h1 with h1 | h1
      · have : max a b = a ∨ max a b = b := by omega
        rcases this with h | h <;> rw [h1, h] <;> simp
      · exact .inr (.inr h1)
    · omega
    · omega

theorem refreshAll_length (clock : Nat → Int) (i : Nat) (l : List Event) : (refreshAll clock i l).length = l.length := by
  induction l generalizing i with
  | nil => rfl
  | cons e l ih => simp [refreshAll, ih]

theorem refreshAll_getElem (clock : Nat → Int) (i : Nat) (l : List Event) (n : Nat) (h : n < l.length) :
    (refreshAll clock i l)[n]'(by rw [refreshAll_length]; exact h) = refresh (clock (i + 2 * n)) (clock (i + 2 * n + 1)) l[n] := by
  induction l generalizing i n with
  | nil => simp at h
  | cons e l ih =>
    cases n with
    | zero => simp [refreshAll]
    | succ n =>
      simp only [refreshAll, List.getElem_cons_succ]
      rw [ih (i + 2) n (by simpa using h)]
      have : i + 2 + 2 * n = i + 2 * (n + 1) := by omega
      rw [this]

theorem refreshAll_mem (clock : Nat → Int) (i : Nat) (l : List Event) (e' : Event) (h : e' ∈ refreshAll clock i l) :
    ∃ e ∈ l, ∃ t t', e' = refresh t t' e := by
  induction l generalizing i with
  | nil => simp [refreshAll] at h
  | cons e l ih =>
    simp only [refreshAll, List.mem_cons] at h
    rcases h with rfl | h
    · exact ⟨e, by simp, _, _, rfl⟩
    · obtain ⟨e, he, t, t', rfl⟩ := ih _ h
      exact ⟨e, by simp [he], t, t', rfl⟩

theorem refresh_same (now now' : Int) (e : Event) : SameBut e (refresh now now' e) := by
  simp only [SameBut, refresh]
  split
  · split <;> rfl
  · rfl

theorem refresh_id (now now' : Int) (e : Event) : (refresh now now' e).id = e.id := by
  simp only [refresh]; split <;> (try split) <;> rfl
theorem refresh_modnum (now now' : Int) (e : Event) : (refresh now now' e).modnum = e.modnum := by
  simp only [refresh]; split <;> (try split) <;> rfl
theorem refresh_activePeriod (now now' : Int) (e : Event) : (refresh now now' e).activePeriod = e.activePeriod := by
  simp only [refresh]; split <;> (try split) <;> rfl
theorem refresh_priority (now now' : Int) (e : Event) : (refresh now now' e).descriptor.priority = e.descriptor.priority := by
  simp only [refresh]; split <;> (try split) <;> rfl

/-! ### stable sorting -/

def startLe (a b : Event) : Bool := decide (a.activePeriod.dtstart ≤ b.activePeriod.dtstart)
def prioLe (a b : Event) : Bool := priorityLe (eventPriority a) (eventPriority b)

theorem startLe_trans (a b c : Event) (h : startLe a b = true) (h' : startLe b c = true) : startLe a c = true := by
  simp only [startLe, decide_eq_true_eq] at *; omega
theorem startLe_total (a b : Event) : (startLe a b || startLe b a) = true := by
  simp only [startLe, Bool.or_eq_true, decide_eq_true_eq]; omega
theorem priorityLe_trans (a b c : Option Int) (h : priorityLe a b = true) (h' : priorityLe b c = true) : priorityLe a c = true := by
  cases a <;> cases b <;> cases c <;> simp_all [priorityLe]; omega
theorem prioLe_trans (a b c : Event) (h : prioLe a b = true) (h' : prioLe b c = true) : prioLe a c = true :=
  priorityLe_trans _ _ _ h h'
theorem prioLe_total (a b : Event) : (prioLe a b || prioLe b a) = true := by
  simp only [prioLe]
  cases eventPriority a <;> cases eventPriority b <;> simp [priorityLe]; omega

theorem sortByStart_eq (l : List Event) : sortByStart l = stableSort startLe l := rfl
theorem sortByPriority_eq (l : List Event) : sortByPriority l = stableSort prioLe l := rfl

theorem sortByStart_perm (l : List Event) : (sortByStart l).Perm l := stableSort_perm _ _
theorem sortByPriority_perm (l : List Event) : (sortByPriority l).Perm l := stableSort_perm _ _

theorem sortByStart_pairwise (l : List Event) :
    (sortByStart l).Pairwise (fun a b => a.activePeriod.dtstart ≤ b.activePeriod.dtstart) := by
  rw [sortByStart_eq]
  exact (stableSort_pairwise startLe startLe_trans startLe_total l).imp (by simp [startLe])

theorem sortByStart_filter (l : List Event) (s : Int) (p : Event → Bool) :
    (sortByStart l).filter (fun e => decide (e.activePeriod.dtstart = s) && p e) =
      l.filter (fun e => decide (e.activePeriod.dtstart = s) && p e) := by
  rw [sortByStart_eq]
  refine stableSort_filter _ _ _ ?_
  intro a b ha hb
  simp only [Bool.and_eq_true, decide_eq_true_eq] at ha hb
  simp [startLe, ha.1, hb.1]

theorem arrange_perm (l : List Event) : (arrange l).Perm l := by
  simp only [arrange]
  refine ((sortByStart_perm _).trans (sortByPriority_perm _)).append (sortByStart_perm _) |>.trans ?_
  have := List.filter_append_perm (fun e : Event => decide (e.status = .active)) l
  refine List.Perm.trans ?_ this
  refine List.Perm.append_left _ (List.Perm.of_eq ?_)
  congr 1
  funext e; simp

theorem mem_active (l : List Event) (e : Event)
    (h : e ∈ sortByStart (sortByPriority (l.filter (fun e => decide (e.status = .active))))) : e.status = .active := by
  have := ((sortByStart_perm _).trans (sortByPriority_perm _)).mem_iff.mp h
  simpa using (List.mem_filter.mp this).2

theorem mem_other (l : List Event) (e : Event)
    (h : e ∈ sortByStart (l.filter (fun e => decide (e.status ≠ .active)))) : e.status ≠ .active := by
  have := (sortByStart_perm _).mem_iff.mp h
  simpa using (List.mem_filter.mp this).2

theorem arrange_active_first (l : List Event) :
    (arrange l).Pairwise (fun a b => b.status = .active → a.status = .active) := by
  simp only [arrange]
  rw [List.pairwise_append]
  refine ⟨?_, ?_, ?_⟩
  · refine List.Pairwise.imp_of_mem (R := fun _ _ => True) ?_ (List.pairwise_of_forall (fun _ _ => trivial))
    intro a b ha _ _ _
    exact mem_active l a ha
  · refine List.Pairwise.imp_of_mem (R := fun _ _ => True) ?_ (List.pairwise_of_forall (fun _ _ => trivial))
    intro a b _ hb _ h
    exact absurd h (mem_other l b hb)
  · intro a ha b hb _
    exact mem_active l a ha

theorem arrange_start (l : List Event) :
    (arrange l).Pairwise (fun a b => (a.status = .active ↔ b.status = .active) → a.activePeriod.dtstart ≤ b.activePeriod.dtstart) := by
  simp only [arrange]
  rw [List.pairwise_append]
  refine ⟨(sortByStart_pairwise _).imp (by intro a b h _; exact h), (sortByStart_pairwise _).imp (by intro a b h _; exact h), ?_⟩
  intro a ha b hb h
  exact absurd (h.mp (mem_active l a ha)) (mem_other l b hb)

theorem arrange_stable_other (l : List Event) (s : Int) :
    (arrange l).filter (fun e => decide (e.activePeriod.dtstart = s) && decide (e.status ≠ .active)) =
      l.filter (fun e => decide (e.activePeriod.dtstart = s) && decide (e.status ≠ .active)) := by
  simp only [arrange, List.filter_append]
  rw [sortByStart_filter (l.filter _), List.filter_filter]
  have : List.filter (fun e => decide (e.activePeriod.dtstart = s) && decide (e.status ≠ .active))
      (sortByStart (sortByPriority (l.filter (fun e => decide (e.status = .active))))) = [] := by
    rw [List.filter_eq_nil_iff]
    intro a ha
    simp [mem_active l a ha]
  rw [this, List.nil_append]
  congr 1
  funext e
  simp only [Bool.and_assoc, Bool.and_self]

/-- Among active events with the same start the priorities are in order, and the order of equal priorities is kept. -/
theorem arrange_active_block (l : List Event) (s : Int) :
    (arrange l).filter (fun e => decide (e.activePeriod.dtstart = s) && decide (e.status = .active)) =
      (sortByPriority (l.filter (fun e => decide (e.status = .active)))).filter
        (fun e => decide (e.activePeriod.dtstart = s) && decide (e.status = .active)) := by
  simp only [arrange, List.filter_append]
  rw [sortByStart_filter]
  have : List.filter (fun e => decide (e.activePeriod.dtstart = s) && decide (e.status = .active))
      (sortByStart (l.filter (fun e => decide (e.status ≠ .active)))) = [] := by
    rw [List.filter_eq_nil_iff]
    intro a ha
    simp [mem_other l a ha]
  rw [this, List.append_nil]

theorem not_higher_of_prioLe (a b : Event) (h : prioLe a b = true) : ¬ HigherPriority b.descriptor.priority a.descriptor.priority := by
  rintro ⟨x, hx, hx0, hq⟩
  simp only [prioLe, eventPriority, hx, hx0, if_false] at h
  rcases hq with hq | hq | ⟨y, hy, hlt⟩
  · simp [hq, priorityLe] at h
  · simp [hq, priorityLe] at h
  · rw [hy] at h
    by_cases hy0 : y = 0
    · simp [hy0, priorityLe] at h
    · simp [hy0, priorityLe] at h; omega

theorem pairwise_of_filter {α : Type} (R : α → α → Prop) (key : α → Int) (p : α → Bool) (l : List α)
    (h : ∀ s, (l.filter (fun e => decide (key e = s) && p e)).Pairwise R) :
    l.Pairwise (fun a b => key a = key b → p a = true → p b = true → R a b) := by
  induction l with
  | nil => exact List.Pairwise.nil
  | cons a l ih =>
    rw [List.pairwise_cons]
    constructor
    · intro b hb hk ha hb'
      have := h (key a)
      simp only [List.filter_cons, decide_true, ha, Bool.and_self, if_true, List.pairwise_cons] at this
      exact this.1 b (List.mem_filter.mpr ⟨hb, by simp [hk, hb']⟩)
    · refine ih (fun s => ?_)
      refine (h s).sublist ?_
      exact (List.sublist_cons_self a l).filter _

end Openleadr
