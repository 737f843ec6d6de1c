import Verif.Props.AddedRound
/-!
Lemmas for C91: what the VEN knows of each event, through a message, and what is left in the queue of the VTN.
-/
namespace Openleadr

/-- The modification number under which the VEN knows an event. -/
def VenState.about (s : VenState) (id : String) : Option Int := (s.received.find? (fun r => decide (r.id = id))).map Event.modnum

/-- The VEN has no event twice. -/
def VenState.Single (s : VenState) : Prop := ∀ id, (ofId id s.received).length ≤ 1

theorem about_ofId (s : VenState) (id : String) : s.about id = ((ofId id s.received).head?).map Event.modnum := by
  rw [VenState.about, find_ofId]

/-- What one event of a message changes. -/
theorem decideEvent_about {h : VenHandlers} {calls calls' : List VenCall} {s s' : VenState} {e : Event} {v : Value} (hs : s.Single)
    (hd : decideEvent h calls s e = (s', calls', .ok v)) :
    s'.Single ∧ s'.about e.id = some e.modnum ∧ (∀ id, id ≠ e.id → s'.about id = s.about id) ∧ s'.responded = s.responded := by
  have hother := fun id (hid : e.id ≠ id) => decideEvent_ofId_other h calls s e id hid
  have hresp := decideEvent_responded h calls s e
  rw [hd] at hother hresp
  simp only at hother hresp
  have hself : ∃ x, ofId e.id s'.received = [x] ∧ x.modnum = e.modnum := by
    unfold decideEvent at hd
    cases hf : s.received.find? (fun r => decide (r.id = e.id)) with
    | none =>
      rw [hf] at hd
      simp only [Prod.mk.injEq] at hd
      obtain ⟨rfl, -⟩ := hd
      refine ⟨e, ?_, rfl⟩
      have : ofId e.id s.received = [] := by
        rw [find_ofId] at hf
        exact List.head?_eq_none_iff.mp hf
      simp only [ofId_append, this]
      simp [ofId]
    | some r =>
      rw [hf] at hd
      simp only at hd
      have hone := hs e.id
      rw [find_ofId] at hf
      by_cases hm : r.modnum = e.modnum
      · rw [if_pos hm] at hd
        cases hg : Dict.get? s.responded e.id with
        | none => rw [hg] at hd; simp at hd
        | some w =>
          rw [hg] at hd
          simp only [Prod.mk.injEq] at hd
          obtain ⟨rfl, -⟩ := hd
          generalize ofId e.id s.received = l at hf hone
          match l, hf with
          | [x], hf => simp at hf; subst hf; exact ⟨x, rfl, hm⟩
          | x :: y :: l, hf => simp at hone
      · rw [if_neg hm] at hd
        simp only [Prod.mk.injEq] at hd
        obtain ⟨rfl, -⟩ := hd
        refine ⟨e, ?_, rfl⟩
        simp only [ofId_append, ofId_dropFirst_self]
        have ht : (ofId e.id s.received).tail = [] := by
          generalize ofId e.id s.received = l at hone
          match l with
          | [] => rfl
          | [x] => rfl
          | x :: y :: l => simp at hone
        rw [ht]
        simp [ofId]
  obtain ⟨x, hx, hxm⟩ := hself
  refine ⟨fun id => ?_, ?_, fun id hid => ?_, hresp⟩
  · by_cases hid : e.id = id
    · subst hid; rw [hx]; simp
    · rw [hother id hid]; exact hs id
  · rw [about_ofId, hx]; simp [hxm]
  · rw [about_ofId, about_ofId, hother id (Ne.symm hid)]

theorem remember_self {responded : List (String × Value)} {e : Event} {v : Value} (h : e.status ≠ .completed ∧ e.status ≠ .cancelled) :
    Dict.get? (remember responded e v) e.id = some v := by
  unfold remember
  rw [if_neg (by simp [h.1, h.2])]
  exact Dict.get?_set_self _ _ _

/-- What a message changes. -/
theorem decideAll_about {h : VenHandlers} {es : List Event} {calls calls' : List VenCall} {s s' : VenState} {vs : List Value} (hs : s.Single)
    (hd : Distinct es) (hda : decideAll h calls s es = (s', calls', .ok vs)) :
    s'.Single ∧ (∀ e ∈ es, s'.about e.id = some e.modnum) ∧ (∀ id, (∀ e ∈ es, e.id ≠ id) → s'.about id = s.about id) ∧
      (∀ e ∈ es, e.status ≠ .completed → e.status ≠ .cancelled → ∃ v, Dict.get? s'.responded e.id = some v) ∧
      (∀ id, (∀ e ∈ es, e.id ≠ id) → Dict.get? s'.responded id = Dict.get? s.responded id) := by
  induction es generalizing calls calls' s s' vs with
  | nil =>
    simp only [decideAll, Prod.mk.injEq] at hda
    obtain ⟨rfl, -⟩ := hda
    exact ⟨hs, by simp, fun _ _ => rfl, by simp, fun _ _ => rfl⟩
  | cons e es ih =>
    rw [Distinct, List.pairwise_cons] at hd
    simp only [decideAll] at hda
    cases hde : decideEvent h calls s e with
    | mk s1 x =>
      obtain ⟨c1, r1⟩ := x
      rw [hde] at hda
      cases r1 with
      | error err => simp at hda
      | ok v =>
        simp only at hda
        obtain ⟨a1, a2, a3, a4⟩ := decideEvent_about hs hde
        generalize hs2 : ({ s1 with responded := remember s1.responded e v } : VenState) = s2 at hda
        have hr2 : s2.received = s1.received := by rw [← hs2]
        have ha2 : ∀ id, s2.about id = s1.about id := fun id => by simp only [VenState.about, hr2]
        have hsi2 : s2.Single := fun id => by rw [hr2]; exact a1 id
        cases hrest : decideAll h c1 s2 es with
        | mk s3 y =>
          obtain ⟨c3, r3⟩ := y
          rw [hrest] at hda
          cases r3 with
          | error err => simp at hda
          | ok ws =>
            simp only [Prod.mk.injEq, Except.ok.injEq] at hda
            obtain ⟨rfl, -, -⟩ := hda
            obtain ⟨b1, b2, b3, b4, b5⟩ := ih hsi2 hd.2 hrest
            have hne : ∀ e' ∈ es, e'.id ≠ e.id := fun e' he' => (hd.1 e' he').symm
            refine ⟨b1, fun e' he' => ?_, fun id hid => ?_, fun e' he' hc hx => ?_, fun id hid => ?_⟩
            · rcases List.mem_cons.mp he' with rfl | he'
              · rw [b3 _ hne, ha2, a2]
              · exact b2 e' he'
            · rw [b3 id (fun e' he' => hid e' (by simp [he'])), ha2]
              exact a3 id (hid e (by simp)).symm
            · rcases List.mem_cons.mp he' with rfl | he'
              · rw [b5 _ hne, ← hs2]
                exact ⟨v, remember_self ⟨hc, hx⟩⟩
              · exact b4 e' he' hc hx
            · rw [b5 id (fun e' he' => hid e' (by simp [he'])), ← hs2]
              rw [remember_other _ _ _ _ (hid e (by simp)), a4]

/-- The versions the handlers were called with. -/
def versions (calls : List VenCall) : List (String × Int) := calls.map (fun c => (c.event.id, c.event.modnum))

theorem timesCalled_versions (calls : List VenCall) (id : String) (n : Int) : timesCalled calls id n = (versions calls).count (id, n) := by
  unfold timesCalled versions
  induction calls with
  | nil => rfl
  | cons c l ih =>
    simp only [List.filter_cons, List.map_cons, List.count_cons]
    by_cases h : c.event.id = id ∧ c.event.modnum = n
    · simp only [h.1, h.2, and_self, decide_true, if_true, List.length_cons, ih]; simp
    · rw [if_neg (by simpa using h), ih]
      simp [h]

/-- The versions that are due for a message. -/
theorem dueCalls_versions (s : VenState) (es : List Event) :
    versions (dueCalls s es) = (es.filter (fun e => decide (s.about e.id ≠ some e.modnum))).map (fun e => (e.id, e.modnum)) := by
  unfold versions dueCalls
  induction es with
  | nil => rfl
  | cons e es ih =>
    simp only [List.filterMap_cons, List.filter_cons]
    cases hf : s.received.find? (fun r => decide (r.id = e.id)) with
    | none =>
      have : s.about e.id = none := by simp [VenState.about, hf]
      simp only [this, ne_eq, reduceCtorEq, not_false_eq_true, decide_true, if_true, List.map_cons, ih]; rfl
    | some r =>
      have : s.about e.id = some r.modnum := by simp [VenState.about, hf]
      by_cases hm : r.modnum = e.modnum
      · simp [this, hm, ih]
      · simp only [this, hm, ne_eq, Option.some.injEq, not_false_eq_true, decide_true, if_true, if_false, List.map_cons, ih]; rfl

/-- Answers for events of the queue that are cancelled take them out of it. -/
theorem respondAll_cancelled (env : Env) (hq : ∀ e, env.raises e = none) (ven : String) (rs : List EventResponse) (s : Server)
    (hd : Distinct (s.queue ven)) (hid : rs.Pairwise (fun a b => a.eventId ≠ b.eventId))
    (hk : ∀ r ∈ rs, ∃ e ∈ s.queue ven, e.id = r.eventId ∧ e.modnum = r.modificationNumber) :
    ∀ e ∈ (respondAll env s ven rs).1.queue ven, e.status = .cancelled → ∀ r ∈ rs, r.eventId ≠ e.id := by
  induction rs generalizing s with
  | nil => intro e _ _ r hr; simp at hr
  | cons r rs ih =>
    rw [List.pairwise_cons] at hid
    have hnone : (respondOne env s ven r).2.2 = none := by
      have := (respondOne_told env hq s ven r (hk r (by simp))).1
      rw [this]
    have hsub := respondOne_sublist env s ven ven r
    have hd' : Distinct ((respondOne env s ven r).1.queue ven) := hd.sublist hsub
    have hkeep : ∀ r' ∈ rs, ∃ e ∈ (respondOne env s ven r).1.queue ven, e.id = r'.eventId ∧ e.modnum = r'.modificationNumber := by
      intro r' hr'
      obtain ⟨e, he, g1, g2⟩ := hk r' (by simp [hr'])
      refine ⟨e, respondOne_mem env s ven r e he ?_, g1, g2⟩
      rintro ⟨h, _⟩
      exact hid.1 r' hr' (h.trans g1)
    have hgone : ∀ e ∈ (respondOne env s ven r).1.queue ven, e.status = .cancelled → r.eventId ≠ e.id := by
      intro e he hc hre
      obtain ⟨e0, he0, g1, g2⟩ := hk r (by simp)
      have hes := hsub.subset he
      have : e0 = e := same_of_ids hd he0 hes (g1.trans hre)
      subst this
      have hfound : (s.queue ven).find? (hasIdAndNumber r) = some e0 := by
        rw [List.find?_eq_some_iff_append] 
        obtain ⟨l, l', hl⟩ := List.append_of_mem he0
        refine ⟨by simp [hasIdAndNumber, g1, g2], l, l', hl, ?_⟩
        intro a ha
        have : a.id ≠ e0.id := by
          rw [hl, Distinct, List.pairwise_append] at hd
          exact hd.2.2 a ha e0 (by simp)
        simp [hasIdAndNumber, ← g1, this]
      cases hg : Dict.get? s.events ven with
      | none => simp [Server.queue, hg] at he0
      | some q =>
        have hqq : s.queue ven = q := by simp [Server.queue, hg]
        rw [hqq] at hfound
        have hev : (respondOne env s ven r).1.events = Dict.set s.events ven (eraseFirst (hasId r.eventId) q) := by
          simp only [respondOne, hg, hfound, hc, if_true]
          unfold fireCallback
          split
          · rfl
          · simp only []; split <;> rfl
          · rfl
        have hee : e0 ∈ eraseFirst (hasId r.eventId) q := by
          simpa [Server.queue, hev, Dict.get?_set_self] using he
        have hno : ∀ (l : List Event), Distinct l → e0 ∈ l → e0 ∉ eraseFirst (hasId e0.id) l := by
          intro l
          induction l with
          | nil => intro _ h; simp at h
          | cons a l ihl =>
            intro hdl hm hc
            rw [Distinct, List.pairwise_cons] at hdl
            simp only [eraseFirst, hasId, beq_iff_eq] at hc
            split at hc
            · rename_i heq
              exact hdl.1 e0 hc heq
            · rename_i hne
              rcases List.mem_cons.mp hm with rfl | hm
              · exact hne rfl
              · rcases List.mem_cons.mp hc with rfl | hc
                · exact hne rfl
                · exact ihl hdl.2 hm hc
        rw [hre] at hee
        exact hno q (hqq ▸ hd) (hqq ▸ he0) hee
    intro e he hc r' hr'
    simp only [respondAll] at he
    generalize hy : respondOne env s ven r = y at hnone hsub hd' hkeep hgone he
    obtain ⟨t, effs, o⟩ := y
    simp only at hnone hsub hd' hkeep hgone
    subst hnone
    simp only at he
    rcases List.mem_cons.mp hr' with rfl | hr'
    · exact hgone e (respondAll_sub env t ven ven rs e he) hc
    · exact ih t hd' hid.2 hkeep e he hc r' hr'

/-- What is refreshed comes from the queue. -/
theorem refreshed_from {clock : Nat → Int} {i : Nat} {l : List Event} {e' : Event} (h : e' ∈ refreshAll clock i l) :
    ∃ e ∈ l, ∃ j, e' = refresh (clock j) (clock (j + 1)) e := by
  induction l generalizing i with
  | nil => simp [refreshAll] at h
  | cons e l ih =>
    simp only [refreshAll, List.mem_cons] at h
    rcases h with rfl | h
    · exact ⟨e, by simp, i, rfl⟩
    · obtain ⟨e0, h1, h2⟩ := ih h
      exact ⟨e0, by simp [h1], h2⟩

theorem refreshed_all {clock : Nat → Int} {i : Nat} {l : List Event} {e : Event} (h : e ∈ l) :
    ∃ j, refresh (clock j) (clock (j + 1)) e ∈ refreshAll clock i l := by
  induction l generalizing i with
  | nil => simp at h
  | cons a l ih =>
    rcases List.mem_cons.mp h with rfl | h
    · exact ⟨i, by simp [refreshAll]⟩
    · obtain ⟨j, hj⟩ := ih (i := i + 2) h
      exact ⟨j, by simp [refreshAll, hj]⟩

theorem refresh_status (t t' : Int) (e : Event) : (refresh t t' e).status = if e.status = .cancelled then .cancelled else determineStatus t e.activePeriod := by
  unfold refresh
  by_cases hc : e.status = .cancelled
  · simp [hc]
  · simp only [hc, ne_eq, not_false_eq_true, if_true, if_false]
    split
    · rfl
    · rename_i h; exact Decidable.not_not.mp h

theorem refresh_duration (t t' : Int) (e : Event) : (refresh t t' e).sentDuration = e.sentDuration := by
  simp only [Event.sentDuration, (refresh_members t t' e).1, (refresh_members t t' e).2.1]

theorem keys_erase_nodup {d : List (String × α)} {k : String} (h : (Dict.keys d).Nodup) : (Dict.keys (Dict.erase d k)).Nodup := by
  refine h.sublist (List.Sublist.map _ ?_)
  induction d with
  | nil => exact List.Sublist.refl _
  | cons p d ih =>
    obtain ⟨k', v'⟩ := p
    simp only [Dict.erase]
    split
    · exact List.sublist_cons_self _ _
    · exact (ih (List.nodup_cons.mp h).2).cons₂ _

theorem decideAll_untouched {h : VenHandlers} {es : List Event} {calls calls' : List VenCall} {s s' : VenState} {vs : List Value}
    (hda : decideAll h calls s es = (s', calls', .ok vs)) {id : String} (hid : ∀ e ∈ es, e.id ≠ id) : Dict.get? s'.responded id = Dict.get? s.responded id := by
  induction es generalizing calls calls' s s' vs with
  | nil =>
    simp only [decideAll, Prod.mk.injEq] at hda
    obtain ⟨rfl, -⟩ := hda
    rfl
  | cons a es ih =>
    have hresp := decideEvent_responded h calls s a
    simp only [decideAll] at hda
    cases hde : decideEvent h calls s a with
    | mk s1 x =>
      obtain ⟨c1, r1⟩ := x
      rw [hde] at hda hresp
      cases r1 with
      | error err => simp at hda
      | ok v =>
        simp only at hda hresp
        generalize hs2 : ({ s1 with responded := remember s1.responded a v } : VenState) = s2 at hda
        cases hrest : decideAll h c1 s2 es with
        | mk s3 y =>
          obtain ⟨c3, r3⟩ := y
          rw [hrest] at hda
          cases r3 with
          | error err => simp at hda
          | ok ws =>
            simp only [Prod.mk.injEq, Except.ok.injEq] at hda
            obtain ⟨rfl, -, -⟩ := hda
            rw [ih hrest (fun e he => hid e (by simp [he])), ← hs2]
            simp only [remember_other _ _ _ _ (hid a (by simp)), hresp]

/-- A cancelled event with a decision loses it. -/
theorem decideAll_erases {h : VenHandlers} {es : List Event} {calls calls' : List VenCall} {s s' : VenState} {vs : List Value}
    (hd : Distinct es) (hda : decideAll h calls s es = (s', calls', .ok vs)) {e : Event} (he : e ∈ es) (hc : e.status = .cancelled)
    (hn : (Dict.keys s.responded).Nodup) (hh : Dict.has s.responded e.id = true) : Dict.get? s'.responded e.id = none := by
  induction es generalizing calls calls' s s' vs with
  | nil => simp at he
  | cons a es ih =>
    rw [Distinct, List.pairwise_cons] at hd
    have hresp := decideEvent_responded h calls s a
    simp only [decideAll] at hda
    cases hde : decideEvent h calls s a with
    | mk s1 x =>
      obtain ⟨c1, r1⟩ := x
      rw [hde] at hda hresp
      cases r1 with
      | error err => simp at hda
      | ok v =>
        simp only at hda hresp
        generalize hs2 : ({ s1 with responded := remember s1.responded a v } : VenState) = s2 at hda
        have hr2 : s2.responded = remember s.responded a v := by rw [← hs2, hresp]
        cases hrest : decideAll h c1 s2 es with
        | mk s3 y =>
          obtain ⟨c3, r3⟩ := y
          rw [hrest] at hda
          cases r3 with
          | error err => simp at hda
          | ok ws =>
            simp only [Prod.mk.injEq, Except.ok.injEq] at hda
            obtain ⟨rfl, -, -⟩ := hda
            rcases List.mem_cons.mp he with rfl | he
            · rw [decideAll_untouched hrest (fun e' he' => (hd.1 e' he').symm), hr2, remember, if_pos ⟨.inr hc, hh⟩]
              exact Dict.get?_erase_self _ _ hn
            · have hne := hd.1 e he
              refine ih hd.2 hrest he ?_ ?_
              · rw [hr2]
                unfold remember
                split
                · exact keys_erase_nodup hn
                · exact Dict.nodup_keys_set _ _ _ hn
              · rw [Dict.has, hr2, remember_other _ _ _ _ hne]; exact hh

theorem dropFirst_mem {id : String} {l : List Event} {r : Event} (h : r ∈ dropFirst id l) : r ∈ l := by
  induction l with
  | nil => simp [dropFirst] at h
  | cons a l ih =>
    simp only [dropFirst] at h
    split at h
    · simp [h]
    · rcases List.mem_cons.mp h with rfl | h
      · simp
      · simp [ih h]

/-- Whatever the VEN has afterwards it had before, or it is in the message. -/
theorem decideAll_received (h : VenHandlers) (es : List Event) (calls : List VenCall) (s : VenState) :
    ∀ r ∈ (decideAll h calls s es).1.received, r ∈ s.received ∨ r ∈ es := by
  induction es generalizing calls s with
  | nil => intro r hr; exact .inl hr
  | cons e es ih =>
    have h1 : ∀ r ∈ (decideEvent h calls s e).1.received, r ∈ s.received ∨ r = e := by
      intro r hr
      unfold decideEvent at hr
      split at hr
      · split at hr
        · split at hr <;> exact .inl hr
        · simp only [List.mem_append, List.mem_singleton] at hr
          exact hr.imp dropFirst_mem id
      · simpa using hr
    intro r hr
    simp only [decideAll] at hr
    cases hde : decideEvent h calls s e with
    | mk s1 x =>
      obtain ⟨c1, r1⟩ := x
      rw [hde] at hr h1
      cases r1 with
      | error err => exact (h1 r hr).imp id (fun h => by simp [h])
      | ok v =>
        have h2 := ih c1 { s1 with responded := remember s1.responded e v }
        simp only at hr
        cases hrest : decideAll h c1 { s1 with responded := remember s1.responded e v } es with
        | mk s2 y =>
          obtain ⟨c2, r2⟩ := y
          rw [hrest] at hr h2
          have hr' : r ∈ s2.received := by cases r2 <;> exact hr
          rcases h2 r hr' with h | h
          · exact (h1 r h).imp id (fun h => by simp [h])
          · exact .inr (by simp [h])

end Openleadr
