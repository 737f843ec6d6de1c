import Verif.Lemmas.Preflight
import Verif.Props.Members
/-! Properties C64–C66: preparation of outgoing messages. -/
namespace Openleadr

/-! ### the loops, one event or signal at a time -/

theorem field_dict {d : Dict} {k : String} {x : Value} (h : Dict.get? d k = some x) : field (.dict d) k = x := by simp [field, h]

theorem field_congr {d d' : Dict} {k : String} (h : Dict.get? d' k = Dict.get? d k) : field (.dict d') k = field (.dict d) k := by simp [field, h]

theorem pyIn_dict (d : Dict) (k : String) : pyIn k (.dict d) = .ok (Dict.has d k) := rfl

/-- What changes under one key only. -/
def OnlyKey (key : String) (d d' : Dict) : Prop := ∀ k, k ≠ key → Dict.get? d' k = Dict.get? d k

theorem onlyKey_set (d : Dict) (key : String) (v : Value) : OnlyKey key d (Dict.set d key v) :=
  fun k hk => Dict.get?_set_other d key k v hk

theorem intervalDuration_text (s : String) (x : Int) : intervalDuration (.str s) ≠ .ok x := by simp [intervalDuration, item]

theorem intervalDuration_span {i : Value} {t : Int} (h : intervalDuration i = .ok t) : spanOf i = some t := by
  unfold intervalDuration at h
  split at h
  · cases h
  · rename_i d hd
    obtain ⟨e, rfl, hg⟩ := item_ok hd
    unfold spanOf
    rw [field_dict hg]
    cases d <;> simp [parseDurationV] at h ⊢
    · rename_i s
      cases hp : parseDuration s.toList with
      | error e => rw [hp] at h; simp [Except.map] at h
      | ok x => rw [hp] at h; simp [Except.map] at h; simp [Except.toOption, h]
    · exact h

theorem sumDurations_eq {start : Int} {l : List Int} {t : Int} (h : sumDurations start l = .ok t) : t = start + l.sum := by
  induction l generalizing start with
  | nil => cases h; simp
  | cons d l ih =>
    unfold sumDurations at h
    split at h
    · cases h
    · rename_i s hs
      have : s = start + d := by
        unfold mkTimedelta at hs
        split at hs
        · cases hs; rfl
        · cases hs
      rw [ih h, this]
      simp [Int.add_assoc]

theorem spans_eq : ∀ {l : List Value} {ds : List Int}, Each (fun i d => intervalDuration i = .ok d) l ds → spans l = some ds.sum
  | [], [], _ => rfl
  | i :: l, d :: ds, ⟨h1, h2⟩ => by simp [spans, intervalDuration_span h1, spans_eq h2]
  | [], _ :: _, h => h.elim
  | _ :: _, [], h => h.elim

theorem signalDuration_text (s : String) (x : Int) : signalDuration (.str s) ≠ .ok x := by simp [signalDuration, item]

/-- What the total duration of a signal depends on. -/
theorem signalDuration_ok {s : Value} {t : Int} (h : signalDuration s = .ok t) :
    ∃ d is, s = .dict d ∧ Dict.get? d "intervals" = some is ∧ totalOf s = some t ∧
      ∀ d', Dict.get? d' "intervals" = some is → signalDuration (.dict d') = .ok t := by
  unfold signalDuration at h
  split at h
  · cases h
  rename_i is his
  obtain ⟨d, rfl, hg⟩ := item_ok his
  split at h
  · cases h
  rename_i l hl
  split at h
  · cases h
  rename_i ds hds
  obtain ⟨hi, rfl⟩ := eachOk_texts intervalDuration_text hl hds
  refine ⟨d, is, rfl, hg, ?_, ?_⟩
  · unfold totalOf
    rw [field_dict hg, spans_eq ((eachOk_iff _ _ _).mp hds), sumDurations_eq h]
    simp
  · intro d' hd'
    simp only [signalDuration, item_dict hd', hl, hds, h]

theorem adjustDuration_text (s : String) (x : Value) : adjustDuration (.str s) ≠ .ok x := by simp [adjustDuration, item]

theorem each_mem {R : α → β → Prop} {l : List α} {l' : List β} (h : Each R l l') {x : α} (hx : x ∈ l) : ∃ y ∈ l', R x y := h.left x hx

/-- What `adjustDuration` does. -/
theorem adjust_ok {e e' : Value} (h : adjustDuration e = .ok e') :
    ∃ d d' p p' ss declared, e = .dict d ∧ e' = .dict d' ∧ OnlyKey "active_period" d d' ∧
      Dict.get? d "active_period" = some (.dict p) ∧ Dict.get? d' "active_period" = some (.dict p') ∧ OnlyKey "duration" p p' ∧
      Dict.get? d "event_signals" = some ss ∧ Iter ss ∧ Dict.get? p' "duration" = some declared ∧
      (∀ s ∈ kids ss, ∃ t, signalDuration s = .ok t ∧ declared = .timedelta t) := by
  unfold adjustDuration at h
  split at h
  · cases h
  rename_i period hperiod
  obtain ⟨d, rfl, hgp⟩ := item_ok hperiod
  split at h
  · cases h
  rename_i declared hdecl
  obtain ⟨p, rfl, hgd⟩ := item_ok hdecl
  split at h
  · cases h
  rename_i ds hds
  unfold signalDurations at hds
  split at hds
  · cases hds
  rename_i ss hss
  obtain ⟨d0, hd0, hgs⟩ := item_ok hss
  cases hd0
  split at hds
  · cases hds
  rename_i l hl
  obtain ⟨hi, rfl⟩ := eachOk_texts signalDuration_text hl hds
  have he := (eachOk_iff _ _ _).mp hds
  split at h
  · rename_i hall
    cases h
    refine ⟨d, d, p, p, ss, declared, rfl, rfl, fun _ _ => rfl, hgp, hgp, fun _ _ => rfl, hgs, hi, hgd, ?_⟩
    intro s hs
    obtain ⟨t, ht, hst⟩ := he.left s hs
    refine ⟨t, hst, ?_⟩
    have := (List.all_eq_true.mp hall) t ht
    exact (of_decide_eq_true this).symm
  · split at h
    · rename_i hnil
      simp at hnil
    · rename_i d1 rest _
      split at h
      · rename_i hall
        split at h
        · cases h
        split at h
        · cases h
        obtain ⟨d2, x, x', hd2, hx, hset, he'⟩ := modifyItem_ok h
        cases hd2
        rw [hgp] at hx
        cases hx
        obtain ⟨p0, hp0, rfl⟩ := setItem_ok hset
        cases hp0
        refine ⟨d, _, p, _, ss, .timedelta d1, rfl, he', onlyKey_set _ _ _, hgp, Dict.get?_set_self _ _ _, onlyKey_set _ _ _, hgs, hi,
          Dict.get?_set_self _ _ _, ?_⟩
        intro s hs
        obtain ⟨t, ht, hst⟩ := he.left s hs
        refine ⟨t, hst, ?_⟩
        have := (List.all_eq_true.mp hall) t ht
        simp only [decide_eq_true_eq] at this
        rw [this]
      · cases h

/-- When `adjustDuration` has nothing to do. -/
theorem adjust_id {d p : Dict} {ss declared : Value} (hp : Dict.get? d "active_period" = some (.dict p)) (hd : Dict.get? p "duration" = some declared)
    (hs : Dict.get? d "event_signals" = some ss) (hi : Iter ss) (h : ∀ s ∈ kids ss, ∃ t, signalDuration s = .ok t ∧ declared = .timedelta t) :
    adjustDuration (.dict d) = .ok (.dict d) := by
  have : ∃ ds, eachOk signalDuration (kids ss) = .ok ds ∧ ∀ t ∈ ds, declared = .timedelta t := by
    generalize kids ss = l at h
    induction l with
    | nil => exact ⟨[], rfl, by simp⟩
    | cons s l ih =>
      obtain ⟨ds, h1, h2⟩ := ih (fun s hs => h s (by simp [hs]))
      obtain ⟨t, h3, h4⟩ := h s (by simp)
      refine ⟨t :: ds, by simp [eachOk, h1, h3], ?_⟩
      intro x hx
      rcases List.mem_cons.mp hx with rfl | hx
      · exact h4
      · exact h2 x hx
  obtain ⟨ds, h1, h2⟩ := this
  have hsd : signalDurations (.dict d) = .ok ds := by
    unfold signalDurations
    rw [item_dict hs]
    simp only []
    rw [hi]
    exact h1
  unfold adjustDuration
  rw [item_dict hp]
  simp only [item_dict hd, hsd]
  rw [if_pos]
  rw [List.all_eq_true]
  intro t ht
  simp [h2 t ht]

theorem mem_simpleLevels {v : Value} (h : v.isLevel = true) : v ∈ simpleLevels := by
  cases v <;> simp [Value.isLevel] at h
  · rename_i b; cases b <;> simp [simpleLevels]
  · rcases h with rfl | rfl | rfl | rfl <;> simp [simpleLevels]
  · rcases h with rfl | rfl | rfl | rfl | rfl <;> simp [simpleLevels]

theorem isLevel_mem {v : Value} (h : v ∈ simpleLevels) : v.isLevel = true := by
  simp only [simpleLevels, List.mem_cons, List.not_mem_nil, or_false] at h
  rcases h with rfl | rfl | rfl | rfl | rfl | rfl | rfl | rfl | rfl | rfl | rfl <;> rfl

theorem checkLevel_ok {i i' : Value} (h : checkLevel i = .ok i') : i' = i ∧ field i "signal_payload" ∈ simpleLevels := by
  unfold checkLevel at h
  split at h
  · cases h
  · rename_i p hp
    obtain ⟨d, rfl, hg⟩ := item_ok hp
    split at h
    · rename_i hl
      cases h
      exact ⟨rfl, by rw [field_dict hg]; exact mem_simpleLevels hl⟩
    · cases h

theorem rebuild_kids (v : Value) : rebuild v (kids v) = v := by cases v <;> rfl

theorem checkSimpleSignal_ok {s s' : Value} (h : checkSimpleSignal s = .ok s') :
    s' = s ∧ (∃ d name, s = .dict d ∧ Dict.get? d "signal_name" = some name ∧
      (name ≠ .str "SIMPLE" ∨ ∃ is, Dict.get? d "intervals" = some is ∧ forEach checkLevel is = .ok is ∧
        ∀ i ∈ kids is, field i "signal_payload" ∈ simpleLevels)) := by
  unfold checkSimpleSignal at h
  split at h
  · cases h
  rename_i name hname
  obtain ⟨d, rfl, hg⟩ := item_ok hname
  split at h
  · split at h
    · cases h
    rename_i is his
    obtain ⟨d0, hd0, hgi⟩ := item_ok his
    cases hd0
    split at h
    · cases h
    rename_i w hw
    cases h
    have hi := forEach_texts (by intro s x; simp [checkLevel, item]) hw
    obtain ⟨l', hl', hr, _, _⟩ := forEach_iter hi hw
    have he := (eachOk_iff _ _ _).mp hl'
    have heq : l' = kids is := Each.eq (he.imp (fun x y hxy => (checkLevel_ok hxy).1))
    refine ⟨rfl, d, name, rfl, hg, .inr ⟨is, hgi, ?_, ?_⟩⟩
    · rw [hw, hr, heq, rebuild_kids]
    · intro i hmem
      obtain ⟨y, _, hy⟩ := he.left i hmem
      exact (checkLevel_ok hy).2
  · rename_i hne
    cases h
    exact ⟨rfl, d, name, rfl, hg, .inl hne⟩

/-- `checkSimpleSignal` looks at name and intervals only. -/
theorem checkSimpleSignal_id {d d' : Dict} (h : checkSimpleSignal (.dict d) = .ok (.dict d)) (h1 : Dict.get? d' "signal_name" = Dict.get? d "signal_name")
    (h2 : Dict.get? d' "intervals" = Dict.get? d "intervals") : checkSimpleSignal (.dict d') = .ok (.dict d') := by
  obtain ⟨_, d0, name, hd0, hn, hh⟩ := checkSimpleSignal_ok h
  cases hd0
  unfold checkSimpleSignal
  rw [item_dict (h1.trans hn)]
  simp only []
  rcases hh with hne | ⟨is, his, hf, _⟩
  · rw [if_neg hne]
  · split
    · rw [item_dict (h2.trans his)]
      simp only [hf]
    · rfl

theorem checkSimple_ok {e e' : Value} (h : checkSimple e = .ok e') {d : Dict} {ss : Value} (hd : e = .dict d) (hs : Dict.get? d "event_signals" = some ss)
    (hi : Iter ss) : e' = e ∧ ∀ s ∈ kids ss, checkSimpleSignal s = .ok s := by
  obtain ⟨d0, x, x', hd0, hx, hf, he'⟩ := modifyItem_ok h
  rw [hd] at hd0
  cases hd0
  rw [hs] at hx
  cases hx
  obtain ⟨l', hl', hr, _, _⟩ := forEach_iter hi hf
  have he := (eachOk_iff _ _ _).mp hl'
  have heq : l' = kids ss := Each.eq (he.imp (fun x y hxy => (checkSimpleSignal_ok hxy).1))
  rw [heq, rebuild_kids] at hr
  subst hr
  refine ⟨by rw [he', hd, Dict.set_get?_self _ _ _ hs], ?_⟩
  intro s hmem
  obtain ⟨y, _, hy⟩ := he.left s hmem
  rw [hy, (checkSimpleSignal_ok hy).1]

/-- The status that `zeroSignal` looks at. -/
def statusActive (event : Value) : Prop := ∃ dd x, item event "event_descriptor" = .ok (.dict dd) ∧ Dict.get? dd "event_status" = some x ∧ x = .str "ACTIVE"

/-- What `zeroSignal` does: it changes the current value only, and afterwards the current value is zero, or it may be what it is. -/
theorem zeroSignal_ok {e s s' : Value} (h : zeroSignal e s = .ok s') {d : Dict} (hd : s = .dict d) :
    ∃ d', s' = .dict d' ∧ OnlyKey "current_value" d d' ∧
      (d' = d ∨ (Dict.get? d' "current_value" = some (.int 0) ∧ Dict.get? d "signal_name" = some (.str "SIMPLE") ∧ ¬ statusActive e)) ∧
      (Dict.get? d' "current_value" = none ∨ (∃ x, Dict.get? d' "current_value" = some x ∧ x.isZero = true) ∨
        (∃ n, Dict.get? d "signal_name" = some n ∧ n ≠ .str "SIMPLE") ∨ (Dict.get? d "signal_name" = some (.str "SIMPLE") ∧ statusActive e)) := by
  subst hd
  unfold zeroSignal at h
  rw [pyIn_dict] at h
  split at h
  · cases h
  · rename_i hh
    cases h
    refine ⟨d, rfl, fun _ _ => rfl, .inl rfl, .inl ?_⟩
    simpa [Dict.has] using hh
  · split at h
    · cases h
    rename_i cv hcv
    obtain ⟨d0, hd0, hgc⟩ := item_ok hcv
    cases hd0
    split at h
    · rename_i hz
      cases h
      exact ⟨d, rfl, fun _ _ => rfl, .inl rfl, .inr (.inl ⟨cv, hgc, hz⟩)⟩
    · split at h
      · cases h
      rename_i name hname
      obtain ⟨d0, hd0, hgn⟩ := item_ok hname
      cases hd0
      split at h
      · rename_i hsimple
        subst hsimple
        split at h
        · cases h
        rename_i desc hdesc
        split at h
        · cases h
        rename_i status hstatus
        obtain ⟨dd, rfl, hgst⟩ := item_ok hstatus
        split at h
        · rename_i hact
          cases h
          exact ⟨d, rfl, fun _ _ => rfl, .inl rfl, .inr (.inr (.inr ⟨hgn, dd, status, hdesc, hgst, hact⟩))⟩
        · rename_i hnact
          obtain ⟨d0, hd0, hs'⟩ := setItem_ok h
          cases hd0
          refine ⟨_, hs', onlyKey_set _ _ _, .inr ⟨Dict.get?_set_self _ _ _, hgn, ?_⟩, .inr (.inl ⟨_, Dict.get?_set_self _ _ _, rfl⟩)⟩
          rintro ⟨dd', x, hd', hx, hxa⟩
          rw [hdesc] at hd'
          cases hd'
          rw [hgst] at hx
          cases hx
          exact hnact hxa
      · rename_i hns
        cases h
        exact ⟨d, rfl, fun _ _ => rfl, .inl rfl, .inr (.inr (.inl ⟨name, hgn, hns⟩))⟩

/-- When `zeroSignal` has nothing to do. -/
theorem zeroSignal_id {e : Value} {d : Dict}
    (h : Dict.get? d "current_value" = none ∨ (∃ x, Dict.get? d "current_value" = some x ∧ x.isZero = true) ∨
        (∃ n, Dict.get? d "signal_name" = some n ∧ n ≠ .str "SIMPLE") ∨ (Dict.get? d "signal_name" = some (.str "SIMPLE") ∧ statusActive e)) :
    zeroSignal e (.dict d) = .ok (.dict d) := by
  unfold zeroSignal
  rw [pyIn_dict]
  cases hc : Dict.get? d "current_value" with
  | none => simp [Dict.has, hc]
  | some cv =>
    simp only [Dict.has, hc, Option.isSome_some, item_dict hc]
    split
    · rfl
    · rename_i hz
      rcases h with h | ⟨x, hx, hxz⟩ | ⟨n, hn, hne⟩ | ⟨hn, dd, x, hd, hx, hxa⟩
      · rw [hc] at h; cases h
      · rw [hc] at hx; cases hx; exact absurd hxz hz
      · simp only [item_dict hn, if_neg hne]
      · simp only [item_dict hn, hd, item_dict hx, hxa, if_true]

theorem setNamespace_ok {m m' : Value} (h : setNamespace m = .ok m') :
    ∃ d name ns, m = .dict d ∧ Dict.get? d "name" = some (.str name) ∧ Dict.get? measurementNamespaces name = some ns ∧ m' = .dict (Dict.set d "ns" (.str ns)) := by
  unfold setNamespace at h
  split at h
  · cases h
  · rename_i name hname
    obtain ⟨d, rfl, hg⟩ := item_ok hname
    split at h
    · rename_i ns hns
      obtain ⟨d0, hd0, hm⟩ := setItem_ok h
      cases hd0
      exact ⟨d, name, ns, rfl, hg, hns, hm⟩
    · cases h
  · split at h <;> cases h

theorem setNamespace_id {m m' : Value} (h : setNamespace m = .ok m') : setNamespace m' = .ok m' := by
  obtain ⟨d, name, ns, rfl, hn, hns, rfl⟩ := setNamespace_ok h
  unfold setNamespace
  rw [item_dict (by rw [Dict.get?_set_other _ _ _ _ (by decide)]; exact hn)]
  simp only [hns, setItem]
  rw [Dict.set_get?_self _ _ _ (Dict.get?_set_self _ _ _)]

/-- What a change of the measurement does. -/
theorem onMeasurement_ok {f : Value → Res Value} {s s' : Value} (h : onMeasurement f s = .ok s') {d : Dict} (hd : s = .dict d) :
    ∃ d', s' = .dict d' ∧ OnlyKey "measurement" d d' ∧
      ((d' = d ∧ (Dict.get? d "measurement" = none ∨ Dict.get? d "measurement" = some .none)) ∨
        ∃ m m', Dict.get? d "measurement" = some m ∧ m ≠ .none ∧ f m = .ok m' ∧ Dict.get? d' "measurement" = some m') := by
  subst hd
  unfold onMeasurement at h
  rw [pyIn_dict] at h
  split at h
  · cases h
  · rename_i hh
    cases h
    refine ⟨d, rfl, fun _ _ => rfl, .inl ⟨rfl, .inl ?_⟩⟩
    simpa [Dict.has] using hh
  · split at h
    · cases h
    rename_i m hm
    obtain ⟨d0, hd0, hg⟩ := item_ok hm
    cases hd0
    split at h
    · rename_i hnone
      cases h
      exact ⟨d, rfl, fun _ _ => rfl, .inl ⟨rfl, .inr (by rw [hg, hnone])⟩⟩
    · rename_i hnone
      obtain ⟨d0, x, x', hd0, hx, hf, hs'⟩ := modifyItem_ok h
      cases hd0
      rw [hg] at hx
      cases hx
      exact ⟨_, hs', onlyKey_set _ _ _, .inr ⟨m, x', hg, hnone, hf, Dict.get?_set_self _ _ _⟩⟩

theorem onMeasurement_id {f : Value → Res Value} {d : Dict}
    (h : Dict.get? d "measurement" = none ∨ Dict.get? d "measurement" = some .none ∨ ∃ m, Dict.get? d "measurement" = some m ∧ f m = .ok m) :
    onMeasurement f (.dict d) = .ok (.dict d) := by
  unfold onMeasurement
  rw [pyIn_dict]
  rcases h with h | h | ⟨m, h, hf⟩
  · simp [Dict.has, h]
  · simp [Dict.has, h, item_dict h]
  · simp only [Dict.has, h, Option.isSome_some, item_dict h]
    split
    · rfl
    · exact modifyItem_id h hf

theorem requireResponse_ok {e e' : Value} (h : requireResponse e = .ok e') {d : Dict} (hd : e = .dict d) :
    ∃ d', e' = .dict d' ∧ OnlyKey "response_required" d d' ∧
      (Dict.get? d' "response_required" = some (.str "never") ∨ Dict.get? d' "response_required" = some (.str "always")) := by
  subst hd
  unfold requireResponse at h
  rw [pyIn_dict] at h
  split at h
  · cases h
  · obtain ⟨d0, hd0, he'⟩ := setItem_ok h
    cases hd0
    exact ⟨_, he', onlyKey_set _ _ _, .inr (Dict.get?_set_self _ _ _)⟩
  · split at h
    · cases h
    rename_i v hv
    obtain ⟨d0, hd0, hg⟩ := item_ok hv
    cases hd0
    split at h
    · rename_i hv'
      cases h
      refine ⟨d, rfl, fun _ _ => rfl, ?_⟩
      rcases hv' with rfl | rfl
      · exact .inl hg
      · exact .inr hg
    · obtain ⟨d0, hd0, he'⟩ := setItem_ok h
      cases hd0
      exact ⟨_, he', onlyKey_set _ _ _, .inr (Dict.get?_set_self _ _ _)⟩

theorem requireResponse_id {d : Dict} (h : Dict.get? d "response_required" = some (.str "never") ∨ Dict.get? d "response_required" = some (.str "always")) :
    requireResponse (.dict d) = .ok (.dict d) := by
  unfold requireResponse
  rw [pyIn_dict]
  rcases h with h | h <;> simp [Dict.has, h, item_dict h]

theorem stampCreated_ok {now : Int} {e e' : Value} (h : stampCreated now e = .ok e') {d : Dict} (hd : e = .dict d) :
    ∃ d' dd dd' v, e' = .dict d' ∧ OnlyKey "event_descriptor" d d' ∧ Dict.get? d "event_descriptor" = some (.dict dd) ∧
      Dict.get? d' "event_descriptor" = some (.dict dd') ∧ OnlyKey "created_date_time" dd dd' ∧ Dict.get? dd' "created_date_time" = some v ∧ v.truthy = true := by
  subst hd
  obtain ⟨d0, x, x', hd0, hx, hf, he'⟩ := modifyItem_ok h
  cases hd0
  have hset : ∀ y, setItem x "created_date_time" (.datetime now) = .ok y →
      ∃ dd dd' v, x = .dict dd ∧ y = .dict dd' ∧ OnlyKey "created_date_time" dd dd' ∧ Dict.get? dd' "created_date_time" = some v ∧ v.truthy = true := by
    intro y hy
    obtain ⟨dd, hdd, hy'⟩ := setItem_ok hy
    exact ⟨dd, _, .datetime now, hdd, hy', onlyKey_set _ _ _, Dict.get?_set_self _ _ _, rfl⟩
  have : ∃ dd dd' v, x = .dict dd ∧ x' = .dict dd' ∧ OnlyKey "created_date_time" dd dd' ∧ Dict.get? dd' "created_date_time" = some v ∧ v.truthy = true := by
    unfold stampDescriptor at hf
    split at hf
    · cases hf
    · exact hset _ hf
    · split at hf
      · cases hf
      rename_i v hv
      obtain ⟨dd, hdd, hg⟩ := item_ok hv
      split at hf
      · rename_i ht
        cases hf
        exact ⟨dd, dd, v, hdd, hdd, fun _ _ => rfl, hg, ht⟩
      · exact hset _ hf
  obtain ⟨dd, dd', v, rfl, rfl, h1, h2, h3⟩ := this
  exact ⟨_, dd, dd', v, he', onlyKey_set _ _ _, hx, Dict.get?_set_self _ _ _, h1, h2, h3⟩

theorem stampCreated_id {now : Int} {d dd : Dict} {v : Value} (h : Dict.get? d "event_descriptor" = some (.dict dd))
    (hv : Dict.get? dd "created_date_time" = some v) (ht : v.truthy = true) : stampCreated now (.dict d) = .ok (.dict d) := by
  refine modifyItem_id h ?_
  unfold stampDescriptor
  rw [pyIn_dict]
  simp [Dict.has, hv, item_dict hv, ht]

/-- What `checkTargets` does. -/
theorem checkTargets_ok {e e' : Value} (h : checkTargets e = .ok e') {d : Dict} (hd : e = .dict d) :
    ∃ d', e' = .dict d' ∧ OnlyKey "targets" d d' ∧
      ((d' = d ∧ Dict.get? d "targets_by_type" = none) ∨
       (d' = d ∧ ∃ ts g g', Dict.get? d "targets" = some ts ∧ Dict.get? d "targets_by_type" = some g ∧ groupTargetsV ts = .ok g' ∧ sameTargets g' g = true) ∨
       (Dict.get? d "targets" = none ∧ ∃ g, Dict.get? d "targets_by_type" = some (.dict g) ∧
          Dict.get? d' "targets" = some (.list ((ungroupTargetsByType g).map .dict)))) := by
  subst hd
  unfold checkTargets at h
  simp only [pyIn_dict] at h
  cases ht : Dict.get? d "targets" with
  | none =>
    cases hb : Dict.get? d "targets_by_type" with
    | none =>
      simp only [Dict.has, ht, hb] at h
      cases h
      exact ⟨d, rfl, fun _ _ => rfl, .inl ⟨rfl, rfl⟩⟩
    | some g =>
      simp only [Dict.has, ht, hb, Option.isSome_none, Option.isSome_some, item_dict hb] at h
      split at h
      · cases h
      rename_i d0 hd0
      cases g with
      | dict g =>
        cases hd0
        obtain ⟨d1, hd1, he'⟩ := setItem_ok h
        cases hd1
        exact ⟨_, he', onlyKey_set _ _ _, .inr (.inr ⟨rfl, _, rfl, Dict.get?_set_self _ _ _⟩)⟩
      | _ => cases hd0
  | some ts =>
    cases hb : Dict.get? d "targets_by_type" with
    | none =>
      simp only [Dict.has, ht, hb] at h
      cases h
      exact ⟨d, rfl, fun _ _ => rfl, .inl ⟨rfl, rfl⟩⟩
    | some g =>
      simp only [Dict.has, ht, hb, Option.isSome_some, item_dict hb, item_dict ht] at h
      split at h
      · cases h
      rename_i g' hg'
      split at h
      · rename_i hsame
        cases h
        exact ⟨d, rfl, fun _ _ => rfl, .inr (.inl ⟨rfl, ts, g, g', rfl, rfl, hg', hsame⟩)⟩
      · cases h

/-- When `checkTargets` has nothing to do. -/
theorem checkTargets_id {d : Dict} (h : Dict.get? d "targets_by_type" = none ∨
    ∃ ts g g', Dict.get? d "targets" = some ts ∧ Dict.get? d "targets_by_type" = some g ∧ groupTargetsV ts = .ok g' ∧ sameTargets g' g = true) :
    checkTargets (.dict d) = .ok (.dict d) := by
  unfold checkTargets
  simp only [pyIn_dict]
  rcases h with h | ⟨ts, g, g', h1, h2, h3, h4⟩
  · cases ht : Dict.get? d "targets" <;> simp [Dict.has, h, ht]
  · simp [Dict.has, h1, h2, item_dict h1, item_dict h2, h3, h4]

/-! ### one event through all the loops -/

/-- How a signal is prepared, in an event with descriptor `dd`; `declared` is the duration of the event afterwards. -/
structure PreparedSignal (dd : Dict) (declared : Value) (s s' : Value) : Prop where
  prepared : ∃ q x q', s = .dict q ∧ s' = .dict q' ∧ OnlyKey "current_value" q x ∧ OnlyKey "measurement" x q' ∧
    (∃ t, signalDuration s = .ok t ∧ signalDuration s' = .ok t ∧ declared = .timedelta t) ∧
    checkSimpleSignal s = .ok s ∧ checkSimpleSignal s' = .ok s' ∧
    (x = q ∨ (Dict.get? x "current_value" = some (.int 0) ∧ Dict.get? q "signal_name" = some (.str "SIMPLE") ∧
      Dict.get? dd "event_status" ≠ some (.str "ACTIVE"))) ∧
    (Dict.get? x "current_value" = none ∨ (∃ z, Dict.get? x "current_value" = some z ∧ z.isZero = true) ∨
      (∃ n, Dict.get? q "signal_name" = some n ∧ n ≠ .str "SIMPLE") ∨
      (Dict.get? q "signal_name" = some (.str "SIMPLE") ∧ Dict.get? dd "event_status" = some (.str "ACTIVE"))) ∧
    ((q' = x ∧ (Dict.get? x "measurement" = none ∨ Dict.get? x "measurement" = some .none)) ∨
      ∃ m m', Dict.get? x "measurement" = some m ∧ m ≠ .none ∧ setNamespace m = .ok m' ∧ Dict.get? q' "measurement" = some m')

/-- How an event is prepared. -/
structure PreparedEvent (e e' : Value) : Prop where
  prepared : ∃ d d' p p' ss ss' declared dd dd' v, e = .dict d ∧ e' = .dict d' ∧
    (∀ k, k ∉ ["active_period", "event_signals", "response_required", "event_descriptor", "targets"] → Dict.get? d' k = Dict.get? d k) ∧
    (Dict.get? d "active_period" = some (.dict p) ∧ Dict.get? d' "active_period" = some (.dict p') ∧ OnlyKey "duration" p p' ∧
      Dict.get? p' "duration" = some declared) ∧
    (Dict.get? d "event_signals" = some ss ∧ Iter ss ∧ Dict.get? d' "event_signals" = some ss' ∧ Iter ss' ∧
      Each (PreparedSignal dd declared) (kids ss) (kids ss')) ∧
    (Dict.get? d' "response_required" = some (.str "never") ∨ Dict.get? d' "response_required" = some (.str "always")) ∧
    (Dict.get? d "event_descriptor" = some (.dict dd) ∧ Dict.get? d' "event_descriptor" = some (.dict dd') ∧ OnlyKey "created_date_time" dd dd' ∧
      Dict.get? dd' "created_date_time" = some v ∧ v.truthy = true) ∧
    (Dict.get? d "targets_by_type" = none ∧ Dict.get? d' "targets" = Dict.get? d "targets" ∨
      (Dict.get? d' "targets" = Dict.get? d "targets" ∧
        ∃ ts g g', Dict.get? d "targets" = some ts ∧ Dict.get? d "targets_by_type" = some g ∧ groupTargetsV ts = .ok g' ∧ sameTargets g' g = true) ∨
      (Dict.get? d "targets" = none ∧ ∃ g, Dict.get? d "targets_by_type" = some (.dict g) ∧
        Dict.get? d' "targets" = some (.list ((ungroupTargetsByType g).map .dict))))

/-- A loop over the signals of an event. -/
theorem signalLoop_ok {f : Value → Res Value} {d : Dict} {e' ss : Value} (h : modifyItem (.dict d) "event_signals" (forEach f) = .ok e')
    (hs : Dict.get? d "event_signals" = some ss) (hi : Iter ss) :
    ∃ d' ss', e' = .dict d' ∧ OnlyKey "event_signals" d d' ∧ Dict.get? d' "event_signals" = some ss' ∧ Iter ss' ∧
      Each (fun s s' => f s = .ok s') (kids ss) (kids ss') := by
  obtain ⟨d0, x, x', hd0, hx, hf, he'⟩ := modifyItem_ok h
  cases hd0
  rw [hs] at hx
  cases hx
  obtain ⟨l', hl', _, hi', hk⟩ := forEach_iter hi hf
  exact ⟨_, x', he', onlyKey_set _ _ _, Dict.get?_set_self _ _ _, hi', by rw [hk]; exact (eachOk_iff _ _ _).mp hl'⟩

theorem chain_prepared {now : Int} {e e' : Value}
    (h : Chain [adjustDuration, checkSimple, zeroCurrent, namespaces, requireResponse, stampCreated now, checkTargets] e e') : PreparedEvent e e' := by
  obtain ⟨e1, h1, e2, h2, e3, h3, e4, h4, e5, h5, e6, h6, e7, h7, rfl⟩ := h
  obtain ⟨d, d1, p, p', ss, declared, rfl, rfl, hk1, hp, hp', hkp, hss, hi, hdecl, hdur⟩ := adjust_ok h1
  have hss1 : Dict.get? d1 "event_signals" = some ss := (hk1 _ (by decide)).trans hss
  obtain ⟨rfl, hsimple⟩ := checkSimple_ok h2 rfl hss1 hi
  obtain ⟨d3, ss3, rfl, hk3, hss3, hi3, heach3⟩ := signalLoop_ok h3 hss1 hi
  obtain ⟨d4, ss4, rfl, hk4, hss4, hi4, heach4⟩ := signalLoop_ok h4 hss3 hi3
  obtain ⟨d5, rfl, hk5, hresp⟩ := requireResponse_ok h5 rfl
  obtain ⟨d6, dd, dd', v, rfl, hk6, hdd, hdd', hkd, hv, ht⟩ := stampCreated_ok h6 rfl
  obtain ⟨d7, rfl, hk7, htargets⟩ := checkTargets_ok h7 rfl
  have hddd : Dict.get? d1 "event_descriptor" = some (.dict dd) := by
    rw [← hk3 _ (by decide), ← hk4 _ (by decide), ← hk5 _ (by decide)]; exact hdd
  have hddd0 : Dict.get? d "event_descriptor" = some (.dict dd) := by rw [← hk1 _ (by decide)]; exact hddd
  have hact : statusActive (.dict d1) ↔ Dict.get? dd "event_status" = some (.str "ACTIVE") := by
    unfold statusActive
    rw [item_dict hddd]
    constructor
    · rintro ⟨q, x, hq, hx, rfl⟩
      cases hq
      exact hx
    · intro hx
      exact ⟨dd, _, rfl, hx, rfl⟩
  have back : ∀ k, k ∉ ["active_period", "event_signals", "response_required", "event_descriptor", "targets"] → Dict.get? d7 k = Dict.get? d k := by
    intro k hk
    simp only [List.mem_cons, List.not_mem_nil, or_false, not_or] at hk
    obtain ⟨a1, a2, a3, a4, a5⟩ := hk
    rw [hk7 k a5, hk6 k a4, hk5 k a3, hk4 k a2, hk3 k a2, hk1 k a1]
  refine ⟨d, d7, p, p', ss, ss4, declared, dd, dd', v, rfl, rfl, back, ⟨hp, ?_, hkp, hdecl⟩, ⟨hss, hi, ?_, hi4, ?_⟩, ?_, ⟨hddd0, ?_, hkd, hv, ht⟩, ?_⟩
  · rw [hk7 _ (by decide), hk6 _ (by decide), hk5 _ (by decide), hk4 _ (by decide), hk3 _ (by decide)]; exact hp'
  · rw [hk7 _ (by decide), hk6 _ (by decide), hk5 _ (by decide)]; exact hss4
  · have hboth : Each (fun s s' => s ∈ kids ss ∧ ∃ x, zeroSignal (.dict d1) s = .ok x ∧ onMeasurement setNamespace x = .ok s') (kids ss) (kids ss4) := by
      have hmem : Each (fun s s' => s' = s ∧ s ∈ kids ss) (kids ss) (kids ss) := Each.refl (fun x hx => ⟨rfl, hx⟩)
      have := Each.comp hmem (Each.comp heach3 heach4)
      refine this.imp ?_
      rintro s s' ⟨y, ⟨rfl, hy⟩, x, hx1, hx2⟩
      exact ⟨hy, x, hx1, hx2⟩
    refine hboth.imp ?_
    rintro s s' ⟨hs, x, hz, hm⟩
    obtain ⟨t, htd, hde⟩ := hdur s hs
    obtain ⟨q, is, rfl, his, _, hsd⟩ := signalDuration_ok htd
    obtain ⟨x, rfl, hkz, hz1, hz2⟩ := zeroSignal_ok hz rfl
    obtain ⟨q', rfl, hkm, hm1⟩ := onMeasurement_ok hm rfl
    refine ⟨q, x, q', rfl, rfl, hkz, hkm, ⟨t, htd, ?_, hde⟩, hsimple _ hs, ?_, ?_, ?_, hm1⟩
    · refine hsd q' ?_
      rw [hkm _ (by decide), hkz _ (by decide)]; exact his
    · exact checkSimpleSignal_id (hsimple _ hs) (by rw [hkm _ (by decide), hkz _ (by decide)]) (by rw [hkm _ (by decide), hkz _ (by decide)])
    · exact hz1.imp id (fun ⟨a, b, c⟩ => ⟨a, b, fun hh => c (hact.mpr hh)⟩)
    · rw [← hact]; exact hz2
  · rw [hk7 _ (by decide), hk6 _ (by decide)]; exact hresp
  · rw [hk7 _ (by decide)]; exact hdd'
  · have t1 : Dict.get? d6 "targets" = Dict.get? d "targets" := by
      rw [hk6 _ (by decide), hk5 _ (by decide), hk4 _ (by decide), hk3 _ (by decide), hk1 _ (by decide)]
    have t2 : Dict.get? d6 "targets_by_type" = Dict.get? d "targets_by_type" := by
      rw [hk6 _ (by decide), hk5 _ (by decide), hk4 _ (by decide), hk3 _ (by decide), hk1 _ (by decide)]
    rw [t1, t2] at htargets
    rcases htargets with ⟨rfl, hh⟩ | ⟨rfl, hh⟩ | hh
    · exact .inl ⟨hh, t1⟩
    · exact .inr (.inl ⟨t1, hh⟩)
    · exact .inr (.inr hh)

/-- The events of a message, before and after preparation. -/
theorem preflight_events {now : Int} {m m' : Value} (h : preflightDistributeEvent now m = .ok m') :
    ∃ d v v', m = .dict d ∧ Dict.get? d "events" = some v ∧ Iter v ∧ m' = .dict (Dict.set d "events" v') ∧ Iter v' ∧ Each PreparedEvent (kids v) (kids v') := by
  obtain ⟨d, v, v', h1, h2, h3, h4, h5, h6⟩ := phases_ok adjustDuration_text h
  exact ⟨d, v, v', h1, h2, h3, h4, h5, h6.imp (fun _ _ hh => chain_prepared hh)⟩

/-! ### C64 -/

theorem prepared_good {e e' : Value} (h : PreparedEvent e e') : GoodEvent e' := by
  obtain ⟨d, d', p, p', ss, ss', declared, dd, dd', v, rfl, rfl, _, ⟨_, hp', _, hdecl⟩, ⟨_, _, hss', _, heach⟩, hresp, ⟨_, hdd', _, hv, ht⟩, _⟩ := h.prepared
  constructor
  · intro s hs
    rw [field_dict hss'] at hs
    obtain ⟨s0, _, hps⟩ := heach.right s hs
    obtain ⟨q, x, q', _, rfl, _, _, ⟨t, _, h2, h3⟩, _⟩ := hps.prepared
    obtain ⟨_, _, _, _, htot, _⟩ := signalDuration_ok h2
    refine ⟨t, htot, ?_⟩
    rw [field_dict hp', field_dict hdecl, h3]
  · intro s hs hname i hi
    rw [field_dict hss'] at hs
    obtain ⟨s0, _, hps⟩ := heach.right s hs
    obtain ⟨q, x, q', _, rfl, _, _, _, _, hc, _⟩ := hps.prepared
    obtain ⟨_, d0, name, hd0, hn, hh⟩ := checkSimpleSignal_ok hc
    cases hd0
    rw [field_dict hn] at hname
    rcases hh with hh | ⟨is, his, _, hlev⟩
    · exact absurd hname hh
    · rw [field_dict his] at hi
      exact hlev i hi
  · rcases hresp with hr | hr
    · exact .inl (field_dict hr)
    · exact .inr (field_dict hr)
  · rw [field_dict hdd', field_dict hv]
    rintro rfl
    cases ht

/-- **C64**: every event of a message that passes preparation satisfies the rules: duration equal to the sum of the interval durations of each signal,
    SIMPLE levels, response requirement, creation time. -/
theorem c64_rules (now : Int) (m m' : Value) (h : preflightDistributeEvent now m = .ok m') : ∀ e ∈ kids (field m' "events"), GoodEvent e := by
  obtain ⟨d, v, v', rfl, _, _, rfl, _, heach⟩ := preflight_events h
  rw [field_dict (Dict.get?_set_self _ _ _)]
  intro e he
  obtain ⟨e0, _, hp⟩ := heach.right e he
  exact prepared_good hp

theorem prepared_same {e e' : Value} (h : PreparedEvent e e') : SameEvent e e' := by
  obtain ⟨d, d', p, p', ss, ss', declared, dd, dd', v, rfl, rfl, hk, ⟨hp, hp', hkp, hdecl⟩, ⟨hss, _, hss', _, heach⟩, hresp, ⟨hdd, hdd', hkd, hv, ht⟩, _⟩ := h.prepared
  constructor
  · intro k hkk
    exact field_congr (hk k hkk)
  · intro k hkk
    rw [field_dict hp, field_dict hp']
    exact field_congr (hkp k hkk)
  · intro k hkk
    rw [field_dict hdd, field_dict hdd']
    exact field_congr (hkd k hkk)
  · rw [field_dict hss, field_dict hss']
    refine heach.imp ?_
    intro s s' hps
    obtain ⟨q, x, q', rfl, rfl, hkz, hkm, _, _, _, _, _, hm⟩ := hps.prepared
    constructor
    · intro k hkk
      simp only [List.mem_cons, List.not_mem_nil, or_false, not_or] at hkk
      refine field_congr ?_
      rw [hkm k hkk.2, hkz k hkk.1]
    · intro k hkk
      have hxm : Dict.get? x "measurement" = Dict.get? q "measurement" := hkz _ (by decide)
      rcases hm with ⟨rfl, _⟩ | ⟨m, m', hm, _, hf, hm'⟩
      · rw [field_congr hxm]
      · rw [field_dict hm', field_dict (hxm ▸ hm)]
        obtain ⟨dm, name, ns, rfl, _, _, rfl⟩ := setNamespace_ok hf
        exact field_congr (Dict.get?_set_other _ _ _ _ hkk)

/-- **C64**: preparation corrects only what it should: the message keeps its other entries and its events in order, and the events keep everything but
    the duration of the active period, current values, namespaces of measurements, response requirement, creation time and added targets. -/
theorem c64_keeps (now : Int) (m m' : Value) (h : preflightDistributeEvent now m = .ok m') :
    (∀ k, k ≠ "events" → field m' k = field m k) ∧ Each SameEvent (kids (field m "events")) (kids (field m' "events")) := by
  obtain ⟨d, v, v', rfl, hv, _, rfl, _, heach⟩ := preflight_events h
  refine ⟨fun k hk => field_congr (Dict.get?_set_other _ _ _ _ hk), ?_⟩
  rw [field_dict (Dict.get?_set_self _ _ _), field_dict hv]
  exact heach.imp (fun _ _ hh => prepared_same hh)

theorem totalOf_congr {s s' : Value} (h : field s' "intervals" = field s "intervals") : totalOf s' = totalOf s := by simp [totalOf, h]

/-- **C64**: a message with an event whose signals have different total durations, or a duration that cannot be read, is refused. -/
theorem c64_refused_durations (now : Int) (m e s1 s2 : Value) (he : e ∈ kids (field m "events")) (h1 : s1 ∈ kids (field e "event_signals"))
    (h2 : s2 ∈ kids (field e "event_signals")) (hne : totalOf s1 ≠ totalOf s2 ∨ totalOf s1 = none) : ∃ err, preflightDistributeEvent now m = .error err := by
  cases h : preflightDistributeEvent now m with
  | error err => exact ⟨err, rfl⟩
  | ok m' =>
    exfalso
    obtain ⟨_, hsame⟩ := c64_keeps now m m' h
    obtain ⟨e', he', hee⟩ := hsame.left e he
    have hgood := c64_rules now m m' h e' he'
    obtain ⟨s1', hs1', hk1, _⟩ := hee.signals.left s1 h1
    obtain ⟨s2', hs2', hk2, _⟩ := hee.signals.left s2 h2
    obtain ⟨t1, ht1, hd1⟩ := hgood.duration s1' hs1'
    obtain ⟨t2, ht2, hd2⟩ := hgood.duration s2' hs2'
    rw [totalOf_congr (hk1 "intervals" (by decide))] at ht1
    rw [totalOf_congr (hk2 "intervals" (by decide))] at ht2
    rw [hd1] at hd2
    cases hd2
    rcases hne with hne | hne
    · exact hne (ht1.trans ht2.symm)
    · rw [ht1] at hne; cases hne

/-- **C64**: a message with a SIMPLE signal that has another level than 0 to 3 is refused. -/
theorem c64_refused_levels (now : Int) (m e s i : Value) (he : e ∈ kids (field m "events")) (hs : s ∈ kids (field e "event_signals"))
    (hn : field s "signal_name" = .str "SIMPLE") (hi : i ∈ kids (field s "intervals")) (hl : field i "signal_payload" ∉ simpleLevels) :
    ∃ err, preflightDistributeEvent now m = .error err := by
  cases h : preflightDistributeEvent now m with
  | error err => exact ⟨err, rfl⟩
  | ok m' =>
    exfalso
    obtain ⟨_, hsame⟩ := c64_keeps now m m' h
    obtain ⟨e', he', hee⟩ := hsame.left e he
    obtain ⟨s', hs', hk, _⟩ := hee.signals.left s hs
    refine hl ((c64_rules now m m' h e' he').levels s' hs' (by rw [hk _ (by decide)]; exact hn) i ?_)
    rw [hk _ (by decide)]; exact hi

/-- **C64**: the targets of an event that passes: an event with targets by type has targets; if both were given they agree, otherwise the targets are
    those of the types. -/
theorem c64_targets (now : Int) (m m' : Value) (h : preflightDistributeEvent now m = .ok m') :
    Each (fun e e' => ∀ g, field e "targets_by_type" = .dict g →
      (field e' "targets" = .list ((ungroupTargetsByType g).map .dict)) ∨
      (field e' "targets" = field e "targets" ∧ ∃ g', groupTargetsV (field e "targets") = .ok g' ∧ sameEntries g'.toDict g = true))
      (kids (field m "events")) (kids (field m' "events")) := by
  obtain ⟨d, v, v', rfl, hv, _, rfl, _, heach⟩ := preflight_events h
  rw [field_dict (Dict.get?_set_self _ _ _), field_dict hv]
  refine heach.imp ?_
  intro e e' hp g hg
  obtain ⟨d, d', _, _, _, _, _, _, _, _, rfl, rfl, _, _, _, _, _, ht⟩ := hp.prepared
  rcases ht with ⟨h1, _⟩ | ⟨h1, ts, g0, g', h2, h3, h4, h5⟩ | ⟨h1, g0, h2, h3⟩
  · simp [field, h1] at hg
  · right
    rw [field_dict h3] at hg
    subst hg
    exact ⟨field_congr h1, g', by rw [field_dict h2]; exact h4, h5⟩
  · left
    rw [field_dict h2] at hg
    cases hg
    exact field_dict h3

/-! ### C65 -/

theorem isZero_mem {v : Value} (h : v.isZero = true) : v ∈ zeros := by
  cases v <;> simp [Value.isZero] at h
  · subst h; simp [zeros]
  · subst h; simp [zeros]
  · rcases h with rfl | rfl <;> simp [zeros]

/-- **C65** (partial: see the refutation for active events). The current value of a signal is changed only if its name is SIMPLE and the status of the
    event is not the text "ACTIVE", and then to 0. -/
theorem c65_others_kept_partial (now : Int) (m m' : Value) (h : preflightDistributeEvent now m = .ok m') :
    Each (fun e e' => Each (fun s s' => field s' "current_value" = field s "current_value" ∨
        (field s' "current_value" = .int 0 ∧ field s "signal_name" = .str "SIMPLE" ∧ field (field e "event_descriptor") "event_status" ≠ .str "ACTIVE"))
      (kids (field e "event_signals")) (kids (field e' "event_signals"))) (kids (field m "events")) (kids (field m' "events")) := by
  obtain ⟨d, v, v', rfl, hv, _, rfl, _, heach⟩ := preflight_events h
  rw [field_dict (Dict.get?_set_self _ _ _), field_dict hv]
  refine heach.imp ?_
  intro e e' hp
  obtain ⟨d, d', p, p', ss, ss', declared, dd, dd', v, rfl, rfl, _, _, ⟨hss, _, hss', _, hs⟩, _, ⟨hdd, _⟩, _⟩ := hp.prepared
  rw [field_dict hss, field_dict hss', field_dict hdd]
  refine hs.imp ?_
  intro s s' hps
  obtain ⟨q, x, q', rfl, rfl, _, hkm, _, _, _, hz, _⟩ := hps.prepared
  rw [field_congr (hkm "current_value" (by decide))]
  rcases hz with rfl | ⟨h1, h2, h3⟩
  · exact .inl rfl
  · refine .inr ⟨field_dict h1, field_dict h2, ?_⟩
    intro hh
    cases hst : Dict.get? dd "event_status" with
    | none => simp [field, hst] at hh
    | some st =>
      rw [field_dict hst] at hh
      rw [hh] at hst
      exact h3 hst

/-- **C65** (partial: see the refutation for active events). An event that is not active, in whatever notation, is sent with the current value 0 for its
    SIMPLE signals. -/
theorem c65_not_active_partial (now : Int) (m m' : Value) (h : preflightDistributeEvent now m = .ok m') :
    ∀ e ∈ kids (field m' "events"), field (field e "event_descriptor") "event_status" ≠ .str "ACTIVE" → ∀ s ∈ kids (field e "event_signals"),
      field s "signal_name" = .str "SIMPLE" → field s "current_value" ∈ zeros ∨ field s "current_value" = .none := by
  obtain ⟨d, v, v', rfl, hv, _, rfl, _, heach⟩ := preflight_events h
  rw [field_dict (Dict.get?_set_self _ _ _)]
  intro e he hna s hs hn
  obtain ⟨e0, _, hp⟩ := heach.right e he
  obtain ⟨d, d', p, p', ss, ss', declared, dd, dd', v, rfl, rfl, _, _, ⟨_, _, hss', _, hsig⟩, _, ⟨_, hdd', hkd, _⟩, _⟩ := hp.prepared
  rw [field_dict hss'] at hs
  obtain ⟨s0, _, hps⟩ := hsig.right s hs
  obtain ⟨q, x, q', rfl, rfl, hkz, hkm, _, _, _, _, hz, _⟩ := hps.prepared
  rw [field_dict hdd', field_congr (hkd "event_status" (by decide))] at hna
  rw [field_congr (hkm "signal_name" (by decide)), field_congr (hkz "signal_name" (by decide))] at hn
  rw [field_congr (hkm "current_value" (by decide))]
  rcases hz with hz | ⟨z, hz, hzz⟩ | ⟨n, hn', hne⟩ | ⟨_, hact⟩
  · right; simp [field, hz]
  · left; rw [field_dict hz]; exact isZero_mem hzz
  · rw [field_dict hn'] at hn; exact absurd hn hne
  · rw [field_dict hact] at hna; exact absurd rfl hna

/-- **C65, refuted** for active events: the library's status of an active event is "active", in lower case, and preparation compares it with "ACTIVE";
    so every current value of a SIMPLE signal that is sent is 0 (or absent), whichever of the library's statuses the event has. -/
theorem c65_active_violated (now : Int) (m m' : Value) (h : preflightDistributeEvent now m = .ok m') :
    ∀ e ∈ kids (field m' "events"), (∃ st ∈ eventStatuses, field (field e "event_descriptor") "event_status" = .str st) → ∀ s ∈ kids (field e "event_signals"),
      field s "signal_name" = .str "SIMPLE" → field s "current_value" ∈ zeros ∨ field s "current_value" = .none := by
  intro e he ⟨st, hst, heq⟩
  refine c65_not_active_partial now m m' h e he ?_
  rw [heq]
  intro hh
  cases hh
  simp [eventStatuses] at hst

/-! ### C66 -/

/-- Targets by type as they should be: for each type a list that is not empty and has no `None`. -/
def GoodTypes (g : Dict) : Prop := (Dict.keys g).Nodup ∧ ∀ e ∈ g, ∃ l, e.2 = .list l ∧ l ≠ [] ∧ Value.none ∉ l

theorem goodTypes_toDict (g : Dict) (h : ∀ e ∈ g, ∃ l, e.2 = .list l ∧ l ≠ [] ∧ Value.none ∉ l) :
    ∃ g' : TargetsByType, g'.toDict = g ∧ (Dict.keys g' = Dict.keys g) ∧ ∀ e ∈ g', e.2 ≠ [] ∧ ∀ v ∈ e.2, v ≠ .none := by
  induction g with
  | nil => exact ⟨[], rfl, rfl, by simp⟩
  | cons a g ih =>
    obtain ⟨g', h1, h2, h3⟩ := ih (fun e he => h e (by simp [he]))
    obtain ⟨l, hl, hne, hnn⟩ := h a (by simp)
    obtain ⟨k, v⟩ := a
    simp only at hl
    subst hl
    refine ⟨(k, l) :: g', ?_, ?_, ?_⟩
    · show (k, Value.list l) :: TargetsByType.toDict g' = _
      rw [h1]
    · simpa [Dict.keys] using h2
    · intro e he
      rcases List.mem_cons.mp he with rfl | he
      · exact ⟨hne, fun v hv hvn => hnn (hvn ▸ hv)⟩
      · exact h3 e he

theorem sameEntries_refl (g : Dict) (h : (Dict.keys g).Nodup) : sameEntries g g = true := by
  unfold sameEntries
  simp only [decide_true, Bool.true_and, List.all_eq_true, decide_eq_true_eq]
  intro e he
  exact Dict.get?_of_mem g h e.1 e.2 he

theorem eachOk_entries (ts : Targets) : eachOk targetEntriesV (ts.map .dict) = .ok ts := by
  induction ts with
  | nil => rfl
  | cons t ts ih => simp [eachOk, targetEntriesV, ih]

/-- Good groups agree with the targets made from them. -/
theorem goodTypes_agree (g : Dict) (h : GoodTypes g) :
    ∃ g', groupTargetsV (.list ((ungroupTargetsByType g).map .dict)) = .ok g' ∧ sameTargets g' (.dict g) = true := by
  obtain ⟨g', h1, h2, h3⟩ := goodTypes_toDict g h.2
  refine ⟨g', ?_, ?_⟩
  · unfold groupTargetsV
    simp only [elements, eachOk_entries, Except.ok.injEq]
    rw [← h1]
    exact c13_group_of_ungroup g' (by rw [h2]; exact h.1) h3
  · simp only [sameTargets, h1]
    exact sameEntries_refl g h.1

/-- An event that was prepared needs no preparation. -/
theorem prepared_id {now : Int} {e e' : Value} (h : PreparedEvent e e')
    (hg : ∀ d g, e = .dict d → Dict.get? d "targets" = none → Dict.get? d "targets_by_type" = some (.dict g) → GoodTypes g) :
    ∀ f ∈ [adjustDuration, checkSimple, zeroCurrent, namespaces, requireResponse, stampCreated now, checkTargets], f e' = .ok e' := by
  obtain ⟨d, d', p, p', ss, ss', declared, dd, dd', v, rfl, rfl, hk, ⟨hp, hp', hkp, hdecl⟩, ⟨hss, _, hss', hi', heach⟩, hresp, ⟨hdd, hdd', hkd, hv, ht⟩, htg⟩ := h.prepared
  have hst : Dict.get? dd' "event_status" = Dict.get? dd "event_status" := hkd _ (by decide)
  intro f hf
  simp only [List.mem_cons, List.not_mem_nil, or_false] at hf
  rcases hf with rfl | rfl | rfl | rfl | rfl | rfl | rfl
  · refine adjust_id hp' hdecl hss' hi' ?_
    intro s hs
    obtain ⟨s0, _, hps⟩ := heach.right s hs
    obtain ⟨_, _, _, _, _, _, _, ⟨t, _, h2, h3⟩, _⟩ := hps.prepared
    exact ⟨t, h2, h3⟩
  · refine modifyItem_id hss' (forEach_id hi' ?_)
    intro s hs
    obtain ⟨s0, _, hps⟩ := heach.right s hs
    obtain ⟨_, _, _, _, _, _, _, _, _, hc, _⟩ := hps.prepared
    exact hc
  · refine modifyItem_id hss' (forEach_id hi' ?_)
    intro s hs
    obtain ⟨s0, _, hps⟩ := heach.right s hs
    obtain ⟨q, x, q', _, rfl, hkz, hkm, _, _, _, _, hz, _⟩ := hps.prepared
    have hc : Dict.get? q' "current_value" = Dict.get? x "current_value" := hkm _ (by decide)
    have hn : Dict.get? q' "signal_name" = Dict.get? q "signal_name" := by rw [hkm _ (by decide), hkz _ (by decide)]
    refine zeroSignal_id ?_
    rw [hc, hn]
    rcases hz with hz | hz | hz | ⟨h1, h2⟩
    · exact .inl hz
    · exact .inr (.inl hz)
    · exact .inr (.inr (.inl hz))
    · exact .inr (.inr (.inr ⟨h1, dd', _, item_dict hdd', hst.trans h2, rfl⟩))
  · refine modifyItem_id hss' (forEach_id hi' ?_)
    intro s hs
    obtain ⟨s0, _, hps⟩ := heach.right s hs
    obtain ⟨q, x, q', _, rfl, hkz, hkm, _, _, _, _, _, hm⟩ := hps.prepared
    refine onMeasurement_id ?_
    rcases hm with ⟨rfl, hm | hm⟩ | ⟨m, m', _, _, hf, hm'⟩
    · exact .inl hm
    · exact .inr (.inl hm)
    · exact .inr (.inr ⟨m', hm', setNamespace_id hf⟩)
  · exact requireResponse_id hresp
  · exact stampCreated_id hdd' hv ht
  · have hb : Dict.get? d' "targets_by_type" = Dict.get? d "targets_by_type" := hk _ (by decide)
    refine checkTargets_id ?_
    rw [hb]
    rcases htg with ⟨h1, _⟩ | ⟨h1, ts, g, g', h2, h3, h4, h5⟩ | ⟨h1, g, h2, h3⟩
    · exact .inl h1
    · exact .inr ⟨ts, g, g', h1.trans h2, h3, h4, h5⟩
    · obtain ⟨g', h4, h5⟩ := goodTypes_agree g (hg d g rfl h1 h2)
      exact .inr ⟨_, _, g', h3, h2, h4, h5⟩

/-- The targets by type of the events that have no other targets are as they should be. -/
def GoodTargets (m : Value) : Prop :=
  ∀ d g, Value.dict d ∈ kids (field m "events") → Dict.get? d "targets" = none → Dict.get? d "targets_by_type" = some (.dict g) → GoodTypes g

/-- **C66**: an event message that was prepared is not changed by preparing it again, at any later time. -/
theorem c66_events (now now' : Int) (m m' : Value) (h : preflightDistributeEvent now m = .ok m') (hg : GoodTargets m) :
    preflightDistributeEvent now' m' = .ok m' := by
  obtain ⟨d, v, v', rfl, hv, _, rfl, hi', heach⟩ := preflight_events h
  unfold GoodTargets at hg
  rw [field_dict hv] at hg
  refine phases_id (Dict.get?_set_self _ _ _) hi' ?_
  intro f hf e he
  obtain ⟨e0, he0, hp⟩ := heach.right e he
  exact prepared_id hp (fun d g hd => hg d g (hd ▸ he0)) f hf

theorem nodup_length_le [DecidableEq α] : ∀ (l m : List α), l.Nodup → (∀ x ∈ l, x ∈ m) → l.length ≤ m.length
  | [], _, _, _ => by simp
  | x :: l, m, hn, hs => by
    rw [List.nodup_cons] at hn
    have hx := hs x (by simp)
    have := nodup_length_le l (m.erase x) hn.2 (by
      intro y hy
      have hne : y ≠ x := fun h => hn.1 (h ▸ hy)
      exact (List.mem_erase_of_ne hne).mpr (hs y (by simp [hy])))
    rw [List.length_erase_of_mem hx] at this
    have hpos := List.length_pos_of_mem hx
    simp only [List.length_cons]
    omega

theorem toDict_get (g : TargetsByType) (k : String) : Dict.get? g.toDict k = (Dict.get? g k).map Value.list := by
  induction g with
  | nil => rfl
  | cons e g ih =>
    obtain ⟨k0, l⟩ := e
    show Dict.get? ((k0, Value.list l) :: TargetsByType.toDict g) k = _
    simp only [Dict.get?]
    split
    · rfl
    · exact ih

theorem toDict_keys (g : TargetsByType) : Dict.keys g.toDict = Dict.keys g := by
  simp [Dict.keys, TargetsByType.toDict]

/-- Groups never agree with a dict that has a text or an empty list. -/
theorem bad_disagree (ts : Targets) (g : Dict) (k : String) (hbad : Dict.get? g k = some (.list []) ∨ ∃ s, Dict.get? g k = some (.str s)) :
    sameEntries (groupTargetsByType ts).toDict g = false := by
  cases hse : sameEntries (groupTargetsByType ts).toDict g with
  | false => rfl
  | true =>
    exfalso
    have hgood : GoodGroups (groupTargetsByType ts) := foldl_groupTarget_good ts [] ⟨by simp [Dict.keys], by simp [Dict.get?]⟩
    generalize groupTargetsByType ts = g' at hgood hse
    unfold sameEntries at hse
    simp only [Bool.and_eq_true, decide_eq_true_eq, List.all_eq_true] at hse
    obtain ⟨hlen, hall⟩ := hse
    have hkin : k ∈ Dict.keys g := by
      rw [← Dict.get?_isSome]
      rcases hbad with h | ⟨s, h⟩ <;> simp [h]
    have hsub : ∀ x ∈ Dict.keys g', x ∈ Dict.keys g := by
      intro x hx
      rw [← toDict_keys] at hx
      obtain ⟨e, he, rfl⟩ := List.mem_map.mp hx
      rw [← Dict.get?_isSome, hall e he]
      rfl
    have hnot : k ∉ Dict.keys g' := by
      intro hk
      obtain ⟨l, hl⟩ := Option.isSome_iff_exists.mp ((Dict.get?_isSome g' k).mpr hk)
      have h1 : Dict.get? g'.toDict k = some (.list l) := by rw [toDict_get, hl]; rfl
      have h2 := hall _ (Dict.mem_of_get? _ _ _ h1)
      simp only at h2
      have hne := hgood.2 k l hl
      rcases hbad with h | ⟨s, h⟩
      · rw [h] at h2; simp only [Option.some.injEq, Value.list.injEq] at h2; exact hne h2.symm
      · rw [h] at h2; simp at h2
    have := nodup_length_le (k :: Dict.keys g') (Dict.keys g) (List.nodup_cons.mpr ⟨hnot, hgood.1⟩) (by
      intro x hx
      rcases List.mem_cons.mp hx with rfl | hx
      · exact hkin
      · exact hsub x hx)
    simp only [Dict.keys, List.length_cons, List.length_map] at this
    have hl2 : (TargetsByType.toDict g').length = g'.length := by simp [TargetsByType.toDict]
    omega

/-- **C66, refuted** for targets by type that name one target as a text, or a type without targets: the preparation accepts them and adds the targets,
    and refuses its own result. (Dict events are changed in place, so that sending such an event a second time fails.) -/
theorem c66_text_targets_violated (now now' : Int) (m m' : Value) (d : Dict) (g : Dict) (h : preflightDistributeEvent now m = .ok m')
    (hd : Value.dict d ∈ kids (field m "events")) (ht : Dict.get? d "targets" = none) (hg : Dict.get? d "targets_by_type" = some (.dict g))
    (k : String) (hbad : Dict.get? g k = some (.list []) ∨ ∃ s, Dict.get? g k = some (.str s)) :
    ∃ err, preflightDistributeEvent now' m' = .error err := by
  cases h2 : preflightDistributeEvent now' m' with
  | error e => exact ⟨e, rfl⟩
  | ok m2 =>
    exfalso
    obtain ⟨dm, v, v', rfl, hv, _, rfl, _, heach⟩ := preflight_events h
    obtain ⟨dm2, w, w', hdm2, hw, _, _, _, heach2⟩ := preflight_events h2
    cases hdm2
    rw [Dict.get?_set_self] at hw
    cases hw
    rw [field_dict hv] at hd
    obtain ⟨e', he', hp⟩ := heach.left _ hd
    obtain ⟨e2, _, hp2⟩ := heach2.left e' he'
    obtain ⟨d0, d', _, _, _, _, _, _, _, _, hd0, rfl, hk, _, _, _, _, htg⟩ := hp.prepared
    cases hd0
    obtain ⟨d0, d2, _, _, _, _, _, _, _, _, hd0, rfl, _, _, _, _, _, htg2⟩ := hp2.prepared
    cases hd0
    have hb : Dict.get? d' "targets_by_type" = some (.dict g) := (hk _ (by decide)).trans hg
    rcases htg with ⟨h1, _⟩ | ⟨_, ts, _, _, h1, _⟩ | ⟨_, g0, h1, h3⟩
    · rw [hg] at h1; cases h1
    · rw [ht] at h1; cases h1
    · rw [hg] at h1
      cases h1
      rcases htg2 with ⟨h4, _⟩ | ⟨_, ts, g1, g', h4, h5, h6, h7⟩ | ⟨h4, _⟩
      · rw [hb] at h4; cases h4
      · rw [h3] at h4
        cases h4
        rw [hb] at h5
        cases h5
        unfold groupTargetsV at h6
        simp only [elements, eachOk_entries, Except.ok.injEq] at h6
        subst h6
        simp only [sameTargets, bad_disagree _ g k hbad] at h7
        cases h7
      · rw [h3] at h4; cases h4

end Openleadr
