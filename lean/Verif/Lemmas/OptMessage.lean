import Verif.Spec.OptPayloads
import Verif.Lemmas.EventTargets
import Verif.Lemmas.Identifiers
/-!
The parts of oadrCreateOpt.
-/
namespace Openleadr

variable {lib : Lib} {n : Nat} {env : Dict}

/-! ### Periods -/

theorem inside_available {p : PeriodP} (hp : p.Good) (hl : Dict.get? env "component" = some (.dict p.dict)) :
    Inside lib (n + 3) env (el "xcal:available" [el "xcal:properties" [
      el "xcal:dtstart" [leaf "xcal:date-time" ["component", "dtstart"] .datetimeformat],
      el "xcal:duration" [leaf "xcal:duration" ["component", "duration"] .timedeltaformat]]]) "available" [("properties", .dict p.dict)] :=
  inside_elem (.cons (carries_dict "properties" (key := "properties") (d := p.dict) (inside_elem
    (.cons (carries_dateIn "dtstart" "dtstart" (us := p.start) (by lkd [hl, PeriodP.dict]) hp.start)
      (.cons (carries_spanIn "duration" "duration" (us := p.duration) (by lkd [hl, PeriodP.dict]) hp.duration) .nil))
      (by simp [PeriodP.dict]) (by simp [PeriodP.dict])) (by simp [PeriodP.dict]) (by simp [PeriodP.dict, Dict.has, Dict.get?])) .nil)
      (by simp) (by simp)

theorem settled_available {p : PeriodP} : Settled lib 2 [("properties", .dict p.dict)] :=
  settled_of (ks := ["properties"]) (.cons (settled_dict settled_period (.inl (by simp [PeriodP.dict, Dict.has, Dict.get?]))) .nil)

/-- What is inside of `components`. -/
theorem carries_available {ps : List PeriodP} (hp : ∀ p ∈ ps, p.Good) (hne : ps ≠ [])
    (hl : lookup env ["vavailability", "components"] = .ok (some (.list ((ps.map PeriodP.dict).map .dict)))) :
    ∃ v, periodsReceived ps = .dict [("available", v)] ∧ Carries lib (n + 3) env (.loop "component" ["vavailability", "components"] [
      el "xcal:available" [el "xcal:properties" [
        el "xcal:dtstart" [leaf "xcal:date-time" ["component", "dtstart"] .datetimeformat],
        el "xcal:duration" [leaf "xcal:duration" ["component", "duration"] .timedeltaformat]]]]) "available" ["available"] [("available", v)] := by
  have hkey : normalizeKey "available" = "available" := by decide +kernel
  have hat : isAttribute "available" = false := by decide +kernel
  have hnest : nestKey "available" = true := by decide +kernel
  have each := each_map (P := fun i x d => Inside lib (n + 3) (loopEnv env "component" i x) (el "xcal:available" [el "xcal:properties" [
      el "xcal:dtstart" [leaf "xcal:date-time" ["component", "dtstart"] .datetimeformat],
      el "xcal:duration" [leaf "xcal:duration" ["component", "duration"] .timedeltaformat]]]) "available" d)
    (F := PeriodP.dict) (G := fun p => [("properties", .dict p.dict)]) (xs := ps) (fun p hm i => inside_available (hp p hm) (by simp [loopEnv, Dict.get?]))
  have stable : ∀ d ∈ ps.map (fun p => [("properties", Value.dict p.dict)]), 2 ≤ (ps.map (fun p => [("properties", Value.dict p.dict)])).length →
      normalize lib (n + 3) d = .ok d := by
    intro d hd _
    simp only [List.mem_map] at hd
    obtain ⟨p, -, rfl⟩ := hd
    exact settled_available _ (by omega)
  match ps, hne, hl, each, stable with
  | [p], _, hl, each, stable =>
    refine ⟨.dict p.dict, rfl, carries_loop "available" hl (by simp) each stable (by simp) (by simp [Dict.keys]) (fun _ v hv => ?_)⟩
    simp only [List.map_cons, List.map_nil, wrapDicts] at hv
    refine appends_inPlace lib _ _ "available" _ _ _ hkey hat hv (fun d hd => ?_)
    rw [settle_nest lib d "available" _ hnest hd]
    rw [unnest_other lib d "available" "properties" _ hnest (by decide) (by decide) (by decide +kernel)]
    simp [onlyEntry]
  | p :: p' :: ps, _, hl, each, stable =>
    refine ⟨_, rfl, carries_loop "available" hl (by simp) each stable (by simp) (by simp [Dict.keys]) (fun _ v hv => ?_)⟩
    simp only [List.map_cons, wrapDicts] at hv
    refine appends_inPlace lib _ _ "available" _ _ _ hkey hat hv (fun d hd => ?_)
    rw [settle_leaf lib d "available" _ (by decide +kernel) hd (by simp) (by simp)]
    simp only [List.map_cons]
    rw [Dict.set_get?_self _ _ _ hd]

theorem carries_availability {ps : List PeriodP} (hp : ∀ p ∈ ps, p.Good)
    (hl : lookup env ["vavailability", "components"] = .ok (some (.list ((ps.map PeriodP.dict).map .dict)))) :
    Carries lib (n + 5) env (el "xcal:vavailability" [el "xcal:components" [
        .loop "component" ["vavailability", "components"] [
          el "xcal:available" [el "xcal:properties" [
            el "xcal:dtstart" [leaf "xcal:date-time" ["component", "dtstart"] .datetimeformat],
            el "xcal:duration" [leaf "xcal:duration" ["component", "duration"] .timedeltaformat]]]]]]) "vavailability" ["vavailability"]
      [("vavailability", .dict [("components", periodsReceived ps)])] := by
  refine carries_single "vavailability" (inside_elem (n := n + 4) (.cons (key := "components") (keys := ["components"]) ?_ .nil) (by simp; rfl) (by simp))
  by_cases hne : ps = []
  · subst hne
    exact carries_void "components" "components" (by simp [sureAll, sure, hl, eachPiece])
  · obtain ⟨v, hv, h⟩ := carries_available (n := n) hp hne hl
    rw [hv]
    exact carries_single "components" (inside_elem (.cons h .nil) rfl (by simp))

/-! ### Targets -/

theorem target_texts (t : EventTargetP) : targetTexts [t] =
    entry? "group_id" (text? t.groupId) ++ entry? "group_name" (text? t.groupName) ++ entry? "resource_id" (text? t.resourceId) ++
    entry? "ven_id" (text? t.venId) ++ entry? "party_id" (text? t.partyId) := by
  have h : ∀ (k : String) (g : EventTargetP → Option String),
      (if [t].filterMap g = [] then ([] : Dict) else [(k, wrapTexts ([t].filterMap g))]) = entry? k (text? (g t)) := by
    intro k g
    cases hg : g t <;> simp [List.filterMap_cons, hg, wrapTexts, entry?, text?]
  simp only [targetTexts, targetKinds, List.flatMap_cons, List.flatMap_nil, h, List.append_nil, List.append_assoc]

/-- A target, or an empty element if it has no entry that is sent. -/
theorem sure_target {t : EventTargetP} (ht : t.Good lib) (hl : Dict.get? env "target" = some (.dict t.dict)) :
    ∃ w, sure lib env tTarget = .ok [.entry "eiTarget" w] ∧
      ((w = .none ∧ targetTexts [t] = []) ∨ (targetTexts [t] ≠ [] ∧ ∃ raw, w = .dict raw ∧ ∀ n, normalize lib (n + 1) raw = .ok (targetTexts [t]))) := by
  obtain ⟨g0, g1, g2, g3, g4, g5⟩ := ht.get
  have hk := fun k hk => ht.texts k hk
  have body : ∀ n, CarriesAll lib n env [
      ifGiven ["target", "emix_interfaces"] [.loop "emix_interface" ["target", "emix_interface"] emixInterface],
      ifGiven ["target", "group_id"] [leaf "ei:groupID" ["target", "group_id"]],
      ifGiven ["target", "group_name"] [leaf "ei:groupName" ["target", "group_name"]],
      ifGiven ["target", "resource_id"] [leaf "ei:resourceID" ["target", "resource_id"]],
      ifGiven ["target", "ven_id"] [leaf "ei:venID" ["target", "ven_id"]],
      ifGiven ["target", "party_id"] [leaf "ei:partyID" ["target", "party_id"]]]
      [("emixInterface", []), ("groupID", ["group_id"]), ("groupName", ["group_name"]), ("resourceID", ["resource_id"]), ("venID", ["ven_id"]),
        ("partyID", ["party_id"])]
      [[], entry? "group_id" (text? t.groupId), entry? "group_name" (text? t.groupName), entry? "resource_id" (text? t.resourceId),
        entry? "ven_id" (text? t.venId), entry? "party_id" (text? t.partyId)] := by
    intro n
    refine .cons (carries_skip _ _ (surely_given (v := none) ?_ (by simp)))
      (.cons (carries_text? "groupID" "group_id" ?_ (hk ("group_id", EventTargetP.groupId) (by simp [targetKinds])))
      (.cons (carries_text? "groupName" "group_name" ?_ (hk ("group_name", EventTargetP.groupName) (by simp [targetKinds])))
      (.cons (carries_text? "resourceID" "resource_id" ?_ (hk ("resource_id", EventTargetP.resourceId) (by simp [targetKinds])))
      (.cons (carries_text? "venID" "ven_id" ?_ (hk ("ven_id", EventTargetP.venId) (by simp [targetKinds])))
      (.cons (carries_text? "partyID" "party_id" ?_ (hk ("party_id", EventTargetP.partyId) (by simp [targetKinds]))) .nil)))))
    all_goals simp [lookup, walk, hl, attrOf, g0, g1, g2, g3, g4, g5]
  by_cases hne : targetTexts [t] = []
  · have e := hne
    rw [target_texts] at e
    simp only [List.append_eq_nil_iff] at e
    obtain ⟨⟨⟨⟨e1, e2⟩, e3⟩, e4⟩, e5⟩ := e
    have no : ∀ (k : String) (o : Option String), entry? k (text? o) = [] → text? o = none := by
      intro k o h
      cases o <;> simp [text?, entry?] at h ⊢
    have skip : ∀ (path : List String) (b : List Tmpl), lookup env path = .ok none → sure lib env (ifGiven path b) = .ok [] := by
      intro path b h
      simp [ifGiven, sure, surely_given h (by simp), sureAll]
    have f1 : localName "ei:eiTarget" = "eiTarget" := by decide +kernel
    have f2 : attrItem [] = [] := by decide +kernel
    refine ⟨.none, ?_, .inl ⟨rfl, hne⟩⟩
    unfold tTarget el
    rw [sure]
    simp only [sureAll]
    rw [skip, skip, skip, skip, skip, skip]
    · simp [sureKey, f1, f2, elementValue, charsOf, childDict, closeValue, strip]
    all_goals simp [lookup, walk, hl, attrOf, g0, g1, g2, g3, g4, g5, no _ _ e1, no _ _ e2, no _ _ e3, no _ _ e4, no _ _ e5]
  · have hin : ∀ n, Inside lib (n + 1) env tTarget "eiTarget" (targetTexts [t]) := fun n => inside_elem (body n) (by simp [target_texts]) hne
    obtain ⟨raw, r1, -⟩ := hin 0
    refine ⟨.dict raw, r1, .inr ⟨hne, raw, rfl, fun n => ?_⟩⟩
    obtain ⟨raw', r1', r2⟩ := hin n
    rw [r1] at r1'
    simp only [Except.ok.injEq, List.cons.injEq, Piece.entry.injEq, Value.dict.injEq, true_and, and_true] at r1'
    rwa [r1']

/-- The choice between the targets and an empty element. -/
def optTargets : Tmpl :=
  .cond (.both (.given ["targets"]) (.nonEmpty ["targets"])) [.loop "target" ["targets"] [tTarget]] [.empty (.fixed "ei:eiTarget") []]

theorem surely_optTargets {ts : Option (List EventTargetP)}
    (hl : lookup env ["targets"] = .ok (ts.map (fun l => .list ((l.map EventTargetP.dict).map .dict)))) :
    surely env (.both (.given ["targets"]) (.nonEmpty ["targets"])) = .ok (!(ts.getD []).isEmpty) := by
  have given := surely_given hl (by cases ts <;> simp)
  rw [surely, given]
  cases ts with
  | none => rfl
  | some l => cases l <;> simp [surely, hl]

theorem carries_optTargets {ts : Option (List EventTargetP)} (hg : ∀ l, ts = some l → ∀ t ∈ l, t.Good lib) (h1 : (ts.getD []).length ≤ 1)
    (hl : lookup env ["targets"] = .ok (ts.map (fun l => .list ((l.map EventTargetP.dict).map .dict)))) :
    Carries lib (n + 1) env optTargets "eiTarget" ["targets", "targets_by_type"]
      [("targets", .list ((targetsReceived (ts.getD [])).map .dict)), ("targets_by_type", .dict (groupsReceived (ts.getD [])))] := by
  have hk : ∀ l : List Dict, ∀ k ∈ Dict.keys [("targets", Value.list (l.map .dict)), ("targets_by_type", .dict (groupTargetsByType l).toDict)],
    k ∈ ["targets", "targets_by_type"] := by simp [Dict.keys]
  have hd : durationKeys.contains "target" = false := by decide +kernel
  have f1 : localName "ei:eiTarget" = "eiTarget" := by decide +kernel
  have f2 : attrItem [] = [] := by decide +kernel
  have void : Carries lib (n + 1) env (.empty (.fixed "ei:eiTarget") []) "eiTarget" ["targets", "targets_by_type"]
      [("targets", .list ((targetsReceived []).map .dict)), ("targets_by_type", .dict (groupsReceived []))] := by
    refine carries_one .none ?_ (by simp) (appends_target (w := .none) (l := []) ?_ rfl) (by simp [Dict.keys])
    · simp [sure, sureKey, f1, elementValue, f2, charsOf, childDict, closeValue, strip]
    · simp only [entryValue, leafValue, hd, Bool.false_eq_true, if_false]
  have given := surely_optTargets hl
  match ts, h1, hg, hl, given with
  | none, _, _, hl, given => exact carries_no given void
  | some [], _, _, hl, given => exact carries_no given void
  | some [t], _, hg, hl, given =>
    refine carries_yes given ?_
    obtain ⟨w, hs, hw⟩ := sure_target (lib := lib) (env := loopEnv env "target" 0 (.dict t.dict)) (hg _ rfl t (by simp)) (by simp [loopEnv, Dict.get?])
    have hs' : sure lib env (.loop "target" ["targets"] [tTarget]) = .ok [.entry "eiTarget" w] := by
      simp only [sure, hl, Option.map_some, List.map_cons, List.map_nil, eachPiece, sureAll, hs]
      simp
    simp only [Option.getD_some]
    rw [← groups_texts, ← targetsOf_texts]
    rcases hw with ⟨rfl, he⟩ | ⟨-, raw, rfl, hn⟩
    · rw [he]
      refine carries_one .none hs' (by simp) (appends_target (w := .none) (l := []) ?_ rfl) (by simp [Dict.keys])
      simp only [entryValue, leafValue, hd, Bool.false_eq_true, if_false]
    · refine carries_one (.dict raw) hs' (by simp) (appends_target (w := .dict (targetTexts [t])) ?_ rfl) (hk _)
      simp [entryValue, hn n, Except.map]
  | some (_ :: _ :: _), h1, _, _, _ => simp at h1

theorem settled_target {t : EventTargetP} (ht : t.Good lib) : Settled lib 1 (targetTexts [t]) := by
  rw [target_texts]
  simp only [List.append_assoc]
  exact settled_of (ks := ["group_id", "group_name", "resource_id", "ven_id", "party_id"])
    (.opt (settled_text? 0 (ht.texts ("group_id", EventTargetP.groupId) (by simp [targetKinds])))
    (.opt (settled_text? 0 (ht.texts ("group_name", EventTargetP.groupName) (by simp [targetKinds])))
    (.opt (settled_text? 0 (ht.texts ("resource_id", EventTargetP.resourceId) (by simp [targetKinds])))
    (.opt (settled_text? 0 (ht.texts ("ven_id", EventTargetP.venId) (by simp [targetKinds])))
    (.last (settled_text? 0 (ht.texts ("party_id", EventTargetP.partyId) (by simp [targetKinds]))))))))

theorem sure_severalTargets (ts : List EventTargetP) (hg : ∀ t ∈ ts, t.Good lib) : ∀ i, ∃ vals,
    eachPiece (fun i x => sureAll lib (loopEnv env "target" i x) [tTarget]) i ((ts.map EventTargetP.dict).map .dict) =
      .ok (vals.map (.entry "eiTarget")) ∧ vals.length = ts.length ∧ (∀ v ∈ vals, ∀ l, v ≠ .list l) ∧
    ∀ n, ∃ l, twice (normalize lib (n + 1)) vals = .ok l ∧ l.length = ts.length := by
  induction ts with
  | nil => intro i; exact ⟨[], rfl, rfl, by simp, fun n => ⟨[], rfl, rfl⟩⟩
  | cons t ts ih =>
    intro i
    obtain ⟨vals, h1, h2, h3, h4⟩ := ih (fun t' h => hg t' (by simp [h])) (i + 1)
    obtain ⟨w, hs, hw⟩ := sure_target (lib := lib) (env := loopEnv env "target" i (.dict t.dict)) (hg t (by simp)) (by simp [loopEnv, Dict.get?])
    refine ⟨w :: vals, ?_, by simp [h2], ?_, fun n => ?_⟩
    · simp only [List.map_cons, eachPiece, h1]
      simp [sureAll, hs]
    · intro v hv
      simp only [List.mem_cons] at hv
      rcases hv with rfl | hv
      · rcases hw with ⟨rfl, -⟩ | ⟨-, raw, rfl, -⟩ <;> simp
      · exact h3 v hv
    · obtain ⟨l, e1, e2⟩ := h4 n
      rcases hw with ⟨rfl, -⟩ | ⟨-, raw, rfl, hn⟩
      · exact ⟨.none :: l, by simp [twice, e1], by simp [e2]⟩
      · have hst := settled_target (hg t (by simp)) (n + 1) (by omega)
        exact ⟨.dict (targetTexts [t]) :: l, by simp [twice, hn n, hst, e1, Except.map], by simp [e2]⟩

end Openleadr
