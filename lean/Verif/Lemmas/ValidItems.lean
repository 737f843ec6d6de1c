import Verif.Lemmas.ValidMessage
import Verif.Lemmas.Reports
/-!
Measurements and the descriptions of reports, against the schema.
-/
namespace Openleadr

variable {lib : Lib} {env : Dict} {names : Xsd.Names}

/-- Texts that are written although they are not there. -/
theorem gives_bare {name : String} {path : List String} {attrs : List (String × String)} {q : Xsd.QName} {ok : List Char → Prop} (hok : ok [])
    (hb : bare env path = true) (hf : tagFacts names name attrs q = true := by decide +kernel) :
    Gives lib env names (leaf name path .plain attrs) [(q, .simple ok)] 1 := by
  simp only [tagFacts, Bool.and_eq_true, decide_eq_true_eq] at hf
  have hl : lookup env path = .ok none := by
    simp only [bare, Bool.and_eq_true, decide_eq_true_eq] at hb
    exact hb.2
  refine ⟨[.elem name attrs [.chars []]], by simp [leaf, grow, growAll, sureName, leafAt, hl, hb], rfl, ?_,
    .cons (List.mem_singleton.2 rfl) hf.1.1 (.simple rfl (attributes_declared _ hf.1.2) rfl (by simpa [Xsd.data] using hok)) .nil⟩
  intro k hk
  rw [List.mem_singleton.1 hk]
  refine ⟨sound_elem hf.2 ?_, rfl⟩
  intro k hk
  rw [List.mem_singleton.1 hk]
  exact ⟨.chars _ ⟨by simp, by simp⟩, by simp [Xsd.Tree.text]⟩

/-! ### Measurements -/

def emixAttrs : List (String × String) := [("xmlns:scale", nsScale), ("xmlns:power", nsPower)]

/-- The names of the schema for the prefixes of measurements. -/
def itemName (ns n : String) : Xsd.QName := if ns = "oadr" then Xsd.oadr n else Xsd.power n

/-- What has to be checked of the elements of measurements. -/
def emixFacts (names : Xsd.Names) : Bool :=
  measurementNamespaces.all (fun p => tagFacts names (p.2 ++ ":" ++ p.1) emixAttrs (itemName p.2 p.1) &&
    tagFacts (Xsd.inside names emixAttrs) (p.2 ++ ":" ++ "itemDescription") [] (itemName p.2 "itemDescription") &&
    tagFacts (Xsd.inside names emixAttrs) (p.2 ++ ":" ++ "itemUnits") [] (itemName p.2 "itemUnits")) &&
  tagFacts (Xsd.inside names emixAttrs) "oadr:pulseFactor" [] (Xsd.oadr "pulseFactor") &&
  tagFacts (Xsd.inside names emixAttrs) "scale:siScaleCode" [] (Xsd.scale "siScaleCode") &&
  tagFacts (Xsd.inside names emixAttrs) "power:powerAttributes" [] (Xsd.power "powerAttributes") &&
  tagFacts (Xsd.inside (Xsd.inside names emixAttrs) []) "power:hertz" [] (Xsd.power "hertz") &&
  tagFacts (Xsd.inside (Xsd.inside names emixAttrs) []) "power:voltage" [] (Xsd.power "voltage") &&
  tagFacts (Xsd.inside (Xsd.inside names emixAttrs) []) "power:ac" [] (Xsd.power "ac")

/-- The parts of a measurement after its units. -/
def itemRest (r : MeasurementP) : List Xsd.Part :=
  (match r.size with
    | .scale _ => [Xsd.siScaleCode]
    | .pulse _ => [Xsd.one (Xsd.oadr "pulseFactor") Xsd.float]) ++ (if r.power.isSome then [Xsd.powerAttributes] else [])

theorem gives_item {var : String} {r : MeasurementP} (h : r.Good lib) {d : Dict} (hv : Dict.get? env var = some (.dict d))
    (hm : Dict.get? d "measurement" = some (.dict r.dict)) (hf : emixFacts names = true) (q : String → Xsd.QName) (hq : itemName r.ns = q)
    {dok uok : List Char → Prop} (hd : dok r.description.toList) (hu : uok r.unit.toList) (hc : ∀ c, r.size = .scale c → c ∈ schemaSiScaleCode)
    (hi : (q r.name, Xsd.seq (Xsd.one (q "itemDescription") (.simple dok) :: Xsd.one (q "itemUnits") (.simple uok) :: itemRest r)) ∈ Xsd.itemBase) :
    Gives lib env names (tEmix var) Xsd.itemBase 1 := by
  subst hq
  simp only [emixFacts, Bool.and_eq_true] at hf
  obtain ⟨⟨⟨⟨⟨⟨f0, f1⟩, f2⟩, f3⟩, f4⟩, f5⟩, f6⟩ := hf
  have f0 := List.all_eq_true.1 f0 _ h.name
  simp only [Bool.and_eq_true] at f0
  obtain ⟨⟨g1, g2⟩, g3⟩ := f0
  have lm : ∀ k, lookup env [var, "measurement", k] = .ok (Dict.get? r.dict k) := by
    intro k
    simp only [lookup, walk, hv, attrOf, hm]
  have l1 : Dict.get? r.dict "name" = some (.str r.name) := by simp [MeasurementP.dict, Dict.get?]
  have l2 : Dict.get? r.dict "ns" = some (.str r.ns) := by simp [MeasurementP.dict, Dict.get?]
  have l3 : Dict.get? r.dict "description" = some (.str r.description) := by simp [MeasurementP.dict, Dict.get?]
  have l4 : Dict.get? r.dict "unit" = some (.str r.unit) := by simp [MeasurementP.dict, Dict.get?]
  have l5 : Dict.get? r.dict "power_attributes" = r.power.map (fun p => .dict p.dict) := by
    cases hs : r.size <;> simp [MeasurementP.dict, hs, SizeP.entry, Dict.get?, Dict.get?_append, Dict.get?_entry?]
  refine gives_yes (surely_given (v := some (.dict r.dict)) (by simp [lookup, walk, hv, attrOf, hm]) (by simp)) ?_
  have hn : ∀ name, sureName env (.qualified [var, "measurement", "ns"] name) = some (r.ns ++ ":" ++ name) := by
    intro name
    simp [sureName, lm, l2]
  have hn' : sureName env (.dynamic [var, "measurement", "ns"] [var, "measurement", "name"]) = some (r.ns ++ ":" ++ r.name) := by
    simp [sureName, lm, l1, l2]
  have hpower : Fills lib env (Xsd.inside names emixAttrs) [ifTrue [var, "measurement", "power_attributes"] [
        el "power:powerAttributes" [
          leaf "power:hertz" [var, "measurement", "power_attributes", "hertz"],
          leaf "power:voltage" [var, "measurement", "power_attributes", "voltage"],
          leaf "power:ac" [var, "measurement", "power_attributes", "ac"] .booleanformat]]] (if r.power.isSome then [Xsd.powerAttributes] else []) := by
    have hl := lm "power_attributes"
    rw [l5] at hl
    cases hp : r.power with
    | none =>
      rw [hp] at hl
      exact .nothing (grow_skip (surely_truthy hl (by simp))) .nil
    | some p =>
      rw [hp] at hl
      have lp : ∀ k, lookup env [var, "measurement", "power_attributes", k] = .ok (Dict.get? p.dict k) := by
        intro k
        simp only [lookup, walk, hv, attrOf, hm, l5, hp, Option.map_some]
      exact .one (gives_yes (surely_truthy hl (by simp [PowerP.dict, Value.truthy])) (gives_el
        (.one (gives_leaf (v := .int p.hertz) (by rw [lp]; simp [PowerP.dict, Dict.get?]) (reads_int (isDecimal_int _)) f4)
        (.one (gives_leaf (v := .int p.voltage) (by rw [lp]; simp [PowerP.dict, Dict.get?]) (reads_int (isDecimal_int _)) f5)
        (.one (gives_bool (b := p.ac) (by rw [lp]; simp [PowerP.dict, Dict.get?]) f6) .nil))) f3)) .nil
  have hrest : Fills lib env (Xsd.inside names emixAttrs) [.cond (.truthy [var, "measurement", "pulse_factor"])
        [leaf "oadr:pulseFactor" [var, "measurement", "pulse_factor"]]
        [leaf "scale:siScaleCode" [var, "measurement", "scale"]], ifTrue [var, "measurement", "power_attributes"] [
        el "power:powerAttributes" [
          leaf "power:hertz" [var, "measurement", "power_attributes", "hertz"],
          leaf "power:voltage" [var, "measurement", "power_attributes", "voltage"],
          leaf "power:ac" [var, "measurement", "power_attributes", "ac"] .booleanformat]]] (itemRest r) := by
    have hsize := h.size
    unfold itemRest
    cases hs : r.size with
    | scale c =>
      rw [hs] at hsize
      have hp0 : Dict.get? r.dict "pulse_factor" = none := by
        simp [MeasurementP.dict, hs, SizeP.entry, Dict.get?, Dict.get?_append, Dict.get?_entry?]
      exact .one (gives_no (surely_truthy (v := none) (by rw [lm, hp0]) (by simp))
        (gives_exactly (s := c) (by rw [lm]; simp [MeasurementP.dict, hs, SizeP.entry, Dict.get?]) hsize.toOnWire (hc c hs) f2)) hpower
    | pulse f =>
      rw [hs] at hsize
      have hp0 : Dict.get? r.dict "pulse_factor" = some (.int f) := by simp [MeasurementP.dict, hs, SizeP.entry, Dict.get?]
      exact .one (gives_yes (surely_truthy (v := some (.int f)) (by rw [lm, hp0]) (by simpa [Value.truthy, SizeP.Good] using hsize))
        (gives_leaf (by rw [lm, hp0]) (reads_int (isFloat_int f)) f1)) hpower
  have g1' := g1
  simp only [tagFacts, Bool.and_eq_true, decide_eq_true_eq] at g1'
  exact gives_of hn' (.one (gives_leafOf (hn _) (by rw [lm, l3]) (reads_text h.description.toOnWire hd) g2 (List.mem_singleton.2 rfl))
    (.one (gives_leafOf (hn _) (by rw [lm, l4]) (reads_text h.unit.toOnWire hu) g3 (List.mem_singleton.2 rfl)) hrest))
    g1'.1.1 (attributes_declared _ g1'.1.2) g1'.2 hi

/-- A measurement that the schema allows. -/
theorem gives_emix {var : String} {r : MeasurementP} (h : r.Good lib) (ha : r.Allowed) {d : Dict} (hv : Dict.get? env var = some (.dict d))
    (hm : Dict.get? d "measurement" = some (.dict r.dict)) (hf : emixFacts names = true) : Gives lib env names (tEmix var) Xsd.itemBase 1 := by
  obtain ⟨hi, hs, hp⟩ := ha
  have hc : ∀ c, r.size = .scale c → c ∈ schemaSiScaleCode := by
    intro c e
    rcases hs with ⟨-, c', h', e'⟩ | ⟨-, f, e'⟩
    · rw [e'] at e
      injection e with e
      exact e ▸ h'
    · simp [e'] at e
  have hr : itemRest r = (if r.name = "pulseCount" then [Xsd.one (Xsd.oadr "pulseFactor") Xsd.float] else [Xsd.siScaleCode]) ++
      (if r.name ∈ ["powerApparent", "powerReactive", "powerReal"] then [Xsd.powerAttributes] else []) := by
    have e2 : (if r.power.isSome = true then [Xsd.powerAttributes] else []) =
        if r.name ∈ ["powerApparent", "powerReactive", "powerReal"] then [Xsd.powerAttributes] else [] := by
      by_cases e : r.power.isSome = true
      · rw [if_pos e, if_pos (hp.1 e)]
      · rw [if_neg e, if_neg (fun x => e (hp.2 x))]
    unfold itemRest
    rw [e2]
    rcases hs with ⟨e, c, -, e'⟩ | ⟨e, f, e'⟩ <;> simp [e, e']
  have hexact : ∀ {s : String} {l : List String}, s ∈ l → String.ofList s.toList ∈ l := by
    intro s l h
    rwa [String.ofList_toList]
  have key := fun q hq dok uok hd hu hi => gives_item (names := names) h hv hm hf q hq (dok := dok) (uok := uok) hd hu hc hi
  rw [hr] at key
  have n1 : schemaItem "currencyPerWK" = none := by rfl
  have n2 : schemaItem "customUnit" = none := by rfl
  have hmem := h.name
  rcases hi with hi | ⟨item, hi, hd, hu⟩
  · rw [hi] at hmem key
    have hns : r.ns = "oadr" := by simpa [measurementNamespaces] using hmem
    rw [hns] at key
    exact key Xsd.oadr rfl _ _ trivial trivial (List.mem_of_getElem? (i := 0) (by rfl))
  · simp only [measurementNamespaces, List.mem_cons, Prod.mk.injEq, List.not_mem_nil, or_false] at hmem
    rcases hmem with ⟨en, es⟩ | ⟨en, es⟩ | ⟨en, es⟩ | ⟨en, es⟩ | ⟨en, es⟩ | ⟨en, es⟩ | ⟨en, es⟩ | ⟨en, es⟩ | ⟨en, es⟩ | ⟨en, es⟩ | ⟨en, es⟩ | ⟨en, es⟩ |
      ⟨en, es⟩ | ⟨en, es⟩ | ⟨en, es⟩ | ⟨en, es⟩ | ⟨en, es⟩ <;> rw [en] at hi key <;> rw [es] at key <;>
      first | (rw [n1] at hi; cases hi; done) | (rw [n2] at hi; cases hi; done) | (simp only [schemaItem, Option.some.injEq] at hi; subst hi)
    · exact key Xsd.oadr rfl _ _ (isToken_mem hd (by decide +kernel)) (isToken_mem hu (by decide +kernel)) (List.mem_of_getElem? (i := 2) (by rfl))
    · exact key Xsd.oadr rfl _ _ (isToken_mem hd (by decide +kernel)) (isToken_mem hu (by decide +kernel)) (List.mem_of_getElem? (i := 3) (by rfl))
    · exact key Xsd.oadr rfl _ _ (isToken_mem hd (by decide +kernel)) (isToken_mem hu (by decide +kernel)) (List.mem_of_getElem? (i := 5) (by rfl))
    · exact key Xsd.oadr rfl _ _ (hexact hd) (hexact hu) (List.mem_of_getElem? (i := 1) (by rfl))
    · exact key Xsd.power rfl _ _ (hexact hd) (hexact hu) (List.mem_of_getElem? (i := 11) (by rfl))
    · exact key Xsd.power rfl _ _ (hexact hd) (hexact hu) (List.mem_of_getElem? (i := 12) (by rfl))
    · exact key Xsd.power rfl _ _ (hexact hd) (hexact hu) (List.mem_of_getElem? (i := 13) (by rfl))
    · exact key Xsd.oadr rfl _ _ (hexact hd) (hexact hu) (List.mem_of_getElem? (i := 6) (by rfl))
    · exact key Xsd.power rfl _ _ (hexact hd) (hexact hu) (List.mem_of_getElem? (i := 14) (by rfl))
    · exact key Xsd.power rfl _ _ (hexact hd) (hexact hu) (List.mem_of_getElem? (i := 15) (by rfl))
    · exact key Xsd.power rfl _ _ (hexact hd) (isToken_mem hu (by decide +kernel)) (List.mem_of_getElem? (i := 16) (by rfl))
    · exact key Xsd.oadr rfl _ _ (hexact hd) (hexact hu) (List.mem_of_getElem? (i := 9) (by rfl))
    · exact key Xsd.oadr rfl _ _ (hexact hd) (isToken_mem hu (by decide +kernel)) (List.mem_of_getElem? (i := 8) (by rfl))
    · exact key Xsd.oadr rfl _ _ (hexact hd) (hexact hu) (List.mem_of_getElem? (i := 7) (by rfl))
    · exact key Xsd.power rfl _ _ (hexact hd) (hexact hu) (List.mem_of_getElem? (i := 10) (by rfl))

/-- A measurement that may be missing. -/
theorem maybe_emix {var : String} {o : Option MeasurementP} (h : ∀ m, o = some m → m.Good lib) (ha : ∀ m, o = some m → m.Allowed) {d : Dict}
    (hv : Dict.get? env var = some (.dict d)) (hm : Dict.get? d "measurement" = o.map (fun m => .dict m.dict)) (hf : emixFacts names = true := by decide +kernel) :
    Maybe lib env names (tEmix var) Xsd.itemBase := by
  cases ho : o with
  | none =>
    rw [ho] at hm
    exact ⟨0, by omega, gives_skip (surely_given (v := none) (by simp [lookup, walk, hv, attrOf, hm]) (by simp))⟩
  | some m =>
    rw [ho] at hm
    exact ⟨1, by omega, gives_emix (h m ho) (ha m ho) hv hm hf⟩

/-! ### Descriptions of reports -/

def descriptionAttrs : List (String × String) := [("xmlns:emix", nsEmix), ("xmlns:power", nsPower)]

/-- What has to be checked of the elements of descriptions. -/
def descriptionFacts (names : Xsd.Names) : Bool :=
  let inner := Xsd.inside names descriptionAttrs
  let source := Xsd.inside inner []
  let asset := Xsd.inside source []
  tagFacts names "oadr:oadrReportDescription" descriptionAttrs (Xsd.oadr "oadrReportDescription") && emixFacts inner &&
  tagFacts inner "ei:rID" [] (Xsd.ei "rID") && tagFacts inner "ei:reportSubject" [] (Xsd.ei "reportSubject") &&
  tagFacts source "power:endDeviceAsset" [] (Xsd.power "endDeviceAsset") && tagFacts asset "power:mrid" [] (Xsd.power "mrid") &&
  tagFacts inner "ei:reportDataSource" [] (Xsd.ei "reportDataSource") && tagFacts source "ei:groupID" [] (Xsd.ei "groupID") &&
  tagFacts source "ei:groupName" [] (Xsd.ei "groupName") && tagFacts source "ei:resourceID" [] (Xsd.ei "resourceID") &&
  tagFacts source "ei:venID" [] (Xsd.ei "venID") && tagFacts source "ei:partyID" [] (Xsd.ei "partyID") &&
  tagFacts inner "ei:reportType" [] (Xsd.ei "reportType") && tagFacts inner "ei:readingType" [] (Xsd.ei "readingType") &&
  tagFacts inner "emix:marketContext" [] (Xsd.emix "marketContext") && tagFacts inner "oadr:oadrSamplingRate" [] (Xsd.oadr "oadrSamplingRate") &&
  tagFacts source "oadr:oadrMinPeriod" [] (Xsd.oadr "oadrMinPeriod") && tagFacts source "oadr:oadrMaxPeriod" [] (Xsd.oadr "oadrMaxPeriod") &&
  tagFacts source "oadr:oadrOnChange" [] (Xsd.oadr "oadrOnChange")

/-- At most one element where there may be many. -/
theorem Fills.few {t ts alts parts} (h : Maybe lib env names t alts) (hr : Fills lib env names ts parts) :
    Fills lib env names (t :: ts) ((0, none, alts) :: parts) := by
  obtain ⟨n, -, h⟩ := h
  exact .many h (Nat.zero_le _) hr

theorem gives_description {r : DescriptionP} (h : r.Good lib) (ha : r.Allowed) (hv : Dict.get? env "report_description" = some (.dict r.dict))
    (hf : descriptionFacts names = true) :
    Gives lib env names tReportDescription [(Xsd.oadr "oadrReportDescription", Xsd.reportDescription)] 1 := by
  simp only [descriptionFacts, Bool.and_eq_true] at hf
  obtain ⟨⟨⟨⟨⟨⟨⟨⟨⟨⟨⟨⟨⟨⟨⟨⟨⟨⟨f0, f1⟩, f2⟩, f3⟩, f4⟩, f5⟩, f6⟩, f7⟩, f8⟩, f9⟩, f10⟩, f11⟩, f12⟩, f13⟩, f14⟩, f15⟩, f16⟩, f17⟩, f18⟩ := hf
  have subject : Maybe lib env (Xsd.inside names descriptionAttrs)
      (.cond (.both (.truthy ["report_description", "report_subject"]) (.truthy ["report_description", "report_subject", "end_device_asset", "mrid"])) [
      el "ei:reportSubject" [
        el "power:endDeviceAsset" [leaf "power:mrid" ["report_description", "report_subject", "end_device_asset", "mrid"]]]] [])
      [(Xsd.ei "reportSubject", Xsd.target)] := by
    cases hx : r.subject with
    | none =>
      have h1 := surely_truthy (env := env) (path := ["report_description", "report_subject"]) (v := none) (by lkd [hv, DescriptionP.dict, hx]) (by simp)
      exact ⟨0, by omega, gives_skip (by rw [surely, h1]; rfl)⟩
    | some t =>
      have h1 := surely_truthy (env := env) (path := ["report_description", "report_subject"]) (v := some (.dict t.dict)) (by lkd [hv, DescriptionP.dict, hx])
        (by simp [t.truthy])
      have hl : lookup env ["report_description", "report_subject", "end_device_asset", "mrid"] = .ok (text? t.mrid) := by
        cases hm : t.mrid <;> lkd [hv, DescriptionP.dict, hx, TargetP.dict, hm, text?]
      cases hm : t.mrid with
      | none =>
        rw [hm] at hl
        exact ⟨0, by omega, gives_skip (by rw [surely, h1]; exact surely_truthy hl (by simp [text?]))⟩
      | some m =>
        rw [hm] at hl
        have ho := (h.subject t hx).mrid m hm
        exact ⟨1, by omega, gives_yes (by rw [surely, h1]; exact surely_truthy hl (by simp [text?, Value.truthy, ho.notEmpty]))
          (gives_el (.skip (.many (gives_el (.one (gives_text hl ho.toOnWire f5) .nil) f4) (Nat.zero_le _)
            (.skip (.skip (.skip (.skip (.skip (.skip (.skip (.skip (.skip .nil))))))))))) f3)⟩
  have source : Maybe lib env (Xsd.inside names descriptionAttrs) (ifTrue ["report_description", "report_data_source"] [
      el "ei:reportDataSource" [
        ifTrue ["report_description", "report_data_source", "emix_interfaces"] [.loop "emix_interface" ["target", "emix_interface"] emixInterface],
        ifTrue ["report_description", "report_data_source", "group_id"] [leaf "ei:groupID" ["report_description", "report_data_source", "group_id"]],
        ifTrue ["report_description", "report_data_source", "group_name"] [
          leaf "ei:groupName" ["report_description", "report_data_source", "group_name"]],
        ifTrue ["report_description", "report_data_source", "resource_id"] [
          leaf "ei:resourceID" ["report_description", "report_data_source", "resource_id"]],
        ifTrue ["report_description", "report_data_source", "ven_id"] [leaf "ei:venID" ["report_description", "report_data_source", "ven_id"]],
        ifTrue ["report_description", "report_data_source", "party_id"] [leaf "ei:partyID" ["report_description", "report_data_source", "party_id"]]]])
      [(Xsd.ei "reportDataSource", Xsd.target)] := by
    refine maybe_true (o := r.source) (f := fun t => .dict t.dict) (by lkd [hv, DescriptionP.dict]) (fun t _ => t.truthy) (fun t hx => ?_)
    have g := h.source t hx
    have lt : ∀ k, lookup env ["report_description", "report_data_source", k] = .ok (Dict.get? t.dict k) := by
      intro k
      lkd [hv, DescriptionP.dict, hx]
    have ld : ∀ k v, Dict.get? t.dict k = v → lookup env ["report_description", "report_data_source", k] = .ok v := fun k v e => by rw [lt, e]
    refine gives_el (.nothing (grow_skip (surely_truthy (ld _ none ?_) (by simp)))
      (.skip (.skip (.skip (.skip (.skip (.skip
      (.few (maybe_textTrue (ld _ (text? t.groupId) ?_) (fun x hx => (g.groupId x hx).toOnWire) f7)
      (.few (maybe_textTrue (ld _ (text? t.groupName) ?_) (fun x hx => (g.groupName x hx).toOnWire) f8)
      (.few (maybe_textTrue (ld _ (text? t.resourceId) ?_) (fun x hx => (g.resourceId x hx).toOnWire) f9)
      (.few (maybe_textTrue (ld _ (text? t.venId) ?_) (fun x hx => (g.venId x hx).toOnWire) f10)
      (.few (maybe_textTrue (ld _ (text? t.partyId) ?_) (fun x hx => (g.partyId x hx).toOnWire) f11) .nil)))))))))))) f6
    · simp [TargetP.dict, Dict.get?, Dict.get?_append, Dict.get?_entry?, TargetP.get_others g "emix_interfaces"]
    · simp [TargetP.dict, Dict.get?, Dict.get?_append, Dict.get?_entry?, TargetP.get_others g "group_id"]
    · simp [TargetP.dict, Dict.get?, Dict.get?_append, Dict.get?_entry?, TargetP.get_others g "group_name"]
    · simp [TargetP.dict, Dict.get?, Dict.get?_append, Dict.get?_entry?, TargetP.get_others g "resource_id"]
    · simp [TargetP.dict, Dict.get?, Dict.get?_append, Dict.get?_entry?, TargetP.get_others g "ven_id"]
    · simp [TargetP.dict, Dict.get?, Dict.get?_append, Dict.get?_entry?, TargetP.get_others g "party_id"]
  have sampling : Maybe lib env (Xsd.inside names descriptionAttrs) (ifTrue ["report_description", "sampling_rate"] [
      el "oadr:oadrSamplingRate" [
        leaf "oadr:oadrMinPeriod" ["report_description", "sampling_rate", "min_period"] .timedeltaformat,
        leaf "oadr:oadrMaxPeriod" ["report_description", "sampling_rate", "max_period"] .timedeltaformat,
        leaf "oadr:oadrOnChange" ["report_description", "sampling_rate", "on_change"] .booleanformat]]) [(Xsd.oadr "oadrSamplingRate", Xsd.samplingRate)] :=
    maybe_true (o := r.sampling) (f := fun s => .dict s.dict) (by lkd [hv, DescriptionP.dict]) (fun x _ => by simp [SamplingP.dict, Value.truthy]) (fun x hx =>
      gives_el (.one (gives_duration (by lkd [hv, DescriptionP.dict, hx, SamplingP.dict]) (h.sampling x hx).minPeriod f16)
        (.one (gives_duration (by lkd [hv, DescriptionP.dict, hx, SamplingP.dict]) (h.sampling x hx).maxPeriod f17)
        (.one (gives_bool (b := x.onChange) (by lkd [hv, DescriptionP.dict, hx, SamplingP.dict]) f18) .nil))) f15)
  exact gives_el (.one (gives_text (by lkd [hv, DescriptionP.dict]) h.rId.toOnWire f2)
    (.maybe subject (.maybe source
    (.one (gives_extended (by lkd [hv, DescriptionP.dict]) h.reportType.toOnWire ha.reportType (by decide +kernel) f12)
    (.maybe (maybe_emix h.measurement ha.measurement hv (by simp [DescriptionP.dict, Dict.get?, Dict.get?_append, Dict.get?_entry?]) f1)
    (.one (gives_extended (by lkd [hv, DescriptionP.dict]) h.readingType.toOnWire ha.readingType (by decide +kernel) f13)
    (.maybe (maybe_textTrue (by lkd [hv, DescriptionP.dict]) (fun x hx => (h.marketContext x hx).toOnWire) f14)
    (.maybe sampling .nil)))))))) f0

end Openleadr
