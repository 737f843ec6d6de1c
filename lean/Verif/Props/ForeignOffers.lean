import Verif.Props.RegisterExchange
/-!
C89 for the offers of foreign VENs: what the user's handler is asked about a description as it was parsed, whether or not it names a source of data.
-/
namespace Openleadr

/-- The question about a description: its measurement (the status for reports of the status), its sampling rate, and the id of its resource, `None` where the
    description has no source of data or a source without such an id. -/
structure Questioned (ven : String) (status : Bool) (d : Dict) (a : ReportAsk) : Prop where
  asked : ∃ resource measurement unit scale lo hi, a = .compact ven resource measurement unit scale lo hi ∧
    (∃ rate, Dict.get? d "sampling_rate" = some (.dict rate) ∧ Dict.get? rate "min_period" = some lo ∧ Dict.get? rate "max_period" = some hi) ∧
    (status = true → measurement = .str "Status" ∧ unit = .none ∧ scale = .none) ∧
    (status = false → ∃ m, Dict.get? d "measurement" = some (.dict m) ∧ Dict.get? m "description" = some measurement ∧ Dict.get? m "unit" = some unit ∧
      Dict.get? m "scale" = some scale) ∧
    ((Dict.get? d "report_data_source" = none ∧ resource = .none) ∨
      (∃ s, Dict.get? d "report_data_source" = some (.dict s) ∧ resource = (Dict.get? s "resource_id").getD .none))

/-- One question for each description, in order. -/
inductive AllQuestioned (ven : String) (status : Bool) : List Dict → List ReportAsk → Prop where
  | nil : AllQuestioned ven status [] []
  | cons : Questioned ven status d a → AllQuestioned ven status ds as → AllQuestioned ven status (d :: ds) (a :: as)

/-- A message that offers one report with these descriptions. -/
structure OffersOne (m : Dict) (ven : String) (status : Bool) (ds : List Dict) : Prop where
  ven : Dict.get? m "ven_id" = some (.str ven)
  report : ∃ r, Dict.get? m "reports" = some (.list [.dict r]) ∧ Dict.get? r "report_descriptions" = some (.list (ds.map .dict)) ∧
    Dict.get? r "report_name" = some (.str (if status then "METADATA_TELEMETRY_STATUS" else "METADATA_TELEMETRY_USAGE"))

theorem readPoint_questioned {ven : String} {status : Bool} {d : Dict} {a : ReportAsk} (h : Questioned ven status d a) :
    ∃ p, readPoint (.dict d) = .ok p ∧ ∀ (hd : ReportAsk → Res Value) (ps : List OfferedPoint), askPoints hd ven status (p :: ps) =
      match hd a with
      | .error e => .error e
      | .ok v =>
        match askPoints hd ven status ps with
        | .error e => .error e
        | .ok vs => .ok (v :: vs) := by
  obtain ⟨resource, measurement, unit, scale, lo, hi, rfl, ⟨rate, h1, h2, h3⟩, hs, hm, hr⟩ := h.asked
  rcases hr with ⟨hr, rfl⟩ | ⟨s, hr, rfl⟩
  · refine ⟨_, by simp only [readPoint, hr]; rfl, ?_⟩
    intro hd ps
    cases status with
    | true =>
      obtain ⟨rfl, rfl, rfl⟩ := hs rfl
      simp only [askPoints, h1, Option.bind_some, entryIn, h2, h3]; rfl
    | false =>
      obtain ⟨m, k1, k2, k3, k4⟩ := hm rfl
      simp only [askPoints, h1, h2, h3, k1, Option.bind_some, entryIn, k2, k3, k4]; rfl
  · refine ⟨_, by simp only [readPoint, hr]; rfl, ?_⟩
    intro hd ps
    cases status with
    | true =>
      obtain ⟨rfl, rfl, rfl⟩ := hs rfl
      simp only [askPoints, h1, Option.bind_some, entryIn, h2, h3]; rfl
    | false =>
      obtain ⟨m, k1, k2, k3, k4⟩ := hm rfl
      simp only [askPoints, h1, h2, h3, k1, Option.bind_some, entryIn, k2, k3, k4]; rfl

/-- The questions about all descriptions, in order. -/
def askAll (h : ReportAsk → Res Value) : List ReportAsk → Res (List Value)
  | [] => .ok []
  | a :: as =>
    match h a with
    | .error e => .error e
    | .ok v =>
      match askAll h as with
      | .error e => .error e
      | .ok vs => .ok (v :: vs)

theorem readPoints_questioned {ven : String} {status : Bool} {ds : List Dict} {as : List ReportAsk} (h : AllQuestioned ven status ds as) :
    ∃ ps, readPoints (ds.map .dict) = .ok ps ∧ ps.length = as.length ∧ ∀ hd : ReportAsk → Res Value, askPoints hd ven status ps = askAll hd as := by
  induction h with
  | nil => exact ⟨[], rfl, rfl, fun _ => rfl⟩
  | cons h _ ih =>
    obtain ⟨p, hp, hq⟩ := readPoint_questioned h
    obtain ⟨ps, h1, h2, h3⟩ := ih
    refine ⟨p :: ps, by simp only [List.map_cons, readPoints, hp, h1], by simp [h2], fun hd => ?_⟩
    rw [hq, h3, askAll]

theorem askAll_error {h : ReportAsk → Res Value} {e : Err} {as : List ReportAsk} {i : Nat} {a : ReportAsk} (hi : as[i]? = some a) (he : h a = .error e)
    (hb : ∀ j < i, ∀ b, as[j]? = some b → ∃ v, h b = .ok v) : askAll h as = .error e := by
  induction as generalizing i with
  | nil => simp at hi
  | cons b as ih =>
    cases i with
    | zero =>
      simp only [List.getElem?_cons_zero, Option.some.injEq] at hi
      subst hi
      simp [askAll, he]
    | succ i =>
      obtain ⟨v, hv⟩ := hb 0 (Nat.succ_pos i) b rfl
      have := ih (i := i) (by simpa using hi) (fun j hj c hc => hb (j + 1) (Nat.succ_lt_succ hj) c (by simpa using hc))
      simp [askAll, hv, this]

theorem askAll_none {h : ReportAsk → Res Value} {as : List ReportAsk} (hn : ∀ a ∈ as, h a = .ok .none) : askAll h as = .ok (as.map (fun _ => .none)) := by
  induction as with
  | nil => rfl
  | cons a as ih => simp [askAll, hn a (by simp), ih (fun b hb => hn b (by simp [hb]))]

theorem withIds_none (ps : List OfferedPoint) (n : Nat) : withIds ps (tuplesOnly (List.replicate n .none)) = [] := by
  induction ps generalizing n with
  | nil => cases n <;> simp [withIds]
  | cons p ps ih =>
    cases n with
    | zero => simp [tuplesOnly, withIds]
    | succ n =>
      have := ih n
      simp only [tuplesOnly, List.replicate_succ, List.map_cons, withIds] at this ⊢
      exact this

/-- **C89**: a handler in mode 'compact' is asked about the descriptions of a foreign VEN in their order, each with the id of its resource, or with `None` if the
    description has none: the first question on which it fails is the one whose exception the registration ends with. -/
theorem c89_foreign_asked {h : ReportAsk → Res Value} {fresh : Nat → String} {st : ReportVtn} {m : Dict} {ven : String} {status : Bool} {ds : List Dict}
    {as : List ReportAsk} (ho : OffersOne m ven status ds) (hq : AllQuestioned ven status ds as) {i : Nat} {a : ReportAsk} {e : Err}
    (hi : as[i]? = some a) (he : h a = .error e) (hb : ∀ j < i, ∀ b, as[j]? = some b → ∃ v, h b = .ok v) :
    (registerHandler h true fresh st m).2 = .error (serviceExn e) := by
  obtain ⟨r, h1, h2, h3⟩ := ho.report
  obtain ⟨ps, p1, -, p3⟩ := readPoints_questioned hq
  have hask := p3 h
  rw [askAll_error hi he hb] at hask
  cases status <;>
    simp [registerHandler, h1, readOffers, readOffer, h2, h3, p1, venKey, ho.ven, registerReport, collectChoices, choicesFor, hask]

/-- **C89**: a foreign VEN whose offers are all declined is answered without an error and without a request. -/
theorem c89_foreign_declined {h : ReportAsk → Res Value} {fresh : Nat → String} {st : ReportVtn} {m : Dict} {ven : String} {status : Bool} {ds : List Dict}
    {as : List ReportAsk} (ho : OffersOne m ven status ds) (hq : AllQuestioned ven status ds as) (hn : ∀ a ∈ as, h a = .ok .none) :
    (registerHandler h true fresh st m).2 = .ok (.pair "oadrRegisteredReport" (.dict [("report_requests", .list [])])) := by
  obtain ⟨r, h1, h2, h3⟩ := ho.report
  obtain ⟨ps, p1, p2, p3⟩ := readPoints_questioned hq
  have hask := p3 h
  rw [askAll_none hn] at hask
  have hw := withIds_none ps as.length
  rw [← List.map_const'] at hw
  cases status <;>
    simp [registerHandler, h1, readOffers, readOffer, h2, h3, p1, venKey, ho.ven, registerReport, collectChoices, choicesFor, hask, hw, validateChoices, makeRequests]

/-- A description of a foreign VEN without a source of data. -/
def sourceless : Dict :=
  [("r_id", .str "r"), ("sampling_rate", .dict [("min_period", .timedelta 1), ("max_period", .timedelta 2)]),
    ("measurement", .dict [("description", .str "power"), ("unit", .str "W"), ("scale", .str "k")])]

/-- non-vacuity: it is asked about with the resource `None`. -/
example : Questioned "ven" false sourceless (.compact "ven" .none (.str "power") (.str "W") (.str "k") (.timedelta 1) (.timedelta 2)) :=
  ⟨_, _, _, _, _, _, rfl, ⟨_, rfl, rfl, rfl⟩, by simp, fun _ => ⟨_, rfl, rfl, rfl, rfl⟩, .inl ⟨rfl, rfl⟩⟩

example : OffersOne [("ven_id", .str "ven"), ("reports", .list [.dict [("report_name", .str "METADATA_TELEMETRY_USAGE"),
    ("report_descriptions", .list [.dict sourceless])]])] "ven" false [sourceless] := ⟨rfl, _, rfl, rfl, rfl⟩

end Openleadr
