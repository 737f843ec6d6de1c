import Verif.Lemmas.Callbacks
import Verif.Props.Members
/-!
C53–C55: reports on the VTN.
-/
namespace Openleadr
open Spec

/-! ### C54 -/

/-- A well-formed choice: (data point id, callback, sampling interval) or (…, reporting interval). -/
def WellFormedChoice (v : Value) : Prop :=
  (∃ r f d, v = .tuple [r, .func f, .timedelta d]) ∨ ∃ r f d d', v = .tuple [r, .func f, .timedelta d, .timedelta d']

theorem isCallable_iff (v : Value) : v.isCallable = true ↔ ∃ f, v = .func f := by
  cases v <;> simp [Value.isCallable]

theorem isTimedelta_iff (v : Value) : v.isTimedelta = true ↔ ∃ d, v = .timedelta d := by
  cases v <;> simp [Value.isTimedelta]

theorem checkChoice_wellFormed (v : Value) (h : WellFormedChoice v) : checkChoice v = v := by
  rcases h with ⟨r, f, d, rfl⟩ | ⟨r, f, d, d', rfl⟩ <;> simp [checkChoice, Value.isCallable, Value.isTimedelta]

theorem checkChoice_other (v : Value) (h : ¬ WellFormedChoice v) : checkChoice v = .none := by
  unfold checkChoice
  split
  · rfl
  · rename_i l
    split
    · rename_i r cb si
      split
      · rename_i hc
        exfalso
        rw [Bool.and_eq_true, isCallable_iff, isTimedelta_iff] at hc
        obtain ⟨⟨f, rfl⟩, d, rfl⟩ := hc
        exact h (Or.inl ⟨r, f, d, rfl⟩)
      · rfl
    · rename_i r cb si ri
      split
      · rename_i hc
        exfalso
        rw [Bool.and_eq_true, Bool.and_eq_true, isCallable_iff, isTimedelta_iff, isTimedelta_iff] at hc
        obtain ⟨⟨⟨f, rfl⟩, d, rfl⟩, d', rfl⟩ := hc
        exact h (Or.inr ⟨r, f, d, d', rfl⟩)
      · rfl
    · rfl
  · rfl

/-- **C54.** Checking keeps the place of everything: a missing list stays missing, every well-formed choice stays as it is, every other
    entry becomes `None`, and nothing is added or removed. -/
theorem c54_kept_in_place (l : List (Option (List Value))) (i : Nat) :
    (l[i]? = some none → (validateChoices l)[i]? = some none) ∧
    (∀ rs, l[i]? = some (some rs) → ∃ rs', (validateChoices l)[i]? = some (some rs') ∧ rs'.length = rs.length ∧
      ∀ (j : Nat) (v : Value), rs[j]? = some v → (WellFormedChoice v → rs'[j]? = some v) ∧ (¬ WellFormedChoice v → rs'[j]? = some .none)) ∧
    (validateChoices l).length = l.length := by
  unfold validateChoices
  refine ⟨?_, ?_, by simp⟩
  · intro h; rw [List.getElem?_map, h]; rfl
  · intro rs h
    refine ⟨rs.map checkChoice, by rw [List.getElem?_map, h]; rfl, by simp, ?_⟩
    intro j v hv
    rw [List.getElem?_map, hv]
    exact ⟨fun hw => by rw [Option.map_some, checkChoice_wellFormed v hw], fun hw => by rw [Option.map_some, checkChoice_other v hw]⟩

/-- **C54.** Afterwards every entry is `None` or a well-formed choice, and checking again changes nothing. -/
theorem c54_all_well_formed (l : List (Option (List Value))) :
    (∀ rs, some rs ∈ validateChoices l → ∀ v ∈ rs, v = .none ∨ WellFormedChoice v) ∧ validateChoices (validateChoices l) = validateChoices l := by
  have hall : ∀ v, checkChoice v = .none ∨ WellFormedChoice (checkChoice v) := by
    intro v
    by_cases h : WellFormedChoice v
    · right; rw [checkChoice_wellFormed v h]; exact h
    · left; exact checkChoice_other v h
  have hidem : ∀ v, checkChoice (checkChoice v) = checkChoice v := by
    intro v
    rcases hall v with h | h
    · rw [h]; rfl
    · exact checkChoice_wellFormed _ h
  constructor
  · intro rs hrs v hv
    unfold validateChoices at hrs
    obtain ⟨o, ho, heq⟩ := List.mem_map.mp hrs
    cases o with
    | none => simp at heq
    | some rs0 =>
      simp only [Option.map_some, Option.some.injEq] at heq
      rw [← heq] at hv
      obtain ⟨w, -, rfl⟩ := List.mem_map.mp hv
      exact hall w
  · unfold validateChoices
    rw [List.map_map]
    refine List.map_congr_left ?_
    intro o _
    cases o with
    | none => rfl
    | some rs => simp [Function.comp, hidem]

/-- non-vacuity -/
example : validateChoices [some [.tuple [.str "a", .func 1, .timedelta 10], .int 3, .tuple [.str "b", .func 2, .int 5]], none] =
    [some [.tuple [.str "a", .func 1, .timedelta 10], .none, .none], none] := by decide +kernel

/-! ### C53 -/

/-- A choice of the handler for one data point. -/
structure Choice where
  rId : Value
  callback : Value
  sampling : Value
  reporting : Value
  deriving DecidableEq, Repr

/-- The tuple stands for the choice; without a reporting interval every sample is reported. -/
def Choice.Represents (c : Choice) (v : Value) : Prop :=
  v = .tuple [c.rId, c.callback, c.sampling, c.reporting] ∨ (v = .tuple [c.rId, c.callback, c.sampling] ∧ c.reporting = c.sampling)

/-- The data point is offered, with this reading type. -/
def Offers (points : List OfferedPoint) (r rt : Value) : Prop :=
  ∃ p, points.find? (fun p => decide (p.rId = r)) = some p ∧ p.readingType = some rt

/-- The intervals after a list of choices: those of the last one. -/
def lastIntervals (g b : Value) (cs : List Choice) : Value × Value :=
  match cs.getLast? with
  | some c => (c.sampling, c.reporting)
  | none => (g, b)

theorem enterChoices_ok (requestId : String) (points : List OfferedPoint) (vs : List Value) (cs : List Choice) (rts : List Value)
    (callbacks : List ((Value × Value) × Value)) (g b : Value)
    (hrep : Pointwise Choice.Represents cs vs) (hoff : Pointwise (fun c rt => Offers points c.rId rt) cs rts) :
    ∃ cbs, enterChoices requestId points callbacks g b vs =
      (cbs, .ok (List.zipWith (fun c rt => (⟨c.rId, rt⟩ : SpecifierOut)) cs rts, (lastIntervals g b cs).1, (lastIntervals g b cs).2)) ∧
      (∀ k, (∀ c ∈ cs, k ≠ (.str requestId, c.rId)) → getCallback cbs k = getCallback callbacks k) ∧
      (cs.Pairwise (fun a b => a.rId ≠ b.rId) → ∀ c ∈ cs, getCallback cbs (.str requestId, c.rId) = some c.callback) := by
  induction hrep generalizing rts callbacks g b with
  | nil =>
    cases hoff
    exact ⟨callbacks, rfl, fun _ _ => rfl, by simp⟩
  | @cons c v cs vs hc _hrest ih =>
    cases hoff with
    | @cons _ rt _ rts hco hoffrest =>
      obtain ⟨p, hp, hrt⟩ := hco
      have hstep : enterChoices requestId points callbacks g b (v :: vs) =
          match enterChoices requestId points (setCallback callbacks (.str requestId, c.rId) c.callback) c.sampling c.reporting vs with
          | (cbs, .error e) => (cbs, .error e)
          | (cbs, .ok (ps, g, b)) => (cbs, .ok (⟨c.rId, rt⟩ :: ps, g, b)) := by
        rcases hc with rfl | ⟨rfl, hrs⟩
        · simp only [enterChoices, hp, hrt]; rfl
        · simp only [enterChoices, hp, hrt, hrs]; rfl
      obtain ⟨cbs, h1, h2, h3⟩ := ih rts (setCallback callbacks (.str requestId, c.rId) c.callback) c.sampling c.reporting hoffrest
      refine ⟨cbs, ?_, ?_, ?_⟩
      · rw [hstep, h1]
        simp only [List.zipWith_cons_cons]
        have : lastIntervals c.sampling c.reporting cs = lastIntervals g b (c :: cs) := by
          unfold lastIntervals
          cases cs with
          | nil => rfl
          | cons d ds => 
            rw [List.getLast?_cons_cons]
            cases hl : (d :: ds).getLast? with
            | none => rw [List.getLast?_eq_none_iff] at hl; simp at hl
            | some x => rfl
        rw [this]
      · intro k hk
        rw [h2 k (fun c' hc' => hk c' (by simp [hc'])), getCallback_set_other _ _ _ _ (hk c (by simp))]
      · intro hpw c' hc'
        obtain ⟨hpw1, hpw2⟩ := List.pairwise_cons.mp hpw
        rcases List.mem_cons.mp hc' with rfl | hc'
        · rw [h2, getCallback_set_self]
          intro d hd heq
          exact hpw1 d hd (by simpa using heq)
        · exact h3 hpw2 c' hc'

/-- A chosen report: the choices the handler made for it, well formed, at least one, for offered data points, each point at most once, and all with
    the same intervals. -/
structure Chosen (r : OfferedReport) (vs : List Value) (cs : List Choice) (rts : List Value) : Prop where
  some : cs ≠ []
  represents : Pointwise Choice.Represents cs vs
  offered : Pointwise (fun c rt => Offers r.points c.rId rt) cs rts
  distinct : cs.Pairwise (fun a b => a.rId ≠ b.rId)
  uniform : ∀ c ∈ cs, ∀ d ∈ cs, c.sampling = d.sampling ∧ c.reporting = d.reporting

/-- What the reply has to say about one offered report. -/
def Answers.Matches (callbacks : List ((Value × Value) × Value)) (q : RequestOut) (r : OfferedReport) (cs : List Choice) (rts : List Value) : Prop :=
  q.specifierId = r.specifierId ∧ q.payloads = List.zipWith (fun c rt => (⟨c.rId, rt⟩ : SpecifierOut)) cs rts ∧
  (∀ c ∈ cs, q.granularity = c.sampling ∧ q.reportBack = c.reporting) ∧
  ∀ c ∈ cs, getCallback callbacks (.str q.requestId, c.rId) = some c.callback

/-- An offered report with what the handler returned for it: nothing, or choices. -/
structure Decision where
  report : OfferedReport
  values : Option (List Value)
  choices : List Choice
  readings : List Value

/-- The handler's answer for the report: no choice at all, or a proper list of choices. -/
def Decision.Proper (d : Decision) : Prop :=
  (d.choices = [] ∧ (d.values = none ∨ ∃ vs, d.values = some vs ∧ ∀ v ∈ vs, v = .none)) ∨
  ∃ vs, d.values = some vs ∧ Chosen d.report vs d.choices d.readings

theorem not_none_of_represents (cs : List Choice) (vs : List Value) (h : Pointwise Choice.Represents cs vs) (hne : cs ≠ []) :
    ¬ (vs = [] ∨ vs.all (fun x => decide (x = Value.none)) = true) := by
  cases h with
  | nil => exact absurd rfl hne
  | @cons c v cs vs hc _ =>
    intro h
    rcases h with h | h
    · simp at h
    · have := (List.all_eq_true.mp h) v (by simp)
      rcases hc with rfl | ⟨rfl, -⟩ <;> simp at this

theorem lastIntervals_uniform (g b : Value) (cs : List Choice) (h : ∀ c ∈ cs, ∀ d ∈ cs, c.sampling = d.sampling ∧ c.reporting = d.reporting) :
    ∀ c ∈ cs, (lastIntervals g b cs).1 = c.sampling ∧ (lastIntervals g b cs).2 = c.reporting := by
  intro c hc
  unfold lastIntervals
  cases hl : cs.getLast? with
  | none => rw [List.getLast?_eq_none_iff] at hl; rw [hl] at hc; simp at hc
  | some d =>
    have hd : d ∈ cs := List.mem_of_getLast? hl
    exact h d hd c hc

/-- The requests for all reports. -/
theorem makeRequests_ok (fresh : Nat → String) (hf : Function.Injective fresh) (ds : List Decision) (s : ReportServer)
    (hd : ∀ d ∈ ds, d.Proper) :
    ∃ s' out, makeRequests fresh s (ds.map (fun d => (d.report, d.values))) = (s', .ok out) ∧ s'.registered = s.registered ∧ s'.requested = s.requested ∧
      s'.created = s.created ∧ s.ids ≤ s'.ids ∧ (∀ q ∈ out, ∃ n, s.ids ≤ n ∧ q.requestId = fresh n) ∧
      (∀ k, (∀ n ≥ s.ids, k.1 ≠ .str (fresh n)) → getCallback s'.callbacks k = getCallback s.callbacks k) ∧
      Pointwise (fun q d => Answers.Matches s'.callbacks q d.report d.choices d.readings) out (ds.filter (fun d => d.choices ≠ [])) := by
  induction ds generalizing s with
  | nil => exact ⟨s, [], rfl, rfl, rfl, rfl, Nat.le_refl _, by simp, fun _ _ => rfl, Pointwise.nil⟩
  | cons d ds ih =>
    have hds := fun x hx => hd x (List.mem_cons_of_mem _ hx)
    rcases hd d (by simp) with ⟨hnil, hv⟩ | ⟨vs, hv, hch⟩
    · obtain ⟨s', out, h1, h2⟩ := ih s hds
      refine ⟨s', out, ?_, ?_⟩
      · rw [List.map_cons, ← h1]
        rcases hv with hv | ⟨vs, hv, hall⟩
        · simp only [makeRequests, hv]
        · simp only [makeRequests, hv]
          rw [if_pos]
          exact Or.inr (List.all_eq_true.mpr (fun v hv => by simp [hall v hv]))
      · rw [List.filter_cons]; simp only [hnil, ne_eq, not_true_eq_false, decide_false, Bool.false_eq_true, if_false]; exact h2
    · obtain ⟨cbs, he1, he2, he3⟩ := enterChoices_ok (fresh s.ids) d.report.points vs d.choices d.readings s.callbacks .none .none hch.represents hch.offered
      obtain ⟨s', out, h1, hreg, hreq, hcr, hids, hidsout, hcb, hfor⟩ := ih { s with callbacks := cbs, ids := s.ids + 1 } hds
      refine ⟨s', ⟨fresh s.ids, d.report.specifierId, (lastIntervals .none .none d.choices).1, (lastIntervals .none .none d.choices).2,
        List.zipWith (fun c rt => (⟨c.rId, rt⟩ : SpecifierOut)) d.choices d.readings⟩ :: out, ?_, hreg, hreq, hcr, by simp at hids; omega, ?_, ?_, ?_⟩
      · rw [List.map_cons]
        simp only [makeRequests, hv]
        rw [if_neg (not_none_of_represents _ _ hch.represents hch.some), he1]
        simp only [h1]
      · intro q hq
        rcases List.mem_cons.mp hq with rfl | hq
        · exact ⟨s.ids, Nat.le_refl _, rfl⟩
        · obtain ⟨n, hn, hq⟩ := hidsout q hq
          exact ⟨n, by simp at hn; omega, hq⟩
      · intro k hk
        rw [hcb k (fun n hn => hk n (by simp at hn; omega))]
        exact he2 k (fun c _ heq => hk s.ids (Nat.le_refl _) (by rw [heq]))
      · rw [List.filter_cons]
        simp only [ne_eq, hch.some, not_false_eq_true, decide_true, if_true]
        refine Pointwise.cons ⟨rfl, rfl, ?_, ?_⟩ hfor
        · exact lastIntervals_uniform _ _ _ hch.uniform
        · intro c hc
          rw [hcb]
          · exact he3 hch.distinct c hc
          · intro n hn heq
            have : fresh s.ids = fresh n := by simpa using heq
            have := hf this
            simp at hn; omega

/-- The handler's answers for the reports, with their decisions. -/
theorem collectChoices_registered (h : ReportAsk → Res Value) (compact : Bool) (ven : String) (rs : List OfferedReport) (s s' : ReportServer)
    (out : Res (List (Option (List Value)))) (hc : collectChoices h compact ven s rs = (s', out)) :
    s'.callbacks = s.callbacks ∧ s'.ids = s.ids ∧ s'.requested = s.requested ∧ s'.created = s.created := by
  induction rs generalizing s s' out with
  | nil => simp only [collectChoices, Prod.mk.injEq] at hc; obtain ⟨rfl, -⟩ := hc; exact ⟨rfl, rfl, rfl, rfl⟩
  | cons r rs ih =>
    simp only [collectChoices] at hc
    cases hcf : choicesFor h compact ven r with
    | error e => rw [hcf] at hc; simp only [Prod.mk.injEq] at hc; rw [← hc.1]; exact ⟨rfl, rfl, rfl, rfl⟩
    | ok c =>
      rw [hcf] at hc
      simp only [] at hc
      cases hrest : collectChoices h compact ven
          { s with registered := Dict.set s.registered ven ((Dict.get? s.registered ven).getD [] ++ [(String.ofList (r.reportName.toList.drop 9), r)]) } rs with
      | mk s2 o2 =>
        rw [hrest] at hc
        have := ih _ _ o2 hrest
        cases o2 with
        | error e => simp only [Prod.mk.injEq] at hc; rw [← hc.1]; exact this
        | ok cs => simp only [Prod.mk.injEq] at hc; rw [← hc.1]; exact this

/-- **C53** (partial: for each report the handler chose nothing, or only well-formed choices of different offered data points with the same
    intervals; ids are never generated twice). The reply contains, in the order of the offer, exactly one request per report with choices, with
    the specifier id of the report, exactly the chosen data points in order, and the chosen intervals; each chosen callback is registered under the
    request id and data point id, callbacks under other request ids are untouched, and the requests are remembered for the VEN. -/
theorem c53_requested_as_chosen_partial (h : ReportAsk → Res Value) (compact : Bool) (fresh : Nat → String) (hf : Function.Injective fresh)
    (s s1 : ReportServer) (ven : String) (ds : List Decision) (answers : List (Option (List Value)))
    (hask : collectChoices h compact ven s (ds.map Decision.report) = (s1, .ok answers)) (hval : validateChoices answers = ds.map Decision.values)
    (hd : ∀ d ∈ ds, d.Proper) :
    ∃ s' out, registerReport h compact fresh s ven (some (ds.map Decision.report)) = (s', .ok out) ∧
      Dict.get? s'.requested ven = some out ∧
      Pointwise (fun q d => Answers.Matches s'.callbacks q d.report d.choices d.readings) out (ds.filter (fun d => d.choices ≠ [])) ∧
      (∀ k, (∀ n ≥ s.ids, k.1 ≠ .str (fresh n)) → getCallback s'.callbacks k = getCallback s.callbacks k) := by
  obtain ⟨hcb, hids, -, -⟩ := collectChoices_registered h compact ven _ s s1 _ hask
  obtain ⟨s', out, h1, -, -, -, -, -, h6, h7⟩ := makeRequests_ok fresh hf ds s1 hd
  have hzip : (ds.map Decision.report).zip (validateChoices answers) = ds.map (fun d => (d.report, d.values)) := by
    rw [hval, List.zip_map']
  refine ⟨{ s' with requested := Dict.set s'.requested ven out }, out, ?_, Dict.get?_set_self _ _ _, h7, ?_⟩
  · unfold registerReport
    simp only [hask, hzip, h1]
  · intro k hk
    have := h6 k (by rw [hids]; exact hk)
    rw [hcb] at this
    exact this

/-- **C53**, mode 'compact': each data point is asked about exactly with its own data, and the tuple returned for it becomes the choice for that data
    point. -/
theorem c53_compact_choice (h : ReportAsk → Res Value) (ven : String) (r : OfferedReport) (hname : r.reportName = "METADATA_TELEMETRY_USAGE")
    (out : Option (List Value)) (hok : choicesFor h true ven r = .ok out) :
    ∃ results, Pointwise (fun (p : OfferedPoint) v => ∃ d u sc lo hi, p.measurement = some (d, u, sc) ∧ p.samplingRate = some (lo, hi) ∧
        h (.compact ven p.resourceId d u sc lo hi) = .ok v) r.points results ∧
      out = some ((r.points.zip results).filterMap (fun pv => match pv.2 with | .tuple l => some (Value.tuple (pv.1.rId :: l)) | _ => none)) := by
  have hask : ∀ (ps : List OfferedPoint) (vs : List Value), askPoints h ven false ps = .ok vs →
      Pointwise (fun (p : OfferedPoint) v => ∃ d u sc lo hi, p.measurement = some (d, u, sc) ∧ p.samplingRate = some (lo, hi) ∧
        h (.compact ven p.resourceId d u sc lo hi) = .ok v) ps vs := by
    intro ps
    induction ps with
    | nil => intro vs h; simp only [askPoints, Except.ok.injEq] at h; subst h; exact Pointwise.nil
    | cons p ps ih =>
      intro vs hv
      simp only [askPoints, Bool.false_eq_true, if_false] at hv
      cases hsrc : p.noSource with
      | true => rw [hsrc] at hv; simp at hv
      | false =>
      simp only [hsrc, Bool.false_eq_true, if_false] at hv
      cases hm : p.measurement with
      | none => rw [hm] at hv; simp at hv
      | some m =>
        obtain ⟨d, u, sc⟩ := m
        cases hs : p.samplingRate with
        | none => rw [hm, hs] at hv; simp at hv
        | some lh =>
          obtain ⟨lo, hi⟩ := lh
          rw [hm, hs] at hv
          simp only [] at hv
          cases hh : h (.compact ven p.resourceId d u sc lo hi) with
          | error e => rw [hh] at hv; simp at hv
          | ok v =>
            rw [hh] at hv
            simp only [] at hv
            cases hr : askPoints h ven false ps with
            | error e => rw [hr] at hv; simp at hv
            | ok ws =>
              rw [hr] at hv
              simp only [Except.ok.injEq] at hv
              subst hv
              exact Pointwise.cons ⟨d, u, sc, lo, hi, hm, hs, hh⟩ (ih ws hr)
  have hids : ∀ (ps : List OfferedPoint) (vs : List Value), withIds ps (tuplesOnly vs) =
      (ps.zip vs).filterMap (fun pv => match pv.2 with | .tuple l => some (Value.tuple (pv.1.rId :: l)) | _ => none) := by
    intro ps
    induction ps with
    | nil => intro vs; cases vs <;> rfl
    | cons p ps ih =>
      intro vs
      cases vs with
      | nil => rfl
      | cons v vs =>
        have ih' := ih vs
        unfold tuplesOnly at ih' ⊢
        cases v <;> simp [withIds, ih']
  unfold choicesFor at hok
  rw [if_pos (Or.inr hname)] at hok
  have hst : decide (r.reportName = "METADATA_TELEMETRY_STATUS") = false := by rw [hname]; decide
  simp only [if_true, hst] at hok
  cases hno : r.noPoints with
  | true => rw [hno] at hok; simp at hok
  | false =>
  simp only [hno, Bool.false_eq_true, if_false] at hok
  cases ha : askPoints h ven false r.points with
  | error e => rw [ha] at hok; simp at hok
  | ok vs =>
    rw [ha] at hok
    simp only [Except.ok.injEq] at hok
    exact ⟨vs, hask _ _ ha, by rw [← hok, hids]⟩

/-- Data for the examples. -/
def offeredPoint (r : String) : OfferedPoint := ⟨.str r, some (.str "Direct Read"), some (.str "Voltage", .str "V", .str "none"), some (.timedelta 10, .timedelta 60), .str "dev", false⟩
def offeredReport : OfferedReport := ⟨"METADATA_TELEMETRY_USAGE", .str "spec", [offeredPoint "a", offeredPoint "b"], false⟩
def noReports : ReportServer := ⟨[], [], [], [], 0⟩
def freshId (n : Nat) : String := String.ofList (List.replicate n 'x')

/-- non-vacuity: a handler that chooses both points. -/
example : registerReport (fun _ => .ok (.tuple [.func 7, .timedelta 10, .timedelta 60])) true freshId noReports "ven" (some [offeredReport]) =
    (⟨[((.str "", .str "a"), .func 7), ((.str "", .str "b"), .func 7)], [("ven", [("TELEMETRY_USAGE", offeredReport)])],
      [("ven", [⟨"", .str "spec", .timedelta 10, .timedelta 60, [⟨.str "a", .str "Direct Read"⟩, ⟨.str "b", .str "Direct Read"⟩]⟩])], [], 1⟩,
     .ok [⟨"", .str "spec", .timedelta 10, .timedelta 60, [⟨.str "a", .str "Direct Read"⟩, ⟨.str "b", .str "Direct Read"⟩]⟩]) := by decide +kernel

/-- non-vacuity of the hypothesis on the choices. -/
example : Chosen offeredReport [.tuple [.str "a", .func 7, .timedelta 10], .tuple [.str "b", .func 8, .timedelta 10]]
    [⟨.str "a", .func 7, .timedelta 10, .timedelta 10⟩, ⟨.str "b", .func 8, .timedelta 10, .timedelta 10⟩] [.str "Direct Read", .str "Direct Read"] := by
  refine ⟨by simp, ?_, ?_, ?_, ?_⟩
  · exact .cons (Or.inr ⟨rfl, rfl⟩) (.cons (Or.inr ⟨rfl, rfl⟩) .nil)
  · exact .cons ⟨offeredPoint "a", by decide +kernel, rfl⟩ (.cons ⟨offeredPoint "b", by decide +kernel, rfl⟩ .nil)
  · simp
  · intro c hc d hd
    simp only [List.mem_cons, List.not_mem_nil, or_false] at hc hd
    rcases hc with rfl | rfl <;> rcases hd with rfl | rfl <;> exact ⟨rfl, rfl⟩

/-- **C53, refuted** for a list with one malformed choice: the whole registration fails, although another choice is fine, and the callback of the
    fine choice stays registered for a request that is never made. -/
theorem c53_one_bad_choice_violated :
    let h : ReportAsk → Res Value := fun _ => .ok (.list [.tuple [.str "a", .func 7, .timedelta 10], .tuple [.str "b", .func 8, .int 10]])
    (registerReport h false freshId noReports "ven" (some [offeredReport])).2 = .error .typeError ∧
    (registerReport h false freshId noReports "ven" (some [offeredReport])).1.callbacks = [((.str "", .str "a"), .func 7)] := by
  decide +kernel

/-- **C53, refuted** for different intervals: the last choice's intervals are requested for all data points. -/
theorem c53_different_intervals_violated :
    let h : ReportAsk → Res Value := fun _ => .ok (.list [.tuple [.str "a", .func 7, .timedelta 10], .tuple [.str "b", .func 8, .timedelta 20]])
    ∃ out, (registerReport h false freshId noReports "ven" (some [offeredReport])).2 = .ok out ∧
      out.map (fun q => (q.granularity, q.payloads.map SpecifierOut.rId)) = [(.timedelta 20, [.str "a", .str "b"])] :=
  ⟨_, rfl, by decide +kernel⟩

/-- **C53, refuted** for a data point that was not offered: the registration fails. -/
theorem c53_unknown_point_violated :
    (registerReport (fun _ => .ok (.list [.tuple [.str "zz", .func 7, .timedelta 10]])) false freshId noReports "ven" (some [offeredReport])).2 =
      .error .typeError := by decide +kernel

/-! ### C55 -/

/-- The samples of one data point in a list of intervals: time stamp and value, in order. -/
def samplesFor (r : Value) (intervals : List Value) : List (Value × Value) :=
  intervals.filterMap (fun i =>
    if chainValue i ["report_payload", "r_id"] = some r then
      match chainValue i ["dtstart"], chainValue i ["report_payload", "value"] with
      | some d, some v => some (d, v)
      | _, _ => none
    else none)

/-- The intervals of a report are dicts with a time stamp and a payload of data point id and value. -/
def WellFormedInterval (i : Value) : Prop :=
  ∃ d r v rest rest', i = .dict rest ∧ Dict.get? rest "dtstart" = some d ∧ Dict.get? rest "report_payload" = some (.dict rest') ∧
    Dict.get? rest' "r_id" = some r ∧ Dict.get? rest' "value" = some v ∧ ¬ Unhashable r

/-- What was handed to the callback of a key. -/
def deliveredTo (log : List ReportCall) (q r : Value) : List (Value × Value) :=
  log.flatMap (fun c => match c with | .deliver q' r' _ vs => if q' = q ∧ r' = r then vs else [] | _ => [])

theorem deliveredTo_append (a b : List ReportCall) (q r : Value) : deliveredTo (a ++ b) q r = deliveredTo a q r ++ deliveredTo b q r := by
  simp [deliveredTo]

/-- A report with a request id and well-formed intervals. -/
def WellFormedReport (rep : Dict) (q : Value) (intervals : List Value) : Prop :=
  Dict.get? rep "report_request_id" = some q ∧ Dict.get? rep "intervals" = some (.list intervals) ∧ ∀ i ∈ intervals, WellFormedInterval i

theorem find_get (d : Dict) (k : String) : (d.find? (fun e => decide (e.1 = k))).map Prod.snd = Dict.get? d k := by
  induction d with
  | nil => rfl
  | cons e r ih => obtain ⟨k', v⟩ := e; by_cases h : k' = k <;> simp [Dict.get?, h, ih]

theorem sampleOf_ok (i : Value) (h : WellFormedInterval i) :
    ∃ d v, sampleOf i = .ok (d, v) ∧ chainValue i ["dtstart"] = some d ∧ chainValue i ["report_payload", "value"] = some v := by
  obtain ⟨d, r, v, rest, rest', rfl, h1, h2, h3, h4, -⟩ := h
  exact ⟨d, v, by simp [sampleOf, getmemberInner, h1, h2, h4], by simp [chainValue, find_get, h1],
    by simp [chainValue, find_get, h2, h4]⟩

theorem samplesOf_ok (l : List Value) (h : ∀ i ∈ l, WellFormedInterval i) :
    samplesOf l = .ok (l.filterMap (fun i => match chainValue i ["dtstart"], chainValue i ["report_payload", "value"] with
      | some d, some v => some (d, v)
      | _, _ => none)) := by
  induction l with
  | nil => rfl
  | cons i l ih =>
    obtain ⟨d, v, h1, h2, h3⟩ := sampleOf_ok i (h i (by simp))
    simp only [samplesOf, h1, ih (fun x hx => h x (by simp [hx])), List.filterMap_cons, h2, h3]

theorem samplesFor_eq (r : Value) (l : List Value) : samplesFor r l =
    (l.filter (fun i => decide (chainValue i ["report_payload", "r_id"] = some r))).filterMap
      (fun i => match chainValue i ["dtstart"], chainValue i ["report_payload", "value"] with
        | some d, some v => some (d, v)
        | _, _ => none) := by
  unfold samplesFor
  rw [List.filterMap_filter]
  congr 1
  funext i
  by_cases h : chainValue i ["report_payload", "r_id"] = some r <;> simp [h]

theorem dotted_rid : dotted ["report_payload", "r_id"] = "report_payload.r_id" := by decide +kernel
theorem plain_rid : PlainPath ["report_payload", "r_id"] := by
  refine ⟨by simp, ?_⟩
  intro k hk
  simp only [List.mem_cons, List.not_mem_nil, or_false] at hk
  rcases hk with rfl | rfl <;> decide +kernel

/-- One group after the other: every group with a callback is delivered once, with its values. -/
theorem deliverGroups_ok (callbacks : List ((Value × Value) × Value)) (user : ReportCall → Res Unit) (hu : ∀ c, user c = .ok ()) (q : Value)
    (intervals : List Value) (hw : ∀ i ∈ intervals, WellFormedInterval i) (gs : List (Value × List Value))
    (hn : (gs.map Prod.fst).Nodup)
    (hg : ∀ k items, (k, items) ∈ gs → items = intervals.filter (fun i => decide (chainValue i ["report_payload", "r_id"] = some k))) :
    (deliverGroups callbacks user q gs).2 = .ok () ∧
    (∀ q' r, deliveredTo (deliverGroups callbacks user q gs).1 q' r =
      if q' = q ∧ r ∈ gs.map Prod.fst ∧ getCallback callbacks (q, r) ≠ none then samplesFor r intervals else []) ∧
    (∀ c ∈ (deliverGroups callbacks user q gs).1, ∃ r cb, c = .deliver q r cb (samplesFor r intervals) ∧ r ∈ gs.map Prod.fst ∧
      getCallback callbacks (q, r) = some cb) ∧
    (deliverGroups callbacks user q gs).1.Pairwise (fun a b => ∀ r cb vs r' cb' vs', a = .deliver q r cb vs → b = .deliver q r' cb' vs' → r ≠ r') := by
  induction gs with
  | nil => simp [deliverGroups, deliveredTo]
  | cons g gs ih =>
    obtain ⟨r0, items⟩ := g
    rw [List.map_cons, List.nodup_cons] at hn
    obtain ⟨ih1, ih2, ih3, ih4⟩ := ih hn.2 (fun k it hm => hg k it (by simp [hm]))
    have hitems := hg r0 items (by simp)
    have hs : samplesOf items = .ok (samplesFor r0 intervals) := by
      rw [samplesOf_ok items (by rw [hitems]; exact fun i hi => hw i (List.mem_filter.mp hi).1), samplesFor_eq, hitems]
    simp only [deliverGroups]
    cases hcb : getCallback callbacks (q, r0) with
    | none =>
      refine ⟨ih1, ?_, ?_, ih4⟩
      · intro q' r
        rw [ih2]
        by_cases hr : r = r0
        · subst hr; simp [hcb]
        · simp only [List.map_cons, List.mem_cons, hr, false_or]
      · intro c hc
        obtain ⟨r, cb, h1, h2, h3⟩ := ih3 c hc
        exact ⟨r, cb, h1, by simp [h2], h3⟩
    | some cb =>
      simp only [hs, hu]
      cases hd : deliverGroups callbacks user q gs with
      | mk log res =>
        rw [hd] at ih1 ih2 ih3 ih4
        simp only [] at ih1 ih2 ih3 ih4 ⊢
        refine ⟨ih1, ?_, ?_, ?_⟩
        · intro q' r
          have hcons : deliveredTo (ReportCall.deliver q r0 cb (samplesFor r0 intervals) :: log) q' r =
              (if q = q' ∧ r0 = r then samplesFor r0 intervals else []) ++ deliveredTo log q' r := by
            simp [deliveredTo]
          rw [hcons, ih2]
          by_cases hr : r = r0
          · subst hr
            by_cases hq : q' = q
            · subst hq; simp [hcb, hn.1]
            · simp [hq, Ne.symm hq]
          · have : ¬ (q = q' ∧ r0 = r) := fun h => hr h.2.symm
            simp only [if_neg this, List.nil_append, List.map_cons, List.mem_cons, hr, false_or]
        · intro c hc
          rcases List.mem_cons.mp hc with rfl | hc
          · exact ⟨r0, cb, rfl, by simp, hcb⟩
          · obtain ⟨r, cb', h1, h2, h3⟩ := ih3 c hc
            exact ⟨r, cb', h1, by simp [h2], h3⟩
        · refine List.pairwise_cons.mpr ⟨?_, ih4⟩
          intro b hb r cb1 vs r' cb' vs' ha hb'
          obtain ⟨r2, cb2, h1, h2, h3⟩ := ih3 b hb
          rw [h1] at hb'
          simp only [ReportCall.deliver.injEq] at ha hb'
          rw [← ha.2.1, ← hb'.2.1]
          intro heq
          rw [heq] at hn
          exact hn.1 h2

/-- One report. -/
theorem deliverReport_ok (callbacks : List ((Value × Value) × Value)) (hne : callbacks ≠ []) (user : ReportCall → Res Unit) (hu : ∀ c, user c = .ok ())
    (rep : Dict) (q : Value) (intervals : List Value) (hw : WellFormedReport rep q intervals) :
    (deliverReport callbacks user rep).2 = .ok () ∧
    (∀ q' r, deliveredTo (deliverReport callbacks user rep).1 q' r =
      if q' = q ∧ getCallback callbacks (q, r) ≠ none then samplesFor r intervals else []) ∧
    (∀ c ∈ (deliverReport callbacks user rep).1, ∃ r cb, c = .deliver q r cb (samplesFor r intervals) ∧ samplesFor r intervals ≠ [] ∧
      getCallback callbacks (q, r) = some cb) ∧
    (deliverReport callbacks user rep).1.Pairwise (fun a b => ∀ r cb vs r' cb' vs', a = .deliver q r cb vs → b = .deliver q r' cb' vs' → r ≠ r') := by
  obtain ⟨h1, h2, h3⟩ := hw
  have hchain : ∀ i ∈ intervals, ∃ k, chainValue i ["report_payload", "r_id"] = some k ∧ ¬ Unhashable k := by
    intro i hi
    obtain ⟨d, r, v, rest, rest', rfl, -, hp, hr, -, hh⟩ := h3 i hi
    exact ⟨r, by simp [chainValue, find_get, hp, hr], hh⟩
  obtain ⟨gs, hgs⟩ := (c11_group_by_succeeds intervals ["report_payload", "r_id"] plain_rid).mpr hchain
  obtain ⟨hnd, hgr, hmem⟩ := c11_group_by intervals ["report_payload", "r_id"] plain_rid gs hgs
  rw [dotted_rid] at hgs
  have hkey : ∀ r, r ∉ gs.map Prod.fst → samplesFor r intervals = [] := by
    intro r hr
    rw [samplesFor_eq]
    have : intervals.filter (fun i => decide (chainValue i ["report_payload", "r_id"] = some r)) = [] := by
      rw [List.filter_eq_nil_iff]
      intro i hi hc
      obtain ⟨k, items, hk, hik⟩ := hmem i hi
      have hh := (hgr k items hk).2
      rw [hh, List.mem_filter] at hik
      have e1 : chainValue i ["report_payload", "r_id"] = some k := by simpa using hik.2
      have e2 : chainValue i ["report_payload", "r_id"] = some r := by simpa using hc
      have : k = r := by rw [e1] at e2; simpa using e2
      exact hr (List.mem_map.mpr ⟨(k, items), hk, this⟩)
    rw [this]; rfl
  obtain ⟨g1, g2, g3, g4⟩ := deliverGroups_ok callbacks user hu q intervals h3 gs hnd (fun k it hm => (hgr k it hm).2)
  have hdr : deliverReport callbacks user rep = deliverGroups callbacks user q gs := by
    unfold deliverReport
    simp only [h1, if_neg hne, h2, hgs]
  rw [hdr]
  refine ⟨g1, ?_, ?_, g4⟩
  · intro q' r
    rw [g2]
    by_cases hr : r ∈ gs.map Prod.fst
    · simp only [hr, true_and]
    · rw [hkey r hr]; simp
  · intro c hc
    obtain ⟨r, cb, e1, e2, e3⟩ := g3 c hc
    refine ⟨r, cb, e1, ?_, e3⟩
    obtain ⟨⟨k, items⟩, hk, rfl⟩ := List.mem_map.mp e2
    obtain ⟨hitne, hit⟩ := hgr k items hk
    rw [samplesFor_eq, ← hit]
    intro hempty
    cases items with
    | nil => exact hitne rfl
    | cons i is =>
      have hi : i ∈ intervals := by
        have : i ∈ intervals.filter (fun j => decide (chainValue j ["report_payload", "r_id"] = some k)) := by rw [← hit]; simp
        exact (List.mem_filter.mp this).1
      obtain ⟨d, v, -, hd, hv⟩ := sampleOf_ok i (h3 i hi)
      rw [List.filterMap_cons, hd, hv] at hempty
      simp at hempty

/-- **C55.** When some callback is registered, the reports of the message are well formed and no callback raises: for every key, the values handed to its
    callback are exactly the samples of that data point in the reports with that request id, with their time stamps, in order, each once; keys
    without a callback get nothing, and `on_update_report` is not called. -/
theorem c55_each_value_once (callbacks : List ((Value × Value) × Value)) (hne : callbacks ≠ []) (user : ReportCall → Res Unit) (hu : ∀ c, user c = .ok ())
    (reports : List (Dict × Value × List Value)) (hw : ∀ p ∈ reports, WellFormedReport p.1 p.2.1 p.2.2) :
    (deliverReports callbacks user (reports.map (fun p => p.1))).2 = .ok () ∧
    (∀ q r, deliveredTo (deliverReports callbacks user (reports.map (fun p => p.1))).1 q r =
      if getCallback callbacks (q, r) = none then [] else (reports.filter (fun p => decide (p.2.1 = q))).flatMap (fun p => samplesFor r p.2.2)) ∧
    (∀ c ∈ (deliverReports callbacks user (reports.map (fun p => p.1))).1, ∃ q r cb vs, c = .deliver q r cb vs ∧ vs ≠ [] ∧
      getCallback callbacks (q, r) = some cb) := by
  induction reports with
  | nil => simp [deliverReports, deliveredTo]
  | cons p ps ih =>
    obtain ⟨ih1, ih2, ih3⟩ := ih (fun x hx => hw x (by simp [hx]))
    obtain ⟨h1, h2, h3, -⟩ := deliverReport_ok callbacks hne user hu p.1 p.2.1 p.2.2 (hw p (by simp))
    rw [List.map_cons]
    simp only [deliverReports]
    cases hd : deliverReport callbacks user p.1 with
    | mk log res =>
      rw [hd] at h1 h2 h3
      simp only [] at h1 h2 h3
      subst h1
      simp only []
      cases hds : deliverReports callbacks user (ps.map (fun p => p.1)) with
      | mk log' res' =>
        rw [hds] at ih1 ih2 ih3
        simp only [] at ih1 ih2 ih3 ⊢
        refine ⟨ih1, ?_, ?_⟩
        · intro q r
          rw [deliveredTo_append, h2, ih2]
          by_cases hcb : getCallback callbacks (q, r) = none
          · rw [if_pos hcb, if_pos hcb, if_neg]
            · rfl
            · rintro ⟨rfl, hx⟩; exact hx hcb
          · rw [if_neg hcb, if_neg hcb]
            by_cases hq : p.2.1 = q
            · subst hq; simp [hcb]
            · have : ¬ q = p.2.1 := fun h => hq h.symm
              simp [this, hq]
        · intro c hc
          rcases List.mem_append.mp hc with hc | hc
          · obtain ⟨r, cb, e1, e2, e3⟩ := h3 c hc
            exact ⟨_, r, cb, _, e1, e2, e3⟩
          · exact ih3 c hc

/-- Whatever the user's functions do, the calls made are the first ones of those that would be made if none raised. -/
theorem deliverGroups_prefix (callbacks : List ((Value × Value) × Value)) (user : ReportCall → Res Unit) (q : Value) (gs : List (Value × List Value)) :
    (deliverGroups callbacks user q gs).1 <+: (deliverGroups callbacks (fun _ => .ok ()) q gs).1 ∧
    ((deliverGroups callbacks user q gs).2 = .ok () → deliverGroups callbacks user q gs = deliverGroups callbacks (fun _ => .ok ()) q gs) := by
  induction gs with
  | nil => exact ⟨List.prefix_refl _, fun _ => rfl⟩
  | cons g gs ih =>
    obtain ⟨r, ris⟩ := g
    simp only [deliverGroups]
    cases getCallback callbacks (q, r) with
    | none => exact ih
    | some cb =>
      cases samplesOf ris with
      | error e => exact ⟨List.prefix_refl _, fun _ => rfl⟩
      | ok vs =>
        simp only []
        cases hu : user (ReportCall.deliver q r cb vs) with
        | error e =>
          refine ⟨?_, fun h => by cases h⟩
          simp
        | ok u =>
          simp only []
          cases hd : deliverGroups callbacks user q gs with
          | mk log res =>
            cases hd' : deliverGroups callbacks (fun _ => .ok ()) q gs with
            | mk log' res' =>
              rw [hd, hd'] at ih
              simp only [] at ih
              refine ⟨?_, ?_⟩
              · simp only []; exact (List.prefix_cons_inj _).mpr ih.1
              · intro h
                have := ih.2 h
                simp only [Prod.mk.injEq] at this ⊢
                exact ⟨by rw [this.1], this.2⟩

theorem deliverReport_prefix (callbacks : List ((Value × Value) × Value)) (user : ReportCall → Res Unit) (rep : Dict) :
    (deliverReport callbacks user rep).1 <+: (deliverReport callbacks (fun _ => .ok ()) rep).1 ∧
    ((deliverReport callbacks user rep).2 = .ok () → deliverReport callbacks user rep = deliverReport callbacks (fun _ => .ok ()) rep) := by
  unfold deliverReport
  cases Dict.get? rep "report_request_id" with
  | none => exact ⟨List.prefix_refl _, fun _ => rfl⟩
  | some q =>
    simp only []
    by_cases hc : callbacks = []
    · rw [if_pos hc, if_pos hc]
      exact ⟨List.prefix_refl _, fun h => by simp only [] at h; rw [h]⟩
    · rw [if_neg hc, if_neg hc]
      split
      · split
        · exact ⟨List.prefix_refl _, fun _ => rfl⟩
        · exact deliverGroups_prefix callbacks user q _
      · exact ⟨List.prefix_refl _, fun _ => rfl⟩
      · exact ⟨List.prefix_refl _, fun _ => rfl⟩

/-- **C55**, when user functions raise: the calls made are an initial part of the calls that would be made otherwise, so no value is ever delivered twice or
    out of order. -/
theorem c55_never_twice (callbacks : List ((Value × Value) × Value)) (user : ReportCall → Res Unit) (reports : List Dict) :
    (deliverReports callbacks user reports).1 <+: (deliverReports callbacks (fun _ => .ok ()) reports).1 := by
  induction reports with
  | nil => exact List.prefix_refl _
  | cons rep reps ih =>
    obtain ⟨h1, h2⟩ := deliverReport_prefix callbacks user rep
    simp only [deliverReports]
    cases hd : deliverReport callbacks user rep with
    | mk log res =>
      rw [hd] at h1 h2
      cases res with
      | error e =>
        cases hd' : deliverReport callbacks (fun _ => .ok ()) rep with
        | mk log' res' =>
          rw [hd'] at h1
          simp only [] at h1 ⊢
          cases res' with
          | error e' => exact h1
          | ok u =>
            simp only []
            exact h1.trans (List.prefix_append _ _)
      | ok u =>
        have := h2 rfl
        rw [← this]
        simp only []
        exact (List.prefix_append_right_inj _).mpr ih

/-- non-vacuity: two data points, one without a callback, and a report of another request. -/
example : let iv (r : String) (t v : Int) : Value := .dict [("dtstart", .datetime t), ("report_payload", .dict [("r_id", .str r), ("value", .int v)])]
    let rep (q : String) (l : List Value) : Dict := [("report_request_id", .str q), ("intervals", .list l)]
    (deliverReports [((.str "q1", .str "a"), .func 1), ((.str "q2", .str "b"), .func 2)] (fun _ => .ok ())
      [rep "q1" [iv "a" 1 10, iv "b" 1 20, iv "a" 2 11], rep "q2" [iv "b" 3 30]]).1 =
    [.deliver (.str "q1") (.str "a") (.func 1) [(.datetime 1, .int 10), (.datetime 2, .int 11)],
     .deliver (.str "q2") (.str "b") (.func 2) [(.datetime 3, .int 30)]] := by decide +kernel

/-- **C55**, the fall-back: as long as no callback is registered at all, the whole report is handed to `on_update_report`. -/
theorem c55_fallback (user : ReportCall → Res Unit) (rep : Dict) (q : Value) (hq : Dict.get? rep "report_request_id" = some q) :
    (deliverReport [] user rep).1 = [.onUpdate rep] := by
  simp [deliverReport, hq]

end Openleadr
