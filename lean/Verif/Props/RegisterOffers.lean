import Verif.Props.RegisterExchange
/-!
C89, continued: what `add_report` puts together can be offered.
-/
namespace Openleadr
open Spec

variable {lib : Lib} {now : Int}

/-! ### Texts -/

/-- A word: it begins with a letter and is neither `true` nor `false`. -/
def wordB (s : String) : Bool := s.toList.head?.any Char.isAlpha && onWireB s && decide (s ≠ "true") && decide (s ≠ "false")

theorem ordinary_wordB (sound : lib.Sound) {s : String} (h : wordB s = true) : Ordinary lib s := by
  simp only [wordB, Bool.and_eq_true, decide_eq_true_eq] at h
  exact ordinary_word sound h.1.1.1 (onWire_of h.1.1.2) h.1.2 h.2

theorem words_of {l : List String} (h : l.all wordB = true) : ∀ s ∈ l, wordB s = true := List.all_eq_true.mp h

/-- A measurement without a scale, or one that can be offered whatever its scale. -/
def offerableB (m : Measurement) : Bool :=
  decide (m.scale = none) ||
  (decide ((m.name, m.ns) ∈ measurementNamespaces) &&
   (decide (m.name = "customUnit") || (decide (Dict.get? measurementDescriptions m.name = some m.description) &&
     ((Dict.get? acceptableUnits m.name).any (fun units => m.unit.any (fun u => units.contains u))))) &&
   wordB m.description && m.unit.any wordB && m.scale.any wordB && decide (m.pulseFactor = none) && (!mentionsPower m.name || m.power.isSome))

theorem offerable_of (sound : lib.Sound) {m : Measurement} (h : offerableB m = true) : m.scale = none ∨ m.Offerable lib := by
  simp only [offerableB, Bool.or_eq_true, Bool.and_eq_true, decide_eq_true_eq, Option.any_eq_true, List.contains_eq_mem, Bool.not_eq_true',
    Option.isSome_iff_ne_none] at h
  rcases h with h | ⟨⟨⟨⟨⟨⟨h1, h2⟩, h3⟩, ⟨u, h4, h4'⟩⟩, ⟨x, h5, h5'⟩⟩, h6⟩, h7⟩
  · exact .inl h
  · refine .inr ⟨h1, ?_, ordinary_wordB sound h3, ⟨u, h4, ordinary_wordB sound h4'⟩, ⟨x, h5, ordinary_wordB sound h5'⟩, h6, fun hp => ?_⟩
    · rcases h2 with h2 | ⟨h2, units, h8, u', h9, h10⟩
      · exact .inl h2
      · exact .inr ⟨h2, units, u', h8, h9, h10⟩
    · rcases h7 with h7 | h7
      · rw [hp] at h7; cases h7
      · exact h7

/-- The measurements of the standard can be offered, except the pulse count, which has no scale. -/
theorem standard_offerable (sound : lib.Sound) : ∀ m ∈ standardMeasurements.map Prod.snd, m.scale = none ∨ m.Offerable lib := by
  have h : (standardMeasurements.map Prod.snd).all offerableB = true := by decide +kernel
  exact fun m hm => offerable_of sound (List.all_eq_true.mp h m hm)

theorem offerable_scaled {m : Measurement} (h : m.Offerable lib) {sc : String} (hs : Ordinary lib sc) : ({ m with scale := some sc } : Measurement).Offerable lib :=
  ⟨h.ns, h.accepted, h.description, h.unit, ⟨sc, rfl, hs⟩, h.pulse, h.power⟩

/-! ### Calls -/

/-- What is asked of a call of `add_report`: the ids and names it is given can be sent as texts, the periods can be written, and a measurement of one's own
    comes with a unit. -/
structure AddReport.Plain (lib : Lib) (a : AddReport) : Prop where
  resource : ∀ x, a.resourceId = some x → Ordinary lib x
  specifierId : ∀ x, a.specifierId = some x → x ≠ "" → Ordinary lib x
  rId : ∀ x, a.rId = some x → x ≠ "" → Ordinary lib x
  extensions : ∀ x ∈ [a.name, a.readingType, a.reportType], x.startsWith "x-" → Ordinary lib x
  minPeriod : Spans a.rate.rate.minPeriod
  maxPeriod : Spans a.rate.rate.maxPeriod
  custom : ∀ m, a.measurement = .name m → standardRef (upperString m) standardMeasurements = none →
    Ordinary lib m ∧ ∃ u, a.unit = some u ∧ Ordinary lib u

/-- The measurement of a data point can be offered; those for the status have none. -/
def Measured (lib : Lib) (heap : List Measurement) (name : String) (ref : Option Nat) : Prop :=
  if name = "TELEMETRY_STATUS" then ref = none else ∃ i m, ref = some i ∧ heap[i]? = some m ∧ m.Offerable lib

/-- What holds after any calls. -/
structure AllOfferable (lib : Lib) (s : VenReports) : Prop where
  heap : ∀ m ∈ s.heap, m.scale = none ∨ m.Offerable lib
  reports : ∀ r ∈ s.reports, Ordinary lib r.specifierId ∧ Ordinary lib (offeredName r.name) ∧ r.points ≠ [] ∧ ∀ p ∈ r.points,
    (∃ t, p.rId = .str t ∧ Ordinary lib t) ∧ (∀ x, p.resourceId = some x → Ordinary lib x) ∧ Ordinary lib p.readingType ∧ Ordinary lib p.reportType ∧
    Spans p.rate.minPeriod ∧ Spans p.rate.maxPeriod ∧ Measured lib s.heap r.name p.measurement

theorem heap_added (sound : lib.Sound) {heap0 heap heap' : List Measurement} {ref : Option Nat} {a : AddReport} (ha : a.Plain lib)
    (hv : ∃ sc ∈ siScaleCodes, a.scale = some sc) (h0 : ∀ m ∈ heap0, m.scale = none ∨ m.Offerable lib) (hi : itemBase heap0 a = .ok (heap, ref))
    (hs : applyScale heap ref a.scale = .ok heap') :
    (∀ m ∈ heap', m.scale = none ∨ m.Offerable lib) ∧
    (∀ (i : Nat) (m : Measurement), heap0[i]? = some m → m.Offerable lib → ∃ m' : Measurement, heap'[i]? = some m' ∧ m'.Offerable lib) ∧ Measured lib heap' a.name ref := by
  obtain ⟨sc, hsc, hsc'⟩ := hv
  have hso : Ordinary lib sc := ordinary_wordB sound (words_of (by decide +kernel) sc hsc)
  have hbase : (∀ m ∈ heap, m.scale = none ∨ m.Offerable lib) ∧ (∀ (i : Nat) (m : Measurement), heap0[i]? = some m → heap[i]? = some m) ∧
      ((a.name = "TELEMETRY_STATUS" ∧ ref = none) ∨ (a.name ≠ "TELEMETRY_STATUS" ∧ ∃ i, ref = some i)) := by
    unfold itemBase at hi
    split at hi
    · rename_i hn
      simp only [Except.ok.injEq, Prod.mk.injEq] at hi
      obtain ⟨rfl, rfl⟩ := hi
      exact ⟨h0, fun _ _ h => h, .inl ⟨hn, rfl⟩⟩
    · rename_i hn
      split at hi
      · simp only [Except.ok.injEq, Prod.mk.injEq] at hi
        obtain ⟨rfl, rfl⟩ := hi
        exact ⟨h0, fun _ _ h => h, .inr ⟨hn, _, rfl⟩⟩
      · split at hi <;> simp at hi
      · simp at hi
      · rename_i m hm
        split at hi
        · simp only [Except.ok.injEq, Prod.mk.injEq] at hi
          obtain ⟨rfl, rfl⟩ := hi
          exact ⟨h0, fun _ _ h => h, .inr ⟨hn, _, rfl⟩⟩
        · rename_i hr
          simp only [Except.ok.injEq, Prod.mk.injEq] at hi
          obtain ⟨rfl, rfl⟩ := hi
          obtain ⟨hmo, u, hu, huo⟩ := ha.custom m hm hr
          refine ⟨?_, ?_, .inr ⟨hn, _, rfl⟩⟩
          · intro x hx
            rcases List.mem_append.mp hx with hx | hx
            · exact h0 x hx
            · rw [List.mem_singleton] at hx
              subst hx
              have hns : Dict.get? measurementNamespaces "customUnit" = some "oadr" := by decide +kernel
              have he : ({ name := "customUnit", description := m, unit := a.unit, scale := a.scale } : Measurement).init =
                  { name := "customUnit", description := m, unit := a.unit, scale := a.scale, ns := "oadr" } := by
                simp only [Measurement.init, hns]
              rw [he]
              refine .inr ⟨by simp only; decide +kernel, .inl rfl, hmo, ⟨u, hu, huo⟩, ⟨sc, hsc', hso⟩, rfl, fun hp => ?_⟩
              exact absurd hp (by simp only; decide +kernel)
          · intro i x hx
            rw [List.getElem?_append_left (List.getElem?_eq_some_iff.mp hx).1]
            exact hx
  obtain ⟨hb1, hb2, hb3⟩ := hbase
  rcases hb3 with ⟨hn, rfl⟩ | ⟨hn, i, rfl⟩
  · simp only [applyScale, Except.ok.injEq] at hs
    subst hs
    exact ⟨hb1, fun i m h1 h2 => ⟨m, hb2 i m h1, h2⟩, by simp [Measured, hn]⟩
  · simp only [applyScale, hsc'] at hs
    cases hm : heap[i]? with
    | none => rw [hm] at hs; simp at hs
    | some m =>
      rw [hm] at hs
      simp only [] at hs
      cases hms : m.scale with
      | none => rw [hms] at hs; simp at hs
      | some sc0 =>
        rw [hms] at hs
        simp only [Except.ok.injEq] at hs
        subst hs
        have hmo : m.Offerable lib := by
          rcases hb1 m (List.mem_of_getElem? hm) with h | h
          · rw [hms] at h; cases h
          · exact h
        have hnew := offerable_scaled hmo hso
        have hlt : i < heap.length := (List.getElem?_eq_some_iff.mp hm).1
        refine ⟨?_, ?_, ?_⟩
        · intro x hx
          rcases List.mem_or_eq_of_mem_set hx with hx | rfl
          · exact hb1 x hx
          · exact .inr hnew
        · intro j x h1 h2
          by_cases hj : i = j
          · subst hj
            exact ⟨_, by rw [List.getElem?_set_self hlt], hnew⟩
          · exact ⟨x, by rw [List.getElem?_set_ne hj]; exact hb2 j x h1, h2⟩
        · rw [Measured, if_neg hn]
          exact ⟨i, _, rfl, by rw [List.getElem?_set_self hlt], hnew⟩

theorem measured_grown {heap heap' : List Measurement} (h : ∀ (i : Nat) (m : Measurement), heap[i]? = some m → m.Offerable lib → ∃ m' : Measurement, heap'[i]? = some m' ∧ m'.Offerable lib)
    {name : String} {ref : Option Nat} (hm : Measured lib heap name ref) : Measured lib heap' name ref := by
  unfold Measured at hm ⊢
  split at hm
  · rename_i hn; rw [if_pos hn]; exact hm
  · rename_i hn
    rw [if_neg hn]
    obtain ⟨i, m, h1, h2, h3⟩ := hm
    obtain ⟨m', h4, h5⟩ := h i m h2 h3
    exact ⟨i, m', h1, h4, h5⟩

theorem orFresh_ordinary {fresh : Nat → String} (hf : ∀ n, Ordinary lib (fresh n)) (ids : Nat) {v : Option String} (hv : ∀ x, v = some x → x ≠ "" → Ordinary lib x) :
    Ordinary lib (orFresh fresh ids v).1 := by
  unfold orFresh
  split
  · split
    · exact hf _
    · rename_i x hx; exact hv x rfl hx
  · exact hf _

theorem mem_addPoint {p : VenReport → Bool} {pt : VenPoint} {rs : List VenReport} {r : VenReport} (h : r ∈ addPoint p pt rs) :
    r ∈ rs ∨ ∃ r0 ∈ rs, p r0 = true ∧ r = { r0 with points := r0.points ++ [pt] } := by
  induction rs with
  | nil => simp [addPoint] at h
  | cons x rs ih =>
    simp only [addPoint] at h
    split at h
    · rename_i hp
      rcases List.mem_cons.mp h with rfl | h
      · exact .inr ⟨x, by simp, hp, rfl⟩
      · exact .inl (by simp [h])
    · rcases List.mem_cons.mp h with rfl | h
      · exact .inl (by simp)
      · rcases ih h with h | ⟨r0, h1, h2⟩
        · exact .inl (by simp [h])
        · exact .inr ⟨r0, by simp [h1], h2⟩

theorem ordinary_name (sound : lib.Sound) {s : String} (h : s ∈ reportNames ∨ s.startsWith "x-" = true) (hx : s.startsWith "x-" = true → Ordinary lib s) :
    Ordinary lib (offeredName s) := by
  rcases h with h | h
  · have hall : reportNames.all (fun n => wordB (offeredName n)) = true := by decide +kernel
    exact ordinary_wordB sound (List.all_eq_true.mp hall s h)
  · by_cases hc : s ∈ reportNames
    · have hall : reportNames.all (fun n => wordB (offeredName n)) = true := by decide +kernel
      exact ordinary_wordB sound (List.all_eq_true.mp hall s hc)
    · have : offeredName s = s := by simp [offeredName, hc]
      rw [this]
      exact hx h

theorem ordinary_known (sound : lib.Sound) {l : List String} (hl : l.all wordB = true) {s : String} (h : s ∈ l ∨ s.startsWith "x-" = true)
    (hx : s.startsWith "x-" = true → Ordinary lib s) : Ordinary lib s := by
  rcases h with h | h
  · exact ordinary_wordB sound (words_of hl s h)
  · exact hx h

theorem add_offerable (sound : lib.Sound) {fresh : Nat → String} (hf : ∀ n, Ordinary lib (fresh n)) {s : VenReports} (h : AllOfferable lib s) {a : AddReport}
    (ha : a.Plain lib) : AllOfferable lib (addReport fresh s a).1 := by
  generalize hr : addReport fresh s a = x
  obtain ⟨s', res⟩ := x
  cases res with
  | error e => rw [c57_refused_unchanged fresh s s' a e hr]; exact h
  | ok out =>
    obtain ⟨v1, v2, v3, v4, -⟩ := c57_accepted_valid fresh s s' a out hr
    obtain ⟨heap, heap', ref, hi, hs, hcases⟩ := addReport_ok fresh s s' a out hr
    obtain ⟨g1, g2, g3⟩ := heap_added sound ha v4 h.heap hi hs
    have hpoint : ∀ r : String, Ordinary lib r → ∀ p : VenPoint, p = ⟨.str r, a.resourceId, a.readingType, a.reportType, a.rate.rate, ref⟩ →
        (∃ t, p.rId = .str t ∧ Ordinary lib t) ∧ (∀ x, p.resourceId = some x → Ordinary lib x) ∧ Ordinary lib p.readingType ∧ Ordinary lib p.reportType ∧
        Spans p.rate.minPeriod ∧ Spans p.rate.maxPeriod ∧ Measured lib heap' a.name p.measurement := by
      rintro r hr p rfl
      exact ⟨⟨r, rfl, hr⟩, ha.resource, ordinary_known sound (by decide +kernel) v2 (ha.extensions _ (by simp)),
        ordinary_known sound (by decide +kernel) v3 (ha.extensions _ (by simp)), ha.minPeriod, ha.maxPeriod, g3⟩
    have hold : ∀ r ∈ s.reports, Ordinary lib r.specifierId ∧ Ordinary lib (offeredName r.name) ∧ r.points ≠ [] ∧ ∀ p ∈ r.points,
        (∃ t, p.rId = .str t ∧ Ordinary lib t) ∧ (∀ x, p.resourceId = some x → Ordinary lib x) ∧ Ordinary lib p.readingType ∧ Ordinary lib p.reportType ∧
        Spans p.rate.minPeriod ∧ Spans p.rate.maxPeriod ∧ Measured lib heap' r.name p.measurement := by
      intro r hr
      obtain ⟨h1, h2, h3, h4⟩ := h.reports r hr
      refine ⟨h1, h2, h3, fun p hp => ?_⟩
      obtain ⟨k1, k2, k3, k4, k5, k6, k7⟩ := h4 p hp
      exact ⟨k1, k2, k3, k4, k5, k6, measured_grown g2 k7⟩
    rcases hcases with ⟨offer, r, hfo, rfl, -, rfl⟩ | ⟨sid, r, -, rfl, rfl, -, rfl⟩
    · refine ⟨g1, fun y hy => ?_⟩
      rcases mem_addPoint hy with hy | ⟨y0, hy0, hp, rfl⟩
      · exact hold y hy
      · obtain ⟨h1, h2, h3, h4⟩ := hold y0 hy0
        have hname : y0.name = a.name := by
          have hof : offer.name = a.name := by
            unfold findOffer at hfo
            split at hfo
            · split at hfo
              · have := List.find?_some hfo; simpa using this
              · have := List.find?_some hfo; simp only [Bool.and_eq_true, decide_eq_true_eq] at this; exact this.1
            · have := List.find?_some hfo; simpa using this
          simp only [Bool.and_eq_true, decide_eq_true_eq] at hp
          rw [hp.1, hof]
        refine ⟨h1, h2, by simp, fun p hp => ?_⟩
        rcases List.mem_append.mp hp with hp | hp
        · exact h4 p hp
        · rw [List.mem_singleton] at hp
          have := hpoint _ (orFresh_ordinary hf s.ids ha.rId) p hp
          rw [← hname] at this
          exact this
    · refine ⟨g1, fun y hy => ?_⟩
      rcases List.mem_append.mp hy with hy | hy
      · exact hold y hy
      · rw [List.mem_singleton] at hy
        subst hy
        refine ⟨orFresh_ordinary hf _ ha.specifierId, ordinary_name sound v1 (ha.extensions _ (by simp)), by simp, fun p hp => ?_⟩
        rw [List.mem_singleton] at hp
        exact hpoint _ (orFresh_ordinary hf _ ha.rId) p hp

theorem new_offerable (sound : lib.Sound) : AllOfferable lib newVenReports := ⟨standard_offerable sound, by simp [newVenReports]⟩

theorem addAll_offerable (sound : lib.Sound) {fresh : Nat → String} (hf : ∀ n, Ordinary lib (fresh n)) (calls : List AddReport) (hc : ∀ a ∈ calls, a.Plain lib)
    {s : VenReports} (h : AllOfferable lib s) : AllOfferable lib (addAll fresh s calls) := by
  induction calls generalizing s with
  | nil => exact h
  | cons a l ih => exact ih (fun x hx => hc x (by simp [hx])) (add_offerable sound hf h (hc a (by simp)))

/-- **C89.** Whatever reports are added to a client, in any number and order, with texts that can be sent and whole periods, and with a unit for each
    measurement of one's own: all of them can be offered. -/
theorem c89_added_offerable (sound : lib.Sound) {fresh : Nat → String} (hf : ∀ n, Ordinary lib (fresh n)) (calls : List AddReport)
    (hc : ∀ a ∈ calls, a.Plain lib) (al : Along) (hm : ∀ p x, al.market p = some x → Ordinary lib x) (hd : ∀ r d, al.duration r = some d → Spans d) :
    ∀ r ∈ (addAll fresh newVenReports calls).reports, r.Offerable lib (addAll fresh newVenReports calls).heap al := by
  have h := addAll_offerable sound hf calls hc (new_offerable sound)
  generalize addAll fresh newVenReports calls = s at h
  intro r hr
  obtain ⟨h1, h2, h3, h4⟩ := h.reports r hr
  have hmeas : ∀ p ∈ r.points, if r.name = "TELEMETRY_STATUS" then p.measured s.heap = none else ∃ m, p.measured s.heap = some m ∧ m.Offerable lib := by
    intro p hp
    obtain ⟨-, -, -, -, -, -, k7⟩ := h4 p hp
    unfold Measured at k7
    split at k7
    · rename_i hn; rw [if_pos hn]; simp [VenPoint.measured, k7]
    · rename_i hn
      rw [if_neg hn]
      obtain ⟨i, m, e1, e2, e3⟩ := k7
      exact ⟨m, by simp [VenPoint.measured, e1, e2], e3⟩
  refine ⟨h1, h2, hd r, h3, fun p hp => ?_, ?_⟩
  · obtain ⟨k1, k2, k3, k4, k5, k6, -⟩ := h4 p hp
    refine ⟨k1, k2, k3, k4, hm p, k5, k6, fun m hm => ?_⟩
    have := hmeas p hp
    split at this
    · rw [this] at hm; cases hm
    · obtain ⟨m', e1, e2⟩ := this
      rw [e1] at hm
      cases hm
      exact e2
  · by_cases hn : r.name = "TELEMETRY_STATUS"
    · refine .inr (fun p hp => ?_)
      have := hmeas p hp
      rwa [if_pos hn] at this
    · refine .inl (fun p hp => ?_)
      have := hmeas p hp
      rw [if_neg hn] at this
      obtain ⟨m, e1, -⟩ := this
      simp [e1]

/-- **C89.** From the calls of `add_report` to the VTN and back: whatever reports were added, and whatever the handler of the VTN chooses, the handler is asked
    about exactly these reports, the VEN handles exactly the requests the VTN made, and the VTN notes their ids as created. -/
theorem c89_from_calls {k k' : Link} {c : Config} {h : ReportAsk → Res Value} {compact : Bool} {freshVen fresh : Nat → String} {user : ReportCall → Res Unit}
    {sampler : Sampler} {secure : Bool} {peer : Option String} {ven rid : String} {a : Along} {calls : List AddReport} {cache : NonceCache} {vtn : ReportVtn}
    (con : Connected k c secure peer cache ven) (con' : Connected k' c secure peer cache ven) (hlib : k'.lib = k.lib) (hrid : Ordinary k.lib rid)
    (hcalls : ∀ x ∈ calls, x.Plain k.lib) (hfv : ∀ n, Ordinary k.lib (freshVen n)) (hcreated : Datable a.created)
    (hmarket : ∀ p x, a.market p = some x → Ordinary k.lib x) (hduration : ∀ r d, a.duration r = some d → Spans d)
    (hvalid : ∀ txt, ∃ tree, c.validate (String.ofList txt) = .ok tree) (haccepts : ∀ txt, k.accepts txt = true)
    (hw : WholeIntervals h) (hf : ∀ n, Ordinary k.lib (fresh n)) {s' : ReportServer} {out : List RequestOut} {v : VenReports} {sampled : List SampleCall}
    {reply : CreatedReport} :
    let s := addAll freshVen newVenReports calls
    registerReport h compact fresh vtn.1 ven (offersOf s.heap s.reports) = (s', .ok out) → out ≠ [] →
    createReport sampler now s (out.map RequestOut.asked) = (v, sampled, .ok reply) →
    offerReports k k' c (reportService h compact fresh user) sampler now secure peer (.str ven) rid a ⟨cache, vtn, s, []⟩ =
      (⟨cache, ((createdReport s' ven (some (out.map (fun q => .str q.requestId)))).1, vtn.2), v, sampled⟩, .ok ()) := by
  intro s hreg hne hcr
  have ready : Offering.Ready' k k' c secure peer ven rid a ⟨cache, vtn, s, []⟩ :=
    ⟨⟨con, hrid, hcreated, c89_added_offerable con.sound hfv calls hcalls a hmarket hduration, fun txt _ => hvalid txt, haccepts⟩, hlib, con', fun _ txt _ => hvalid txt⟩
  have := (c89_offered (now := now) (user := user) (sampler := sampler) ready hw hf hreg).2.1 v sampled reply hne hcr
  simpa using this

/-! ### What is not kept -/

/-- What the VTN does with offers when the handler raises. -/
theorem offers_refused {k : Link} {c : Config} {h : ReportAsk → Res Value} {compact : Bool} {fresh : Nat → String} {user : ReportCall → Res Unit}
    {secure : Bool} {peer : Option String} {ven rid : String} {a : Along} {x : Offering} (ready : x.Ready k c secure peer ven rid a) {s' : ReportServer}
    {e : Err} (hreg : registerReport h compact fresh x.vtn.1 ven (offersOf x.ven.heap x.ven.reports) = (s', .error e)) (he : ∀ code, e ≠ .oadr code) :
    exchange k c (reportService h compact fresh user) x.cache x.vtn secure peer "oadrRegisterReport" (registerPayload (.str ven) rid x.ven.heap a x.ven.reports) =
      ((x.cache, (s', x.vtn.2)), .ok (some (none, []))) := by
  have con := ready.connected
  obtain ⟨txt, h1, h2⟩ := offers_received (now := k.clientNow) con.sound con.venId ready.request ready.created ready.reports
  obtain ⟨g1, g2, g3, -⟩ := offers_entries ven rid x.ven.heap a x.ven.reports
  have hh := register_handled (c := c) (h := h) (compact := compact) (fresh := fresh) (user := user) (s := x.vtn.1) (log := x.vtn.2) (secure := secure) (peer := peer)
    (ven := ven) (rid := rid) ready.reports
  have hse : serviceExn e = .other e := by
    cases e <;> first | rfl | exact absurd rfl (he _)
  rw [hreg] at hh
  simp only [hse] at hh
  obtain ⟨tree, hv⟩ := ready.valid txt h1
  have hx := handle_raised (now := k.serverNow) hv h2 (by decide) (by simp [g3]) (con.letsIn.known _ _ g1) (con.letsIn.authentic txt tree _ hv g1) hh
  simp only [exchange, h1]
  rw [show (⟨some "application/xml", secure, peer, String.ofList txt⟩ : Request) = requestOf secure peer txt from rfl, hx]
  simp [clientReads]

/-- **C89, refuted** for a handler that raises: the VEN takes the registration for done, without a single report being requested, and does not try again. -/
theorem c89_handler_raises_violated {k k' : Link} {c : Config} {h : ReportAsk → Res Value} {compact : Bool} {fresh : Nat → String} {user : ReportCall → Res Unit}
    {sampler : Sampler} {secure : Bool} {peer : Option String} {ven rid : String} {a : Along} {x : Offering} (ready : x.Ready k c secure peer ven rid a)
    {s' : ReportServer} {e : Err} (hreg : registerReport h compact fresh x.vtn.1 ven (offersOf x.ven.heap x.ven.reports) = (s', .error e))
    (he : ∀ code, e ≠ .oadr code) :
    offerReports k k' c (reportService h compact fresh user) sampler now secure peer (.str ven) rid a x = ({ x with vtn := (s', x.vtn.2) }, .ok ()) := by
  simp only [offerReports, offers_refused ready hreg he, Dict.get?]

theorem askPoints_fails {h : ReportAsk → Res Value} (hh : ∀ a, ∃ v, h a = .ok v) (ven : String) (status : Bool) (points : List OfferedPoint)
    (hp : ∃ p ∈ points, p.noSource = true) :
    askPoints h ven status points = .error .attributeError ∨ askPoints h ven status points = .error .keyError := by
  induction points with
  | nil => obtain ⟨p, hp, -⟩ := hp; simp at hp
  | cons q ps ih =>
    cases hq : q.noSource with
    | true => left; simp [askPoints, hq]
    | false =>
      have ih := ih (by
        obtain ⟨p, hm, hs⟩ := hp
        rcases List.mem_cons.mp hm with rfl | hm
        · rw [hq] at hs; cases hs
        · exact ⟨p, hm, hs⟩)
      cases status with
      | true =>
        cases hr : q.samplingRate with
        | none => right; simp [askPoints, hq, hr]
        | some lh =>
          obtain ⟨v, hv⟩ := hh (.compact ven q.resourceId (.str "Status") .none .none lh.1 lh.2)
          rcases ih with ih | ih <;> simp [askPoints, hq, hr, hv, ih]
      | false =>
        cases hm : q.measurement with
        | none => right; simp [askPoints, hq, hm]
        | some m =>
          cases hr : q.samplingRate with
          | none => right; simp [askPoints, hq, hm, hr]
          | some lh =>
            obtain ⟨v, hv⟩ := hh (.compact ven q.resourceId m.1 m.2.1 m.2.2 lh.1 lh.2)
            rcases ih with ih | ih <;> simp [askPoints, hq, hm, hr, hv, ih]

/-- If the choices for one of the reports cannot be had, nothing is requested, and nothing but the list of registered reports is changed. -/
theorem collectChoices_fails {h : ReportAsk → Res Value} {compact : Bool} {ven : String} (bad : Err → Prop) (rs : List OfferedReport)
    (hall : ∀ r ∈ rs, ∀ e, choicesFor h compact ven r = .error e → bad e) (hr : ∃ r ∈ rs, ∃ e, choicesFor h compact ven r = .error e) (s : ReportServer) :
    ∃ reg e, collectChoices h compact ven s rs = ({ s with registered := reg }, .error e) ∧ bad e := by
  induction rs generalizing s with
  | nil => obtain ⟨r, hr, -⟩ := hr; simp at hr
  | cons r rs ih =>
    cases hc : choicesFor h compact ven r with
    | error e =>
      exact ⟨Dict.set s.registered ven ((Dict.get? s.registered ven).getD [] ++ [(String.ofList (r.reportName.toList.drop 9), r)]), e,
        by simp only [collectChoices, hc], hall r (by simp) e hc⟩
    | ok c =>
      have ih := ih (fun y hy => hall y (by simp [hy])) (by
        obtain ⟨y, hm, e, he⟩ := hr
        rcases List.mem_cons.mp hm with rfl | hm
        · rw [hc] at he; cases he
        · exact ⟨y, hm, e, he⟩)
        { s with registered := Dict.set s.registered ven ((Dict.get? s.registered ven).getD [] ++ [(String.ofList (r.reportName.toList.drop 9), r)]) }
      obtain ⟨reg, e, h1, h2⟩ := ih
      exact ⟨reg, e, by simp only [collectChoices, hc, h1], h2⟩

theorem askPoints_kinds {h : ReportAsk → Res Value} (hh : ∀ a, ∃ v, h a = .ok v) (ven : String) (status : Bool) (points : List OfferedPoint) {e : Err}
    (he : askPoints h ven status points = .error e) : e = .attributeError ∨ e = .keyError := by
  induction points with
  | nil => cases he
  | cons q ps ih =>
    simp only [askPoints] at he
    split at he
    · rename_i e' ha
      cases he
      split at ha
      · cases ha; exact .inl rfl
      · split at ha <;> split at ha <;> cases ha <;> exact .inr rfl
    · rename_i a ha
      obtain ⟨v, hv⟩ := hh a
      rw [hv] at he
      simp only at he
      cases hp : askPoints h ven status ps with
      | error e' => rw [hp] at he; cases he; exact ih hp
      | ok vs => rw [hp] at he; cases he

/-- **C89, refuted** for a data point without a resource: `add_report` takes `None` for the id of the resource, the message then has an empty source of data, and a
    handler in mode 'compact' is not asked to the end. Whatever it would choose, for whatever other reports and data points, not a single report is requested; the
    VEN takes the registration for done. -/
theorem c89_no_resource_violated {k k' : Link} {c : Config} {h : ReportAsk → Res Value} {fresh : Nat → String} {user : ReportCall → Res Unit}
    {sampler : Sampler} {secure : Bool} {peer : Option String} {ven rid : String} {a : Along} {x : Offering} (ready : x.Ready k c secure peer ven rid a)
    (hh : ∀ q, ∃ v, h q = .ok v) {r : VenReport} (hr : r ∈ x.ven.reports) (hn : r.name = "TELEMETRY_USAGE" ∨ r.name = "TELEMETRY_STATUS")
    {p : VenPoint} (hp : p ∈ r.points) (hno : p.resourceId = none) :
    ∃ reg, offerReports k k' c (reportService h true fresh user) sampler now secure peer (.str ven) rid a x =
      ({ x with vtn := ({ x.vtn.1 with registered := reg }, x.vtn.2) }, .ok ()) := by
  have hname : (r.offered x.ven.heap).reportName = "METADATA_TELEMETRY_STATUS" ∨ (r.offered x.ven.heap).reportName = "METADATA_TELEMETRY_USAGE" := by
    rcases hn with hn | hn
    · right; simp only [VenReport.offered, hn]; decide +kernel
    · left; simp only [VenReport.offered, hn]; decide +kernel
  obtain ⟨reg, e, h1, h2⟩ := collectChoices_fails (h := h) (compact := true) (ven := ven) (fun e => e = .attributeError ∨ e = .keyError)
    (x.ven.reports.map (VenReport.offered x.ven.heap)) (by
      intro y _ e he
      unfold choicesFor at he
      split at he
      · simp only [if_true] at he
        split at he
        · cases he; exact .inr rfl
        · split at he
          · rename_i e' ha; cases he; exact askPoints_kinds hh _ _ _ ha
          · cases he
      · cases he) (by
      refine ⟨r.offered x.ven.heap, List.mem_map.mpr ⟨r, hr, rfl⟩, ?_⟩
      have hf := askPoints_fails hh ven (decide ((r.offered x.ven.heap).reportName = "METADATA_TELEMETRY_STATUS")) (r.offered x.ven.heap).points
        ⟨p.offered x.ven.heap, List.mem_map.mpr ⟨p, hp, rfl⟩, by simp [VenPoint.offered, hno]⟩
      have hq : (r.offered x.ven.heap).noPoints = false := rfl
      rcases hf with hf | hf
      · exact ⟨.attributeError, by simp only [choicesFor, if_pos hname, if_true, hq, Bool.false_eq_true, if_false, hf]⟩
      · exact ⟨.keyError, by simp only [choicesFor, if_pos hname, if_true, hq, Bool.false_eq_true, if_false, hf]⟩) x.vtn.1
  have hne : x.ven.reports ≠ [] := List.ne_nil_of_mem hr
  refine ⟨reg, c89_handler_raises_violated ready (s' := { x.vtn.1 with registered := reg }) (e := e) ?_ ?_⟩
  · simp only [offersOf, if_neg hne, registerReport, h1]
  · rcases h2 with rfl | rfl <;> intro code <;> simp

/-! ### A concrete case -/

theorem newId_ordinary (n : Nat) : Ordinary plainLib (newId n) := by
  have hl : (newId n).toList = 'x' :: List.replicate n 'i' := by simp [newId]
  have hall : ∀ c ∈ (newId n).toList, c = 'x' ∨ c = 'i' := by
    intro c hc
    rw [hl, List.mem_cons, List.mem_replicate] at hc
    rcases hc with h | ⟨-, h⟩
    · exact .inl h
    · exact .inr h
  have hx : (newId n).toList.head? = some 'x' := by rw [hl]; rfl
  refine ordinary_word plainLib_sound (by rw [hx]; decide) ⟨?_, ?_, ?_, ?_, ?_, ?_⟩ ?_ ?_
  · intro h; rw [h] at hx; cases hx
  · intro c hc
    rw [hx] at hc; cases hc; decide +kernel
  · intro c hc
    rcases hall c (List.mem_of_getLast? hc) with rfl | rfl <;> decide +kernel
  · intro c hc
    rcases hall c hc with rfl | rfl <;> (unfold XmlAllowed; decide +kernel)
  · intro c hc
    rw [hx] at hc; cases hc; decide +kernel
  · intro a b hab
    have := hall ']' (by rw [hab]; simp)
    revert this; decide
  · intro h; rw [h] at hx; revert hx; decide +kernel
  · intro h; rw [h] at hx; revert hx; decide +kernel

/-- Three data points in two reports. -/
def threeCalls : List AddReport :=
  [{ addVoltage with specifierId := some "s1x", rId := some "ax" }, { addVoltage with specifierId := some "s1x", rId := some "bx" },
    { addVoltage with specifierId := some "s2x", rId := some "cx", measurement := .name "warmth", unit := some "K" }]

theorem threeCalls_plain : ∀ a ∈ threeCalls, a.Plain plainLib := by
  have one : ∀ sp r : String, Ordinary plainLib sp → Ordinary plainLib r → ({ addVoltage with specifierId := some sp, rId := some r } : AddReport).Plain plainLib := by
    intro sp r h1 h2
    refine ⟨fun x hx => by cases hx; exact ordinary_of (by decide +kernel), ?_, ?_, ?_, show Spans 10000000 from spans_of (by decide +kernel),
      show Spans 3600000000 from spans_of (by decide +kernel), ?_⟩
    · intro x hx _; cases hx; exact h1
    · intro x hx _; cases hx; exact h2
    · intro x hx hs
      simp only [addVoltage, List.mem_cons, List.not_mem_nil, or_false] at hx
      exfalso; revert hs
      rcases hx with rfl | rfl | rfl <;> decide +kernel
    · intro m hm hn
      simp only [addVoltage, MeasureArg.name.injEq] at hm
      subst hm
      exact absurd hn (by decide +kernel)
  intro a ha
  simp only [threeCalls, List.mem_cons, List.not_mem_nil, or_false] at ha
  rcases ha with rfl | rfl | rfl
  · exact one _ _ (ordinary_of (by decide +kernel)) (ordinary_of (by decide +kernel))
  · exact one _ _ (ordinary_of (by decide +kernel)) (ordinary_of (by decide +kernel))
  · have h := one "s2x" "cx" (ordinary_of (by decide +kernel)) (ordinary_of (by decide +kernel))
    refine ⟨h.resource, h.specifierId, h.rId, h.extensions, h.minPeriod, h.maxPeriod, ?_⟩
    intro m hm _
    simp only [MeasureArg.name.injEq] at hm
    subst hm
    exact ⟨ordinary_of (by decide +kernel), "K", rfl, ordinary_of (by decide +kernel)⟩

def sampleAlong : Along := ⟨0, fun _ => none, fun _ => some 60000000, fun _ => some "http://market", fun _ => false⟩

/-- A VEN with three data points and a new VTN. -/
def sampleOffering : Offering :=
  ⟨[], ({ callbacks := [], requested := [], created := [], registered := [], ids := 0 }, []), addAll newId newVenReports threeCalls, []⟩

def sampleServing : Config := { sampleVtn with newId := "id2x" }

theorem sampleOffering_ready : sampleOffering.Ready' sampleLink sampleLink sampleServing false none "ven1" "m1x" sampleAlong := by
  have con := sampleConnected "id2x" (ordinary_of (by decide +kernel))
  refine ⟨⟨con, ordinary_of (by decide +kernel), datable_of (by decide +kernel), ?_, fun _ _ => ⟨_, rfl⟩, fun _ => rfl⟩, rfl, con, fun _ _ _ => ⟨_, rfl⟩⟩
  refine c89_added_offerable plainLib_sound newId_ordinary threeCalls threeCalls_plain sampleAlong ?_ ?_
  · intro p x hx
    simp only [sampleAlong, Option.some.injEq] at hx
    subst hx
    exact ordinary_of (by decide +kernel)
  · intro r d hd
    simp only [sampleAlong, Option.some.injEq] at hd
    subst hd
    exact spans_of (by decide +kernel)

/-- A handler in mode 'compact' that chooses everything, or just the measurement of the given name, at the given interval, to be sent every minute. -/
def chooses (g : Int) (what : Option String) : ReportAsk → Res Value
  | .compact _ _ m _ _ _ _ =>
    .ok (if (what.map Value.str).all (fun w => decide (w = m)) then .tuple [.func 7, .timedelta (seconds g), .timedelta (seconds 60)] else .none)
  | _ => .ok .none

theorem chooses_whole {g : Int} (hg : Spans (seconds g)) (what : Option String) : WholeIntervals (chooses g what) := by
  intro a v hv l hl d hd
  have key : v = .tuple [.func 7, .timedelta (seconds g), .timedelta (seconds 60)] ∨ v = .none := by
    cases a with
    | full r => simp only [chooses, Except.ok.injEq] at hv; exact .inr hv.symm
    | compact =>
      simp only [chooses, Except.ok.injEq] at hv
      split at hv
      · exact .inl hv.symm
      · exact .inr hv.symm
  rcases key with rfl | rfl
  · rcases hl with hl | ⟨vs, hl, -⟩
    · simp only [Value.tuple.injEq] at hl
      subst hl
      simp only [List.mem_cons, Value.timedelta.injEq, List.not_mem_nil, or_false, reduceCtorEq, false_or] at hd
      rcases hd with rfl | rfl
      · exact hg
      · exact spans_of (by decide +kernel)
    · cases hl
  · rcases hl with hl | ⟨vs, hl, -⟩ <;> cases hl

/-- What is left of the offers at the end: the callbacks and the confirmed ids of the VTN, and the requests, the lists of data points and the jobs of the VEN. -/
structure OfferEnd where
  callbacks : List ((Value × Value) × Value)
  created : Option (List Value)
  requests : List VenRequest
  lists : List (List Value)
  jobs : List Job
  deriving DecidableEq

def sampleEnd (g : Int) (what : Option String) : OfferEnd :=
  let x := (offerReports sampleLink sampleLink sampleServing (reportService (chooses g what) true newId (fun _ => .ok ())) ones 0 false none (.str "ven1") "m1x"
    sampleAlong sampleOffering).1
  ⟨x.vtn.1.callbacks, Dict.get? x.vtn.1.created "ven1", x.ven.requests, x.ven.lists, x.ven.jobs⟩

/-- What it is without messages in between. -/
def directEnd (g : Int) (what : Option String) : Option OfferEnd :=
  let s := sampleOffering.ven
  match registerReport (chooses g what) true newId sampleOffering.vtn.1 "ven1" (offersOf s.heap s.reports) with
  | (s', .ok out) =>
    match createReport ones 0 s (out.map RequestOut.asked) with
    | (v, _, .ok _) =>
      if out = [] then none else
      let y := (createdReport s' "ven1" (some (out.map (fun q => .str q.requestId)))).1
      some ⟨y.callbacks, Dict.get? y.created "ven1", v.requests, v.lists, v.jobs⟩
    | _ => none
  | _ => none

theorem sampleEnd_direct {g : Int} (hg : Spans (seconds g)) (what : Option String) : ∀ r, directEnd g what = some r → sampleEnd g what = r := by
  intro r hr
  simp only [directEnd] at hr
  split at hr
  · rename_i s' out hreg
    split at hr
    · rename_i v calls reply hcr
      split at hr
      · cases hr
      · rename_i hne
        have := (c89_offered (now := 0) (user := fun _ => .ok ()) (sampler := ones) sampleOffering_ready (chooses_whole hg what) newId_ordinary hreg).2.1 v calls reply hne hcr
        simp only [Option.some.injEq] at hr
        rw [sampleEnd, this, ← hr]
    · cases hr
  · cases hr

/-- The handler chooses the voltage every ten seconds: it is called for both data points, and one job takes the samples. -/
example : sampleEnd 10 (some "Voltage") =
    ⟨[((.str "x", .str "ax"), .func 7), ((.str "x", .str "bx"), .func 7)], some [.str "x"],
      [⟨.str "x", .str "s1x", some (seconds 60), 0, some (seconds 10), some 0⟩], [[.str "ax", .str "bx"]],
      [⟨0, .str "x", .cron (cronConfig (seconds 10) false)⟩]⟩ :=
  sampleEnd_direct (spans_of (by decide +kernel)) _ _ (by decide +kernel)

/-- **C89, refuted** for an interval outside of the sampling rate that was offered: the VTN keeps the callbacks and notes the request as created, but the job of
    the VEN has no data points to sample. -/
theorem c89_rate_violated : sampleEnd 5 (some "Voltage") =
    ⟨[((.str "x", .str "ax"), .func 7), ((.str "x", .str "bx"), .func 7)], some [.str "x"],
      [⟨.str "x", .str "s1x", some (seconds 60), 0, some (seconds 5), some 0⟩], [[]], [⟨0, .str "x", .cron (cronConfig (seconds 5) false)⟩]⟩ :=
  sampleEnd_direct (spans_of (by decide +kernel)) _ _ (by decide +kernel)

/-- **C89, refuted** for a handler that chooses from two reports: the VEN has one list of data points for both requests. -/
theorem c89_two_reports_violated : sampleEnd 10 none =
    ⟨[((.str "x", .str "ax"), .func 7), ((.str "x", .str "bx"), .func 7), ((.str "xi", .str "cx"), .func 7)], some [.str "x", .str "xi"],
      [⟨.str "x", .str "s1x", some (seconds 60), 0, some (seconds 10), some 0⟩, ⟨.str "xi", .str "s2x", some (seconds 60), 0, some (seconds 10), some 1⟩],
      [[.str "ax", .str "bx", .str "cx"]],
      [⟨0, .str "x", .cron (cronConfig (seconds 10) false)⟩, ⟨1, .str "xi", .cron (cronConfig (seconds 10) false)⟩]⟩ :=
  sampleEnd_direct (spans_of (by decide +kernel)) _ _ (by decide +kernel)

/-- The same data points, and one without a resource. -/
def fourthOffering : Offering := { sampleOffering with ven := addAll newId newVenReports (threeCalls ++ [{ addVoltage with resourceId := none, specifierId := some "s1x", rId := some "dx" }]) }

/-- With it, none of the four is requested: no callback, no confirmation, no request, no list of data points and no job. -/
example : let x := (offerReports sampleLink sampleLink sampleServing (reportService (chooses 10 none) true newId (fun _ => .ok ())) ones 0 false none (.str "ven1") "m1x"
      sampleAlong fourthOffering).1
    (⟨x.vtn.1.callbacks, Dict.get? x.vtn.1.created "ven1", x.ven.requests, x.ven.lists, x.ven.jobs⟩ : OfferEnd) = ⟨[], none, [], [], []⟩ := by
  have hplain : ∀ a ∈ threeCalls ++ [{ addVoltage with resourceId := none, specifierId := some "s1x", rId := some "dx" }], a.Plain plainLib := by
    intro a ha
    rcases List.mem_append.mp ha with ha | ha
    · exact threeCalls_plain a ha
    · rw [List.mem_singleton] at ha
      have h := threeCalls_plain { addVoltage with specifierId := some "s1x", rId := some "ax" } (by simp [threeCalls])
      subst ha
      exact ⟨fun x hx => (by cases hx), h.specifierId, fun x hx _ => (by cases hx; exact ordinary_of (by decide +kernel)), h.extensions, h.minPeriod, h.maxPeriod, h.custom⟩
  have ready : fourthOffering.Ready sampleLink sampleServing false none "ven1" "m1x" sampleAlong := by
    refine ⟨sampleConnected "id2x" (ordinary_of (by decide +kernel)), ordinary_of (by decide +kernel), datable_of (by decide +kernel), ?_, fun _ _ => ⟨_, rfl⟩, fun _ => rfl⟩
    refine c89_added_offerable plainLib_sound newId_ordinary _ hplain sampleAlong ?_ ?_
    · intro p x hx
      simp only [sampleAlong, Option.some.injEq] at hx
      subst hx
      exact ordinary_of (by decide +kernel)
    · intro r d hd
      simp only [sampleAlong, Option.some.injEq] at hd
      subst hd
      exact spans_of (by decide +kernel)
  have hin : fourthOffering.ven.reports.any (fun r => decide (r.name = "TELEMETRY_USAGE") && r.points.any (fun p => decide (p.resourceId = none))) = true := by decide +kernel
  obtain ⟨r, hr, h1⟩ := List.any_eq_true.mp hin
  simp only [Bool.and_eq_true, decide_eq_true_eq, List.any_eq_true] at h1
  obtain ⟨hn, p, hp, hno⟩ := h1
  obtain ⟨reg, hx⟩ := c89_no_resource_violated (k' := sampleLink) (h := chooses 10 none) (fresh := newId) (user := fun _ => .ok ()) (sampler := ones) (now := 0) ready
    (fun q => by cases q <;> exact ⟨_, rfl⟩) hr (.inl hn) hp hno
  have hv : (fourthOffering.ven.requests, fourthOffering.ven.lists, fourthOffering.ven.jobs) = ([], [], []) := by decide +kernel
  simp only [Prod.mk.injEq] at hv
  intro x
  have hxx : x = ({ fourthOffering with vtn := ({ fourthOffering.vtn.1 with registered := reg }, fourthOffering.vtn.2) } : Offering) := by
    show (offerReports _ _ _ _ _ _ _ _ _ _ _ _).1 = _
    rw [hx]
  rw [hxx]
  simp only [hv.1, hv.2.1, hv.2.2]
  rfl

end Openleadr
