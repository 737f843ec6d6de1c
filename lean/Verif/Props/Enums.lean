import Verif.Model.Enums
import Verif.Spec.Enumerations
import Verif.Model.EventExchange
import Verif.Props.ServerAdd
import Verif.Props.VenOffers
import Verif.Props.Opts
import Verif.Props.EventObject
/-!
C101 The library speaks the vocabulary of the schema: the enumerations of `openleadr.enums` are those of the schema files, and the texts that
the library takes from its users are texts of the schema.
-/
namespace Openleadr

theorem enumItem_some {own : List (String × String)} (hn : (own.map Prod.fst).Nodup) (n v : String) :
    enumItem own n = some v ↔ (n, v) ∈ own := by
  induction own with
  | nil => simp [enumItem]
  | cons x l ih =>
    obtain ⟨k, w⟩ := x
    simp only [List.map_cons, List.nodup_cons] at hn
    simp only [enumItem, List.find?_cons, List.mem_cons, Prod.mk.injEq]
    by_cases hk : k = n
    · subst hk
      simp only [BEq.rfl, Option.map_some, Option.some.injEq, true_and]
      constructor
      · intro h; exact .inl h.symm
      · rintro (h | h)
        · exact h.symm
        · exact absurd (List.mem_map.mpr ⟨_, h, rfl⟩) hn.1
    · have : (k == n) = false := by simpa using hk
      simp only [this]
      rw [show ((l.find? (fun x => x.1 == n)).map Prod.snd) = enumItem l n from rfl, ih hn.2]
      constructor
      · exact .inr
      · rintro (⟨h, _⟩ | h)
        · exact absurd h.symm hk
        · exact h

theorem mem_insertName (n x : String) (l : List String) : x ∈ insertName n l ↔ x = n ∨ x ∈ l := by
  induction l with
  | nil => simp [insertName]
  | cons m l ih =>
    simp only [insertName]
    split
    · simp
    · split
      · rename_i h; subst h; simp
      · simp only [List.mem_cons, ih]
        constructor
        · rintro (h | h | h) <;> simp [h]
        · rintro (h | h | h) <;> simp [h]

theorem mem_foldr_insertName (x : String) (l : List String) : x ∈ l.foldr insertName [] ↔ x ∈ l := by
  induction l with
  | nil => simp
  | cons n l ih => simp only [List.foldr_cons, mem_insertName, ih, List.mem_cons]

theorem insertName_sorted (n : String) (l : List String) (h : l.Pairwise (fun a b => a < b)) :
    (insertName n l).Pairwise (fun a b => a < b) := by
  induction l with
  | nil => simp [insertName]
  | cons m l ih =>
    simp only [List.pairwise_cons] at h
    simp only [insertName]
    split
    · rename_i hlt
      refine List.pairwise_cons.mpr ⟨fun x hx => ?_, List.pairwise_cons.mpr h⟩
      rcases List.mem_cons.mp hx with rfl | hx
      · exact hlt
      · exact String.lt_trans hlt (h.1 x hx)
    · split
      · exact List.pairwise_cons.mpr h
      · rename_i h1 h2
        refine List.pairwise_cons.mpr ⟨fun x hx => ?_, ih h.2⟩
        rcases (mem_insertName n x l).mp hx with rfl | hx
        · exact String.not_le.mp (fun h' => h2 (String.le_antisymm (String.not_lt.mp (fun h3 => absurd h3 (String.not_lt.mpr h'))) (String.not_lt.mp h1)))
        · exact h.1 x hx

/-- **C101**: the members of any enumeration class are the names of its attributes that are neither private nor names of the metaclass, each
    once, in order. -/
theorem c101_members (metaNames inherited : List String) (own : List (String × String)) (hi : ∀ n ∈ inherited, publicName n = false) :
    (∀ n, n ∈ enumMembers metaNames inherited own ↔ (∃ v, (n, v) ∈ own) ∧ publicName n = true ∧ n ∉ metaNames) ∧
    (enumMembers metaNames inherited own).Pairwise (fun a b => a < b) := by
  refine ⟨fun n => ?_, ?_⟩
  · simp only [enumMembers, mem_foldr_insertName, List.mem_filter, List.mem_append, List.mem_map, Bool.not_eq_true',
      List.contains_eq_mem, decide_eq_false_iff_not]
    constructor
    · rintro ⟨⟨h | h, hm⟩, hp⟩
      · obtain ⟨⟨k, v⟩, hx, rfl⟩ := h
        exact ⟨⟨v, hx⟩, hp, hm⟩
      · rw [hi n h] at hp; cases hp
    · rintro ⟨⟨v, hx⟩, hp, hm⟩
      exact ⟨⟨.inl ⟨(n, v), hx, rfl⟩, hm⟩, hp⟩
  · simp only [enumMembers]
    generalize ((own.map Prod.fst ++ inherited).filter _).filter _ = l
    induction l with
    | nil => simp
    | cons n l ih => exact insertName_sorted n _ ih

/-- **C101**: the values of any enumeration class are the values of its members. -/
theorem c101_values (metaNames inherited : List String) (own : List (String × String)) (hi : ∀ n ∈ inherited, publicName n = false)
    (hn : (own.map Prod.fst).Nodup) (v : String) :
    v ∈ enumValues metaNames inherited own ↔ ∃ n, (n, v) ∈ own ∧ publicName n = true ∧ n ∉ metaNames := by
  simp only [enumValues, List.mem_filterMap]
  constructor
  · rintro ⟨n, hm, he⟩
    obtain ⟨_, hp, hmeta⟩ := ((c101_members metaNames inherited own hi).1 n).mp hm
    exact ⟨n, (enumItem_some hn n v).mp he, hp, hmeta⟩
  · rintro ⟨n, hx, hp, hmeta⟩
    exact ⟨n, ((c101_members metaNames inherited own hi).1 n).mpr ⟨⟨v, hx⟩, hp, hmeta⟩, (enumItem_some hn n v).mpr hx⟩

/-- A class whose attributes are all public and not named as those of the metaclass has all their values. -/
theorem values_of_class (metaNames inherited : List String) (own : List (String × String)) (hi : ∀ n ∈ inherited, publicName n = false)
    (hm : ∀ n ∈ metaNames, publicName n = true → n ∈ ["members", "mro", "values"])
    (hn : (own.map Prod.fst).Nodup) (ho : own.all (fun x => publicName x.1 && !["members", "mro", "values"].contains x.1) = true) (v : String) :
    v ∈ enumValues metaNames inherited own ↔ v ∈ own.map Prod.snd := by
  rw [c101_values metaNames inherited own hi hn v]
  simp only [List.all_eq_true, Bool.and_eq_true, Bool.not_eq_true', List.contains_eq_mem, decide_eq_false_iff_not] at ho
  constructor
  · rintro ⟨n, hx, _⟩
    exact List.mem_map.mpr ⟨_, hx, rfl⟩
  · intro h
    obtain ⟨⟨n, w⟩, hx, rfl⟩ := List.mem_map.mp h
    obtain ⟨h1, h2⟩ := ho _ hx
    exact ⟨n, hx, h1, fun hmem => h2 (hm n hmem h1)⟩

/-- **C101**: the values of the enumerations of the library are exactly those of the schema. -/
theorem c101_schema (metaNames inherited : List String) (hi : ∀ n ∈ inherited, publicName n = false)
    (hm : ∀ n ∈ metaNames, publicName n = true → n ∈ ["members", "mro", "values"]) (v : String) :
    (v ∈ enumValues metaNames inherited classEventStatus ↔ v ∈ schemaEventStatus) ∧
    (v ∈ enumValues metaNames inherited classSignalType ↔ v ∈ schemaSignalType) ∧
    (v ∈ enumValues metaNames inherited classSignalName ↔ v ∈ schemaSignalName) ∧
    (v ∈ enumValues metaNames inherited classSiScaleCode ↔ v ∈ schemaSiScaleCode) ∧
    (v ∈ enumValues metaNames inherited classOpt ↔ v ∈ schemaOptType) ∧
    (v ∈ enumValues metaNames inherited classOptReason ↔ v ∈ schemaOptReason) ∧
    (v ∈ enumValues metaNames inherited classReadingType ↔ v ∈ schemaReadingType) ∧
    (v ∈ enumValues metaNames inherited classReportType ↔ v ∈ schemaReportType) ∧
    (v ∈ enumValues metaNames inherited classReportName ↔ v ∈ schemaReportName) := by
  have go : ∀ (own : List (String × String)) (l : List String), (own.map Prod.fst).Nodup →
      own.all (fun x => publicName x.1 && !["members", "mro", "values"].contains x.1) = true → own.map Prod.snd = l →
      (v ∈ enumValues metaNames inherited own ↔ v ∈ l) := by
    intro own l h1 h2 h3
    rw [values_of_class metaNames inherited own hi hm h1 h2 v, h3]
  exact ⟨go _ _ (by decide +kernel) (by decide +kernel) (by decide +kernel), go _ _ (by decide +kernel) (by decide +kernel) (by decide +kernel),
    go _ _ (by decide +kernel) (by decide +kernel) (by decide +kernel), go _ _ (by decide +kernel) (by decide +kernel) (by decide +kernel),
    go _ _ (by decide +kernel) (by decide +kernel) (by decide +kernel), go _ _ (by decide +kernel) (by decide +kernel) (by decide +kernel),
    go _ _ (by decide +kernel) (by decide +kernel) (by decide +kernel), go _ _ (by decide +kernel) (by decide +kernel) (by decide +kernel),
    go _ _ (by decide +kernel) (by decide +kernel) (by decide +kernel)⟩

/-- The lists that the model of the services uses are the values of these classes. -/
theorem lists_schema : signalTypes = schemaSignalType ∧ signalNames = schemaSignalName ∧ siScaleCodes = schemaSiScaleCode ∧
    optTypes = schemaOptType ∧ optReasons = schemaOptReason ∧ readingTypes = schemaReadingType ∧ reportTypes = schemaReportType ∧
    reportNames = schemaReportName := by decide +kernel

/-- **C101**: every status of an event has a text of the schema, and every text of the schema is one. -/
theorem c101_status (v : String) : v ∈ schemaEventStatus ↔ ∃ s : Status, s.text = v := by
  constructor
  · intro h
    simp only [schemaEventStatus, List.mem_cons, List.not_mem_nil, or_false] at h
    rcases h with rfl | rfl | rfl | rfl | rfl | rfl
    · exact ⟨.none, rfl⟩
    · exact ⟨.far, rfl⟩
    · exact ⟨.near, rfl⟩
    · exact ⟨.active, rfl⟩
    · exact ⟨.completed, rfl⟩
    · exact ⟨.cancelled, rfl⟩
  · rintro ⟨s, rfl⟩
    cases s <;> decide +kernel

/-- A text that begins with `x-`. -/
def Own (s : String) : Prop := ∃ rest, s.toList = 'x' :: '-' :: rest

theorem own_startsWith (s : String) : s.startsWith "x-" = true ↔ Own s := by
  rw [String.startsWith_string_iff, show "x-".toList = ['x', '-'] from by decide]
  constructor
  · rintro ⟨t, h⟩; exact ⟨t, by simpa using h.symm⟩
  · rintro ⟨t, h⟩; exact ⟨t, by simpa using h.symm⟩

theorem collapsed_of_dense (l : List Char) (h : ∀ c ∈ l, xmlSpace c = false) : collapsed l = true := by
  induction l with
  | nil => rfl
  | cons c l ih =>
    cases l with
    | nil => simp [collapsed, h c (by simp)]
    | cons d l =>
      simp only [collapsed, h c (by simp), Bool.false_and, Bool.not_false, Bool.true_and]
      exact ih (fun x hx => h x (by simp at hx ⊢; exact .inr hx))

/-- Texts of the schema are known or begin with `x-`; the converse holds for texts without white space and of more than two characters. -/
theorem schemaText_own (l : List String) (s : String) :
    (SchemaText l s → s ∈ l ∨ Own s) ∧ (s ∈ l ∨ (Own s ∧ 2 < s.toList.length ∧ ∀ c ∈ s.toList, xmlSpace c = false) → SchemaText l s) := by
  constructor
  · rintro (h | ⟨c, rest, h, _⟩)
    · exact .inl h
    · exact .inr ⟨c :: rest, h⟩
  · rintro (h | ⟨⟨rest, h⟩, hlen, hd⟩)
    · exact .inl h
    · right
      cases rest with
      | nil => rw [h] at hlen; simp at hlen
      | cons c rest =>
        rw [h] at hd
        exact ⟨c, rest, h, hd c (by simp), collapsed_of_dense _ (fun x hx => hd x (by simp at hx ⊢; exact .inr (.inr hx)))⟩

/-- **C101** (partial: own names that are not those of the schema are taken as well, see below): events with a signal type and name of the
    schema are accepted (if nothing else is wrong with them), and what is accepted has a signal type of the schema and a signal name of the
    schema or one that begins with `x-`. -/
theorem c101_event_partial (s : Server) (a : AddArgs) (hi : s.external = false)
    (hr : a.responseRequired = "always" ∨ a.responseRequired = "never") (hint : a.intervals ≠ [])
    (hcb : ∀ c, a.callback ≠ some (.func c false)) :
    (a.signalType ∈ schemaSignalType ∧ SchemaText schemaSignalName a.signalName → ∀ err, (addEvent s a).2 ≠ .error err) ∧
    ((∀ err, (addEvent s a).2 ≠ .error err) → a.signalType ∈ schemaSignalType ∧ (a.signalName ∈ schemaSignalName ∨ Own a.signalName)) := by
  obtain ⟨e1, e2, _⟩ := lists_schema
  have key := c25_refused_iff s a hi
  rw [e1, e2] at key
  constructor
  · rintro ⟨ht, hn⟩ err he
    rcases key.mp ⟨err, he⟩ with h | h | ⟨h1, h2⟩ | h | ⟨_, c, h⟩
    · rcases hr with h' | h'
      · exact h.1 h'
      · exact h.2 h'
    · exact h ht
    · rcases (schemaText_own _ _).1 hn with h' | h'
      · exact h1 h'
      · exact h2 h'
    · exact hint h
    · exact hcb c h
  · intro hok
    have hno : ¬ ∃ err, (addEvent s a).2 = .error err := fun ⟨err, h⟩ => hok err h
    rw [key] at hno
    refine ⟨Decidable.byContradiction fun h => hno (.inr (.inl h)), ?_⟩
    by_cases h1 : a.signalName ∈ schemaSignalName
    · exact .inl h1
    · right
      exact Classical.byContradiction fun h2 => hno (.inr (.inr (.inl ⟨h1, h2⟩)))

/-- **C101** (partial as for whole events): the same for a signal that the user makes. -/
theorem c101_signal_partial (sig sig' : Signal) (h : newSignal sig = .ok sig') :
    sig'.signalType ∈ schemaSignalType ∧ (sig'.signalName ∈ schemaSignalName ∨ Own sig'.signalName) := by
  obtain ⟨e1, e2, _⟩ := lists_schema
  obtain ⟨hiff, _, hsame⟩ := c100_signal sig
  obtain ⟨ht, hn, _⟩ := hiff.mp ⟨sig', h⟩
  obtain ⟨_, heq, _⟩ := hsame sig' h
  rw [heq]
  rw [e1] at ht
  rw [e2] at hn
  exact ⟨ht, hn⟩

/-- **C101** (partial as for events): reports are offered with names and types of the schema or beginning with `x-`, and with a scale of the
    schema; all names and types of the schema pass the checks. -/
theorem c101_report_partial (a : AddReport) :
    ((∃ fresh s s' out, addReport fresh s a = (s', .ok out)) →
      (a.name ∈ schemaReportName ∨ Own a.name) ∧ (a.readingType ∈ schemaReadingType ∨ Own a.readingType) ∧
      (a.reportType ∈ schemaReportType ∨ Own a.reportType) ∧ ∃ sc ∈ schemaSiScaleCode, a.scale = some sc) ∧
    (SchemaText schemaReportName a.name → SchemaText schemaReadingType a.readingType → SchemaText schemaReportType a.reportType →
      (∃ sc ∈ schemaSiScaleCode, a.scale = some sc) → a.mode = "incremental" → checkAdd a = .ok ()) := by
  obtain ⟨_, _, e3, _, _, e6, e7, e8⟩ := lists_schema
  constructor
  · rintro ⟨fresh, s, s', out, h⟩
    obtain ⟨h1, h2, h3, h4, _⟩ := c57_accepted_valid fresh s s' a out h
    rw [own_startsWith, e8] at h1
    rw [own_startsWith, e6] at h2
    rw [own_startsWith, e7] at h3
    rw [e3] at h4
    exact ⟨h1, h2, h3, h4⟩
  · intro h1 h2 h3 h4 h5
    rw [checkAdd_iff]
    unfold ValidTexts
    rw [own_startsWith, own_startsWith, own_startsWith, e8, e6, e7, e3]
    exact ⟨(schemaText_own _ _).1 h1, (schemaText_own _ _).1 h2, (schemaText_own _ _).1 h3, h4, .inl h5⟩

/-- **C101**: opts are made with a type and a reason that the schema enumerates, and all of these can be given. -/
theorem c101_opt (fresh : Value) (a : OptArgs) (g : Value) (hm : a.mridOk = true) (hg : a.groups = .ok g)
    (he : (a.eventId = .none) ≠ (a.vavailability = .none)) :
    (∃ opt, makeOpt fresh a = .ok opt ∧ Dict.get? opt "opt_type" = some (.str a.optType) ∧
      Dict.get? opt "opt_reason" = some (.str a.optReason)) ↔ a.optType ∈ schemaOptType ∧ a.optReason ∈ schemaOptReason := by
  obtain ⟨_, _, _, e4, e5, _⟩ := lists_schema
  have n1 : ¬ (a.eventId = .none ∧ a.vavailability = .none) := fun h => he (by simp [h.1, h.2])
  have n2 : ¬ (a.eventId ≠ .none ∧ a.vavailability ≠ .none) := fun h => he (by simp [h.1, h.2])
  simp only [makeOpt, hm, hg, e4, e5]
  by_cases h1 : a.optType ∈ schemaOptType
  · by_cases h2 : a.optReason ∈ schemaOptReason
    · rw [if_neg (by simpa using h1), if_neg (by simpa using h2), if_neg (by simp), if_neg n1, if_neg n2]
      exact ⟨fun _ => ⟨h1, h2⟩, fun _ => ⟨_, rfl, by simp [Dict.get?], by simp [Dict.get?]⟩⟩
    · rw [if_neg (by simpa using h1), if_pos (by simpa using h2)]
      refine ⟨?_, fun h => absurd h.2 h2⟩
      rintro ⟨_, h, _⟩; cases h
  · rw [if_pos (by simpa using h1)]
    refine ⟨?_, fun h => absurd h.1 h1⟩
    rintro ⟨_, h, _⟩; cases h

/-- **C101, refuted** for own names of signals: the prefix alone is accepted, although the schema asks for at least one more character. -/
theorem c101_prefix_violated : ∃ (a : AddArgs) (s' : Server), a.signalName = "x-" ∧ addEvent Server.init a = (s', .ok (some a.eventId)) ∧
    ¬ SchemaText schemaSignalName a.signalName := by
  refine ⟨{ sampleArgs with signalName := "x-" }, _, rfl, rfl, ?_⟩
  rintro (h | ⟨c, rest, h, _⟩)
  · exact absurd h (by decide +kernel)
  · rw [show ({ sampleArgs with signalName := "x-" } : AddArgs).signalName.toList = ['x', '-'] from by decide +kernel] at h
    simp at h

/-- **C101, refuted** for the user's own reasons to opt: the schema has them, the library takes none but the one that is enumerated. -/
theorem c101_own_reason_violated (w : World) (fresh : Value) (c : Client) (a : OptArgs) (h : SchemaExtension a.optReason)
    (hx : a.optReason ≠ "x-schedule") : SchemaText schemaOptReason a.optReason ∧ ∃ e, createOpt w fresh c a = (c, .error e) := by
  refine ⟨.inr h, c62_invalid w fresh c a (.inr (.inl ?_))⟩
  obtain ⟨_, _, _, _, e5, _⟩ := lists_schema
  rw [e5]
  intro hin
  obtain ⟨ch, rest, hl, _⟩ := h
  have all : ∀ v ∈ schemaOptReason, v = "x-schedule" ∨ v.toList.head? ≠ some 'x' := by decide +kernel
  rcases all _ hin with h | h
  · exact hx h
  · rw [hl] at h; simp at h

/-- non-vacuity: an own signal name and an own reason of the schema. -/
example : SchemaText schemaSignalName "x-My Signal" ∧ SchemaExtension "x-holiday" ∧ ¬ SchemaText schemaSignalName "x- a" :=
  ⟨.inr ⟨'M', "y Signal".toList, by decide +kernel, by decide +kernel, by decide +kernel⟩,
   ⟨'h', "oliday".toList, by decide +kernel, by decide +kernel, by decide +kernel⟩, by
    rintro (h | ⟨c, rest, h, hs, _⟩)
    · exact absurd h (by decide +kernel)
    · rw [show "x- a".toList = ['x', '-', ' ', 'a'] from by decide +kernel] at h
      simp only [List.cons.injEq, true_and] at h
      rw [← h.1] at hs
      exact absurd hs (by decide)⟩

/-- non-vacuity: the members and values of a small class, with what Python adds to it; a member named as an attribute of the metaclass, a
    private one and a method name are not among them. -/
example : enumMembers ["mro", "values", "members", "__call__"] ["__module__", "__doc__"] [("OPT_OUT", "optOut"), ("OPT_IN", "optIn"), ("values", "x"), ("_private", "y")] = ["OPT_IN", "OPT_OUT"] ∧
    enumValues ["mro", "values", "members", "__call__"] ["__module__", "__doc__"] [("OPT_OUT", "optOut"), ("OPT_IN", "optIn"), ("values", "x"), ("_private", "y")] = ["optIn", "optOut"] := by
  decide +kernel

end Openleadr
