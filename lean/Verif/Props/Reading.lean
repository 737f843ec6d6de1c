import Verif.Spec.Reading
import Verif.Lemmas.Leaves
import Verif.Lemmas.Infix
import Verif.Lemmas.PlainLib
import Verif.Model.Exchange
import Verif.Props.Timestamps
import Verif.Props.Durations
/-!
C105 The names and texts of messages are read by fixed rules.
-/
namespace Openleadr
open Reading

/-! ### Names -/

theorem camelToSnake_word (w : Text) (h : OneWord w) : camelToSnake w = w := by
  obtain ⟨-, h⟩ := h
  induction w with
  | nil => rfl
  | cons a w ih =>
    cases w with
    | nil => rfl
    | cons b r =>
      have hab := h [] a b r rfl
      simp only [camelToSnake]
      rw [if_neg (by simpa using hab), ih (fun pre x y post e => h (a :: pre) x y post (by rw [e]; rfl))]

theorem camelToSnake_boundary (v' : Text) (a b : Char) (w : Text) (h : OneWord (v' ++ [a])) (ha : a.isLower = true) (hb : b.isUpper = true) :
    camelToSnake (v' ++ [a] ++ b :: w) = v' ++ [a] ++ '_' :: camelToSnake (b :: w) := by
  obtain ⟨-, h⟩ := h
  induction v' with
  | nil => simp [camelToSnake, ha, hb]
  | cons x v' ih =>
    have hx := ih (fun pre y z post e => h (x :: pre) y z post (by simp only [List.cons_append, e]))
    cases v' with
    | nil =>
      have := h [] x a [] rfl
      simp only [List.cons_append, List.nil_append, camelToSnake] at hx ⊢
      rw [if_neg (by simpa using this), hx]
    | cons y v' =>
      have := h [] x y (v' ++ [a]) rfl
      simp only [List.cons_append, List.nil_append, List.append_assoc] at hx ⊢
      rw [camelToSnake, if_neg (by simpa using this), hx]

theorem camelToSnake_words (ws : List Text) (h : Words ws) :
    ((camelToSnake ws.flatten).map (fun c => if c = '-' then '_' else c)).map Char.toLower = snake ws := by
  have hsmall : ∀ w : Text, (w.map (fun c => if c = '-' then '_' else c)).map Char.toLower = small w := by
    intro w
    rw [List.map_map]
    refine List.map_congr_left (fun c _ => ?_)
    simp only [Function.comp]
    split
    · rfl
    · rfl
  obtain ⟨h1, h2⟩ := h
  induction ws with
  | nil => rfl
  | cons w ws ih =>
    cases ws with
    | nil => simp only [List.flatten_cons, List.flatten_nil, List.append_nil, snake, camelToSnake_word w (h1 w (by simp)), hsmall]
    | cons v ws =>
      have hi := ih (fun x hx => h1 x (by simp [hx])) h2.2
      obtain ⟨v', a, b, w', e1, e2, ha, hb⟩ := h2.1
      have hf : (v :: ws).flatten = b :: (w' ++ ws.flatten) := by rw [List.flatten_cons, e2]; rfl
      rw [List.flatten_cons, hf, e1, camelToSnake_boundary v' a b _ (by rw [← e1]; exact h1 w (by simp)) ha hb, ← hf, ← e1]
      rw [List.map_append, List.map_append, List.map_cons, List.map_cons, hi, hsmall]
      rfl

/-- **C105**: the name of an element, in camel case and perhaps with the prefix `oadr` or `ei`, is read as its words in lower case with underscores in between; only
    the names of measurements stay as they are. -/
theorem c105_names (prefix' : String) (ws : List Text) (h : Words ws)
    (hp : prefix' = "oadr" ∨ prefix' = "ei" ∨ (prefix' = "" ∧ (∀ r, ws.flatten ≠ "oadr".toList ++ r) ∧ ∀ r, ws.flatten ≠ "ei".toList ++ r)) :
    (String.ofList ws.flatten ∉ Dict.keys measurementNamespaces → normalizeKey (String.ofList (prefix'.toList ++ ws.flatten)) = String.ofList (snake ws)) ∧
    (String.ofList ws.flatten ∈ Dict.keys measurementNamespaces → normalizeKey (String.ofList (prefix'.toList ++ ws.flatten)) = String.ofList ws.flatten) := by
  have hd : dropPrefix (prefix'.toList ++ ws.flatten) = ws.flatten := by
    rcases hp with rfl | rfl | ⟨rfl, h1, h2⟩
    · rfl
    · rfl
    · have no : ∀ p : List Char, (∀ r, ws.flatten ≠ p ++ r) → p.isPrefixOf ws.flatten = false := by
        intro p hn
        cases e : p.isPrefixOf ws.flatten with
        | false => rfl
        | true =>
          obtain ⟨r, hr⟩ := List.isPrefixOf_iff_prefix.mp e
          exact absurd hr.symm (hn r)
      show dropPrefix ws.flatten = ws.flatten
      simp only [dropPrefix, no _ h1, no _ h2, Bool.false_eq_true, if_false]
  have hh : ∀ k, Dict.has measurementNamespaces k = true ↔ k ∈ Dict.keys measurementNamespaces := fun k => Dict.get?_isSome _ k
  simp only [normalizeKey, String.toList_ofList, hd]
  constructor
  · intro hn
    rw [if_neg (fun e => hn ((hh _).mp e)), camelToSnake_words ws h]
  · intro hm
    rw [if_pos ((hh _).mpr hm)]

/-- non-vacuity: names with acronyms and with a hyphen, and the name of a measurement. -/
example : normalizeKey "oadrRequestedOadrPollFreq" = "requested_oadr_poll_freq" ∧ normalizeKey "venID" = "ven_id" ∧ normalizeKey "x-eiNotification" = "x_ei_notification" ∧
    normalizeKey "eiEventID" = "event_id" ∧ normalizeKey "currencyPerKWh" = "currencyPerKWh" := by decide +kernel

example : Words ["ven".toList, "ID".toList] := by
  refine ⟨?_, ?_⟩
  · intro w hw
    simp only [List.mem_cons, List.not_mem_nil, or_false] at hw
    rcases hw with rfl | rfl
    · refine ⟨by decide, ?_⟩
      rintro pre a b post e ⟨-, hb⟩
      have : b ∈ "ven".toList := by rw [e]; simp
      revert hb
      have key : ∀ c ∈ "ven".toList, ¬ c.isUpper = true := by decide +kernel
      exact key b this
    · refine ⟨by decide, ?_⟩
      rintro pre a b post e ⟨ha, -⟩
      have : a ∈ "ID".toList := by rw [e]; simp
      revert ha
      have key : ∀ c ∈ "ID".toList, ¬ c.isLower = true := by decide +kernel
      exact key a this
  · exact ⟨⟨"ve".toList, 'n', 'I', ['D'], by decide +kernel, by decide +kernel, by decide +kernel, by decide +kernel⟩, trivial⟩

/-! ### Texts -/

theorem durationKey_iff (k : String) : durationKeys.contains k = true ↔ DurationKey k := by
  simp [durationKeys, DurationKey]

theorem dateKey_iff (k : String) : isDateKey k = true ↔ DateKey k := by
  simp only [isDateKey, Bool.or_eq_true, decide_eq_true_eq, isInfix_iff, Occurs, DateKey]

theorem integerLike_iff (lib : Lib) (sound : lib.Sound) (s : String) : looksInt lib s.toList = true ↔ IntegerLike lib s := by
  constructor
  · intro h
    unfold looksInt at h
    split at h
    · rename_i r e
      simp only [Bool.and_eq_true, decide_eq_true_eq, List.all_eq_true] at h
      exact ⟨['-'], r, by rw [e]; rfl, Or.inr rfl, h.1, h.2⟩
    · simp only [Bool.and_eq_true, decide_eq_true_eq, List.all_eq_true] at h
      exact ⟨[], _, rfl, Or.inl rfl, h.1, h.2⟩
  · rintro ⟨sign, body, e, rfl | rfl, hne, hd⟩
    · simp only [List.nil_append] at e
      rw [e]
      unfold looksInt
      split
      · rename_i r
        exact absurd (hd '-' (by simp)) (by simp [sound.minus])
      · simpa [hne] using hd
    · rw [e]
      simpa [looksInt, hne] using hd

theorem numberLike_iff (lib : Lib) (sound : lib.Sound) (s : String) : looksFloat lib s.toList = true ↔ NumberLike lib s := by
  constructor
  · exact looksFloat_spec lib s
  · rintro ⟨sign, body, e, rfl | rfl, hne, hd⟩
    · simp only [List.nil_append] at e
      rw [e]
      unfold looksFloat
      split
      · rename_i r
        have := hd '-' (by simp)
        simp [sound.minus] at this
      · simpa [hne] using hd
    · rw [e]
      simpa [looksFloat, hne] using hd

/-- **C105**: a text under the name of a duration is read as the duration, or refused. -/
theorem c105_duration (lib : Lib) (k : String) (hk : DurationKey k) (d : Spec.DateDuration) :
    leafValue lib k (.str (String.ofList d.text)) = if Spec.inTimedeltaRange d.seconds then .ok (.timedelta (1000000 * d.seconds)) else .error .overflowError := by
  simp only [leafValue, (durationKey_iff k).mpr hk, if_true, parseDurationV, String.toList_ofList, c03_duration_text_meaning]
  split <;> rfl

/-- **C105**: a text under the name of a time is read as that time if it has the form of a UTC time and is a date; a text of another form stays as it is. -/
theorem c105_time (lib : Lib) (k : String) (hk : DateKey k) (hd : ¬ DurationKey k) (s : String) :
    (∀ t : Spec.TimestampText, t.WellFormed → s.toList = t.text →
      Spec.validDateTime (Spec.number t.year) (Spec.number t.month) (Spec.number t.day) (Spec.number t.hour) (Spec.number t.minute) (Spec.number t.second)
        (Spec.microsOfFraction t.fraction) →
      leafValue lib k (.str s) = .ok (.datetime (DateTime.toMicros ⟨Spec.number t.year, Spec.number t.month, Spec.number t.day, Spec.number t.hour,
        Spec.number t.minute, Spec.number t.second, Spec.microsOfFraction t.fraction⟩))) ∧
    ((∀ t : Spec.TimestampText, t.WellFormed → s.toList ≠ t.text) → leafValue lib k (.str s) = .ok (.str s)) := by
  have h1 : durationKeys.contains k = false := by
    cases e : durationKeys.contains k with
    | false => rfl
    | true => exact absurd ((durationKey_iff k).mp e) hd
  simp only [leafValue, h1, (dateKey_iff k).mpr hk, Bool.false_eq_true, if_false, if_true, parseDatetimeV]
  constructor
  · intro t ht e hv
    rw [e, (c04_timestamp_meaning t ht).1 hv]
  · intro hn
    rw [c04_other_text_unchanged _ hn]

theorem textKey_of {k : String} (hk : ¬ DateKey k) (hd : ¬ DurationKey k) : textKey k = true := by
  have h1 : durationKeys.contains k = false := by
    cases e : durationKeys.contains k with
    | false => rfl
    | true => exact absurd ((durationKey_iff k).mp e) hd
  have h2 : isDateKey k = false := by
    cases e : isDateKey k with
    | false => rfl
    | true => exact absurd ((dateKey_iff k).mp e) hk
  unfold textKey
  rw [h1, h2]
  rfl

theorem number_word {lib : Lib} (sound : lib.Sound) {s : String} : NumberLike lib s → s ≠ "true" ∧ s ≠ "false" := by
  rintro ⟨sign, body, e, hs, hne, hb⟩
  have key : ∀ w : String, (∃ c ∈ w.toList, c.isAlpha = true) → s ≠ w := by
    rintro w ⟨c, hc, ha⟩ rfl
    rw [e] at hc
    rcases List.mem_append.mp hc with hc | hc
    · rcases hs with rfl | rfl
      · cases hc
      · simp only [List.mem_cons, List.not_mem_nil, or_false] at hc
        subst hc; revert ha; decide
    · rcases hb c hc with h | rfl
      · rw [sound.letters c ha] at h; cases h
      · revert ha; decide
  exact ⟨key _ ⟨'t', by decide, by decide⟩, key _ ⟨'f', by decide, by decide⟩⟩

/-- **C105**: a text under any other name is read as a boolean, an integer or a decimal number if it is written as one, and stays as it is otherwise. -/
theorem c105_text (lib : Lib) (sound : lib.Sound) (k : String) (hk : ¬ DateKey k) (hd : ¬ DurationKey k) (s : String) :
    (s = "true" → leafValue lib k (.str s) = .ok (.bool true)) ∧
    (s = "false" → leafValue lib k (.str s) = .ok (.bool false)) ∧
    (∀ i, IntegerLike lib s → lib.readInt s = some i → leafValue lib k (.str s) = .ok (.int i)) ∧
    (∀ r, NumberLike lib s → ¬ IntegerLike lib s → lib.readFloat s = some r → leafValue lib k (.str s) = .ok (.float r)) ∧
    (s ≠ "true" → s ≠ "false" → ¬ NumberLike lib s → leafValue lib k (.str s) = .ok (.str s)) := by
  have ht := textKey_of hk hd
  have words := fun h => number_word sound (s := s) h
  have numb : IntegerLike lib s → NumberLike lib s := by
    rintro ⟨sign, body, e, hs, hne, hb⟩
    exact ⟨sign, body, e, hs, hne, fun c hc => Or.inl (hb c hc)⟩
  rw [leafValue_text lib k s ht]
  refine ⟨?_, ?_, ?_, ?_, ?_⟩
  · rintro rfl; simp
  · rintro rfl; simp
  · intro i hi hr
    rw [if_neg (by simp [words (numb hi)])]
    simp only [plainText, (integerLike_iff lib sound s).mpr hi, if_true, hr]
  · intro r hn hi hr
    rw [if_neg (by simp [words hn])]
    have : looksInt lib s.toList = false := by
      cases e : looksInt lib s.toList with
      | false => rfl
      | true => exact absurd ((integerLike_iff lib sound s).mp e) hi
    simp only [plainText, this, Bool.false_eq_true, if_false, (numberLike_iff lib sound s).mpr hn, if_true, hr]
  · intro h1 h2 hn
    rw [if_neg (by simp [h1, h2])]
    have i1 : looksInt lib s.toList = false := by
      cases e : looksInt lib s.toList with
      | false => rfl
      | true => exact absurd (looksInt_spec lib s e) hn
    have i2 : looksFloat lib s.toList = false := by
      cases e : looksFloat lib s.toList with
      | false => rfl
      | true => exact absurd (looksFloat_spec lib s e) hn
    simp only [plainText, i1, i2, Bool.false_eq_true, if_false]

/-- non-vacuity -/
example : leafValue plainLib "event_status" (.str "far") = .ok (.str "far") ∧ leafValue plainLib "priority" (.str "-12") = .ok (.int (-12)) ∧
    leafValue plainLib "test_event" (.str "false") = .ok (.bool false) ∧ leafValue plainLib "duration" (.str "PT1M") = .ok (.timedelta 60000000) ∧
    leafValue plainLib "dtstart" (.str "1970-01-01T00:00:01Z") = .ok (.datetime 1000000) := by decide +kernel

/-- **C105, refuted** for times with an offset, which the schema allows: they are not read as times, the handlers get the text. -/
theorem c105_offset_violated (lib : Lib) (k : String) (hk : DateKey k) (hd : ¬ DurationKey k) (s : String) (hz : 'Z' ∉ s.toList) :
    leafValue lib k (.str s) = .ok (.str s) := by
  refine (c105_time lib k hk hd s).2 (fun t ht e => hz ?_)
  rw [e]
  simp [Spec.TimestampText.text]

example : leafValue plainLib "dtstart" (.str "2020-01-01T00:00:00+01:00") = .ok (.str "2020-01-01T00:00:00+01:00") := by decide +kernel

/-! ### One or several -/

theorem twice_texts (f : Dict → Res Dict) (ss : List String) : twice f (ss.map .str) = .ok (ss.map .str) := by
  induction ss with
  | nil => rfl
  | cons s ss ih => simp only [List.map_cons, twice, ih]

/-- **C105, refuted** for elements that can occur several times: if there is one of them, its text is read as a number if it looks like one; if there are several,
    the same text stays a text. -/
theorem c105_several_violated (lib : Lib) (sound : lib.Sound) (n : Nat) (key : String) (ha : ∀ r, key.toList ≠ '@' :: r) (hk : plainKey (normalizeKey key) = true)
    (he : normalizeKey key ≠ "event") (h1 : ¬ DateKey (normalizeKey key)) (h2 : ¬ DurationKey (normalizeKey key)) (s : String) (i : Int) (hi : IntegerLike lib s) (hr : lib.readInt s = some i)
    (ss : List String) :
    normalize lib (n + 1) [(key, .str s)] = .ok [(normalizeKey key, .int i)] ∧
    normalize lib (n + 1) [(key, .list ((s :: ss).map .str))] = .ok [(normalizeKey key, .list ((s :: ss).map .str))] := by
  have hat : isAttribute key = false := by
    cases e : isAttribute key with
    | false => rfl
    | true =>
      obtain ⟨r, hr⟩ := List.isPrefixOf_iff_prefix.mp e
      exact absurd hr.symm (ha r)
  have run : ∀ v w, Appends lib (normalize lib n) (key, v) [(normalizeKey key, w)] → normalize lib (n + 1) [(key, v)] = .ok [(normalizeKey key, w)] := by
    intro v w h
    have := h [] (by intro k _; simp [Dict.keys])
    simp only [normalize, normalizeEntries, this, List.nil_append]
  constructor
  · exact run _ _ (appends_leaf lib _ key _ _ _ rfl hat hk ((c105_text lib sound _ h1 h2 s).2.2.1 i hi hr) (by simp) (by simp) (by simp) (by simp))
  · refine run _ _ (appends_inPlace lib _ key _ _ (.list ((s :: ss).map .str)) _ rfl hat ?_ ?_)
    · simp only [entryValue, twice_texts, Except.map]
    · intro d hg
      rw [settle_leaf lib d _ _ hk hg (by simp) (fun e => absurd e he), Dict.set_get?_self _ _ _ hg]

/-- non-vacuity: one resource `007` of a target is read as the number 7, two of them as texts. -/
example : normalize plainLib 1 [("resourceID", .str "007")] = .ok [("resource_id", .int 7)] ∧
    normalize plainLib 1 [("resourceID", .list [.str "007", .str "008"])] = .ok [("resource_id", .list [.str "007", .str "008"])] := by
  have h := c105_several_violated plainLib plainLib_sound 0 "resourceID" (by simp) (by decide +kernel) (by decide +kernel)
    (fun h => absurd ((dateKey_iff _).mpr h) (by decide +kernel)) (fun h => absurd ((durationKey_iff _).mpr h) (by decide +kernel)) "007" 7
    ((integerLike_iff _ plainLib_sound _).mp (by decide +kernel)) (by decide +kernel) ["008"]
  have e : normalizeKey "resourceID" = "resource_id" := by decide +kernel
  rw [e] at h
  exact h

/-! ### Texts that cannot be read -/

theorem normalizeEntries_fails (lib : Lib) (f : Dict → Res Dict) (d : Dict) (e : String × Value) (he : e ∈ d) (ha : isAttribute e.1 = false)
    (hv : ∃ x, entryValue lib f (normalizeKey e.1) e.2 = .error x) : ∀ acc, ∃ x, normalizeEntries lib f acc d = .error x := by
  induction d with
  | nil => cases he
  | cons a d ih =>
    intro acc
    rw [normalizeEntries_cons]
    rcases List.mem_cons.mp he with rfl | he
    · obtain ⟨x, hx⟩ := hv
      exact ⟨x, by simp only [stepEntry, ha, hx]; rfl⟩
    · cases stepEntry lib f acc a with
      | error x => exact ⟨x, rfl⟩
      | ok acc' => exact ih he acc'

theorem twice_fails (f : Dict → Res Dict) (l : List Value) (d : Dict) (hd : .dict d ∈ l) (hf : ∃ x, f d = .error x) : ∃ x, twice f l = .error x := by
  induction l with
  | nil => cases hd
  | cons v l ih =>
    rcases List.mem_cons.mp hd with rfl | hd
    · obtain ⟨x, hx⟩ := hf
      exact ⟨x, by simp only [twice, hx]⟩
    · obtain ⟨x, hx⟩ := ih hd
      simp only [twice, hx]
      split
      · exact ⟨_, rfl⟩
      · exact ⟨_, rfl⟩

theorem leafValue_fails (lib : Lib) (sound : lib.Sound) (k : String) (v : Value) (h : Unreadable lib k v) : ∃ x, leafValue lib k v = .error x := by
  cases h with
  | noDuration hk => exact ⟨.typeError, by simp only [leafValue, (durationKey_iff k).mpr hk, if_true, parseDurationV]⟩
  | otherDuration s hk h1 h2 =>
    exact ⟨.valueError, by simp only [leafValue, (durationKey_iff k).mpr hk, if_true, parseDurationV, c03_other_texts_refused _ h1 h2]; rfl⟩
  | noDate s t hd hk e ht hv =>
    have h1 : durationKeys.contains k = false := by
      cases e : durationKeys.contains k with
      | false => rfl
      | true => exact absurd ((durationKey_iff k).mp e) hd
    refine ⟨.valueError, ?_⟩
    simp only [leafValue, h1, (dateKey_iff k).mpr hk, Bool.false_eq_true, if_false, if_true, parseDatetimeV]
    rw [e, (c04_timestamp_meaning t ht).2 hv]
  | noNumber s hd hk hn hi hr =>
    have h1 : looksInt lib s.toList = false := by
      cases e : looksInt lib s.toList with
      | false => rfl
      | true => exact absurd ((integerLike_iff lib sound s).mp e) hi
    refine ⟨.valueError, ?_⟩
    rw [leafValue_text lib k s (textKey_of hk hd), if_neg (by simp [number_word sound hn])]
    simp only [plainText, h1, Bool.false_eq_true, if_false, (numberLike_iff lib sound s).mpr hn, if_true, hr]

/-- **C105, refuted** for texts that only look like numbers, such as addresses and numbers of versions, for days that do not exist, and for durations that are empty or
    of another form: a message with such a text anywhere in it is not read at all. -/
theorem c105_unreadable_violated (lib : Lib) (sound : lib.Sound) (d : Dict) (key : String) (v : Value) (h : LeafAt d key v) (hu : Unreadable lib (normalizeKey key) v) :
    ∀ fuel, ∃ x, normalize lib fuel d = .error x := by
  have attr : ∀ k : String, (∀ r, k.toList ≠ '@' :: r) → isAttribute k = false := by
    intro k hk
    cases e : isAttribute k with
    | false => rfl
    | true =>
      obtain ⟨r, hr⟩ := List.isPrefixOf_iff_prefix.mp e
      exact absurd hr.symm (hk r)
  induction h with
  | here d k v hm h1 h2 ha =>
    intro fuel
    cases fuel with
    | zero => exact ⟨_, rfl⟩
    | succ n =>
      refine normalizeEntries_fails lib _ d _ hm (attr k ha) ?_ []
      have := leafValue_fails lib sound _ v hu
      cases v with
      | dict x => exact absurd rfl (h1 x)
      | list x => exact absurd rfl (h2 x)
      | _ => exact this
  | inside d d' k k' v hm ha _ ih =>
    intro fuel
    cases fuel with
    | zero => exact ⟨_, rfl⟩
    | succ n =>
      refine normalizeEntries_fails lib _ d _ hm (attr k' ha) ?_ []
      obtain ⟨x, hx⟩ := ih hu n
      exact ⟨x, by simp only [entryValue, hx]; rfl⟩
  | among d d' l k k' v hm ha hl _ ih =>
    intro fuel
    cases fuel with
    | zero => exact ⟨_, rfl⟩
    | succ n =>
      refine normalizeEntries_fails lib _ d _ hm (attr k' ha) ?_ []
      obtain ⟨x, hx⟩ := twice_fails (normalize lib n) l d' hl (ih hu n)
      exact ⟨x, by simp only [entryValue, hx]; rfl⟩

/-- **C105, refuted** in the same way for requests: a VTN answers such a message with HTTP status 500, whatever it is about, and nothing is done. -/
theorem c105_unreadable_reply_violated (lib : Lib) (sound : lib.Sound) (now : Int) (c : Config) (svc : Service S) (s : Surroundings) (i : Nat) (cache : NonceCache) (st : S)
    (r : Request) (tree : Tree) (hct : isXml r.contentType = true) (hv : c.validate r.content = .ok tree) (type : String) (d payload rest : Dict) (v : Value) (key : String)
    (hx : parseXml r.content.toList = .ok ("oadrPayload", .dict payload)) (hp : Dict.get? payload "oadrSignedObject" = some (.dict (rest ++ [(type, .dict d)])))
    (hl : LeafAt d key v) (hu : Unreadable lib (normalizeKey key) v) :
    handle (wired c lib now) svc s i cache st r = ((cache, st), .ok ⟨500, "", none⟩) := by
  obtain ⟨x, hx'⟩ := c105_unreadable_violated lib sound d key v hl hu r.content.toList.length
  have hm : parseMessage lib r.content.toList = .error x := by
    simp only [parseMessage, hx, messageOf, entryAt, Dict.get?, if_true, hp, lastEntry, List.getLast?_append, List.getLast?_singleton, Option.some_or, hx']
    rfl
  have hpt : parseText lib r.content = .error (.other x) := by
    simp only [parseText, hm]
  have e1 : (wired c lib now).validate = c.validate := rfl
  have e2 : (wired c lib now).parse = parseText lib := rfl
  simp only [handle, process, hct, e1, e2, hv, hpt, reply]
  rfl

/-- non-vacuity: the address of a VEN in place of its name, deep in a message. -/
example : LeafAt [("requestID", .str "r1"), ("oadrTransportAddress", .dict [("address", .str "192.168.0.1")])] "address" (.str "192.168.0.1") ∧
    Unreadable plainLib (normalizeKey "address") (.str "192.168.0.1") := by
  refine ⟨.inside _ [("address", .str "192.168.0.1")] _ "oadrTransportAddress" _ (by simp) (by simp) (.here _ _ _ (by simp) (by simp) (by simp) (by simp)), ?_⟩
  refine .noNumber _ (fun h => absurd ((durationKey_iff _).mpr h) (by decide +kernel)) (fun h => absurd ((dateKey_iff _).mpr h) (by decide +kernel))
    ((numberLike_iff _ plainLib_sound _).mp (by decide +kernel)) (fun h => absurd ((integerLike_iff _ plainLib_sound _).mpr h) (by decide +kernel)) (by decide +kernel)

end Openleadr
