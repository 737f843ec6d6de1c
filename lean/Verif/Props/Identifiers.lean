import Verif.Lemmas.Identifiers
import Verif.Lemmas.PlainTexts
/-!
C68: identifiers that look like numbers or booleans.
-/
namespace Openleadr

variable {lib : Lib} {now : Int}

/-- What is read from a poll with any text that can stand in an element. -/
theorem poll_taken (hl : lib.Sound) {s : String} {v : Value} (hs : OnWire s) (ht : TakenFor lib s v) :
    Arrives lib now "oadrPoll" [("ven_id", .str s)] [("ven_id", v)] :=
  arrives_of (by rfl) (fun _ => .cons (carries_taken hl "venID" "ven_id" (by lk) hs ht) .nil) (by simp) (by simp)

/-- A poll with a text that looks like a number and is none cannot be read. -/
theorem poll_unreadable (hl : lib.Sound) {s : String} (hs : OnWire s) (hu : Unreadable lib s) :
    Refused lib now "oadrPoll" [("ven_id", .str s)] .valueError := by
  have hleaf : sure lib [("ven_id", .str s)] (leaf "ei:venID" ["ven_id"] .plain []) = .ok [.entry "venID" (.str s)] :=
    sure_text (by lk) hs (by decide +kernel) (by decide +kernel)
  have hnd : (Dict.keys (attrItem (innerAttrs [])) ++ ["venID"]).Nodup := by decide +kernel
  have hv := elementValue_flow (innerAttrs []) [⟨"venID", [], [.str s], []⟩] (by simpa using hnd) (by
    intro g hg v hv l
    simp only [List.mem_singleton] at hg
    subst hg
    simp only [List.mem_singleton] at hv
    subst hv; simp)
  rw [if_neg (by simp [rawOf, wrapVals])] at hv
  have hv : elementValue (innerAttrs []) [.entry "venID" (.str s)] = .dict (attrItem (innerAttrs []) ++ [("venID", .str s)]) := hv
  refine refused_of (body := [leaf "ei:venID" ["ven_id"]]) (attrs := []) (outer := []) (raw := attrItem (innerAttrs []) ++ [("venID", .str s)])
    (by simp [preflightMessage]) (by rfl) ?_ ?_ (by decide +kernel)
  · rw [el]
    simp only [sure, sureKey, sureAll, hleaf, List.append_nil]
    have hn : localName ("oadr:" ++ "oadrPoll") = "oadrPoll" := by decide +kernel
    rw [hn]
    rw [hv]
  · intro n
    simp only [normalize]
    rw [normalizeEntries_attrs lib _ _ _ _ (attrItem_keys _), normalizeEntries_cons]
    have hk : normalizeKey "venID" = "ven_id" := by decide +kernel
    have ha : isAttribute "venID" = false := by decide +kernel
    simp only [stepEntry, ha, hk, entryValue, leafValue_unreadable hl (k := "ven_id") (by decide +kernel) hu, Bool.false_eq_true, if_false]

/-- **C68** (partial: the texts that can stand in an element without white space or markup; the refutations are below). Which texts are received
    as they are: just those that look like neither a number nor a boolean. -/
theorem c68_kept_exactly_partial (hl : lib.Sound) {s : String} (hs : OnWire s) :
    Received lib now "oadrPoll" [("ven_id", .str s)] [("ven_id", .str s)] ↔ Ordinary lib s := by
  constructor
  · intro h
    rcases taken_or_unreadable lib s with ⟨v, hv⟩ | hu
    · have := received_unique h (poll_taken hl hs hv _ (.same _))
      simp only [List.cons.injEq, Prod.mk.injEq, true_and, and_true] at this
      subst this
      cases hv with
      | text h1 h2 h3 => exact ⟨hs, h3, h1, h2⟩
    · obtain ⟨t, h1, h2⟩ := h
      obtain ⟨t', h1', h2'⟩ := poll_unreadable (now := now) hl hs hu
      rw [h1] at h1'; cases h1'
      rw [h2] at h2'; simp at h2'
  · intro h
    exact poll_taken hl hs (.text h.notTrue h.notFalse h.notNumber) _ (.same _)

/-- Of two identifiers of digits, the one with a letter is kept. -/
example : Received plainLib now "oadrPoll" [("ven_id", .str "ven007")] [("ven_id", .str "ven007")]
    ∧ ¬ Received plainLib now "oadrPoll" [("ven_id", .str "-1.5")] [("ven_id", .str "-1.5")] := by
  refine ⟨(c68_kept_exactly_partial plainLib_sound (onWire_of (by decide +kernel))).2 (ordinary_of (by decide +kernel)), fun h => ?_⟩
  have := (c68_kept_exactly_partial plainLib_sound (onWire_of (by decide +kernel))).1 h
  exact this.notNumber ((looksFloat_iff plainLib_sound _).1 (by decide +kernel))

/-- **C68** (partial: ordinary texts). All identifiers in a message are kept. -/
theorem c68_all_kept_partial (hl : lib.Sound) {id opt ven : String} (h1 : Ordinary lib id) (h2 : Ordinary lib opt) (h3 : Ordinary lib ven) :
    Received lib now "oadrCancelOpt" [("request_id", .str id), ("opt_id", .str opt), ("ven_id", .str ven)]
      [("request_id", .str id), ("opt_id", .str opt), ("ven_id", .str ven)] := by
  have h := arrives_of (lib := lib) (now := now) (type := "oadrCancelOpt") (q := [("request_id", .str id), ("opt_id", .str opt), ("ven_id", .str ven)])
    (by rfl) (fun _ =>
      .cons (carries_taken hl "requestID" "request_id" (by lk) h1.toOnWire (.text h1.notTrue h1.notFalse h1.notNumber))
      (.cons (carries_taken hl "optID" "opt_id" (by lk) h2.toOnWire (.text h2.notTrue h2.notFalse h2.notNumber))
      (.cons (carries_taken hl "venID" "ven_id" (by lk) h3.toOnWire (.text h3.notTrue h3.notFalse h3.notNumber)) .nil))) rfl (by simp)
  exact h _ (.same _)

example : Received plainLib now "oadrCancelOpt" [("request_id", .str "2a.b]]"), ("opt_id", .str "True"), ("ven_id", .str "1 \"2\" > 3")]
    [("request_id", .str "2a.b]]"), ("opt_id", .str "True"), ("ven_id", .str "1 \"2\" > 3")] :=
  c68_all_kept_partial plainLib_sound (ordinary_of (by decide +kernel)) (ordinary_of (by decide +kernel)) (ordinary_of (by decide +kernel))

/-- **C68, refuted** for identifiers that are the text of a number: the receiver gets the number instead of the text, whichever number it is. -/
theorem c68_number_violated (hl : lib.Sound) (i : Int) :
    Received lib now "oadrPoll" [("ven_id", .str (String.ofList (intText i)))] [("ven_id", .int i)]
      ∧ ¬ Received lib now "oadrPoll" [("ven_id", .str (String.ofList (intText i)))] [("ven_id", .str (String.ofList (intText i)))] := by
  have hs : OnWire (String.ofList (intText i)) := safe_onWire _ (intText_ne i) (intText_safe i)
  have hi : IntegerLike lib (String.ofList (intText i)) := by
    refine (looksInt_iff hl _).1 ?_
    have := plainText_int hl i
    cases e : looksInt lib (String.ofList (intText i)).toList with
    | true => rfl
    | false =>
      rw [plainText, if_neg (by rw [e]; simp)] at this
      split at this
      · split at this <;> simp at this
      · simp at this
  have h := poll_taken (now := now) hl hs (.integer i hi (hl.ints i))
  exact ⟨h _ (.same _), not_survives h (by simp)⟩

/-- **C68, refuted** for the identifiers `true` and `false`: the receiver gets a boolean. -/
theorem c68_boolean_violated (hl : lib.Sound) :
    Received lib now "oadrPoll" [("ven_id", .str "true")] [("ven_id", .bool true)]
      ∧ Received lib now "oadrPoll" [("ven_id", .str "false")] [("ven_id", .bool false)] :=
  ⟨poll_taken hl (safe_onWire "true".toList (by decide) (by decide)) (.yes rfl) _ (.same _),
    poll_taken hl (safe_onWire "false".toList (by decide) (by decide)) (.no rfl) _ (.same _)⟩

/-- **C68, refuted** for texts of digits and dots that are no number (`float('1.2.3')` raises): the message is sent, but cannot be read. -/
theorem c68_unreadable_violated (hl : lib.Sound) (h : lib.readFloat "1.2.3" = none) (hdot : lib.isDigit '.' = false) :
    Refused lib now "oadrPoll" [("ven_id", .str "1.2.3")] .valueError := by
  refine poll_unreadable hl (safe_onWire "1.2.3".toList (by decide) (by decide)) (Or.inr ⟨?_, ?_, h⟩)
  · refine ⟨[], "1.2.3".toList, rfl, Or.inl rfl, by decide, ?_⟩
    intro c hc
    have : c ∈ ['1', '.', '2', '.', '3'] := hc
    simp only [List.mem_cons, List.not_mem_nil, or_false] at this
    rcases this with rfl | rfl | rfl | rfl | rfl
    · exact Or.inl (hl.digits _ (by decide))
    · exact Or.inr rfl
    · exact Or.inl (hl.digits _ (by decide))
    · exact Or.inr rfl
    · exact Or.inl (hl.digits _ (by decide))
  · rintro ⟨sign, body, e, h1, -, h3⟩
    have hm : '.' ∈ sign ++ body := by rw [← e]; decide
    rcases List.mem_append.1 hm with hm | hm
    · rcases h1 with rfl | rfl <;> simp at hm
    · rw [h3 _ hm] at hdot; simp at hdot

example : Refused plainLib now "oadrPoll" [("ven_id", .str "1.2.3")] .valueError :=
  c68_unreadable_violated plainLib_sound (by decide +kernel) (by decide +kernel)

/-- **C68, refuted** for two VENs: their identifiers `7` and `007` differ, but the receiver gets the same message from both. -/
theorem c68_confused_violated :
    ∃ s s' : String, s ≠ s' ∧ ∃ r, Received plainLib now "oadrPoll" [("ven_id", .str s)] r ∧ Received plainLib now "oadrPoll" [("ven_id", .str s')] r := by
  refine ⟨"7", "007", by decide, [("ven_id", .int 7)], ?_, ?_⟩
  · exact poll_taken plainLib_sound (safe_onWire "7".toList (by decide) (by decide))
      (.integer 7 ((looksInt_iff plainLib_sound _).1 (by decide +kernel)) (by decide +kernel)) _ (.same _)
  · exact poll_taken plainLib_sound (safe_onWire "007".toList (by decide) (by decide))
      (.integer 7 ((looksInt_iff plainLib_sound _).1 (by decide +kernel)) (by decide +kernel)) _ (.same _)

end Openleadr
