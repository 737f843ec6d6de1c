import Verif.Spec.Markup
import Verif.Lemmas.Injection
import Verif.Props.Identifiers
/-!
C69: texts with markup characters.
-/
namespace Openleadr

variable {lib : Lib} {now : Int}

/-- **C69** (partial: texts without `<`, `&`, `]]>`, line ends, and white space at their ends). The document of the message is the one that the text
    stands for, whatever other characters there are, such as `>` and quotes. -/
theorem c69_plain_text_partial {s : String} (h : OnWire s) :
    ∃ txt, createMessage lib now "oadrPoll" [("ven_id", .str s)] = .ok txt ∧ parseXml txt = .ok (pollDocument s) := by
  have hleaf : sure lib [("ven_id", .str s)] (leaf "ei:venID" ["ven_id"] .plain []) = .ok [.entry "venID" (.str s)] :=
    sure_text (by lk) h (by decide +kernel) (by decide +kernel)
  have hn : localName ("oadr:" ++ "oadrPoll") = "oadrPoll" := by decide +kernel
  have ha1 : attrItem (innerAttrs []) = [("@schemaVersion", .str "2.0b")] := by decide +kernel
  have ha2 : attrItem (outerAttrs []) = [("@Id", .str "oadrSignedObject")] := by decide +kernel
  have hv : elementValue (innerAttrs []) [.entry "venID" (.str s)] = .dict [("@schemaVersion", .str "2.0b"), ("venID", .str s)] := by
    simp [elementValue, ha1, childDict, pushData, Dict.get?, Dict.set, charsOf, closeValue, strip]
  have hinner : sure lib [("ven_id", .str s)] (el ("oadr:" ++ "oadrPoll") [leaf "ei:venID" ["ven_id"]] (innerAttrs [])) =
      .ok [.entry "oadrPoll" (.dict [("@schemaVersion", .str "2.0b"), ("venID", .str s)])] := by
    rw [el]
    simp only [sure, sureKey, sureAll, hleaf, List.append_nil, hn, hv]
  have hsure : sure lib [("ven_id", .str s)] tPoll =
      .ok [.entry "oadrSignedObject" (.dict (attrItem (outerAttrs []) ++ [("oadrPoll", .dict [("@schemaVersion", .str "2.0b"), ("venID", .str s)])]))] := by
    rw [← elementValue_signed _ _ _ (by decide +kernel)]
    simp only [tPoll, signed]
    rw [show (el ("oadr:" ++ "oadrPoll") [leaf "ei:venID" ["ven_id"]] ([("ei:schemaVersion", "2.0b"), ("xmlns:ei", nsEi)] ++ [])) =
      el ("oadr:" ++ "oadrPoll") [leaf "ei:venID" ["ven_id"]] (innerAttrs []) from rfl]
    rw [el]
    simp only [sure, sureAll, hinner, sureKey, List.append_nil]
    rfl
  have hden := sure_denote lib _ _ (.same _) tPoll _ hsure
  have ht : Dict.get? templates "oadrPoll" = some tPoll := by rfl
  obtain ⟨txt, hr, hx⟩ := parse_wire lib [("ven_id", .str s)] _ _ _ _ _ (template_ok _ _ ht) hden
  have hr' : render lib [("ven_id", .str s)] tPoll = .ok txt := hr
  have hp : preflightMessage now "oadrPoll" [("ven_id", .str s)] = .ok (.dict [("ven_id", .str s)]) := by simp [preflightMessage]
  refine ⟨envelope (flattenXml txt), ?_, ?_⟩
  · simp only [createMessage, hp, renderMessage, ht, hr', Except.map]
  · rw [hx, ha2]; rfl

/-- **C69, refuted** for every text with `<` or `&` (on one line): what is read from the message is never the document that the text stands for. -/
theorem c69_markup_violated {s : String} (hs : OneLine s) (hm : HasMarkup s) (txt : Text)
    (h : createMessage lib now "oadrPoll" [("ven_id", .str s)] = .ok txt) : parseXml txt ≠ .ok (pollDocument s) := by
  intro hx
  rw [create_poll lib now s hs.1] at h
  cases h
  have hk : marked s.toList = true := by
    simp only [marked, List.any_eq_true, Bool.or_eq_true, decide_eq_true_eq]
    rcases hm with h | h
    · exact ⟨_, h, Or.inl rfl⟩
    · exact ⟨_, h, Or.inr rfl⟩
  have := mass_poll s.toList hk _ hs.1 hs.2 hx
  have e1 : atVen.mass = 21 := by decide +kernel
  have e2 : mass (pollDocument s).2 = 20 + s.toList.length := by
    simp only [pollDocument, mass, massDict]
    have a : "oadrSignedObject".toList.length = 16 := by decide
    have b : "2.0b".toList.length = 4 := by decide
    omega
  omega

/-- **C69** (partial: texts on one line that XML can carry if it is escaped). The message stands for the text just if the text has no markup. -/
theorem c69_exactly_partial {s : String} (hs : OneLine s) (hne : s ≠ "") (h1 : ∀ c, s.toList.head? = some c → isPySpace c = false)
    (h2 : ∀ c, s.toList.getLast? = some c → isPySpace c = false) (hc : ∀ c ∈ s.toList, XmlAllowed c)
    (h3 : ∀ c, s.toList.head? = some c → c ≠ ']' ∧ c ≠ '>') (h4 : ∀ a b, s.toList ≠ a ++ [']', ']', '>'] ++ b) :
    (∃ txt, createMessage lib now "oadrPoll" [("ven_id", .str s)] = .ok txt ∧ parseXml txt = .ok (pollDocument s)) ↔ ¬ HasMarkup s := by
  constructor
  · rintro ⟨txt, ht, hx⟩ hm
    exact c69_markup_violated hs hm txt ht hx
  · intro hm
    simp only [HasMarkup, not_or] at hm
    refine c69_plain_text_partial ⟨hne, h1, h2, ?_, h3, h4⟩
    intro c hcm
    exact ⟨hc c hcm, fun e => hs.1 (e ▸ hcm), fun e => hs.2 (e ▸ hcm), fun e => hm.1 (e ▸ hcm), fun e => hm.2 (e ▸ hcm)⟩

/-- **C69, refuted** for texts with whole elements in them: a poll whose `ven_id` closes its element and brings an element of its own is received
    with the new entry `registration_id`, whatever texts `x`, `y` and `z` are. -/
theorem c69_injection_violated (hl : lib.Sound) {x y z : String} {v : Value} (hx : OnWire x) (hy : OnWire y) (hz : OnWire z) (hv : TakenFor lib y v) :
    Received lib now "oadrPoll" [("ven_id", .str (x ++ "</ei:venID><ei:registrationID>" ++ y ++ "</ei:registrationID><ei:venID>" ++ z))]
      [("ven_id", .list [.str x, .str z]), ("registration_id", v)] := by
  obtain ⟨h1, h2⟩ := parse_injected lib now hx hy hz
  refine ⟨_, h1, ?_⟩
  obtain ⟨m, hm⟩ : ∃ m, (pollText (injected x y z).toList).length = m + 2 := by
    refine ⟨_, (Nat.sub_add_cancel ?_).symm⟩
    have : 2 ≤ envelopeHead.length := by decide +kernel
    simp only [pollText, List.length_append]
    omega
  simp only [parseMessage, h2, hm, messageOf, entryAt, Dict.get?, if_true, lastEntry]
  have hn : normalize lib (m + 2) [("@schemaVersion", .str "2.0b"), ("venID", .list [.str x, .str z]), ("registrationID", .str y)] =
      .ok [("ven_id", .list [.str x, .str z]), ("registration_id", v)] := by
    have f1 : normalizeKey "venID" = "ven_id" := by decide +kernel
    have f2 : normalizeKey "registrationID" = "registration_id" := by decide +kernel
    have a1 : Appends lib (normalize lib (m + 1)) ("venID", .list [.str x, .str z]) [("ven_id", .list [.str x, .str z])] := by
      refine appends_inPlace lib _ "venID" "ven_id" _ (.list [.str x, .str z]) _ f1 (by decide +kernel) ?_ ?_
      · have := twice_leaves (f := normalize lib (m + 1)) [.str x, .str z] (by simp)
        simp [entryValue, this, Except.map]
      · intro acc hg
        rw [Dict.set_get?_self _ _ _ hg]
        exact settle_leaf lib acc "ven_id" _ (by decide +kernel) hg (by simp) (fun e => absurd e (by decide))
    have a2 : Appends lib (normalize lib (m + 1)) ("registrationID", .str y) [("registration_id", v)] := by
      refine appends_leaf lib _ "registrationID" "registration_id" _ _ f2 (by decide +kernel) (by decide +kernel)
        (leafValue_takenFor hl (by decide +kernel) hv) (by simp) (by simp) ?_ ?_
      · cases hv <;> simp
      · cases hv <;> simp
    have ha : isAttribute "@schemaVersion" = true := by decide +kernel
    show normalizeEntries lib (normalize lib (m + 1)) [] _ = _
    rw [normalizeEntries_cons]
    simp only [stepEntry, ha, if_true]
    rw [normalizeEntries_cons, a1 [] (by intro k _; simp [Dict.keys])]
    simp only [List.nil_append]
    rw [normalizeEntries_cons, a2 _ (by
      intro k hk
      simp only [f2, Dict.keys, List.map_cons, List.map_nil, List.mem_cons, List.not_mem_nil, or_false, or_self] at hk ⊢
      subst hk; decide)]
    simp [normalizeEntries]
  simp [hn, Except.map]

example : Received plainLib now "oadrPoll" [("ven_id", .str "ven1</ei:venID><ei:registrationID>reg2</ei:registrationID><ei:venID>ven3")]
    [("ven_id", .list [.str "ven1", .str "ven3"]), ("registration_id", .str "reg2")] :=
  c69_injection_violated plainLib_sound (x := "ven1") (y := "reg2") (z := "ven3") (onWire_of (by decide +kernel)) (onWire_of (by decide +kernel))
    (onWire_of (by decide +kernel)) (.text (by decide) (by decide) (ordinary_of (s := "reg2") (by decide +kernel)).notNumber)

/-- **C69, refuted** for single markup characters: a message with `<`, with `&` or with `]]>` in a text is sent, but cannot be read. -/
theorem c69_unreadable_violated :
    Refused lib now "oadrPoll" [("ven_id", .str "a < b")] .xmlError ∧ Refused lib now "oadrPoll" [("ven_id", .str "a & b")] .xmlError
      ∧ Refused lib now "oadrPoll" [("ven_id", .str "a]]>b")] .xmlError := by
  refine ⟨⟨_, create_poll lib now _ (by decide +kernel), ?_⟩, ⟨_, create_poll lib now _ (by decide +kernel), ?_⟩,
    ⟨_, create_poll lib now _ (by decide +kernel), ?_⟩⟩
  · have : parseXml (pollText "a < b".toList) = .error .xmlError := by decide +kernel
    simp only [parseMessage, this]
  · have : parseXml (pollText "a & b".toList) = .error .xmlError := by decide +kernel
    simp only [parseMessage, this]
  · have : parseXml (pollText "a]]>b".toList) = .error .xmlError := by decide +kernel
    simp only [parseMessage, this]

/-- **C69, refuted** for texts with references such as `&lt;`: another text is received. -/
theorem c69_reference_violated :
    ∃ txt, createMessage lib now "oadrPoll" [("ven_id", .str "a&lt;b")] = .ok txt ∧ parseXml txt = .ok (pollDocument "a<b") := by
  refine ⟨_, create_poll lib now _ (by decide +kernel), by decide +kernel⟩

end Openleadr
