import Verif.Lemmas.Mass
import Verif.Lemmas.PlainTexts
/-!
A poll whose `ven_id` is any text.
-/
namespace Openleadr

/-- The text of a poll before its `ven_id`. -/
def pollHead : Text :=
  ("<oadr:oadrSignedObject xmlns:oadr=\"http://openadr.org/oadr-2.0b/2012/07\" oadr:Id=\"oadrSignedObject\">" ++
    "<oadr:oadrPoll ei:schemaVersion=\"2.0b\" xmlns:ei=\"http://docs.oasis-open.org/ns/energyinterop/201110\"><ei:venID>").toList

/-- The text of a poll after its `ven_id`. -/
def pollTail : Text := "</ei:venID></oadr:oadrPoll></oadr:oadrSignedObject>".toList

theorem pollHead_eq : pollHead = '<' :: ("oadr:oadrSignedObject".toList ++ (attrText [("xmlns:oadr", nsOadr), ("oadr:Id", "oadrSignedObject")] ++
    '>' :: '<' :: (("oadr:" ++ "oadrPoll").toList ++ (attrText [("ei:schemaVersion", "2.0b"), ("xmlns:ei", nsEi)] ++
    '>' :: '<' :: ("ei:venID".toList ++ (attrText [] ++ ['>'])))))) := by decide +kernel

theorem pollTail_eq : pollTail = '<' :: '/' :: ("ei:venID".toList ++ '>' :: '<' :: '/' :: (("oadr:" ++ "oadrPoll").toList ++
    '>' :: '<' :: '/' :: ("oadr:oadrSignedObject".toList ++ ['>']))) := by decide +kernel

theorem render_poll (lib : Lib) (s : String) : render lib [("ven_id", .str s)] tPoll = .ok (pollHead ++ (s.toList ++ pollTail)) := by
  have hl : lookup [("ven_id", .str s)] ["ven_id"] = .ok (some (.str s)) := by simp [lookup, walk, Dict.get?]
  simp only [tPoll, signed, el, leaf, render, renderAll, hl, applyFilter, pyText, tagText, pollHead_eq, pollTail_eq]
  simp only [List.append_nil, List.cons_append, List.nil_append, List.append_assoc]

/-- The text of a poll after its `ven_id`, with the end of the envelope. -/
def pollEnd : Text := pollTail ++ ('\n' :: ('<' :: '/' :: "oadr:oadrPayload".toList ++ ['>']))

/-- The text of the message, if the `ven_id` stands on one line. -/
def pollText (t : Text) : Text := envelopeHead ++ (pollHead ++ (t ++ pollEnd))

theorem create_poll (lib : Lib) (now : Int) (s : String) (h : '\n' ∉ s.toList) :
    createMessage lib now "oadrPoll" [("ven_id", .str s)] = .ok (pollText s.toList) := by
  have ht : Dict.get? templates "oadrPoll" = some tPoll := by rfl
  obtain ⟨a, ha⟩ : ∃ a, pollHead = '<' :: a := ⟨_, pollHead_eq⟩
  obtain ⟨b, hb⟩ : ∃ b, pollTail = b ++ ['>'] := ⟨pollTail.dropLast, by decide +kernel⟩
  have h1 : '\n' ∉ pollHead := by decide +kernel
  have h2 : '\n' ∉ pollTail := by decide +kernel
  have hf : flattenXml (pollHead ++ (s.toList ++ pollTail)) = pollHead ++ (s.toList ++ pollTail) := by
    have e : pollHead ++ (s.toList ++ pollTail) = '<' :: (a ++ (s.toList ++ b)) ++ ['>'] := by rw [ha, hb]; simp
    rw [e]
    apply flattenXml_tagged
    rw [← e]
    simp only [List.mem_append, not_or]
    exact ⟨h1, h, h2⟩
  have hp : preflightMessage now "oadrPoll" [("ven_id", .str s)] = .ok (.dict [("ven_id", .str s)]) := by simp [preflightMessage]
  simp only [createMessage, hp, renderMessage, ht, render_poll, Except.map, hf, envelope, pollText, pollEnd, List.append_assoc]

/-- The reader before the `ven_id`. -/
def atVen : Reader :=
  match readText Reader.start (envelopeHead ++ pollHead) with
  | .ok r => r
  | .error _ => Reader.start

theorem read_atVen : readText Reader.start (envelopeHead ++ pollHead) = .ok atVen := by decide +kernel

/-- Reading over markup fails in the middle of markup. -/
theorem text_before_tag {r r' : Reader} {t : Text} (h : readText r ('<' :: t) = .ok r') : r.mode = .text := by
  simp only [readText] at h
  cases h1 : readChar r '<' with
  | error e => rw [h1] at h; simp at h
  | ok r1 =>
    unfold readChar at h1
    split at h1
    · simp at h1
    · cases hm : r.mode with
      | text => rfl
      | entity acc => rw [hm] at h1; simp at h1
      | tag acc q => cases q <;> rw [hm] at h1 <;> simp at h1

/-- A closing tag adds nothing. -/
theorem mass_closing {r r' : Reader} {name rest : Text} (h : readText r ('<' :: '/' :: (name ++ '>' :: rest)) = .ok r')
    (hs : scanTag none ('/' :: name) = some none := by decide +kernel) :
    ∃ r1, readText r1 rest = .ok r' ∧ r1.mode = .text ∧ r1.mass ≤ r.mass := by
  have hm := text_before_tag h
  have e1 : readText r ['<'] = .ok { r with mode := .tag [] none } := by simp [readText, readChar, hm, isXmlChar]
  have e2 : readText { r with mode := .tag [] none } ('/' :: name) = .ok { r with mode := .tag ('/' :: name) none } := by
    have := read_scan { r with mode := .tag [] none } [] ('/' :: name) none none hs rfl
    simpa using this
  rw [show '<' :: '/' :: (name ++ '>' :: rest) = ['<'] ++ (('/' :: name) ++ '>' :: rest) by simp, readText_append, e1] at h
  simp only at h
  rw [readText_append, e2] at h
  simp only [readText, readChar, isXmlChar] at h
  simp only [endTag] at h
  cases hc : closeElement { r with mode := .tag ('/' :: name) none } (String.ofList (name.reverse.dropWhile isXmlSpace).reverse) with
  | error e => rw [hc] at h; simp at h
  | ok r1 =>
    rw [hc] at h
    have := mass_closeElement hc
    exact ⟨r1, by simpa using h, this.1, this.2⟩

/-- The document of a poll. -/
theorem mass_poll (t : Text) (hm : marked t = true) (doc : String × Value) (h1 : '\n' ∉ t) (h2 : '\r' ∉ t) (h : parseXml (pollText t) = .ok doc) :
    mass doc.2 + 2 ≤ atVen.mass + t.length := by
  unfold parseXml at h
  split at h
  · simp at h
  · have hends : normalizeEnds (pollText t) = pollText t := by
      apply normalizeEnds_id
      simp only [pollText, List.mem_append, not_or]
      exact ⟨by decide +kernel, by decide +kernel, h2, by decide +kernel⟩
    have e : pollText t = (envelopeHead ++ pollHead) ++ (t ++ pollEnd) := by rw [pollText, List.append_assoc]
    rw [hends, e, readText_append Reader.start (envelopeHead ++ pollHead) (t ++ pollEnd), read_atVen] at h
    simp only at h
    rw [readText_append] at h
    cases hr : readText atVen t with
    | error e => rw [hr] at h; simp at h
    | ok r1 =>
      rw [hr] at h
      simp only at h
      cases hr2 : readText r1 pollEnd with
      | error e => rw [hr2] at h; simp at h
      | ok r2 =>
        rw [hr2] at h
        simp only at h
        have htail : pollEnd =
            '<' :: '/' :: ("ei:venID".toList ++ '>' :: ('<' :: '/' :: ("oadr:oadrPoll".toList ++ '>' ::
              ('<' :: '/' :: ("oadr:oadrSignedObject".toList ++ '>' :: ('\n' :: ('<' :: '/' :: ("oadr:oadrPayload".toList ++ ['>'])))))))) := by
          decide +kernel
        rw [htail] at hr2
        have ht := text_before_tag hr2
        have hmass := mass_readText_text hr ht (by decide +kernel) hm
        obtain ⟨a, ha, -, ma⟩ := mass_closing hr2
        obtain ⟨b, hb, -, mb⟩ := mass_closing ha
        obtain ⟨c, hc, mc1, mc⟩ := mass_closing hb
        simp only [readText] at hc
        cases hn : readChar c '\n' with
        | error e => rw [hn] at hc; simp at hc
        | ok d =>
          rw [hn] at hc
          have hd : d.mass ≤ c.mass + 1 := by
            unfold readChar at hn
            rw [mc1] at hn
            simp only [isXmlChar] at hn
            exact (mass_pushChar (by simpa using hn)).2
          obtain ⟨e, he, -, me⟩ := mass_closing hc
          simp only [readText, Except.ok.injEq] at he
          subst he
          have hdone : mass doc.2 ≤ e.mass := by
            split at h
            · rename_i d hd1 hd2 hd3
              simp only [Except.ok.injEq] at h
              subst h
              simp only [Reader.mass, hd3]
              omega
            · simp at h
          omega

/-! ### Elements in a text -/

/-- A text with elements in it. -/
def injected (x y z : String) : String :=
  x ++ "</ei:venID><ei:registrationID>" ++ y ++ "</ei:registrationID><ei:venID>" ++ z

/-- The template that would write the same. -/
def tInjected : Tmpl := signed "oadrPoll" [leaf "ei:venID" ["a"], leaf "ei:registrationID" ["b"], leaf "ei:venID" ["c"]]

theorem render_injected (lib : Lib) (x y z : String) :
    render lib [("a", .str x), ("b", .str y), ("c", .str z)] tInjected = .ok (pollHead ++ ((injected x y z).toList ++ pollTail)) := by
  have h1 : lookup [("a", .str x), ("b", .str y), ("c", .str z)] ["a"] = .ok (some (.str x)) := by simp [lookup, walk, Dict.get?]
  have h2 : lookup [("a", .str x), ("b", .str y), ("c", .str z)] ["b"] = .ok (some (.str y)) := by simp [lookup, walk, Dict.get?]
  have h3 : lookup [("a", .str x), ("b", .str y), ("c", .str z)] ["c"] = .ok (some (.str z)) := by simp [lookup, walk, Dict.get?]
  have e1 : "</ei:venID><ei:registrationID>".toList =
      '<' :: '/' :: ("ei:venID".toList ++ '>' :: '<' :: ("ei:registrationID".toList ++ (attrText [] ++ ['>']))) := by decide +kernel
  have e2 : "</ei:registrationID><ei:venID>".toList =
      '<' :: '/' :: ("ei:registrationID".toList ++ '>' :: '<' :: ("ei:venID".toList ++ (attrText [] ++ ['>']))) := by decide +kernel
  have e3 : (injected x y z).toList = x.toList ++ ("</ei:venID><ei:registrationID>".toList ++ (y.toList ++
      ("</ei:registrationID><ei:venID>".toList ++ z.toList))) := by
    simp only [injected, String.toList_append, List.append_assoc]
  rw [e3, e1, e2]
  simp only [tInjected, signed, el, leaf, render, renderAll, h1, h2, h3, applyFilter, pyText, tagText, pollHead_eq, pollTail_eq]
  simp only [List.append_nil, List.cons_append, List.nil_append, List.append_assoc]

/-- What is read from a poll whose `ven_id` has elements in it. -/
theorem parse_injected (lib : Lib) (now : Int) {x y z : String} (hx : OnWire x) (hy : OnWire y) (hz : OnWire z) :
    createMessage lib now "oadrPoll" [("ven_id", .str (injected x y z))] = .ok (pollText (injected x y z).toList) ∧
    parseXml (pollText (injected x y z).toList) = .ok ("oadrPayload", .dict [("oadrSignedObject", .dict [("@Id", .str "oadrSignedObject"),
      ("oadrPoll", .dict [("@schemaVersion", .str "2.0b"), ("venID", .list [.str x, .str z]), ("registrationID", .str y)])])]) := by
  have nl : ∀ {s : String}, OnWire s → '\n' ∉ s.toList := fun h hm => (h.chars _ hm).2.1 rfl
  have hnl : '\n' ∉ (injected x y z).toList := by
    simp only [injected, String.toList_append, List.mem_append, not_or]
    exact ⟨⟨⟨⟨nl hx, by decide +kernel⟩, nl hy⟩, by decide +kernel⟩, nl hz⟩
  refine ⟨create_poll lib now _ hnl, ?_⟩
  let env : Dict := [("a", .str x), ("b", .str y), ("c", .str z)]
  have s1 : sure lib env (leaf "ei:venID" ["a"] .plain []) = .ok [.entry "venID" (.str x)] :=
    sure_text (by simp [env, lookup, walk, Dict.get?]) hx (by decide +kernel) (by decide +kernel)
  have s2 : sure lib env (leaf "ei:registrationID" ["b"] .plain []) = .ok [.entry "registrationID" (.str y)] :=
    sure_text (by simp [env, lookup, walk, Dict.get?]) hy (by decide +kernel) (by decide +kernel)
  have s3 : sure lib env (leaf "ei:venID" ["c"] .plain []) = .ok [.entry "venID" (.str z)] :=
    sure_text (by simp [env, lookup, walk, Dict.get?]) hz (by decide +kernel) (by decide +kernel)
  have hn : localName ("oadr:" ++ "oadrPoll") = "oadrPoll" := by decide +kernel
  have ha1 : attrItem (innerAttrs []) = [("@schemaVersion", .str "2.0b")] := by decide +kernel
  have ha2 : attrItem (outerAttrs []) = [("@Id", .str "oadrSignedObject")] := by decide +kernel
  have hv : elementValue (innerAttrs []) [.entry "venID" (.str x), .entry "registrationID" (.str y), .entry "venID" (.str z)] =
      .dict [("@schemaVersion", .str "2.0b"), ("venID", .list [.str x, .str z]), ("registrationID", .str y)] := by
    simp [elementValue, ha1, childDict, pushData, Dict.get?, Dict.set, charsOf, closeValue, strip]
  have hinner : sure lib env (el ("oadr:" ++ "oadrPoll") [leaf "ei:venID" ["a"], leaf "ei:registrationID" ["b"], leaf "ei:venID" ["c"]] (innerAttrs []))
      = .ok [.entry "oadrPoll" (.dict [("@schemaVersion", .str "2.0b"), ("venID", .list [.str x, .str z]), ("registrationID", .str y)])] := by
    rw [el]
    simp only [sure, sureKey, sureAll, s1, s2, s3, List.append_nil, List.cons_append, List.nil_append, hn, hv]
  have hsure : sure lib env tInjected =
      .ok [.entry "oadrSignedObject" (.dict (attrItem (outerAttrs []) ++
        [("oadrPoll", .dict [("@schemaVersion", .str "2.0b"), ("venID", .list [.str x, .str z]), ("registrationID", .str y)])]))] := by
    rw [← elementValue_signed _ _ _ (by decide +kernel)]
    simp only [tInjected, signed]
    rw [show (el ("oadr:" ++ "oadrPoll") [leaf "ei:venID" ["a"], leaf "ei:registrationID" ["b"], leaf "ei:venID" ["c"]]
        ([("ei:schemaVersion", "2.0b"), ("xmlns:ei", nsEi)] ++ [])) =
      el ("oadr:" ++ "oadrPoll") [leaf "ei:venID" ["a"], leaf "ei:registrationID" ["b"], leaf "ei:venID" ["c"]] (innerAttrs []) from rfl]
    rw [el]
    simp only [sure, sureAll, hinner, sureKey, List.append_nil]
    rfl
  have hden := sure_denote lib _ _ (.same _) tInjected _ hsure
  obtain ⟨txt, hr, hp⟩ := parse_wire lib env _ _ _ _ _ (show wellFormed insideEnvelope.scope tInjected = true by decide +kernel) hden
  have hr' : render lib env tInjected = .ok txt := hr
  have htxt := Except.ok.inj ((render_injected lib x y z).symm.trans hr')
  rw [← htxt] at hp
  have hpoll := create_poll lib now _ hnl
  have ht : Dict.get? templates "oadrPoll" = some tPoll := by rfl
  have hpre : preflightMessage now "oadrPoll" [("ven_id", .str (injected x y z))] = .ok (.dict [("ven_id", .str (injected x y z))]) := by
    simp [preflightMessage]
  simp only [createMessage, hpre, renderMessage, ht, render_poll, Except.map, Except.ok.injEq] at hpoll
  rw [← hpoll, hp, ha2]
  rfl

end Openleadr
