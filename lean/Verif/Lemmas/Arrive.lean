import Verif.Lemmas.Convey
/-!
From the parts of a template to the message that is received.
-/
namespace Openleadr

/-- The attributes of the element that names the message. -/
def innerAttrs (attrs : List (String × String)) : List (String × String) := [("ei:schemaVersion", "2.0b"), ("xmlns:ei", nsEi)] ++ attrs

/-- The attributes of the signed object. -/
def outerAttrs (outer : List (String × String)) : List (String × String) :=
  [("xmlns:oadr", nsOadr)] ++ outer ++ [("oadr:Id", "oadrSignedObject")]

/-- The dict in the signed object. -/
theorem elementValue_signed (attrs : List (String × String)) (key : String) (raw : Dict) (hk : key ∉ Dict.keys (attrItem attrs)) :
    elementValue attrs [.entry key (.dict raw)] = .dict (attrItem attrs ++ [(key, .dict raw)]) := by
  have hs : strip [] = [] := rfl
  simp only [elementValue, charsOf, List.flatMap_cons, List.flatMap_nil, List.append_nil, closeValue, hs, childDict, List.foldl_cons, List.foldl_nil]
  by_cases e : attrItem attrs = []
  · simp [pushData, e]
  · simp [e, pushData_new _ _ _ hk]

theorem envelope_long (t : Text) : 21 ≤ (envelope t).length := by
  have : 21 ≤ envelopeHead.length := by decide +kernel
  simp only [envelope, List.length_append]
  omega

/-- What has to be checked of a template. -/
def signedFacts (type : String) (outer : List (String × String)) : Bool :=
  decide (localName ("oadr:" ++ type) = type) && !((Dict.keys (attrItem (outerAttrs outer))).contains type)

theorem received_of {lib : Lib} {now : Int} {type : String} {p q r : Dict} {body : List Tmpl} {attrs outer : List (String × String)}
    (sent : Dict) (hpre : preflightMessage now type p = .ok (.dict sent)) (hc : Conforms (.dict sent) (.dict q))
    (ht : Dict.get? templates type = some (signed type body attrs outer))
    (hw : wellFormed insideEnvelope.scope (signed type body attrs outer) = true)
    (h : ∀ n, Inside lib (n + 21) q (el ("oadr:" ++ type) body (innerAttrs attrs)) type r)
    (hf : signedFacts type outer = true) : Received lib now type p r := by
  simp only [signedFacts, Bool.and_eq_true, decide_eq_true_eq, Bool.not_eq_true', List.contains_eq_mem, decide_eq_false_iff_not] at hf
  obtain ⟨raw, h1, -⟩ := h 0
  have hsure : sure lib q (signed type body attrs outer) =
      .ok [.entry "oadrSignedObject" (.dict (attrItem (outerAttrs outer) ++ [(type, .dict raw)]))] := by
    rw [← elementValue_signed _ _ _ hf.2]
    simp only [signed]
    rw [show (el ("oadr:" ++ type) body ([("ei:schemaVersion", "2.0b"), ("xmlns:ei", nsEi)] ++ attrs)) =
      el ("oadr:" ++ type) body (innerAttrs attrs) from rfl]
    rw [el]
    simp only [sure, sureAll, h1, sureKey, List.append_nil]
    rfl
  have hden := sure_denote lib sent q hc (signed type body attrs outer) _ hsure
  obtain ⟨txt, hr, hx⟩ := parse_wire lib sent _ _ _ _ _ hw hden
  have hr' : render lib sent (signed type body attrs outer) = .ok txt := hr
  refine ⟨envelope (flattenXml txt), ?_, ?_⟩
  · simp only [createMessage, hpre, renderMessage, ht, hr', Except.map]
  · obtain ⟨m, hm⟩ : ∃ m, (envelope (flattenXml txt)).length = m + 21 := ⟨_, (Nat.sub_add_cancel (envelope_long _)).symm⟩
    obtain ⟨raw', h1', h2'⟩ := h m
    rw [h1] at h1'
    simp only [Except.ok.injEq, List.cons.injEq, Piece.entry.injEq, Value.dict.injEq, true_and, and_true] at h1'
    subst h1'
    simp only [parseMessage, hx, hm, messageOf, entryAt, Dict.get?, if_true, lastEntry, List.getLast?_append, List.getLast?_singleton,
      Option.some_or, h2', Except.map]

theorem templates_ok : templates.all (fun e => wellFormed insideEnvelope.scope e.2) = true := by decide +kernel

theorem template_ok (type : String) (t : Tmpl) (ht : Dict.get? templates type = some t) : wellFormed insideEnvelope.scope t = true := by
  have hall := templates_ok
  rw [List.all_eq_true] at hall
  exact hall _ (Dict.mem_of_get? _ _ _ ht)

/-- Messages that are sent as they are given, by the contents of their element. -/
theorem arrives_inside {lib : Lib} {now : Int} {type : String} {q r : Dict} {body : List Tmpl} {attrs outer : List (String × String)}
    (ht : Dict.get? templates type = some (signed type body attrs outer))
    (h : ∀ n, Inside lib (n + 21) q (el ("oadr:" ++ type) body (innerAttrs attrs)) type r)
    (hp : (decide (type ≠ "oadrDistributeEvent") && decide (type ≠ "oadrRegisterReport")) = true := by decide +kernel)
    (hf : signedFacts type outer = true := by decide +kernel) : Arrives lib now type q r := by
  intro p hc
  simp only [Bool.and_eq_true, decide_eq_true_eq] at hp
  exact received_of p (by simp [preflightMessage, hp.1, hp.2]) hc ht (template_ok _ _ ht) h hf

/-- Messages that are sent as they are given. -/
theorem arrives_of {lib : Lib} {now : Int} {type : String} {q r : Dict} {body : List Tmpl} {attrs outer : List (String × String)}
    {names : List (String × List String)} {outs : List Dict}
    (ht : Dict.get? templates type = some (signed type body attrs outer))
    (h : ∀ n, CarriesAll lib (n + 20) q body names outs) (hd : outs.flatten = r) (hne : r ≠ [])
    (hp : (decide (type ≠ "oadrDistributeEvent") && decide (type ≠ "oadrRegisterReport")) = true := by decide +kernel)
    (hf : signedFacts type outer = true := by decide +kernel) (he : elemFacts (innerAttrs attrs) names = true := by decide +kernel) :
    Arrives lib now type q r := by
  have hkey : localName ("oadr:" ++ type) = type := by
    simp only [signedFacts, Bool.and_eq_true, decide_eq_true_eq] at hf; exact hf.1
  exact arrives_inside ht (fun n => inside_elem (h n) hd hne hkey he) hp hf

/-- What is received is determined by what is sent. -/
theorem received_unique {lib : Lib} {now : Int} {type : String} {p r r' : Dict} (h : Received lib now type p r) (h' : Received lib now type p r') :
    r = r' := by
  obtain ⟨t, h1, h2⟩ := h
  obtain ⟨t', h1', h2'⟩ := h'
  rw [h1] at h1'
  cases h1'
  rw [h2] at h2'
  cases h2'; rfl

/-- What arrives otherwise does not survive. -/
theorem not_survives {lib : Lib} {now : Int} {type : String} {q r : Dict} (h : Arrives lib now type q r) (hne : r ≠ q) :
    ¬ Received lib now type q q := fun h' => hne (received_unique (h q (.same _)) h')

end Openleadr
