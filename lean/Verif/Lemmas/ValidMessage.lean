import Verif.Lemmas.SchemaValues
import Verif.Lemmas.Arrive
import Verif.Spec.Allowed
/-!
From the parts of a template to a valid document.
-/
namespace Openleadr

variable {lib : Lib} {now : Int}

/-- The attributes of the payload. -/
def rootAttrs : List (String × String) := [("xmlns:oadr", "http://openadr.org/oadr-2.0b/2012/07")]

/-- The prefixes inside the signed object. -/
def outerNames (outer : List (String × String)) : Xsd.Names := Xsd.inside (Xsd.inside [] rootAttrs) (outerAttrs outer)

/-- The prefixes inside the message. -/
def messageNames (attrs outer : List (String × String)) : Xsd.Names := Xsd.inside (outerNames outer) (innerAttrs attrs)

/-- What has to be checked of the elements around a message. -/
def shellFacts (type : String) (attrs outer : List (String × String)) : Bool :=
  decide ((Xsd.namespaceOf (messageNames attrs outer) (Xsd.nameParts ("oadr:" ++ type)).1).map (fun ns => (ns, (Xsd.nameParts ("oadr:" ++ type)).2)) =
    some (Xsd.oadr type)) &&
  (innerAttrs attrs).all (fun a => (Xsd.declared a.1).isSome ||
    (decide (Xsd.attributeName (messageNames attrs outer) a.1 = some (Xsd.ei "schemaVersion")) && decide (a.2 = "2.0b"))) &&
  Xsd.isTag ("oadr:" ++ type) (innerAttrs attrs) &&
  decide ((Xsd.namespaceOf (outerNames outer) (Xsd.nameParts "oadr:oadrSignedObject").1).map
    (fun ns => (ns, (Xsd.nameParts "oadr:oadrSignedObject").2)) = some (Xsd.oadr "oadrSignedObject")) &&
  (outerAttrs outer).all (fun a => (Xsd.declared a.1).isSome ||
    (decide (Xsd.attributeName (outerNames outer) a.1 = some (Xsd.oadr "Id")) && decide (a.2 = "oadrSignedObject"))) &&
  Xsd.isTag "oadr:oadrSignedObject" (outerAttrs outer)

/-- The document around a signed object. -/
def rootTree (k : Xsd.Tree) : Xsd.Tree := .elem "oadr:oadrPayload" rootAttrs [.chars ['\n'], k, .chars ['\n']]

theorem rootTree_text (k : Xsd.Tree) :
    "<?xml version=\"1.0\" encoding=\"utf-8\"?>\n".toList ++ (rootTree k).text = envelope k.text := by
  have hh : envelopeHead = "<?xml version=\"1.0\" encoding=\"utf-8\"?>\n".toList ++ ('<' :: "oadr:oadrPayload".toList ++ Xsd.attrsText rootAttrs ++ ['>', '\n']) := by
    decide +kernel
  simp only [rootTree, Xsd.Tree.text, Xsd.textAll, envelope, hh, List.append_assoc, List.cons_append, List.nil_append, List.append_nil]

theorem rootTree_plain {k : Xsd.Tree} (h : k.Plain) : (rootTree k).Plain := by
  have hn : Xsd.Literal ['\n'] := by
    refine ⟨by simp, ?_⟩
    intro a b e
    have := congrArg List.length e
    simp at this
    omega
  refine .elem _ _ _ (by decide +kernel) ?_
  intro x hx
  simp only [List.mem_cons, List.not_mem_nil, or_false] at hx
  rcases hx with rfl | rfl | rfl
  · exact .chars _ hn
  · exact h
  · exact .chars _ hn

/-- A template that gives one element. -/
theorem document_of {type : String} {p q sent : Dict} {t : Tmpl} {k : Xsd.Tree} (hpre : preflightMessage now type p = .ok (.dict sent))
    (hc : Conforms (.dict sent) (.dict q)) (ht : Dict.get? templates type = some t) (hg : grow lib q t = .ok [k]) (hk : Sound1 k)
    (he : k.element.isSome = true) : ∃ txt, createMessage lib now type p = .ok txt ∧ Xsd.Document txt (rootTree k) := by
  have hr := grow_render lib sent q hc t [k] hg
  have htext : Xsd.textAll [k] = k.text := by simp [Xsd.textAll]
  rw [htext] at hr
  have hflat : flattenXml k.text = k.text := by
    have : ∃ m, k.text = '<' :: m ++ ['>'] := by
      cases k with
      | chars => simp [Xsd.Tree.element] at he
      | elem name attrs kids => exact ⟨_, rfl⟩
      | empty name attrs => exact ⟨name.toList ++ Xsd.attrsText attrs ++ ['/'], by simp [Xsd.Tree.text]⟩
    obtain ⟨m, hm⟩ := this
    rw [hm]
    exact flattenXml_tagged m (hm ▸ hk.line)
  refine ⟨envelope k.text, ?_, (rootTree_text k).symm, rootTree_plain hk.plain⟩
  simp only [createMessage, hpre, renderMessage, ht, hr, Except.map, hflat]

theorem valid_root {k : Xsd.Tree} {choice : List (Xsd.QName × Xsd.XType)}
    (hk : Xsd.Choices (Xsd.inside [] rootAttrs) [(Xsd.oadr "oadrSignedObject", Xsd.signedObject choice)] [k]) (he : k.element.isSome = true) :
    Xsd.ValidFor choice (rootTree k) := by
  refine ⟨by simp only [Xsd.elementName, rootTree, Xsd.Tree.element]; decide +kernel, .sequence rfl (attributes_declared _ (by decide +kernel)) ?_ ?_⟩
  · intro c hc
    have : Xsd.data [Xsd.Tree.chars ['\n'], k, .chars ['\n']] = ['\n', '\n'] := by
      cases k with
      | chars => simp [Xsd.Tree.element] at he
      | elem => rfl
      | empty => rfl
    rw [this] at hc
    simp only [List.mem_cons, List.not_mem_nil, or_false, or_self] at hc
    subst hc; decide
  · have : Xsd.elements [Xsd.Tree.chars ['\n'], k, .chars ['\n']] = [k] ++ [] := by
      cases k with
      | chars => simp [Xsd.Tree.element] at he
      | elem => rfl
      | empty => rfl
    rw [this]
    exact .part 1 (some 1) hk (by simp) (by rintro m ⟨⟩; simp) .nil

/-- The signed object of a message. -/
theorem gives_signed {type : String} {q : Dict} {body : List Tmpl} {attrs outer : List (String × String)} {parts : List Xsd.Part}
    (h : Fills lib q (messageNames attrs outer) body parts) (hf : shellFacts type attrs outer = true) {choice} (hm : (Xsd.oadr type, Xsd.message parts) ∈ choice) :
    Gives lib q (Xsd.inside [] rootAttrs) (signed type body attrs outer) [(Xsd.oadr "oadrSignedObject", Xsd.signedObject choice)] 1 := by
  simp only [shellFacts, Bool.and_eq_true, decide_eq_true_eq] at hf
  obtain ⟨⟨⟨⟨⟨f1, f2⟩, f3⟩, f4⟩, f5⟩, f6⟩ := hf
  have hin : Gives lib q (outerNames outer) (el ("oadr:" ++ type) body (innerAttrs attrs)) choice 1 := by
    refine gives_of rfl h f1 ?_ f3 hm
    intro a ha
    have := List.all_eq_true.1 f2 a ha
    simp only [Bool.or_eq_true, Bool.and_eq_true, decide_eq_true_eq] at this
    rcases this with h | ⟨h, h'⟩
    · exact .inl h
    · refine .inr ⟨_, List.mem_singleton.2 rfl, h, .inl ?_⟩
      rw [h']
      exact isToken_mem (by decide) (by decide)
  refine gives_of (allowed := [(Xsd.oadr "Id", Xsd.IsId)]) (parts := [(1, some 1, choice)]) rfl (.one hin .nil) f4 ?_ f6 (List.mem_singleton.2 rfl)
  intro a ha
  have := List.all_eq_true.1 f5 a ha
  simp only [Bool.or_eq_true, Bool.and_eq_true, decide_eq_true_eq] at this
  rcases this with h | ⟨h, h'⟩
  · exact .inl h
  · refine .inr ⟨_, List.mem_singleton.2 rfl, h, ?_⟩
    rw [h']
    simp only [Xsd.IsId]
    decide +kernel

/-- A message whose parts are those of the schema is valid. -/
theorem valid_of {type : String} {p q : Dict} {body : List Tmpl} {attrs outer : List (String × String)} {parts : List Xsd.Part} (k : Nat)
    (sent : Dict) (hpre : preflightMessage now type p = .ok (.dict sent)) (hc : Conforms (.dict sent) (.dict q))
    (ht : Dict.get? templates type = some (signed type body attrs outer)) (hm : Xsd.messages[k]? = some (Xsd.oadr type, Xsd.message parts))
    (h : Fills lib q (messageNames attrs outer) body parts) (hf : shellFacts type attrs outer = true) :
    ∃ txt root, createMessage lib now type p = .ok txt ∧ Xsd.Document txt root ∧ Xsd.ValidAs type root := by
  obtain ⟨ks, g1, g2, g3, g4⟩ := gives_signed h hf (choice := Xsd.messages.filter (fun m => m.1 = Xsd.oadr type))
    (List.mem_filter.2 ⟨List.mem_of_getElem? hm, decide_eq_true rfl⟩)
  match ks, g2 with
  | [t], _ =>
    obtain ⟨s1, s2⟩ := g3 t (by simp)
    obtain ⟨txt, d1, d2⟩ := document_of hpre hc ht g1 s1 s2
    exact ⟨txt, _, d1, d2, valid_root g4 s2⟩

/-- Messages that are sent as they are given. -/
theorem schemaValid_of {type : String} {q : Dict} {body : List Tmpl} {attrs outer : List (String × String)} {parts : List Xsd.Part} (k : Nat)
    (ht : Dict.get? templates type = some (signed type body attrs outer)) (hm : Xsd.messages[k]? = some (Xsd.oadr type, Xsd.message parts))
    (h : Fills lib q (messageNames attrs outer) body parts) (hf : shellFacts type attrs outer = true := by decide +kernel)
    (hp : (decide (type ≠ "oadrDistributeEvent") && decide (type ≠ "oadrRegisterReport")) = true := by decide +kernel) : SchemaValid lib now type q := by
  intro p hc
  simp only [Bool.and_eq_true, decide_eq_true_eq] at hp
  exact valid_of k p (by simp [preflightMessage, hp.1, hp.2]) hc ht hm h hf

/-! ### Shorthands -/

variable {env : Dict} {names : Xsd.Names}

/-- A text. -/
theorem gives_text {name : String} {path : List String} {attrs : List (String × String)} {q : Xsd.QName} {s : String}
    (hl : lookup env path = .ok (some (.str s))) (h : OnWire s) (hf : tagFacts names name attrs q = true := by decide +kernel) :
    Gives lib env names (leaf name path .plain attrs) [(q, Xsd.string)] 1 := gives_leaf hl (reads_string h) hf

theorem lookup_in {a : String} {v : Option Value} (hl : lookup env [a] = .ok v) (rest : List String) : lookup env (a :: rest) = walk v rest := by
  simp only [lookup, walk, Except.ok.injEq] at hl ⊢
  rw [hl]

/-- A template that gives at most one element. -/
def Maybe (lib : Lib) (env : Dict) (names : Xsd.Names) (t : Tmpl) (alts : List (Xsd.QName × Xsd.XType)) : Prop := ∃ n ≤ 1, Gives lib env names t alts n

theorem Fills.maybe {t ts alts parts} (h : Maybe lib env names t alts) (hr : Fills lib env names ts parts) :
    Fills lib env names (t :: ts) ((0, some 1, alts) :: parts) := by
  obtain ⟨n, hn, h⟩ := h
  exact .opt h hn hr

/-- `{% if x is defined and x is not none %}` -/
theorem maybe_given {α : Type} {path : List String} {t : Tmpl} {alts} {o : Option α} {f : α → Value} (hl : lookup env path = .ok (o.map f))
    (hv : ∀ x, f x ≠ .none) (h : ∀ x, o = some x → Gives lib env names t alts 1) : Maybe lib env names (ifGiven path [t]) alts := by
  cases o with
  | none => exact ⟨0, by omega, gives_skip (surely_given hl (by simp))⟩
  | some x => exact ⟨1, by omega, gives_yes (surely_given hl (by simpa using hv x)) (h x rfl)⟩

/-- `{% if x %}` -/
theorem maybe_true {α : Type} {path : List String} {t : Tmpl} {alts} {o : Option α} {f : α → Value} (hl : lookup env path = .ok (o.map f))
    (hv : ∀ x, o = some x → (f x).truthy = true) (h : ∀ x, o = some x → Gives lib env names t alts 1) : Maybe lib env names (ifTrue path [t]) alts := by
  cases o with
  | none => exact ⟨0, by omega, gives_skip (surely_truthy hl (by simp))⟩
  | some x => exact ⟨1, by omega, gives_yes (surely_truthy hl (by simpa using hv x rfl)) (h x rfl)⟩

/-- A text that may be missing. -/
theorem maybe_text {name : String} {path : List String} {attrs : List (String × String)} {q : Xsd.QName} {s : Option String}
    (hl : lookup env path = .ok (text? s)) (h : ∀ x, s = some x → OnWire x) (hf : tagFacts names name attrs q = true := by decide +kernel) :
    Maybe lib env names (ifGiven path [leaf name path .plain attrs]) [(q, Xsd.string)] :=
  maybe_given (f := .str) hl (by simp) (fun x hx => by subst hx; exact gives_text hl (h x rfl) hf)

/-- A text that may be missing. -/
theorem maybe_textTrue {name : String} {path : List String} {attrs : List (String × String)} {q : Xsd.QName} {s : Option String}
    (hl : lookup env path = .ok (text? s)) (h : ∀ x, s = some x → OnWire x) (hf : tagFacts names name attrs q = true := by decide +kernel) :
    Maybe lib env names (ifTrue path [leaf name path .plain attrs]) [(q, Xsd.string)] :=
  maybe_true (f := .str) hl (fun x hx => by simpa [Value.truthy] using (h x hx).notEmpty) (fun x hx => by subst hx; exact gives_text hl (h x rfl) hf)

theorem gives_code {name : String} {path : List String} {attrs : List (String × String)} {q : Xsd.QName} {i : Int}
    (hl : lookup env path = .ok (some (.int i))) (h : ResponseCode i) (hf : tagFacts names name attrs q = true := by decide +kernel) :
    Gives lib env names (leaf name path .plain attrs) [(q, Xsd.responseCode)] 1 := gives_leaf hl (reads_int (responseCode_int h.1 h.2)) hf

/-- An enumerated text. -/
theorem gives_token {name : String} {path : List String} {attrs : List (String × String)} {q : Xsd.QName} {s : String} {l : List String}
    (hl : lookup env path = .ok (some (.str s))) (h : OnWire s) (hs : s ∈ l) (ht : tokens l = true := by decide +kernel)
    (hf : tagFacts names name attrs q = true := by decide +kernel) :
    Gives lib env names (leaf name path .plain attrs) [(q, Xsd.token l)] 1 := gives_leaf hl (reads_text h (isToken_mem hs ht)) hf

/-- An enumerated text or one of the user's own. -/
theorem gives_extended {name : String} {path : List String} {attrs : List (String × String)} {q : Xsd.QName} {s : String} {l : List String}
    (hl : lookup env path = .ok (some (.str s))) (h : OnWire s) (hs : SchemaText l s) (ht : tokens l = true := by decide +kernel)
    (hf : tagFacts names name attrs q = true := by decide +kernel) :
    Gives lib env names (leaf name path .plain attrs) [(q, Xsd.extended l)] 1 :=
  gives_leaf hl (reads_text h (hs.imp (isToken_mem · ht) isExtension_of)) hf

/-- A fixed text. -/
theorem gives_exactly {name : String} {path : List String} {attrs : List (String × String)} {q : Xsd.QName} {s : String} {l : List String}
    (hl : lookup env path = .ok (some (.str s))) (h : OnWire s) (hs : s ∈ l) (hf : tagFacts names name attrs q = true := by decide +kernel) :
    Gives lib env names (leaf name path .plain attrs) [(q, Xsd.exactly l)] 1 :=
  gives_leaf hl (reads_text h (by rw [String.ofList_toList]; exact hs)) hf

theorem gives_bool {name : String} {path : List String} {attrs : List (String × String)} {q : Xsd.QName} {b : Bool}
    (hl : lookup env path = .ok (some (.bool b))) (hf : tagFacts names name attrs q = true := by decide +kernel) :
    Gives lib env names (leaf name path .booleanformat attrs) [(q, Xsd.boolean)] 1 := gives_leaf hl reads_bool hf

theorem gives_duration {name : String} {path : List String} {attrs : List (String × String)} {q : Xsd.QName} {d : Int}
    (hl : lookup env path = .ok (some (.timedelta d))) (h : Spans d) (hf : tagFacts names name attrs q = true := by decide +kernel) :
    Gives lib env names (leaf name path .timedeltaformat attrs) [(q, Xsd.durationValue)] 1 := gives_leaf hl (reads_duration (spans_nonneg h)) hf

theorem gives_datetime {name : String} {path : List String} {attrs : List (String × String)} {q : Xsd.QName} {d : Int}
    (hl : lookup env path = .ok (some (.datetime d))) (h : Datable d) (hf : tagFacts names name attrs q = true := by decide +kernel) :
    Gives lib env names (leaf name path .datetimeformat attrs) [(q, Xsd.dateTime)] 1 := gives_leaf hl (reads_datetime h) hf

theorem gives_unsigned {name : String} {path : List String} {attrs : List (String × String)} {q : Xsd.QName} {i : Int} {limit : Nat}
    (hl : lookup env path = .ok (some (.int i))) (h : 0 ≤ i ∧ i ≤ limit) (hf : tagFacts names name attrs q = true := by decide +kernel) :
    Gives lib env names (leaf name path .plain attrs) [(q, .simple (Xsd.IsUnsigned limit))] 1 := gives_leaf hl (reads_int (isUnsigned_int h.1 h.2)) hf

/-- A number. -/
theorem gives_number {name : String} {path : List String} {attrs : List (String × String)} {q : Xsd.QName} {v : Value} {r : String}
    (hl : lookup env path = .ok (some v)) (h : AsFloat lib v r) (hn : SchemaNumber v) (hf : tagFacts names name attrs q = true := by decide +kernel) :
    Gives lib env names (leaf name path .plain attrs) [(q, Xsd.float)] 1 := by
  cases h with
  | float r h => exact gives_leaf hl (reads_float h.toOnWire (hn r rfl)) hf
  | int i r h => exact gives_leaf hl (reads_int (isFloat_int i)) hf

/-- A duration in an element of its own. -/
theorem gives_span {outer name : String} {path : List String} {oattrs attrs : List (String × String)} {q : Xsd.QName} {d : Int}
    (hl : lookup env path = .ok (some (.timedelta d))) (h : Spans d)
    (hf : (tagFacts names outer oattrs q && tagFacts (Xsd.inside names oattrs) name attrs (Xsd.xcal "duration")) = true := by decide +kernel) :
    Gives lib env names (el outer [leaf name path .timedeltaformat attrs] oattrs) [(q, Xsd.durationProp)] 1 := by
  rw [Bool.and_eq_true] at hf
  exact gives_el (.one (gives_duration hl h hf.2) .nil) hf.1

/-- A timestamp in an element of its own. -/
theorem gives_moment {outer name : String} {path : List String} {oattrs attrs : List (String × String)} {q : Xsd.QName} {d : Int}
    (hl : lookup env path = .ok (some (.datetime d))) (h : Datable d)
    (hf : (tagFacts names outer oattrs q && tagFacts (Xsd.inside names oattrs) name attrs (Xsd.xcal "date-time")) = true := by decide +kernel) :
    Gives lib env names (el outer [leaf name path .datetimeformat attrs] oattrs) [(q, Xsd.dtstart)] 1 := by
  rw [Bool.and_eq_true] at hf
  exact gives_el (.one (gives_datetime hl h hf.2) .nil) hf.1

/-- One of several elements. -/
theorem gives_or {t : Tmpl} {a b : Xsd.QName × Xsd.XType} {n : Nat} (h : Gives lib env names t [b] n) : Gives lib env names t [a, b] n := by
  obtain ⟨ks, h1, h2, h3, h4⟩ := h
  refine ⟨ks, h1, h2, h3, ?_⟩
  clear h1 h2 h3
  induction ks with
  | nil => exact .nil
  | cons k ks ih =>
    cases h4 with
    | cons hm hq hf hr =>
      rw [List.mem_singleton] at hm
      exact .cons (by simp [hm]) hq hf (ih hr)

theorem gives_either {t : Tmpl} {a b : Xsd.QName × Xsd.XType} {n : Nat} (h : Gives lib env names t [a] n) : Gives lib env names t [a, b] n := by
  obtain ⟨ks, h1, h2, h3, h4⟩ := h
  refine ⟨ks, h1, h2, h3, ?_⟩
  clear h1 h2 h3
  induction ks with
  | nil => exact .nil
  | cons k ks ih =>
    cases h4 with
    | cons hm hq hf hr =>
      rw [List.mem_singleton] at hm
      exact .cons (by simp [hm]) hq hf (ih hr)

theorem Reads.weaken {filter : Filter} {v : Value} {ok ok' : List Char → Prop} (h : Reads lib filter v ok) (hi : ∀ t, ok t → ok' t) : Reads lib filter v ok' := by
  obtain ⟨w, h1, h2, h3⟩ := h.text
  exact ⟨h.leaf, w, h1, h2, hi _ h3⟩

/-- A loop over a list of structures. -/
theorem gives_each {α : Type} {var : String} {over : List String} {t : Tmpl} {alts} {xs : List α} {F : α → Dict}
    (hl : lookup env over = .ok (some (.list ((xs.map F).map .dict)))) (h : ∀ i, ∀ x ∈ xs, Gives lib (loopEnv env var i (.dict (F x))) names t alts 1) :
    Gives lib env names (.loop var over [t]) alts xs.length := by
  have := gives_loop (lib := lib) (names := names) (t := t) (alts := alts) hl (var := var) (fun i x hx => by
    simp only [List.map_map, List.mem_map] at hx
    obtain ⟨y, hy, rfl⟩ := hx
    exact h i y hy)
  simpa using this

end Openleadr
