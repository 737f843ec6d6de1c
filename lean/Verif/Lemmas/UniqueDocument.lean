import Verif.Spec.XsdMessages
/-!
The text of a well-formed document determines the document, up to `<a></a>` and `<a/>` and the way character data is cut: a reader gives the
nodes back from the text. So whether a text is valid does not depend on how it is taken apart.
-/
namespace Openleadr.Xsd

/-- A node where `<a></a>` and `<a/>` are the same, and every character is a node. -/
inductive Node
  | elem (name : String) (attrs : List (String × String)) (kids : List Node)
  | char (c : Char)

/-- The nodes of trees. -/
def nodes : List Tree → List Node
  | [] => []
  | .elem name attrs kids :: ts => .elem name attrs (nodes kids) :: nodes ts
  | .empty name attrs :: ts => .elem name attrs [] :: nodes ts
  | .chars t :: ts => t.map .char ++ nodes ts

/-- Reads the attributes of a tag. -/
def readAttrs : Nat → List Char → List (String × String) × List Char
  | n + 1, ' ' :: r =>
    let r1 := (r.dropWhile (· ≠ '=')).drop 2
    let r2 := (r1.dropWhile (· ≠ '"')).drop 1
    let rest := readAttrs n r2
    ((String.ofList (r.takeWhile (· ≠ '=')), String.ofList (r1.takeWhile (· ≠ '"'))) :: rest.1, rest.2)
  | _, r => ([], r)

/-- A character of a name of an element. -/
def inName (c : Char) : Bool := c ≠ ' ' && c ≠ '>' && c ≠ '/'

/-- Reads nodes, up to the end or the closing tag of what they are in. -/
def readNodes : Nat → List Char → List Node × List Char
  | 0, r => ([], r)
  | _, [] => ([], [])
  | n + 1, c :: r =>
    if c = '<' then
      match r with
      | '/' :: _ => ([], c :: r)
      | _ =>
        let name := String.ofList (r.takeWhile inName)
        let tag := readAttrs n (r.dropWhile inName)
        match tag.2 with
        | '/' :: r1 =>
          let rest := readNodes n (r1.drop 1)
          (.elem name tag.1 [] :: rest.1, rest.2)
        | r1 =>
          let kids := readNodes n (r1.drop 1)
          let rest := readNodes n ((kids.2.dropWhile (· ≠ '>')).drop 1)
          (.elem name tag.1 kids.1 :: rest.1, rest.2)
    else
      let rest := readNodes n r
      (.char c :: rest.1, rest.2)

theorem takeWhile_upTo {p : Char → Bool} (a : List Char) (b : Char) (r : List Char) (h : ∀ c ∈ a, p c = true) (hb : p b = false) :
    (a ++ b :: r).takeWhile p = a ∧ (a ++ b :: r).dropWhile p = b :: r := by
  induction a with
  | nil => simp [hb]
  | cons c a ih =>
    have := ih (fun x hx => h x (by simp [hx]))
    simp [h c (by simp), this.1, this.2]

theorem span_loop (p : Char → Bool) : ∀ l acc : List Char, List.span.loop p l acc = (acc.reverse ++ l.takeWhile p, l.dropWhile p)
  | [], acc => by simp [List.span.loop]
  | c :: l, acc => by
    unfold List.span.loop
    cases h : p c
    · simp [h]
    · simp [h, span_loop p l (c :: acc)]

theorem span_parts (p : Char → Bool) (l : List Char) : l.span p = (l.takeWhile p, l.dropWhile p) := by
  simp [List.span, span_loop]

theorem isXmlName_chars {name : String} (h : isXmlName name = true) :
    name.toList ≠ [] ∧ ∀ c ∈ name.toList, c ≠ '=' ∧ inName c = true := by
  have hloc : ∀ t : List Char, ((t.head?.any (fun c => c.isAlpha || c = '_')) && t.all (fun c => c.isAlphanum || c = '-' || c = '_' || c = '.')) = true →
      t ≠ [] ∧ ∀ c ∈ t, c ≠ '=' ∧ inName c = true := by
    intro t ht
    simp only [Bool.and_eq_true, List.all_eq_true] at ht
    refine ⟨by rintro rfl; simp at ht, fun c hc => ?_⟩
    have := ht.2 c hc
    refine ⟨by rintro rfl; revert this; decide, ?_⟩
    unfold inName
    simp only [Bool.and_eq_true, decide_eq_true_eq]
    refine ⟨⟨?_, ?_⟩, ?_⟩ <;> (rintro rfl; revert this; decide)
  unfold isXmlName at h
  have hs : name.toList = (name.toList.span (· ≠ ':')).1 ++ (name.toList.span (· ≠ ':')).2 := by simp [span_parts]
  have h2 : ∀ x r, (name.toList.span (· ≠ ':')).2 = x :: r → x = ':' := by
    intro x r hx
    rw [span_parts] at hx
    have := List.head?_dropWhile_not (fun c => decide (c ≠ ':')) name.toList
    simp only at hx
    rw [hx] at this
    simpa using this
  generalize name.toList.span (· ≠ ':') = s at h hs h2
  rw [hs]
  obtain ⟨p, t⟩ := s
  cases t with
  | nil => simpa using hloc p h
  | cons x t =>
    simp only [Bool.and_eq_true] at h
    have hx := h2 x t rfl
    subst hx
    have h3 := hloc p (by simpa using h.1)
    have h4 := hloc t (by simpa using h.2)
    refine ⟨by simp, fun c hc => ?_⟩
    rcases List.mem_append.1 hc with hc | hc
    · exact h3.2 c hc
    rcases List.mem_cons.1 hc with rfl | hc
    · decide
    · exact h4.2 c hc

theorem readAttrs_text : ∀ (attrs : List (String × String)) (n : Nat) (x : Char) (r : List Char),
    (∀ a ∈ attrs, isXmlName a.1 = true ∧ ∀ c ∈ a.2.toList, c ≠ '"') → x ≠ ' ' → (attrsText attrs ++ x :: r).length < n →
    readAttrs n (attrsText attrs ++ x :: r) = (attrs, x :: r)
  | [], n, x, r, _, hx, _ => by
    cases n with
    | zero => rfl
    | succ n => unfold readAttrs; split <;> simp_all [attrsText]
  | (k, v) :: attrs, n, x, r, h, hx, hn => by
    cases n with
    | zero => simp at hn
    | succ n =>
      have hk := isXmlName_chars (h (k, v) (by simp)).1
      have hv := (h (k, v) (by simp)).2
      have e : attrsText ((k, v) :: attrs) ++ x :: r = ' ' :: (k.toList ++ '=' :: ('"' :: (v.toList ++ '"' :: (attrsText attrs ++ x :: r)))) := by
        simp [attrsText]
      rw [e] at hn ⊢
      have ih := readAttrs_text attrs n x r (fun a ha => h a (by simp [ha])) hx (by simp at hn ⊢; omega)
      obtain ⟨t1, t2⟩ := takeWhile_upTo (p := (· ≠ '=')) k.toList '=' ('"' :: (v.toList ++ '"' :: (attrsText attrs ++ x :: r)))
        (fun c hc => by simpa using (hk.2 c hc).1) (by decide)
      obtain ⟨t3, t4⟩ := takeWhile_upTo (p := (· ≠ '"')) v.toList '"' (attrsText attrs ++ x :: r) (fun c hc => by simpa using hv c hc) (by decide)
      simp only [readAttrs, t1, t2, List.drop_succ_cons, List.drop_zero, t3, t4, ih, String.ofList_toList]

theorem isTag_parts {name : String} {attrs : List (String × String)} (h : isTag name attrs = true) :
    isXmlName name = true ∧ ∀ a ∈ attrs, isXmlName a.1 = true ∧ ∀ c ∈ a.2.toList, c ≠ '"' := by
  simp only [isTag, Bool.and_eq_true, List.all_eq_true, decide_eq_true_eq] at h
  exact ⟨h.1.1, fun a ha => ⟨(h.1.2 a ha).1, fun c hc => ((h.1.2 a ha).2 c hc).1.1.2⟩⟩

/-- What follows the name of a tag. -/
theorem tag_start {name : String} {attrs : List (String × String)} (h : isTag name attrs = true) (x : Char) (hx : x = '>' ∨ x = '/') (r : List Char) :
    (name.toList ++ (attrsText attrs ++ x :: r)).takeWhile inName = name.toList ∧
    (name.toList ++ (attrsText attrs ++ x :: r)).dropWhile inName = attrsText attrs ++ x :: r := by
  have hn := (isXmlName_chars (isTag_parts h).1).2
  cases attrs with
  | nil => exact takeWhile_upTo name.toList x r (fun c hc => (hn c hc).2) (by rcases hx with rfl | rfl <;> decide)
  | cons a attrs =>
    have e : attrsText (a :: attrs) ++ x :: r = ' ' :: (a.1.toList ++ '=' :: '"' :: a.2.toList ++ ['"'] ++ attrsText attrs ++ x :: r) := by
      simp [attrsText]
    rw [e]
    exact takeWhile_upTo name.toList ' ' _ (fun c hc => (hn c hc).2) (by decide)

/-- Where reading ends. -/
def Stop (r : List Char) : Prop := r = [] ∨ ∃ r', r = '<' :: '/' :: r'

theorem readNodes_stop {n : Nat} {r : List Char} (h : Stop r) : readNodes n r = ([], r) := by
  cases n with
  | zero => rfl
  | succ n => rcases h with rfl | ⟨r', rfl⟩ <;> simp [readNodes]

theorem name_not_slash {name : String} (h : isXmlName name = true) (r : List Char) : ∃ c l, name.toList ++ r = c :: l ∧ c ≠ '/' := by
  obtain ⟨h1, h2⟩ := isXmlName_chars h
  match e : name.toList with
  | [] => exact absurd e h1
  | c :: l => exact ⟨c, l ++ r, rfl, by rintro rfl; exact absurd (h2 '/' (by simp [e])).2 (by decide)⟩

/-- The reader gives the nodes back. -/
theorem readNodes_text (ts : List Tree) (n : Nat) (r : List Char) (hp : ∀ t ∈ ts, t.Plain) (hs : Stop r) (hn : (textAll ts ++ r).length < n) :
    readNodes n (textAll ts ++ r) = (nodes ts, r) := by
  match ts, n with
  | [], n => simpa [textAll, nodes] using readNodes_stop hs
  | _, 0 => exact absurd hn (by omega)
  | .chars [] :: ts, n + 1 =>
    have := readNodes_text ts (n + 1) r (fun t ht => hp t (by simp [ht])) hs (by simpa [textAll, Tree.text] using hn)
    simpa [textAll, Tree.text, nodes] using this
  | .chars (c :: cs) :: ts, n + 1 =>
    have hl : Literal (c :: cs) := by
      have := hp (.chars (c :: cs)) (by simp)
      cases this; assumption
    have hl' : Literal cs := ⟨fun x hx => hl.1 x (by simp [hx]), fun a b e => hl.2 (c :: a) b (by simp [e])⟩
    have := readNodes_text (.chars cs :: ts) n r (fun t ht => by
      rcases List.mem_cons.1 ht with rfl | ht
      · exact .chars _ hl'
      · exact hp t (by simp [ht])) hs (by simp [textAll, Tree.text] at hn ⊢; omega)
    have e : textAll (.chars (c :: cs) :: ts) ++ r = c :: (textAll (.chars cs :: ts) ++ r) := by simp [textAll, Tree.text]
    rw [e]
    simp only [readNodes, if_neg (hl.1 c (by simp)).2.1, this]
    simp [nodes]
  | .empty name attrs :: ts, n + 1 =>
    have ht : isTag name attrs = true := by
      have := hp (.empty name attrs) (by simp)
      cases this; assumption
    have e : textAll (.empty name attrs :: ts) ++ r = '<' :: (name.toList ++ (attrsText attrs ++ '/' :: ('>' :: (textAll ts ++ r)))) := by
      simp [textAll, Tree.text]
    rw [e] at hn ⊢
    obtain ⟨t1, t2⟩ := tag_start ht '/' (Or.inr rfl) ('>' :: (textAll ts ++ r))
    have t3 := readAttrs_text attrs n '/' ('>' :: (textAll ts ++ r)) (isTag_parts ht).2 (by decide) (by simp at hn ⊢; omega)
    have ih := readNodes_text ts n r (fun t ht => hp t (by simp [ht])) hs (by simp at hn ⊢; omega)
    obtain ⟨c, l, h1, h2⟩ := name_not_slash (isTag_parts ht).1 (attrsText attrs ++ '/' :: ('>' :: (textAll ts ++ r)))
    rw [h1] at t1 t2 ⊢
    unfold readNodes
    rw [if_pos rfl]
    split
    · rename_i hh
      exact absurd (List.cons.inj hh).1 h2
    · simp [t1, t2, t3, ih, nodes]
  | .elem name attrs kids :: ts, n + 1 =>
    obtain ⟨ht, hk⟩ : isTag name attrs = true ∧ ∀ k ∈ kids, k.Plain := by
      have := hp (.elem name attrs kids) (by simp)
      cases this; exact ⟨by assumption, by assumption⟩
    have e : textAll (.elem name attrs kids :: ts) ++ r =
        '<' :: (name.toList ++ (attrsText attrs ++ '>' :: (textAll kids ++ '<' :: '/' :: (name.toList ++ '>' :: (textAll ts ++ r))))) := by
      simp [textAll, Tree.text]
    rw [e] at hn ⊢
    obtain ⟨t1, t2⟩ := tag_start ht '>' (Or.inl rfl) (textAll kids ++ '<' :: '/' :: (name.toList ++ '>' :: (textAll ts ++ r)))
    have t3 := readAttrs_text attrs n '>' (textAll kids ++ '<' :: '/' :: (name.toList ++ '>' :: (textAll ts ++ r))) (isTag_parts ht).2 (by decide)
      (by simp at hn ⊢; omega)
    have ih1 := readNodes_text kids n ('<' :: '/' :: (name.toList ++ '>' :: (textAll ts ++ r))) hk (Or.inr ⟨_, rfl⟩) (by simp at hn ⊢; omega)
    have ih2 := readNodes_text ts n r (fun t ht => hp t (by simp [ht])) hs (by simp at hn ⊢; omega)
    have hnm := (isXmlName_chars (isTag_parts ht).1).2
    have t4 := (takeWhile_upTo (p := (· ≠ '>')) ('<' :: '/' :: name.toList) '>' (textAll ts ++ r) (fun c hc => by
      simp only [List.mem_cons] at hc
      rcases hc with rfl | rfl | hc
      · decide
      · decide
      · have := (hnm c hc).2
        simp only [decide_eq_true_eq]
        rintro rfl
        exact absurd this (by decide)) (by decide)).2
    obtain ⟨c, l, h1, h2⟩ := name_not_slash (isTag_parts ht).1 (attrsText attrs ++ '>' :: (textAll kids ++ '<' :: '/' :: (name.toList ++ '>' :: (textAll ts ++ r))))
    rw [h1] at t1 t2 ⊢
    unfold readNodes
    rw [if_pos rfl]
    split
    · rename_i hh
      exact absurd (List.cons.inj hh).1 h2
    · have t4' : (('<' :: '/' :: (name.toList ++ '>' :: (textAll ts ++ r))).dropWhile (· ≠ '>')) = '>' :: (textAll ts ++ r) := by simpa using t4
      simp only [t1, t2, t3, nodes, String.ofList_toList]
      split
      · rename_i hh
        exact absurd (List.cons.inj hh).1 (by decide)
      · simp only [List.drop_succ_cons, List.drop_zero, ih1, t4', ih2]
termination_by sizeOf ts

/-- The text of well-formed nodes determines them. -/
theorem nodes_of_text {ts us : List Tree} (h1 : ∀ t ∈ ts, t.Plain) (h2 : ∀ t ∈ us, t.Plain) (h : textAll ts = textAll us) : nodes ts = nodes us := by
  have e1 := readNodes_text ts ((textAll ts).length + 1) [] h1 (Or.inl rfl) (by simp)
  have e2 := readNodes_text us ((textAll ts).length + 1) [] h2 (Or.inl rfl) (by simp [h])
  rw [h] at e1 e2
  rw [e1] at e2
  exact (Prod.mk.inj e2).1

/-! ### What the nodes say -/

/-- The character data among nodes. -/
def nodeData : List Node → List Char
  | [] => []
  | .char c :: l => c :: nodeData l
  | _ :: l => nodeData l

/-- The elements among nodes. -/
def nodeElements : List Node → List Node
  | [] => []
  | .char _ :: l => nodeElements l
  | t :: l => t :: nodeElements l

theorem nodeData_chars (t : List Char) (l : List Node) : nodeData (t.map .char ++ l) = t ++ nodeData l := by
  induction t with
  | nil => rfl
  | cons c t ih => simp [nodeData, ih]

theorem nodeElements_chars (t : List Char) (l : List Node) : nodeElements (t.map .char ++ l) = nodeElements l := by
  induction t with
  | nil => rfl
  | cons c t ih => simp [nodeElements, ih]

theorem nodeData_nodes : ∀ ts : List Tree, nodeData (nodes ts) = data ts
  | [] => by simp [nodes, nodeData, data]
  | .elem .. :: ts => by simpa [nodes, nodeData, data] using nodeData_nodes ts
  | .empty .. :: ts => by simpa [nodes, nodeData, data] using nodeData_nodes ts
  | .chars t :: ts => by
    have := nodeData_nodes ts
    simp only [nodes, nodeData_chars, this]
    simp [data]

theorem nodeElements_nodes : ∀ ts : List Tree, nodeElements (nodes ts) = nodes (elements ts)
  | [] => by simp [nodes, nodeElements, elements]
  | .elem .. :: ts => by simpa [nodes, nodeElements, elements, Tree.element] using nodeElements_nodes ts
  | .empty .. :: ts => by simpa [nodes, nodeElements, elements, Tree.element] using nodeElements_nodes ts
  | .chars t :: ts => by
    have := nodeElements_nodes ts
    simp only [nodes, nodeElements_chars, this]
    simp [elements, Tree.element]

theorem element_nodes {t : Tree} {name : String} {attrs : List (String × String)} {kids : List Tree} (h : t.element = some (name, attrs, kids)) :
    nodes [t] = [.elem name attrs (nodes kids)] := by
  cases t <;> simp_all [Tree.element, nodes]

theorem nodes_element {t u : Tree} {name : String} {attrs : List (String × String)} {kids : List Tree} (h : t.element = some (name, attrs, kids))
    (hu : u.element.isSome = true) (e : nodes [t] = nodes [u]) : ∃ kids', u.element = some (name, attrs, kids') ∧ nodes kids = nodes kids' := by
  rw [element_nodes h] at e
  cases u with
  | chars c => simp [Tree.element] at hu
  | elem a b k => simp only [nodes, List.cons.injEq, Node.elem.injEq] at e; obtain ⟨⟨rfl, rfl, e⟩, -⟩ := e; exact ⟨k, rfl, e⟩
  | empty a b => simp only [nodes, List.cons.injEq, Node.elem.injEq] at e; obtain ⟨⟨rfl, rfl, e⟩, -⟩ := e; exact ⟨[], rfl, e.trans (by simp [nodes])⟩

theorem elementName_nodes {names : Names} {t u : Tree} (ht : t.element.isSome = true) (hu : u.element.isSome = true) (e : nodes [t] = nodes [u]) :
    elementName names t = elementName names u := by
  match h : t.element with
  | none => simp [h] at ht
  | some (name, attrs, kids) =>
    obtain ⟨k, h2, -⟩ := nodes_element h hu e
    simp [elementName, h, h2]

theorem nodes_cons_element {t : Tree} (h : t.element.isSome = true) (ts : List Tree) : ∃ x, nodes [t] = [x] ∧ nodes (t :: ts) = x :: nodes ts := by
  cases t <;> simp_all [Tree.element, nodes]

/-- The elements are the same nodes, one by one. -/
inductive SameElements : List Tree → List Tree → Prop
  | nil : SameElements [] []
  | cons {t u ts us} (h : u.element.isSome = true ∧ t.element.isSome = true ∧ nodes [t] = nodes [u]) (hr : SameElements ts us) :
      SameElements (t :: ts) (u :: us)

theorem SameElements.length_eq {ts us : List Tree} (h : SameElements ts us) : ts.length = us.length := by
  induction h with
  | nil => rfl
  | cons _ _ ih => simp [ih]

/-- Elements one by one. -/
theorem nodes_split : ∀ {ts us : List Tree}, (∀ t ∈ ts, t.element.isSome = true) → (∀ t ∈ us, t.element.isSome = true) → nodes ts = nodes us →
    SameElements ts us
  | [], [], _, _, _ => .nil
  | [], u :: us, _, h2, h => by
    obtain ⟨x, -, e⟩ := nodes_cons_element (h2 u (by simp)) us
    rw [e] at h; simp [nodes] at h
  | t :: ts, [], h1, _, h => by
    obtain ⟨x, -, e⟩ := nodes_cons_element (h1 t (by simp)) ts
    rw [e] at h; simp [nodes] at h
  | t :: ts, u :: us, h1, h2, h => by
    obtain ⟨x, a1, a2⟩ := nodes_cons_element (h1 t (by simp)) ts
    obtain ⟨y, b1, b2⟩ := nodes_cons_element (h2 u (by simp)) us
    rw [a2, b2, List.cons.injEq] at h
    exact .cons ⟨h2 u (by simp), h1 t (by simp), by rw [a1, b1, h.1]⟩ (nodes_split (fun t ht => h1 t (by simp [ht])) (fun t ht => h2 t (by simp [ht])) h.2)

theorem elements_are (ts : List Tree) : ∀ t ∈ elements ts, t.element.isSome = true := fun t ht => (List.mem_filter.1 ht).2

theorem sameElements_append {ts rest : List Tree} : ∀ {us : List Tree}, SameElements (ts ++ rest) us → ∃ vs ws, us = vs ++ ws ∧ SameElements ts vs ∧ SameElements rest ws := by
  induction ts with
  | nil => intro us h; exact ⟨[], us, rfl, .nil, h⟩
  | cons t ts ih =>
    intro us h
    cases h with
    | cons h1 h2 =>
      obtain ⟨vs, ws, rfl, h3, h4⟩ := ih h2
      exact ⟨_ :: vs, ws, rfl, .cons h1 h3, h4⟩

mutual
theorem Fits.same {names : Names} {ty : XType} {t : Tree} : Fits names ty t → ∀ {u : Tree}, u.element.isSome = true → nodes [t] = nodes [u] → Fits names ty u
  | .simple he ha hk ht, u, hu, e => by
    obtain ⟨k, h1, h2⟩ := nodes_element he hu e
    refine .simple h1 ha ?_ (by rw [← nodeData_nodes, ← h2, nodeData_nodes]; exact ht)
    have h3 : nodes (elements k) = [] := by rw [← nodeElements_nodes, ← h2, nodeElements_nodes, hk]; simp [nodes]
    match h4 : elements k with
    | [] => rfl
    | x :: l =>
      obtain ⟨y, -, b⟩ := nodes_cons_element (elements_are k x (by simp [h4])) l
      rw [h4, b] at h3; cases h3
  | .sequence he ha hd hk, u, hu, e => by
    obtain ⟨k, h1, h2⟩ := nodes_element he hu e
    refine .sequence h1 ha (by rw [← nodeData_nodes, ← h2, nodeData_nodes]; exact hd) ?_
    exact hk.same (nodes_split (elements_are _) (elements_are _) (by rw [← nodeElements_nodes, h2, nodeElements_nodes]))
  | .any, _, _, _ => .any
theorem Sequence.same {names : Names} {parts : List Part} {ts : List Tree} : Sequence names parts ts → ∀ {us : List Tree}, SameElements ts us → Sequence names parts us
  | .nil, _, h => by cases h; exact .nil
  | .part lo hi ht hmin hmax hr, _, h => by
    obtain ⟨vs, ws, rfl, h1, h2⟩ := sameElements_append h
    have := h1.length_eq
    exact .part lo hi (ht.same h1) (this ▸ hmin) (this ▸ hmax) (hr.same h2)
theorem Choices.same {names : Names} {alts : List (QName × XType)} {ts : List Tree} : Choices names alts ts → ∀ {us : List Tree}, SameElements ts us → Choices names alts us
  | .nil, _, h => by cases h; exact .nil
  | .cons ha hn hf hr, _, h => by
    cases h with
    | cons h1 h2 => exact .cons ha ((elementName_nodes h1.2.1 h1.1 h1.2.2).symm.trans hn) (hf.same h1.1 h1.2.2) (hr.same h2)
end

/-- Validity does not depend on how the text is taken apart. -/
theorem validFor_unique {choice : List (QName × XType)} {txt : List Char} {r s : Tree} (hr : Document txt r) (hs : Document txt s) (h : ValidFor choice r) :
    ValidFor choice s := by
  have e : nodes [r] = nodes [s] := nodes_of_text (by simpa using hr.2) (by simpa using hs.2) (by
    have := hr.1.symm.trans hs.1
    simpa [textAll] using this)
  have h1 : r.element.isSome = true := by
    have := h.1
    unfold elementName at this
    match h : r.element with
    | none => simp [h] at this
    | some _ => rfl
  have h2 : s.element.isSome = true := by
    match h : r.element with
    | none => simp [h] at h1
    | some (name, attrs, kids) =>
      rw [element_nodes h] at e
      cases s with
      | elem => rfl
      | empty => rfl
      | chars t => cases t <;> simp [nodes] at e
  exact ⟨(elementName_nodes h1 h2 e).symm.trans h.1, h.2.same h2 e⟩

end Openleadr.Xsd
