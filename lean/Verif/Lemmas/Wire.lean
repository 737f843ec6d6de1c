import Verif.Model.Messaging
import Verif.Lemmas.Text
/-!
Reading back the text of a template: what a template stands for (`denote`), and that reading its text gives just that.
-/
namespace Openleadr

/-- Characters that stay as they are when the text is flattened and read. -/
def wireChar (c : Char) : Bool := isXmlChar c && c ≠ '\n' && c ≠ '\r'

/-- The characters of character data without markup. -/
def cleanChars (t : Text) : Bool := t.all (fun c => wireChar c && c ≠ '<' && c ≠ '&')

/-- Texts that can stand one after the other without `]]>` in the whole. -/
def tame (t : Text) : Bool := !sectionEnd t && decide (t.head? ≠ some ']') && decide (t.head? ≠ some '>')

/-- Character data without markup. -/
def clean (t : Text) : Bool := cleanChars t && tame t

/-- The name without its prefix. -/
def localName (name : String) : String := (splitName name).2

/-- The entries for the attributes other than namespace declarations. -/
def attrItem (attrs : List (String × String)) : Dict :=
  attrs.filterMap (fun a => match declaredPrefix a.1 with
    | some _ => none
    | none => some ("@" ++ localName a.1, .str a.2))

/-- A part of the contents of an element: a child or characters. -/
inductive Piece
  | entry (key : String) (v : Value)
  | chars (t : Text)

/-- An element takes a part of its contents. -/
def Frame.add (f : Frame) (p : Piece) : Frame :=
  match p with
  | .entry k v => { f with item := pushData f.item k v }
  | .chars t => { f with data := f.data ++ t }

/-- The dict of the children. -/
def childDict (item : Option Dict) (ps : List Piece) : Option Dict :=
  ps.foldl (fun d p => match p with
    | .entry k v => pushData d k v
    | .chars _ => d) item

/-- The characters. -/
def charsOf (ps : List Piece) : Text :=
  ps.flatMap (fun p => match p with
    | .entry _ _ => []
    | .chars t => t)

/-- The value of an element. -/
def elementValue (attrs : List (String × String)) (ps : List Piece) : Value :=
  closeValue (childDict (if attrItem attrs = [] then none else some (attrItem attrs)) ps) (charsOf ps)

/-- The prefixes that stand before the names of measurements. -/
def dynamicPrefix (v : Option Value) : Option String :=
  match v with
  | some (.str s) => if s = "oadr" || s = "power" then some s else none
  | _ => none

/-- The name of a measurement. -/
def dynamicName (v : Option Value) : Option String :=
  match v with
  | some (.str s) => if s.toList ≠ [] && s.toList.all Char.isAlpha then some s else none
  | _ => none

/-- The local name of an element of a template, if it is a good one. -/
def tagKey (env : Dict) (tag : Tag) : Option String :=
  match tag with
  | .fixed name => some (localName name)
  | .dynamic ns name =>
    match lookup env ns, lookup env name with
    | .ok a, .ok b => match dynamicPrefix a with
      | some _ => dynamicName b
      | none => none
    | _, _ => none
  | .qualified ns name =>
    match lookup env ns with
    | .ok a => match dynamicPrefix a with
      | some _ => some name
      | none => none
    | _ => none

/-- One after the other over the numbered members of a list. -/
def eachPiece (f : Nat → Value → Res (List Piece)) (i : Nat) (l : List Value) : Res (List Piece) :=
  match l with
  | [] => .ok []
  | v :: l => match f i v with
    | .ok t => match eachPiece f (i + 1) l with
      | .ok t' => .ok (t ++ t')
      | .error e => .error e
    | .error e => .error e

mutual
/-- What a template stands for; an error if a text in it contains markup. -/
def denote (lib : Lib) (env : Dict) (t : Tmpl) : Res (List Piece) :=
  match t with
  | .elem tag attrs body =>
    match tagKey env tag with
    | some key => match denoteAll lib env body with
      | .ok inner => .ok [.entry key (elementValue attrs inner)]
      | .error e => .error e
    | none => .error .xmlError
  | .empty tag attrs =>
    match tagKey env tag with
    | some key => .ok [.entry key (elementValue attrs [])]
    | none => .error .xmlError
  | .text s => if clean s.toList then .ok [.chars s.toList] else .error .xmlError
  | .out path filter =>
    match lookup env path with
    | .ok v => match applyFilter filter v with
      | .ok w => if clean (pyText lib w).toList then .ok [.chars (pyText lib w).toList] else .error .xmlError
      | .error e => .error e
    | .error e => .error e
  | .cond c yes no =>
    match holds env c with
    | .ok true => denoteAll lib env yes
    | .ok false => denoteAll lib env no
    | .error e => .error e
  | .loop var over body =>
    match lookup env over with
    | .ok v => match loopValues v with
      | .ok l => eachPiece (fun i x => denoteAll lib (loopEnv env var i x) body) 0 l
      | .error e => .error e
    | .error e => .error e
  | .missing => .error .templateError
/-- The parts of a template one after the other. -/
def denoteAll (lib : Lib) (env : Dict) (ts : List Tmpl) : Res (List Piece) :=
  match ts with
  | [] => .ok []
  | t :: ts =>
    match denote lib env t with
    | .ok a => match denoteAll lib env ts with
      | .ok b => .ok (a ++ b)
      | .error e => .error e
    | .error e => .error e
end

/-- Going through the inside of a tag: the quote that is open at the end, `none` if something is not allowed. -/
def scanTag (q : Option Char) (t : Text) : Option (Option Char) :=
  match t with
  | [] => some q
  | c :: t =>
    if isXmlChar c = false || c = '<' then none
    else match q with
      | some q => if c = q then scanTag none t else scanTag (some q) t
      | none => if c = '>' then none else if c = '"' || c = '\'' then scanTag (some c) t else scanTag none t

/-- The attributes of a template are written correctly. -/
def attrsOk (attrs : List (String × String)) : Bool :=
  decide (scanTag none (attrText attrs) = some none) && decide (tagAttributes ((attrText attrs).length + 1) (attrText attrs) = some attrs)
    && (attrText attrs).all wireChar && decide ((attrText attrs).getLast? ≠ some '/')
    && decide ((attrText attrs).takeWhile isNameChar = [])
    && (attrText attrs).all (fun c => c ≠ ']')

/-- The names that a tag can have are bound in the scope. -/
def tagOk (scope : Scope) (tag : Tag) : Bool :=
  match tag with
  | .fixed name => isName name.toList && name.toList.all wireChar && decide (buildName scope name = some (localName name))
  | .dynamic _ _ => (match Dict.get? scope "oadr" with | some u => knownNamespaces.contains u | none => false)
      && (match Dict.get? scope "power" with | some u => knownNamespaces.contains u | none => false)
  | .qualified _ name => (match Dict.get? scope "oadr" with | some u => knownNamespaces.contains u | none => false)
      && (match Dict.get? scope "power" with | some u => knownNamespaces.contains u | none => false)
      && name.toList ≠ [] && name.toList.all Char.isAlpha

mutual
/-- The tags of a template are written correctly, in this scope. -/
def wellFormed (scope : Scope) (t : Tmpl) : Bool :=
  match t with
  | .elem tag attrs body =>
    attrsOk attrs && tagOk (scopeWith scope attrs) tag && decide (attributeEntries (scopeWith scope attrs) attrs = some (attrItem attrs))
      && wellFormedAll (scopeWith scope attrs) body
  | .empty tag attrs =>
    attrsOk attrs && tagOk (scopeWith scope attrs) tag && decide (attributeEntries (scopeWith scope attrs) attrs = some (attrItem attrs))
  | .text _ => true
  | .out _ _ => true
  | .cond _ yes no => wellFormedAll scope yes && wellFormedAll scope no
  | .loop _ _ body => wellFormedAll scope body
  | .missing => true
def wellFormedAll (scope : Scope) (ts : List Tmpl) : Bool :=
  match ts with
  | [] => true
  | t :: ts => wellFormed scope t && wellFormedAll scope ts
end

/-! ### Reading -/

theorem readText_append (r : Reader) (a b : Text) :
    readText r (a ++ b) = match readText r a with
      | .ok r' => readText r' b
      | .error e => .error e := by
  induction a generalizing r with
  | nil => rfl
  | cons c a ih =>
    simp only [List.cons_append, readText]
    cases readChar r c with
    | ok r' => simp only; exact ih r'
    | error e => rfl

theorem read_scan (r : Reader) (acc t : Text) (q q' : Option Char) (h : scanTag q t = some q') (hm : r.mode = .tag acc q) :
    readText r t = .ok { r with mode := .tag (acc ++ t) q' } := by
  induction t generalizing r acc q with
  | nil =>
    simp only [scanTag, Option.some.injEq] at h
    subst h
    cases r; simp_all [readText]
  | cons c t ih =>
    simp only [scanTag] at h
    split at h
    · simp at h
    · rename_i hc
      simp only [Bool.or_eq_true, decide_eq_true_eq, not_or, Bool.not_eq_false] at hc
      have key : ∀ q1, scanTag q1 t = some q' → readText { r with mode := .tag (acc ++ [c]) q1 } t = .ok { r with mode := .tag (acc ++ c :: t) q' } := by
        intro q1 h1
        have := ih { r with mode := .tag (acc ++ [c]) q1 } (acc ++ [c]) q1 h1 rfl
        simpa using this
      cases q with
      | some q =>
        simp only at h
        simp only [readText, readChar, hc.1, hm, hc.2, if_false]
        by_cases hq : c = q
        · simp only [hq, if_true] at h ⊢; simp only [Bool.true_eq_false, if_false]; rw [← hq]; exact key none h
        · simp only [hq, if_false] at h ⊢; simp only [Bool.true_eq_false, if_false]; exact key (some q) h
      | none =>
        simp only at h
        split at h
        · simp at h
        · rename_i hg
          simp only [readText, readChar, hc.1, hm, hc.2, hg, if_false]
          by_cases hq : (c = '"' || c = '\'') = true
          · simp only [hq, if_true] at h ⊢; simp only [Bool.true_eq_false, if_false]; exact key (some c) h
          · simp only [hq] at h ⊢; simp only [Bool.true_eq_false, if_false]; exact key none h

theorem scanTag_append (q : Option Char) (a b : Text) :
    scanTag q (a ++ b) = match scanTag q a with
      | some q' => scanTag q' b
      | none => none := by
  induction a generalizing q with
  | nil => rfl
  | cons c a ih =>
    simp only [List.cons_append, scanTag]
    split
    · rfl
    · cases q with
      | some q => simp only; split <;> exact ih _
      | none =>
        simp only
        split
        · rfl
        · split <;> exact ih _

theorem nameChar_ne (c : Char) (h : isNameChar c = true) :
    c ≠ '<' ∧ c ≠ '>' ∧ c ≠ '"' ∧ c ≠ '\'' ∧ c ≠ '/' ∧ c ≠ '?' ∧ c ≠ '!' ∧ c ≠ '=' ∧ c ≠ ' ' := by
  refine ⟨?_, ?_, ?_, ?_, ?_, ?_, ?_, ?_, ?_⟩ <;> (rintro rfl; revert h; decide)

theorem scanTag_name (t : Text) (h : t.all isNameChar = true) (hw : t.all wireChar = true) : scanTag none t = some none := by
  induction t with
  | nil => rfl
  | cons c t ih =>
    simp only [List.all_cons, Bool.and_eq_true] at h hw
    have hn := nameChar_ne c h.1
    have hx : isXmlChar c = true := by
      have := hw.1; simp only [wireChar, Bool.and_eq_true] at this; exact this.1.1
    simp only [scanTag, hx, hn.1, hn.2.1, hn.2.2.1, hn.2.2.2.1]
    simpa using ih h.2 hw.2

theorem takeWhile_append_all {α : Type} (p : α → Bool) (a b : List α) (h : a.all p = true) : (a ++ b).takeWhile p = a ++ b.takeWhile p := by
  induction a with
  | nil => rfl
  | cons c a ih =>
    simp only [List.all_cons, Bool.and_eq_true] at h
    simp [h.1, ih h.2]

theorem dropWhile_append_all {α : Type} (p : α → Bool) (a b : List α) (h : a.all p = true) : (a ++ b).dropWhile p = b.dropWhile p := by
  induction a with
  | nil => rfl
  | cons c a ih =>
    simp only [List.all_cons, Bool.and_eq_true] at h
    simp [h.1, ih h.2]

theorem dropWhile_of_takeWhile_nil {α : Type} (p : α → Bool) (a : List α) (h : a.takeWhile p = []) : a.dropWhile p = a := by
  cases a with
  | nil => rfl
  | cons c a =>
    simp only [List.takeWhile_cons] at h
    split at h
    · simp at h
    · rename_i hc; simp [hc]

theorem tagAttributes_more (n : Nat) (t : Text) (l : List (String × String)) (h : tagAttributes n t = some l) (m : Nat) (hm : n ≤ m) :
    tagAttributes m t = some l := by
  induction n generalizing t l m with
  | zero => simp [tagAttributes] at h
  | succ n ih =>
    obtain ⟨m, rfl⟩ : ∃ k, m = k + 1 := ⟨m - 1, by omega⟩
    simp only [tagAttributes] at h ⊢
    split at h
    · exact h
    · split at h
      · split at h
        · rename_i hq
          simp only [hq, if_true]
          split at h
          · rename_i heq
            rw [ih _ _ heq m (by omega)]
            exact h
          · simp at h
        · simp at h
      · simp at h

theorem isName_nameChars (t : Text) (h : isName t = true) : t.all isNameChar = true ∧ t ≠ [] := by
  cases t with
  | nil => simp [isName] at h
  | cons c t =>
    simp only [isName, Bool.and_eq_true] at h
    exact ⟨h.1.1.1, by simp⟩

theorem tagParts_name (name : String) (attrs : List (String × String)) (hn : isName name.toList = true) (ha : attrsOk attrs = true) :
    tagParts (name.toList ++ attrText attrs) = some (name, attrs) := by
  obtain ⟨hall, -⟩ := isName_nameChars _ hn
  simp only [attrsOk, Bool.and_eq_true, decide_eq_true_eq] at ha
  obtain ⟨⟨⟨⟨⟨-, h2⟩, -⟩, -⟩, h5⟩, -⟩ := ha
  have e1 : (name.toList ++ attrText attrs).takeWhile isNameChar = name.toList := by
    rw [takeWhile_append_all _ _ _ hall, h5, List.append_nil]
  have e2 : (name.toList ++ attrText attrs).dropWhile isNameChar = attrText attrs := by
    rw [dropWhile_append_all _ _ _ hall, dropWhile_of_takeWhile_nil _ _ h5]
  simp only [tagParts, e1, e2, hn, if_true]
  rw [tagAttributes_more _ _ _ h2 _ (by simp)]
  simp

theorem getLast?_append_not {α : Type} [DecidableEq α] (a b : List α) (x : α) (ha : a.getLast? ≠ some x) (hb : b.getLast? ≠ some x) :
    (a ++ b).getLast? ≠ some x := by
  rw [List.getLast?_append]
  cases h : b.getLast? with
  | none => simpa using ha
  | some y => rw [h] at hb; simpa using hb

theorem name_last (t : Text) (h : t.all isNameChar = true) : t.getLast? ≠ some '/' := by
  intro hl
  have hm := List.mem_of_getLast? hl
  have := List.all_eq_true.1 h _ hm
  exact (nameChar_ne _ this).2.2.2.2.1 rfl

/-- Names and attributes of a tag that can be read. -/
theorem read_open (r : Reader) (name key : String) (attrs : List (String × String)) (f : Frame) (rest : List Frame)
    (hm : r.mode = .text) (hs : r.stack = f :: rest) (ha : attrsOk attrs = true) (hn : isName name.toList = true)
    (hw : name.toList.all wireChar = true) (hb : buildName (scopeWith r.scope attrs) name = some key)
    (he : attributeEntries (scopeWith r.scope attrs) attrs = some (attrItem attrs)) :
    readText r ('<' :: (name.toList ++ attrText attrs) ++ ['>']) =
      .ok { r with mode := .text, scope := scopeWith r.scope attrs,
                   stack := { name := name, key := key, outer := r.scope,
                              item := if attrItem attrs = [] then none else some (attrItem attrs), data := [] } :: f :: rest } := by
  obtain ⟨hall, hne⟩ := isName_nameChars _ hn
  have ha' := ha
  simp only [attrsOk, Bool.and_eq_true, decide_eq_true_eq] at ha'
  obtain ⟨⟨⟨⟨⟨h1, -⟩, -⟩, h4⟩, -⟩, -⟩ := ha'
  have hscan : scanTag none (name.toList ++ attrText attrs) = some none := by
    rw [scanTag_append, scanTag_name _ hall hw]; exact h1
  have hlast : (name.toList ++ attrText attrs).getLast? ≠ some '/' := getLast?_append_not _ _ _ (name_last _ hall) h4
  have e1 : readText r ['<'] = .ok { r with mode := .tag [] none } := by
    simp [readText, readChar, hm, isXmlChar]
  have e2 : readText { r with mode := .tag [] none } (name.toList ++ attrText attrs)
      = .ok { r with mode := .tag (name.toList ++ attrText attrs) none } := by
    have := read_scan { r with mode := .tag [] none } [] (name.toList ++ attrText attrs) none none hscan rfl
    simpa using this
  rw [show '<' :: (name.toList ++ attrText attrs) ++ ['>'] = ['<'] ++ ((name.toList ++ attrText attrs) ++ ['>']) from rfl,
    readText_append, e1]
  simp only
  rw [readText_append, e2]
  simp only [readText, readChar, isXmlChar]
  have hparts := tagParts_name name attrs hn ha
  have hend : endTag { r with mode := .tag (name.toList ++ attrText attrs) none } (name.toList ++ attrText attrs)
      = openElement { r with mode := .tag (name.toList ++ attrText attrs) none } name attrs := by
    cases hl : name.toList with
    | nil => exact absurd hl hne
    | cons c t =>
      rw [hl] at hall hlast hparts
      simp only [List.all_cons, Bool.and_eq_true] at hall
      have hc := nameChar_ne c hall.1
      unfold endTag
      split
      · rename_i heq; simp only [List.cons_append, List.cons.injEq] at heq; exact absurd heq.1 hc.2.2.2.2.2.1
      · rename_i heq; simp only [List.cons_append, List.cons.injEq] at heq; exact absurd heq.1 hc.2.2.2.2.2.2.1
      · rename_i heq; simp only [List.cons_append, List.cons.injEq] at heq; exact absurd heq.1 hc.2.2.2.2.1
      · simp only [hlast, if_false, hparts]
  rw [hend]
  simp only [openElement, hb, he, hs]
  simp

theorem nameChar_space (c : Char) (h : isNameChar c = true) : isXmlSpace c = false := by
  simp only [isXmlSpace, Bool.or_eq_false_iff, decide_eq_false_iff_not]
  refine ⟨⟨⟨?_, ?_⟩, ?_⟩, ?_⟩ <;> (rintro rfl; revert h; decide)

theorem trimEnd_name (t : Text) (h : t.all isNameChar = true) : (t.reverse.dropWhile isXmlSpace).reverse = t := by
  have : t.reverse.dropWhile isXmlSpace = t.reverse := by
    apply dropWhile_id
    intro c r e
    have hm : c ∈ t := by rw [← List.mem_reverse, e]; simp
    exact nameChar_space c (List.all_eq_true.1 h c hm)
  rw [this, List.reverse_reverse]

theorem read_close (r : Reader) (name : String) (f g : Frame) (rest : List Frame)
    (hm : r.mode = .text) (hs : r.stack = f :: g :: rest) (hf : f.name = name) (hn : isName name.toList = true)
    (hw : name.toList.all wireChar = true) :
    readText r ('<' :: '/' :: name.toList ++ ['>']) =
      .ok { r with mode := .text, scope := f.outer, stack := { g with item := pushData g.item f.key (closeValue f.item f.data) } :: rest } := by
  obtain ⟨hall, hne⟩ := isName_nameChars _ hn
  have e1 : readText r ['<'] = .ok { r with mode := .tag [] none } := by
    simp [readText, readChar, hm, isXmlChar]
  have hscan : scanTag none ('/' :: name.toList) = some none := by
    simp only [scanTag]; simpa [isXmlChar] using scanTag_name _ hall hw
  have e2 : readText { r with mode := .tag [] none } ('/' :: name.toList) = .ok { r with mode := .tag ('/' :: name.toList) none } := by
    have := read_scan { r with mode := .tag [] none } [] ('/' :: name.toList) none none hscan rfl
    simpa using this
  rw [show '<' :: '/' :: name.toList ++ ['>'] = ['<'] ++ (('/' :: name.toList) ++ ['>']) from rfl, readText_append, e1]
  simp only
  rw [readText_append, e2]
  simp only [readText, readChar, isXmlChar]
  have hend : endTag { r with mode := .tag ('/' :: name.toList) none } ('/' :: name.toList)
      = closeElement { r with mode := .tag ('/' :: name.toList) none } name := by
    simp only [endTag, trimEnd_name _ hall, String.ofList_toList]
  rw [hend]
  simp [closeElement, hs, hf]

theorem read_empty (r : Reader) (name key : String) (attrs : List (String × String)) (f : Frame) (rest : List Frame)
    (hm : r.mode = .text) (hs : r.stack = f :: rest) (ha : attrsOk attrs = true) (hn : isName name.toList = true)
    (hw : name.toList.all wireChar = true) (hb : buildName (scopeWith r.scope attrs) name = some key)
    (he : attributeEntries (scopeWith r.scope attrs) attrs = some (attrItem attrs)) :
    readText r ('<' :: (name.toList ++ attrText attrs ++ ['/']) ++ ['>']) =
      .ok { r with mode := .text, stack := { f with item := pushData f.item key (elementValue attrs []) } :: rest } := by
  obtain ⟨hall, hne⟩ := isName_nameChars _ hn
  have ha' := ha
  simp only [attrsOk, Bool.and_eq_true, decide_eq_true_eq] at ha'
  obtain ⟨⟨⟨⟨⟨h1, -⟩, -⟩, h4⟩, -⟩, -⟩ := ha'
  have hscan : scanTag none (name.toList ++ attrText attrs ++ ['/']) = some none := by
    rw [scanTag_append, scanTag_append, scanTag_name _ hall hw]; simp only [h1]; rfl
  have e1 : readText r ['<'] = .ok { r with mode := .tag [] none } := by
    simp [readText, readChar, hm, isXmlChar]
  have e2 : readText { r with mode := .tag [] none } (name.toList ++ attrText attrs ++ ['/'])
      = .ok { r with mode := .tag (name.toList ++ attrText attrs ++ ['/']) none } := by
    have := read_scan { r with mode := .tag [] none } [] (name.toList ++ attrText attrs ++ ['/']) none none hscan rfl
    simpa using this
  rw [show '<' :: (name.toList ++ attrText attrs ++ ['/']) ++ ['>'] = ['<'] ++ ((name.toList ++ attrText attrs ++ ['/']) ++ ['>']) from rfl,
    readText_append, e1]
  simp only
  rw [readText_append, e2]
  simp only [readText, readChar, isXmlChar]
  have hparts := tagParts_name name attrs hn ha
  have hend : endTag { r with mode := .tag (name.toList ++ attrText attrs ++ ['/']) none } (name.toList ++ attrText attrs ++ ['/'])
      = match openElement { r with mode := .tag (name.toList ++ attrText attrs ++ ['/']) none } name attrs with
        | .ok r' => closeElement r' name
        | .error e => .error e := by
    have hl2 : (name.toList ++ attrText attrs ++ ['/']).getLast? = some '/' := by simp
    have hd : (name.toList ++ attrText attrs ++ ['/']).dropLast = name.toList ++ attrText attrs := by simp
    cases hl : name.toList with
    | nil => exact absurd hl hne
    | cons c t =>
      rw [hl] at hall hl2 hd hparts
      simp only [List.all_cons, Bool.and_eq_true] at hall
      have hc := nameChar_ne c hall.1
      unfold endTag
      split
      · rename_i heq; simp only [List.cons_append, List.cons.injEq] at heq; exact absurd heq.1 hc.2.2.2.2.2.1
      · rename_i heq; simp only [List.cons_append, List.cons.injEq] at heq; exact absurd heq.1 hc.2.2.2.2.2.2.1
      · rename_i heq; simp only [List.cons_append, List.cons.injEq] at heq; exact absurd heq.1 hc.2.2.2.2.1
      · rw [if_pos hl2, hd, hparts]
        rfl
  rw [hend]
  simp only [openElement, hb, he, hs]
  simp [closeElement, elementValue, childDict, charsOf]

theorem read_chars (r : Reader) (t : Text) (f : Frame) (rest : List Frame) (hm : r.mode = .text) (hs : r.stack = f :: rest)
    (hc : cleanChars t = true) :
    readText r t = .ok { r with stack := f.add (.chars t) :: rest } := by
  induction t generalizing r f with
  | nil => cases r; cases f; simp_all [readText, Frame.add]
  | cons c t ih =>
    simp only [cleanChars, List.all_cons, Bool.and_eq_true, decide_eq_true_eq, wireChar] at hc
    obtain ⟨⟨⟨⟨⟨h1, -⟩, -⟩, h4⟩, h5⟩, h6⟩ := hc
    simp only [readText, readChar, h1, hm, h4, h5, if_false, pushChar, hs]
    simp only [Bool.true_eq_false, if_false]
    rw [ih { r with mode := .text, stack := { f with data := f.data ++ [c] } :: rest } _ rfl rfl (by
      simp only [cleanChars, wireChar]; exact h6)]
    cases r
    simp_all [Frame.add]

theorem alpha_range (c : Char) (h : c.isAlpha = true) : 65 ≤ c.toNat ∧ c.toNat ≤ 122 := by
  simp only [Char.isAlpha, Char.isUpper, Char.isLower, Bool.or_eq_true, Bool.and_eq_true, decide_eq_true_eq, UInt32.le_iff_toNat_le, ge_iff_le] at h
  show 65 ≤ c.val.toNat ∧ c.val.toNat ≤ 122
  have e1 : 'A'.val.toNat = 65 := rfl
  have e2 : 'Z'.val.toNat = 90 := rfl
  have e3 : 'a'.val.toNat = 97 := rfl
  have e4 : 'z'.val.toNat = 122 := rfl
  omega

theorem alpha_good (c : Char) (h : c.isAlpha = true) : isNameChar c = true ∧ wireChar c = true ∧ c ≠ ':' := by
  have hr := alpha_range c h
  refine ⟨?_, ?_, ?_⟩
  · simp [isNameChar, Char.isAlphanum, h]
  · have h1 : c ≠ '\n' := by rintro rfl; revert hr; decide
    have h2 : c ≠ '\r' := by rintro rfl; revert hr; decide
    simp only [wireChar, isXmlChar, h1, h2, ne_eq, not_false_eq_true, decide_true, Bool.and_true, Bool.or_eq_true, Bool.and_eq_true, decide_eq_true_eq]
    right; omega
  · rintro rfl; revert hr; decide

theorem prefixed_good (scope : Scope) (p s : String) (hp : p = "oadr" ∨ p = "power") (hs : s.toList ≠ []) (ha : s.toList.all Char.isAlpha = true)
    (u : String) (hu : Dict.get? scope p = some u) (hk : knownNamespaces.contains u = true) :
    isName (p ++ ":" ++ s).toList = true ∧ (p ++ ":" ++ s).toList.all wireChar = true ∧ buildName scope (p ++ ":" ++ s) = some s := by
  have hN : s.toList.all isNameChar = true := by
    rw [List.all_eq_true] at ha ⊢; intro c hc; exact (alpha_good c (ha c hc)).1
  have hW : s.toList.all wireChar = true := by
    rw [List.all_eq_true] at ha ⊢; intro c hc; exact (alpha_good c (ha c hc)).2.1
  have hF : s.toList.filter (fun c => decide (c = ':')) = [] := by
    rw [List.filter_eq_nil_iff]; intro c hc; simp [(alpha_good c (List.all_eq_true.1 ha c hc)).2.2]
  have hL : s.toList.getLast? ≠ some ':' := by
    intro hl; exact (alpha_good ':' (List.all_eq_true.1 ha _ (List.mem_of_getLast? hl))).2.2 rfl
  have e : (p ++ ":" ++ s).toList = p.toList ++ ':' :: s.toList := by simp
  have hL2 : ∀ a : Text, (a ++ ':' :: s.toList).getLast? ≠ some ':' := by
    intro a
    cases h : s.toList with
    | nil => exact absurd h hs
    | cons c t =>
      rw [List.getLast?_append, List.getLast?_cons_cons, ← h]
      cases h2 : s.toList.getLast? with
      | none => rw [List.getLast?_eq_none_iff] at h2; exact absurd h2 hs
      | some x => rw [h2] at hL; simpa using hL
  have split : splitName (p ++ ":" ++ s) = (p, s) := by
    rcases hp with rfl | rfl
    · simp only [splitName, e]
      simp
    · simp only [splitName, e]
      simp
  refine ⟨?_, ?_, ?_⟩
  · rw [e]
    rcases hp with rfl | rfl
    · simp only [show "oadr".toList = ['o', 'a', 'd', 'r'] from rfl, List.cons_append, List.nil_append]
      simp only [isName, List.all_cons, hN, List.filter_cons, hF]
      simp [isNameChar]
      exact hL2 []
    · simp only [show "power".toList = ['p', 'o', 'w', 'e', 'r'] from rfl, List.cons_append, List.nil_append]
      simp only [isName, List.all_cons, hN, List.filter_cons, hF]
      simp [isNameChar]
      exact hL2 []
  · rw [e, List.all_append, List.all_cons, hW]
    rcases hp with rfl | rfl <;> decide
  · simp only [buildName, split, hu, hk, Bool.true_or, if_true]

/-- A tag of a template that denotes something has a proper name. -/
theorem tag_good (lib : Lib) (env : Dict) (scope : Scope) (tag : Tag) (key : String) (hk : tagKey env tag = some key)
    (ho : tagOk scope tag = true) :
    ∃ name, tagText lib env tag = .ok name ∧ isName name.toList = true ∧ name.toList.all wireChar = true ∧ buildName scope name = some key := by
  have known : ∀ p, (match Dict.get? scope p with | some u => knownNamespaces.contains u | none => false) = true →
      ∃ u, Dict.get? scope p = some u ∧ knownNamespaces.contains u = true := by
    intro p h
    cases hg : Dict.get? scope p with
    | none => rw [hg] at h; simp at h
    | some u => rw [hg] at h; exact ⟨u, rfl, h⟩
  have pre : ∀ a p, dynamicPrefix a = some p → a = some (.str p) ∧ (p = "oadr" ∨ p = "power") := by
    intro a p h
    unfold dynamicPrefix at h
    split at h
    · split at h
      · rename_i hp
        simp only [Option.some.injEq] at h; subst h
        exact ⟨rfl, by simpa using hp⟩
      · simp at h
    · simp at h
  cases tag with
  | fixed name =>
    simp only [tagKey, Option.some.injEq] at hk
    simp only [tagOk, Bool.and_eq_true, decide_eq_true_eq] at ho
    exact ⟨name, rfl, ho.1.1, ho.1.2, by rw [ho.2, hk]⟩
  | dynamic ns nm =>
    simp only [tagKey] at hk
    split at hk
    · rename_i a b h1 h2
      split at hk
      · rename_i p hp
        obtain ⟨rfl, hp'⟩ := pre _ _ hp
        unfold dynamicName at hk
        split at hk
        · split at hk
          · rename_i s hs
            simp only [Option.some.injEq] at hk; subst hk
            simp only [Bool.and_eq_true, decide_eq_true_eq] at hs
            simp only [tagOk, Bool.and_eq_true] at ho
            obtain ⟨u, hu, hku⟩ : ∃ u, Dict.get? scope p = some u ∧ knownNamespaces.contains u = true := by
              rcases hp' with rfl | rfl
              · exact known _ ho.1
              · exact known _ ho.2
            refine ⟨p ++ ":" ++ s, ?_, prefixed_good scope p s hp' hs.1 hs.2 u hu hku⟩
            simp [tagText, h1, h2, pyText]
          · simp at hk
        · simp at hk
      · simp at hk
    · simp at hk
  | qualified ns nm =>
    simp only [tagKey] at hk
    split at hk
    · rename_i a h1
      split at hk
      · rename_i p hp
        obtain ⟨rfl, hp'⟩ := pre _ _ hp
        simp only [Option.some.injEq] at hk; subst hk
        simp only [tagOk, Bool.and_eq_true, decide_eq_true_eq] at ho
        obtain ⟨u, hu, hku⟩ : ∃ u, Dict.get? scope p = some u ∧ knownNamespaces.contains u = true := by
          rcases hp' with rfl | rfl
          · exact known _ ho.1.1.1
          · exact known _ ho.1.1.2
        refine ⟨p ++ ":" ++ nm, ?_, prefixed_good scope p nm hp' ho.1.2 ho.2 u hu hku⟩
        simp [tagText, h1, pyText]
      · simp at hk
    · simp at hk

theorem foldl_add_name (f : Frame) (ps : List Piece) :
    ps.foldl Frame.add f = { f with item := childDict f.item ps, data := f.data ++ charsOf ps } := by
  induction ps generalizing f with
  | nil => simp [childDict, charsOf]
  | cons p ps ih =>
    rw [List.foldl_cons, ih]
    cases p <;> simp [Frame.add, childDict, charsOf]

/-! ### `]]>` -/

theorem sectionEnd_append_right {a b : Text} (ha : sectionEnd a = false) (hb : tame b = true) : sectionEnd (a ++ b) = false := by
  simp only [tame, Bool.and_eq_true, Bool.not_eq_true', decide_eq_true_eq] at hb
  obtain ⟨⟨hb1, hb2⟩, hb3⟩ := hb
  induction a with
  | nil => exact hb1
  | cons c a ih =>
    simp only [sectionEnd, Bool.or_eq_false_iff] at ha
    simp only [List.cons_append, sectionEnd, Bool.or_eq_false_iff]
    refine ⟨?_, ih ha.2⟩
    rw [Bool.and_eq_false_iff] at ha ⊢
    rcases ha.1 with h | h
    · exact Or.inl h
    right
    cases a with
    | nil =>
      simp only [decide_eq_false_iff_not, List.nil_append]
      intro e
      cases b with
      | nil => simp at e
      | cons x b => simp only [List.take_succ_cons, List.cons.injEq] at e; exact hb2 (by simp [e.1])
    | cons x a =>
      cases a with
      | nil =>
        simp only [decide_eq_false_iff_not, List.cons_append, List.nil_append, List.take_succ_cons, List.cons.injEq]
        rintro ⟨-, e⟩
        cases b with
        | nil => simp at e
        | cons y b => simp only [List.take_succ_cons, List.cons.injEq] at e; exact hb3 (by simp [e.1])
      | cons y a => simpa using h

theorem tame_append {a b : Text} (ha : tame a = true) (hb : tame b = true) : tame (a ++ b) = true := by
  cases a with
  | nil => exact hb
  | cons c a =>
    have h1 := ha
    simp only [tame, Bool.and_eq_true, Bool.not_eq_true', decide_eq_true_eq] at h1 ⊢
    refine ⟨⟨sectionEnd_append_right h1.1.1 hb, ?_⟩, ?_⟩
    · simpa using h1.1.2
    · simpa using h1.2

theorem sectionEnd_skip {a : Text} (b : Text) (ha : a.all (fun c => c ≠ ']') = true) : sectionEnd (a ++ b) = sectionEnd b := by
  induction a with
  | nil => rfl
  | cons c a ih =>
    simp only [List.all_cons, Bool.and_eq_true, decide_eq_true_eq] at ha
    simp only [List.cons_append, sectionEnd, ha.1, decide_false, Bool.false_and, Bool.false_or]
    exact ih (by simpa using ha.2)

theorem name_noBracket {name : Text} (h : isName name = true) : name.all (fun c => c ≠ ']') = true := by
  obtain ⟨h, -⟩ := isName_nameChars _ h
  rw [List.all_eq_true] at h ⊢
  intro c hc
  have := h c hc
  simp only [decide_eq_true_eq]
  rintro rfl
  revert this; decide

/-- A tag has no `]]>`, whatever stands after it. -/
theorem tame_tag {t : Text} (b : Text) (ht : t.all (fun c => c ≠ ']') = true) (hb : sectionEnd b = false) : tame ('<' :: t ++ b) = true := by
  simp only [tame, Bool.and_eq_true, Bool.not_eq_true', decide_eq_true_eq, List.cons_append, List.head?_cons, ne_eq, Option.some.injEq]
  refine ⟨⟨?_, by decide⟩, by decide⟩
  rw [← List.cons_append, sectionEnd_skip _ (by simpa using ht), hb]

/-- What is read from the text of a template is what the template stands for. -/
def ReadsAs (scope : Scope) (out : Res Text) (ps : List Piece) : Prop :=
  ∃ txt, out = .ok txt ∧ (txt.all wireChar = true ∧ tame txt = true) ∧
    ∀ (r : Reader) (f : Frame) (rest : List Frame), r.mode = .text → r.stack = f :: rest → r.scope = scope →
      readText r txt = .ok { r with stack := ps.foldl Frame.add f :: rest }

theorem readsAs_append (scope : Scope) (a b : Text) (ps qs : List Piece)
    (ha : ReadsAs scope (.ok a) ps) (hb : ReadsAs scope (.ok b) qs) : ReadsAs scope (.ok (a ++ b)) (ps ++ qs) := by
  obtain ⟨x, hx, hw1, h1⟩ := ha
  obtain ⟨y, hy, hw2, h2⟩ := hb
  cases hx; cases hy
  refine ⟨_, rfl, ⟨by rw [List.all_append, hw1.1, hw2.1]; rfl, tame_append hw1.2 hw2.2⟩, ?_⟩
  intro r f rest hm hs hsc
  rw [readText_append, h1 r f rest hm hs hsc]
  simp only
  rw [h2 { r with stack := ps.foldl Frame.add f :: rest } _ rest hm rfl hsc, List.foldl_append]

theorem readsAs_nil (scope : Scope) : ReadsAs scope (.ok []) [] := by
  refine ⟨[], rfl, ⟨rfl, rfl⟩, ?_⟩
  intro r f rest hm hs hsc
  cases r; simp_all [readText]

theorem readsAs_chars (scope : Scope) (t : Text) (h : clean t = true) : ReadsAs scope (.ok t) [.chars t] := by
  simp only [clean, Bool.and_eq_true] at h
  refine ⟨t, rfl, ⟨?_, h.2⟩, ?_⟩
  · have h := h.1
    simp only [cleanChars, List.all_eq_true, Bool.and_eq_true] at h ⊢
    exact fun c hc => (h c hc).1.1
  · intro r f rest hm hs hsc
    exact read_chars r t f rest hm hs h.1

theorem readsAs_each (scope : Scope) (f : Nat → Value → Res Text) (g : Nat → Value → Res (List Piece)) (l : List Value)
    (i : Nat) (ps : List Piece)
    (h : ∀ i v, v ∈ l → ∀ qs, g i v = .ok qs → ReadsAs scope (f i v) qs) (hg : eachPiece g i l = .ok ps) :
    ReadsAs scope (eachText f i l) ps := by
  induction l generalizing i ps with
  | nil =>
    simp only [eachPiece, Except.ok.injEq] at hg; subst hg
    exact readsAs_nil _
  | cons v l ih =>
    simp only [eachPiece] at hg
    split at hg
    · rename_i t ht
      split at hg
      · rename_i t' ht'
        simp only [Except.ok.injEq] at hg; subst hg
        have h1 := h i v (by simp) t ht
        have h2 := ih (i + 1) t' (fun i w hw => h i w (by simp [hw])) ht'
        obtain ⟨a, ha, _⟩ := id h1
        obtain ⟨b, hb, _⟩ := id h2
        simp only [eachText, ha, hb]
        rw [ha] at h1; rw [hb] at h2
        exact readsAs_append _ _ _ _ _ h1 h2
      · simp at hg
    · simp at hg

theorem wire_all_name (name : Text) (attrs : List (String × String)) (h : name.all wireChar = true) (ha : attrsOk attrs = true) :
    (name ++ attrText attrs).all wireChar = true := by
  simp only [attrsOk, Bool.and_eq_true] at ha
  rw [List.all_append, h, ha.1.1.1.2]; rfl

mutual
theorem reads_render (lib : Lib) (env : Dict) (scope : Scope) (t : Tmpl) (ps : List Piece) (hw : wellFormed scope t = true)
    (hd : denote lib env t = .ok ps) : ReadsAs scope (render lib env t) ps := by
  cases t with
  | elem tag attrs body =>
    simp only [wellFormed, Bool.and_eq_true, decide_eq_true_eq] at hw
    obtain ⟨⟨⟨ha, ht⟩, he⟩, hb⟩ := hw
    simp only [denote] at hd
    split at hd
    · rename_i key hk
      split at hd
      · rename_i inner hi
        simp only [Except.ok.injEq] at hd; subst hd
        obtain ⟨name, hname, hn, hnw, hbuild⟩ := tag_good lib env _ tag key hk ht
        obtain ⟨txt, htxt, htw, hread⟩ := reads_renderAll lib env (scopeWith scope attrs) body inner hb hi
        simp only [render, hname, htxt]
        refine ⟨_, rfl, ⟨?_, ?_⟩, ?_⟩
        · have h1 := wire_all_name _ _ hnw ha
          rw [List.all_append, Bool.and_eq_true] at h1
          simp only [List.all_append, List.all_cons, List.cons_append, htw.1, hnw, h1.2, List.all_nil, Bool.and_true]
          decide
        · have hb : (attrText attrs).all (fun c => c ≠ ']') = true := by
            simp only [attrsOk, Bool.and_eq_true] at ha; exact ha.2
          have hn' := name_noBracket hn
          have htail : tame ('<' :: '/' :: name.toList ++ ['>']) = true := by
            have := tame_tag (t := '/' :: name.toList) ['>'] (by simp only [List.all_cons, hn']; decide) (by decide)
            exact this
          have := tame_tag (t := name.toList ++ attrText attrs ++ ['>']) (txt ++ ('<' :: '/' :: name.toList ++ ['>']))
            (by simp only [List.all_append, List.all_cons, hn', hb]; decide)
            (sectionEnd_append_right (by simp only [tame, Bool.and_eq_true, Bool.not_eq_true'] at htw; exact htw.2.1.1) htail)
          simpa using this
        · intro r f rest hm hs hsc
          subst hsc
          rw [show '<' :: (name.toList ++ attrText attrs) ++ '>' :: txt ++ '<' :: '/' :: name.toList ++ ['>']
              = ('<' :: (name.toList ++ attrText attrs) ++ ['>']) ++ (txt ++ ('<' :: '/' :: name.toList ++ ['>'])) by simp]
          rw [readText_append, read_open r name key attrs f rest hm hs ha hn hnw hbuild he]
          simp only
          rw [readText_append, hread _ _ (f :: rest) rfl rfl rfl]
          simp only
          rw [read_close _ name (inner.foldl Frame.add
            { name := name, key := key, outer := r.scope, item := if attrItem attrs = [] then none else some (attrItem attrs), data := [] })
            f rest rfl rfl (by rw [foldl_add_name]) hn hnw]
          simp only [foldl_add_name, Frame.add, elementValue, childDict, List.foldl_cons, List.foldl_nil, List.nil_append, charsOf,
            List.flatMap_cons, List.flatMap_nil, List.append_nil]
          cases r; simp_all
      · simp at hd
    · simp at hd
  | empty tag attrs =>
    simp only [wellFormed, Bool.and_eq_true, decide_eq_true_eq] at hw
    obtain ⟨⟨ha, ht⟩, he⟩ := hw
    simp only [denote] at hd
    split at hd
    · rename_i key hk
      simp only [Except.ok.injEq] at hd; subst hd
      obtain ⟨name, hname, hn, hnw, hbuild⟩ := tag_good lib env _ tag key hk ht
      simp only [render, hname]
      refine ⟨_, rfl, ⟨?_, ?_⟩, ?_⟩
      · have h1 := wire_all_name _ _ hnw ha
        rw [List.all_append, Bool.and_eq_true] at h1
        simp only [List.all_append, List.all_cons, List.cons_append, hnw, h1.2, List.all_nil, Bool.and_true]
        decide
      · have hb : (attrText attrs).all (fun c => c ≠ ']') = true := by
          simp only [attrsOk, Bool.and_eq_true] at ha; exact ha.2
        have := tame_tag (t := name.toList ++ attrText attrs ++ ['/']) ['>']
          (by simp only [List.all_append, List.all_cons, name_noBracket hn, hb]; decide) (by decide)
        simpa using this
      · intro r f rest hm hs hsc
        subst hsc
        rw [read_empty r name key attrs f rest hm hs ha hn hnw hbuild he]
        cases r; simp_all [Frame.add]
    · simp at hd
  | text s =>
    simp only [denote] at hd
    split at hd
    · rename_i hc
      simp only [Except.ok.injEq] at hd; subst hd
      exact readsAs_chars _ _ hc
    · simp at hd
  | out path filter =>
    simp only [denote] at hd
    split at hd
    · rename_i v hv
      split at hd
      · rename_i w hw'
        split at hd
        · rename_i hc
          simp only [Except.ok.injEq] at hd; subst hd
          simp only [render, hv, hw']
          exact readsAs_chars _ _ hc
        · simp at hd
      · simp at hd
    · simp at hd
  | cond c yes no =>
    simp only [wellFormed, Bool.and_eq_true] at hw
    simp only [denote] at hd
    simp only [render]
    cases hh : holds env c with
    | error e => rw [hh] at hd; simp at hd
    | ok b =>
      rw [hh] at hd
      cases b with
      | true => exact reads_renderAll lib env scope yes ps hw.1 hd
      | false => exact reads_renderAll lib env scope no ps hw.2 hd
  | loop var over body =>
    simp only [wellFormed] at hw
    simp only [denote] at hd
    split at hd
    · rename_i v hv
      split at hd
      · rename_i l hl
        simp only [render, hv, hl]
        exact readsAs_each scope _ _ l 0 ps (fun i x _ qs hq => reads_renderAll lib (loopEnv env var i x) scope body qs hw hq) hd
      · simp at hd
    · simp at hd
  | missing => simp [denote] at hd
theorem reads_renderAll (lib : Lib) (env : Dict) (scope : Scope) (ts : List Tmpl) (ps : List Piece) (hw : wellFormedAll scope ts = true)
    (hd : denoteAll lib env ts = .ok ps) : ReadsAs scope (renderAll lib env ts) ps := by
  cases ts with
  | nil =>
    simp only [denoteAll, Except.ok.injEq] at hd; subst hd
    exact readsAs_nil _
  | cons t ts =>
    simp only [wellFormedAll, Bool.and_eq_true] at hw
    simp only [denoteAll] at hd
    split at hd
    · rename_i a ha
      split at hd
      · rename_i b hb
        simp only [Except.ok.injEq] at hd; subst hd
        have h1 := reads_render lib env scope t a hw.1 ha
        have h2 := reads_renderAll lib env scope ts b hw.2 hb
        obtain ⟨x, hx, _⟩ := id h1
        obtain ⟨y, hy, _⟩ := id h2
        simp only [renderAll, hx, hy]
        rw [hx] at h1; rw [hy] at h2
        exact readsAs_append _ _ _ _ _ h1 h2
      · simp at hd
    · simp at hd
end

/-! ### Whole messages -/

/-- The reader inside the envelope. -/
def insideEnvelope : Reader :=
  { mode := .text,
    stack := [{ name := "oadr:oadrPayload", key := "oadrPayload", outer := Reader.start.scope, item := none, data := ['\n'] }],
    scope := ("oadr", nsOadr) :: Reader.start.scope, done := none }

theorem read_envelope : readText Reader.start envelopeHead = .ok insideEnvelope := by decide +kernel

theorem normalizeEnds_id (t : Text) (h : '\r' ∉ t) : normalizeEnds t = t := by
  induction t with
  | nil => rfl
  | cons c t ih =>
    simp only [List.mem_cons, not_or] at h
    unfold normalizeEnds
    split
    · rename_i heq; simp only [List.cons.injEq] at heq; exact absurd heq.1.symm h.1
    · rename_i heq; simp only [List.cons.injEq] at heq; exact absurd heq.1.symm h.1
    · rename_i heq; simp only [List.cons.injEq] at heq; rw [← heq.1, ← heq.2, ih h.2]
    · rename_i heq; simp at heq

theorem wire_no_ends (t : Text) (h : t.all wireChar = true) : '\n' ∉ t ∧ '\r' ∉ t := by
  rw [List.all_eq_true] at h
  constructor
  · intro hm; have := h _ hm; revert this; decide
  · intro hm; have := h _ hm; revert this; decide

/-- A rendered element starts with `<` and ends with `>`. -/
theorem render_ends (lib : Lib) (env : Dict) (tag : Tag) (attrs : List (String × String)) (body : List Tmpl) (txt : Text)
    (h : render lib env (.elem tag attrs body) = .ok txt) : ∃ t, txt = '<' :: t ++ ['>'] := by
  simp only [render] at h
  split at h
  · split at h
    · simp only [Except.ok.injEq] at h
      subst h
      exact ⟨_, rfl⟩
    · simp at h
  · simp at h

theorem flattenXml_tagged (t : Text) (h : '\n' ∉ '<' :: t ++ ['>']) : flattenXml ('<' :: t ++ ['>']) = '<' :: t ++ ['>'] := by
  have ht : Trimmed ('<' :: t ++ ['>']) := by
    constructor
    · intro c r e
      simp only [List.cons_append, List.cons.injEq] at e
      rw [← e.1]; decide
    · intro c r e
      have := congrArg List.getLast? e
      simp only [List.getLast?_append, List.getLast?_singleton, Option.some_or, Option.some.injEq] at this
      rw [← this]; decide
  have hs := strip_trimmed _ ht
  simp only [flattenXml, splitLines_single _ h]
  rw [List.filter_cons_of_pos (by rw [hs]; simp)]
  simp only [List.filter_nil, List.map_cons, List.map_nil, hs, List.flatten_cons, List.flatten_nil, List.append_nil]

/-- The element of the envelope. -/
def envelopeFrame : Frame := { name := "oadr:oadrPayload", key := "oadrPayload", outer := Reader.start.scope, item := none, data := ['\n'] }

theorem read_close_root (r : Reader) (name : String) (f : Frame)
    (hm : r.mode = .text) (hs : r.stack = [f]) (hf : f.name = name) (hn : isName name.toList = true)
    (hw : name.toList.all wireChar = true) :
    readText r ('<' :: '/' :: name.toList ++ ['>']) =
      .ok { mode := .text, scope := f.outer, stack := [], done := some (f.key, closeValue f.item f.data) } := by
  obtain ⟨hall, hne⟩ := isName_nameChars _ hn
  have e1 : readText r ['<'] = .ok { r with mode := .tag [] none } := by
    simp [readText, readChar, hm, isXmlChar]
  have hscan : scanTag none ('/' :: name.toList) = some none := by
    simp only [scanTag]; simpa [isXmlChar] using scanTag_name _ hall hw
  have e2 : readText { r with mode := .tag [] none } ('/' :: name.toList) = .ok { r with mode := .tag ('/' :: name.toList) none } := by
    have := read_scan { r with mode := .tag [] none } [] ('/' :: name.toList) none none hscan rfl
    simpa using this
  rw [show '<' :: '/' :: name.toList ++ ['>'] = ['<'] ++ (('/' :: name.toList) ++ ['>']) from rfl, readText_append, e1]
  simp only
  rw [readText_append, e2]
  simp only [readText, readChar, isXmlChar]
  have hend : endTag { r with mode := .tag ('/' :: name.toList) none } ('/' :: name.toList)
      = closeElement { r with mode := .tag ('/' :: name.toList) none } name := by
    simp only [endTag, trimEnd_name _ hall, String.ofList_toList]
  rw [hend]
  simp [closeElement, hs, hf]

theorem read_envelope_end (key : String) (v : Value) (name : String) (hname : name = "oadr:oadrPayload") :
    readText { insideEnvelope with stack := [[Piece.entry key v].foldl Frame.add envelopeFrame] } ('\n' :: ('<' :: '/' :: name.toList ++ ['>']))
      = .ok { mode := .text, stack := [], scope := Reader.start.scope, done := some ("oadrPayload", .dict [(key, v)]) } := by
  have e : (strip ['\n', '\n']) = [] := by decide
  have e2 : [Piece.entry key v].foldl Frame.add envelopeFrame = { envelopeFrame with item := some [(key, v)] } := rfl
  have e3 : readText { insideEnvelope with stack := [{ envelopeFrame with item := some [(key, v)] }] } ['\n'] =
      .ok { insideEnvelope with stack := [{ envelopeFrame with item := some [(key, v)], data := ['\n', '\n'] }] } := rfl
  rw [e2, show '\n' :: ('<' :: '/' :: name.toList ++ ['>']) = ['\n'] ++ ('<' :: '/' :: name.toList ++ ['>']) from rfl, readText_append, e3]
  simp only
  rw [read_close_root _ name { envelopeFrame with item := some [(key, v)], data := ['\n', '\n'] } rfl rfl (by rw [hname]; rfl)
    (by rw [hname]; decide +kernel) (by rw [hname]; decide +kernel)]
  simp [closeValue, e, envelopeFrame]

/-- Reading the text of a message: the document has the contents of the template. -/
theorem parse_wire (lib : Lib) (env : Dict) (tag : Tag) (attrs : List (String × String)) (body : List Tmpl) (key : String) (v : Value)
    (hw : wellFormed insideEnvelope.scope (.elem tag attrs body) = true) (hd : denote lib env (.elem tag attrs body) = .ok [.entry key v]) :
    ∃ txt, render lib env (.elem tag attrs body) = .ok txt ∧ parseXml (envelope (flattenXml txt)) = .ok ("oadrPayload", .dict [(key, v)]) := by
  obtain ⟨txt, htxt, hwire, hread⟩ := reads_render lib env _ _ _ hw hd
  refine ⟨txt, htxt, ?_⟩
  obtain ⟨t, ht⟩ := render_ends lib env tag attrs body txt htxt
  have hno := wire_no_ends txt hwire.1
  have hflat : flattenXml txt = txt := by rw [ht]; exact flattenXml_tagged t (by rw [← ht]; exact hno.1)
  rw [hflat]
  have hhead : '\r' ∉ envelopeHead := by decide +kernel
  have htail : '\r' ∉ '\n' :: ('<' :: '/' :: "oadr:oadrPayload".toList ++ ['>']) := by decide +kernel
  have hends : normalizeEnds (envelope txt) = envelope txt := by
    apply normalizeEnds_id
    unfold envelope
    intro hm
    rcases List.mem_append.1 hm with hm | hm
    · exact hhead hm
    · rcases List.mem_append.1 hm with hm | hm
      · exact hno.2 hm
      · exact htail hm
  have hr := hread insideEnvelope envelopeFrame [] rfl rfl rfl
  have he := read_envelope_end key v _ rfl
  have hsec : sectionEnd (envelope txt) = false := by
    unfold envelope
    rw [sectionEnd_skip _ (by decide +kernel)]
    exact sectionEnd_append_right (by have := hwire.2; simp only [tame, Bool.and_eq_true, Bool.not_eq_true'] at this; exact this.1.1) (by decide +kernel)
  unfold parseXml
  rw [if_neg (by simp [hsec])]
  rw [hends, envelope, readText_append, read_envelope]
  simp only
  rw [readText_append, hr]
  simp only
  rw [he]

end Openleadr
