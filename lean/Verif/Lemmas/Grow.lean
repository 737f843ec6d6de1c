import Verif.Lemmas.Parts
import Verif.Spec.XsdMessages
/-!
The trees that templates give, and rules for showing that they fit the schema.
-/
namespace Openleadr

/-- The name of an element, where every part of it is there. -/
def sureName (env : Dict) (tag : Tag) : Option String :=
  match tag with
  | .fixed name => some name
  | .dynamic ns name =>
    match lookup env ns, lookup env name with
    | .ok (some (.str a)), .ok (some (.str b)) => some (a ++ ":" ++ b)
    | _, _ => none
  | .qualified ns name =>
    match lookup env ns with
    | .ok (some (.str a)) => some (a ++ ":" ++ name)
    | _ => none

/-- One after the other over the numbered members of a list. -/
def eachTree (f : Nat → Value → Res (List Xsd.Tree)) (i : Nat) (l : List Value) : Res (List Xsd.Tree) :=
  match l with
  | [] => .ok []
  | v :: l => match f i v with
    | .ok t => match eachTree f (i + 1) l with
      | .ok t' => .ok (t ++ t')
      | .error e => .error e
    | .error e => .error e

mutual
/-- The nodes a template gives, if every value it needs is there. -/
def grow (lib : Lib) (env : Dict) (t : Tmpl) : Res (List Xsd.Tree) :=
  match t with
  | .elem tag attrs body =>
    match sureName env tag with
    | some name => match growAll lib env body with
      | .ok inner => .ok [.elem name attrs inner]
      | .error e => .error e
    | none => .error .xmlError
  | .empty tag attrs =>
    match sureName env tag with
    | some name => .ok [.empty name attrs]
    | none => .error .xmlError
  | .text s => .ok [.chars s.toList]
  | .out path filter =>
    match leafAt env path with
    | .ok v => match applyFilter filter (some v) with
      | .ok w => .ok [.chars (pyText lib w).toList]
      | .error e => .error e
    | .error e => if filter = .plain ∧ bare env path = true then .ok [.chars []] else .error e
  | .cond c yes no =>
    match surely env c with
    | .ok true => growAll lib env yes
    | .ok false => growAll lib env no
    | .error e => .error e
  | .loop var over body =>
    match lookup env over with
    | .ok (some (.list l)) => eachTree (fun i x => growAll lib (loopEnv env var i x) body) 0 l
    | .ok _ => .error .templateError
    | .error e => .error e
  | .missing => .error .templateError
/-- The parts of a template one after the other. -/
def growAll (lib : Lib) (env : Dict) (ts : List Tmpl) : Res (List Xsd.Tree) :=
  match ts with
  | [] => .ok []
  | t :: ts =>
    match grow lib env t with
    | .ok a => match growAll lib env ts with
      | .ok b => .ok (a ++ b)
      | .error e => .error e
    | .error e => .error e
end

theorem textAll_append (a b : List Xsd.Tree) : Xsd.textAll (a ++ b) = Xsd.textAll a ++ Xsd.textAll b := by
  induction a with
  | nil => rfl
  | cons t a ih => simp [Xsd.textAll, ih]

theorem sureName_tagText {p q : Dict} (h : Conforms (.dict p) (.dict q)) (lib : Lib) (tag : Tag) (name : String) (hk : sureName q tag = some name) :
    tagText lib p tag = .ok name := by
  have hstr : ∀ path a, lookup q path = .ok (some (.str a)) → lookup p path = .ok (some (.str a)) := by
    intro path a e
    obtain ⟨x, hx, hc⟩ := (lookup_conforms h path).1 _ e
    have := conforms_leaf hc (by simp) (by simp)
    subst this; exact hx
  cases tag with
  | fixed n => simp only [sureName, Option.some.injEq] at hk; subst hk; rfl
  | dynamic ns n =>
    simp only [sureName] at hk
    split at hk
    · rename_i a b e1 e2
      simp only [Option.some.injEq] at hk
      subst hk
      simp only [tagText, hstr _ _ e1, hstr _ _ e2, pyText]
    · simp at hk
  | qualified ns n =>
    simp only [sureName] at hk
    split at hk
    · rename_i a e1
      simp only [Option.some.injEq] at hk
      subst hk
      simp only [tagText, hstr _ _ e1, pyText]
    · simp at hk

theorem eachTree_conforms (f : Nat → Value → Res Text) (g : Nat → Value → Res (List Xsd.Tree)) (l l' : List Value) (len : l.length = l'.length)
    (each : ∀ (i : Nat) x y, l[i]? = some x → l'[i]? = some y → Conforms x y)
    (h : ∀ i x y ks, Conforms x y → g i y = .ok ks → f i x = .ok (Xsd.textAll ks)) :
    ∀ i ks, eachTree g i l' = .ok ks → eachText f i l = .ok (Xsd.textAll ks) := by
  induction l' generalizing l with
  | nil =>
    intro i ks hq
    cases l with
    | nil => simp only [eachTree, Except.ok.injEq] at hq; subst hq; rfl
    | cons => simp at len
  | cons y l' ih =>
    intro i ks hq
    cases l with
    | nil => simp at len
    | cons x l =>
      have hxy : Conforms x y := each 0 x y rfl rfl
      simp only [eachTree] at hq
      simp only [eachText]
      cases e : g i y with
      | error err => rw [e] at hq; simp at hq
      | ok a =>
        rw [e] at hq
        rw [h i x y a hxy e]
        simp only at hq ⊢
        cases e' : eachTree g (i + 1) l' with
        | error err => rw [e'] at hq; simp at hq
        | ok b =>
          rw [e'] at hq
          rw [ih l (by simpa using len) (fun i x y hx hy => each (i + 1) x y (by simpa using hx) (by simpa using hy)) (i + 1) b e']
          simp only [Except.ok.injEq] at hq
          subst hq
          simp only [textAll_append]

mutual
/-- The text of a payload that conforms is the text of the tree. -/
theorem grow_render (lib : Lib) (p q : Dict) (h : Conforms (.dict p) (.dict q)) (t : Tmpl) (ks : List Xsd.Tree) (hs : grow lib q t = .ok ks) :
    render lib p t = .ok (Xsd.textAll ks) := by
  cases t with
  | elem tag attrs body =>
    simp only [grow] at hs
    simp only [render]
    cases e : sureName q tag with
    | none => rw [e] at hs; simp at hs
    | some name =>
      rw [e] at hs
      rw [sureName_tagText h lib tag name e]
      simp only at hs ⊢
      cases e' : growAll lib q body with
      | error err => rw [e'] at hs; simp at hs
      | ok inner =>
        rw [e'] at hs
        rw [growAll_renderAll lib p q h body inner e']
        simp only [Except.ok.injEq] at hs
        subst hs
        simp [Xsd.textAll, Xsd.Tree.text, attrText, Xsd.attrsText]
  | empty tag attrs =>
    simp only [grow] at hs
    simp only [render]
    cases e : sureName q tag with
    | none => rw [e] at hs; simp at hs
    | some name =>
      rw [e] at hs
      rw [sureName_tagText h lib tag name e]
      simp only [Except.ok.injEq] at hs ⊢
      subst hs
      simp [Xsd.textAll, Xsd.Tree.text, attrText, Xsd.attrsText]
  | text s =>
    simp only [grow, Except.ok.injEq] at hs
    subst hs
    simp [render, Xsd.textAll, Xsd.Tree.text]
  | out path filter =>
    simp only [grow, leafAt] at hs
    simp only [render]
    cases e : lookup q path with
    | error err => rw [e] at hs; simp [bare, e] at hs
    | ok o =>
      rw [e] at hs
      cases o with
      | none =>
        simp only [bare, e] at hs
        split at hs
        · rename_i hb
          simp only [Bool.and_eq_true, Option.any_eq_true] at hb
          obtain ⟨rfl, ⟨k, hk, hk'⟩, -⟩ := hb
          rcases (lookup_conforms h path).2 e with e' | ⟨-, h3⟩
          · simp only [e', applyFilter, pyText]
            simp only [Except.ok.injEq] at hs
            subst hs; rfl
          · exact absurd (h3 k hk) (by simp [hk'])
        · simp at hs
      | some y =>
        obtain ⟨x, hx, hc⟩ := (lookup_conforms h path).1 _ e
        simp only at hs
        by_cases hl : isLeaf y = true
        · have : x = y := conforms_leaf hc (by rintro l rfl; simp [isLeaf] at hl) (by rintro l rfl; simp [isLeaf] at hl)
          subst this
          simp only [hl, if_true] at hs
          simp only [hx]
          split at hs
          · rename_i w ew
            rw [ew]
            simp only [Except.ok.injEq] at hs
            subst hs
            simp [Xsd.textAll, Xsd.Tree.text]
          · simp at hs
        · simp [hl, bare, e] at hs
  | cond c yes no =>
    simp only [grow] at hs
    simp only [render]
    cases e : surely q c with
    | error err => rw [e] at hs; simp at hs
    | ok b =>
      rw [e] at hs
      rw [surely_holds h c b e]
      cases b with
      | true => exact growAll_renderAll lib p q h yes ks hs
      | false => exact growAll_renderAll lib p q h no ks hs
  | loop var over body =>
    simp only [grow] at hs
    simp only [render]
    split at hs
    · rename_i l' e
      obtain ⟨x, hx, hc⟩ := (lookup_conforms h over).1 _ e
      obtain ⟨l, rfl, hlen, heach⟩ := conforms_list hc
      simp only [hx, loopValues]
      exact eachTree_conforms _ _ l l' hlen heach
        (fun i x y qs hxy hq => growAll_renderAll lib _ _ (loopEnv_conforms h var i hxy) body qs hq) 0 ks hs
    · simp at hs
    · simp at hs
  | missing => simp [grow] at hs
theorem growAll_renderAll (lib : Lib) (p q : Dict) (h : Conforms (.dict p) (.dict q)) (ts : List Tmpl) (ks : List Xsd.Tree)
    (hs : growAll lib q ts = .ok ks) : renderAll lib p ts = .ok (Xsd.textAll ks) := by
  cases ts with
  | nil => simp only [growAll, Except.ok.injEq] at hs; subst hs; rfl
  | cons t ts =>
    simp only [growAll] at hs
    simp only [renderAll]
    cases e : grow lib q t with
    | error err => rw [e] at hs; simp at hs
    | ok a =>
      rw [e] at hs
      rw [grow_render lib p q h t a e]
      simp only at hs ⊢
      cases e' : growAll lib q ts with
      | error err => rw [e'] at hs; simp at hs
      | ok b =>
        rw [e'] at hs; rw [growAll_renderAll lib p q h ts b e']
        simp only [Except.ok.injEq] at hs
        subst hs
        simp only [textAll_append]
end

/-! ### Rules -/

/-- A node is well-formed and on one line. -/
structure Sound1 (k : Xsd.Tree) : Prop where
  plain : k.Plain
  line : '\n' ∉ k.text

theorem textAll_line {ks : List Xsd.Tree} (h : ∀ k ∈ ks, Sound1 k) : '\n' ∉ Xsd.textAll ks := by
  induction ks with
  | nil => simp [Xsd.textAll]
  | cons k ks ih =>
    simp only [Xsd.textAll, List.mem_append, not_or]
    exact ⟨(h k (by simp)).line, ih (fun k' hk => h k' (by simp [hk]))⟩

/-- A template gives elements that are all among these alternatives. -/
def Gives (lib : Lib) (env : Dict) (names : Xsd.Names) (t : Tmpl) (alts : List (Xsd.QName × Xsd.XType)) (n : Nat) : Prop :=
  ∃ ks, grow lib env t = .ok ks ∧ ks.length = n ∧ (∀ k ∈ ks, Sound1 k ∧ k.element.isSome = true) ∧ Xsd.Choices names alts ks

/-- Templates give elements that form this sequence. -/
def Fills (lib : Lib) (env : Dict) (names : Xsd.Names) (ts : List Tmpl) (parts : List Xsd.Part) : Prop :=
  ∃ ks, growAll lib env ts = .ok ks ∧ (∀ k ∈ ks, Sound1 k ∧ k.element.isSome = true) ∧ Xsd.Sequence names parts ks

variable {lib : Lib} {env : Dict} {names : Xsd.Names}

theorem Fills.nil : Fills lib env names [] [] := ⟨[], rfl, by simp, .nil⟩

theorem Fills.cons {t ts alts parts} {n min : Nat} {max : Option Nat} (h : Gives lib env names t alts n) (hmin : min ≤ n)
    (hmax : ∀ m, max = some m → n ≤ m) (hr : Fills lib env names ts parts) : Fills lib env names (t :: ts) ((min, max, alts) :: parts) := by
  obtain ⟨ks, h1, h2, h3, h4⟩ := h
  obtain ⟨ks', g1, g2, g3⟩ := hr
  refine ⟨ks ++ ks', by simp [growAll, h1, g1], ?_, .part min max h4 (by omega) (by intro m hm; have := hmax m hm; omega) g3⟩
  intro k hk
  rcases List.mem_append.1 hk with hk | hk
  · exact h3 k hk
  · exact g2 k hk

/-- Exactly one element. -/
theorem Fills.one {t ts alts parts} {min max : Nat} (h : Gives lib env names t alts 1) (hr : Fills lib env names ts parts)
    (hmin : min ≤ 1 := by decide) (hmax : 1 ≤ max := by decide) : Fills lib env names (t :: ts) ((min, some max, alts) :: parts) :=
  .cons h hmin (by rintro m ⟨⟩; exact hmax) hr

/-- At most one element. -/
theorem Fills.opt {t ts alts parts} {n : Nat} (h : Gives lib env names t alts n) (hn : n ≤ 1) (hr : Fills lib env names ts parts) :
    Fills lib env names (t :: ts) ((0, some 1, alts) :: parts) :=
  .cons h (Nat.zero_le _) (by rintro m ⟨⟩; exact hn) hr

/-- Any number of elements. -/
theorem Fills.many {t ts alts parts} {n : Nat} {min : Nat} (h : Gives lib env names t alts n) (hn : min ≤ n) (hr : Fills lib env names ts parts) :
    Fills lib env names (t :: ts) ((min, none, alts) :: parts) :=
  .cons h hn (by simp) hr

/-- A part that is not there. -/
theorem Fills.skip {ts alts parts} {max : Option Nat} (hr : Fills lib env names ts parts) : Fills lib env names ts ((0, max, alts) :: parts) := by
  obtain ⟨ks', g1, g2, g3⟩ := hr
  exact ⟨ks', g1, g2, .part (ts := []) 0 max .nil (by simp) (by simp) g3⟩

/-- A template that gives nothing. -/
theorem Fills.nothing {t ts parts} (h : grow lib env t = .ok []) (hr : Fills lib env names ts parts) : Fills lib env names (t :: ts) parts := by
  obtain ⟨ks', g1, g2, g3⟩ := hr
  exact ⟨ks', by simp [growAll, h, g1], g2, g3⟩

/-- What has to be checked of a tag. -/
def tagFacts (names : Xsd.Names) (name : String) (attrs : List (String × String)) (q : Xsd.QName) : Bool :=
  decide ((Xsd.namespaceOf (Xsd.inside names attrs) (Xsd.nameParts name).1).map (fun ns => (ns, (Xsd.nameParts name).2)) = some q) &&
  attrs.all (fun a => (Xsd.declared a.1).isSome) && Xsd.isTag name attrs

theorem span_pair {p : α → Bool} (l : List α) : l.span p = (l.takeWhile p, l.dropWhile p) := by
  have loop : ∀ (l acc : List α), List.span.loop p l acc = (acc.reverse ++ l.takeWhile p, l.dropWhile p) := by
    intro l
    induction l with
    | nil => intro acc; simp [List.span.loop]
    | cons x l ih =>
      intro acc
      cases h : p x <;> simp [List.span.loop, h, ih]
  simpa [List.span] using loop l []

theorem tag_line {name : String} {attrs : List (String × String)} (h : Xsd.isTag name attrs = true) :
    '\n' ∉ name.toList ∧ '\n' ∉ Xsd.attrsText attrs := by
  simp only [Xsd.isTag, Bool.and_eq_true, List.all_eq_true, decide_eq_true_eq] at h
  have hname : ∀ s : String, Xsd.isXmlName s = true → '\n' ∉ s.toList := by
    intro s hs hn
    simp only [Xsd.isXmlName, span_pair] at hs
    have hl := List.takeWhile_append_dropWhile (p := fun c => decide (c ≠ ':')) (l := s.toList)
    rw [← hl] at hn
    rcases List.mem_append.1 hn with hn | hn
    · have ha : ∀ c ∈ s.toList.takeWhile (fun c => decide (c ≠ ':')), (c.isAlphanum || c = '-' || c = '_' || c = '.') = true := by
        intro c hc
        split at hs
        · rename_i e
          rw [← (Prod.mk.inj e).1] at hs
          simp only [Bool.and_eq_true, List.all_eq_true] at hs
          exact hs.2 c hc
        · rename_i e
          rw [← (Prod.mk.inj e).1] at hs
          simp only [Bool.and_eq_true, List.all_eq_true] at hs
          exact hs.1.2 c hc
      exact absurd (ha _ hn) (by decide)
    · have hd := List.head?_dropWhile_not (fun c => decide (c ≠ ':')) s.toList
      cases e : s.toList.dropWhile (fun c => decide (c ≠ ':')) with
      | nil => rw [e] at hn; simp at hn
      | cons c t =>
        rw [e] at hn hd hs
        simp only [Bool.and_eq_true, List.all_eq_true] at hs
        simp only [List.head?_cons] at hd
        rcases List.mem_cons.1 hn with hn | hn
        · subst hn; simp at hd
        · exact absurd (hs.2.2 _ hn) (by decide)
  refine ⟨hname name h.1.1, ?_⟩
  simp only [Xsd.attrsText, List.mem_flatMap, not_exists, not_and]
  intro a ha
  obtain ⟨h1, h2⟩ := h.1.2 a ha
  have h3 : '\n' ∉ a.2.toList := fun hn => absurd (h2 _ hn).1.1.1.1 (by decide)
  have h4 := hname _ h1
  simp [h3, h4]

theorem sound_elem {name : String} {attrs : List (String × String)} {ks : List Xsd.Tree} (h : Xsd.isTag name attrs = true) (hk : ∀ k ∈ ks, Sound1 k) :
    Sound1 (.elem name attrs ks) := by
  obtain ⟨h1, h2⟩ := tag_line h
  refine ⟨.elem _ _ _ h (fun k hm => (hk k hm).plain), ?_⟩
  simp only [Xsd.Tree.text, List.mem_append, List.mem_cons, List.not_mem_nil, or_false, not_or]
  exact ⟨⟨⟨⟨⟨by decide, h1⟩, h2⟩, by decide, textAll_line hk⟩, by decide, by decide, h1⟩, by decide⟩

theorem sound_empty {name : String} {attrs : List (String × String)} (h : Xsd.isTag name attrs = true) : Sound1 (.empty name attrs) := by
  obtain ⟨h1, h2⟩ := tag_line h
  refine ⟨.empty _ _ h, ?_⟩
  simp only [Xsd.Tree.text, List.mem_append, List.mem_cons, List.not_mem_nil, or_false, not_or]
  simp_all

theorem attributes_declared {attrs : List (String × String)} (allowed) (h : attrs.all (fun a => (Xsd.declared a.1).isSome) = true) :
    Xsd.Attributes (Xsd.inside names attrs) allowed attrs := by
  intro a ha
  exact Or.inl (List.all_eq_true.1 h a ha)

theorem elements_all {ks : List Xsd.Tree} (h : ∀ k ∈ ks, k.element.isSome = true) : Xsd.elements ks = ks ∧ Xsd.data ks = [] := by
  induction ks with
  | nil => exact ⟨rfl, rfl⟩
  | cons k ks ih =>
    obtain ⟨i1, i2⟩ := ih (fun k' hk => h k' (by simp [hk]))
    have hk := h k (by simp)
    refine ⟨by simpa [Xsd.elements, hk] using i1, ?_⟩
    cases k with
    | chars t => simp [Xsd.Tree.element] at hk
    | elem => simpa [Xsd.data] using i2
    | empty => simpa [Xsd.data] using i2

/-- An element whose contents form a sequence. -/
theorem gives_of {tag : Tag} {name : String} {attrs : List (String × String)} {body : List Tmpl} {q : Xsd.QName} {allowed} {parts : List Xsd.Part}
    {alts : List (Xsd.QName × Xsd.XType)} (hn : sureName env tag = some name) (h : Fills lib env (Xsd.inside names attrs) body parts)
    (hq : (Xsd.namespaceOf (Xsd.inside names attrs) (Xsd.nameParts name).1).map (fun ns => (ns, (Xsd.nameParts name).2)) = some q)
    (ha : Xsd.Attributes (Xsd.inside names attrs) allowed attrs) (ht : Xsd.isTag name attrs = true) (hm : (q, .sequence allowed parts) ∈ alts) :
    Gives lib env names (.elem tag attrs body) alts 1 := by
  obtain ⟨ks, h1, h2, h3⟩ := h
  refine ⟨[.elem name attrs ks], by simp [grow, hn, h1], rfl, ?_, ?_⟩
  · intro k hk
    rw [List.mem_singleton.1 hk]
    exact ⟨sound_elem ht (fun k hk => (h2 k hk).1), rfl⟩
  · obtain ⟨e1, e2⟩ := elements_all (fun k hk => (h2 k hk).2)
    refine .cons hm hq (.sequence rfl ha ?_ ?_) .nil
    · rw [e2]; simp
    · rw [e1]; exact h3

theorem gives_el {name : String} {attrs : List (String × String)} {body : List Tmpl} {q : Xsd.QName} {parts : List Xsd.Part}
    (h : Fills lib env (Xsd.inside names attrs) body parts) (hf : tagFacts names name attrs q = true := by decide +kernel) {allowed} :
    Gives lib env names (el name body attrs) [(q, .sequence allowed parts)] 1 := by
  simp only [tagFacts, Bool.and_eq_true, decide_eq_true_eq] at hf
  exact gives_of rfl h hf.1.1 (attributes_declared _ hf.1.2) hf.2 (List.mem_singleton.2 rfl)

/-- Texts that stand for themselves. -/
structure Written (t : Text) : Prop where
  literal : Xsd.Literal t
  line : '\n' ∉ t

/-- The value of a leaf, as a text that its type allows. -/
structure Reads (lib : Lib) (filter : Filter) (v : Value) (ok : List Char → Prop) : Prop where
  leaf : isLeaf v = true
  text : ∃ w, applyFilter filter (some v) = .ok w ∧ Written (pyText lib w).toList ∧ ok (pyText lib w).toList

theorem gives_leafOf {tag : Tag} {name : String} {path : List String} {filter : Filter} {attrs : List (String × String)} {q : Xsd.QName} {v : Value}
    {ok : List Char → Prop} {alts} (hn : sureName env tag = some name) (hl : lookup env path = .ok (some v)) (hr : Reads lib filter v ok)
    (hf : tagFacts names name attrs q = true) (hm : (q, .simple ok) ∈ alts) : Gives lib env names (.elem tag attrs [.out path filter]) alts 1 := by
  simp only [tagFacts, Bool.and_eq_true, decide_eq_true_eq] at hf
  obtain ⟨w, h1, h2, h3⟩ := hr.text
  have hla : leafAt env path = .ok v := by simp [leafAt, hl, hr.leaf]
  refine ⟨[.elem name attrs [.chars (pyText lib w).toList]], by simp [grow, growAll, hn, hla, h1], rfl, ?_, ?_⟩
  · intro k hk
    rw [List.mem_singleton.1 hk]
    refine ⟨sound_elem hf.2 ?_, rfl⟩
    intro k hk
    rw [List.mem_singleton.1 hk]
    exact ⟨.chars _ h2.literal, h2.line⟩
  · exact .cons hm hf.1.1 (.simple rfl (attributes_declared _ hf.1.2) rfl (by simpa [Xsd.data] using h3)) .nil

theorem gives_leaf {name : String} {path : List String} {filter : Filter} {attrs : List (String × String)} {q : Xsd.QName} {v : Value}
    {ok : List Char → Prop} (hl : lookup env path = .ok (some v)) (hr : Reads lib filter v ok)
    (hf : tagFacts names name attrs q = true := by decide +kernel) : Gives lib env names (leaf name path filter attrs) [(q, .simple ok)] 1 :=
  gives_leafOf rfl hl hr hf (by simp)

/-- An element without contents. -/
theorem gives_empty {name : String} {attrs : List (String × String)} {q : Xsd.QName} {ok : List Char → Prop} (hok : ok [])
    (hf : tagFacts names name attrs q = true := by decide +kernel) : Gives lib env names (.empty (.fixed name) attrs) [(q, .simple ok)] 1 := by
  simp only [tagFacts, Bool.and_eq_true, decide_eq_true_eq] at hf
  refine ⟨[.empty name attrs], rfl, rfl, ?_, .cons (by simp) hf.1.1 (.simple rfl (attributes_declared _ hf.1.2) rfl hok) .nil⟩
  intro k hk
  rw [List.mem_singleton.1 hk]
  exact ⟨sound_empty hf.2, rfl⟩

/-- An element that may be anything. -/
theorem gives_any {name : String} {attrs : List (String × String)} {q : Xsd.QName}
    (hf : tagFacts names name attrs q = true := by decide +kernel) : Gives lib env names (.empty (.fixed name) attrs) [(q, .any)] 1 := by
  simp only [tagFacts, Bool.and_eq_true, decide_eq_true_eq] at hf
  refine ⟨[.empty name attrs], rfl, rfl, ?_, .cons (by simp) hf.1.1 .any .nil⟩
  intro k hk
  rw [List.mem_singleton.1 hk]
  exact ⟨sound_empty hf.2, rfl⟩

/-- An empty element where a sequence of optional parts is wanted. -/
theorem gives_emptySeq {name : String} {attrs : List (String × String)} {q : Xsd.QName} {allowed parts} (h : Xsd.Sequence (Xsd.inside names attrs) parts [])
    (hf : tagFacts names name attrs q = true := by decide +kernel) :
    Gives lib env names (.empty (.fixed name) attrs) [(q, .sequence allowed parts)] 1 := by
  simp only [tagFacts, Bool.and_eq_true, decide_eq_true_eq] at hf
  refine ⟨[.empty name attrs], rfl, rfl, ?_, .cons (List.mem_singleton.2 rfl) hf.1.1 (.sequence rfl (attributes_declared _ hf.1.2) (by simp [Xsd.data]) h) .nil⟩
  intro k hk
  rw [List.mem_singleton.1 hk]
  exact ⟨sound_empty hf.2, rfl⟩

theorem growAll_one (t : Tmpl) : growAll lib env [t] = grow lib env t := by
  simp only [growAll]
  cases grow lib env t <;> simp

theorem gives_yes {c : Cond} {t : Tmpl} {no : List Tmpl} {alts n} (hc : surely env c = .ok true) (h : Gives lib env names t alts n) :
    Gives lib env names (.cond c [t] no) alts n := by
  obtain ⟨ks, h1, h2⟩ := h
  exact ⟨ks, by simp [grow, hc, growAll_one, h1], h2⟩

theorem gives_no {c : Cond} {t : Tmpl} {yes : List Tmpl} {alts n} (hc : surely env c = .ok false) (h : Gives lib env names t alts n) :
    Gives lib env names (.cond c yes [t]) alts n := by
  obtain ⟨ks, h1, h2⟩ := h
  exact ⟨ks, by simp [grow, hc, growAll_one, h1], h2⟩

theorem gives_skip {c : Cond} {yes : List Tmpl} {alts} (hc : surely env c = .ok false) : Gives lib env names (.cond c yes []) alts 0 :=
  ⟨[], by simp [grow, hc, growAll], rfl, by simp, .nil⟩

theorem grow_skip {c : Cond} {yes : List Tmpl} (hc : surely env c = .ok false) : grow lib env (.cond c yes []) = .ok [] := by
  simp [grow, hc, growAll]

/-- An element that is there if a value is: `{% if x is defined and x is not none %}`. -/
theorem gives_given {path : List String} {t : Tmpl} {alts} {v : Option Value} (hl : lookup env path = .ok v) (hv : v ≠ some .none)
    (h : ∀ y, v = some y → Gives lib env names t alts 1) : Gives lib env names (ifGiven path [t]) alts (if v.isSome then 1 else 0) := by
  cases v with
  | none => exact gives_skip (surely_given hl (by simp))
  | some y => exact gives_yes (surely_given hl hv) (h y rfl)

/-- An element that is there if a value is: `{% if x %}`. -/
theorem gives_true {path : List String} {t : Tmpl} {alts} {v : Option Value} (hl : lookup env path = .ok v)
    (hv : ∀ y, v = some y → y.truthy = true) (h : ∀ y, v = some y → Gives lib env names t alts 1) :
    Gives lib env names (ifTrue path [t]) alts (if v.isSome then 1 else 0) := by
  cases v with
  | none => exact gives_skip (surely_truthy hl (by simp))
  | some y => exact gives_yes (surely_truthy hl hv) (h y rfl)

theorem choices_append {alts a b} (ha : Xsd.Choices names alts a) (hb : Xsd.Choices names alts b) : Xsd.Choices names alts (a ++ b) := by
  induction a with
  | nil => exact hb
  | cons t a ih =>
    cases ha with
    | cons h1 h2 h3 h4 => exact .cons h1 h2 h3 (ih h4)

theorem eachTree_gives (body : List Tmpl) (var : String) (alts) (n : Value → Nat) (l : List Value)
    (h : ∀ i x, x ∈ l → ∃ ks, growAll lib (loopEnv env var i x) body = .ok ks ∧ ks.length = n x ∧ (∀ k ∈ ks, Sound1 k ∧ k.element.isSome = true) ∧
      Xsd.Choices names alts ks) : ∀ i,
    ∃ ks, eachTree (fun i x => growAll lib (loopEnv env var i x) body) i l = .ok ks ∧ ks.length = (l.map n).sum ∧
      (∀ k ∈ ks, Sound1 k ∧ k.element.isSome = true) ∧ Xsd.Choices names alts ks := by
  induction l with
  | nil => intro i; exact ⟨[], rfl, rfl, by simp, .nil⟩
  | cons x l ih =>
    intro i
    obtain ⟨a, a1, a2, a3, a4⟩ := h i x (by simp)
    obtain ⟨b, b1, b2, b3, b4⟩ := ih (fun i y hy => h i y (by simp [hy])) (i + 1)
    refine ⟨a ++ b, by simp [eachTree, a1, b1], by simp [a2, b2], ?_, choices_append a4 b4⟩
    intro k hk
    rcases List.mem_append.1 hk with hk | hk
    · exact a3 k hk
    · exact b3 k hk

/-- A loop, each round of which gives one element. -/
theorem gives_loop {var : String} {over : List String} {t : Tmpl} {alts} {l : List Value} (hl : lookup env over = .ok (some (.list l)))
    (h : ∀ i x, x ∈ l → Gives lib (loopEnv env var i x) names t alts 1) : Gives lib env names (.loop var over [t]) alts l.length := by
  obtain ⟨ks, h1, h2, h3⟩ := eachTree_gives (lib := lib) (env := env) (names := names) [t] var alts (fun _ => 1) l
    (fun i x hx => by obtain ⟨ks, g1, g2⟩ := h i x hx; exact ⟨ks, by rw [growAll_one]; exact g1, g2⟩) 0
  refine ⟨ks, by simp [grow, hl, h1], ?_, h3⟩
  rw [h2]
  clear h h1 h2 h3 hl
  induction l with
  | nil => rfl
  | cons x l ih => simp only [List.map_cons, List.sum_cons, List.length_cons, ih]; omega

/-- A loop, the rounds of which give some elements. -/
theorem gives_loopSome {var : String} {over : List String} {t : Tmpl} {alts} {l : List Value} (n : Value → Nat)
    (hl : lookup env over = .ok (some (.list l))) (h : ∀ i x, x ∈ l → Gives lib (loopEnv env var i x) names t alts (n x)) :
    ∃ m, Gives lib env names (.loop var over [t]) alts m := by
  obtain ⟨ks, h1, h2, h3⟩ := eachTree_gives (lib := lib) (env := env) (names := names) [t] var alts n l
    (fun i x hx => by obtain ⟨ks, g1, g2⟩ := h i x hx; exact ⟨ks, by rw [growAll_one]; exact g1, g2⟩) 0
  exact ⟨_, ks, by simp [grow, hl, h1], h2, h3⟩

end Openleadr
