import Verif.Lemmas.Wire
import Verif.Lemmas.Dict
/-!
How much text the reader can collect: markup costs more characters than it gives.
-/
namespace Openleadr

mutual
/-- The number of characters in the texts of a value. -/
def mass (v : Value) : Nat :=
  match v with
  | .str s => s.toList.length
  | .list l => massList l
  | .dict d => massDict d
  | _ => 0
def massList (l : List Value) : Nat :=
  match l with
  | [] => 0
  | v :: l => mass v + massList l
def massDict (d : List (String × Value)) : Nat :=
  match d with
  | [] => 0
  | (_, v) :: d => mass v + massDict d
end

theorem massList_append (a b : List Value) : massList (a ++ b) = massList a + massList b := by
  induction a with
  | nil => simp [massList]
  | cons v a ih => simp only [List.cons_append, massList, ih]; omega

theorem massDict_append (a b : Dict) : massDict (a ++ b) = massDict a + massDict b := by
  induction a with
  | nil => simp [massDict]
  | cons v a ih => simp only [List.cons_append, massDict, ih]; omega

theorem massDict_set (d : Dict) (k : String) (v : Value) :
    massDict (Dict.set d k v) + ((Dict.get? d k).map mass).getD 0 = massDict d + mass v := by
  induction d with
  | nil => simp [Dict.set, Dict.get?, massDict]
  | cons e d ih =>
    obtain ⟨k', w⟩ := e
    simp only [Dict.set, Dict.get?]
    by_cases h : k' = k
    · simp [h, massDict]; omega
    · simp only [h, if_false, massDict]; omega

/-- The number of characters in an optional dict. -/
def massItem (item : Option Dict) : Nat :=
  match item with
  | some d => massDict d
  | none => 0

theorem massItem_push (item : Option Dict) (k : String) (v : Value) : massItem (pushData item k v) = massItem item + mass v := by
  cases item with
  | none => simp [pushData, massItem, massDict]
  | some d =>
    simp only [pushData]
    cases h : Dict.get? d k with
    | none =>
      have := massDict_set d k v
      rw [h] at this
      simp only [massItem, Option.map_none, Option.getD_none] at this ⊢
      omega
    | some w =>
      have key : ∀ x : Value, mass x = mass w + mass v → massItem (some (Dict.set d k x)) = massItem (some d) + mass v := by
        intro x hx
        have := massDict_set d k x
        rw [h] at this
        simp only [massItem, Option.map_some, Option.getD_some] at this ⊢
        omega
      cases w with
      | list l => exact key _ (by simp [mass, massList_append, massList])
      | _ => exact key _ (by simp [mass, massList])

/-- The number of characters in an element. -/
def Frame.mass (f : Frame) : Nat := massItem f.item + f.data.length

theorem strip_length (t : Text) : (strip t).length ≤ t.length := by
  have h1 : ∀ (p : Char → Bool) (l : Text), (l.dropWhile p).length ≤ l.length := fun p l => (List.dropWhile_sublist p).length_le
  unfold strip
  simp only [List.length_reverse]
  refine Nat.le_trans (h1 _ _) ?_
  simp only [List.length_reverse]
  exact h1 _ _

theorem mass_close (f : Frame) : mass (closeValue f.item f.data) ≤ f.mass := by
  have hs := strip_length f.data
  simp only [closeValue, Frame.mass]
  cases h : f.item with
  | none =>
    simp only
    split
    · simp [mass]
    · simp [mass, massItem, hs]
  | some d =>
    simp only
    split
    · simp [mass, massItem]
    · have := massItem_push (some d) "#text" (.str (String.ofList (strip f.data)))
      cases hp : pushData (some d) "#text" (.str (String.ofList (strip f.data))) with
      | none => simp [mass]
      | some d' =>
        rw [hp] at this
        simp only [massItem, mass, String.toList_ofList] at this ⊢
        omega

/-- The number of characters in open elements. -/
def massStack (l : List Frame) : Nat := (l.map Frame.mass).sum

/-- The number of characters the reader has collected. -/
def Reader.mass (r : Reader) : Nat := massStack r.stack + (match r.done with | some e => Openleadr.mass e.2 | none => 0)

theorem mass_closeElement {r r' : Reader} {name : String} (h : closeElement r name = .ok r') : r'.mode = .text ∧ r'.mass ≤ r.mass := by
  unfold closeElement at h
  split at h
  · simp at h
  · rename_i f rest hs
    split at h
    · simp at h
    · split at h
      · simp only [Except.ok.injEq] at h
        subst h
        refine ⟨rfl, ?_⟩
        have := mass_close f
        simp only [Reader.mass, hs, massStack, List.map_cons, List.map_nil, List.sum_cons, List.sum_nil]
        omega
      · rename_i g rest'
        simp only [Except.ok.injEq] at h
        subst h
        refine ⟨rfl, ?_⟩
        have h1 := mass_close f
        have h2 := massItem_push g.item f.key (closeValue f.item f.data)
        simp only [Reader.mass, hs, massStack, List.map_cons, List.sum_cons, Frame.mass] at h1 h2 ⊢
        omega

/-- The characters in the values of attributes. -/
def massAttrs (attrs : List (String × String)) : Nat := (attrs.map (fun a => a.2.toList.length)).sum

theorem mass_attributeEntries (scope : Scope) (attrs : List (String × String)) (d : Dict) (h : attributeEntries scope attrs = some d) :
    massDict d ≤ massAttrs attrs := by
  induction attrs generalizing d with
  | nil => simp only [attributeEntries, Option.some.injEq] at h; subst h; simp [massDict]
  | cons a l ih =>
    simp only [attributeEntries] at h
    split at h
    · have := ih d h
      simp only [massAttrs, List.map_cons, List.sum_cons] at this ⊢
      omega
    · split at h
      · rename_i k d' hk hd
        simp only [Option.some.injEq] at h; subst h
        have := ih d' hd
        simp only [massAttrs, List.map_cons, List.sum_cons, massDict, mass] at this ⊢
        omega
      · simp at h

theorem mass_openElement {r r' : Reader} {name : String} {attrs : List (String × String)} (h : openElement r name attrs = .ok r') :
    r'.mode = .text ∧ r'.mass ≤ r.mass + massAttrs attrs := by
  simp only [openElement] at h
  split at h
  · rename_i key entries hk he
    split at h
    · simp at h
    · simp only [Except.ok.injEq] at h
      subst h
      refine ⟨rfl, ?_⟩
      have := mass_attributeEntries _ _ _ he
      simp only [Reader.mass, massStack, List.map_cons, List.sum_cons, Frame.mass, List.length_nil]
      split
      · simp only [massItem]; omega
      · simp only [massItem]; omega
  · simp at h

theorem mass_tagAttributes (fuel : Nat) (t : Text) (attrs : List (String × String)) (h : tagAttributes fuel t = some attrs) :
    massAttrs attrs ≤ t.length := by
  induction fuel generalizing t attrs with
  | zero => simp [tagAttributes] at h
  | succ fuel ih =>
    have hdrop : ∀ (p : Char → Bool) (l : Text), (l.dropWhile p).length ≤ l.length := fun p l => (List.dropWhile_sublist p).length_le
    simp only [tagAttributes] at h
    have h0 := hdrop isXmlSpace t
    split at h
    · simp only [Option.some.injEq] at h; subst h; simp [massAttrs]
    · have h1 := hdrop isNameChar (t.dropWhile isXmlSpace)
      split at h
      · rename_i q rest hq
        rw [hq] at h1
        split at h
        · split at h
          · rename_i l hl
            simp only [Option.some.injEq] at h; subst h
            have h2 := ih _ _ hl
            have h3 : (rest.takeWhile (fun c => c ≠ q)).length + (rest.dropWhile (fun c => c ≠ q)).length = rest.length := by
              rw [← List.length_append, List.takeWhile_append_dropWhile]
            simp only [massAttrs, List.map_cons, List.sum_cons, String.toList_ofList, List.length_drop, List.length_cons] at h1 h2 h3 ⊢
            omega
          · simp at h
        · simp at h
      · simp at h

theorem mass_tagParts {t : Text} {name : String} {attrs : List (String × String)} (h : tagParts t = some (name, attrs)) :
    massAttrs attrs + 1 ≤ t.length := by
  simp only [tagParts] at h
  split at h
  · rename_i hn
    split at h
    · rename_i l hl
      simp only [Option.some.injEq, Prod.mk.injEq] at h
      obtain ⟨-, rfl⟩ := h
      have h1 := mass_tagAttributes _ _ _ hl
      have h2 : (t.takeWhile isNameChar).length + (t.dropWhile isNameChar).length = t.length := by
        rw [← List.length_append, List.takeWhile_append_dropWhile]
      have h3 : t.takeWhile isNameChar ≠ [] := by intro e; rw [e] at hn; simp [isName] at hn
      have h4 : 0 < (t.takeWhile isNameChar).length := List.length_pos_iff.2 h3
      omega
    · simp at h
  · simp at h

theorem mass_endTag {r r' : Reader} {acc : Text} (h : endTag r acc = .ok r') : r'.mode = .text ∧ r'.mass + 1 ≤ r.mass + acc.length := by
  unfold endTag at h
  split at h
  · simp only [Except.ok.injEq] at h; subst h
    exact ⟨rfl, by simp only [Reader.mass, List.length_cons]; omega⟩
  · simp at h
  · have := mass_closeElement h
    exact ⟨this.1, by simp only [List.length_cons]; omega⟩
  · split at h
    · split at h
      · rename_i name attrs hp
        split at h
        · rename_i r1 ho
          have h1 := mass_openElement ho
          have h2 := mass_closeElement h
          have h3 := mass_tagParts hp
          rw [List.length_dropLast] at h3
          exact ⟨h2.1, by omega⟩
        · simp at h
      · simp at h
    · split at h
      · rename_i name attrs hp
        have h1 := mass_openElement h
        have h3 := mass_tagParts hp
        exact ⟨h1.1, by omega⟩
      · simp at h

theorem mass_pushChar {r r' : Reader} {c : Char} (h : pushChar r c = .ok r') : r'.mode = .text ∧ r'.mass ≤ r.mass + 1 := by
  unfold pushChar at h
  split at h
  · split at h
    · simp only [Except.ok.injEq] at h; subst h
      exact ⟨rfl, by simp only [Reader.mass]; omega⟩
    · simp at h
  · rename_i f rest hs
    simp only [Except.ok.injEq] at h; subst h
    refine ⟨rfl, ?_⟩
    simp only [Reader.mass, hs, massStack, List.map_cons, List.sum_cons, Frame.mass, List.length_append, List.length_singleton]
    omega

theorem entity_length {acc : Text} {x : Char} (h : entityOf acc = some x) : 2 ≤ acc.length := by
  unfold entityOf at h
  split at h
  · rename_i e; rw [e]; decide
  · split at h
    · rename_i e; rw [e]; decide
    · split at h
      · rename_i e; rw [e]; decide
      · split at h
        · rename_i e; rw [e]; decide
        · split at h
          · rename_i e; rw [e]; decide
          · simp at h

/-- Markup stands in the text. -/
def marked (t : Text) : Bool := t.any (fun c => c = '<' || c = '&')

/-- What a text can give, if the reader is in character data again after it. -/
theorem mass_readText (r r' : Reader) (t : Text) (h : readText r t = .ok r') (hm : r'.mode = .text) :
    match r.mode with
    | .text => r'.mass + (if marked t then 3 else 0) ≤ r.mass + t.length
    | .entity acc => r'.mass + 3 ≤ r.mass + t.length + acc.length + 1
    | .tag acc _ => r'.mass + 3 ≤ r.mass + t.length + acc.length + 1 := by
  induction t generalizing r with
  | nil =>
    simp only [readText, Except.ok.injEq] at h
    subst h
    rw [hm]
    simp [marked]
  | cons c t ih =>
    simp only [readText] at h
    cases h1 : readChar r c with
    | error e => rw [h1] at h; simp at h
    | ok r1 =>
      rw [h1] at h
      have h2 := ih r1 h
      unfold readChar at h1
      split at h1
      · simp at h1
      · cases hmode : r.mode with
        | text =>
          rw [hmode] at h1
          simp only at h1 ⊢
          have hmk : (if marked (c :: t) then 3 else 0) ≤ (3 : Nat) := by split <;> omega
          split at h1
          · simp only [Except.ok.injEq] at h1; subst h1
            simp only [Reader.mass, List.length_nil, List.length_cons] at h2 ⊢
            omega
          · split at h1
            · simp only [Except.ok.injEq] at h1; subst h1
              simp only [Reader.mass, List.length_nil, List.length_cons] at h2 ⊢
              omega
            · rename_i n1 n2
              have h3 := mass_pushChar h1
              rw [h3.1] at h2
              have hk : marked (c :: t) = marked t := by simp [marked, n1, n2]
              rw [hk]
              simp only [List.length_cons] at h2 ⊢
              omega
        | entity acc =>
          rw [hmode] at h1
          simp only at h1 ⊢
          split at h1
          · split at h1
            · rename_i x he
              have h3 := mass_pushChar h1
              have h4 := entity_length he
              rw [h3.1] at h2
              simp only [List.length_cons] at h2 ⊢
              have : 0 ≤ (if marked t then 3 else 0) := Nat.zero_le _
              omega
            · simp at h1
          · split at h1
            · simp only [Except.ok.injEq] at h1; subst h1
              simp only [Reader.mass, List.length_append, List.length_cons, List.length_nil] at h2 ⊢
              omega
            · simp at h1
        | tag acc q =>
          rw [hmode] at h1
          cases q with
          | some q =>
            simp only at h1 ⊢
            split at h1
            · simp at h1
            · split at h1
              all_goals
                simp only [Except.ok.injEq] at h1; subst h1
                simp only [Reader.mass, List.length_append, List.length_cons, List.length_nil] at h2 ⊢
                omega
          | none =>
            simp only at h1 ⊢
            split at h1
            · have h3 := mass_endTag h1
              rw [h3.1] at h2
              simp only [List.length_cons] at h2 ⊢
              have : 0 ≤ (if marked t then 3 else 0) := Nat.zero_le _
              omega
            · split at h1
              · simp at h1
              · split at h1
                all_goals
                  simp only [Except.ok.injEq] at h1; subst h1
                  simp only [Reader.mass, List.length_append, List.length_cons, List.length_nil] at h2 ⊢
                  omega

theorem mass_readText_text {r r' : Reader} {t : Text} (h : readText r t = .ok r') (hm : r'.mode = .text) (h0 : r.mode = .text) (hk : marked t = true) :
    r'.mass + 3 ≤ r.mass + t.length := by
  have := mass_readText r r' t h hm
  rw [h0] at this
  simpa [hk] using this

end Openleadr
