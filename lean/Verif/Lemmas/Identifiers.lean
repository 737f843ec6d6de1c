import Verif.Spec.Identifiers
import Verif.Lemmas.Fields
import Verif.Lemmas.Shapes
import Verif.Lemmas.Arrive
/-!
Reading texts that look like numbers.
-/
namespace Openleadr

variable {lib : Lib}

theorem looksInt_iff (hl : lib.Sound) (s : String) : looksInt lib s.toList = true ↔ IntegerLike lib s := by
  constructor
  · intro h
    unfold looksInt at h
    split at h
    · rename_i r e
      simp only [Bool.and_eq_true, decide_eq_true_eq, List.all_eq_true] at h
      exact ⟨['-'], r, by rw [e]; rfl, Or.inr rfl, h.1, h.2⟩
    · simp only [Bool.and_eq_true, decide_eq_true_eq, List.all_eq_true] at h
      exact ⟨[], _, rfl, Or.inl rfl, h.1, h.2⟩
  · rintro ⟨sign, body, e, rfl | rfl, hne, hb⟩
    · rw [e, List.nil_append]
      unfold looksInt
      split
      · have := hb '-' (by simp)
        rw [hl.minus] at this; simp at this
      · simp only [Bool.and_eq_true, decide_eq_true_eq, List.all_eq_true]
        exact ⟨hne, hb⟩
    · rw [e]
      simp only [looksInt, List.cons_append, List.nil_append, Bool.and_eq_true, decide_eq_true_eq, List.all_eq_true]
      exact ⟨hne, hb⟩

theorem looksFloat_iff (hl : lib.Sound) (s : String) : looksFloat lib s.toList = true ↔ NumberLike lib s := by
  constructor
  · exact looksFloat_spec lib s
  · rintro ⟨sign, body, e, rfl | rfl, hne, hb⟩
    · rw [e, List.nil_append]
      unfold looksFloat
      split
      · have := hb '-' (by simp)
        rw [hl.minus] at this; simp at this
      · simp only [Bool.and_eq_true, decide_eq_true_eq, List.all_eq_true, Bool.or_eq_true]
        exact ⟨hne, hb⟩
    · rw [e]
      simp only [looksFloat, List.cons_append, List.nil_append, Bool.and_eq_true, decide_eq_true_eq, List.all_eq_true, Bool.or_eq_true]
      exact ⟨hne, hb⟩

theorem integer_number {s : String} (h : IntegerLike lib s) : NumberLike lib s := by
  obtain ⟨sign, body, e, h1, h2, h3⟩ := h
  exact ⟨sign, body, e, h1, h2, fun c hc => Or.inl (h3 c hc)⟩

/-- Numbers are neither of the two words. -/
theorem number_words (hl : lib.Sound) {s : String} (h : NumberLike lib s) : s ≠ "true" ∧ s ≠ "false" := by
  have key : ∀ w : String, (∃ c ∈ w.toList, c.isAlpha = true) → s ≠ w := by
    rintro w ⟨c, hc, ha⟩ rfl
    obtain ⟨sign, body, e, h1, -, h3⟩ := h
    rw [e] at hc
    rcases List.mem_append.1 hc with hc | hc
    · rcases h1 with rfl | rfl
      · simp at hc
      · simp only [List.mem_singleton] at hc; subst hc; exact absurd ha (by decide)
    · rcases h3 c hc with h | h
      · rw [hl.letters c ha] at h; simp at h
      · subst h; exact absurd ha (by decide)
  exact ⟨key _ ⟨'t', by decide, by decide⟩, key _ ⟨'f', by decide, by decide⟩⟩

theorem leafValue_takenFor (hl : lib.Sound) {k s : String} {v : Value} (hk : textKey k = true) (h : TakenFor lib s v) :
    leafValue lib k (.str s) = .ok v := by
  rw [leafValue_text lib k s hk]
  cases h with
  | yes h => subst h; rfl
  | no h => subst h; rfl
  | integer i h1 h2 =>
    have hw := number_words hl (integer_number h1)
    rw [if_neg (by simp [hw]), plainText, if_pos ((looksInt_iff hl s).2 h1), h2]
  | number r h1 h2 h3 =>
    have hw := number_words hl h1
    rw [if_neg (by simp [hw]), plainText, if_neg (fun h => h2 ((looksInt_iff hl s).1 h)), if_pos ((looksFloat_iff hl s).2 h1), h3]
  | text h1 h2 h3 =>
    rw [if_neg (by simp [h1, h2]), plainText, if_neg (fun h => h3 (integer_number ((looksInt_iff hl s).1 h))),
      if_neg (fun h => h3 ((looksFloat_iff hl s).1 h))]

theorem leafValue_unreadable (hl : lib.Sound) {k s : String} (hk : textKey k = true) (h : Unreadable lib s) :
    leafValue lib k (.str s) = .error .valueError := by
  rw [leafValue_text lib k s hk]
  rcases h with ⟨h1, h2⟩ | ⟨h1, h2, h3⟩
  · have hw := number_words hl (integer_number h1)
    rw [if_neg (by simp [hw]), plainText, if_pos ((looksInt_iff hl s).2 h1), h2]
  · have hw := number_words hl h1
    rw [if_neg (by simp [hw]), plainText, if_neg (fun h => h2 ((looksInt_iff hl s).1 h)), if_pos ((looksFloat_iff hl s).2 h1), h3]

/-- A text is either taken for something or unreadable. -/
theorem taken_or_unreadable (lib : Lib) (s : String) : (∃ v, TakenFor lib s v) ∨ Unreadable lib s := by
  by_cases ht : s = "true"
  · exact Or.inl ⟨_, .yes ht⟩
  by_cases hf : s = "false"
  · exact Or.inl ⟨_, .no hf⟩
  by_cases hi : IntegerLike lib s
  · cases h : lib.readInt s with
    | some i => exact Or.inl ⟨_, .integer i hi h⟩
    | none => exact Or.inr (Or.inl ⟨hi, h⟩)
  by_cases hn : NumberLike lib s
  · cases h : lib.readFloat s with
    | some r => exact Or.inl ⟨_, .number r hn hi h⟩
    | none => exact Or.inr (Or.inr ⟨hn, hi, h⟩)
  · exact Or.inl ⟨_, .text ht hf hn⟩

theorem wired_taken (hl : lib.Sound) {k s : String} {v : Value} (hs : OnWire s) (ht : TakenFor lib s v) (hk : textKey k = true) :
    Wired lib k .plain (.str s) v := by
  refine .of (some (.str s)) s rfl (by simp) rfl rfl hs (leafValue_takenFor hl hk ht) ?_
  cases ht <;> rfl

theorem carries_taken (hl : lib.Sound) {n : Nat} {env : Dict} {name : String} (key key' : String) {path : List String}
    {attrs : List (String × String)} {s : String} {v : Value} (hp : lookup env path = .ok (some (.str s))) (hs : OnWire s) (ht : TakenFor lib s v)
    (hk : textKey key' = true := by decide +kernel) (hf : leafFacts name attrs key key' = true := by decide +kernel) :
    Carries lib n env (leaf name path .plain attrs) key [key'] [(key', v)] :=
  carries_leaf key key' hp (wired_taken hl hs ht hk) hf

/-- A message that is created but cannot be read. -/
theorem refused_from {lib : Lib} {now : Int} {type : String} {p q raw : Dict} {e : Err} {body : List Tmpl} {attrs outer : List (String × String)}
    (hpre : preflightMessage now type p = .ok (.dict p)) (hc : Conforms (.dict p) (.dict q))
    (ht : Dict.get? templates type = some (signed type body attrs outer))
    (h1 : sure lib q (el ("oadr:" ++ type) body (innerAttrs attrs)) = .ok [.entry type (.dict raw)])
    (h2 : ∀ n, normalize lib (n + 21) raw = .error e) (hf : signedFacts type outer = true) : Refused lib now type p e := by
  simp only [signedFacts, Bool.and_eq_true, decide_eq_true_eq, Bool.not_eq_true', List.contains_eq_mem, decide_eq_false_iff_not] at hf
  have hsure : sure lib q (signed type body attrs outer) =
      .ok [.entry "oadrSignedObject" (.dict (attrItem (outerAttrs outer) ++ [(type, .dict raw)]))] := by
    rw [← elementValue_signed _ _ _ hf.2]
    simp only [signed]
    rw [show (el ("oadr:" ++ type) body ([("ei:schemaVersion", "2.0b"), ("xmlns:ei", nsEi)] ++ attrs)) =
      el ("oadr:" ++ type) body (innerAttrs attrs) from rfl]
    rw [el]
    simp only [sure, sureAll, h1, sureKey, List.append_nil]
    rfl
  have hden := sure_denote lib p q hc (signed type body attrs outer) _ hsure
  obtain ⟨txt, hr, hx⟩ := parse_wire lib p _ _ _ _ _ (template_ok _ _ ht) hden
  have hr' : render lib p (signed type body attrs outer) = .ok txt := hr
  refine ⟨envelope (flattenXml txt), ?_, ?_⟩
  · simp only [createMessage, hpre, renderMessage, ht, hr', Except.map]
  · obtain ⟨m, hm⟩ : ∃ m, (envelope (flattenXml txt)).length = m + 21 := ⟨_, (Nat.sub_add_cancel (envelope_long _)).symm⟩
    simp only [parseMessage, hx, hm, messageOf, entryAt, Dict.get?, if_true, lastEntry, List.getLast?_append, List.getLast?_singleton,
      Option.some_or, h2 m, Except.map]

theorem refused_of {lib : Lib} {now : Int} {type : String} {p raw : Dict} {e : Err} {body : List Tmpl} {attrs outer : List (String × String)}
    (hpre : preflightMessage now type p = .ok (.dict p)) (ht : Dict.get? templates type = some (signed type body attrs outer))
    (h1 : sure lib p (el ("oadr:" ++ type) body (innerAttrs attrs)) = .ok [.entry type (.dict raw)])
    (h2 : ∀ n, normalize lib (n + 21) raw = .error e) (hf : signedFacts type outer = true) : Refused lib now type p e :=
  refused_from hpre (.same _) ht h1 h2 hf

theorem rawOf_append (a b : List Group) : rawOf (a ++ b) = rawOf a ++ rawOf b := by simp [rawOf]

/-- A message that cannot be read because of one of its parts. -/
theorem refused_part {lib : Lib} {now : Int} {type : String} {p q : Dict} {e : Err} {before after : List Tmpl} {t : Tmpl}
    {attrs outer : List (String × String)} {names names' : List (String × List String)} {outs outs' : List Dict} {key : String} {vals : List Value} {w : Value}
    (hc : Conforms (.dict p) (.dict q)) (ht : Dict.get? templates type = some (signed type (before ++ t :: after) attrs outer))
    (hb : ∀ n, CarriesAll lib (n + 20) q before names outs) (hs : sure lib q t = .ok (vals.map (.entry key))) (hv : ∀ v ∈ vals, ∀ l, v ≠ .list l)
    (hw : wrapVals vals = some w) (ha : CarriesAll lib 20 q after names' outs')
    (hstep : ∀ n acc, stepEntry lib (normalize lib (n + 20)) acc (key, w) = .error e)
    (hp : (decide (type ≠ "oadrDistributeEvent") && decide (type ≠ "oadrRegisterReport")) = true := by decide +kernel)
    (hf : signedFacts type outer = true := by decide +kernel) (hn : freshNames [] names = true := by decide +kernel)
    (hd : (Dict.keys (attrItem (innerAttrs attrs)) ++ (names.map (·.1) ++ key :: names'.map (·.1))).Nodup := by decide +kernel) :
    Refused lib now type p e := by
  have hkey : localName ("oadr:" ++ type) = type := by
    simp only [signedFacts, Bool.and_eq_true, decide_eq_true_eq] at hf; exact hf.1
  have hp' := hp
  simp only [Bool.and_eq_true, decide_eq_true_eq] at hp'
  obtain ⟨fa, a1, a2, -⟩ := carriesAll_conveys lib 20 q after names' outs' ha
  obtain ⟨a3, a4⟩ := sureAll_conveys lib 20 q after fa a1
  have main : ∀ n, ∃ flow : List Group, namesOf flow = names ∧ (∀ g ∈ flow, g.Good lib (normalize lib (n + 20))) ∧
      sure lib q (el ("oadr:" ++ type) (before ++ t :: after) (innerAttrs attrs)) =
        .ok [.entry type (.dict (attrItem (innerAttrs attrs) ++ (rawOf flow ++ (key, w) :: rawOf fa)))] := by
    intro n
    obtain ⟨fb, b1, b2, -⟩ := carriesAll_conveys lib (n + 20) q before names outs (hb n)
    obtain ⟨b3, b4⟩ := sureAll_conveys lib (n + 20) q before fb b1
    refine ⟨fb, b2, b4, ?_⟩
    have hall : sureAll lib q (before ++ t :: after) = .ok ((fb ++ ⟨key, [], vals, []⟩ :: fa).flatMap Group.pieces) := by
      have app : ∀ (l m : List Tmpl) (x y : List Piece), sureAll lib q l = .ok x → sureAll lib q m = .ok y → sureAll lib q (l ++ m) = .ok (x ++ y) := by
        intro l
        induction l with
        | nil => intro m x y h1 h2; simp [sureAll] at h1; subst h1; simpa using h2
        | cons c l ih =>
          intro m x y h1 h2
          simp only [sureAll] at h1
          simp only [List.cons_append, sureAll]
          cases hc : sure lib q c with
          | error e => simp [hc] at h1
          | ok z =>
            cases hl : sureAll lib q l with
            | error e => simp [hc, hl] at h1
            | ok z' =>
              simp only [hc, hl, Except.ok.injEq] at h1
              rw [ih m z' y hl h2, ← h1]
              simp
      rw [app before (t :: after) _ (vals.map (.entry key) ++ fa.flatMap Group.pieces) b3 (by simp only [sureAll, hs, a3])]
      simp [Group.pieces]
    simp only [el, sure, sureKey, hkey, hall]
    rw [elementValue_flow]
    · have hr : rawOf (fb ++ ⟨key, [], vals, []⟩ :: fa) = rawOf fb ++ (key, w) :: rawOf fa := by simp [rawOf, hw]
      rw [hr, if_neg (by simp)]
    · have k1 : fb.map (·.key) = names.map (·.1) := by rw [← b2]; simp [namesOf]
      have k2 : fa.map (·.key) = names'.map (·.1) := by rw [← a2]; simp [namesOf]
      rw [List.map_append, List.map_cons, k1, k2]
      exact hd
    · intro g hg
      simp only [List.mem_append, List.mem_cons] at hg
      rcases hg with hg | rfl | hg
      · exact (b4 g hg).1
      · exact hv
      · exact (a4 g hg).1
  obtain ⟨f0, -, -, h0⟩ := main 0
  refine refused_from (by simp [preflightMessage, hp'.1, hp'.2]) hc ht h0 (fun n => ?_) hf
  obtain ⟨fn, n1, n2, n3⟩ := main n
  rw [h0] at n3
  simp only [Except.ok.injEq, List.cons.injEq, Piece.entry.injEq, Value.dict.injEq, true_and, and_true] at n3
  rw [n3]
  show normalizeEntries lib (normalize lib (n + 20)) [] _ = _
  rw [normalizeEntries_attrs _ _ _ _ _ (attrItem_keys _), normalizeEntries_append,
    normalizeEntries_flow lib _ fn [] [] (by simp [Dict.keys]) (by rw [n1]; exact hn) n2]
  simp only [normalizeEntries_cons, hstep]

end Openleadr
