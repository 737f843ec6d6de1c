import Verif.Lemmas.ValidMessage
import Verif.Lemmas.UniqueDocument
/-!
Documents that are not valid: what a message has is described by types of its own, which clash with those of the schema.
-/
namespace Openleadr

open Xsd (XType Part QName Names Fits Sequence Choices elementName)

/-- The name is not among those of these particles. -/
def unnamed (q : QName) (parts : List Part) : Bool := parts.all (fun p => p.2.2.all (fun a => decide (a.1 ≠ q)))

/-- How many elements of this name there can be at most, if every particle that has it is limited. -/
def atMost (q : QName) (parts : List Part) : Option Nat :=
  match parts with
  | [] => some 0
  | (_, max, alts) :: parts => if alts.all (fun a => decide (a.1 ≠ q)) then atMost q parts else
    match max, atMost q parts with
    | some m, some n => some (m + n)
    | _, _ => none

/-- How many elements of this name there are at least. -/
def atLeast (q : QName) (parts : List Part) : Nat :=
  match parts with
  | [] => 0
  | (min, _, alts) :: parts => (if alts.all (fun a => decide (a.1 = q)) then min else 0) + atLeast q parts

theorem choices_member {names : Names} {alts : List (QName × XType)} {ts : List Xsd.Tree} (h : Choices names alts ts) :
    ∀ t ∈ ts, ∃ a ∈ alts, elementName names t = some a.1 ∧ Fits names a.2 t := by
  induction ts with
  | nil => simp
  | cons x ts ih =>
    cases h with
    | cons ha hn hf hr =>
      intro t ht
      rcases List.mem_cons.1 ht with rfl | ht
      · exact ⟨_, ha, hn, hf⟩
      · exact ih hr t ht

theorem sequence_member {names : Names} : ∀ {parts : List Part} {ts : List Xsd.Tree}, Sequence names parts ts →
    ∀ t ∈ ts, ∃ p ∈ parts, ∃ a ∈ p.2.2, elementName names t = some a.1 ∧ Fits names a.2 t
  | [], _, h => by cases h; simp
  | p :: parts, _, h => by
    cases h with
    | part min max ht hmin hmax hr =>
      intro t hm
      rcases List.mem_append.1 hm with hm | hm
      · obtain ⟨a, h1, h2⟩ := choices_member ht t hm
        exact ⟨_, List.mem_cons_self, a, h1, h2⟩
      · obtain ⟨p, h1, h2⟩ := sequence_member hr t hm
        exact ⟨p, List.mem_cons_of_mem _ h1, h2⟩

theorem sequence_required {names : Names} : ∀ {parts : List Part} {ts : List Xsd.Tree}, Sequence names parts ts →
    ∀ p ∈ parts, 1 ≤ p.1 → ∃ t ∈ ts, ∃ a ∈ p.2.2, elementName names t = some a.1 ∧ Fits names a.2 t
  | [], _, h => by simp
  | _ :: parts, _, h => by
    cases h with
    | @part _ _ _ ts _ min max ht hmin hmax hr =>
      intro p hp h1
      rcases List.mem_cons.1 hp with rfl | hp
      · cases ts with
        | nil => simp only [List.length_nil] at hmin; simp only at h1; omega
        | cons t ts =>
          obtain ⟨a, ha⟩ := choices_member ht t (by simp)
          exact ⟨t, by simp, a, ha⟩
      · obtain ⟨t, h2, h3⟩ := sequence_required hr p hp h1
        exact ⟨t, by simp [h2], h3⟩

/-- How many of the elements have this name. -/
def named (names : Names) (q : QName) (ts : List Xsd.Tree) : Nat := ts.countP (fun t => decide (elementName names t = some q))

theorem sequence_atMost {names : Names} {q : QName} : ∀ {parts : List Part} {ts : List Xsd.Tree} {n : Nat}, Sequence names parts ts →
    atMost q parts = some n → named names q ts ≤ n
  | [], _, n, h, hn => by cases h; simp [named]
  | _ :: parts, _, n, h, hn => by
    cases h with
    | @part _ alts _ ts rest min max ht hmin hmax hr =>
      simp only [named, List.countP_append]
      simp only [atMost] at hn
      split at hn
      · rename_i hall
        have := sequence_atMost hr hn
        have h0 : ts.countP (fun t => decide (elementName names t = some q)) = 0 := by
          rw [List.countP_eq_zero]
          intro t htm
          obtain ⟨a, ha, h1, -⟩ := choices_member ht t htm
          have := List.all_eq_true.1 hall a ha
          simp only [decide_eq_true_eq] at this
          simp [h1, this]
        simp only [named] at this
        omega
      · split at hn
        · rename_i m k hk
          cases hn
          have h1 := sequence_atMost hr hk
          have h2 := hmax m rfl
          have h3 : ts.countP (fun t => decide (elementName names t = some q)) ≤ ts.length := List.countP_le_length
          simp only [named] at h1
          omega
        · cases hn

theorem sequence_atLeast {names : Names} {q : QName} : ∀ {parts : List Part} {ts : List Xsd.Tree}, Sequence names parts ts →
    atLeast q parts ≤ named names q ts
  | [], _, h => by simp [atLeast]
  | _ :: parts, _, h => by
    cases h with
    | @part _ alts _ ts rest min max ht hmin hmax hr =>
      have h1 := sequence_atLeast (q := q) hr
      simp only [named, List.countP_append, atLeast] at h1 ⊢
      split
      · rename_i hall
        have h0 : ts.countP (fun t => decide (elementName names t = some q)) = ts.length := by
          rw [List.countP_eq_length]
          intro t htm
          obtain ⟨a, ha, h1, -⟩ := choices_member ht t htm
          have := List.all_eq_true.1 hall a ha
          simp only [decide_eq_true_eq] at this
          simp [h1, this]
        omega
      · omega

/-- No element can fit both of two types. -/
inductive Clash : XType → XType → Prop
  /-- No text is allowed by both. -/
  | simple {ok ok' : List Char → Prop} (h : ∀ t, ok t → ¬ ok' t) : Clash (.simple ok) (.simple ok')
  /-- One requires an element that the other does not have. -/
  | missing {al al' parts parts'} {min : Nat} {max : Option Nat} {alts} (k : Nat) (hk : parts[k]? = some (min, max, alts)) (h1 : 1 ≤ min)
      (hn : alts.all (fun a => unnamed a.1 parts') = true) : Clash (.sequence al parts) (.sequence al' parts')
  /-- One has more elements of a name than the other allows. -/
  | many {al al' parts parts'} (q : QName) (n : Nat) (hm : atMost q parts = some n) (hl : n < atLeast q parts') : Clash (.sequence al parts) (.sequence al' parts')
  /-- They clash for an element that one requires. -/
  | inner {al al' parts parts'} {q : QName} {ty ty' : XType} {min min' : Nat} {max max' : Option Nat} {alts : List (QName × XType)} (k j k' : Nat)
      (hk' : parts'[k']? = some (min', max', [(q, ty')])) (h1 : 1 ≤ min') (hk : parts[k]? = some (min, max, alts)) (hj : alts[j]? = some (q, ty))
      (hn : unnamed q (parts.eraseIdx k) = true) (hn' : (alts.eraseIdx j).all (fun a => decide (a.1 ≠ q)) = true) (h : Clash ty ty') :
      Clash (.sequence al parts) (.sequence al' parts')

theorem mem_or_erase {l : List α} {k : Nat} {x y : α} (hk : l[k]? = some x) (hy : y ∈ l) : y = x ∨ y ∈ l.eraseIdx k := by
  obtain ⟨i, hi, rfl⟩ := List.mem_iff_getElem.1 hy
  by_cases h : i = k
  · subst h
    rw [List.getElem?_eq_getElem hi, Option.some.injEq] at hk
    exact .inl hk
  · exact .inr (List.mem_eraseIdx_iff_getElem.2 ⟨i, hi, h, rfl⟩)

theorem Clash.false {ty ty' : XType} (h : Clash ty ty') : ∀ {names : Names} {t : Xsd.Tree}, Fits names ty t → ¬ Fits names ty' t := by
  induction h with
  | simple h =>
    intro names t h1 h2
    cases h1 with
    | simple he ha hk ht =>
      cases h2 with
      | simple he' ha' hk' ht' =>
        rw [he] at he'
        cases he'
        exact h _ ht ht'
  | missing k hk h1 hn =>
    intro names t f1 f2
    cases f1 with
    | sequence he ha hd hq =>
      cases f2 with
      | sequence he' ha' hd' hq' =>
        rw [he] at he'
        cases he'
        obtain ⟨t, ht, a, hm, e1, -⟩ := sequence_required hq _ (List.mem_of_getElem? hk) h1
        obtain ⟨p, hp, b, hb, e2, -⟩ := sequence_member hq' t ht
        have := List.all_eq_true.1 (List.all_eq_true.1 (List.all_eq_true.1 hn a hm) p hp) b hb
        simp only [decide_eq_true_eq] at this
        rw [e1, Option.some.injEq] at e2
        exact this e2.symm
  | many q n hm hl =>
    intro names t f1 f2
    cases f1 with
    | sequence he ha hd hq =>
      cases f2 with
      | sequence he' ha' hd' hq' =>
        rw [he] at he'
        cases he'
        have h1 := sequence_atMost hq hm
        have h2 := sequence_atLeast (q := q) hq'
        omega
  | inner k j k' hk' h1 hk hj hn hn' h ih =>
    intro names t f1 f2
    cases f1 with
    | sequence he ha hd hq =>
      cases f2 with
      | sequence he' ha' hd' hq' =>
        rw [he] at he'
        cases he'
        obtain ⟨t, ht, a, hm, e1, e2⟩ := sequence_required hq' _ (List.mem_of_getElem? hk') h1
        rw [List.mem_singleton] at hm
        subst hm
        obtain ⟨p, hp, b, hb, e3, e4⟩ := sequence_member hq t ht
        rw [e1, Option.some.injEq] at e3
        rcases mem_or_erase hk hp with rfl | hp
        · rcases mem_or_erase hj hb with rfl | hb
          · exact ih e4 e2
          · have := List.all_eq_true.1 hn' b hb
            simp only [decide_eq_true_eq] at this
            exact this e3.symm
        · have := List.all_eq_true.1 (List.all_eq_true.1 hn p hp) b hb
          simp only [decide_eq_true_eq] at this
          exact this e3.symm

/-- Documents that hold some of the messages are valid. -/
theorem validAs_valid {type : String} {root : Xsd.Tree} (h : Xsd.ValidAs type root) : Xsd.Valid root := by
  obtain ⟨h1, h2⟩ := h
  refine ⟨h1, ?_⟩
  cases h2 with
  | sequence he ha hd hq =>
    refine .sequence he ha hd ?_
    generalize Xsd.elements _ = es at hq ⊢
    cases hq with
    | @part _ _ _ ts _ _ _ ht hmin hmax hr =>
      refine .part _ _ ?_ hmin hmax hr
      clear hmin hmax hd he ha hr
      induction ts with
      | nil => exact .nil
      | cons t ts ih =>
        cases ht with
        | cons hm hn hf hr =>
          rw [List.mem_singleton] at hm
          cases hm
          refine .cons (List.mem_singleton.2 rfl) hn ?_ (ih hr)
          cases hf with
          | sequence he ha hd hq =>
            refine .sequence he ha hd ?_
            generalize Xsd.elements _ = es at hq ⊢
            cases hq with
            | @part _ _ _ ts2 _ _ _ ht hmin hmax hr =>
              refine .part _ _ ?_ hmin hmax hr
              clear hmin hmax hd he ha hr ih
              induction ts2 with
              | nil => exact .nil
              | cons u us ih2 =>
                cases ht with
                | cons hm hn hf hr => exact .cons (List.mem_filter.1 hm).1 hn hf (ih2 hr)

variable {lib : Lib} {now : Int}

/-- The message that is created has these parts, which clash with those of the schema. -/
theorem invalid_of {type : String} {p q : Dict} {body : List Tmpl} {attrs outer : List (String × String)} {parts parts' : List Part} (k : Nat)
    (sent : Dict) (hpre : preflightMessage now type p = .ok (.dict sent)) (hc : Conforms (.dict sent) (.dict q))
    (ht : Dict.get? templates type = some (signed type body attrs outer)) (hm : Xsd.messages[k]? = some (Xsd.oadr type, Xsd.message parts))
    (h : Fills lib q (messageNames attrs outer) body parts') (hcl : Clash (Xsd.message parts) (Xsd.message parts'))
    (hf : shellFacts type attrs outer = true) (hk : (Xsd.messages.eraseIdx k).all (fun a => decide (a.1 ≠ Xsd.oadr type)) = true) :
    ∃ txt, createMessage lib now type p = .ok txt ∧ Xsd.Invalid txt := by
  obtain ⟨ks, g1, g2, g3, g4⟩ := gives_signed h hf (choice := [(Xsd.oadr type, Xsd.message parts')]) (List.mem_singleton.2 rfl)
  match ks, g2 with
  | [t], _ =>
    obtain ⟨s1, s2⟩ := g3 t (by simp)
    obtain ⟨txt, d1, d2⟩ := document_of hpre hc ht g1 s1 s2
    refine ⟨txt, d1, ⟨_, d2⟩, fun root hroot hv => ?_⟩
    replace hv := Xsd.validFor_unique hroot d2 hv
    have hw := valid_root g4 s2
    have c1 : Clash (Xsd.signedObject Xsd.messages) (Xsd.signedObject [(Xsd.oadr type, Xsd.message parts')]) :=
      .inner (q := Xsd.oadr type) 0 k 0 rfl (Nat.le_refl 1) rfl hm rfl hk hcl
    have c2 : Clash (Xsd.payload Xsd.messages) (Xsd.payload [(Xsd.oadr type, Xsd.message parts')]) :=
      .inner (q := Xsd.oadr "oadrSignedObject") 0 0 0 rfl (Nat.le_refl 1) rfl rfl rfl rfl c1
    exact c2.false hv.2 hw.2

/-- Messages that are sent as they are given. -/
theorem schemaInvalid_of {type : String} {q : Dict} {body : List Tmpl} {attrs outer : List (String × String)} {parts parts' : List Part} (k : Nat)
    (ht : Dict.get? templates type = some (signed type body attrs outer)) (hm : Xsd.messages[k]? = some (Xsd.oadr type, Xsd.message parts))
    (h : Fills lib q (messageNames attrs outer) body parts') (hcl : Clash (Xsd.message parts) (Xsd.message parts'))
    (hf : shellFacts type attrs outer = true := by decide +kernel)
    (hk : (Xsd.messages.eraseIdx k).all (fun a => decide (a.1 ≠ Xsd.oadr type)) = true := by decide +kernel)
    (hp : (decide (type ≠ "oadrDistributeEvent") && decide (type ≠ "oadrRegisterReport")) = true := by decide +kernel) : SchemaInvalid lib now type q := by
  intro p hc
  simp only [Bool.and_eq_true, decide_eq_true_eq] at hp
  exact invalid_of k p (by simp [preflightMessage, hp.1, hp.2]) hc ht hm h hcl hf hk

end Openleadr
