import Verif.Model.Preflight
import Verif.Lemmas.Dict
import Verif.Spec.Preflight
/-! Loops and changes inside messages, for the properties of `preflight_message`. -/
namespace Openleadr

theorem Each.imp {R R' : α → β → Prop} (h : ∀ x y, R x y → R' x y) : ∀ {l : List α} {l' : List β}, Each R l l' → Each R' l l'
  | [], [], _ => trivial
  | _ :: _, _ :: _, ⟨h1, h2⟩ => ⟨h _ _ h1, Each.imp h h2⟩
  | [], _ :: _, hh => hh.elim
  | _ :: _, [], hh => hh.elim

theorem Each.comp {R : α → β → Prop} {Q : β → γ → Prop} : ∀ {l : List α} {m : List β} {n : List γ}, Each R l m → Each Q m n →
    Each (fun x z => ∃ y, R x y ∧ Q y z) l n
  | [], [], [], _, _ => trivial
  | _ :: _, _ :: _, _ :: _, ⟨h1, h2⟩, ⟨g1, g2⟩ => ⟨⟨_, h1, g1⟩, Each.comp h2 g2⟩
  | [], _ :: _, _, hh, _ => hh.elim
  | _ :: _, [], _, hh, _ => hh.elim
  | [], [], _ :: _, _, hh => hh.elim
  | _ :: _, _ :: _, [], _, hh => hh.elim

theorem Each.right {R : α → β → Prop} : ∀ {l : List α} {l' : List β}, Each R l l' → ∀ y ∈ l', ∃ x ∈ l, R x y
  | [], [], _, y, hy => by cases hy
  | a :: l, b :: l', ⟨h1, h2⟩, y, hy => by
    rcases List.mem_cons.mp hy with h | h
    · exact ⟨a, by simp, h ▸ h1⟩
    · obtain ⟨x, hx, hr⟩ := Each.right h2 y h
      exact ⟨x, by simp [hx], hr⟩
  | [], _ :: _, hh, _, _ => hh.elim
  | _ :: _, [], hh, _, _ => hh.elim

theorem Each.left {R : α → β → Prop} : ∀ {l : List α} {l' : List β}, Each R l l' → ∀ x ∈ l, ∃ y ∈ l', R x y
  | [], [], _, y, hy => by cases hy
  | a :: l, b :: l', ⟨h1, h2⟩, y, hy => by
    rcases List.mem_cons.mp hy with h | h
    · exact ⟨b, by simp, h ▸ h1⟩
    · obtain ⟨x, hx, hr⟩ := Each.left h2 y h
      exact ⟨x, by simp [hx], hr⟩
  | [], _ :: _, hh, _, _ => hh.elim
  | _ :: _, [], hh, _, _ => hh.elim

theorem Each.refl {R : α → α → Prop} : ∀ {l : List α}, (∀ x ∈ l, R x x) → Each R l l
  | [], _ => trivial
  | x :: _, h => ⟨h x (by simp), Each.refl (fun y hy => h y (by simp [hy]))⟩

theorem Each.length {R : α → β → Prop} : ∀ {l : List α} {l' : List β}, Each R l l' → l'.length = l.length
  | [], [], _ => rfl
  | _ :: _, _ :: _, ⟨_, h2⟩ => by simp [Each.length h2]
  | [], _ :: _, hh => hh.elim
  | _ :: _, [], hh => hh.elim

theorem Each.eq : ∀ {l l' : List α}, Each (fun x y => y = x) l l' → l' = l
  | [], [], _ => rfl
  | _ :: _, _ :: _, ⟨h1, h2⟩ => by rw [h1, Each.eq h2]
  | [], _ :: _, hh => hh.elim
  | _ :: _, [], hh => hh.elim

theorem eachOk_iff (f : α → Res β) : ∀ (l : List α) (l' : List β), eachOk f l = .ok l' ↔ Each (fun x y => f x = .ok y) l l'
  | [], l' => by
    cases l' with
    | nil => simp [eachOk, Each]
    | cons => simp [eachOk, Each]
  | x :: l, l' => by
    have ih := eachOk_iff f l
    unfold eachOk
    cases hx : f x with
    | error e =>
      cases l' with
      | nil => simp [Each]
      | cons => simp [Each, hx]
    | ok y =>
      cases hl : eachOk f l with
      | error e =>
        cases l' with
        | nil => simp [Each]
        | cons y' ys =>
          simp only [Each, hx, reduceCtorEq, Except.ok.injEq, false_iff, not_and]
          intro _ hh
          have := (ih ys).mpr hh
          rw [hl] at this
          cases this
      | ok ys =>
        cases l' with
        | nil => simp [Each]
        | cons y' ys' =>
          simp only [Each, hx, Except.ok.injEq, List.cons.injEq]
          rw [← ih ys', hl]
          simp

theorem eachOk_id (f : α → Res α) (l : List α) (h : ∀ x ∈ l, f x = .ok x) : eachOk f l = .ok l :=
  (eachOk_iff f l l).mpr (Each.refl h)

/-! ### items -/

theorem item_ok {v x : Value} {k : String} (h : item v k = .ok x) : ∃ d, v = .dict d ∧ Dict.get? d k = some x := by
  unfold item at h
  split at h
  · rename_i d
    split at h
    · rename_i y hy; cases h; exact ⟨d, rfl, hy⟩
    · cases h
  · cases h

theorem item_dict {d : Dict} {k : String} {x : Value} (h : Dict.get? d k = some x) : item (.dict d) k = .ok x := by
  simp [item, h]

theorem setItem_ok {v x v' : Value} {k : String} (h : setItem v k x = .ok v') : ∃ d, v = .dict d ∧ v' = .dict (Dict.set d k x) := by
  unfold setItem at h
  split at h
  · cases h; exact ⟨_, rfl, rfl⟩
  · cases h

theorem modifyItem_ok {v v' : Value} {k : String} {f : Value → Res Value} (h : modifyItem v k f = .ok v') :
    ∃ d x x', v = .dict d ∧ Dict.get? d k = some x ∧ f x = .ok x' ∧ v' = .dict (Dict.set d k x') := by
  unfold modifyItem at h
  split at h
  · cases h
  · rename_i x hx
    obtain ⟨d, hd, hg⟩ := item_ok hx
    split at h
    · cases h
    · rename_i x' hx'
      obtain ⟨d', hd', hv⟩ := setItem_ok h
      rw [hd] at hd'
      cases hd'
      exact ⟨d, x, x', hd, hg, hx', hv⟩

theorem modifyItem_dict {d : Dict} {k : String} {x x' : Value} {f : Value → Res Value} (hg : Dict.get? d k = some x) (hf : f x = .ok x') :
    modifyItem (.dict d) k f = .ok (.dict (Dict.set d k x')) := by
  simp [modifyItem, item_dict hg, hf, setItem]

theorem modifyItem_id {d : Dict} {k : String} {x : Value} {f : Value → Res Value} (hg : Dict.get? d k = some x) (hf : f x = .ok x) :
    modifyItem (.dict d) k f = .ok (.dict d) := by
  rw [modifyItem_dict hg hf, Dict.set_get?_self d k x hg]

/-! ### loops -/

/-- The same kind of collection with other elements. -/
def rebuild (v : Value) (l : List Value) : Value :=
  match v with
  | .list _ => .list l
  | .tuple _ => .tuple l
  | v => v

/-- A collection that a loop goes through by its `kids`. -/
def Iter (v : Value) : Prop := elements v = .ok (kids v)

theorem forEach_iter {f : Value → Res Value} {v v' : Value} (hi : Iter v) (h : forEach f v = .ok v') :
    ∃ l', eachOk f (kids v) = .ok l' ∧ v' = rebuild v l' ∧ Iter v' ∧ kids v' = l' := by
  unfold forEach at h
  rw [hi] at h
  simp only [] at h
  split at h
  · cases h
  · rename_i l' hl'
    have hlen := ((eachOk_iff f _ _).mp hl').length
    refine ⟨l', hl', ?_⟩
    split at h
    · cases h; exact ⟨rfl, rfl, rfl⟩
    · cases h; exact ⟨rfl, rfl, rfl⟩
    · rename_i w h1 h2
      cases h
      have hk : kids v = [] := by
        cases v <;> simp_all [kids]
      rw [hk] at hlen
      have : l' = [] := by simpa using hlen
      refine ⟨?_, hi, by rw [this, hk]⟩
      cases v <;> simp_all [rebuild]

theorem forEach_id {f : Value → Res Value} {v : Value} (hi : Iter v) (h : ∀ x ∈ kids v, f x = .ok x) : forEach f v = .ok v := by
  unfold forEach
  rw [hi]
  simp only [eachOk_id f _ h]
  cases v <;> rfl

/-- A loop whose body fails on texts goes through a list or tuple, or through nothing. -/
theorem forEach_texts {f : Value → Res Value} {v v' : Value} (hf : ∀ s x, f (.str s) ≠ .ok x) (h : forEach f v = .ok v') : Iter v := by
  unfold forEach at h
  split at h
  · cases h
  · rename_i l hl
    split at h
    · cases h
    · rename_i l' hl'
      have he := (eachOk_iff f _ _).mp hl'
      cases v with
      | list => rfl
      | tuple => rfl
      | dict d =>
        cases d with
        | nil => rfl
        | cons a d =>
          simp only [elements, List.map_cons, Except.ok.injEq] at hl
          subst hl
          cases l' with
          | nil => exact he.elim
          | cons y ys => exact absurd he.1 (hf _ _)
      | str s =>
        simp only [elements, Except.ok.injEq] at hl
        subst hl
        cases hs : s.toList with
        | nil => simp [Iter, elements, hs, kids]
        | cons a r =>
          rw [hs] at he
          cases l' with
          | nil => exact he.elim
          | cons y ys => exact absurd he.1 (hf _ _)
      | _ => simp [elements] at hl

/-- The same for a comprehension. -/
theorem eachOk_texts {f : Value → Res β} {v : Value} {l : List Value} {l' : List β} (hf : ∀ s x, f (.str s) ≠ .ok x) (hl : elements v = .ok l)
    (h : eachOk f l = .ok l') : Iter v ∧ l = kids v := by
  have : Iter v := by
    have he := (eachOk_iff f _ _).mp h
    cases v with
    | list => rfl
    | tuple => rfl
    | dict d =>
      cases d with
      | nil => rfl
      | cons a d =>
        simp only [elements, List.map_cons, Except.ok.injEq] at hl
        subst hl
        cases l' with
        | nil => exact he.elim
        | cons y ys => exact absurd he.1 (hf _ _)
    | str s =>
      simp only [elements, Except.ok.injEq] at hl
      subst hl
      cases hs : s.toList with
      | nil => simp [Iter, elements, hs, kids]
      | cons a r =>
        rw [hs] at he
        cases l' with
        | nil => exact he.elim
        | cons y ys => exact absurd he.1 (hf _ _)
    | _ => simp [elements] at hl
  refine ⟨this, ?_⟩
  rw [this] at hl
  cases hl
  rfl

/-! ### phases -/

/-- An element goes through all the loops. -/
def Chain : List (Value → Res Value) → Value → Value → Prop
  | [], x, y => y = x
  | f :: fs, x, y => ∃ z, f x = .ok z ∧ Chain fs z y

theorem phases_iter {key : String} {fs : List (Value → Res Value)} {d : Dict} {v : Value} {m' : Value} (hg : Dict.get? d key = some v) (hi : Iter v)
    (h : phases key (.dict d) fs = .ok m') :
    ∃ v', m' = .dict (Dict.set d key v') ∧ Iter v' ∧ Each (Chain fs) (kids v) (kids v') := by
  induction fs generalizing d v with
  | nil =>
    cases h
    exact ⟨v, by rw [Dict.set_get?_self d key v hg], hi, Each.refl (fun _ _ => rfl)⟩
  | cons f fs ih =>
    unfold phases at h
    split at h
    · cases h
    · rename_i m1 hm1
      obtain ⟨d1, x, x', hd1, hx, hf, hm⟩ := modifyItem_ok hm1
      cases hd1
      rw [hg] at hx
      cases hx
      obtain ⟨l', hl', hr, hi', hk⟩ := forEach_iter hi hf
      subst hm
      obtain ⟨v', hv', hiv, he⟩ := ih (Dict.get?_set_self d key x') hi' h
      refine ⟨v', ?_, hiv, ?_⟩
      · rw [hv']
        congr 1
        clear hv' h hm1 hf hg ih
        induction d with
        | nil => simp [Dict.set]
        | cons e d ihd =>
          obtain ⟨k0, v0⟩ := e
          simp only [Dict.set]
          split
          · rename_i hk0; simp [Dict.set, hk0]
          · rename_i hk0
            simp [Dict.set, hk0, ihd]
      · rw [hk] at he
        exact Each.comp ((eachOk_iff f _ _).mp hl') he

/-- The message after the loops, if the first loop fails on texts. -/
theorem phases_ok {key : String} {f : Value → Res Value} {fs : List (Value → Res Value)} {m m' : Value} (hf : ∀ s x, f (.str s) ≠ .ok x)
    (h : phases key m (f :: fs) = .ok m') :
    ∃ d v v', m = .dict d ∧ Dict.get? d key = some v ∧ Iter v ∧ m' = .dict (Dict.set d key v') ∧ Iter v' ∧ Each (Chain (f :: fs)) (kids v) (kids v') := by
  have h0 := h
  unfold phases at h
  split at h
  · cases h
  · rename_i m1 hm1
    obtain ⟨d, x, x', hd, hx, hfx, hm⟩ := modifyItem_ok hm1
    have hi := forEach_texts hf hfx
    subst hd
    obtain ⟨v', h1, h2, h3⟩ := phases_iter hx hi h0
    exact ⟨d, x, v', rfl, hx, hi, h1, h2, h3⟩

theorem phases_id {key : String} {fs : List (Value → Res Value)} {d : Dict} {v : Value} (hg : Dict.get? d key = some v) (hi : Iter v)
    (h : ∀ f ∈ fs, ∀ x ∈ kids v, f x = .ok x) : phases key (.dict d) fs = .ok (.dict d) := by
  induction fs with
  | nil => rfl
  | cons f fs ih =>
    unfold phases
    rw [modifyItem_id hg (forEach_id hi (h f (by simp)))]
    exact ih (fun g hg' => h g (by simp [hg']))

end Openleadr
