import Verif.Lemmas.Wire
import Verif.Lemmas.Dict
import Verif.Spec.Wire
/-!
Rendering depends only on what is meant: `sure` is what a template stands for when every value it needs is there, and every payload that conforms
gives the same.
-/
namespace Openleadr

theorem conforms_leaf {v w : Value} (h : Conforms v w) (hl : ∀ l, w ≠ .list l) (hd : ∀ d, w ≠ .dict d) : v = w := by
  cases h with
  | same => rfl
  | list l l' => exact absurd rfl (hl l')
  | members v d => exact absurd rfl (hd d)

theorem conforms_list {v : Value} {l' : List Value} (h : Conforms v (.list l')) :
    ∃ l, v = .list l ∧ l.length = l'.length ∧ ∀ (i : Nat) x y, l[i]? = some x → l'[i]? = some y → Conforms x y := by
  cases h with
  | same =>
    refine ⟨l', rfl, rfl, ?_⟩
    intro i x y h1 h2
    rw [h1] at h2; cases h2; exact .same _
  | list l _ len each => exact ⟨l, rfl, len, each⟩

theorem conforms_members {v : Value} {d : Dict} (h : Conforms v (.dict d)) :
    ((∃ d, v = .dict d) ∨ ∃ c d, v = .obj c d) ∧ (∀ k y, Dict.get? d k = some y → ∃ x, attrOf v k = some x ∧ Conforms x y) ∧
      ∀ k, Dict.get? d k = none → attrOf v k = none ∨ (attrOf v k = some .none ∧ bareKey k = false) := by
  cases h with
  | same => exact ⟨Or.inl ⟨d, rfl⟩, fun k y h => ⟨y, h, .same _⟩, fun k h => Or.inl h⟩
  | members _ _ kind there each other =>
    refine ⟨kind, ?_, other⟩
    intro k y h
    obtain ⟨x, hx⟩ := there k y h
    exact ⟨x, hx, each k x y h hx⟩

/-- One step of a path. -/
theorem attrOf_conforms {v w : Value} (h : Conforms v w) (k : String) :
    (∀ y, attrOf w k = some y → ∃ x, attrOf v k = some x ∧ Conforms x y) ∧
      (attrOf w k = none → attrOf v k = none ∨ (attrOf v k = some .none ∧ bareKey k = false)) := by
  cases h with
  | same => exact ⟨fun y h => ⟨y, h, .same _⟩, fun h => Or.inl h⟩
  | list l l' => exact ⟨fun y h => by simp [attrOf] at h, fun _ => Or.inl rfl⟩
  | members _ d kind there each other =>
    refine ⟨?_, other k⟩
    intro y h
    obtain ⟨x, hx⟩ := there k y h
    exact ⟨x, hx, each k x y h hx⟩

theorem walk_conforms (path : List String) : ∀ {v w : Value}, Conforms v w →
    (∀ y, walk (some w) path = .ok (some y) → ∃ x, walk (some v) path = .ok (some x) ∧ Conforms x y) ∧
      (walk (some w) path = .ok none → walk (some v) path = .ok none ∨
        (walk (some v) path = .ok (some .none) ∧ ∀ k, path.getLast? = some k → bareKey k = false)) := by
  induction path with
  | nil =>
    intro v w h
    refine ⟨?_, ?_⟩
    · intro y hy; simp only [walk, Except.ok.injEq, Option.some.injEq] at hy; subst hy; exact ⟨v, rfl, h⟩
    · intro hy; simp [walk] at hy
  | cons k path ih =>
    intro v w h
    obtain ⟨h1, h2⟩ := attrOf_conforms h k
    simp only [walk]
    cases hw : attrOf w k with
    | none =>
      cases path with
      | nil =>
        refine ⟨fun y hy => by simp [walk] at hy, fun _ => ?_⟩
        rcases h2 hw with h | ⟨h, hb⟩ <;> simp [h, walk]
        exact hb
      | cons k' path => refine ⟨fun y hy => by simp [walk] at hy, fun hy => by simp [walk] at hy⟩
    | some y =>
      obtain ⟨x, hx, hc⟩ := h1 y hw
      rw [hx]
      obtain ⟨i1, i2⟩ := ih hc
      refine ⟨i1, fun hy => (i2 hy).imp id (fun ⟨h3, h4⟩ => ⟨h3, fun k' hk' => ?_⟩)⟩
      cases path with
      | nil => simp [walk] at hy
      | cons k'' path => exact h4 k' (by simpa using hk')

/-- The value of a path. -/
theorem lookup_conforms {p q : Dict} (h : Conforms (.dict p) (.dict q)) (path : List String) :
    (∀ y, lookup q path = .ok (some y) → ∃ x, lookup p path = .ok (some x) ∧ Conforms x y) ∧
      (lookup q path = .ok none → lookup p path = .ok none ∨
        (lookup p path = .ok (some .none) ∧ ∀ k, path.getLast? = some k → bareKey k = false)) := by
  cases path with
  | nil => exact ⟨fun y hy => by simp [lookup] at hy, fun hy => by simp [lookup] at hy⟩
  | cons k path =>
    have := walk_conforms (k :: path) h
    simpa only [walk, attrOf, lookup] using this

theorem loopEnv_conforms {p q : Dict} (h : Conforms (.dict p) (.dict q)) (var : String) (i : Nat) {x y : Value} (hx : Conforms x y) :
    Conforms (.dict (loopEnv p var i x)) (.dict (loopEnv q var i y)) := by
  obtain ⟨-, h1, h2⟩ := conforms_members h
  have hget : ∀ (d : Dict) (z : Value) (k : String), Dict.get? (loopEnv d var i z) k =
      if var = k then some z else if "loop" = k then some (.dict [("index0", .int i)]) else Dict.get? d k := by
    intro d z k; rfl
  refine .members _ _ (Or.inl ⟨_, rfl⟩) ?_ ?_ ?_
  · intro k y' hk
    simp only [attrOf]
    rw [hget] at hk ⊢
    split at hk
    · rename_i e; exact ⟨x, by rw [if_pos e]⟩
    · rename_i e
      split at hk
      · rename_i e'; exact ⟨_, by rw [if_neg e, if_pos e']⟩
      · obtain ⟨x', hx', -⟩ := h1 k y' hk
        exact ⟨x', by simp_all [attrOf]⟩
  · intro k x' y' hk hk'
    simp only [attrOf] at hk'
    rw [hget] at hk hk'
    split at hk
    · rename_i e
      rw [if_pos e] at hk'
      cases hk; cases hk'; exact hx
    · rename_i e
      rw [if_neg e] at hk'
      split at hk
      · rename_i e'
        rw [if_pos e'] at hk'
        cases hk; cases hk'; exact .same _
      · rename_i e'
        rw [if_neg e'] at hk'
        obtain ⟨x'', hx'', hc⟩ := h1 k y' hk
        simp only [attrOf] at hx''
        rw [hx''] at hk'; cases hk'; exact hc
  · intro k hk
    simp only [attrOf]
    rw [hget] at hk ⊢
    split at hk
    · simp at hk
    · rename_i e
      split at hk
      · simp at hk
      · rename_i e'
        rw [if_neg e, if_neg e']
        exact h2 k hk

/-! ### What a template stands for, for sure -/

/-- Values with a text of their own. -/
def isLeaf (v : Value) : Bool :=
  match v with
  | .list _ => false
  | .dict _ => false
  | _ => true

/-- The value of a path, which is there and is no collection. -/
def leafAt (env : Dict) (path : List String) : Res Value :=
  match lookup env path with
  | .ok (some v) => if isLeaf v then .ok v else .error .templateError
  | .ok none => .error .templateError
  | .error e => .error e

/-- Nothing is written for a path. -/
def bare (env : Dict) (path : List String) : Bool := (path.getLast?.any bareKey) && decide (lookup env path = .ok none)

/-- The value of a condition, where it does not matter how its parts are given. -/
def surely (env : Dict) (c : Cond) : Res Bool :=
  match c with
  | .truthy p =>
    match lookup env p with
    | .ok none => .ok false
    | .ok (some (.dict [])) => .error .templateError
    | .ok (some v) => .ok v.truthy
    | .error e => .error e
  | .given p => holds env (.given p)
  | .notNone p =>
    match lookup env p with
    | .ok none => .error .templateError
    | .ok (some v) => .ok (decide (v ≠ .none))
    | .error e => .error e
  | .nonEmpty p =>
    match lookup env p with
    | .ok (some (.list l)) => .ok (l ≠ [])
    | .ok _ => .error .templateError
    | .error e => .error e
  | .startsWith p s =>
    match lookup env p with
    | .ok (some (.str t)) => .ok (s.toList.isPrefixOf t.toList)
    | .ok _ => .error .templateError
    | .error e => .error e
  | .neg c => (surely env c).map (!·)
  | .both c d =>
    match surely env c with
    | .ok true => surely env d
    | .ok false => .ok false
    | .error e => .error e

/-- The local name of an element. -/
def sureKey (env : Dict) (tag : Tag) : Option String :=
  match tag with
  | .fixed name => some (localName name)
  | .dynamic ns name =>
    match lookup env ns, lookup env name with
    | .ok (some (.str a)), .ok (some (.str b)) => match dynamicPrefix (some (.str a)) with
      | some _ => dynamicName (some (.str b))
      | none => none
    | _, _ => none
  | .qualified ns name =>
    match lookup env ns with
    | .ok (some (.str a)) => match dynamicPrefix (some (.str a)) with
      | some _ => some name
      | none => none
    | _ => none

mutual
/-- What a template stands for, if every value it needs is there. -/
def sure (lib : Lib) (env : Dict) (t : Tmpl) : Res (List Piece) :=
  match t with
  | .elem tag attrs body =>
    match sureKey env tag with
    | some key => match sureAll lib env body with
      | .ok inner => .ok [.entry key (elementValue attrs inner)]
      | .error e => .error e
    | none => .error .xmlError
  | .empty tag attrs =>
    match sureKey env tag with
    | some key => .ok [.entry key (elementValue attrs [])]
    | none => .error .xmlError
  | .text s => if clean s.toList then .ok [.chars s.toList] else .error .xmlError
  | .out path filter =>
    match leafAt env path with
    | .ok v => match applyFilter filter (some v) with
      | .ok w => if clean (pyText lib w).toList then .ok [.chars (pyText lib w).toList] else .error .xmlError
      | .error e => .error e
    | .error e => if filter = .plain ∧ bare env path = true then .ok [.chars []] else .error e
  | .cond c yes no =>
    match surely env c with
    | .ok true => sureAll lib env yes
    | .ok false => sureAll lib env no
    | .error e => .error e
  | .loop var over body =>
    match lookup env over with
    | .ok (some (.list l)) => eachPiece (fun i x => sureAll lib (loopEnv env var i x) body) 0 l
    | .ok _ => .error .templateError
    | .error e => .error e
  | .missing => .error .templateError
/-- The parts of a template one after the other. -/
def sureAll (lib : Lib) (env : Dict) (ts : List Tmpl) : Res (List Piece) :=
  match ts with
  | [] => .ok []
  | t :: ts =>
    match sure lib env t with
    | .ok a => match sureAll lib env ts with
      | .ok b => .ok (a ++ b)
      | .error e => .error e
    | .error e => .error e
end

theorem conforms_none {v w : Value} (h : Conforms v w) (hw : w ≠ .none) : v ≠ .none := by
  cases h with
  | same => exact hw
  | list => simp
  | members _ _ kind =>
    rcases kind with ⟨d, rfl⟩ | ⟨c, d, rfl⟩ <;> simp

theorem conforms_truthy {v w : Value} (h : Conforms v w) (hw : w ≠ .dict []) : v.truthy = w.truthy := by
  cases h with
  | same => rfl
  | list l l' len =>
    simp only [Value.truthy]
    cases l <;> cases l' <;> simp at len ⊢
  | members _ d kind there =>
    have hd : d ≠ [] := fun e => hw (by rw [e])
    have h1 : (Value.dict d).truthy = true := by cases d <;> simp_all [Value.truthy]
    rw [h1]
    rcases kind with ⟨d', rfl⟩ | ⟨c, d', rfl⟩
    · simp only [Value.truthy]
      cases d with
      | nil => exact absurd rfl hd
      | cons e r =>
        obtain ⟨x, hx⟩ := there e.1 e.2 (by simp [Dict.get?])
        cases d' with
        | nil => simp [attrOf, Dict.get?] at hx
        | cons => rfl
    · rfl

theorem surely_holds {p q : Dict} (h : Conforms (.dict p) (.dict q)) (c : Cond) : ∀ b, surely q c = .ok b → holds p c = .ok b := by
  induction c with
  | truthy path =>
    intro b hb
    obtain ⟨h1, h2⟩ := lookup_conforms h path
    simp only [surely] at hb
    simp only [holds]
    split at hb
    · rename_i e
      cases hb
      rcases h2 e with e | ⟨e, -⟩ <;> simp [e, Except.map, Value.truthy]
    · simp at hb
    · rename_i v hne e
      cases hb
      obtain ⟨x, hx, hc⟩ := h1 _ e
      simp only [hx, Except.map]
      rw [conforms_truthy hc (by intro e'; subst e'; exact hne rfl)]
    · simp at hb
  | given path =>
    intro b hb
    obtain ⟨h1, h2⟩ := lookup_conforms h path
    simp only [surely, holds] at hb ⊢
    cases e : lookup q path with
    | error x => rw [e] at hb; simp [Except.map] at hb
    | ok o =>
      rw [e] at hb
      cases o with
      | none =>
        simp only [Except.map] at hb
        cases hb
        rcases h2 e with e | ⟨e, -⟩ <;> simp [e, Except.map]
      | some y =>
        obtain ⟨x, hx, hc⟩ := h1 _ e
        rw [hx]
        by_cases hy : y = .none
        · subst hy
          have := conforms_leaf hc (by simp) (by simp)
          subst this; exact hb
        · have hx' := conforms_none hc hy
          simp only [Except.map] at hb ⊢
          exact hb
  | notNone path =>
    intro b hb
    obtain ⟨h1, h2⟩ := lookup_conforms h path
    simp only [surely, holds] at hb ⊢
    split at hb
    · simp at hb
    · rename_i v e
      cases hb
      obtain ⟨x, hx, hc⟩ := h1 _ e
      simp only [hx, Except.map]
      by_cases hv : v = .none
      · subst hv
        have := conforms_leaf hc (by simp) (by simp)
        subst this; simp
      · have := conforms_none hc hv
        simp [this, hv]
    · simp at hb
  | nonEmpty path =>
    intro b hb
    obtain ⟨h1, h2⟩ := lookup_conforms h path
    simp only [surely, holds] at hb ⊢
    split at hb
    · rename_i l e
      cases hb
      obtain ⟨x, hx, hc⟩ := h1 _ e
      obtain ⟨l', rfl, hlen, -⟩ := conforms_list hc
      simp only [hx]
      cases l <;> cases l' <;> simp at hlen ⊢
    · simp at hb
    · simp at hb
  | startsWith path s =>
    intro b hb
    obtain ⟨h1, h2⟩ := lookup_conforms h path
    simp only [surely, holds] at hb ⊢
    split at hb
    · rename_i t e
      obtain ⟨x, hx, hc⟩ := h1 _ e
      have := conforms_leaf hc (by simp) (by simp)
      subst this
      simp only [hx]; exact hb
    · simp at hb
    · simp at hb
  | neg c ih =>
    intro b hb
    simp only [surely, holds] at hb ⊢
    cases e : surely q c with
    | error x => rw [e] at hb; simp [Except.map] at hb
    | ok b' => rw [ih b' e, ← e]; exact hb
  | both c d ihc ihd =>
    intro b hb
    simp only [surely, holds] at hb ⊢
    cases e : surely q c with
    | error x => rw [e] at hb; simp at hb
    | ok b' =>
      rw [e] at hb
      rw [ihc b' e]
      cases b' with
      | false => exact hb
      | true => exact ihd b hb

theorem sureKey_tagKey {p q : Dict} (h : Conforms (.dict p) (.dict q)) (tag : Tag) (key : String) (hk : sureKey q tag = some key) :
    tagKey p tag = some key := by
  have hstr : ∀ path a, lookup q path = .ok (some (.str a)) → lookup p path = .ok (some (.str a)) := by
    intro path a e
    obtain ⟨x, hx, hc⟩ := (lookup_conforms h path).1 _ e
    have := conforms_leaf hc (by simp) (by simp)
    subst this; exact hx
  cases tag with
  | fixed name => exact hk
  | dynamic ns name =>
    simp only [sureKey, tagKey] at hk ⊢
    split at hk
    · rename_i a b e1 e2
      rw [hstr _ _ e1, hstr _ _ e2]
      exact hk
    · simp at hk
  | qualified ns name =>
    simp only [sureKey, tagKey] at hk ⊢
    split at hk
    · rename_i a e1
      rw [hstr _ _ e1]
      exact hk
    · simp at hk

theorem eachPiece_conforms (f g : Nat → Value → Res (List Piece)) (l l' : List Value) (len : l.length = l'.length)
    (each : ∀ (i : Nat) x y, l[i]? = some x → l'[i]? = some y → Conforms x y)
    (h : ∀ i x y qs, Conforms x y → g i y = .ok qs → f i x = .ok qs) :
    ∀ i qs, eachPiece g i l' = .ok qs → eachPiece f i l = .ok qs := by
  induction l' generalizing l with
  | nil =>
    intro i qs hq
    cases l with
    | nil => exact hq
    | cons => simp at len
  | cons y l' ih =>
    intro i qs hq
    cases l with
    | nil => simp at len
    | cons x l =>
      have hxy : Conforms x y := each 0 x y rfl rfl
      simp only [eachPiece] at hq ⊢
      cases e : g i y with
      | error err => rw [e] at hq; simp at hq
      | ok a =>
        rw [e] at hq
        rw [h i x y a hxy e]
        simp only at hq ⊢
        cases e' : eachPiece g (i + 1) l' with
        | error err => rw [e'] at hq; simp at hq
        | ok b =>
          rw [e'] at hq
          rw [ih l (by simpa using len) (fun i x y hx hy => each (i + 1) x y (by simpa using hx) (by simpa using hy)) (i + 1) b e']
          exact hq

mutual
/-- A payload that conforms gives the same. -/
theorem sure_denote (lib : Lib) (p q : Dict) (h : Conforms (.dict p) (.dict q)) (t : Tmpl) (ps : List Piece) (hs : sure lib q t = .ok ps) :
    denote lib p t = .ok ps := by
  cases t with
  | elem tag attrs body =>
    simp only [sure, denote] at hs ⊢
    cases e : sureKey q tag with
    | none => rw [e] at hs; simp at hs
    | some key =>
      rw [e] at hs
      rw [sureKey_tagKey h tag key e]
      simp only at hs ⊢
      cases e' : sureAll lib q body with
      | error err => rw [e'] at hs; simp at hs
      | ok inner => rw [e'] at hs; rw [sureAll_denoteAll lib p q h body inner e']; exact hs
  | empty tag attrs =>
    simp only [sure, denote] at hs ⊢
    cases e : sureKey q tag with
    | none => rw [e] at hs; simp at hs
    | some key => rw [e] at hs; rw [sureKey_tagKey h tag key e]; exact hs
  | text s => exact hs
  | out path filter =>
    simp only [sure, denote, leafAt] at hs ⊢
    cases e : lookup q path with
    | error err => rw [e] at hs; simp [bare, e] at hs
    | ok o =>
      rw [e] at hs
      cases o with
      | none =>
        simp only [bare, e] at hs
        split at hs
        · rename_i hb
          simp only [Bool.and_eq_true, Option.any_eq_true] at hb
          obtain ⟨rfl, ⟨k, hk, hk'⟩, -⟩ := hb
          rcases (lookup_conforms h path).2 e with e' | ⟨-, h3⟩
          · simp only [e', applyFilter, pyText]
            exact hs
          · exact absurd (h3 k hk) (by simp [hk'])
        · simp at hs
      | some y =>
        obtain ⟨x, hx, hc⟩ := (lookup_conforms h path).1 _ e
        simp only at hs
        by_cases hl : isLeaf y = true
        · have : x = y := conforms_leaf hc (by rintro l rfl; simp [isLeaf] at hl) (by rintro l rfl; simp [isLeaf] at hl)
          subst this
          simp only [hl, if_true] at hs
          simp only [hx]; exact hs
        · simp [hl, bare, e] at hs
  | cond c yes no =>
    simp only [sure, denote] at hs ⊢
    cases e : surely q c with
    | error err => rw [e] at hs; simp at hs
    | ok b =>
      rw [e] at hs
      rw [surely_holds h c b e]
      cases b with
      | true => exact sureAll_denoteAll lib p q h yes ps hs
      | false => exact sureAll_denoteAll lib p q h no ps hs
  | loop var over body =>
    simp only [sure, denote] at hs ⊢
    split at hs
    · rename_i l' e
      obtain ⟨x, hx, hc⟩ := (lookup_conforms h over).1 _ e
      obtain ⟨l, rfl, hlen, heach⟩ := conforms_list hc
      simp only [hx, loopValues]
      exact eachPiece_conforms _ _ l l' hlen heach
        (fun i x y qs hxy hq => sureAll_denoteAll lib _ _ (loopEnv_conforms h var i hxy) body qs hq) 0 ps hs
    · simp at hs
    · simp at hs
  | missing => simp [sure] at hs
theorem sureAll_denoteAll (lib : Lib) (p q : Dict) (h : Conforms (.dict p) (.dict q)) (ts : List Tmpl) (ps : List Piece)
    (hs : sureAll lib q ts = .ok ps) : denoteAll lib p ts = .ok ps := by
  cases ts with
  | nil => exact hs
  | cons t ts =>
    simp only [sureAll, denoteAll] at hs ⊢
    cases e : sure lib q t with
    | error err => rw [e] at hs; simp at hs
    | ok a =>
      rw [e] at hs
      rw [sure_denote lib p q h t a e]
      simp only at hs ⊢
      cases e' : sureAll lib q ts with
      | error err => rw [e'] at hs; simp at hs
      | ok b => rw [e'] at hs; rw [sureAll_denoteAll lib p q h ts b e']; exact hs
end

end Openleadr
