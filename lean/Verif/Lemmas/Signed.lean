import Verif.Lemmas.LineEnds
import Verif.Model.Signed
import Verif.Lemmas.Wire
import Verif.Lemmas.Dict
/-!
A signature in the envelope does not change what is read of the message.
-/
namespace Openleadr

/-! ### A document of its own, read inside the envelope -/

/-- What the names in one scope mean, they mean in the other. -/
def ScopeUp (a b : Scope) : Prop := (∀ p u, Dict.get? a p = some u → Dict.get? b p = some u) ∧ (Dict.get? a "" = none → Dict.get? b "" = none)

theorem buildName_up {a b : Scope} (h : ScopeUp a b) {name key : String} (hk : buildName a name = some key) : buildName b name = some key := by
  unfold buildName at hk ⊢
  cases ha : Dict.get? a (splitName name).1 with
  | some u => rw [ha] at hk; rw [h.1 _ _ ha]; exact hk
  | none =>
    rw [ha] at hk
    simp only at hk
    split at hk
    · rename_i e
      rw [e] at ha ⊢
      rw [h.2 ha]
      simpa using hk
    · cases hk

theorem scopeWith_up {a b : Scope} (h : ScopeUp a b) (attrs : List (String × String)) : ScopeUp (scopeWith a attrs) (scopeWith b attrs) := by
  unfold scopeWith
  induction attrs generalizing a b with
  | nil => exact h
  | cons x attrs ih =>
    simp only [List.foldl_cons]
    apply ih
    split
    · rename_i p hp
      refine ⟨fun q u hq => ?_, fun hq => ?_⟩
      · simp only [Dict.get?] at hq ⊢
        split
        · rename_i e; rw [if_pos e] at hq; exact hq
        · rename_i e; rw [if_neg e] at hq; exact h.1 _ _ hq
      · simp only [Dict.get?] at hq ⊢
        split
        · rename_i e; rw [if_pos e] at hq; cases hq
        · rename_i e; rw [if_neg e] at hq; exact h.2 hq
    · exact h

theorem attributeEntries_up {a b : Scope} (h : ScopeUp a b) {attrs : List (String × String)} {d : Dict} (hd : attributeEntries a attrs = some d) :
    attributeEntries b attrs = some d := by
  induction attrs generalizing d with
  | nil => exact hd
  | cons x attrs ih =>
    simp only [attributeEntries] at hd ⊢
    split
    · rename_i p hp
      rw [hp] at hd
      exact ih hd
    · rename_i hp
      rw [hp] at hd
      simp only at hd
      split at hd
      · rename_i k d' hk hd'
        rw [ih hd']
        split at hk
        · rename_i e
          rw [if_pos e]
          simp only [Option.some.injEq] at hk
          subst hk
          exact hd
        · rename_i e
          rw [if_neg e, buildName_up h hk]
          exact hd
      · cases hd

/-- Frames that differ only in the scope outside. -/
structure FrameUp (f g : Frame) : Prop where
  name : f.name = g.name
  key : f.key = g.key
  outer : ScopeUp f.outer g.outer
  item : f.item = g.item
  data : f.data = g.data

/-- The same for stacks. -/
inductive FramesUp : List Frame → List Frame → Prop
  | nil : FramesUp [] []
  | cons {f g : Frame} {fs gs : List Frame} : FrameUp f g → FramesUp fs gs → FramesUp (f :: fs) (g :: gs)

/-- The frame of the envelope after an element, with white space around it. -/
def enclosing (done : Option (String × Value)) (ws : Text) : Frame :=
  { envelopeFrame with item := done.map (fun d => [d]), data := '\n' :: ws }

/-- The scope outside of the open elements. -/
def rootScope : List Frame → Scope → Scope
  | [], s => s
  | g :: gs, _ => rootScope gs g.outer

/-- A reader of a document, and a reader of the same inside the envelope. -/
structure ReadWithin (a b : Reader) : Prop where
  mode : a.mode = b.mode
  scope : ScopeUp a.scope b.scope
  notDone : b.done = none
  open? : a.stack ≠ [] → a.done = none
  stack : ∃ fs ws, b.stack = fs ++ [enclosing a.done ws] ∧ FramesUp a.stack fs ∧ ws.all isXmlSpace = true ∧
    rootScope fs b.scope = insideEnvelope.scope

theorem within_pushChar {a b a' : Reader} {c : Char} (h : ReadWithin a b) (ha : pushChar a c = .ok a') : ∃ b', pushChar b c = .ok b' ∧ ReadWithin a' b' := by
  obtain ⟨hm, hs, hn, ho, fs, ws, hb, hf, hw, hr⟩ := h
  unfold pushChar at ha ⊢
  cases hst : a.stack with
  | nil =>
    rw [hst] at ha hf
    cases hf
    rw [hb]
    simp only [List.nil_append] at ha ⊢
    split at ha
    · rename_i hsp
      simp only [Except.ok.injEq] at ha
      subst ha
      refine ⟨_, rfl, ⟨rfl, hs, hn, fun e => absurd rfl e, [], ws ++ [c], ?_, ?_, ?_, hr⟩⟩
      · simp [enclosing]
      · exact .nil
      · simp [hw, hsp]
    · cases ha
  | cons f rest =>
    rw [hst] at ha hf
    cases hf with
    | @cons _ g _ gs h1 h2 =>
      rw [hb]
      simp only [Except.ok.injEq, List.cons_append] at ha ⊢
      subst ha
      refine ⟨_, rfl, ⟨rfl, hs, hn, fun _ => ho (by rw [hst]; simp), { g with data := g.data ++ [c] } :: gs, ws, rfl, ?_, hw, hr⟩⟩
      refine .cons ⟨h1.name, h1.key, h1.outer, h1.item, by simp [h1.data]⟩ h2

theorem within_open {a b a' : Reader} {name : String} {attrs : List (String × String)} (h : ReadWithin a b) (ha : openElement a name attrs = .ok a') :
    ∃ b', openElement b name attrs = .ok b' ∧ ReadWithin a' b' := by
  obtain ⟨hm, hs, hn, ho, fs, ws, hb, hf, hw, hr⟩ := h
  have hup := scopeWith_up hs attrs
  unfold openElement at ha ⊢
  simp only at ha ⊢
  split at ha
  · rename_i key entries hk he
    rw [buildName_up hup hk, attributeEntries_up hup he]
    simp only
    split at ha
    · cases ha
    · rename_i hnot
      simp only [Except.ok.injEq] at ha
      have hdone : a.done = none := by
        by_cases e : a.stack = []
        · cases hd : a.done with
          | none => rfl
          | some d => exact absurd ⟨e, by rw [hd]; rfl⟩ hnot
        · exact ho e
      subst ha
      rw [if_neg (by rw [hb]; simp)]
      refine ⟨_, rfl, ⟨rfl, hup, hn, fun _ => hdone, ?_⟩⟩
      refine ⟨{ name := name, key := key, outer := b.scope, item := if entries = [] then none else some entries, data := [] } :: fs, ws, ?_, ?_, hw, hr⟩
      · simp [hb]
      · exact .cons ⟨rfl, rfl, hs, rfl, rfl⟩ hf
  · cases ha

theorem within_close {a b a' : Reader} {name : String} (h : ReadWithin a b) (ha : closeElement a name = .ok a') :
    ∃ b', closeElement b name = .ok b' ∧ ReadWithin a' b' := by
  obtain ⟨hm, hs, hn, ho, fs, ws, hb, hf, hw, hr⟩ := h
  unfold closeElement at ha ⊢
  cases hst : a.stack with
  | nil => rw [hst] at ha; cases ha
  | cons f rest =>
    have hdone := ho (by rw [hst]; simp)
    rw [hst] at ha hf
    cases hf with
    | @cons _ g _ gs h1 h2 =>
      rw [hb]
      simp only [List.cons_append] at ha ⊢
      rw [← h1.name]
      split at ha
      · cases ha
      · rename_i e
        rw [if_neg e]
        cases h2 with
        | nil =>
          simp only [Except.ok.injEq, List.nil_append] at ha ⊢
          subst ha
          refine ⟨_, rfl, ⟨rfl, h1.outer, hn, fun e => absurd rfl e, [], ws, ?_, .nil, hw, hr⟩⟩
          simp only [enclosing, hdone, Option.map, pushData, List.nil_append, h1.key, h1.item, h1.data]
        | @cons f2 g2 rest gs h3 h4 =>
          simp only [Except.ok.injEq, List.cons_append] at ha ⊢
          subst ha
          refine ⟨_, rfl, ⟨rfl, h1.outer, hn, fun _ => hdone, { g2 with item := pushData g2.item g.key (closeValue g.item g.data) } :: gs, ws, ?_, ?_, hw, hr⟩⟩
          · simp
          · exact .cons ⟨h3.name, h3.key, h3.outer, by simp only [h3.item, h1.key, h1.item, h1.data], h3.data⟩ h4

theorem within_mode {a b : Reader} (h : ReadWithin a b) (m : Mode) : ReadWithin { a with mode := m } { b with mode := m } :=
  ⟨rfl, h.scope, h.notDone, h.open?, h.stack⟩

theorem within_endTag {a b a' : Reader} {acc : Text} (h : ReadWithin a b) (ha : endTag a acc = .ok a') : ∃ b', endTag b acc = .ok b' ∧ ReadWithin a' b' := by
  unfold endTag at ha ⊢
  split at ha
  · simp only [Except.ok.injEq] at ha
    subst ha
    exact ⟨_, rfl, within_mode h _⟩
  · cases ha
  · exact within_close h ha
  · split at ha
    · rename_i e
      rw [if_pos e]
      split at ha
      · rename_i name attrs hp
        split at ha
        · rename_i r' hr
          obtain ⟨b1, h1, h2⟩ := within_open h hr
          rw [h1]
          exact within_close h2 ha
        · cases ha
      · cases ha
    · rename_i e
      rw [if_neg e]
      split at ha
      · rename_i name attrs hp
        exact within_open h ha
      · cases ha

theorem within_char {a b a' : Reader} {c : Char} (h : ReadWithin a b) (ha : readChar a c = .ok a') : ∃ b', readChar b c = .ok b' ∧ ReadWithin a' b' := by
  unfold readChar at ha ⊢
  rw [← h.mode]
  split at ha
  · cases ha
  · rename_i hx
    rw [if_neg hx]
    cases hm : a.mode with
    | text =>
      rw [hm] at ha
      simp only at ha ⊢
      split at ha
      · cases ha; rename_i e; rw [if_pos e]; exact ⟨_, rfl, within_mode h _⟩
      · rename_i e1
        rw [if_neg e1]
        split at ha
        · cases ha; rename_i e; rw [if_pos e]; exact ⟨_, rfl, within_mode h _⟩
        · rename_i e; rw [if_neg e]; exact within_pushChar h ha
    | entity acc =>
      rw [hm] at ha
      simp only at ha ⊢
      split at ha
      · rename_i e
        rw [if_pos e]
        split at ha
        · rename_i x hx; exact within_pushChar h ha
        · cases ha
      · rename_i e1
        rw [if_neg e1]
        split at ha
        · cases ha; rename_i e; rw [if_pos e]; exact ⟨_, rfl, within_mode h _⟩
        · cases ha
    | tag acc q =>
      rw [hm] at ha
      cases q with
      | some q =>
        simp only at ha ⊢
        split at ha
        · cases ha
        · rename_i e1
          rw [if_neg e1]
          split at ha
          · cases ha; rename_i e; rw [if_pos e]; exact ⟨_, rfl, within_mode h _⟩
          · cases ha; rename_i e; rw [if_neg e]; exact ⟨_, rfl, within_mode h _⟩
      | none =>
        simp only at ha ⊢
        split at ha
        · rename_i e; rw [if_pos e]; exact within_endTag h ha
        · rename_i e1
          rw [if_neg e1]
          split at ha
          · cases ha
          · rename_i e2
            rw [if_neg e2]
            split at ha
            · cases ha; rename_i e; rw [if_pos e]; exact ⟨_, rfl, within_mode h _⟩
            · cases ha; rename_i e; rw [if_neg e]; exact ⟨_, rfl, within_mode h _⟩

theorem within_read {t : Text} {a b a' : Reader} (h : ReadWithin a b) (ha : readText a t = .ok a') : ∃ b', readText b t = .ok b' ∧ ReadWithin a' b' := by
  induction t generalizing a b with
  | nil => simp only [readText, Except.ok.injEq] at ha ⊢; subst ha; exact ⟨b, rfl, h⟩
  | cons c t ih =>
    simp only [readText] at ha ⊢
    split at ha
    · rename_i r' hr
      obtain ⟨b1, h1, h2⟩ := within_char h hr
      rw [h1]
      exact ih h2 ha
    · cases ha

theorem within_start : ReadWithin Reader.start insideEnvelope := by
  refine ⟨rfl, ⟨fun p u h => ?_, fun _ => by decide +kernel⟩, rfl, fun e => absurd rfl e, [], [], rfl, .nil, rfl, rfl⟩
  simp only [Reader.start, Dict.get?, insideEnvelope] at h ⊢
  split at h
  · rename_i e
    subst e
    simpa using h
  · cases h

/-- The reader after a document inside the envelope. -/
theorem read_inside {t : Text} {r : Reader} {d : String × Value} (hr : readText Reader.start t = .ok r) (hm : r.mode = .text) (hs : r.stack = [])
    (hd : r.done = some d) : ∃ b ws, readText insideEnvelope t = .ok b ∧ b.mode = .text ∧ b.stack = [enclosing (some d) ws] ∧ ws.all isXmlSpace = true ∧
      b.done = none ∧ b.scope = insideEnvelope.scope := by
  obtain ⟨b, hb, hw⟩ := within_read within_start hr
  obtain ⟨fs, ws, h1, h2, h3, h4⟩ := hw.stack
  rw [hs] at h2
  cases h2
  exact ⟨b, ws, hb, by rw [← hw.mode, hm], by rw [h1, hd]; rfl, h3, hw.notDone, h4⟩

/-! ### What follows, after a signature and without -/

/-- The entries of the two items are the same, but for the signature. -/
def ScopeSameBut (i j : Option Dict) : Prop := ∀ k, k ≠ "Signature" → Dict.get? (i.getD []) k = Dict.get? (j.getD []) k

theorem sameBut_push {i j : Option Dict} (h : ScopeSameBut i j) (key : String) (v : Value) : ScopeSameBut (pushData i key v) (pushData j key v) := by
  have step : ∀ i : Option Dict, ∀ k, Dict.get? ((pushData i key v).getD []) k = if k = key then
      some (match Dict.get? (i.getD []) key with | some (.list l) => .list (l ++ [v]) | some w => .list [w, v] | none => v) else Dict.get? (i.getD []) k := by
    intro i k
    cases i with
    | none =>
      simp only [pushData, Option.getD, Dict.get?]
      by_cases e : k = key
      · simp [e]
      · rw [if_neg (fun e' => e e'.symm), if_neg e]
    | some d =>
      simp only [pushData, Option.getD_some]
      by_cases e : k = key
      · subst e
        rw [if_pos rfl]
        cases hd : Dict.get? d k with
        | none => simp [Dict.get?_set_self]
        | some w => cases w <;> simp [Dict.get?_set_self]
      · rw [if_neg e]
        cases hd : Dict.get? d key with
        | none => simp [Dict.get?_set_other _ _ _ _ e]
        | some w => cases w <;> simp [Dict.get?_set_other _ _ _ _ e]
  intro k hk
  rw [step, step]
  by_cases e : k = key
  · rw [if_pos e, if_pos e, h key (e ▸ hk)]
  · rw [if_neg e, if_neg e, h k hk]

/-- The two frames of the envelope, without and with a signature. -/
structure FrameBeside (f g : Frame) : Prop where
  name : f.name = g.name
  key : f.key = g.key
  outer : f.outer = g.outer
  item : ScopeSameBut f.item g.item
  data : ∃ u v x, f.data = u ++ x ∧ g.data = v ++ x ∧ u.all isXmlSpace = true ∧ v.all isXmlSpace = true

/-- What is found in the signed object of one is found in the other. -/
def FoundIn (v w : Value) : Prop := ∀ x, entryAt v "oadrSignedObject" = .ok x → entryAt w "oadrSignedObject" = .ok x

/-- Two readers of the rest of a message, without and with a signature before it. -/
inductive Beside : Reader → Reader → Prop
  | inside (a b : Reader) (mode : a.mode = b.mode) (scope : a.scope = b.scope) (done : a.done = none ∧ b.done = none) (fs : List Frame) (f g : Frame)
      (sa : a.stack = fs ++ [f]) (sb : b.stack = fs ++ [g]) (frame : FrameBeside f g) : Beside a b
  | after (a b : Reader) (mode : a.mode = b.mode) (scope : a.scope = b.scope) (sa : a.stack = []) (sb : b.stack = []) (key : String) (v w : Value)
      (da : a.done = some (key, v)) (db : b.done = some (key, w)) (found : FoundIn v w) : Beside a b

theorem Beside.sameMode {a b : Reader} (h : Beside a b) : a.mode = b.mode := by cases h <;> assumption

theorem Beside.sameScope {a b : Reader} (h : Beside a b) : a.scope = b.scope := by cases h <;> assumption

theorem Beside.withMode {a b : Reader} (h : Beside a b) (m : Mode) : Beside { a with mode := m } { b with mode := m } := by
  cases h with
  | inside mode scope done fs f g sa sb frame => exact .inside _ _ rfl scope done fs f g sa sb frame
  | after mode scope sa sb key v w da db found => exact .after _ _ rfl scope sa sb key v w da db found

theorem beside_pushChar {a b a' : Reader} {c : Char} (h : Beside a b) (ha : pushChar a c = .ok a') : ∃ b', pushChar b c = .ok b' ∧ Beside a' b' := by
  unfold pushChar at ha ⊢
  cases h with
  | inside mode scope done fs f g sa sb frame =>
    cases fs with
    | nil =>
      rw [sa] at ha
      rw [sb]
      simp only [List.nil_append, Except.ok.injEq] at ha ⊢
      subst ha
      obtain ⟨u, v, x, h1, h2, h3, h4⟩ := frame.data
      refine ⟨_, rfl, .inside _ _ rfl scope done [] _ _ rfl rfl ⟨frame.name, frame.key, frame.outer, frame.item, u, v, x ++ [c], ?_, ?_, h3, h4⟩⟩
      · simp [h1]
      · simp [h2]
    | cons e fs =>
      rw [sa] at ha
      rw [sb]
      simp only [List.cons_append, Except.ok.injEq] at ha ⊢
      subst ha
      exact ⟨_, rfl, .inside _ _ rfl scope done ({ e with data := e.data ++ [c] } :: fs) f g rfl rfl frame⟩
  | after mode scope sa sb key v w da db found =>
    rw [sa] at ha
    rw [sb]
    simp only at ha ⊢
    split at ha
    · rename_i hsp
      simp only [Except.ok.injEq] at ha
      subst ha
      rw [if_pos hsp]
      exact ⟨_, rfl, .after _ _ rfl scope rfl rfl key v w da db found⟩
    · cases ha

theorem beside_open {a b a' : Reader} {name : String} {attrs : List (String × String)} (h : Beside a b) (ha : openElement a name attrs = .ok a') :
    ∃ b', openElement b name attrs = .ok b' ∧ Beside a' b' := by
  have hscope := h.sameScope
  unfold openElement at ha ⊢
  simp only at ha ⊢
  rw [← hscope]
  split at ha
  · rename_i key entries hk he
    cases h with
    | inside mode scope done fs f g sa sb frame =>
      rw [if_neg (by rw [sa]; simp)] at ha
      rw [if_neg (by rw [sb]; simp)]
      simp only [Except.ok.injEq] at ha
      subst ha
      refine ⟨_, rfl, .inside _ _ rfl rfl ⟨done.1, done.2⟩ ({ name := name, key := key, outer := a.scope, item := if entries = [] then none else some entries, data := [] } :: fs) f g ?_ ?_ frame⟩
      · simp [sa]
      · simp [sb]
    | after mode scope sa sb key v w da db found =>
      rw [if_pos ⟨sa, by rw [da]; rfl⟩] at ha
      cases ha
  · cases ha

theorem space_py {t : Text} (h : t.all isXmlSpace = true) : t.all isPySpace = true := by
  rw [List.all_eq_true] at h ⊢
  intro c hc
  have := h c hc
  simp only [isXmlSpace, Bool.or_eq_true, decide_eq_true_eq] at this
  rcases this with ((rfl | rfl) | rfl) | rfl <;> decide

theorem strip_space {u x : Text} (h : u.all isXmlSpace = true) : strip (u ++ x) = strip x := by
  simp only [strip, dropWhile_append_all _ _ _ (space_py h)]

theorem found_close {f g : Frame} (h : FrameBeside f g) : FoundIn (closeValue f.item f.data) (closeValue g.item g.data) := by
  obtain ⟨u, v, x, h1, h2, h3, h4⟩ := h.data
  have e1 : strip f.data = strip x := by rw [h1, strip_space h3]
  have e2 : strip g.data = strip x := by rw [h2, strip_space h4]
  intro y hy
  unfold closeValue at hy ⊢
  simp only [e1] at hy
  simp only [e2]
  have hi := h.item
  cases hf : f.item with
  | none =>
    rw [hf] at hy
    simp only at hy
    split at hy <;> simp [entryAt] at hy
  | some d =>
    rw [hf] at hy hi
    simp only at hy
    have key : ∀ d' : Dict, ScopeSameBut (some d) (some d') → Dict.get? d "oadrSignedObject" = some y → Dict.get? d' "oadrSignedObject" = some y := by
      intro d' hs hd
      have := hs "oadrSignedObject" (by decide)
      simp only [Option.getD_some] at this
      rw [← this, hd]
    split at hy
    · rename_i ex
      simp only [entryAt] at hy
      cases hd : Dict.get? d "oadrSignedObject" with
      | none => rw [hd] at hy; cases hy
      | some z =>
        rw [hd] at hy
        simp only [Except.ok.injEq] at hy
        subst hy
        cases hg : g.item with
        | none =>
          rw [hg] at hi
          have := hi "oadrSignedObject" (by decide)
          simp [hd, Dict.get?] at this
        | some d' =>
          rw [hg] at hi
          simp only [if_pos ex, entryAt, key d' hi hd]
    · rename_i ex
      have hp := sameBut_push hi "#text" (.str (String.ofList (strip x)))
      cases hg : g.item with
      | none =>
        rw [hg] at hi hp
        simp only [if_neg ex]
        cases hq : pushData (some d) "#text" (.str (String.ofList (strip x))) with
        | none => rw [hq] at hy; simp [entryAt] at hy
        | some q =>
          rw [hq] at hy hp
          simp only [entryAt] at hy
          have := hp "oadrSignedObject" (by decide)
          simp only [pushData, Option.getD_some, Dict.get?] at this
          rw [this] at hy
          simp at hy
      | some d' =>
        rw [hg] at hi hp
        simp only [if_neg ex]
        cases hq : pushData (some d) "#text" (.str (String.ofList (strip x))) with
        | none => rw [hq] at hy; simp [entryAt] at hy
        | some q =>
          rw [hq] at hy hp
          cases hq' : pushData (some d') "#text" (.str (String.ofList (strip x))) with
          | none =>
            exfalso
            revert hq'
            simp only [pushData]
            split <;> simp
          | some q' =>
            rw [hq'] at hp
            simp only [entryAt] at hy ⊢
            have := hp "oadrSignedObject" (by decide)
            simp only [Option.getD_some] at this
            rw [← this]
            exact hy

theorem beside_close {a b a' : Reader} {name : String} (h : Beside a b) (ha : closeElement a name = .ok a') :
    ∃ b', closeElement b name = .ok b' ∧ Beside a' b' := by
  unfold closeElement at ha ⊢
  cases h with
  | after mode scope sa sb key v w da db found => rw [sa] at ha; cases ha
  | inside mode scope done fs f g sa sb frame =>
    cases fs with
    | nil =>
      rw [sa] at ha
      rw [sb]
      simp only [List.nil_append] at ha ⊢
      rw [← frame.name]
      split at ha
      · cases ha
      · rename_i e
        rw [if_neg e]
        simp only [Except.ok.injEq] at ha
        subst ha
        exact ⟨_, rfl, .after _ _ rfl frame.outer rfl rfl f.key _ _ rfl (by simp [frame.key]) (found_close frame)⟩
    | cons e fs =>
      rw [sa] at ha
      rw [sb]
      simp only [List.cons_append] at ha ⊢
      split at ha
      · cases ha
      · rename_i en
        rw [if_neg en]
        cases fs with
        | nil =>
          simp only [List.nil_append, Except.ok.injEq] at ha ⊢
          subst ha
          exact ⟨_, rfl, .inside _ _ rfl rfl done [] _ _ rfl rfl
            ⟨frame.name, frame.key, frame.outer, sameBut_push frame.item _ _, frame.data⟩⟩
        | cons e2 fs =>
          simp only [List.cons_append, Except.ok.injEq] at ha ⊢
          subst ha
          exact ⟨_, rfl, .inside _ _ rfl rfl done ({ e2 with item := pushData e2.item e.key (closeValue e.item e.data) } :: fs) f g rfl rfl frame⟩

theorem beside_endTag {a b a' : Reader} {acc : Text} (h : Beside a b) (ha : endTag a acc = .ok a') : ∃ b', endTag b acc = .ok b' ∧ Beside a' b' := by
  unfold endTag at ha ⊢
  split at ha
  · simp only [Except.ok.injEq] at ha
    subst ha
    exact ⟨_, rfl, h.withMode _⟩
  · cases ha
  · exact beside_close h ha
  · split at ha
    · rename_i e
      rw [if_pos e]
      split at ha
      · rename_i name attrs hp
        split at ha
        · rename_i r' hr
          obtain ⟨b1, h1, h2⟩ := beside_open h hr
          rw [h1]
          exact beside_close h2 ha
        · cases ha
      · cases ha
    · rename_i e
      rw [if_neg e]
      split at ha
      · rename_i name attrs hp
        exact beside_open h ha
      · cases ha

theorem beside_char {a b a' : Reader} {c : Char} (h : Beside a b) (ha : readChar a c = .ok a') : ∃ b', readChar b c = .ok b' ∧ Beside a' b' := by
  unfold readChar at ha ⊢
  rw [← h.sameMode]
  split at ha
  · cases ha
  · rename_i hx
    rw [if_neg hx]
    cases hm : a.mode with
    | text =>
      rw [hm] at ha
      simp only at ha ⊢
      split at ha
      · cases ha; rename_i e; rw [if_pos e]; exact ⟨_, rfl, h.withMode _⟩
      · rename_i e1
        rw [if_neg e1]
        split at ha
        · cases ha; rename_i e; rw [if_pos e]; exact ⟨_, rfl, h.withMode _⟩
        · rename_i e; rw [if_neg e]; exact beside_pushChar h ha
    | entity acc =>
      rw [hm] at ha
      simp only at ha ⊢
      split at ha
      · rename_i e
        rw [if_pos e]
        split at ha
        · rename_i x hx; exact beside_pushChar h ha
        · cases ha
      · rename_i e1
        rw [if_neg e1]
        split at ha
        · cases ha; rename_i e; rw [if_pos e]; exact ⟨_, rfl, h.withMode _⟩
        · cases ha
    | tag acc q =>
      rw [hm] at ha
      cases q with
      | some q =>
        simp only at ha ⊢
        split at ha
        · cases ha
        · rename_i e1
          rw [if_neg e1]
          split at ha
          · cases ha; rename_i e; rw [if_pos e]; exact ⟨_, rfl, h.withMode _⟩
          · cases ha; rename_i e; rw [if_neg e]; exact ⟨_, rfl, h.withMode _⟩
      | none =>
        simp only at ha ⊢
        split at ha
        · rename_i e; rw [if_pos e]; exact beside_endTag h ha
        · rename_i e1
          rw [if_neg e1]
          split at ha
          · cases ha
          · rename_i e2
            rw [if_neg e2]
            split at ha
            · cases ha; rename_i e; rw [if_pos e]; exact ⟨_, rfl, h.withMode _⟩
            · cases ha; rename_i e; rw [if_neg e]; exact ⟨_, rfl, h.withMode _⟩

theorem beside_read {t : Text} {a b a' : Reader} (h : Beside a b) (ha : readText a t = .ok a') : ∃ b', readText b t = .ok b' ∧ Beside a' b' := by
  induction t generalizing a b with
  | nil => simp only [readText, Except.ok.injEq] at ha ⊢; subst ha; exact ⟨b, rfl, h⟩
  | cons c t ih =>
    simp only [readText] at ha ⊢
    split at ha
    · rename_i r' hr
      obtain ⟨b1, h1, h2⟩ := beside_char h hr
      rw [h1]
      exact ih h2 ha
    · cases ha

/-! ### Whole messages -/

theorem normalizeEnds_append (a b : Text) (h : a.getLast? ≠ some '\r') : normalizeEnds (a ++ b) = normalizeEnds a ++ normalizeEnds b := by
  fun_induction normalizeEnds a with
  | case1 r ih =>
    simp only [List.cons_append, normalizeEnds]
    rw [ih (by cases r with
      | nil => simp
      | cons x r => simpa using h)]
  | case2 r hr ih =>
    cases r with
    | nil => simp at h
    | cons x r =>
      have hx : x ≠ '\n' := by rintro rfl; exact hr r rfl
      have e : normalizeEnds ('\r' :: x :: r ++ b) = '\n' :: normalizeEnds (x :: r ++ b) := by
        simp only [List.cons_append]
        conv => lhs; unfold normalizeEnds
        split
        · rename_i heq; simp only [List.cons.injEq] at heq; exact absurd heq.2.1 hx
        · rename_i heq; simp only [List.cons.injEq, true_and] at heq; rw [← heq]
        · rename_i h1 h2 heq; simp only [List.cons.injEq] at heq; exact (h2 heq.1.symm).elim
        · rename_i heq; cases heq
      rw [e, ih (by simpa using h)]
      rfl
  | case3 c r h1 h2 ih =>
    have hc : c ≠ '\r' := by rintro rfl; exact h2 rfl
    have e : normalizeEnds (c :: r ++ b) = c :: normalizeEnds (r ++ b) := by
      simp only [List.cons_append]
      conv => lhs; unfold normalizeEnds
      split
      · rename_i heq; simp only [List.cons.injEq] at heq; exact absurd heq.1 hc
      · rename_i heq; simp only [List.cons.injEq] at heq; exact absurd heq.1 hc
      · rename_i heq; simp only [List.cons.injEq] at heq; rw [← heq.1, ← heq.2]
      · rename_i heq; cases heq
    rw [e, ih (by cases r with
      | nil => simp
      | cons x r => simpa using h)]
    rfl
  | case4 => simp

theorem sectionEnd_append {a b : Text} (h : a.getLast? ≠ some ']') : sectionEnd (a ++ b) = (sectionEnd a || sectionEnd b) := by
  induction a with
  | nil => simp [sectionEnd]
  | cons c a ih =>
    have ha : a.getLast? ≠ some ']' := by cases a with
      | nil => simp
      | cons x a => simpa using h
    simp only [List.cons_append, sectionEnd]
    rw [ih ha, Bool.or_assoc]
    congr 1
    cases a with
    | nil =>
      simp only [List.getLast?_singleton, ne_eq, Option.some.injEq] at h
      simp [h]
    | cons x a =>
      cases a with
      | nil =>
        simp only [List.getLast?_singleton, ne_eq, Option.some.injEq] at ha
        simp [ha]
      | cons y a => simp

theorem twice_more {f g : Dict → Res Dict} (h : ∀ d r, f d = .ok r → g d = .ok r) {l r : List Value} (hl : twice f l = .ok r) : twice g l = .ok r := by
  induction l generalizing r with
  | nil => exact hl
  | cons v l ih =>
    simp only [twice] at hl ⊢
    have step : ∀ w : Res Value, ∀ w' : Res Value, (∀ y, w = .ok y → w' = .ok y) → (match w with
        | .ok w => match twice f l with
          | .ok l' => .ok (w :: l')
          | .error e => .error e
        | .error e => .error e) = (.ok r : Res (List Value)) → (match w' with
        | .ok w => match twice g l with
          | .ok l' => .ok (w :: l')
          | .error e => .error e
        | .error e => .error e) = (.ok r : Res (List Value)) := by
      intro w w' hw hwl
      cases w with
      | error e => cases hwl
      | ok y =>
        rw [hw y rfl]
        simp only at hwl ⊢
        cases hf : twice f l with
        | error e => rw [hf] at hwl; cases hwl
        | ok l' => rw [hf] at hwl; rw [ih hf]; exact hwl
    cases v with
    | dict d =>
      refine step _ _ (fun y hy => ?_) hl
      simp only at hy ⊢
      cases hf : f d with
      | error e => rw [hf] at hy; cases hy
      | ok d' =>
        rw [hf] at hy
        simp only at hy
        rw [h _ _ hf]
        simp only
        cases hf' : f d' with
        | error e => rw [hf'] at hy; cases hy
        | ok z => rw [hf'] at hy; rw [h _ _ hf']; exact hy
    | _ => simp only at hl ⊢; exact step (.ok _) (.ok _) (fun y hy => hy) hl

theorem entryValue_more {lib : Lib} {f g : Dict → Res Dict} (h : ∀ d r, f d = .ok r → g d = .ok r) {key : String} {v w : Value}
    (hv : entryValue lib f key v = .ok w) : entryValue lib g key v = .ok w := by
  unfold entryValue at hv ⊢
  cases v with
  | dict d =>
    simp only at hv ⊢
    cases hf : f d with
    | error e => rw [hf] at hv; cases hv
    | ok z => rw [hf] at hv; rw [h _ _ hf]; exact hv
  | list l =>
    simp only at hv ⊢
    cases hf : twice f l with
    | error e => rw [hf] at hv; cases hv
    | ok z => rw [hf] at hv; rw [twice_more h hf]; exact hv
  | _ => exact hv

theorem normalizeEntries_more {lib : Lib} {f g : Dict → Res Dict} (h : ∀ d r, f d = .ok r → g d = .ok r) {entries acc r : Dict}
    (hv : normalizeEntries lib f acc entries = .ok r) : normalizeEntries lib g acc entries = .ok r := by
  induction entries generalizing acc with
  | nil => exact hv
  | cons e rest ih =>
    simp only [normalizeEntries] at hv ⊢
    split at hv
    · rename_i acc' hs
      have : stepEntry lib g acc e = .ok acc' := by
        unfold stepEntry at hs ⊢
        split
        · rename_i ha; rw [if_pos ha] at hs; exact hs
        · rename_i ha
          rw [if_neg ha] at hs
          split at hs
          · rename_i w hw; rw [entryValue_more h hw]; exact hs
          · cases hs
      rw [this]
      exact ih hv
    · cases hv

/-- A larger bound on the nesting changes nothing. -/
theorem normalize_more {lib : Lib} {n m : Nat} (hn : n ≤ m) {d r : Dict} (h : normalize lib n d = .ok r) : normalize lib m d = .ok r := by
  induction n generalizing m d r with
  | zero => cases h
  | succ n ih =>
    obtain ⟨m, rfl⟩ : ∃ m', m = m' + 1 := ⟨m - 1, by omega⟩
    exact normalizeEntries_more (fun d r hd => ih (by omega) hd) h

/-- A message is read the same with a signature in its envelope: with any text that is an XML document of its own, with the root `Signature`. -/
theorem signed_parse {lib : Lib} {sig signed : Text} {v : Value} {x : String × Value} (hs : parseXml sig = .ok ("Signature", v))
    (hl : sig.getLast? = some '>') (h : parseMessage lib (envelope signed) = .ok x) : parseMessage lib (signedEnvelope sig signed) = .ok x := by
  generalize hrest : (signed ++ ('\n' :: ('<' :: '/' :: "oadr:oadrPayload".toList ++ ['>']))) = rest at *
  have e1 : envelope signed = envelopeHead ++ rest := by rw [envelope, hrest]
  have e2 : signedEnvelope sig signed = envelopeHead ++ (sig ++ rest) := by rw [signedEnvelope, hrest]
  have hh : envelopeHead.getLast? = some '\n' := by decide +kernel
  have hhead : normalizeEnds envelopeHead = envelopeHead := by decide +kernel
  have hsh : sectionEnd envelopeHead = false := by decide +kernel
  rw [e1] at h
  rw [e2]
  unfold parseMessage at h
  split at h
  · rename_i doc hdoc
    unfold parseXml at hdoc hs
    split at hdoc
    · cases hdoc
    rename_i hsec
    split at hs
    · cases hs
    rename_i hsecs
    rw [sectionEnd_append (by rw [hh]; decide), hsh, Bool.false_or] at hsec
    rw [normalizeEnds_append _ _ (by rw [hh]; decide), hhead, readText_append, read_envelope] at hdoc
    simp only at hdoc
    have hne : normalizeEnds (envelopeHead ++ (sig ++ rest)) = envelopeHead ++ (normalizeEnds sig ++ normalizeEnds rest) := by
      rw [normalizeEnds_append _ _ (by rw [hh]; decide), hhead, normalizeEnds_append _ _ (by rw [hl]; decide)]
    cases hr : readText Reader.start (normalizeEnds sig) with
    | error e => rw [hr] at hs; cases hs
    | ok r =>
      rw [hr] at hs
      simp only at hs
      split at hs
      · rename_i d hm hst hd
        simp only [Except.ok.injEq] at hs
        subst hs
        obtain ⟨b, ws, hb1, hb2, hb3, hb4, hb5, hb6⟩ := read_inside hr hm hst hd
        have hbeside : Beside insideEnvelope b := by
          refine .inside _ _ hb2.symm hb6.symm ⟨rfl, hb5⟩ [] envelopeFrame (enclosing (some ("Signature", v)) ws) rfl hb3 ⟨rfl, rfl, rfl, ?_, ?_⟩
          · intro k hk
            simp [envelopeFrame, enclosing, Dict.get?, Ne.symm hk]
          · exact ⟨['\n'], '\n' :: ws, [], rfl, by simp [enclosing], rfl, by simp [hb4, isXmlSpace]⟩
        cases hq : readText insideEnvelope (normalizeEnds rest) with
        | error e => rw [hq] at hdoc; cases hdoc
        | ok q =>
          rw [hq] at hdoc
          simp only at hdoc
          obtain ⟨q', hq', hbes⟩ := beside_read hbeside hq
          split at hdoc
          · rename_i dd hqm hqs hqd
            simp only [Except.ok.injEq] at hdoc
            subst hdoc
            cases hbes with
            | inside mode scope done fs f g sa sb frame => rw [hqs] at sa; simp at sa
            | after mode scope sa sb key v1 v2 da db found =>
              have hx : parseXml (envelopeHead ++ (sig ++ rest)) = .ok (key, v2) := by
                unfold parseXml
                rw [if_neg (by rw [sectionEnd_append (by rw [hh]; decide), sectionEnd_append (by rw [hl]; decide), hsh]; simp [hsec, hsecs])]
                rw [hne, readText_append, read_envelope]
                simp only
                rw [readText_append, hb1]
                simp only
                rw [hq']
                simp only [← mode, hqm, sb, db]
              simp only [parseMessage, hx]
              rw [hqd] at da
              cases da
              simp only [messageOf] at h ⊢
              by_cases hk : key = "oadrPayload"
              · subst hk
                simp only [entryAt, Dict.get?, if_true] at h ⊢
                split at h
                · cases h
                · rename_i signedv hsv
                  have := found signedv hsv
                  simp only [entryAt] at this
                  rw [this]
                  simp only
                  split at h
                  · cases h
                  · rename_i type d hle
                    cases hn : normalize lib (envelopeHead ++ rest).length d with
                    | error e => rw [hn] at h; cases h
                    | ok d' =>
                      rw [hn] at h
                      rw [normalize_more (by simp) hn]
                      exact h
                  · cases h
              · simp [entryAt, Dict.get?, hk] at h
          · cases hdoc
      · cases hs
  · cases h

end Openleadr
