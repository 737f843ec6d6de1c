import Verif.Lemmas.Arrive
/-!
Entries of a payload that a template does not mention make no difference to the message.
-/
namespace Openleadr

/-- The names that a condition looks up. -/
def Cond.reads : Cond → List String
  | .truthy p | .given p | .notNone p | .nonEmpty p | .startsWith p _ => p.take 1
  | .neg c => c.reads
  | .both c d => c.reads ++ d.reads

/-- The names that the tag of an element looks up. -/
def Tag.reads : Tag → List String
  | .fixed _ => []
  | .dynamic ns name => ns.take 1 ++ name.take 1
  | .qualified ns _ => ns.take 1

mutual
/-- The names that a template looks up. -/
def Tmpl.reads : Tmpl → List String
  | .elem tag _ body => tag.reads ++ readsAll body
  | .empty tag _ => tag.reads
  | .text _ => []
  | .out path _ => path.take 1
  | .cond c yes no => c.reads ++ readsAll yes ++ readsAll no
  | .loop _ over body => over.take 1 ++ readsAll body
  | .missing => []
/-- The same for the parts of a template. -/
def readsAll : List Tmpl → List String
  | [] => []
  | t :: ts => t.reads ++ readsAll ts
end

/-- Two contexts have the same values under these names. -/
def AgreeOn (names : List String) (a b : Dict) : Prop := ∀ k ∈ names, Dict.get? a k = Dict.get? b k

theorem AgreeOn.left {x y : List String} {a b : Dict} (h : AgreeOn (x ++ y) a b) : AgreeOn x a b := fun k hk => h k (List.mem_append_left _ hk)
theorem AgreeOn.right {x y : List String} {a b : Dict} (h : AgreeOn (x ++ y) a b) : AgreeOn y a b := fun k hk => h k (List.mem_append_right _ hk)

theorem lookup_agree {path : List String} {a b : Dict} (h : AgreeOn (path.take 1) a b) : lookup a path = lookup b path := by
  cases path with
  | nil => rfl
  | cons k rest => simp only [lookup]; rw [h k (by simp)]

theorem holds_agree {a b : Dict} (c : Cond) (h : AgreeOn c.reads a b) : holds a c = holds b c := by
  induction c with
  | truthy p => simp only [holds]; rw [lookup_agree h]
  | given p => simp only [holds]; rw [lookup_agree h]
  | notNone p => simp only [holds]; rw [lookup_agree h]
  | nonEmpty p => simp only [holds]; rw [lookup_agree h]
  | startsWith p s => simp only [holds]; rw [lookup_agree h]
  | neg c ih => simp only [holds]; rw [ih h]
  | both c d ihc ihd => simp only [holds]; rw [ihc h.left, ihd h.right]

theorem tagText_agree (lib : Lib) {a b : Dict} (tag : Tag) (h : AgreeOn tag.reads a b) : tagText lib a tag = tagText lib b tag := by
  cases tag with
  | fixed n => rfl
  | dynamic ns name => simp only [tagText]; rw [lookup_agree h.left, lookup_agree h.right]
  | qualified ns name => simp only [tagText]; rw [lookup_agree h]

theorem loopEnv_agree {names : List String} {a b : Dict} (h : AgreeOn names a b) (var : String) (i : Nat) (v : Value) :
    AgreeOn names (loopEnv a var i v) (loopEnv b var i v) := by
  intro k hk
  simp only [loopEnv, Dict.get?]
  split
  · rfl
  · split
    · rfl
    · exact h k hk

mutual
theorem render_agree (lib : Lib) (t : Tmpl) (a b : Dict) (h : AgreeOn t.reads a b) : render lib a t = render lib b t := by
  cases t with
  | elem tag attrs body =>
    simp only [render]
    rw [tagText_agree lib tag h.left, renderAll_agree lib body a b h.right]
  | empty tag attrs => simp only [render]; rw [tagText_agree lib tag h]
  | text s => simp only [render]
  | out path f => simp only [render]; rw [lookup_agree h]
  | cond c yes no =>
    simp only [render]
    rw [holds_agree c h.left.left, renderAll_agree lib yes a b h.left.right, renderAll_agree lib no a b h.right]
  | loop var over body =>
    simp only [render]
    rw [lookup_agree h.left]
    have : (fun i x => renderAll lib (loopEnv a var i x) body) = fun i x => renderAll lib (loopEnv b var i x) body := by
      funext i x
      exact renderAll_agree lib body _ _ (loopEnv_agree h.right var i x)
    rw [this]
  | missing => simp only [render]
theorem renderAll_agree (lib : Lib) (ts : List Tmpl) (a b : Dict) (h : AgreeOn (readsAll ts) a b) : renderAll lib a ts = renderAll lib b ts := by
  cases ts with
  | nil => simp only [renderAll]
  | cons t ts =>
    simp only [renderAll]
    rw [render_agree lib t a b h.left, renderAll_agree lib ts a b h.right]
end

theorem get?_filter_mem {α : Type} (names : List String) (p : List (String × α)) (k : String) (hk : k ∈ names) :
    Dict.get? (p.filter (fun e => names.contains e.1)) k = Dict.get? p k := by
  induction p with
  | nil => rfl
  | cons e p ih =>
    simp only [List.filter_cons]
    by_cases he : names.contains e.1 = true
    · rw [if_pos he]; simp only [Dict.get?]; rw [ih]
    · rw [if_neg he, ih]
      simp only [Dict.get?]
      rw [if_neg]
      rintro rfl
      exact he (by simpa using hk)

/-- Only the entries that the template mentions matter. -/
theorem create_mentioned {lib : Lib} {now : Int} {type : String} {t : Tmpl} (ht : Dict.get? templates type = some t) (p : Dict)
    (hp : (decide (type ≠ "oadrDistributeEvent") && decide (type ≠ "oadrRegisterReport")) = true := by decide +kernel) :
    createMessage lib now type p = createMessage lib now type (p.filter (fun e => t.reads.contains e.1)) := by
  simp only [Bool.and_eq_true, decide_eq_true_eq] at hp
  simp only [createMessage, preflightMessage, hp.1, hp.2, if_false, renderMessage, ht]
  rw [render_agree lib t p _ (fun k hk => (get?_filter_mem _ p k hk).symm)]

/-- What is received does not depend on entries that the template does not mention. -/
theorem received_mentioned {lib : Lib} {now : Int} {type : String} {t : Tmpl} (ht : Dict.get? templates type = some t) {p r : Dict}
    (h : Received lib now type (p.filter (fun e => t.reads.contains e.1)) r)
    (hp : (decide (type ≠ "oadrDistributeEvent") && decide (type ≠ "oadrRegisterReport")) = true := by decide +kernel) : Received lib now type p r := by
  obtain ⟨txt, h1, h2⟩ := h
  exact ⟨txt, by rw [create_mentioned ht p hp]; exact h1, h2⟩

end Openleadr
