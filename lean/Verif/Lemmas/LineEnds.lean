import Verif.Lemmas.Injection
/-!
A poll whose `ven_id` is any text without markup.
-/
namespace Openleadr
theorem read_ends (r : Reader) (v p s : Frame) (t : Text) (hm : r.mode = .text) (hs : r.stack = [v, p, s, envelopeFrame]) (hd : r.done = none)
    (hv : v.name = "ei:venID" ∧ v.key = "venID" ∧ v.item = none ∧ v.data = t)
    (hp : p.name = "oadr:oadrPoll" ∧ p.key = "oadrPoll" ∧ p.item = some [("@schemaVersion", .str "2.0b")] ∧ p.data = [])
    (hg : s.name = "oadr:oadrSignedObject" ∧ s.key = "oadrSignedObject" ∧ s.item = some [("@Id", .str "oadrSignedObject")] ∧ s.data = [] ∧
      s.outer = insideEnvelope.scope) : readText r pollEnd =
    .ok { mode := .text, stack := [], scope := Reader.start.scope, done := some ("oadrPayload", .dict [("oadrSignedObject", .dict [("@Id", .str "oadrSignedObject"),
      ("oadrPoll", .dict [("@schemaVersion", .str "2.0b"), ("venID", closeValue none t)])])]) } := by
  obtain ⟨vn, vk, vo, vi, vd⟩ := v
  obtain ⟨pn, pk, po, pi, pd⟩ := p
  obtain ⟨sn, sk, so, si, sd⟩ := s
  obtain ⟨rm, rs, rc, rd⟩ := r
  simp only at hm hs hd hv hp hg
  obtain ⟨rfl, rfl, rfl, rfl⟩ := hv
  obtain ⟨rfl, rfl, rfl, rfl⟩ := hp
  obtain ⟨rfl, rfl, rfl, rfl, rfl⟩ := hg
  subst hm hs hd
  have htail : pollEnd = ('<' :: '/' :: "ei:venID".toList ++ ['>']) ++ (('<' :: '/' :: "oadr:oadrPoll".toList ++ ['>']) ++
      (('<' :: '/' :: "oadr:oadrSignedObject".toList ++ ['>']) ++ ('\n' :: ('<' :: '/' :: "oadr:oadrPayload".toList ++ ['>'])))) := by decide +kernel
  rw [htail, readText_append, read_close _ "ei:venID" _ _ _ rfl rfl rfl (by decide +kernel) (by decide +kernel)]
  simp only
  rw [readText_append, read_close _ "oadr:oadrPoll" _ _ _ rfl rfl rfl (by decide +kernel) (by decide +kernel)]
  simp only
  rw [readText_append, read_close _ "oadr:oadrSignedObject" _ _ _ rfl rfl rfl (by decide +kernel) (by decide +kernel)]
  have e5 : insideEnvelope.mode = .text ∧ insideEnvelope.done = none := by decide +kernel
  have e6 : envelopeFrame.item = none := rfl
  have hs : strip [] = [] := rfl
  generalize hw : closeValue none vd = w
  simp only [closeValue, hs, pushData, Dict.get?, Dict.set, if_true, e6]
  have := read_envelope_end "oadrSignedObject" (.dict [("@Id", .str "oadrSignedObject"),
      ("oadrPoll", .dict [("@schemaVersion", .str "2.0b"), ("venID", w)])]) _ rfl
  rw [← this]
  simp [e5.1, e5.2, envelopeFrame, Frame.add, pushData]

theorem read_data (r : Reader) (t : Text) (f : Frame) (rest : List Frame) (hm : r.mode = .text) (hs : r.stack = f :: rest)
    (hc : ∀ c ∈ t, isXmlChar c = true ∧ c ≠ '<' ∧ c ≠ '&') : readText r t = .ok { r with stack := { f with data := f.data ++ t } :: rest } := by
  induction t generalizing r f with
  | nil => cases r; cases f; simp_all [readText]
  | cons c t ih =>
    obtain ⟨h1, h4, h5⟩ := hc c (by simp)
    simp only [readText, readChar, h1, hm, h4, h5, if_false, pushChar, hs]
    simp only [Bool.true_eq_false, if_false]
    rw [ih { r with mode := .text, stack := { f with data := f.data ++ [c] } :: rest } _ rfl rfl (fun c hc' => hc c (by simp [hc']))]
    cases r
    simp_all

theorem strip_ends {t : Text} (h1 : ∀ c, t.head? = some c → isPySpace c = false) (h2 : ∀ c, t.getLast? = some c → isPySpace c = false) : strip t = t := by
  apply strip_trimmed
  exact ⟨fun c r e => h1 c (by rw [e]; rfl), fun c r e => h2 c (by rw [e]; simp)⟩

theorem normalizeEnds_skip (a t : Text) (h : '\r' ∉ a) : normalizeEnds (a ++ t) = a ++ normalizeEnds t := by
  induction a with
  | nil => rfl
  | cons c a ih =>
    simp only [List.mem_cons, not_or] at h
    have hc : c ≠ '\r' := fun e => h.1 e.symm
    rw [List.cons_append, normalizeEnds]
    · rw [ih h.2]; rfl
    · intro r e; exact absurd e hc
    · intro e; exact absurd e hc

theorem normalizeEnds_before (t u : Text) (hu : u.head? = some '<') (hr : '\r' ∉ u) : normalizeEnds (t ++ u) = normalizeEnds t ++ u := by
  fun_induction normalizeEnds t with
  | case1 r ih => simp [normalizeEnds, ih]
  | case2 r hn ih =>
    cases r with
    | nil =>
      cases u with
      | nil => simp at hu
      | cons d u =>
        simp only [List.head?_cons, Option.some.injEq] at hu
        subst hu
        have := normalizeEnds_id ('<' :: u) hr
        simp [normalizeEnds, this]
    | cons c r =>
      have : c ≠ '\n' := by rintro rfl; exact hn r rfl
      simp only [List.cons_append] at ih ⊢
      rw [normalizeEnds, ih]
      intro r' e
      exact this (by simpa using (List.cons.inj e).1)
  | case3 c r h1 h2 ih =>
    rw [List.cons_append, normalizeEnds, ih]
    · rfl
    · intro r' e; exact absurd e h2
    · exact h2
  | case4 => simpa [normalizeEnds] using normalizeEnds_id u hr

theorem normalizeEnds_chars (t : Text) : ∀ c ∈ normalizeEnds t, c ∈ t ∨ c = '\n' := by
  fun_induction normalizeEnds t <;> simp_all
  · intro c hc; rcases ‹∀ c ∈ normalizeEnds _, _› c hc with h | h <;> simp [h]
  · intro c hc; rcases ‹∀ c ∈ normalizeEnds _, _› c hc with h | h <;> simp [h]
  · intro c hc; rcases ‹∀ c ∈ normalizeEnds _, _› c hc with h | h <;> simp [h]

theorem read_ven (r : Reader) (v p s : Frame) (t : Text) (hm : r.mode = .text) (hs : r.stack = [v, p, s, envelopeFrame]) (hd : r.done = none)
    (hv : v.name = "ei:venID" ∧ v.key = "venID" ∧ v.item = none ∧ v.data = [])
    (hp : p.name = "oadr:oadrPoll" ∧ p.key = "oadrPoll" ∧ p.item = some [("@schemaVersion", .str "2.0b")] ∧ p.data = [])
    (hg : s.name = "oadr:oadrSignedObject" ∧ s.key = "oadrSignedObject" ∧ s.item = some [("@Id", .str "oadrSignedObject")] ∧ s.data = [] ∧
      s.outer = insideEnvelope.scope) (hc : ∀ c ∈ t, isXmlChar c = true ∧ c ≠ '<' ∧ c ≠ '&') : readText r (t ++ pollEnd) =
    .ok { mode := .text, stack := [], scope := Reader.start.scope, done := some ("oadrPayload", .dict [("oadrSignedObject", .dict [("@Id", .str "oadrSignedObject"),
      ("oadrPoll", .dict [("@schemaVersion", .str "2.0b"), ("venID", closeValue none t)])])]) } := by
  rw [readText_append, read_data r _ v _ hm hs hc]
  exact read_ends _ { v with data := v.data ++ t } p s t hm rfl hd ⟨hv.1, hv.2.1, hv.2.2.1, by simp [hv.2.2.2]⟩ hp hg

/-- The scope inside the envelope. -/
def oadrScope : Scope := [("oadr", nsOadr), ("xml", "http://www.w3.org/XML/1998/namespace")]

/-- The frames around the `ven_id`. -/
def venFrame : Frame := ⟨"ei:venID", "venID", ("ei", nsEi) :: ("oadr", nsOadr) :: oadrScope, none, []⟩
def pollFrame : Frame := ⟨"oadr:oadrPoll", "oadrPoll", ("oadr", nsOadr) :: oadrScope, some [("@schemaVersion", .str "2.0b")], []⟩
def signedFrame : Frame := ⟨"oadr:oadrSignedObject", "oadrSignedObject", oadrScope, some [("@Id", .str "oadrSignedObject")], []⟩

theorem atVen_eq : atVen = ⟨.text, [venFrame, pollFrame, signedFrame, envelopeFrame], ("ei", nsEi) :: ("oadr", nsOadr) :: oadrScope, none⟩ := by decide +kernel

theorem signedFrame_outer : signedFrame.outer = insideEnvelope.scope := by decide +kernel

/-- What is read from a poll without markup in its `ven_id`. -/
theorem parse_poll {t : Text} (hs : sectionEnd (pollText t) = false) (hc : ∀ c ∈ t, XmlAllowed c ∧ c ≠ '<' ∧ c ≠ '&') :
    parseXml (pollText t) = .ok ("oadrPayload", .dict [("oadrSignedObject", .dict [("@Id", .str "oadrSignedObject"),
      ("oadrPoll", .dict [("@schemaVersion", .str "2.0b"), ("venID", closeValue none (normalizeEnds t))])])]) := by
  have e : normalizeEnds (pollText t) = (envelopeHead ++ pollHead) ++ (normalizeEnds t ++ pollEnd) := by
    rw [pollText, ← List.append_assoc, normalizeEnds_skip _ _ (by decide +kernel), normalizeEnds_before _ _ (by decide +kernel) (by decide +kernel)]
  have hc' : ∀ c ∈ normalizeEnds t, isXmlChar c = true ∧ c ≠ '<' ∧ c ≠ '&' := by
    intro c hc'
    rcases normalizeEnds_chars t c hc' with h | rfl
    · exact ⟨(isXmlChar_iff c).2 (hc c h).1, (hc c h).2⟩
    · exact ⟨by decide, by decide, by decide⟩
  have hr := read_ven ⟨.text, [venFrame, pollFrame, signedFrame, envelopeFrame], ("ei", nsEi) :: ("oadr", nsOadr) :: oadrScope, none⟩ venFrame pollFrame signedFrame
    (normalizeEnds t) rfl rfl rfl ⟨rfl, rfl, rfl, rfl⟩ ⟨rfl, rfl, rfl, rfl⟩ ⟨rfl, rfl, rfl, rfl, signedFrame_outer⟩ hc'
  unfold parseXml
  rw [if_neg (by simp [hs]), e, readText_append Reader.start (envelopeHead ++ pollHead), read_atVen, atVen_eq]
  simp only
  rw [hr]

end Openleadr
