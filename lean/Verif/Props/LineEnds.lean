import Verif.Lemmas.LineEnds
import Verif.Props.Markup
import Verif.Props.Texts
/-!
C69: texts with line ends.
-/
namespace Openleadr

variable {lib : Lib} {now : Int}

/-- **C69, refuted** for texts with carriage returns: each of them is received as a line break. -/
theorem c69_carriage_return_violated {x y : String} (hx : OnWire x) (hy : OnWire y) :
    ∃ txt, createMessage lib now "oadrPoll" [("ven_id", .str (x ++ "\r" ++ y))] = .ok txt ∧ parseXml txt = .ok (pollDocument (x ++ "\n" ++ y)) := by
  have nl : ∀ {s : String}, OnWire s → '\n' ∉ s.toList := fun h hm => (h.chars _ hm).2.1 rfl
  have nr : ∀ {s : String}, OnWire s → '\r' ∉ s.toList := fun h hm => (h.chars _ hm).2.2.1 rfl
  have et : (x ++ "\r" ++ y).toList = x.toList ++ '\r' :: y.toList := by simp [String.toList_append]
  refine ⟨_, create_poll lib now _ (by rw [et]; simp [nl hx, nl hy]), ?_⟩
  have tame_of : ∀ {s : String}, OnWire s → tame s.toList = true := fun h => by have := h.clean; simp only [Openleadr.clean, Bool.and_eq_true] at this; exact this.2
  have hy' : tame ('\r' :: y.toList) = true := by
    have := tame_of hy
    simp only [tame, Bool.and_eq_true, Bool.not_eq_true', decide_eq_true_eq] at this ⊢
    exact ⟨⟨by simp [sectionEnd, this.1.1], by simp⟩, by simp⟩
  have hsec : sectionEnd (pollText (x.toList ++ '\r' :: y.toList)) = false := by
    rw [pollText, ← List.append_assoc, sectionEnd_skip _ (by decide +kernel)]
    refine sectionEnd_append_right (sectionEnd_append_right ?_ hy') (by decide +kernel)
    have := tame_of hx
    simp only [tame, Bool.and_eq_true, Bool.not_eq_true', decide_eq_true_eq] at this
    exact this.1.1
  rw [et, parse_poll hsec (fun c hc => ?_)]
  · have hne : normalizeEnds (x.toList ++ '\r' :: y.toList) = x.toList ++ '\n' :: y.toList := by
      rw [normalizeEnds_skip _ _ (nr hx)]
      have hh : ∀ r, y.toList ≠ '\n' :: r := fun r e => nl hy (by rw [e]; simp)
      rw [normalizeEnds, normalizeEnds_id _ (nr hy)]
      intro r e; exact hh r e
    have hst : strip (x.toList ++ '\n' :: y.toList) = x.toList ++ '\n' :: y.toList := by
      refine strip_ends (fun c e => hx.first c ?_) (fun c e => hy.last c ?_)
      · cases hxl : x.toList with
        | nil => exact absurd hxl hx.ne
        | cons d l => rw [hxl] at e; simpa using e
      · rw [List.getLast?_append, List.getLast?_cons] at e
        cases hyl : y.toList.getLast? with
        | none => exact absurd (List.getLast?_eq_none_iff.mp hyl) hy.ne
        | some d => rw [hyl] at e; simpa using e
    have hcv : closeValue none (x.toList ++ '\n' :: y.toList) = .str (x ++ "\n" ++ y) := by
      rw [closeValue]
      simp only [hst]
      rw [if_neg (by simp), ← String.toList_inj.mp (show (x ++ "\n" ++ y).toList = (String.ofList (x.toList ++ '\n' :: y.toList)).toList by
        simp [String.toList_append])]
    rw [hne, hcv, pollDocument]
  · rw [List.mem_append, List.mem_cons] at hc
    rcases hc with hc | rfl | hc
    · exact ⟨(hx.chars c hc).1, (hx.chars c hc).2.2.2⟩
    · exact ⟨by simp [XmlAllowed], by decide, by decide⟩
    · exact ⟨(hy.chars c hc).1, (hy.chars c hc).2.2.2⟩

/-- **C69, refuted** for texts with line breaks: they are left out of the message, which is that of the lines without anything between them. -/
theorem c69_line_break_violated {x y : String} (hx : OneLine x) (hy : OneLine y) (h1 : ∀ c, x.toList.getLast? = some c → isPySpace c = false)
    (h2 : ∀ c, y.toList.head? = some c → isPySpace c = false) :
    createMessage lib now "oadrPoll" [("ven_id", .str (x ++ "\n" ++ y))] = createMessage lib now "oadrPoll" [("ven_id", .str (x ++ y))] := by
  have ht : Dict.get? templates "oadrPoll" = some tPoll := by rfl
  have hp : ∀ s, preflightMessage now "oadrPoll" [("ven_id", .str s)] = .ok (.dict [("ven_id", .str s)]) := by simp [preflightMessage]
  rw [create_poll lib now (x ++ y) (by simp [String.toList_append, hx.1, hy.1])]
  have et : (x ++ "\n" ++ y).toList = x.toList ++ '\n' :: y.toList := by simp [String.toList_append]
  have hf : flattenXml (pollHead ++ ((x.toList ++ '\n' :: y.toList) ++ pollTail)) = pollHead ++ ((x ++ y).toList ++ pollTail) := by
    rw [show pollHead ++ ((x.toList ++ '\n' :: y.toList) ++ pollTail) = (pollHead ++ x.toList) ++ '\n' :: (y.toList ++ pollTail) by simp]
    have nh : '\n' ∉ pollHead := by decide +kernel
    have nt : '\n' ∉ pollTail := by decide +kernel
    rw [(c07_inner_space_kept _ _ (by simp [nh, hx.1])).1, (c07_inner_space_kept (y.toList ++ pollTail) [] (by simp [nt, hy.1])).2]
    have s1 : strip (pollHead ++ x.toList) = pollHead ++ x.toList := by
      refine strip_ends (fun c e => ?_) (fun c e => ?_)
      · rw [List.head?_append, show pollHead.head? = some '<' by decide +kernel] at e
        simp only [Option.some_or, Option.some.injEq] at e
        subst e; decide
      · rw [List.getLast?_append, show pollHead.getLast? = some '>' by decide +kernel] at e
        cases hxl : x.toList.getLast? with
        | none => rw [hxl] at e; simp at e; subst e; decide
        | some d => rw [hxl] at e; simp at e; subst e; exact h1 _ hxl
    have s2 : strip (y.toList ++ pollTail) = y.toList ++ pollTail := by
      refine strip_ends (fun c e => ?_) (fun c e => ?_)
      · rw [List.head?_append, show pollTail.head? = some '<' by decide +kernel] at e
        cases hyl : y.toList.head? with
        | none => rw [hyl] at e; simp at e; subst e; decide
        | some d => rw [hyl] at e; simp at e; subst e; exact h2 _ hyl
      · rw [List.getLast?_append, show pollTail.getLast? = some '>' by decide +kernel] at e
        simp only [Option.some_or, Option.some.injEq] at e
        subst e; decide
    rw [s1, s2, String.toList_append]
    simp
  simp only [createMessage, hp, renderMessage, ht, render_poll, Except.map, et, hf]
  simp only [envelope, pollText, pollEnd, List.append_assoc]

/-- A text of two lines: its poll is that of the same words without a break, which is read as such. -/
example : createMessage lib now "oadrPoll" [("ven_id", .str "ven\n1")] = createMessage lib now "oadrPoll" [("ven_id", .str "ven1")] ∧
    (∃ txt, createMessage lib now "oadrPoll" [("ven_id", .str "ven\n1")] = .ok txt ∧ parseXml txt = .ok (pollDocument "ven1")) ∧
    ∃ txt, createMessage lib now "oadrPoll" [("ven_id", .str "ven\r1")] = .ok txt ∧ parseXml txt = .ok (pollDocument "ven\n1") := by
  have h := c69_line_break_violated (lib := lib) (now := now) (x := "ven") (y := "1") ⟨by decide +kernel, by decide +kernel⟩ ⟨by decide +kernel, by decide +kernel⟩
    (by simp +decide) (by simp +decide)
  have e1 : "ven" ++ "\n" ++ "1" = "ven\n1" := by decide +kernel
  have e2 : "ven" ++ "1" = "ven1" := by decide +kernel
  rw [e1, e2] at h
  refine ⟨h, ?_, ?_⟩
  · rw [h]; exact c69_plain_text_partial (onWire_of (by decide +kernel))
  · have := c69_carriage_return_violated (lib := lib) (now := now) (x := "ven") (y := "1") (onWire_of (by decide +kernel)) (onWire_of (by decide +kernel))
    rw [e1, show "ven" ++ "\r" ++ "1" = "ven\r1" by decide +kernel] at this
    exact this

end Openleadr
