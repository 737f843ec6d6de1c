import Verif.Lemmas.PlainLib
import Verif.Lemmas.Identifiers
/-!
Checks of single texts, for the examples.
-/
namespace Openleadr

/-- A check for `OnWire`. -/
def onWireB (s : String) : Bool :=
  s.toList.head?.all (fun c => !isPySpace c && c ≠ ']' && c ≠ '>') && s.toList.getLast?.all (fun c => !isPySpace c) && s.toList ≠ [] &&
    cleanChars s.toList && !sectionEnd s.toList

theorem sectionEnd_of (a b : Text) : sectionEnd (a ++ [']', ']', '>'] ++ b) = true := by
  induction a with
  | nil => simp [sectionEnd]
  | cons c a ih => simp only [List.cons_append, sectionEnd]; rw [ih]; simp

theorem onWire_of {s : String} (h : onWireB s = true) : OnWire s := by
  simp only [onWireB, Bool.and_eq_true, Bool.not_eq_true', decide_eq_true_eq, Option.all_eq_true, cleanChars, List.all_eq_true, wireChar] at h
  obtain ⟨⟨⟨⟨h1, h2⟩, h3⟩, h4⟩, h5⟩ := h
  refine ⟨?_, fun c hc => (h1 c hc).1.1, h2, ?_, fun c hc => ⟨(h1 c hc).1.2, (h1 c hc).2⟩, ?_⟩
  · rintro rfl; exact h3 rfl
  · intro c hc
    have := h4 c hc
    simp only [ne_eq, decide_eq_true_eq] at this
    exact ⟨(isXmlChar_iff c).1 this.1.1.1.1, this.1.1.1.2, this.1.1.2, this.1.2, this.2⟩
  · intro a b e
    rw [e, sectionEnd_of] at h5; simp at h5

/-- A check for `Ordinary`. -/
def ordinaryB (s : String) : Bool := onWireB s && !looksFloat plainLib s.toList && s ≠ "true" && s ≠ "false"

theorem ordinary_of {s : String} (h : ordinaryB s = true) : Ordinary plainLib s := by
  simp only [ordinaryB, Bool.and_eq_true, Bool.not_eq_true', decide_eq_true_eq] at h
  exact ⟨onWire_of h.1.1.1, fun e => by rw [(looksFloat_iff plainLib_sound s).2 e] at h; simp at h, h.1.2, h.2⟩

end Openleadr
