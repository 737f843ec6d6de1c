import Verif.Lemmas.Base64
import Verif.Lemmas.LineEnds
import Verif.Props.Texts
/-!
C103 A certificate has the same fingerprint wherever it is looked at: in its file (as the client, the server and the command line read it), in the
signature of a message and on the connection. Files with a chain of certificates, files with text in front, and `certificate_domain`.
-/
namespace Openleadr
open Spec

theorem carries64_parts {body : Text} {der : List UInt8} (h : Carries64 body der) (c : Char) (hc : c ∈ body) : c.toNat < 128 := by
  cases hb : isBlank c with
  | true => exact (blank_skipped hb).2.2.2
  | false =>
    have : c ∈ body.filter (fun c => !isBlank c) := List.mem_filter.mpr ⟨hc, by simp [hb]⟩
    rw [h] at this
    exact (base64_chars der c this).2

theorem dropWhile_blank {tail : Text} (h : tail.all isBlank = true) (x : Text) : (tail ++ x).dropWhile isPySpace = x.dropWhile isPySpace := by
  induction tail with
  | nil => rfl
  | cons c cs ih =>
    simp only [List.all_cons, Bool.and_eq_true] at h
    simp [(blank_skipped h.1).2.2.1, ih h.2]

/-- Blank space at the end of a file is stripped. -/
theorem strip_pem {tail : Text} (h : tail.all isBlank = true) (mid : Text) :
    strip (pemHeader ++ mid ++ pemFooter ++ tail) = pemHeader ++ mid ++ pemFooter := by
  have e1 : (pemHeader ++ mid ++ pemFooter ++ tail).dropWhile isPySpace = pemHeader ++ mid ++ pemFooter ++ tail := by
    rw [show pemHeader = '-' :: pemHeader.tail from rfl]
    rfl
  have e2 : (pemHeader ++ mid ++ pemFooter).reverse.dropWhile isPySpace = (pemHeader ++ mid ++ pemFooter).reverse := by
    rw [List.reverse_append, show pemFooter.reverse = '-' :: pemFooter.reverse.tail from rfl]
    rfl
  unfold strip
  rw [e1, List.reverse_append, dropWhile_blank (by simpa using h), e2, List.reverse_reverse]

/-- What stands between the two lines is decoded. -/
theorem pemToDer_form {tail : Text} (h : tail.all isBlank = true) (mid : Text) (hm : ∀ c ∈ mid, c.toNat < 128) :
    pemToDer (pemHeader ++ mid ++ pemFooter ++ tail) = a2bBase64 0 0 0 mid := by
  have p1 : pemHeader.isPrefixOf (pemHeader ++ mid ++ pemFooter ++ tail) = true :=
    List.isPrefixOf_iff_prefix.mpr ⟨mid ++ pemFooter ++ tail, by simp⟩
  have p2 : pemFooter.isSuffixOf (pemHeader ++ mid ++ pemFooter) = true := List.isSuffixOf_iff_suffix.mpr ⟨pemHeader ++ mid, rfl⟩
  have p3 : ((pemHeader ++ mid ++ pemFooter).take ((pemHeader ++ mid ++ pemFooter).length - pemFooter.length)).drop pemHeader.length = mid := by
    rw [List.length_append, Nat.add_sub_cancel, List.take_left, List.drop_left]
  have p4 : mid.all (fun c => decide (c.toNat < 128)) = true := by simpa using hm
  unfold pemToDer
  rw [strip_pem h, p1, p2]
  simp only [p3, p4, Bool.true_eq_false, if_false]

theorem a2b_carries {body : Text} {der : List UInt8} (h : Carries64 body der) : a2bBase64 0 0 0 body = .ok der := by
  rw [a2b_blanks, h]
  have := a2b_base64 der []
  rw [List.append_nil] at this
  rw [this]
  split <;> simp [a2bBase64, before]

theorem pemToDer_of {pem : Text} {der : List UInt8} (h : PemOf pem der) : pemToDer pem = .ok der := by
  obtain ⟨body, tail, rfl, hb, ht⟩ := h
  exact (pemToDer_form ht body (carries64_parts hb)).trans (a2b_carries hb)

theorem newlines_blank (t : Text) : (universalNewlines t).filter (fun c => !isBlank c) = t.filter (fun c => !isBlank c) := by
  fun_induction universalNewlines t with
  | case1 t ih => simpa [isBlank] using ih
  | case2 t _ ih => simpa [isBlank] using ih
  | case3 c t _ _ ih => simp only [List.filter_cons, ih]
  | case4 => rfl

theorem newlines_cons {c : Char} (h : c ≠ '\r') (t : Text) : universalNewlines (c :: t) = c :: universalNewlines t := by
  rw [universalNewlines]
  · intro _ hc; exact absurd hc h
  · exact h

theorem newlines_append {s : Text} (h : ∀ c ∈ s, c ≠ '\r') (t : Text) : universalNewlines (s ++ t) = s ++ universalNewlines t := by
  induction s with
  | nil => rfl
  | cons c cs ih =>
    rw [List.cons_append, newlines_cons (h c List.mem_cons_self), ih (fun c hc => h c (List.mem_cons_of_mem _ hc))]
    rfl

theorem newlines_before (s : Text) {t : Text} (h : ∀ u, t ≠ '\n' :: u) : universalNewlines (s ++ t) = universalNewlines s ++ universalNewlines t := by
  fun_induction universalNewlines s with
  | case1 s ih => simp only [List.cons_append, universalNewlines, ih]
  | case2 s hs ih =>
    rw [List.cons_append, universalNewlines, ih]
    · rfl
    · intro u hu
      cases s with
      | nil => exact h u hu
      | cons c cs =>
        simp only [List.cons_append, List.cons.injEq] at hu
        exact hs cs (by rw [hu.1])
  | case3 c s _ hc ih =>
    rw [List.cons_append, newlines_cons hc, ih]
    rfl
  | case4 => rfl

theorem pemHeader_plain : ∀ c ∈ pemHeader, c ≠ '\r' := by decide +kernel
theorem pemFooter_plain : ∀ c ∈ pemFooter, c ≠ '\r' := by decide +kernel

/-- Reading the file as text leaves it a certificate in PEM form. -/
theorem newlines_pem {pem : Text} {der : List UInt8} (h : PemOf pem der) : PemOf (universalNewlines pem) der := by
  obtain ⟨body, tail, rfl, hb, ht⟩ := h
  refine ⟨universalNewlines body, universalNewlines tail, ?_, ?_, ?_⟩
  · change universalNewlines (pemHeader ++ body ++ pemFooter ++ tail) = pemHeader ++ universalNewlines body ++ pemFooter ++ universalNewlines tail
    rw [List.append_assoc, List.append_assoc, newlines_append pemHeader_plain, newlines_before body, newlines_append pemFooter_plain]
    · simp
    · intro u hu
      rw [show pemFooter = '-' :: pemFooter.tail from rfl, List.cons_append, List.cons.injEq] at hu
      exact absurd hu.1 (by decide)
  · exact (newlines_blank body).trans hb
  · have e : (universalNewlines tail).filter (fun c => !isBlank c) = [] := by
      rw [newlines_blank, List.filter_eq_nil_iff]
      intro c hc
      simpa using List.all_eq_true.mp ht c hc
    rw [List.filter_eq_nil_iff] at e
    exact List.all_eq_true.mpr fun c hc => by simpa using e c hc

theorem fingerprint_of_der (sha256 : List UInt8 → List UInt8) {pem : Text} {r : Res (List UInt8)} (h : pemToDer pem = r) :
    certificateFingerprint sha256 (.str (String.ofList pem)) = r.map (fingerprintFromDer sha256) := by
  subst h
  simp only [certificateFingerprint, ensureStr, String.toList_ofList]
  cases pemToDer pem <;> rfl

/-- The text of the message's certificate makes a certificate in PEM form. -/
theorem extract_pem {body : Text} {der : List UInt8} (h : Carries64 body der) : ∃ pem, extractPemCert (some body) = .ok pem ∧ PemOf pem der := by
  have key : ∀ b : Text, Carries64 b der →
      PemOf ("-----BEGIN CERTIFICATE-----\n".toList ++ b ++ "-----END CERTIFICATE-----\n".toList) der := by
    intro b hb
    refine ⟨'\n' :: b, ['\n'], ?_, ?_, by decide⟩
    · rw [show "-----BEGIN CERTIFICATE-----\n".toList = "-----BEGIN CERTIFICATE-----".toList ++ ['\n'] from by decide,
        show "-----END CERTIFICATE-----\n".toList = "-----END CERTIFICATE-----".toList ++ ['\n'] from by decide]
      simp only [List.append_assoc, List.cons_append, List.nil_append]
    · unfold Carries64
      rw [List.filter_cons, if_neg (by decide)]
      exact hb
  refine ⟨_, rfl, key _ ?_⟩
  split
  · exact h
  · unfold Carries64
    rw [List.filter_append, h]
    simp [isBlank]

/-- **C103**: a certificate has one fingerprint. It is that of the certificate's bytes, whether the certificate is looked at in its file (as a text, as bytes
    when a client or a server is made, or by the command-line tool), in the signature of a message (whatever the lines its text is broken into, with or
    without a line feed at the end) or on the connection. So what the operator is shown, what the peer registers and what is compared in the end agree. -/
theorem c103_same_fingerprint (sha256 : List UInt8 → List UInt8) (pem body : Text) (der : List UInt8) (hp : PemOf pem der) (hb : Carries64 body der) :
    certificateFingerprint sha256 (.str (String.ofList pem)) = .ok (fingerprintFromDer sha256 der) ∧
    ownFingerprint sha256 (String.ofList pem).toUTF8.data.toList = .ok (fingerprintFromDer sha256 der) ∧
    showFingerprint sha256 pem = .ok (fingerprintFromDer sha256 der) ∧
    messageFingerprint sha256 (some body) = .ok (fingerprintFromDer sha256 der) ∧
    (der ≠ [] → connectionFingerprint sha256 (some der) = some (fingerprintFromDer sha256 der)) := by
  refine ⟨fingerprint_of_der sha256 (pemToDer_of hp), ?_, fingerprint_of_der sha256 (pemToDer_of (newlines_pem hp)), ?_, ?_⟩
  · have := fingerprint_of_der sha256 (pemToDer_of hp)
    simp only [ownFingerprint, certificateFingerprint, ensureStr, fromUTF8_toUTF8] at this ⊢
    exact this
  · obtain ⟨p, h1, h2⟩ := extract_pem hb
    simp only [messageFingerprint, h1]
    exact fingerprint_of_der sha256 (pemToDer_of h2)
  · intro h
    simp [connectionFingerprint, h]

/-- non-vacuity: the bytes `00 FF 10 20` in lines that end in carriage return and line feed. -/
example : PemOf "-----BEGIN CERTIFICATE-----\r\nAP8Q\r\nIA==\r\n-----END CERTIFICATE-----\r\n".toList [0x00, 0xFF, 0x10, 0x20] ∧
    Carries64 "\nAP8QIA==\n".toList [0x00, 0xFF, 0x10, 0x20] :=
  ⟨⟨"\r\nAP8Q\r\nIA==\r\n".toList, "\r\n".toList, by decide +kernel, by unfold Carries64; decide +kernel, by decide +kernel⟩, by unfold Carries64; decide +kernel⟩

/-- **C103** (other certificates): a file and a message with different certificates agree in the fingerprint only when the digests of the certificates end in the
    same ten bytes. -/
theorem c103_told_apart (sha256 : List UInt8 → List UInt8) (h32 : ∀ x, (sha256 x).length = 32) (pem body : Text) (der der' : List UInt8)
    (hp : PemOf pem der) (hb : Carries64 body der') :
    showFingerprint sha256 pem = messageFingerprint sha256 (some body) ↔ (sha256 der).drop 22 = (sha256 der').drop 22 := by
  obtain ⟨-, -, h1, -⟩ := c103_same_fingerprint sha256 pem (base64 der) der hp (by
    unfold Carries64
    exact List.filter_eq_self.mpr fun c hc => by simp [(base64_chars der c hc).1])
  obtain ⟨p, e1, e2⟩ := extract_pem hb
  have h2 : messageFingerprint sha256 (some body) = .ok (fingerprintFromDer sha256 der') := by
    simp only [messageFingerprint, e1]
    exact fingerprint_of_der sha256 (pemToDer_of e2)
  rw [h1, h2, Except.ok.injEq]
  exact c08_fingerprint_identifies sha256 h32 der der'

/-- **C103**: a message without a certificate, and one whose certificate has no text, are not given a fingerprint: they raise. -/
theorem c103_no_certificate (sha256 : List UInt8 → List UInt8) : messageFingerprint sha256 none = .error .attributeError ∧
    connectionFingerprint sha256 none = none ∧ connectionFingerprint sha256 (some []) = none := ⟨rfl, rfl, rfl⟩

/-- A file with a certificate, blank space, and a second certificate: a chain, as the server's certificate file may be for TLS. -/
def chainFile (body mid body' tail : Text) : Text := pemHeader ++ (body ++ pemFooter ++ mid ++ pemHeader ++ body') ++ pemFooter ++ tail

theorem pemFooter_ascii : ∀ c ∈ pemFooter, c.toNat < 128 := by decide +kernel
theorem pemHeader_ascii : ∀ c ∈ pemHeader, c.toNat < 128 := by decide +kernel

theorem chain_decoded {body mid body' tail : Text} {der der' : List UInt8} (hb : Carries64 body der) (hb' : Carries64 body' der')
    (hm : mid.all isBlank = true) (ht : tail.all isBlank = true) :
    pemToDer (chainFile body mid body' tail) = if der.length % 3 = 0 then
      before der (a2bBase64 0 0 0 ((pemFooter ++ pemHeader).filter (fun c => !isBlank c) ++ base64 der')) else .ok der := by
  unfold chainFile
  rw [pemToDer_form ht]
  · rw [a2b_blanks]
    simp only [List.filter_append]
    have hm' : mid.filter (fun c => !isBlank c) = [] := by
      rw [List.filter_eq_nil_iff]
      intro c hc
      simpa using List.all_eq_true.mp hm c hc
    rw [hb, hb', hm', List.append_nil, List.append_assoc, List.append_assoc, a2b_base64, ← List.append_assoc]
  · intro c hc
    simp only [List.mem_append] at hc
    rcases hc with (((hc | hc) | hc) | hc) | hc
    · exact carries64_parts hb c hc
    · exact pemFooter_ascii c hc
    · exact (blank_skipped (List.all_eq_true.mp hm c hc)).2.2.2
    · exact pemHeader_ascii c hc
    · exact carries64_parts hb' c hc

/-- **C103** (chains, partial: certificates whose length is not a multiple of three): a file with a chain has the fingerprint of its first certificate, because the
    padding ends what is read. The others are refuted below. -/
theorem c103_chain_partial (sha256 : List UInt8 → List UInt8) (body mid body' tail : Text) (der der' : List UInt8) (hb : Carries64 body der)
    (hb' : Carries64 body' der') (hm : mid.all isBlank = true) (ht : tail.all isBlank = true) (h3 : der.length % 3 ≠ 0) :
    certificateFingerprint sha256 (.str (String.ofList (chainFile body mid body' tail))) = .ok (fingerprintFromDer sha256 der) := by
  have := chain_decoded hb hb' hm ht
  rw [if_neg h3] at this
  exact fingerprint_of_der sha256 this

/-- The lines between the two certificates of a chain. -/
def junk64 : Text := (pemFooter ++ pemHeader).filter (fun c => !isBlank c)

theorem junk64_facts : (∀ c ∈ junk64, c ≠ '=') ∧ junk64.countP isDigit64 = 30 := by decide +kernel

/-- **C103, refuted** for files with a chain whose first certificate is a multiple of three bytes long: the letters of the lines between the certificates are read as
    Base64 as well. What is hashed is then never the first certificate but something longer; and if the second certificate is a multiple of three bytes long,
    too, there is a `ValueError`: a client or a server given such a file, which `ssl` accepts, cannot be made unless `show_fingerprint` is off. -/
theorem c103_chain_violated (sha256 : List UInt8 → List UInt8) (body mid body' tail : Text) (der der' : List UInt8) (hb : Carries64 body der)
    (hb' : Carries64 body' der') (hm : mid.all isBlank = true) (ht : tail.all isBlank = true) (h3 : der.length % 3 = 0) :
    (∀ d, pemToDer (chainFile body mid body' tail) = .ok d → ∃ more, d = der ++ more ∧ 22 ≤ more.length) ∧
    (der'.length % 3 = 0 → certificateFingerprint sha256 (.str (String.ofList (chainFile body mid body' tail))) = .error .valueError) := by
  have e := chain_decoded hb hb' hm ht
  rw [if_pos h3] at e
  change _ = before der (a2bBase64 0 0 0 (junk64 ++ base64 der')) at e
  obtain ⟨j1, j2⟩ := junk64_facts
  obtain ⟨pre, l, p, h1, h2⟩ := a2b_digits junk64 (base64 der') 0 0 0 (by omega) j1
  rw [j2] at h1 h2
  refine ⟨?_, ?_⟩
  · intro d hd
    rw [e, h1] at hd
    cases hr : a2bBase64 ((0 + 30) % 4) l p (base64 der') with
    | error _ => rw [hr] at hd; simp [before] at hd
    | ok r =>
      rw [hr] at hd
      simp only [before, Except.ok.injEq] at hd
      exact ⟨pre ++ r, hd.symm, by rw [List.length_append]; omega⟩
  · intro h3'
    obtain ⟨k1, k2⟩ := base64_digits der' h3'
    obtain ⟨pre', l', p', g1, -⟩ := a2b_digits (base64 der') [] ((0 + 30) % 4) l p (by omega) k1
    rw [List.append_nil, show ((0 + 30) % 4 + (base64 der').countP isDigit64) % 4 = 2 by omega] at g1
    have : pemToDer (chainFile body mid body' tail) = .error .valueError := by
      rw [e, h1, g1]
      simp [a2bBase64, before]
    exact fingerprint_of_der sha256 this

/-- non-vacuity: a chain of two certificates of three bytes each. -/
example : Carries64 "\nAP8Q\n".toList [0x00, 0xFF, 0x10] ∧
    chainFile "\nAP8Q\n".toList "\n".toList "\nECAw\n".toList "\n".toList =
      "-----BEGIN CERTIFICATE-----\nAP8Q\n-----END CERTIFICATE-----\n-----BEGIN CERTIFICATE-----\nECAw\n-----END CERTIFICATE-----\n".toList := by
  unfold Carries64; constructor <;> decide +kernel

/-- **C103, refuted** for files with text in front of the certificate (as `openssl x509 -text` writes them, and as TLS accepts them): whatever follows, it is a
    `ValueError`. A single blank in front is enough. -/
theorem c103_text_before_violated (sha256 : List UInt8 → List UInt8) (text pem : Text) (c : Char) (hc : c ≠ '-') (ht : text.head? = some c) :
    certificateFingerprint sha256 (.str (String.ofList (text ++ pem))) = .error .valueError := by
  have : pemToDer (text ++ pem) = .error .valueError := by
    cases text with
    | nil => simp at ht
    | cons d ds =>
      simp only [List.head?_cons, Option.some.injEq] at ht
      subst ht
      have : pemHeader.isPrefixOf (d :: ds ++ pem) = false := by
        rw [show pemHeader = '-' :: pemHeader.tail from rfl, List.cons_append, List.isPrefixOf_cons_cons]
        simp [Ne.symm hc]
      unfold pemToDer; exact if_pos this
  exact fingerprint_of_der sha256 this

/-- non-vacuity -/
example : ("Certificate:\n".toList).head? = some 'C' ∧ 'C' ≠ '-' := by decide

/-- **C103** (the domain): given the bytes of a certificate in PEM form, as the server gives them, `certificate_domain` names what the certificate names, separated by
    commas. -/
theorem c103_domain (isFile : Value → Bool) (names : List UInt8 → Res (List String)) (rest : List UInt8) (l : List String)
    (hf : ∀ b, isFile (.bytes b) = false) (hn : names ("-----BEGIN CERTIFICATE-----".toUTF8.data.toList ++ rest) = .ok l) :
    certificateDomain isFile names (.bytes ("-----BEGIN CERTIFICATE-----".toUTF8.data.toList ++ rest)) = .ok (String.intercalate ", " l) := by
  have e : pemHeader.map (fun c => c.toNat.toUInt8) = "-----BEGIN CERTIFICATE-----".toUTF8.data.toList := by decide +kernel
  have p : (pemHeader.map (fun c => c.toNat.toUInt8)).isPrefixOf ("-----BEGIN CERTIFICATE-----".toUTF8.data.toList ++ rest) = true := by
    rw [e]; exact List.isPrefixOf_iff_prefix.mpr ⟨rest, rfl⟩
  simp only [certificateDomain, hf, p, if_true, hn, Bool.false_eq_true, if_false]

/-- **C103, refuted** for `certificate_domain` of a path or of a text: the message it raises says that a file or a PEM-encoded string will do, and neither does: both
    end in a `TypeError`. -/
theorem c103_domain_violated (isFile : Value → Bool) (names : List UInt8 → Res (List String)) (s : String) :
    certificateDomain isFile names (.str s) = .error .typeError := by
  unfold certificateDomain
  split <;> rfl

end Openleadr
