import Verif.Props.Handler
import Verif.Props.Replay
/-!
C38, what a VEN is told that is not let in: for which reasons it is told that it is not registered or authorized, and for which the VTN has failed itself.
-/
namespace Openleadr

/-- The exception is a `ValueError`; the errors of decoding texts are such. -/
def AValueError (e : Exn) : Prop := e = .other .valueError ∨ e = .other .unicodeError

/-- The user's lookup does not know the VEN: it says so with a `ValueError`, or it has nothing, or nothing of a fingerprint. -/
inductive NotKnown (c : Config) (ven : Value) : Prop where
  | noFingerprint (f : Value → Except Exn Value) : c.fingerprintLookup = some f → ((∃ e, f ven = .error e ∧ AValueError e) ∨ (∃ v, f ven = .ok v ∧ v.truthy = false)) →
      NotKnown c ven
  | noVen (f : Value → Except Exn (Option Dict)) : c.fingerprintLookup = none → c.venLookup = some f →
      ((∃ e, f ven = .error e ∧ AValueError e) ∨ f ven = .ok none ∨
        (∃ info, f ven = .ok (some info) ∧ (Dict.get? info "fingerprint" = none ∨ Dict.get? info "fingerprint" = some .none))) → NotKnown c ven

/-- A reason not to let the VEN in that the VTN can name. -/
inductive Unwelcome (c : Config) (s : Surroundings) (i : Nat) (cache : NonceCache) (r : Request) (tree : Tree) (ven : Value) : Prop where
  | noCertificate : r.peer = none → Unwelcome c s i cache r tree ven
  | notKnown : NotKnown c ven → Unwelcome c s i cache r tree ven
  | otherConnection (fp : String) : Registered c ven fp → r.peer ≠ some fp → Unwelcome c s i cache r tree ven
  | otherSigner (fp signer : String) : c.verifySignatures = true → Registered c ven fp → tree.signer = .ok signer → signer ≠ fp → Unwelcome c s i cache r tree ven
  | badSignature (e : Exn) (signer : String) : c.verifySignatures = true → tree.signer = .ok signer → tree.verify = some e → AValueError e →
      Registered c ven signer → Unwelcome c s i cache r tree ven
  | notFresh (signer : String) : c.verifySignatures = true → tree.signer = .ok signer → tree.verify = none →
      (verifyReplay s i cache tree.stamp).2 = .error .valueError → Registered c ven signer → Unwelcome c s i cache r tree ven

theorem onValueError_of {e : Exn} (h : AValueError e) : onValueError e = notAuthorized := by
  rcases h with rfl | rfl <;> simp [onValueError]

theorem expected_notKnown {c : Config} {ven : Value} (h : NotKnown c ven) :
    expectedFingerprint c ven = .error notAuthorized ∨ expectedFingerprint c ven = .ok .none := by
  unfold expectedFingerprint
  cases h with
  | noFingerprint f hf h =>
    left
    rcases h with ⟨e, h, he⟩ | ⟨v, h, hv⟩
    · simp [hf, h, onValueError_of he]
    · simp [hf, h, hv]
  | noVen f hn hf h =>
    rcases h with ⟨e, h, he⟩ | h | ⟨info, h, hi⟩
    · left; simp [hn, hf, h, onValueError_of he]
    · left; simp [hn, hf, h]
    · by_cases h0 : info = []
      · left; simp [hn, hf, h, h0]
      · right; rcases hi with hi | hi <;> simp [hn, hf, h, h0, hi]

theorem expected_of_registered {c : Config} {ven : Value} {fp : String} (h : Registered c ven fp) :
    expectedFingerprint c ven = .ok (.str fp) ∨ fp = "" ∧ expectedFingerprint c ven = .error notAuthorized := by
  unfold expectedFingerprint
  rcases h with ⟨f, hf, h⟩ | ⟨hn, f, info, hf, h, hi⟩
  · by_cases h0 : fp = ""
    · right; subst h0; simp [hf, h, Value.truthy]
    · left; simp [hf, h, Value.truthy, h0]
  · left
    have h0 : info ≠ [] := by rintro rfl; simp [Dict.get?] at hi
    simp [hn, hf, h, h0, hi]

/-- The check of such a VEN ends with this error, and the nonce memory is as it was. -/
theorem authenticate_unwelcome {c : Config} {s : Surroundings} {i : Nat} {cache : NonceCache} {r : Request} {tree : Tree} {message : Dict} {ven : Value}
    (hr : r.secure = true) (hven : Dict.get? message "ven_id" = some ven) (hl : c.fingerprintLookup.isSome ∨ c.venLookup.isSome)
    (h : Unwelcome c s i cache r tree ven) :
    authStep c s i cache r tree message = (cache, .error notAuthorized) := by
  have hhas : Dict.has message "ven_id" = true := by simp [Dict.has, hven]
  simp only [authStep, hr, hhas, and_self, if_true, authenticate, hl, authenticateMessage, hven]
  cases hp : r.peer with
  | none => rfl
  | some peer =>
    simp only
    cases h with
    | noCertificate h => rw [hp] at h; cases h
    | notKnown h => rcases expected_notKnown h with h | h <;> simp [h]
    | otherConnection fp h hne =>
      rcases expected_of_registered h with h | ⟨-, h⟩
      · have : peer ≠ fp := by rintro rfl; exact hne hp
        simp [h, this]
      · simp [h]
    | otherSigner fp signer hv h hs hne =>
      rcases expected_of_registered h with h | ⟨-, h⟩
      · by_cases hpf : peer = fp
        · simp [h, hpf, hv, hs, hne]
        · simp [h, hpf]
      · simp [h]
    | badSignature e signer hv hs hver he h =>
      rcases expected_of_registered h with h | ⟨-, h⟩
      · by_cases hpf : peer = signer
        · simp [h, hpf, hv, hs, validateXmlSignature, hver, onValueError_of he]
        · simp [h, hpf]
      · simp [h]
    | notFresh signer hv hs hver hrep h =>
      rcases expected_of_registered h with h | ⟨-, h⟩
      · by_cases hpf : peer = signer
        · cases hx : verifyReplay s i cache tree.stamp with
          | mk cache' res =>
            rw [hx] at hrep
            simp only at hrep
            subst hrep
            have hc : cache' = cache := by
              have := verifyReplay_error s i cache tree.stamp .valueError (by rw [hx])
              rw [hx] at this; exact this
            simp [h, hpf, hv, hs, validateXmlSignature, hver, hx, hc, onValueError_of (.inl rfl)]
        · simp [h, hpf]
      · simp [h]

/-- **C38**: a VEN that has no certificate, that the lookup does not know, whose connection or message was made with another certificate, or whose message is not
    fresh or badly signed is told that it is not registered or authorized, in a message of OpenADR; nothing changes and no handler runs. -/
theorem c38_reason_told {c : Config} {s : Surroundings} {i : Nat} {cache : NonceCache} {r : Request} {tree : Tree} {type : String} {message : Dict} {ven : Value}
    (hread : Readable c r tree type message) (hr : r.secure = true) (hven : Dict.get? message "ven_id" = some ven) (hk : checkKnown c type message = .ok ())
    (hl : c.fingerprintLookup.isSome ∨ c.venLookup.isSome)
    (h : Unwelcome c s i cache r tree ven) (S : Type) (svc : Service S) (st : S) :
    handle c svc s i cache st r = ((cache, st), sendMessage c (if type = "oadrRequestEvent" then "oadrDistributeEvent" else "oadrResponse")
      [("response", .dict [("response_code", .int 463), ("response_description", .str "NOT REGISTERED OR AUTHORIZED")])]) := by
  simp only [handle, process_readable c svc s i cache st r tree type message hread, hk, authenticate_unwelcome hr hven hl h, reply, notAuthorized, errorResponse]
  rfl

/-- **C38**: a lookup that fails otherwise is a failure of the VTN: status 500 without a message of OpenADR; nothing changes and no handler runs. -/
theorem c38_lookup_fails {c : Config} {s : Surroundings} {i : Nat} {cache : NonceCache} {r : Request} {tree : Tree} {type : String} {message : Dict} {ven : Value}
    (hread : Readable c r tree type message) (hr : r.secure = true) (hven : Dict.get? message "ven_id" = some ven) (hk : checkKnown c type message = .ok ())
    (hp : r.peer ≠ none) {e : Err} (he : ¬ AValueError (.other e))
    (hf : (∃ f, c.fingerprintLookup = some f ∧ f ven = .error (.other e)) ∨
      (c.fingerprintLookup = none ∧ ∃ f, c.venLookup = some f ∧ f ven = .error (.other e)))
    (S : Type) (svc : Service S) (st : S) :
    handle c svc s i cache st r = ((cache, st), .ok ⟨500, "", none⟩) := by
  have hhas : Dict.has message "ven_id" = true := by simp [Dict.has, hven]
  have hx : onValueError (.other e) = .other e := by
    unfold onValueError
    exact if_neg he
  have hexp : expectedFingerprint c ven = .error (.other e) := by
    unfold expectedFingerprint
    rcases hf with ⟨f, h1, h2⟩ | ⟨h0, f, h1, h2⟩
    · simp [h1, h2, hx]
    · simp [h0, h1, h2, hx]
  have hl : c.fingerprintLookup.isSome ∨ c.venLookup.isSome := by
    rcases hf with ⟨f, h1, h2⟩ | ⟨h0, f, h1, h2⟩ <;> simp [h1]
  obtain ⟨peer, hpeer⟩ := Option.ne_none_iff_exists'.mp hp
  have ha : authStep c s i cache r tree message = (cache, .error (.other e)) := by
    simp only [authStep, hr, hhas, and_self, if_true, authenticate, hl, authenticateMessage, hven, hpeer, hexp]
  simp only [handle, process_readable c svc s i cache st r tree type message hread, hk, ha, reply]

/-- non-vacuity: a lookup by fingerprint that raises an error of decoding; one that looks for a file that is not there. -/
example :
    let c := { plainConfig with fingerprintLookup := some (fun _ => .error (.other .unicodeError)) }
    handle c (countingService ["oadrPoll"]) newYear 0 [] 7 ⟨some "application/xml", true, some "AA", "oadrPoll"⟩ =
      (([], 7), .ok ⟨200, "oadrResponse", some ("oadrResponse", [("response", .dict [("response_code", .int 463),
        ("response_description", .str "NOT REGISTERED OR AUTHORIZED")])])⟩) := by decide +kernel
example :
    let c := { plainConfig with fingerprintLookup := some (fun _ => .error (.other .keyError)) }
    handle c (countingService ["oadrPoll"]) newYear 0 [] 7 ⟨some "application/xml", true, some "AA", "oadrPoll"⟩ = (([], 7), .ok ⟨500, "", none⟩) := by decide +kernel

end Openleadr
