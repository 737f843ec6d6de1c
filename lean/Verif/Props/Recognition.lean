import Verif.Props.Exchange
import Verif.Model.Reregistration
/-! Property C85: the VTN recognizes the VENs it has registered. -/
namespace Openleadr

variable {S : Type}

/-- The VEN is in the table, with a registration. -/
def InTable (table : List (String × Dict)) (ven : String) : Prop :=
  ∃ info r, Dict.get? table ven = some info ∧ Dict.get? info "registration_id" = some r ∧ r ≠ .none

theorem checkKnown_registered {c : Config} {table : List (String × Dict)} (hl : c.venLookup = some (tableLookup table)) {type ven : String} {m : Dict}
    (hm : Dict.get? m "ven_id" = some (.str ven)) (h : InTable table ven) : checkKnown c type m = .ok () := by
  obtain ⟨info, r, h1, h2, h3⟩ := h
  unfold checkKnown
  split
  · rfl
  · rw [hm, hl]
    simp only [tableLookup, h1, h2, Option.getD_some, h3, if_false]

theorem checkKnown_unknown {c : Config} {table : List (String × Dict)} (hl : c.venLookup = some (tableLookup table)) {type : String} {ven : Value} {m : Dict}
    (ht : type ≠ "oadrCreatePartyRegistration" ∧ type ≠ "oadrQueryRegistration")
    (hm : Dict.get? m "ven_id" = some ven) (h : ∀ s, ven = .str s → ¬ InTable table s) : checkKnown c type m = .error (.reregister ven) := by
  unfold checkKnown
  rw [if_neg (by simp [ht]), hm, hl]
  simp only []
  cases ven with
  | str s =>
    have h' := h s rfl
    simp only [tableLookup]
    cases hg : Dict.get? table s with
    | none => rfl
    | some info =>
      simp only []
      rw [if_pos]
      cases hr : Dict.get? info "registration_id" with
      | none => rfl
      | some r =>
        refine Classical.byContradiction (fun hn => h' ⟨info, r, hg, hr, ?_⟩)
        simpa [hr] using hn
  | _ => rfl

/-- A request over an insecure connection that passes the check of line 75. -/
theorem process_unsecured (c : Config) (svc : Service S) (s : Surroundings) (i : Nat) (cache : NonceCache) (st : S) (peer : Option String) (txt : String)
    {type : String} {m : Dict} (hp : c.parse txt = .ok (type, m)) (hk : checkKnown c type m = .ok ()) :
    process c svc s i cache st ⟨some "application/xml", false, peer, txt⟩ =
      (match c.validate txt with
       | .error e => ((cache, st), ⟨none, .error e⟩)
       | .ok _ =>
         if type = "oadrResponse" then ((cache, st), ⟨some type, .error .sendEmpty⟩)
         else if ∃ v, Dict.get? m "vtn_id" = some v ∧ v ≠ .none ∧ v ≠ .str c.vtnId then
           ((cache, st), ⟨some type, .error (.protocol 452 "The supplied vtnID is invalid.")⟩)
         else match handleMessage c svc st type m with
          | (st', .error e) => ((cache, st'), ⟨some type, .error e⟩)
          | (st', .ok (rt, rp)) => ((cache, st'), ⟨some type, .ok (rt, completed c m rp)⟩)) := by
  have hx : isXml (some "application/xml") = true := by decide +kernel
  unfold process
  simp only [hx, hp, hk, Bool.true_eq_false, if_false, Bool.false_eq_true, false_and]
  rfl

/-- **C85**: a VEN in the table whose id arrives as it was sent is dealt with as if the server asked nobody to register: for every message, service and state. -/
theorem c85_recognized (k : Link) (c : Config) (svc : Service S) (cache : NonceCache) (st : S) (peer : Option String) (type : String) (p m : Dict)
    (table : List (String × Dict)) (ven : String) (hl : c.venLookup = some (tableLookup table)) (hs : Received k.lib k.clientNow type p m)
    (hm : Dict.get? m "ven_id" = some (.str ven)) (h : InTable table ven) :
    exchange k c svc cache st false peer type p = exchange k { c with venLookup := none } svc cache st false peer type p := by
  obtain ⟨txt, h1, h2⟩ := hs
  have h3 := parseText_received h2
  have hk : checkKnown (wired c k.lib k.serverNow) type m = .ok () := checkKnown_registered (c := wired c k.lib k.serverNow) hl hm h
  have hk' : checkKnown (wired { c with venLookup := none } k.lib k.serverNow) type m = .ok () := by
    unfold checkKnown
    split
    · rfl
    · rw [hm]; rfl
  have hm1 : handleMessage (wired { c with venLookup := none } k.lib k.serverNow) svc st type m = handleMessage (wired c k.lib k.serverNow) svc st type m := by
    have : ∀ p, finishPayload (wired { c with venLookup := none } k.lib k.serverNow) m p = finishPayload (wired c k.lib k.serverNow) m p := fun p => rfl
    simp only [handleMessage, this]
  have e1 := process_unsecured (wired c k.lib k.serverNow) svc k.surroundings k.count cache st peer (String.ofList txt) h3 hk
  have e2 := process_unsecured (wired { c with venLookup := none } k.lib k.serverNow) svc k.surroundings k.count cache st peer (String.ofList txt) h3 hk'
  simp only [exchange, h1, handle]
  rw [e1, e2, hm1]
  rfl

/-- The answer to a VEN that is not known, as it is received. -/
theorem reregistration_exchanged (k : Link) (c : Config) (svc : Service S) (cache : NonceCache) (st : S) (secure : Bool) (peer : Option String) (type : String)
    (p m : Dict) (table : List (String × Dict)) (ven x : Value) (hl : c.venLookup = some (tableLookup table)) (hs : Received k.lib k.clientNow type p m)
    (ht : type ≠ "oadrCreatePartyRegistration" ∧ type ≠ "oadrQueryRegistration" ∧ type ≠ "oadrResponse")
    (hn : ∀ v, Dict.get? m "vtn_id" = some v → v = .none ∨ v = .str c.vtnId)
    (hval : ∀ txt, createMessage k.lib k.clientNow type p = .ok txt → ∃ tree, c.validate (String.ofList txt) = .ok tree)
    (hacc : ∀ p txt, createMessage k.lib k.serverNow "oadrRequestReregistration" p = .ok txt → k.accepts (String.ofList txt) = true)
    (hm : Dict.get? m "ven_id" = some ven) (h : ∀ s, ven = .str s → ¬ InTable table s) (hw : Wired k.lib "ven_id" .plain ven x) :
    exchange k c svc cache st secure peer type p = ((cache, st), .ok (some (some "oadrRequestReregistration", [("ven_id", x)]))) := by
  have harr : Arrives k.lib k.serverNow "oadrRequestReregistration" [("ven_id", ven)] [("ven_id", x)] :=
    arrives_of (by rfl) (fun _ => .cons (carries_leaf "venID" "ven_id" (by lk) hw) .nil) (by simp) (by simp)
  refine exchange_answered hs (fun txt h1 h2 => ?_) (harr _ (.same _)) (fun txt ht => hacc _ txt ht)
  obtain ⟨tree, hvt⟩ := hval txt h1
  have hx : isXml (some "application/xml") = true := by decide +kernel
  have hk : checkKnown (wired c k.lib k.serverNow) type m = .error (.reregister ven) :=
    checkKnown_unknown (c := wired c k.lib k.serverNow) hl ⟨ht.1, ht.2.1⟩ hm h
  have hn' : ¬ ∃ v, Dict.get? m "vtn_id" = some v ∧ v ≠ .none ∧ v ≠ .str (wired c k.lib k.serverNow).vtnId := by
    rintro ⟨v, h1, h2, h3⟩
    rcases hn v h1 with h | h
    · exact h2 h
    · exact h3 h
  have hv' : (wired c k.lib k.serverNow).validate (String.ofList txt) = .ok tree := hvt
  have hp' : (wired c k.lib k.serverNow).parse (String.ofList txt) = .ok (type, m) := parseText_received h2
  have hq : process (wired c k.lib k.serverNow) svc k.surroundings k.count cache st (requestOf secure peer txt) =
      ((cache, st), ⟨some type, .error (.reregister ven)⟩) := by
    unfold process
    rw [if_neg (by rw [requestOf, hx]; simp), show (requestOf secure peer txt).content = String.ofList txt from rfl, hv', hp']
    simp only []
    rw [if_neg ht.2.2, if_neg hn', hk]
  simp only [handle, hq, reply]

theorem poll_received {lib : Lib} {now : Int} {ven x : Value} (hw : Wired lib "ven_id" .plain ven x) :
    Received lib now "oadrPoll" [("ven_id", ven)] [("ven_id", x)] :=
  (arrives_of (by rfl) (fun _ => .cons (carries_leaf "venID" "ven_id" (by lk) hw) .nil) (by simp) (by simp) : Arrives lib now "oadrPoll" _ _) _ (.same _)

/-- **C85**: and a VEN that is not in the table, or not registered there, is asked to register again by the answer to its poll, without the handler being called. -/
theorem c85_unknown (k : Link) (c : Config) (svc : Service S) (cache : NonceCache) (st : S) (secure : Bool) (peer : Option String)
    (table : List (String × Dict)) (ven : String) (hl : c.venLookup = some (tableLookup table)) (hven : Ordinary k.lib ven)
    (hval : ∀ txt, createMessage k.lib k.clientNow "oadrPoll" [("ven_id", .str ven)] = .ok txt → ∃ tree, c.validate (String.ofList txt) = .ok tree)
    (hacc : ∀ p txt, createMessage k.lib k.serverNow "oadrRequestReregistration" p = .ok txt → k.accepts (String.ofList txt) = true)
    (h : ¬ InTable table ven) :
    exchange k c svc cache st secure peer "oadrPoll" [("ven_id", .str ven)] =
      ((cache, st), .ok (some (some "oadrRequestReregistration", [("ven_id", .str ven)]))) :=
  reregistration_exchanged k c svc cache st secure peer "oadrPoll" _ _ table _ _ hl (poll_received (wired_text hven (by decide +kernel)))
    (by decide) (by simp [Dict.get?]) hval hacc (by simp [Dict.get?]) (fun s hs => by cases hs; exact h) (wired_text hven (by decide +kernel))

/-- **C85, refuted** for ids that are texts of integers: however the VTN's table of VENs (by texts) looks, such a VEN is asked to register again by the answer
    to each of its polls, whether it holds its id as the text or as the number that its registration left it with. -/
theorem c85_numbers_violated (k : Link) (c : Config) (svc : Service S) (cache : NonceCache) (st : S) (secure : Bool) (peer : Option String)
    (table : List (String × Dict)) (i : Int) (ven : Value) (hven : ven = .int i ∨ ven = .str (String.ofList (intText i))) (sound : k.lib.Sound)
    (hl : c.venLookup = some (tableLookup table))
    (hval : ∀ txt, createMessage k.lib k.clientNow "oadrPoll" [("ven_id", ven)] = .ok txt → ∃ tree, c.validate (String.ofList txt) = .ok tree)
    (hacc : ∀ p txt, createMessage k.lib k.serverNow "oadrRequestReregistration" p = .ok txt → k.accepts (String.ofList txt) = true) :
    exchange k c svc cache st secure peer "oadrPoll" [("ven_id", ven)] =
      ((cache, st), .ok (some (some "oadrRequestReregistration", [("ven_id", .int i)]))) := by
  have hw : Wired k.lib "ven_id" .plain ven (.int i) := by
    rcases hven with rfl | rfl
    · exact wired_int sound i (by decide +kernel)
    · exact wired_taken sound (safe_onWire _ (intText_ne i) (intText_safe i)) (intText_taken sound i) (by decide +kernel)
  exact reregistration_exchanged k c svc cache st secure peer "oadrPoll" _ _ table _ _ hl (poll_received hw)
    (by decide) (by simp [Dict.get?]) hval hacc (by simp [Dict.get?]) (fun s hs => by cases hs) (wired_int sound i (by decide +kernel))

/-- The poll of a VEN that is in the table without a registration id. -/
example : exchange sampleLink { sampleVtn with venLookup := some (tableLookup [("ven1", [("ven_id", .str "ven1"), ("registration_id", .none)])]) }
      (⟨"OadrPoll", [("oadrPoll", fun n _ => (n + 1, .ok .nothing))]⟩ : Service Nat) [] 7 false none "oadrPoll" [("ven_id", .str "ven1")] =
    (([], 7), .ok (some (some "oadrRequestReregistration", [("ven_id", .str "ven1")]))) :=
  c85_unknown sampleLink _ _ [] 7 false none _ "ven1" rfl (ordinary_of (by decide +kernel)) (fun _ _ => ⟨_, rfl⟩) (fun _ _ _ => rfl)
    (by rintro ⟨info, r, h1, h2, h3⟩; simp only [Dict.get?, if_true, Option.some.injEq] at h1; subst h1; simp [Dict.get?] at h2; exact h3 h2.symm)

/-- The poll of a registered VEN whose id is `12`. -/
example : exchange sampleLink { sampleVtn with venLookup := some (tableLookup [("12", [("registration_id", .str "reg1")])]) }
      (⟨"OadrPoll", [("oadrPoll", fun n _ => (n + 1, .ok .nothing))]⟩ : Service Nat) [] 7 false none "oadrPoll" [("ven_id", .int 12)] =
    (([], 7), .ok (some (some "oadrRequestReregistration", [("ven_id", .int 12)]))) :=
  c85_numbers_violated sampleLink _ _ [] 7 false none _ 12 _ (.inl rfl) plainLib_sound rfl (fun _ _ => ⟨_, rfl⟩) (fun _ _ _ => rfl)

end Openleadr
