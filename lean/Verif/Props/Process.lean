import Verif.Model.Process
import Verif.Props.Handler
/-!
C82: servers in one process do not influence each other. C83: a server with a certificate is secured.
-/
namespace Openleadr

/-- The configuration that the arguments of a server ask for. -/
def ownConfig (lib : Library) (a : ServerArgs) : Config :=
  ⟨a.vtnId, a.verifySignatures, a.fingerprintLookup, a.venLookup, lib.validate, lib.parse, lib.render (a.cert, a.key), lib.newId⟩

/-- The last of the given functions. -/
def lastGiven (l : List ServerArgs) (f : ServerArgs → Option α) : Option α := (l.filterMap f).getLast?

/-- **C82**: a server that is the only one in its process works with its own configuration. -/
theorem c82_alone (lib : Library) (a : ServerArgs) : configOf lib (makeServers freshClass [a]) a = ownConfig lib a := by
  obtain ⟨_, _, _, f, v, _, _, _, _⟩ := a
  cases f <;> cases v <;> rfl

theorem makeServers_append (g : ClassAttrs) (l : List ServerArgs) (a : ServerArgs) :
    makeServers g (l ++ [a]) = makeServer (makeServers g l) a := by simp [makeServers]

theorem induction_end {P : List α → Prop} (nil : P []) (append : ∀ l a, P l → P (l ++ [a])) (l : List α) : P l := by
  have : ∀ r : List α, P r.reverse := by
    intro r
    induction r with
    | nil => exact nil
    | cons a r ih => rw [List.reverse_cons]; exact append _ _ ih
  simpa using this l.reverse

theorem makeServers_lookups (l : List ServerArgs) :
    (makeServers freshClass l).fingerprintLookup = lastGiven l ServerArgs.fingerprintLookup ∧
    (makeServers freshClass l).venLookup = lastGiven l ServerArgs.venLookup := by
  induction l using induction_end with
  | nil => exact ⟨rfl, rfl⟩
  | append l a ih =>
    rw [makeServers_append]
    simp only [makeServer, lastGiven, List.filterMap_append, List.filterMap_cons, List.filterMap_nil, ih.1, ih.2]
    constructor
    · cases a.fingerprintLookup <;> simp [lastGiven]
    · cases a.venLookup <;> simp [lastGiven]

/-- **C82** (exact form): after any servers were made, every one of them works with the signatures and the signing of the server that was made last, and with
    the last lookups that were given to any of them. -/
theorem c82_last_one_counts_partial (lib : Library) (l : List ServerArgs) (b a : ServerArgs) :
    configOf lib (makeServers freshClass (l ++ [b])) a =
      ⟨a.vtnId, b.verifySignatures, lastGiven (l ++ [b]) ServerArgs.fingerprintLookup, lastGiven (l ++ [b]) ServerArgs.venLookup,
       lib.validate, lib.parse, lib.render (b.cert, b.key), lib.newId⟩ := by
  have h := makeServers_lookups (l ++ [b])
  unfold configOf
  rw [h.1, h.2, makeServers_append]
  rfl

theorem lastGiven_same (l : List ServerArgs) (f : ServerArgs → Option α) (v : Option α) (hl : l ≠ []) (h : ∀ b ∈ l, f b = v) : lastGiven l f = v := by
  induction l using induction_end with
  | nil => exact absurd rfl hl
  | append l b ih =>
    have hb : f b = v := h b (by simp)
    cases v with
    | some x => simp [lastGiven, hb]
    | none =>
      by_cases hl' : l = []
      · simp [lastGiven, hl', hb]
      · have := ih hl' (fun c hc => h c (by simp [hc]))
        simpa [lastGiven, List.filterMap_append, hb] using this

/-- **C82** (partial: for servers that are configured alike, up to their ids, ports and HTTP certificates): each works with its own configuration. -/
theorem c82_alike_partial (lib : Library) (l : List ServerArgs) (a : ServerArgs) (ha : a ∈ l)
    (h : ∀ b ∈ l, b.cert = a.cert ∧ b.key = a.key ∧ b.fingerprintLookup = a.fingerprintLookup ∧ b.venLookup = a.venLookup ∧
      b.verifySignatures = a.verifySignatures) :
    configOf lib (makeServers freshClass l) a = ownConfig lib a := by
  obtain ⟨l', b, rfl⟩ : ∃ l' b, l = l' ++ [b] := by
    rcases List.eq_nil_or_concat l with rfl | ⟨l', b, rfl⟩
    · cases ha
    · exact ⟨l', b, by simp⟩
  obtain ⟨h1, h2, _, _, h5⟩ := h b (by simp)
  rw [c82_last_one_counts_partial, lastGiven_same _ ServerArgs.fingerprintLookup _ (by simp) (fun b hb => (h b hb).2.2.1),
    lastGiven_same _ ServerArgs.venLookup _ (by simp) (fun b hb => (h b hb).2.2.2.1), h1, h2, h5]
  rfl

/-- **C82, refuted** for lookups: a server that is made later replaces the lookup of every earlier one by its own. -/
theorem c82_lookup_violated (lib : Library) (l : List ServerArgs) (a b : ServerArgs) (f : VenLookup) (hb : b.venLookup = some f) :
    (configOf lib (makeServers freshClass (l ++ [b])) a).venLookup = some f := by
  rw [c82_last_one_counts_partial]
  simp [lastGiven, hb]

/-- **C82, refuted** the other way round: a server without lookup that is made later works with the lookup of an earlier one. -/
theorem c82_inherited_violated (lib : Library) (a b : ServerArgs) (f : VenLookup) (ha : a.venLookup = some f) (hb : b.venLookup = none) :
    (configOf lib (makeServers freshClass [a, b]) b).venLookup = some f ∧ (ownConfig lib b).venLookup = none := by
  have := c82_last_one_counts_partial lib [a] b b
  rw [show [a, b] = [a] ++ [b] from rfl, this]
  simp [lastGiven, ha, hb, ownConfig]

/-- **C82, refuted** for signatures: a server that does not verify signatures stops every other one from doing so, and what the others send is signed with its
    key, or not at all. -/
theorem c82_signatures_violated (lib : Library) (l : List ServerArgs) (a b : ServerArgs) (hb : b.verifySignatures = false) :
    (configOf lib (makeServers freshClass (l ++ [b])) a).verifySignatures = false ∧
    (configOf lib (makeServers freshClass (l ++ [b])) a).render = lib.render (b.cert, b.key) := by
  rw [c82_last_one_counts_partial]
  exact ⟨hb, rfl⟩

/-! ### What that means: two servers with different VENs -/

/-- The library for the example: the message in the content's first word, of the VEN `ven1`. -/
def plainLibrary : Library := ⟨plainConfig.validate, plainConfig.parse, fun _ type _ => .ok type, "id"⟩

/-- A server that knows `ven1` by the fingerprint `AA`. -/
def firstServer : ServerArgs :=
  { vtnId := "vtn", httpCert := some "c", httpKey := some "k", httpCaFile := some "ca",
    venLookup := some (fun _ => .ok (some [("registration_id", .str "reg"), ("fingerprint", .str "AA")])) }

/-- A server that knows no VEN. -/
def secondServer : ServerArgs := { firstServer with vtnId := "other", venLookup := some (fun _ => .ok none) }

/-- **C82, refuted**: the first server handles the poll of its VEN; after a second server was made that does not know this VEN, it does not any more. -/
theorem c82_two_servers_violated :
    let r := receivedBy firstServer ⟨some "application/xml", false, some "AA", "oadrPoll"⟩
    (handle (configOf plainLibrary (makeServers freshClass [firstServer]) firstServer) (countingService ["oadrPoll"]) newYear 0 [] 0 r).1.2 = 1 ∧
    (handle (configOf plainLibrary (makeServers freshClass [firstServer, secondServer]) firstServer) (countingService ["oadrPoll"]) newYear 0 [] 0 r).1.2 =
      0 := by decide +kernel

/-! ### C83 -/

/-- **C83** (exact form): a server speaks TLS exactly if certificate, key and CA file are all given; then all its requests are secured. -/
theorem c83_tls_exactly_partial (a : ServerArgs) (r : Request) :
    (receivedBy a r).secure = true ↔
      (∃ x, a.httpCert = some x ∧ x ≠ "") ∧ (∃ x, a.httpKey = some x ∧ x ≠ "") ∧ (∃ x, a.httpCaFile = some x ∧ x ≠ "") := by
  have hg : ∀ t : Option String, given t = true ↔ ∃ x, t = some x ∧ x ≠ "" := by
    intro t
    cases t <;> simp [given]
  simp [receivedBy, speaksTls, hg, and_assoc]

/-- **C83**: with all three files, verification and a lookup, a message that is not authentic has no effect, however the client connects. -/
theorem c83_secured (lib : Library) (a : ServerArgs) (hv : a.verifySignatures = true) (hl : a.fingerprintLookup.isSome ∨ a.venLookup.isSome)
    (ht : speaksTls a = true) (s : Surroundings) (i : Nat) (cache : NonceCache) (r : Request) (tree : Tree) (type : String) (message : Dict)
    (h1 : lib.validate r.content = .ok tree) (h2 : lib.parse r.content = .ok (type, message)) (ven : Value)
    (hven : Dict.get? message "ven_id" = some ven) (h : ¬ Authentic (ownConfig lib a) s i cache (receivedBy a r) tree ven) :
    ∃ out, ∀ (S : Type) (svc : Service S) (st : S),
      handle (configOf lib (makeServers freshClass [a]) a) svc s i cache st (receivedBy a r) = ((cache, st), out) := by
  rw [c82_alone]
  exact c38_refused_without_effect (ownConfig lib a) hv hl s i cache (receivedBy a r) ht tree type message h1 h2 ven hven h

/-- **C83, refuted** without a CA file: the server was given a certificate and a key, but it speaks plain HTTP, and every readable message of a VEN that
    its lookup knows is handled, whoever sent it. -/
theorem c83_without_ca_violated (lib : Library) (a : ServerArgs) (hca : a.httpCaFile = none) (svc : Service S) (s : Surroundings) (i : Nat)
    (cache : NonceCache) (st : S) (r : Request) (tree : Tree) (type : String) (message : Dict)
    (hread : Readable (ownConfig lib a) (receivedBy a r) tree type message) (hknown : checkKnown (ownConfig lib a) type message = .ok ()) :
    (receivedBy a r).secure = false ∧
    process (configOf lib (makeServers freshClass [a]) a) svc s i cache st (receivedBy a r) =
      dispatched (ownConfig lib a) svc st (receivedBy a r) cache type message := by
  have hs : (receivedBy a r).secure = false := by simp [receivedBy, speaksTls, hca, given]
  refine ⟨hs, ?_⟩
  rw [c82_alone, process_readable _ svc s i cache st _ tree type message hread, hknown]
  simp [authStep, hs]

/-- A server like the first one, but without the CA file. -/
def unsecuredServer : ServerArgs := { firstServer with httpCaFile := none }

/-- Not empty: somebody without any certificate is refused by the first server, and handled by the one without the CA file. -/
example :
    (handle (configOf plainLibrary (makeServers freshClass [firstServer]) firstServer) (countingService ["oadrPoll"]) newYear 0 [] 0
      (receivedBy firstServer ⟨some "application/xml", false, none, "oadrPoll"⟩)).1.2 = 0 ∧
    (handle (configOf plainLibrary (makeServers freshClass [unsecuredServer]) unsecuredServer) (countingService ["oadrPoll"]) newYear 0 [] 0
      (receivedBy unsecuredServer ⟨some "application/xml", false, none, "oadrPoll"⟩)).1.2 = 1 := by decide +kernel

/-- **C83** (exact form): messages are signed exactly if certificate and key are both given and not empty. -/
theorem c83_signs_exactly_partial (a : ServerArgs) :
    signs (makeServers freshClass [a]).signing = true ↔ (∃ x, a.cert = some x ∧ x ≠ "") ∧ (∃ x, a.key = some x ∧ x ≠ "") := by
  have hg : ∀ t : Option String, given t = true ↔ ∃ x, t = some x ∧ x ≠ "" := by
    intro t
    cases t <;> simp [given]
  simp [signs, makeServers, makeServer, hg]

/-- **C83, refuted** for signatures: a server with a certificate but without a key is made without complaint and signs nothing. -/
theorem c83_without_key_violated (a : ServerArgs) (h : a.key = none) : signs (makeServers freshClass [a]).signing = false := by
  simp [signs, makeServers, makeServer, h, given]

end Openleadr
