import Verif.Proofs.Calm
import Verif.Props.Schedule
import Verif.Model.ToyFacts
/-!
# Authentication of the peer: C19, C20, C21, C22, C57 and C59

The evidence (`ServerAuthenticated`, `ClientFinished`, …) is defined in Spec/Auth.lean from the
trace of the connection and the external functions only.
-/

namespace Siotls

variable {E : Env}

/-! ## C20 -/

/-- C20. Whatever bytes a client with a trust store received and whatever the application did, if
the client is connected then: the server sent a chain of X.509 certificates that was verified
against that trust store for the requested name (with every stapled OCSP response validated and, with
an OCSP service, the others asked for, see C94), then a CertificateVerify by an algorithm the client allows whose signature over the hash of the
handshake so far was verified with the public key of the leaf, then a Finished whose MAC over the
hash of the handshake so far, keyed by the server handshake traffic secret of the key exchange with
the share of the ServerHello, is the expected one. `CoversSince` tells what these hashes cover:
everything exchanged when there was no HelloRetryRequest. -/
theorem C20_authenticated (hE : E.Sized) {config hostname ocsp algs random} {c : Conn} {store : Bytes}
    (h : Conn.new config hostname ocsp algs random = .ok c) (hside : config.side = .client)
    (hstore : config.trustStore = some store) (ops : List Op)
    (hst : (runOps E ops c).state = .connected) :
    ∃ k, (runOps E ops c).cipher = some k ∧
      ServerAuthenticated E (CoversSince E) k.info.digest config hostname ocsp store
        (runOps E ops c).tr := by
  have hi := ClientInv.run (E := E) hE h hside ops
  obtain ⟨k, hk⟩ := Option.isSome_iff_exists.mp (hi.key.present hst)
  refine ⟨k, hk, ?_⟩
  have := hi.done.done k hk (hi.key.done k hk hst)
  unfold PeerDone at this
  rw [hside] at this
  exact this.2 store hstore

/-- Even without a trust store, a connected client has verified the MAC of the server's Finished. -/
theorem C20_finished (hE : E.Sized) {config hostname ocsp algs random} {c : Conn}
    (h : Conn.new config hostname ocsp algs random = .ok c) (hside : config.side = .client)
    (ops : List Op) (hst : (runOps E ops c).state = .connected) :
    ∃ k, (runOps E ops c).cipher = some k ∧
      ServerFinished E (CoversSince E) k.info.digest (runOps E ops c).tr := by
  have hi := ClientInv.run (E := E) hE h hside ops
  obtain ⟨k, hk⟩ := Option.isSome_iff_exists.mp (hi.key.present hst)
  refine ⟨k, hk, ?_⟩
  have := hi.done.done k hk (hi.key.done k hk hst)
  unfold PeerDone at this
  rw [hside] at this
  exact this.1

/-- The hypotheses of C20 are met by the toy client, which has a trust store and gets connected. -/
example : Toy.env.Sized ∧ Conn.new Toy.clientConfig (some ['a']) false [.sha256, .sha384]
      (List.replicate 32 5) = .ok Toy.client0 ∧ Toy.clientConfig.side = .client ∧
    Toy.clientConfig.trustStore = some [1, 2, 3] ∧
    (runOps Toy.env Toy.clientOps Toy.client0).state = .connected :=
  ⟨Toy.sized, Toy.client0_new, rfl, rfl, Toy.client_facts.1.1⟩

/-! ## C21 -/

/-- C21. Whatever bytes a server received, if it is connected then the client sent a Finished whose
MAC, keyed by the client handshake traffic secret of the key exchange with the client's share, over
the transcript of RFC 8446 up to the server's own Finished, is the expected one.

`Careful`: the program does not call `receive_data` again after it raised in the middle of the
handshake without even being able to send an alert. The 32 random bytes of the server are not the
constant that marks a HelloRetryRequest. -/
theorem C21_finished (hE : E.Sized) {config hostname ocsp algs random} {c : Conn}
    (h : Conn.new config hostname ocsp algs random = .ok c) (hside : config.side = .server)
    (hr : random.length = 32) (hne : random ≠ Spec.retryRandom) (ops : List Op)
    (hc : Careful E ops c) (hst : (runOps E ops c).state = .connected) :
    ∃ k, (runOps E ops c).cipher = some k ∧
      ClientFinished E (CoversRfc E) k.info.digest (runOps E ops c).tr := by
  have hi := ServerInv.run (E := E) hE h hside hr hne ops hc
  obtain ⟨k, hk⟩ := Option.isSome_iff_exists.mp (hi.key.present hst)
  refine ⟨k, hk, ?_⟩
  have := hi.done.done k hk (hi.key.done k hk hst)
  unfold PeerDone at this
  rw [hside] at this
  exact this

/-- The hypotheses of C21 are met by the toy server, which gets connected. -/
example : Toy.env.Sized ∧ Conn.new Toy.serverConfig none false [.sha256] (List.replicate 32 6) =
      .ok Toy.server0 ∧ Toy.serverConfig.side = .server ∧
    (List.replicate 32 (6 : UInt8)).length = 32 ∧ List.replicate 32 6 ≠ Spec.retryRandom ∧
    Careful Toy.env Toy.serverOps Toy.server0 ∧
    (runOps Toy.env Toy.serverOps Toy.server0).state = .connected :=
  ⟨Toy.sized, Toy.server0_new, rfl, rfl, by decide, Toy.server_facts.1.2, Toy.server_facts.1.1⟩

/-! ## C19 -/

/-- C19 for a client, as long as nobody closes the connection: application data is delivered and
sent only after the MAC of the server's Finished was verified. -/
theorem C19_client_partial (hE : E.Sized) {config hostname ocsp algs random} {c : Conn}
    (h : Conn.new config hostname ocsp algs random = .ok c) (hside : config.side = .client)
    (ops : List Op) (hn : NeverClosed ops (runOps E ops c).tr) (past : List Ev) (d : Bytes)
    (hp : (Ev.delivered d :: past) <:+ (runOps E ops c).tr ∨
      (Ev.sent (.applicationData d) :: past) <:+ (runOps E ops c).tr) :
    ∃ a, ServerFinished E (CoversSince E) a past := by
  have key : DataInv (fun t => ∃ a, ServerFinished E (CoversSince E) a t)
      (fun t => ∃ a, ServerFinished E (CoversSince E) a t) (runOps E ops c) := by
    suffices hs : ClientInv E config hostname ocsp (runOps E ops c) ∧ ClosedInv (runOps E ops c) ∧
        DataInv (fun t => ∃ a, ServerFinished E (CoversSince E) a t)
          (fun t => ∃ a, ServerFinished E (CoversSince E) a t) (runOps E ops c) from hs.2.2
    refine runOps_calm (I := fun x => ClientInv E config hostname ocsp x ∧ ClosedInv x ∧
      DataInv (fun t => ∃ a, ServerFinished E (CoversSince E) a t)
        (fun t => ∃ a, ServerFinished E (CoversSince E) a t) x) (fun c c' hh hs => ?_) ?_ ops hn.1
    · obtain ⟨hi, hcl, hd⟩ := hh
      have ev : c.state = .connected → ∃ a, ServerFinished E (CoversSince E) a c.tr := by
        intro hst
        obtain ⟨k, hk⟩ := Option.isSome_iff_exists.mp (hi.key.present hst)
        have := hi.done.done k hk (hi.key.done k hk hst)
        unfold PeerDone at this
        rw [hside] at this
        exact ⟨_, this.1⟩
      refine ⟨hi.api hE hside hs.api, hcl.calm hs, hd.calm hcl ev (fun hst t ht => ?_) hs⟩
      rcases hst with hst | ⟨fh, hst⟩
      · obtain ⟨a, ha⟩ := ev hst
        exact ⟨a, ha.mono ht⟩
      · exact absurd (hi.side.state .server (by rw [hst]; rfl)) (by simp)
    · exact ⟨ClientInv.run hE h hside [], .fresh h, .fresh h⟩
  rcases hp with hp | hp
  · rcases key.delivered past d hp with h | ⟨l, h⟩
    · exact h
    · exact absurd (hp.subset (.tail _ h)) (hn.2 l)
  · rcases key.sent past d hp with h | ⟨l, h⟩
    · exact h
    · exact absurd (hp.subset (.tail _ h)) (hn.2 l)

/-- C19 for a server, as long as nobody closes the connection: application data is delivered only
after the MAC of the client's Finished was verified, and sent only after the server's own
Finished. -/
theorem C19_server_partial (hE : E.Sized) {config hostname ocsp algs random} {c : Conn}
    (h : Conn.new config hostname ocsp algs random = .ok c) (hside : config.side = .server)
    (hr : random.length = 32) (hne : random ≠ Spec.retryRandom) (ops : List Op)
    (hc : Careful E ops c) (hn : NeverClosed ops (runOps E ops c).tr) (past : List Ev) (d : Bytes) :
    ((Ev.delivered d :: past) <:+ (runOps E ops c).tr → ∃ a, ClientFinished E (CoversRfc E) a past) ∧
    ((Ev.sent (.applicationData d) :: past) <:+ (runOps E ops c).tr →
      ∃ mac, Ev.sent (.handshake (.finished mac)) ∈ past) := by
  have key : DataInv (fun t => ∃ a, ClientFinished E (CoversRfc E) a t)
      (fun t => ∃ mac, Ev.sent (.handshake (.finished mac)) ∈ t) (runOps E ops c) := by
    suffices hs : ServerInv E config hostname ocsp (runOps E ops c) ∧ ClosedInv (runOps E ops c) ∧
        DataInv (fun t => ∃ a, ClientFinished E (CoversRfc E) a t)
          (fun t => ∃ mac, Ev.sent (.handshake (.finished mac)) ∈ t) (runOps E ops c) from hs.2.2
    refine runOps_calm_careful (I := fun x => ServerInv E config hostname ocsp x ∧ ClosedInv x ∧
      DataInv (fun t => ∃ a, ClientFinished E (CoversRfc E) a t)
        (fun t => ∃ mac, Ev.sent (.handshake (.finished mac)) ∈ t) x) (fun c c' hh hs => ?_) ?_ (ready_fresh h) ops hc hn.1
    · obtain ⟨hi, hcl, hd⟩ := hh
      have ev : c.state = .connected → ∃ a, ClientFinished E (CoversRfc E) a c.tr := by
        intro hst
        obtain ⟨k, hk⟩ := Option.isSome_iff_exists.mp (hi.key.present hst)
        have := hi.done.done k hk (hi.key.done k hk hst)
        unfold PeerDone at this
        rw [hside] at this
        exact ⟨_, this⟩
      refine ⟨hi.api hE hside hs.api, hcl.calm hs, hd.calm hcl ev (fun hst t ht => ?_) hs⟩
      rcases hst with hst | ⟨fh, hst⟩
      · obtain ⟨a, t₀, t₁, mac, _, _, _, _, h1, h2, h3, _⟩ := ev hst
        exact ⟨mac, ht.subset (h1.subset (h2.subset (List.mem_of_mem_head? h3)))⟩
      · obtain ⟨_, t₁, mac, _, h2, h3, _⟩ := hi.done.last _ hst
        exact ⟨mac, ht.subset (h2.subset (List.mem_of_mem_head? h3))⟩
    · exact ⟨ServerInv.run hE h hside hr hne [] trivial, .fresh h, .fresh h⟩
  refine ⟨fun hp => ?_, fun hp => ?_⟩
  · rcases key.delivered past d hp with h | ⟨l, h⟩
    · exact h
    · exact absurd (hp.subset (.tail _ h)) (hn.2 l)
  · rcases key.sent past d hp with h | ⟨l, h⟩
    · exact h
    · exact absurd (hp.subset (.tail _ h)) (hn.2 l)

namespace Toy

/-- a close_notify alert, in the clear -/
def closeNotify : Bytes := [21, 3, 3, 0, 2, 1, 0]
/-- application data, in the clear -/
def clearData : Bytes := [23, 3, 3, 0, 3, 1, 2, 3]

/-- a server that requires client certificates -/
def mtlsConfig : Config := { serverConfig with trustStore := some [1] }
def mtls0 : Conn := fresh mtlsConfig none [.sha256] (List.replicate 32 6)

theorem mtls0_new : Conn.new mtlsConfig none false [.sha256] (List.replicate 32 6) = .ok mtls0 := by
  rfl

set_option maxRecDepth 100000

theorem closed_delivers : (runOps env [.initiate, .receive closeNotify, .receive clearData,
    .send [9]] mtls0).applicationData = [1, 2, 3] ∧
    (runOps env [.initiate, .receive closeNotify, .receive clearData,
      .send [9]] mtls0).state.isConnected = true ∧
    (runOps env [.initiate, .receive closeNotify, .receive clearData,
      .send [9]] mtls0).outputData = [23, 3, 3, 0, 1, 9] ∧
    (runOps env [.initiate, .receive closeNotify, .receive clearData,
      .send [9]] mtls0).cipher = none := by decide +kernel

theorem data_later : (runOps env (clientOps ++ [.send [1]]) client0).tr.head? =
      some (.sent (.applicationData [1])) ∧
    (runOps env (clientOps ++ [.send [1]]) client0).tr.all
      (fun e => match e with | .recv (.alert _ _) => false | _ => true) = true := by
  decide +kernel

theorem server_later : (runOps env (serverOps ++ [.send [1]]) server0).tr.head? =
      some (.sent (.applicationData [1])) ∧
    (runOps env (serverOps ++ [.send [1]]) server0).tr.all
      (fun e => match e with | .recv (.alert _ _) => false | _ => true) = true ∧
    Careful env (serverOps ++ [.send [1]]) server0 := by
  decide +kernel

end Toy

/-- The hypotheses of `C19_client_partial` are met by a history where the toy client sends data. -/
example : NeverClosed (Toy.clientOps ++ [.send [1]])
      (runOps Toy.env (Toy.clientOps ++ [.send [1]]) Toy.client0).tr ∧
    ∃ past, (Ev.sent (.applicationData [1]) :: past) <:+
      (runOps Toy.env (Toy.clientOps ++ [.send [1]]) Toy.client0).tr := by
  obtain ⟨h1, h2⟩ := Toy.data_later
  refine ⟨⟨rfl, fun l hl => ?_⟩, ?_⟩
  · have := List.all_eq_true.mp h2 _ hl
    cases this
  · obtain ⟨t, ht⟩ := List.head?_eq_some_iff.mp h1
    exact ⟨t, ht ▸ List.suffix_refl _⟩

/-- Likewise for `C19_server_partial`. -/
example : NeverClosed (Toy.serverOps ++ [.send [1]])
      (runOps Toy.env (Toy.serverOps ++ [.send [1]]) Toy.server0).tr ∧
    Careful Toy.env (Toy.serverOps ++ [.send [1]]) Toy.server0 ∧
    ∃ past, (Ev.sent (.applicationData [1]) :: past) <:+
      (runOps Toy.env (Toy.serverOps ++ [.send [1]]) Toy.server0).tr := by
  obtain ⟨h1, h2, h3⟩ := Toy.server_later
  refine ⟨⟨rfl, fun l hl => ?_⟩, h3, ?_⟩
  · have := List.all_eq_true.mp h2 _ hl
    cases this
  · obtain ⟨t, ht⟩ := List.head?_eq_some_iff.mp h1
    exact ⟨t, ht ▸ List.suffix_refl _⟩

/-- C19 is false in general: a close_notify in the clear, before any handshake message, lets a
server deliver application data that comes in the clear, and send some in the clear. -/
theorem C19_false : ∃ (E : Env) (config : Config) (c : Conn) (ops : List Op),
    Conn.new config none false [.sha256] (List.replicate 32 6) = .ok c ∧
    (runOps E ops c).applicationData = [1, 2, 3] ∧
    (runOps E ops c).outputData = [23, 3, 3, 0, 1, 9] ∧ (runOps E ops c).cipher = none :=
  ⟨Toy.env, _, _, _, Toy.mtls0_new, Toy.closed_delivers.1, Toy.closed_delivers.2.2⟩

/-! ## C22 -/

/-- C22, as far as the state machine goes: a server that requires the client to authenticate never
reaches the connected state (with no client at all: the code cannot process client certificates),
and as long as nobody closes the connection `is_connected()` is false and nothing is delivered. -/
theorem C22_partial {config hostname ocsp algs random} {c : Conn}
    (h : Conn.new config hostname ocsp algs random = .ok c) (hside : config.side = .server)
    (hauth : config.trustStore.isSome = true ∨ config.trustedPublicKeys ≠ []) (ops : List Op) :
    (runOps E ops c).state ≠ .connected ∧
    (NeverClosed ops (runOps E ops c).tr → (runOps E ops c).state.isConnected = false ∧
      ∀ d, Ev.delivered d ∉ (runOps E ops c).tr) := by
  have hreq : config.requirePeerAuth = true := by
    unfold Config.requirePeerAuth
    rcases hauth with h | h
    · simp [h]
    · cases hk : config.trustedPublicKeys
      · exact absurd hk h
      · simp
  have start : SideInv .server c ∧ CfgInv config hostname c ∧ MtlsInv config c :=
    ⟨by have := SideInv.fresh h; rwa [hside] at this, .fresh h, .fresh h⟩
  have stepI : ∀ (G : Conn → Prop) (c c' : Conn), (SideInv .server c ∧ CfgInv config hostname c ∧
      MtlsInv config c) → Api E G c c' →
      (SideInv .server c' ∧ CfgInv config hostname c' ∧ MtlsInv config c') := by
    rintro G c c' ⟨h1, h2, h3⟩ hs
    exact ⟨h1.api hs, h2.api hs (by rw [hside]; exact h1), h3.api h2 h1 hs⟩
  have h1 := runOps_inv (E := E) (stepI _) start ops
  refine ⟨(h1.2.2.early hreq).1, fun hn => ?_⟩
  have h2 : (SideInv .server (runOps E ops c) ∧ CfgInv config hostname (runOps E ops c) ∧
      MtlsInv config (runOps E ops c)) ∧ ClosedInv (runOps E ops c) ∧
      DataInv (fun _ => False) (fun _ => True) (runOps E ops c) := by
    refine runOps_calm (I := fun x => (SideInv .server x ∧ CfgInv config hostname x ∧
      MtlsInv config x) ∧ ClosedInv x ∧ DataInv (fun _ => False) (fun _ => True) x)
      (fun c c' hh hs => ?_) ⟨start, .fresh h, .fresh h⟩ ops hn.1
    obtain ⟨hi, hcl, hd⟩ := hh
    exact ⟨stepI _ _ _ hi hs.api, hcl.calm hs, hd.calm hcl
      (fun hst => (hi.2.2.early hreq).1 hst) (fun _ _ _ => trivial) hs⟩
  refine ⟨?_, fun d hd => ?_⟩
  · cases hst : (runOps E ops c).state with
    | connected => exact absurd hst (h1.2.2.early hreq).1
    | closed r s =>
      obtain ⟨l, hl⟩ := h2.2.1 ⟨r, s, hst⟩
      exact absurd hl (hn.2 l)
    | _ => rfl
  · obtain ⟨l, t, ht⟩ := List.append_of_mem hd
    rcases h2.2.2.delivered t d ⟨l, ht.symm⟩ with h | ⟨lv, hl⟩
    · exact h
    · exact hn.2 lv (by rw [ht]; exact List.mem_append_right _ (.tail _ hl))

/-- The hypotheses of `C22_partial` are met. -/
example : Conn.new Toy.mtlsConfig none false [.sha256] (List.replicate 32 6) = .ok Toy.mtls0 ∧
    Toy.mtlsConfig.side = .server ∧ Toy.mtlsConfig.trustStore.isSome = true ∧
    NeverClosed [.initiate] (runOps Toy.env [.initiate] Toy.mtls0).tr :=
  ⟨Toy.mtls0_new, rfl, rfl, rfl, fun _ h => by cases h⟩

/-- C22 is false in general: such a server says that it is connected, and delivers application
data, after a close_notify in the clear from an anonymous peer. -/
theorem C22_false : ∃ (E : Env) (config : Config) (c : Conn) (ops : List Op),
    Conn.new config none false [.sha256] (List.replicate 32 6) = .ok c ∧
    config.side = .server ∧ config.trustStore.isSome = true ∧ ops.all (!·.isClose) = true ∧
    (runOps E ops c).state.isConnected = true ∧ (runOps E ops c).applicationData = [1, 2, 3] :=
  ⟨Toy.env, _, _, _, Toy.mtls0_new, rfl, rfl, rfl, Toy.closed_delivers.2.1,
    Toy.closed_delivers.1⟩

/-! ## C57 -/

/-- C57 is false: a client that trusts raw public keys (and has no trust store) never becomes
connected, whatever the server, whatever the history. -/
theorem C57_false {config hostname ocsp algs random} {c : Conn}
    (h : Conn.new config hostname ocsp algs random = .ok c) (hside : config.side = .client)
    (hraw : config.trustedPublicKeys ≠ []) (hstore : config.trustStore = none) (ops : List Op) :
    (runOps E ops c).state ≠ .connected := by
  have hreq : config.requirePeerAuth = true := by
    unfold Config.requirePeerAuth
    cases hk : config.trustedPublicKeys
    · exact absurd hk hraw
    · simp
  have start : SideInv .client c ∧ CfgInv config hostname c ∧ RawInv config c :=
    ⟨by have := SideInv.fresh h; rwa [hside] at this, .fresh h, .fresh h⟩
  have hi := runOps_inv (E := E)
    (I := fun x => SideInv .client x ∧ CfgInv config hostname x ∧ RawInv config x)
    (fun c c' ⟨h1, h2, h3⟩ hs =>
      ⟨h1.api hs, h2.api hs (by rw [hside]; exact h1), h3.api h2 h1 hs⟩) start ops
  intro hst
  have := hi.2.2 hreq hstore
  rw [hst] at this
  cases this

/-- The hypotheses of `C57_false` are met by a configuration the constructor accepts. -/
example : ∃ c, Conn.new { Toy.clientConfig with trustStore := none, trustedPublicKeys := [[7]] }
    (some ['a']) false [.sha256, .sha384] (List.replicate 32 5) = .ok c := ⟨_, rfl⟩

/-! ## C59 -/

/-- C59. A client with a trust store and a non-empty revocation list is never connected to a server
presenting a revoked certificate: it is never connected at all (the lookup in the revocation list
raises TypeError). -/
theorem C59_list_partial (hE : E.Sized) {config hostname ocsp algs random} {c : Conn} {store : Bytes}
    (h : Conn.new config hostname ocsp algs random = .ok c) (hside : config.side = .client)
    (hstore : config.trustStore = some store) {crl : List Bytes}
    (hcrl : config.revocationList = some crl) (hne : crl ≠ []) (ops : List Op) :
    (runOps E ops c).state ≠ .connected := by
  intro hst
  obtain ⟨_, _, _, _, _, _, _, _, _, h1, _⟩ := C20_authenticated hE h hside hstore ops hst
  obtain ⟨_, _, _, _, _, _, h2, _⟩ := h1
  obtain ⟨_, _, _, _, _, _, _, _, _, _, _, _, _, h3, _⟩ := h2
  rw [hcrl] at h3
  exact hne h3

/-- C59, stapled responses: a client with a trust store is only connected to a server whose
certificate chain carries no OCSP response that the validation refuses. -/
theorem C59_stapled (hE : E.Sized) {config hostname ocsp algs random} {c : Conn} {store : Bytes}
    (h : Conn.new config hostname ocsp algs random = .ok c) (hside : config.side = .client)
    (hstore : config.trustStore = some store) (ops : List Op)
    (hst : (runOps E ops c).state = .connected) :
    ∃ ctx entries leaf others, Ev.recv (.handshake (.certificate ctx entries)) ∈ (runOps E ops c).tr ∧
      IsChain entries (leaf :: others) ∧ Stapled E entries := by
  obtain ⟨_, _, _, leaf, _, _, _, _, h0, h1, _⟩ := C20_authenticated hE h hside hstore ops hst
  obtain ⟨_, _, _, _, _, h2, h3, _⟩ := h1
  obtain ⟨_, ctx, entries, others, _, _, h4, h5, h6, _, _, h7, _⟩ := h3
  exact ⟨ctx, entries, leaf, others, h0.subset (h2.subset (h4.subset (List.mem_of_mem_head? h5))),
    h6, h7⟩

namespace Toy

/-- a client with a revocation list but no trust store -/
def crlConfig : Config := { clientConfig with trustStore := none, revocationList := some [[1, 2, 3]] }
def crl0 : Conn := fresh crlConfig (some ['a']) [.sha256, .sha384] (List.replicate 32 5)

theorem crl0_new : Conn.new crlConfig (some ['a']) false [.sha256, .sha384] (List.replicate 32 5) =
    .ok crl0 := by rfl

/-- what a server with the certificate [1, 2, 3] answers -/
def crlFlight : Bytes :=
  [22, 3, 3, 0, 59, 2, 0, 0, 55, 3, 3] ++
  List.replicate 32 6 ++
  [0, 19, 1, 0, 0, 15, 0, 43, 0, 2, 3, 4, 0, 51, 0, 5, 0, 29, 0, 1, 1, 20, 3, 3, 0, 1, 1, 23, 3,
    3, 0, 28, 8, 0, 0, 7, 0, 5, 0, 15, 0, 1, 1, 22, 0, 0, 0, 0, 0, 0, 0, 0, 0, 0, 0, 0, 0, 0, 230,
    183, 23, 3, 3, 0, 33, 11, 0, 0, 12, 0, 0, 0, 8, 0, 0, 3, 1, 2, 3, 0, 0, 22, 0, 0, 0, 0, 0, 0, 0,
    0, 0, 0, 0, 0, 0, 0, 216, 246, 23, 3, 3, 0, 34, 15, 0, 0, 13, 8, 7, 0, 9, 8, 7, 1, 2, 3, 0, 0,
    225, 51, 22, 0, 0, 0, 0, 0, 0, 0, 0, 0, 0, 0, 0, 0, 0, 203, 49, 23, 3, 3, 0, 53, 20, 0, 0, 32,
    143, 169] ++
  List.replicate 30 0 ++
  [22, 0, 0, 0, 0, 0, 0, 0, 0, 0, 0, 0, 0, 0, 0, 189, 126]

def crlDone : Conn := runOps env [.initiate, .drain, .receive crlFlight] crl0

set_option maxRecDepth 1000000

theorem crl_connected : crlDone.state = .connected ∧
    crlDone.tr.any (fun e => e == .recv (.handshake (.certificate [] [.x509 [1, 2, 3] []]))) = true := by
  decide +kernel

end Toy

/-- C59 is false without a trust store: the revocation list is then ignored. -/
theorem C59_false : ∃ (E : Env) (config : Config) (c : Conn) (ops : List Op) (cert : Bytes),
    Conn.new config (some ['a']) false [.sha256, .sha384] (List.replicate 32 5) = .ok c ∧
    config.side = .client ∧ (∃ crl, config.revocationList = some crl ∧ cert ∈ crl) ∧
    Ev.recv (.handshake (.certificate [] [.x509 cert []])) ∈ (runOps E ops c).tr ∧
    (runOps E ops c).state = .connected := by
  refine ⟨Toy.env, _, _, _, [1, 2, 3], Toy.crl0_new, rfl, ⟨_, rfl, .head _⟩, ?_,
    Toy.crl_connected.1⟩
  obtain ⟨e, he, h⟩ := List.any_eq_true.mp Toy.crl_connected.2
  exact eq_of_beq h ▸ he

/-- The hypotheses of `C59_list_partial` are met by a configuration the constructor accepts. -/
example : ∃ c, Conn.new { Toy.clientConfig with revocationList := some [[7]] }
    (some ['a']) false [.sha256, .sha384] (List.replicate 32 5) = .ok c := ⟨_, rfl⟩

/-- Those of `C59_stapled` are those of `C20_authenticated`. -/
example : Toy.clientConfig.trustStore = some [1, 2, 3] ∧
    (runOps Toy.env Toy.clientOps Toy.client0).state = .connected := ⟨rfl, Toy.client_facts.1.1⟩

end Siotls
