import Verif.Props.Order
import Verif.Props.Auth
import Verif.Proofs.Lost
/-!
# After a HelloRetryRequest: C74
-/

namespace Siotls

variable {E : Env}

/-- the client waits for a message of the server after its ServerHello and before its Finished -/
def AwaitsFlight (s : St) : Prop :=
  s = .clientWaitEE ∨ s = .clientWaitCertCr ∨ (∃ m, s = .clientWaitCert m) ∨
    ∃ m h, s = .clientWaitCV m h

/-- `h` is the hash of something else than the transcript of RFC 8446, if there was a
HelloRetryRequest -/
def CoversOther (E : Env) : Covers := fun a t h =>
  (∃ r sid suite exts, Ev.recv (.handshake (.helloRetryRequest r sid suite exts)) ∈ t) →
    ∃ ch : Bytes, ch.length ≤ 48 ∧
      h = E.hash a ([254, 0, 0, UInt8.ofNat a.size] ++ ch ++ Spec.concat (sinceRetry t)) ∧
      [254, 0, 0, UInt8.ofNat a.size] ++ ch ++ Spec.concat (sinceRetry t) ≠
        Spec.transcript (E.spec a) (exchanged t)

theorem CoversSince.other {a : HashAlg} {t : List Ev} {h : Bytes} (hc : CoversSince E a t h) :
    CoversOther E a t h := by
  rintro ⟨r, sid, s, e, hm⟩
  obtain ⟨x, rfl, -, h2⟩ := hc
  obtain ⟨⟨ch, h1, rfl⟩, h3⟩ := h2 fun hn => hn _ _ _ _ hm
  exact ⟨ch, h1, rfl, h3⟩

theorem ClientExchange.weaken {P Q : Covers} (hpq : ∀ a t h, P a t h → Q a t h) {a : HashAlg}
    {tr : List Ev} {shared th : Bytes} (h : ClientExchange E P a tr shared th) :
    ClientExchange E Q a tr shared th := by
  obtain ⟨t, random, sid, suite, exts, g, share, priv, mine, d, h1, h2, h3, h4, h5, h6⟩ := h
  exact ⟨t, random, sid, suite, exts, g, share, priv, mine, d, h1, h2, h3, h4, h5, hpq _ _ _ h6⟩

/-- C74, in every history: once a client that received a HelloRetryRequest got a ServerHello, and
until the server's Finished, what it hashed is not the transcript of RFC 8446 (the
HelloRetryRequest itself is missing), for any of its hash functions. -/
theorem C74_lost (hE : E.Sized) {config hostname ocsp algs random} {c : Conn}
    (h : Conn.new config hostname ocsp algs random = .ok c) (hside : config.side = .client)
    (ops : List Op) (hst : AwaitsFlight (runOps E ops c).state)
    (hr : ∃ r sid suite exts, Ev.recv (.handshake (.helloRetryRequest r sid suite exts)) ∈
      (runOps E ops c).tr) (a : HashAlg) (d : Bytes)
    (hd : (a, d) ∈ (runOps E ops c).transcript.hashes) :
    d ≠ Spec.transcript (E.spec a) (exchanged (runOps E ops c).tr) := by
  have hi := ClientInv.run (E := E) hE h hside ops
  have hn : ¬ NoRetry (runOps E ops c).tr := by
    obtain ⟨r, sid, s, e, hm⟩ := hr
    exact fun hn => hn _ _ _ _ hm
  obtain ⟨h3, h4⟩ := hi.lost.amid (by
    rcases hst with h | h | ⟨m, h⟩ | ⟨m, x, h⟩ <;> rw [h] <;> rfl)
  obtain ⟨ch, h5, h6⟩ := h4 hn _ hd
  dsimp only at h6
  rw [h6]
  exact hi.lost.ne hE hi.order h3 hn a h5

/-- Hence a client that is connected after a HelloRetryRequest is so because the server computed its
keys and its Finished over something else than the transcript of RFC 8446 (or over a collision):
with the HelloRetryRequest left out. -/
theorem C74_connected (hE : E.Sized) {config hostname ocsp algs random} {c : Conn}
    (h : Conn.new config hostname ocsp algs random = .ok c) (hside : config.side = .client)
    (ops : List Op) (hst : (runOps E ops c).state = .connected) :
    ∃ k, (runOps E ops c).cipher = some k ∧
      ServerFinished E (CoversOther E) k.info.digest (runOps E ops c).tr := by
  obtain ⟨k, hk, t, t₁, alg, sig, vd, hh, shared, th, h1, h2, h3, h4, h5, h6, h7⟩ :=
    C20_finished hE h hside ops hst
  exact ⟨k, hk, t, t₁, alg, sig, vd, hh, shared, th, h1, h2, h3, h4.other, h5,
    h6.weaken fun _ _ _ h => CoversSince.other h, h7⟩

namespace Toy

/-- the toy client after the HelloRetryRequest -/
def clientRetried : Conn := runOps env [.initiate, .drain, .receive retry, .drain] client0

/-- the flight of the server for its second hello -/
def retryFlight : Bytes := (runOps env retryOps retry0).outputData

/-- the server with the HelloRetryRequest removed from what it hashed -/
def deaf : Conn :=
  let c := runOps env [.initiate, .receive hello, .drain] retry0
  { c with transcript := ⟨c.transcript.hashes.map fun x => (x.1, x.2.take 36), 1⟩ }

def deafFlight : Bytes := (runOps env [.receive hello2] deaf).outputData

set_option maxRecDepth 1000000

theorem retried_facts :
    (runOps env [.initiate] client0).outputData = hello ∧
    (runOps env [.initiate, .receive hello] retry0).outputData = retry ∧
    (runOps env [.initiate, .drain, .receive retry] client0).outputData = hello2 ∧
    retriesGot clientRetried.tr = 1 ∧
    (runOps env retryOps retry0).state.canReceive = true ∧
    (runOps env retryOps retry0).state ≠ .failed ∧
    (runOps env [.initiate, .drain, .receive retry, .drain, .receive retryFlight] client0).state =
      .failed := by decide +kernel

theorem deaf_facts :
    (runOps env ([.initiate, .drain, .receive retry, .drain] ++ [.receive deafFlight])
      client0).state = .connected ∧
    retriesGot (runOps env ([.initiate, .drain, .receive retry, .drain] ++ [.receive deafFlight])
      client0).tr = 1 ∧
    (runOps env ([.initiate, .drain, .receive retry, .drain] ++ [.receive (deafFlight.take 64)])
      client0).state = .clientWaitEE ∧
    retriesGot (runOps env ([.initiate, .drain, .receive retry, .drain] ++
      [.receive (deafFlight.take 64)]) client0).tr = 1 ∧
    (runOps env ([.initiate, .drain, .receive retry, .drain] ++
      [.receive (deafFlight.take 64)]) client0).transcript.hashes ≠ [] := by decide +kernel

end Toy

/-- C74 is false of the code: a client and a server of this library, which agree on everything but
need a HelloRetryRequest because the first share of the client is for another group, fail. Each
gets exactly the bytes that the other sent. -/
theorem C74_false : ∃ (E : Env) (cconf sconf : Config) (hostname : Option PyStr)
    (calgs salgs : List HashAlg) (crandom srandom : Bytes) (c s : Conn) (b₁ b₂ b₃ b₄ : Bytes),
    E.Sized ∧ cconf.side = .client ∧ sconf.side = .server ∧
    Conn.new cconf hostname false calgs crandom = .ok c ∧
    Conn.new sconf none false salgs srandom = .ok s ∧
    (runOps E [.initiate] c).outputData = b₁ ∧
    (runOps E [.initiate, .receive b₁] s).outputData = b₂ ∧
    (runOps E [.initiate, .drain, .receive b₂] c).outputData = b₃ ∧
    (runOps E [.initiate, .receive b₁, .drain, .receive b₃] s).outputData = b₄ ∧
    (runOps E [.initiate, .receive b₁, .drain, .receive b₃] s).state ≠ .failed ∧
    retriesGot (runOps E [.initiate, .drain, .receive b₂, .drain] c).tr = 1 ∧
    (runOps E [.initiate, .drain, .receive b₂, .drain, .receive b₄] c).state = .failed := by
  obtain ⟨h1, h2, h3, h4, -, h5, h6⟩ := Toy.retried_facts
  refine ⟨Toy.env, Toy.clientConfig, Toy.retryConfig, _, _, _, _, _, Toy.client0, Toy.retry0, Toy.hello,
    Toy.retry, Toy.hello2, Toy.retryFlight, Toy.sized, ?_, ?_, Toy.client0_new, Toy.retry0_new, h1,
    h2, h3, ?_, ?_, ?_, ?_⟩
  · rfl
  · rfl
  · unfold Toy.retryFlight Toy.retryOps; rfl
  · exact h5
  · exact h4
  · exact h6

theorem retried_of {tr : List Ev} (h : retriesGot tr = 1) :
    ∃ r sid suite exts, Ev.recv (.handshake (.helloRetryRequest r sid suite exts)) ∈ tr := by
  by_contra hn
  have : retriesGot tr = 0 := by
    clear h
    induction tr with
    | nil => rfl
    | cons e l ih =>
      have ih := ih fun ⟨r, sid, s, x, hm⟩ => hn ⟨r, sid, s, x, .tail _ hm⟩
      rw [retriesGot.eq_def]
      split
      · rfl
      · rename_i heq
        cases heq
        exact absurd ⟨_, _, _, _, .head _⟩ hn
      · rename_i heq
        cases heq
        exact ih
  omega

/-- The hypotheses of `C74_lost` are met: a client that was asked to retry and got a ServerHello. -/
example : ∃ ops, AwaitsFlight (runOps Toy.env ops Toy.client0).state ∧
    (∃ r sid suite exts, Ev.recv (.handshake (.helloRetryRequest r sid suite exts)) ∈
      (runOps Toy.env ops Toy.client0).tr) ∧
    ∃ a d, (a, d) ∈ (runOps Toy.env ops Toy.client0).transcript.hashes := by
  obtain ⟨-, -, h1, h2, h3⟩ := Toy.deaf_facts
  refine ⟨_, .inl h1, retried_of h2, ?_⟩
  obtain ⟨x, hx⟩ := List.exists_mem_of_ne_nil _ h3
  exact ⟨x.1, x.2, hx⟩

/-- Those of `C74_connected`: a client does connect, after a HelloRetryRequest, to a server that
leaves the HelloRetryRequest out of its transcript. -/
example : ∃ ops, (runOps Toy.env ops Toy.client0).state = .connected ∧
    ∃ r sid suite exts, Ev.recv (.handshake (.helloRetryRequest r sid suite exts)) ∈
      (runOps Toy.env ops Toy.client0).tr :=
  ⟨_, Toy.deaf_facts.1, retried_of Toy.deaf_facts.2.1⟩

end Siotls
