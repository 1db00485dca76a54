import Verif.Proofs.Retry
import Verif.Props.Schedule
import Verif.Model.ToyFacts
/-!
# The handshake as a whole: C28, C29 and C30
-/

namespace Siotls

variable {E : Env}

/-! ## Histories with HelloRetryRequests, for the examples -/

namespace Toy

/-- the HelloRetryRequest of a server that wants another group -/
def retry : Bytes :=
  [22, 3, 3, 0, 56, 2, 0, 0, 52, 3, 3, 207, 33, 173, 116, 229, 154, 97, 17, 190, 29, 140, 2, 30,
    101, 184, 145, 194, 162, 17, 22, 122, 187, 140, 94, 7, 158, 9, 226, 200, 168, 51, 156, 0, 19, 1,
    0, 0, 12, 0, 43, 0, 2, 3, 4, 0, 51, 0, 2, 0, 23, 20, 3, 3, 0, 1, 1]

/-- the answer of the toy client: a dummy change_cipher_spec and the second ClientHello -/
def hello2 : Bytes :=
  [20, 3, 3, 0, 1, 1, 22, 3, 3, 0, 107, 1, 0, 0, 103, 3, 3] ++
  List.replicate 32 5 ++
  [0, 0, 2, 19, 1, 1, 0, 0, 60, 0, 43, 0, 3, 2, 3, 4, 0, 13, 0, 6, 0, 4, 8, 7, 4, 3, 0, 10, 0, 4,
    0, 2, 0, 23, 0, 15, 0, 1, 1, 0, 0, 0, 6, 0, 4, 0, 0, 1, 97, 0, 5, 0, 5, 1, 0, 0, 0, 0, 0, 51, 0,
    7, 0, 5, 0, 23, 0, 1, 2]

/-- a server that wants another group than the one of the toy client's share -/
def retryConfig : Config := { serverConfig with keyExchanges := [0x17] }

def retry0 : Conn := fresh retryConfig none [.sha256] (List.replicate 32 6)

def retryOps : List Op := [.initiate, .receive hello, .drain, .receive hello2]

set_option maxRecDepth 1000000

theorem retry0_new : Conn.new retryConfig none false [.sha256] (List.replicate 32 6) =
    .ok retry0 := by rfl

theorem retry_facts : Careful env retryOps retry0 ∧
    retriesSent (runOps env retryOps retry0).tr = 1 ∧
    (exchanged (runOps env retryOps retry0).tr).map Msg.kind = [(.client, 1), (.server, 2),
      (.client, 1), (.server, 2), (.server, 8), (.server, 11), (.server, 15), (.server, 20)] ∧
    (runOps env retryOps retry0).transcript.hashes.length = 1 := by decide +kernel

/-- two HelloRetryRequests to the toy client -/
def clientRetry2 : Conn := runOps env [.initiate, .receive retry, .receive retry] client0

/-- one HelloRetryRequest to the toy client -/
def clientRetry1 : Conn := runOps env [.initiate, .receive retry] client0

theorem client_retry2 : retriesGot clientRetry2.tr = 2 ∧
    (exchanged clientRetry2.tr).map Msg.kind = [(.client, 1), (.server, 2), (.client, 1),
      (.server, 2), (.client, 1)] ∧ clientRetry2.state.canReceive = true ∧
    clientRetry2.state ≠ .failed := by decide +kernel

theorem client_retry1 : retriesGot clientRetry1.tr = 1 ∧ ∃ x ∈ clientRetry1.transcript.hashes,
    x.2 ≠ Spec.transcript (env.spec x.1) (exchanged clientRetry1.tr) := by decide +kernel

end Toy

/-! ## C28 -/

/-- C28 for a server: the handshake messages it exchanged are always the beginning of a handshake
with at most one HelloRetryRequest. -/
theorem C28_server (hE : E.Sized) {config hostname ocsp algs random} {c : Conn}
    (h : Conn.new config hostname ocsp algs random = .ok c) (hside : config.side = .server)
    (hr : random.length = 32) (hne : random ≠ Spec.retryRandom) (ops : List Op)
    (hc : Careful E ops c) :
    Spec.InOrder 1 ((exchanged (runOps E ops c).tr).map Msg.kind) :=
  (ServerInv.run hE h hside hr hne ops hc).order.main.inOrder

/-- C28 for a client: the same, except that the number of HelloRetryRequests is not bounded. -/
theorem C28_client_partial (hE : E.Sized) {config hostname ocsp algs random} {c : Conn}
    (h : Conn.new config hostname ocsp algs random = .ok c) (hside : config.side = .client)
    (ops : List Op) : ∃ n, Spec.InOrder n ((exchanged (runOps E ops c).tr).map Msg.kind) := by
  obtain ⟨n, hn⟩ := (ClientInv.run (E := E) hE h hside ops).order.place
  exact ⟨n, hn.inOrder⟩

theorem Toy.not_inOrder : ¬ Spec.InOrder 1 [(.client, 1), (.server, 2), (.client, 1), (.server, 2),
    (.client, 1)] := by
  rintro ⟨r, a, b, d, e, hr, h⟩
  have : r = 0 ∨ r = 1 := by omega
  rcases this with rfl | rfl <;> revert a b d e <;> decide

/-- The full statement is false of the code for clients, which accept two HelloRetryRequests. -/
theorem C28_false : ∃ (E : Env) (config : Config) (hostname : Option PyStr) (algs : List HashAlg)
    (random : Bytes) (c : Conn) (ops : List Op), E.Sized ∧ config.side = .client ∧
    Conn.new config hostname false algs random = .ok c ∧ Careful E ops c ∧
    ¬ Spec.InOrder 1 ((exchanged (runOps E ops c).tr).map Msg.kind) := by
  refine ⟨Toy.env, Toy.clientConfig, _, _, _, Toy.client0,
    [.initiate, .receive Toy.retry, .receive Toy.retry], Toy.sized, rfl, Toy.client0_new,
    by set_option maxRecDepth 1000000 in decide +kernel, ?_⟩
  have := Toy.client_retry2.2.1
  unfold Toy.clientRetry2 at this
  rw [this]
  exact Toy.not_inOrder

/-- C28, every message counts: a handshake message handed to the state machine is, at that very
moment, the last of the messages exchanged (with the bytes received), unless the handshake was over
(the client's Finished, type 20, was exchanged). Together with `C28_server` and
`C28_client_partial`: only messages in order are ever handed to the state machine. -/
theorem C28_accepted_server (hE : E.Sized) {config hostname ocsp algs random} {c : Conn}
    (h : Conn.new config hostname ocsp algs random = .ok c) (hside : config.side = .server)
    (hr : random.length = 32) (hne : random ≠ Spec.retryRandom) (ops : List Op)
    (hc : Careful E ops c) (m : Handshake) (past : List Ev)
    (hp : (Ev.recv (.handshake m) :: past) <:+ (runOps E ops c).tr) :
    (∃ d ctype older, past = .hashed .client m.msgType d :: .got ctype d :: older ∧
      ∃ ty, decodeContent E ty ctype d = .ok (.handshake m)) ∨
    (Side.client, 20) ∈ (exchanged past).map Msg.kind := by
  have hi : ServerInv E config hostname ocsp (runOps E ops c) ∧
      AcceptedInv E .server (runOps E ops c).tr := by
    refine runOps_inv_careful (I := fun x => ServerInv E config hostname ocsp x ∧
      AcceptedInv E .server x.tr) (fun c c' hh hs => ?_) ?_ (ready_fresh h) ops hc
    · exact ⟨hh.1.api hE hside hs, hh.2.api hh.1.order.placed hh.1.side hs⟩
    · refine ⟨ServerInv.run hE h hside hr hne [] trivial, fun m past hp => ?_⟩
      have := (Conn.new_fresh h).2.2.2.2.2.2.2.2.1
      rw [this] at hp
      simp at hp
  exact hi.2 m past hp

theorem C28_accepted_client (hE : E.Sized) {config hostname ocsp algs random} {c : Conn}
    (h : Conn.new config hostname ocsp algs random = .ok c) (hside : config.side = .client)
    (ops : List Op) (m : Handshake) (past : List Ev)
    (hp : (Ev.recv (.handshake m) :: past) <:+ (runOps E ops c).tr) :
    (∃ d ctype older, past = .hashed .server m.msgType d :: .got ctype d :: older ∧
      ∃ ty, decodeContent E ty ctype d = .ok (.handshake m)) ∨
    (Side.client, 20) ∈ (exchanged past).map Msg.kind := by
  have hi : ClientInv E config hostname ocsp (runOps E ops c) ∧
      AcceptedInv E .client (runOps E ops c).tr := by
    refine runOps_inv (I := fun x => ClientInv E config hostname ocsp x ∧
      AcceptedInv E .client x.tr) (fun c c' hh hs => ?_) ?_ ops
    · exact ⟨hh.1.api hE hside hs, hh.2.api (.inr hh.1.order.place) hh.1.side hs⟩
    · refine ⟨ClientInv.run hE h hside [], fun m past hp => ?_⟩
      have := (Conn.new_fresh h).2.2.2.2.2.2.2.2.1
      rw [this] at hp
      simp at hp
  exact hi.2 m past hp

theorem receiveStep_refused {c c₁ : Conn} {ctype : Nat} {data : Bytes} {m : Handshake} {P : Prop}
    (hn : readNextContent E c = (.ok (some (ctype, data)), c₁))
    (hd : decodeContent E c₁.certType ctype data = .ok (.handshake m)) (hpl : Placed c₁)
    (hno : (Side.client, 20) ∉ (exchanged c₁.tr).map Msg.kind)
    (hP : ∀ t, c₁.transcript.update data c₁.config.side.other m.msgType = (.ok true, t) → P)
    (hnP : ¬ P) : (receiveStep E c).1 = .error (.alert Iana.unexpectedMessage) := by
  unfold receiveStep
  simp only [M.bind_def, hn, M.get, M.lift, hd, hashContent, transcriptUpdate]
  rcases hu : c₁.transcript.update data c₁.config.side.other m.msgType with ⟨r, t⟩
  cases r with
  | error e => rw [update_refused hu hpl.le]
  | ok b =>
    exfalso
    cases b with
    | true => exact hnP (hP _ hu)
    | false =>
      generalize ht : c₁.transcript = tc at hu
      cases update_view hu with
      | over h12 => exact hno (hpl.last (by rw [ht]; exact h12))

/-- C28, a message out of order is refused. `c₁` is the server in the middle of `receive_data`: it
handled some contents, and the next one is a handshake message that does not continue the messages
exchanged. Then this turn raises unexpected_message (10). -/
theorem C28_refused_server (hE : E.Sized) {config hostname ocsp algs random} {c c₀ c₁ : Conn}
    (h : Conn.new config hostname ocsp algs random = .ok c) (hside : config.side = .server)
    (hr : random.length = 32) (hne : random ≠ Spec.retryRandom) (ops : List Op) (input : Bytes)
    (hc : Careful E (ops ++ [.receive input]) c)
    (ht : Turns E { runOps E ops c with inputData := (runOps E ops c).inputData ++ input } c₀)
    {ctype : Nat} {data : Bytes} {m : Handshake}
    (hn : readNextContent E c₀ = (.ok (some (ctype, data)), c₁))
    (hd : decodeContent E c₁.certType ctype data = .ok (.handshake m))
    (hbad : ¬ Spec.InOrder 1 ((exchanged c₁.tr).map Msg.kind ++ [(.client, m.msgType)]))
    (hno : (Side.client, 20) ∉ (exchanged c₁.tr).map Msg.kind) :
    (receiveStep E c₀).1 = .error (.alert 10) := by
  have hready := runOps_ready (E := E) (ready_fresh h) ops input hc
  have hi := ServerInv.run hE h hside hr hne ops hc.left
  obtain ⟨h0, hg⟩ := ht.inv (I := ServerInv E config hostname ocsp) (G := Conn.Ready)
    (fun c c' hh hs => hh.api hE hside (.step hs)) (.inr ⟨fun _ h => h, hready⟩)
    (hi.api hE hside (.step (.input _)))
  have hrun := run_readNextContent (E := E) (G := Conn.Ready) c₀
  unfold Run at hrun
  rw [hn] at hrun
  have h1 := Steps.inv (fun c c' (hh : ServerInv E config hostname ocsp c) hs => hh.api hE hside (.step hs)) hrun.1 h0
  dsimp only at h1
  refine receiveStep_refused hn hd h1.order.placed hno (fun t hu => ?_) hbad
  rw [h1.side.config] at hu
  have := (h1.order.main.client hu).inOrder
  simpa [kinds, exchanged, Msg.kind] using this

/-- Likewise for a client. -/
theorem C28_refused_client (hE : E.Sized) {config hostname ocsp algs random} {c c₀ c₁ : Conn}
    (h : Conn.new config hostname ocsp algs random = .ok c) (hside : config.side = .client)
    (ops : List Op) (input : Bytes)
    (ht : Turns E { runOps E ops c with inputData := (runOps E ops c).inputData ++ input } c₀)
    {ctype : Nat} {data : Bytes} {m : Handshake}
    (hn : readNextContent E c₀ = (.ok (some (ctype, data)), c₁))
    (hd : decodeContent E c₁.certType ctype data = .ok (.handshake m))
    (hbad : ∀ n, ¬ Spec.InOrder n ((exchanged c₁.tr).map Msg.kind ++ [(.server, m.msgType)]))
    (hno : (Side.client, 20) ∉ (exchanged c₁.tr).map Msg.kind) :
    (receiveStep E c₀).1 = .error (.alert 10) := by
  have hi := ClientInv.run hE h hside ops
  obtain ⟨h0, hg⟩ := ht.inv (I := ClientInv E config hostname ocsp) (G := fun _ => True)
    (fun c c' hh hs => hh.api hE hside (.step hs)) (.inl fun _ => trivial)
    (hi.api (G := fun _ => True) hE hside (.step (.input _)))
  have hrun := run_readNextContent (E := E) (G := fun _ => True) c₀
  unfold Run at hrun
  rw [hn] at hrun
  have h1 := Steps.inv
    (fun c c' (hh : ClientInv E config hostname ocsp c) hs => hh.api hE hside (.step hs)) hrun.1 h0
  dsimp only at h1
  obtain ⟨n, hat⟩ := h1.order.place
  refine receiveStep_refused hn hd (.inr ⟨n, hat⟩) hno (fun t hu => ?_) (hbad n)
  rw [h1.side.config] at hu
  generalize c₁.transcript = tc at hu hat
  cases update_view hu with
  | taken g1 g2 g3 g4 =>
    exact ((hat.skips g1 g2).take g3).inOrder

/-- The hypotheses of `C28_server` and `C28_accepted_server` are met by the toy server that sends a
HelloRetryRequest, then exchanges eight messages. -/
example : Toy.env.Sized ∧ Conn.new Toy.retryConfig none false [.sha256] (List.replicate 32 6) =
      .ok Toy.retry0 ∧ Toy.retryConfig.side = .server ∧ (List.replicate 32 (6 : UInt8)).length = 32 ∧
    List.replicate 32 6 ≠ Spec.retryRandom ∧ Careful Toy.env Toy.retryOps Toy.retry0 ∧
    (exchanged (runOps Toy.env Toy.retryOps Toy.retry0).tr).length = 8 := by
  refine ⟨Toy.sized, Toy.retry0_new, rfl, rfl, by decide, Toy.retry_facts.1, ?_⟩
  have := congrArg List.length Toy.retry_facts.2.2.1
  simpa using this

/-- The hypotheses of `C28_client_partial` are met by the toy client, which exchanges messages. -/
example : Toy.env.Sized ∧ Conn.new Toy.clientConfig (some ['a']) false [.sha256, .sha384]
      (List.replicate 32 5) = .ok Toy.client0 ∧ Toy.clientConfig.side = .client ∧
    (exchanged Toy.clientRetry2.tr).length = 5 := by
  refine ⟨Toy.sized, Toy.client0_new, rfl, ?_⟩
  have := congrArg List.length Toy.client_retry2.2.1
  simpa using this

namespace Toy

/-- a Finished message, in clear -/
def early : Bytes := [22, 3, 3, 0, 4, 20, 0, 0, 0]

set_option maxRecDepth 1000000

/-- the endpoint, given `early` -/
def withEarly (c : Conn) : Conn :=
  { runOps env [.initiate] c with inputData := (runOps env [.initiate] c).inputData ++ early }

/-- the next content is the Finished of `early` and these messages were exchanged before -/
def readsEarly (c : Conn) (ms : List (Side × Nat)) : Bool :=
  match readNextContent env (withEarly c) with
  | (.ok (some (ctype, data)), c₁) =>
    match decodeContent env c₁.certType ctype data with
    | .ok x => ctype = 22 ∧ data = [20, 0, 0, 0] ∧ x = .handshake (.finished []) ∧
        (exchanged c₁.tr).map Msg.kind = ms
    | _ => false
  | _ => false

theorem readsEarly_spec {c : Conn} {ms} (h : readsEarly c ms = true) :
    ∃ c₁, readNextContent env (withEarly c) = (.ok (some (22, [20, 0, 0, 0])), c₁) ∧
      decodeContent env c₁.certType 22 [20, 0, 0, 0] = .ok (.handshake (.finished [])) ∧
      (exchanged c₁.tr).map Msg.kind = ms := by
  unfold readsEarly at h
  split at h
  · rename_i ctype data c₁ hn
    split at h
    · rename_i x hx
      simp only [decide_eq_true_eq] at h
      obtain ⟨rfl, rfl, rfl, h4⟩ := h
      exact ⟨c₁, hn, hx, h4⟩
    · cases h
  · cases h

theorem early_server : Careful env [.initiate, .receive early] server0 ∧
    readsEarly server0 [] = true := by decide +kernel

theorem early_client : readsEarly client0 [(.client, 1)] = true := by decide +kernel

/-- the Finished of the toy client -/
def finish0 : Bytes :=
  [20, 3, 3, 0, 1, 1, 23, 3, 3, 0, 53, 20, 0, 0, 32, 120, 230] ++
  zeros 30 ++
  [22, 0, 0, 0, 0, 0, 0, 0, 0, 0, 0, 0, 0, 0, 0, 173, 248]

/-- the server connected with the toy client -/
def server0Ops : List Op := [.initiate, .receive hello, .drain, .receive finish0]

theorem both_facts : Careful env server0Ops server0 ∧
    (runOps env server0Ops server0).state = .connected ∧
    retriesGot clientDone.tr = 0 ∧
    exchanged clientDone.tr = exchanged (runOps env server0Ops server0).tr ∧
    (exchanged clientDone.tr).length = 7 ∧
    (∀ m ∈ exchanged (runOps env server0Ops server0).tr, Spec.isRetry m.2.2 = false) ∧
    clientDone.transcript.hashes = (runOps env server0Ops server0).transcript.hashes ∧
    clientDone.transcript.hashes.map (·.1) = [.sha256] := by decide +kernel

end Toy

/-- A case of `C28_refused_server`: a Finished instead of the ClientHello. -/
example : ∃ c₀ c₁ m, Careful Toy.env ([.initiate] ++ [.receive Toy.early]) Toy.server0 ∧
    Turns Toy.env { runOps Toy.env [.initiate] Toy.server0 with
      inputData := (runOps Toy.env [.initiate] Toy.server0).inputData ++ Toy.early } c₀ ∧
    readNextContent Toy.env c₀ = (.ok (some (22, [20, 0, 0, 0])), c₁) ∧
    decodeContent Toy.env c₁.certType 22 [20, 0, 0, 0] = .ok (.handshake m) ∧
    (¬ Spec.InOrder 1 ((exchanged c₁.tr).map Msg.kind ++ [(.client, m.msgType)])) ∧
    (Side.client, 20) ∉ (exchanged c₁.tr).map Msg.kind := by
  obtain ⟨c₁, h2, h3, h4⟩ := Toy.readsEarly_spec Toy.early_server.2
  refine ⟨Toy.withEarly Toy.server0, c₁, _, Toy.early_server.1, .refl _, h2, h3, ?_, ?_⟩ <;> rw [h4]
  · rintro ⟨r, a, b, d, e, hr, h⟩
    have : r = 0 ∨ r = 1 := by omega
    rcases this with rfl | rfl <;> revert a b d e <;> decide
  · decide

/-- A case of `C28_refused_client`: a Finished instead of the ServerHello. -/
example : ∃ c₀ c₁ m, Turns Toy.env { runOps Toy.env [.initiate] Toy.client0 with
      inputData := (runOps Toy.env [.initiate] Toy.client0).inputData ++ Toy.early } c₀ ∧
    readNextContent Toy.env c₀ = (.ok (some (22, [20, 0, 0, 0])), c₁) ∧
    decodeContent Toy.env c₁.certType 22 [20, 0, 0, 0] = .ok (.handshake m) ∧
    (∀ n, ¬ Spec.InOrder n ((exchanged c₁.tr).map Msg.kind ++ [(.server, m.msgType)])) ∧
    (Side.client, 20) ∉ (exchanged c₁.tr).map Msg.kind := by
  obtain ⟨c₁, h2, h3, h4⟩ := Toy.readsEarly_spec Toy.early_client
  refine ⟨Toy.withEarly Toy.client0, c₁, _, .refl _, h2, h3, fun n => ?_, ?_⟩ <;> rw [h4]
  · rintro ⟨r, a, b, d, e, hr, t, ht⟩
    cases r with
    | zero => simp [Spec.handshake, Handshake.msgType] at ht
    | succ r => simp [Spec.handshake, Handshake.msgType, List.replicate_succ] at ht
  · decide

/-! ## C29 -/

theorem noRetry_of {tr : List Ev} (h : retriesGot tr = 0) : NoRetry tr := by
  intro r s k x hm
  induction tr with
  | nil => cases hm
  | cons e l ih =>
    rw [retriesGot.eq_def] at h
    split at h
    · rename_i heq; cases heq
    · cases h
    · rename_i heq
      cases heq
      rcases List.mem_cons.mp hm with rfl | hm
      · rename_i hne
        exact hne _ _ _ _ rfl
      · exact ih h hm

/-- C29 for a server: at any time its transcript holds, for each hash function it still considers,
the bytes that RFC 8446 section 4.4.1 prescribes for the messages exchanged so far. In the middle of
the switch to a HelloRetryRequest (the first ClientHello was already replaced, the HelloRetryRequest
not yet added: observable only when sending it raised), they are the bytes prescribed as soon as the
HelloRetryRequest is added. -/
theorem C29_server (hE : E.Sized) {config hostname ocsp algs random} {c : Conn}
    (h : Conn.new config hostname ocsp algs random = .ok c) (hside : config.side = .server)
    (hr : random.length = 32) (hne : random ≠ Spec.retryRandom) (ops : List Op)
    (hc : Careful E ops c) (a : HashAlg) (d : Bytes)
    (hd : (a, d) ∈ (runOps E ops c).transcript.hashes) :
    d = Spec.transcript (E.spec a) (exchanged (runOps E ops c).tr) ∨
    ((exchanged (runOps E ops c).tr).length = 1 ∧ ∀ retry, Spec.isRetry retry = true →
      d ++ retry =
        Spec.transcript (E.spec a) (exchanged (runOps E ops c).tr ++ [(.server, 2, retry)])) := by
  have hi := (ServerInv.run hE h hside hr hne ops hc).order.main
  generalize runOps E ops c = x at hi hd
  rcases hi with ⟨hat, hno, h⟩ | ⟨_, ⟨_, ch, a', he, hh⟩ | ⟨_, ch, hrr, rest, a', he, hret, hh⟩⟩
  · have := h _ hd
    refine .inl ?_
    dsimp only at this
    rw [this]
    unfold Spec.transcript
    split
    · rename_i cs hello ss retry rest he
      split
      · rename_i hret
        exfalso
        have hmem : ((ss, 2, retry) : Msg) ∈ exchanged x.tr := by rw [he]; exact .tail _ (.head _)
        cases ss with
        | server =>
          have := hno _ hmem rfl rfl
          rw [hret] at this; cases this
        | client =>
          obtain ⟨w, hw, hk⟩ := hat
          have := not_client_two _ (At.le ⟨w, hw, hk⟩).2 w hw
          rw [← hk] at this
          exact this (List.mem_map.mpr ⟨_, hmem, rfl⟩)
      · rw [he]
    · rfl
  · rw [hh] at hd
    cases List.mem_singleton.mp hd
    refine .inr ⟨by rw [he]; rfl, fun retry hret => ?_⟩
    rw [he]
    simp [Spec.transcript, hret, synthetic, Env.spec, Spec.concat]
  · rw [hh] at hd
    cases List.mem_singleton.mp hd
    refine .inl ?_
    rw [he]
    simp [Spec.transcript, hret, synthetic, Env.spec]

/-- C29 for a client that received no HelloRetryRequest: at any time its transcript holds, for each
hash function it still considers, exactly the bytes of the messages exchanged so far. -/
theorem C29_client_partial (hE : E.Sized) {config hostname ocsp algs random} {c : Conn}
    (h : Conn.new config hostname ocsp algs random = .ok c) (hside : config.side = .client)
    (ops : List Op) (hn : NoRetry (runOps E ops c).tr) (a : HashAlg) (d : Bytes)
    (hd : (a, d) ∈ (runOps E ops c).transcript.hashes) :
    d = Spec.concat (exchanged (runOps E ops c).tr) := by
  have hi := (ClientInv.run (E := E) hE h hside ops).since
  obtain ⟨x, hx, hnil⟩ := hi.hashes _ hd
  rw [hnil hn, sinceRetry_eq hn] at hx
  exact hx

/-- The full statement is false of the code for a client that received a HelloRetryRequest: its
transcript lacks that very message. -/
theorem C29_false : ∃ (E : Env) (config : Config) (hostname : Option PyStr) (algs : List HashAlg)
    (random : Bytes) (c : Conn) (ops : List Op), E.Sized ∧ config.side = .client ∧
    Conn.new config hostname false algs random = .ok c ∧ retriesGot (runOps E ops c).tr = 1 ∧
    ∃ a d, (a, d) ∈ (runOps E ops c).transcript.hashes ∧
      d ≠ Spec.transcript (E.spec a) (exchanged (runOps E ops c).tr) := by
  obtain ⟨h0, ⟨a, d⟩, h1, h2⟩ := Toy.client_retry1
  refine ⟨Toy.env, Toy.clientConfig, _, _, _, Toy.client0, [.initiate, .receive Toy.retry], Toy.sized,
    rfl, Toy.client0_new, ?_⟩
  unfold Toy.clientRetry1 at h0 h1 h2
  exact ⟨h0, a, d, h1, h2⟩

/-- C29, both peers agree: when a client without HelloRetryRequest and a server saw the same
messages, at least two of them, the server's transcript and the client's hold the same bytes. -/
theorem C29_agree (hE : E.Sized) {cconf chost cocsp calgs crandom sconf shost socsp salgs srandom}
    {cl sv : Conn} (hcl : Conn.new cconf chost cocsp calgs crandom = .ok cl)
    (hsv : Conn.new sconf shost socsp salgs srandom = .ok sv) (hc : cconf.side = .client)
    (hs : sconf.side = .server) (hr : srandom.length = 32) (hne : srandom ≠ Spec.retryRandom)
    (cops sops : List Op) (hn : NoRetry (runOps E cops cl).tr) (hcare : Careful E sops sv)
    (hsame : exchanged (runOps E cops cl).tr = exchanged (runOps E sops sv).tr)
    (hlen : 2 ≤ (exchanged (runOps E sops sv).tr).length)
    (hretry : ∀ m ∈ exchanged (runOps E sops sv).tr, Spec.isRetry m.2.2 = false)
    (a : HashAlg) (d d' : Bytes) (hd : (a, d) ∈ (runOps E cops cl).transcript.hashes)
    (hd' : (a, d') ∈ (runOps E sops sv).transcript.hashes) : d = d' := by
  have h1 := C29_client_partial hE hcl hc cops hn a d hd
  rcases C29_server hE hsv hs hr hne sops hcare a d' hd' with h2 | ⟨h2, _⟩
  · rw [h1, h2, hsame]
    unfold Spec.transcript
    split
    · rename_i cs hello ss retry rest he
      have := hretry (ss, 2, retry) (by rw [he]; exact .tail _ (.head _))
      dsimp only at this
      rw [this, he]; rfl
    · rfl
  · omega

/-- The hypotheses of the C29 theorems are met by the toy client and server. -/
example : (∃ a d, (a, d) ∈ (runOps Toy.env Toy.retryOps Toy.retry0).transcript.hashes) ∧
    NoRetry Toy.clientDone.tr ∧
    (∃ a d, (a, d) ∈ Toy.clientDone.transcript.hashes ∧
      (a, d) ∈ (runOps Toy.env Toy.server0Ops Toy.server0).transcript.hashes) ∧
    Careful Toy.env Toy.server0Ops Toy.server0 ∧
    exchanged Toy.clientDone.tr = exchanged (runOps Toy.env Toy.server0Ops Toy.server0).tr := by
  obtain ⟨h1, h2, h3, h4, h5, h6, h7, h8⟩ := Toy.both_facts
  refine ⟨?_, noRetry_of h3, ?_, h1, h4⟩
  · have := Toy.retry_facts.2.2.2
    rcases hx : (runOps Toy.env Toy.retryOps Toy.retry0).transcript.hashes with _ | ⟨⟨a, d⟩, l⟩
    · rw [hx] at this; cases this
    · exact ⟨a, d, .head _⟩
  · rw [← h7]
    rcases hx : Toy.clientDone.transcript.hashes with _ | ⟨⟨a, d⟩, l⟩
    · rw [hx] at h8; cases h8
    · exact ⟨a, d, .head _, .head _⟩

/-! ## C30 -/

/-- C30 for a server: whatever it receives, it sends at most one HelloRetryRequest. -/
theorem C30_server (hE : E.Sized) {config hostname ocsp algs random} {c : Conn}
    (h : Conn.new config hostname ocsp algs random = .ok c) (hside : config.side = .server)
    (hr : random.length = 32) (hne : random ≠ Spec.retryRandom) (ops : List Op)
    (hc : Careful E ops c) : retriesSent (runOps E ops c).tr ≤ 1 := by
  have hi : ServerInv E config hostname ocsp (runOps E ops c) ∧ RetryInv (runOps E ops c).tr := by
    refine runOps_inv_careful (I := fun x => ServerInv E config hostname ocsp x ∧ RetryInv x.tr)
      (fun c c' hh hs => ?_) ?_ (ready_fresh h) ops hc
    · exact ⟨hh.1.api hE hside hs, hh.2.api hh.1.order hh.1.side hs⟩
    · refine ⟨ServerInv.run hE h hside hr hne [] trivial, ?_⟩
      rw [(Conn.new_fresh h).2.2.2.2.2.2.2.2.1]
      exact ⟨fun r s k e past hp => by simp at hp, by decide⟩
  exact hi.2.one

/-- The hypotheses of C30 are met by a toy server that sends one. -/
example : Toy.env.Sized ∧ Conn.new Toy.retryConfig none false [.sha256] (List.replicate 32 6) =
      .ok Toy.retry0 ∧ Toy.retryConfig.side = .server ∧ (List.replicate 32 (6 : UInt8)).length = 32 ∧
    List.replicate 32 6 ≠ Spec.retryRandom ∧ Careful Toy.env Toy.retryOps Toy.retry0 ∧
    retriesSent (runOps Toy.env Toy.retryOps Toy.retry0).tr = 1 :=
  ⟨Toy.sized, Toy.retry0_new, rfl, rfl, by decide, Toy.retry_facts.1, Toy.retry_facts.2.1⟩

/-- C30 is false of the code for a client: it accepts a second HelloRetryRequest and goes on. -/
theorem C30_false : ∃ (E : Env) (config : Config) (hostname : Option PyStr) (algs : List HashAlg)
    (random : Bytes) (c : Conn) (ops : List Op), E.Sized ∧ config.side = .client ∧
    Conn.new config hostname false algs random = .ok c ∧ Careful E ops c ∧
    retriesGot (runOps E ops c).tr = 2 ∧ (runOps E ops c).state ≠ .failed := by
  refine ⟨Toy.env, Toy.clientConfig, _, _, _, Toy.client0,
    [.initiate, .receive Toy.retry, .receive Toy.retry], Toy.sized, rfl, Toy.client0_new,
    by set_option maxRecDepth 1000000 in decide +kernel, ?_⟩
  have := Toy.client_retry2
  unfold Toy.clientRetry2 at this
  exact ⟨this.1, this.2.2.2⟩

end Siotls
