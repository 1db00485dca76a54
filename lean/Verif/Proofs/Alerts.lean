import Verif.Proofs.Refuse
import Verif.Proofs.Phase
import Verif.Proofs.NegSpec
import Verif.Proofs.NegClient
import Verif.Spec.Auth
/-!
# Which exception refuses a credential
-/

namespace Siotls

variable {E : Env} {G : Conn → Prop}

/-- after ServerHello there is a key to read with -/
def LateInv (c : Conn) : Prop := c.state.late = true → decOf c.cipher = true

theorem LateInv.step {c c' : Conn} (h : LateInv c) (hs : Step E G c c') : LateInv c' := by
  have keep : ∀ {k k' : CipherSt} {s : St} {c' : Conn}, c.cipher = some k →
      c'.cipher = some k' → k'.rd.key = k.rd.key → c'.state = c.state → LateInv c' := by
    intro k k' s c' h1 h4 h2 h3 hl
    rw [h3] at hl
    have := h hl
    rw [h1] at this
    rw [h4]
    simpa only [decOf, h2] using this
  cases hs with
  | badRecord hc hk hn => exact keep (s := c.state) hc rfl (nextNonce_key hn) rfl
  | opened hc hk hn => exact keep (s := c.state) hc rfl (nextNonce_key hn) rfl
  | sealed hc hk hn => exact keep (s := c.state) hc rfl rfl rfl
  | hrrServer hst | retry hst => intro hl; cases hl
  | setup hok =>
    intro hl
    cases hok with
    | client h => rw [show ({ c with cipher := _ } : Conn).state = c.state from rfl, h] at hl; cases hl
    | server h => rw [show ({ c with cipher := _ } : Conn).state = c.state from rfl, h] at hl; cases hl
  | @skipEarly k k' hc hsk =>
    have : ∃ s, k' = { k with secrets := s } := by
      unfold Siotls.skipEarly at hsk
      split at hsk
      · cases hsk
      · cases hx : extractNext E k.info.digest k.secrets.salt (zeros k.info.digest.size) with
        | error e => rw [hx] at hsk; cases hsk
        | ok v => rw [hx] at hsk; cases hsk; exact ⟨_, rfl⟩
    obtain ⟨s, rfl⟩ := this
    exact keep (s := c.state) hc rfl rfl rfl
  | handshakeKeys _ hc hok hd =>
    cases deriveHandshake_view hd with
    | done => intro _; rfl
    | _ => exact keep (s := c.state) hc rfl rfl rfl
  | masterKeys _ hc hok hd =>
    cases deriveMaster_view hd with
    | done => intro _; rfl
    | _ => exact keep (s := c.state) hc rfl rfl rfl
  | move hm =>
    unfold LateInv at h ⊢
    cases hm with
    | extensions hs | request hs | noRequest hs | certificate hs | verify hs | clientDone hs
    | serverDone hs => intro _; exact h (by rw [hs]; rfl)
    | serverHello _ _ hc _ hr => intro _; rw [hc]; exact hr
    | serverFinished _ _ _ _ _ hd => intro _; rw [← decOf_eq]; exact hd
    | _ => intro hx; cases hx
  | _ => exact h

theorem LateInv.api {c c' : Conn} (h : LateInv c) (hs : Api E G c c') : LateInv c' := by
  cases hs with
  | step hs => exact h.step hs
  | closeRecv => unfold closeReceivingEnd; split <;> intro hx <;> cases hx
  | closing => unfold LateInv; cases c.state <;> intro hx <;> cases hx
  | closedSend => intro hx; cases hx
  | _ => exact h

theorem LateInv.run {config : Config} {hostname ocsp algs random} {c : Conn}
    (h : Conn.new config hostname ocsp algs random = .ok c) (ops : List Op) :
    LateInv (runOps E ops c) := by
  refine runOps_inv (fun c c' h hs => h.api hs) ?_ ops
  obtain ⟨_, _, _, _, _, _, _, _, _, _, _, _, hs⟩ := Conn.new_fresh h
  intro hl
  rcases hs with ⟨_, h, _⟩ | ⟨_, h, _⟩ <;> rw [h] at hl <;> cases hl

/-! ## Finished -/

theorem Kept.cipher {c c₁ : Conn} (h : Kept c c₁) {k : CipherSt} (hk : c.cipher = some k) :
    ∃ k₁, c₁.cipher = some k₁ ∧ k₁.info = k.info ∧ k₁.side = k.side ∧ k₁.cFin = k.cFin ∧
      k₁.sFin = k.sFin := by
  have := h.keys
  rw [hk] at this
  cases h1 : c₁.cipher with
  | none => rw [h1] at this; cases this
  | some k₁ =>
    rw [h1] at this
    simp only [Option.map_some, Option.some.injEq, Prod.mk.injEq] at this
    exact ⟨k₁, rfl, this.1, this.2.2.1, this.2.2.2.1, this.2.2.2.2⟩

theorem verifyFinish_wrong {k : CipherSt} {x h vd : Bytes}
    (hk : (match k.side with | .client => k.sFin | .server => k.cFin) = .key x)
    (hv : vd ≠ E.hmac k.info.digest x h) : verifyFinish E k h vd = .error .valueError := by
  obtain ⟨info, side, secrets, rd, wr, cf, sf⟩ := k
  unfold verifyFinish
  have hv' : ¬ E.hmac info.digest x h = vd := fun he => hv he.symm
  cases side <;> dsimp only at hk ⊢ <;> subst hk <;>
    simp [finMac, Except.bind_def, pure, Except.pure, hv']

theorem clientWaitFin_wrong {m : Bool} {h vd x : Bytes} {c : Conn} {k : CipherSt}
    (hc : c.cipher = some k) (hs : k.side = .client) (hk : k.sFin = .key x)
    (hv : vd ≠ E.hmac k.info.digest x h) :
    (clientWaitFin E m h (.handshake (.finished vd)) c).1 = .error (.alert 51) := by
  unfold clientWaitFin
  dsimp only
  rw [bind_step (show getCipher c = (.ok k, c) by unfold getCipher; rw [hc])]
  rw [bind_error (e := .alert 51) (c' := c)]
  rw [verifyFinish_wrong (x := x) (by rw [hs]; exact hk) hv]
  rfl

theorem serverWaitFin_wrong {h vd x : Bytes} {c : Conn} {k : CipherSt}
    (hc : c.cipher = some k) (hs : k.side = .server) (hk : k.cFin = .key x)
    (hv : vd ≠ E.hmac k.info.digest x h) :
    (serverWaitFin E h (.handshake (.finished vd)) c).1 = .error (.alert 51) := by
  unfold serverWaitFin
  dsimp only
  rw [bind_step (show getCipher c = (.ok k, c) by unfold getCipher; rw [hc])]
  rw [bind_error (e := .alert 51) (c' := c)]
  rw [verifyFinish_wrong (x := x) (by rw [hs]; exact hk) hv]
  rfl

/-! ## CertificateVerify -/

theorem clientWaitCV_scheme {m : Bool} {h sig : Bytes} {alg : Nat} {c : Conn}
    (ha : alg ∉ c.config.signatureAlgorithms) :
    (clientWaitCV E m h (.handshake (.certificateVerify alg sig)) c).1 = .error (.alert 47) := by
  unfold clientWaitCV
  dsimp only
  rw [bind_step (show M.get c = (.ok c, c) from rfl), if_pos (by simpa using ha)]
  rfl

theorem clientWaitCV_invalid {m : Bool} {h sig pub : Bytes} {alg : Nat} {c : Conn} {nc : NConfig}
    {e : Exn} (ha : alg ∈ c.config.signatureAlgorithms) (hn : c.nconfig = some nc)
    (hf : nc.frozen = false) (hp : peerKey E nc = .ok pub)
    (hv : E.verify alg pub sig (certificateVerifyServer ++ h) = .error e) :
    (clientWaitCV E m h (.handshake (.certificateVerify alg sig)) c).1 = .error .keyError ∨
    (clientWaitCV E m h (.handshake (.certificateVerify alg sig)) c).1 = .error e := by
  unfold clientWaitCV
  dsimp only
  rw [bind_step (show M.get c = (.ok c, c) from rfl), if_neg (by simpa using ha)]
  rw [bind_step (show setNc (fun n => { n with signatureAlgorithm := some alg }) c =
    (.ok (), { c with nconfig := some { nc with signatureAlgorithm := some alg } }) by
      unfold setNc; rw [hn]; simp [hf])]
  rw [bind_step (show getNc { c with nconfig := some { nc with signatureAlgorithm := some alg } } =
    (.ok { nc with signatureAlgorithm := some alg }, _) from rfl)]
  rw [bind_step (show M.lift (peerKey E { nc with signatureAlgorithm := some alg }) _ =
    (.ok pub, _) by
      have : peerKey E { nc with signatureAlgorithm := some alg } = peerKey E nc := rfl
      rw [this, hp]; rfl)]
  split
  · exact .inl rfl
  · rw [bind_error (e := e)]
    · exact .inr rfl
    · rw [hv]; rfl

/-! ## Certificate -/

theorem clientWaitCert_empty {m : Bool} {ctx : Bytes} {c : Conn} (ha : c.config.requirePeerAuth = true) :
    (clientWaitCert E m (.handshake (.certificate ctx [])) c).1 = .error (.alert 42) := by
  unfold clientWaitCert
  dsimp only
  rw [bind_step (show M.get c = (.ok c, c) from rfl), if_pos ⟨ha, rfl⟩]
  rfl

theorem clientWaitCert_type {m : Bool} {ctx : Bytes} {entries : List CertEntry} {c : Conn}
    {nc : NConfig} (hn : c.nconfig = some nc) {e : CertEntry} (he : e ∈ entries)
    (ht : some e.ctype ≠ nc.serverCertificateType) :
    (clientWaitCert E m (.handshake (.certificate ctx entries)) c).1 = .error (.alert 43) := by
  unfold clientWaitCert
  dsimp only
  rw [bind_step (show M.get c = (.ok c, c) from rfl),
    if_neg (by rintro ⟨-, h⟩; rw [List.isEmpty_iff.mp h] at he; cases he)]
  rw [bind_step (show getNc c = (.ok nc, c) by unfold getNc; rw [hn])]
  rw [if_pos (by simp only [List.any_eq_true]; exact ⟨e, he, by simpa using ht⟩)]
  rfl

theorem chain_certsOf {entries : List CertEntry} {certs : List Bytes} (h : IsChain entries certs) :
    certsOf entries = .ok certs := by
  induction h with
  | nil => rfl
  | cons he _ ih =>
    obtain ⟨exts, rfl⟩ := he
    unfold certsOf
    rw [ih]
    rfl

theorem clientWaitCert_chain {m : Bool} {ctx leaf store : Bytes} {others : List Bytes}
    {entries : List CertEntry} {c : Conn} {nc : NConfig} (hn : c.nconfig = some nc)
    (hf : nc.frozen = false) (ht : nc.serverCertificateType = some 0)
    (hs : c.config.trustStore = some store) (he : IsChain entries (leaf :: others))
    (hv : E.verifyChain store c.config.maxChainDepth (subjectOf E c.hostname) leaf others c.draws =
      .error .verificationError) :
    (clientWaitCert E m (.handshake (.certificate ctx entries)) c).1 = .error (.alert 42) := by
  have hx := chain_certsOf he
  have ha : c.config.requirePeerAuth = true := by unfold Config.requirePeerAuth; rw [hs]; rfl
  have hall : ∀ e ∈ entries, e.ctype = 0 := by
    intro e h
    obtain ⟨i, hi, rfl⟩ := List.mem_iff_getElem.mp h
    obtain ⟨exts, h⟩ := (List.forall₂_iff_get.mp he).2 i hi (by rw [← he.length_eq]; exact hi)
    simp only [List.get_eq_getElem] at h
    rw [h]
    rfl
  cases entries with
  | nil => cases he
  | cons first rest =>
    have hfirst : first.cert = .ok leaf := by
      cases he with
      | cons h _ => obtain ⟨exts, rfl⟩ := h; rfl
    unfold clientWaitCert
    dsimp only
    rw [bind_step (show M.get c = (.ok c, c) from rfl), if_neg (by rintro ⟨-, h⟩; cases h)]
    rw [bind_step (show getNc c = (.ok nc, c) by unfold getNc; rw [hn])]
    rw [if_neg (by
      rw [List.any_eq_true]
      rintro ⟨e, h, h'⟩
      rw [hall e h, ht] at h'
      simp at h')]
    rw [ht]
    suffices h : ∃ c', clientProcessEntries E (some 0) (first :: rest) c = (.error (.alert 42), c') by
      obtain ⟨c', h⟩ := h
      rw [bind_error h]
    simp only [clientProcessEntries, clientProcessX509]
    rw [bind_step (show M.get c = (.ok c, c) from rfl)]
    rw [bind_step (show M.lift first.cert c = (.ok leaf, c) by rw [hfirst]; rfl)]
    rw [bind_step (show setNc (fun n => { n with peerCertificate := some leaf }) c =
      (.ok (), { c with nconfig := some { nc with peerCertificate := some leaf } }) by
        unfold setNc; rw [hn]; simp [hf])]
    rw [if_pos ha]
    suffices h : ∃ c', clientVerifyChain E (first :: rest)
        { c with nconfig := some { nc with peerCertificate := some leaf } } =
        (.error (.alert 42), c') by
      obtain ⟨c', h⟩ := h
      exact ⟨c', bind_error h⟩
    unfold clientVerifyChain
    rw [bind_step (show M.get _ = (.ok _, _) from rfl)]
    rw [bind_step (show M.lift (certsOf (first :: rest)) _ = (.ok (leaf :: others), _) by
      rw [hx]; rfl)]
    dsimp only
    rw [hs]
    dsimp only
    rw [M.bind_def]
    simp only [nextDraw]
    rw [hv]
    exact ⟨_, rfl⟩

theorem CfgInv.run {config : Config} {hostname ocsp algs random} {c : Conn}
    (h : Conn.new config hostname ocsp algs random = .ok c) (ops : List Op) :
    CfgInv config hostname (runOps E ops c) :=
  (runOps_inv (I := fun c => SideInv config.side c ∧ CfgInv config hostname c)
    (fun _ _ h hs => ⟨h.1.api hs, h.2.api hs h.1⟩) ⟨.fresh h, .fresh h⟩ ops).2

end Siotls
