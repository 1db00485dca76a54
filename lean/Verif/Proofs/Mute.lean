import Verif.Proofs.Veil
import Verif.Proofs.KeyInv
import Verif.Proofs.Careful
import Verif.Model.Api
/-!
# Settings of the other role

`Conn.mute true` hides the credentials in the configuration of a client, `Conn.mute false` whom the
configuration of a server trusts. A method is `Unswayed` when hiding them beforehand is the same as hiding
them afterwards.
-/

namespace Siotls

/-- a configuration without the settings in question -/
def Config.mute (b : Bool) (g : Config) : Config :=
  { g with
    privateKey := bif b then (match g.side with | .client => none | .server => g.privateKey) else g.privateKey
    certificateChain := bif b then (if g.hasChain then some [[]] else none) else g.certificateChain
    publicKey := bif b then g.publicKey.map (fun _ => []) else g.publicKey
    trustStore := bif b then g.trustStore else g.trustStore.map (fun _ => [])
    trustedPublicKeys := bif b then g.trustedPublicKeys else (if g.trustedPublicKeys.isEmpty then [] else [[]])
    revocationList := bif b then g.revocationList else none
    maxChainDepth := bif b then g.maxChainDepth else 5 }

/-- a connection without them -/
def Conn.mute (b : Bool) (c : Conn) : Conn := { c with config := c.config.mute b }

variable {b : Bool}

theorem Config.mute_trusted (g : Config) :
    (g.mute b).trustedPublicKeys.isEmpty = g.trustedPublicKeys.isEmpty := by
  cases b
  · show (if g.trustedPublicKeys.isEmpty then [] else [[]]).isEmpty = _
    cases h : g.trustedPublicKeys.isEmpty <;> rfl
  · rfl

theorem Config.mute_store (g : Config) : (g.mute b).trustStore.isSome = g.trustStore.isSome := by
  cases b
  · show (g.trustStore.map fun _ => []).isSome = _
    cases g.trustStore <;> rfl
  · rfl

theorem Config.mute_public (g : Config) : (g.mute b).publicKey.isSome = g.publicKey.isSome := by
  cases b
  · rfl
  · show (g.publicKey.map fun _ => []).isSome = _
    cases g.publicKey <;> rfl

theorem Config.mute_chain (g : Config) : (g.mute b).hasChain = g.hasChain := by
  cases b
  · rfl
  · have h : (g.mute true).certificateChain = if g.hasChain then some [[]] else none := rfl
    rw [Config.hasChain, h]
    cases g.hasChain <;> rfl

theorem Config.mute_require (g : Config) : (g.mute b).requirePeerAuth = g.requirePeerAuth := by
  rw [Config.requirePeerAuth, Config.requirePeerAuth, g.mute_store, g.mute_trusted]

theorem Config.mute_types (g : Config) : (g.mute b).certificateTypes = g.certificateTypes := by
  rw [Config.certificateTypes, Config.certificateTypes, g.mute_chain, g.mute_public]

theorem Config.mute_peerTypes (g : Config) : (g.mute b).peerCertificateTypes = g.peerCertificateTypes := by
  rw [Config.peerCertificateTypes, Config.peerCertificateTypes, g.mute_store, g.mute_trusted]

theorem Config.mute_check (g : Config) : (g.mute b).check = g.check := by
  have h1 : (g.mute b).checkMandatory = g.checkMandatory := rfl
  have h3 : (g.mute b).side = g.side := rfl
  have h4 : (g.mute b).checkClient = g.checkClient := rfl
  unfold Config.check
  rw [h1, h3, h4]
  cases hs : g.side with
  | client => rfl
  | server =>
    have h5 : (g.mute b).privateKey = g.privateKey := by
      cases b
      · rfl
      · show (match g.side with | .client => none | .server => g.privateKey) = _
        rw [hs]
    have h6 : (g.mute b).maxFragmentLength = g.maxFragmentLength := rfl
    have h2 : (g.mute b).checkServer = g.checkServer := by
      unfold Config.checkServer
      rw [h5, h6, g.mute_chain, g.mute_public]
    rw [h2]

def Unswayed (b : Bool) {α} (m : M α) : Prop := ∀ c : Conn, m (c.mute b) = ((m c).1, (m c).2.mute b)

theorem Unswayed.pure {α} (a : α) : Unswayed b (Pure.pure a : M α) := fun _ => rfl
theorem Unswayed.pure' {α} (a : α) : Unswayed b (M.pure a : M α) := fun _ => rfl
theorem Unswayed.throw {α} (e : Exn) : Unswayed b (M.throw e : M α) := fun _ => rfl
theorem Unswayed.lift {α} (r : Except Exn α) : Unswayed b (M.lift r) := fun _ => rfl

theorem Unswayed.bind {α β} {m : M α} {g : α → M β} (h : Unswayed b m) (hg : ∀ a, Unswayed b (g a)) :
    Unswayed b (m >>= g) := by
  intro c
  show M.bind m g (c.mute b) = ((M.bind m g c).1, (M.bind m g c).2.mute b)
  unfold M.bind
  rw [h c]
  rcases m c with ⟨e | a, d⟩
  · rfl
  · exact hg a d

theorem Unswayed.get {β} {g : Conn → M β} (h : ∀ c, Unswayed b (g c)) (hg : ∀ c : Conn, g (c.mute b) = g c) :
    Unswayed b (M.get >>= g) := by
  intro c
  show g (c.mute b) (c.mute b) = ((g c c).1, (g c c).2.mute b)
  rw [hg c]
  exact h c c

theorem Unswayed.modify {f : Conn → Conn} (h : ∀ c : Conn, f (c.mute b) = (f c).mute b) :
    Unswayed b (M.modify f) := fun c => by
  show (Except.ok (), f (c.mute b)) = _
  rw [h]
  rfl

theorem Unswayed.nextDraw : Unswayed b nextDraw := fun _ => rfl

theorem Unswayed.getNc : Unswayed b getNc := fun c => by
  unfold Siotls.getNc
  show (match c.nconfig with | some n => _ | none => _) = _
  cases c.nconfig <;> rfl

theorem Unswayed.setNc (f : NConfig → NConfig) : Unswayed b (setNc f) := fun c => by
  rcases c with ⟨g, h, o, n⟩
  unfold Siotls.setNc Conn.mute
  dsimp only
  cases n with
  | none => rfl
  | some n => dsimp only; split <;> rfl

theorem Unswayed.getCipher : Unswayed b getCipher := fun c => by
  rcases c with ⟨g, h, o, n, k⟩
  unfold Siotls.getCipher Conn.mute
  cases k <;> rfl

theorem Unswayed.digest {E : Env} : Unswayed b (transcriptDigest E) := fun _ => rfl

theorem Unswayed.update (d : Bytes) (s : Side) (t : Nat) : Unswayed b (transcriptUpdate d s t) := fun c => by
  unfold transcriptUpdate
  have h : (c.mute b).transcript = c.transcript := rfl
  rw [h]
  rcases c.transcript.update d s t with ⟨r | b, t'⟩
  · rfl
  · cases b <;> rfl

theorem Unswayed.postInit (a : HashAlg) : Unswayed b (transcriptPostInit a) := fun c => by
  unfold transcriptPostInit
  have h : (c.mute b).transcript = c.transcript := rfl
  rw [h]
  cases c.transcript.postInit a <;> rfl

theorem Unswayed.hrr (s : Side) (x : Bytes) : Unswayed b (transcriptHrr s x) := fun c => by
  unfold transcriptHrr
  have h : (c.mute b).transcript = c.transcript := rfl
  rw [h]
  cases c.transcript.hrrDance s x <;> rfl

theorem Unswayed.setConfig {f : Config → Config} (h : ∀ g : Config, f (g.mute b) = (f g).mute b) :
    Unswayed b (setConfig f) := fun c => by
  unfold Siotls.setConfig
  have h1 : (c.mute b).config = c.config.mute b := rfl
  rw [h1, h, Config.mute_check]
  cases (f c.config).check <;> rfl

theorem Unswayed.skipEarly {E : Env} : Unswayed b (cipherSkipEarly E) := fun c => by
  unfold cipherSkipEarly
  have h : (c.mute b).cipher = c.cipher := rfl
  rw [h]
  cases c.cipher with
  | none => rfl
  | some k => dsimp only; cases Siotls.skipEarly E k <;> rfl

theorem Unswayed.deriveHandshake {E : Env} (s h : Bytes) : Unswayed b (cipherDeriveHandshake E s h) := fun c => by
  unfold cipherDeriveHandshake
  have hc : (c.mute b).cipher = c.cipher := rfl
  rw [hc]
  cases c.cipher <;> rfl

theorem Unswayed.deriveMaster {E : Env} (s h : Bytes) : Unswayed b (cipherDeriveMaster E s h) := fun c => by
  unfold cipherDeriveMaster
  have hc : (c.mute b).cipher = c.cipher := rfl
  rw [hc]
  cases c.cipher <;> rfl

theorem Unswayed.moveTo (s : St) : Unswayed b (moveTo s) := fun _ => rfl

theorem Unswayed.ghost {e : Ev} : Unswayed b (ghost e) := fun c => by
  rfl

variable {E : Env}

theorem Unswayed.ite {α} {p : Prop} [Decidable p] {m₁ m₂ : M α} (h₁ : Unswayed b m₁) (h₂ : Unswayed b m₂) :
    Unswayed b (if p then m₁ else m₂) := by
  split
  · exact h₁
  · exact h₂

theorem Unswayed.guarded {p : Bool} {m : M Unit} (h : Unswayed b m) : Unswayed b (M.guarded p m) := by
  unfold M.guarded
  exact .ite h (.pure' ())

/-! ## Sending -/

theorem unswayed_hash (d : Bytes) (s : Side) (x : Content) : Unswayed b (hashContent d s x) := by
  unfold hashContent
  split
  · exact .update _ _ _
  · exact .throw _
  · exact .pure _

theorem unswayed_encrypt (d h : Bytes) : Unswayed b (cipherEncrypt E d h) := fun c => by
  unfold cipherEncrypt
  have h1 : (c.mute b).cipher = c.cipher := rfl
  rw [h1]
  cases c.cipher with
  | none => rfl
  | some k =>
    dsimp only
    cases k.wr.key with
    | none => rfl
    | some key =>
      dsimp only
      rcases nextNonce k.info k.wr with e | ⟨n, w⟩
      · cases e <;> rfl
      · rfl

theorem unswayed_fragment (t : Nat) (f : Bytes) : Unswayed b (encryptFragment E t f) := by
  unfold encryptFragment
  refine .get (fun c => .bind .getCipher fun k => .bind (.lift _) fun h => .bind (unswayed_encrypt _ _) fun e => ?_)
    (fun c => rfl)
  split
  · exact .pure _
  · exact .throw _

theorem unswayed_records (e : Bool) (t : Nat) : ∀ fs, Unswayed b (makeRecords E e t fs)
  | [] => .pure _
  | f :: fs => by
    unfold makeRecords protect
    refine .bind ?_ fun b => .bind (.lift _) fun h => .bind (unswayed_records e t fs) fun r => .pure _
    split
    · exact unswayed_fragment _ _
    · exact .pure' _

theorem unswayed_emit (x : Content) (r : List (Nat × Bytes × Bytes)) : Unswayed b (emitRecords x r) := by
  exact .modify fun _ => rfl

theorem unswayed_send (x : Content) : Unswayed b (sendContent E x) := by
  unfold sendContent
  refine .get (fun c => ?_) (fun c => rfl)
  refine .ite (.throw _) (.ite (.throw _) (.ite (.throw _) ?_))
  exact .bind (.lift _) fun d => .bind (unswayed_hash _ _ _) fun _ => .bind (.lift _) fun fs =>
    .bind (unswayed_records _ _ _) fun r => unswayed_emit _ _

theorem Unswayed.setNconfig (n : NConfig) : Unswayed b (M.modify fun c => { c with nconfig := some n }) :=
  .modify fun _ => rfl

theorem Unswayed.setCipher (k : CipherSt) : Unswayed b (M.modify fun c => { c with cipher := some k }) :=
  .modify fun _ => rfl

theorem Unswayed.setClientUnique (r : Bytes) :
    Unswayed b (M.modify fun c => { c with clientUnique := some r }) := .modify fun _ => rfl

theorem Unswayed.setServerUnique (r : Bytes) :
    Unswayed b (M.modify fun c => { c with serverUnique := some r }) := .modify fun _ => rfl

theorem Unswayed.setSignature (s : Nat) :
    Unswayed false (M.modify fun c => { c with signature := some (s, c.config.privateKey.getD []) }) :=
  .modify fun _ => rfl

theorem Conn.mute_config (c : Conn) : (c.mute b).config = c.config.mute b := rfl

/-! ## The states -/

/-- one structural step -/
macro "unswayed1" : tactic => `(tactic| first
  | with_reducible first
    | exact Unswayed.pure _ | exact Unswayed.pure' _ | exact Unswayed.throw _ | exact Unswayed.lift _ | exact Unswayed.nextDraw
    | exact Unswayed.getNc | exact Unswayed.setNc _ | exact Unswayed.getCipher | exact Unswayed.digest
    | exact Unswayed.postInit _ | exact Unswayed.hrr _ _
    | exact Unswayed.skipEarly | exact Unswayed.deriveHandshake _ _ | exact Unswayed.deriveMaster _ _
    | exact Unswayed.setNconfig _ | exact Unswayed.setCipher _
    | exact Unswayed.setClientUnique _ | exact Unswayed.setServerUnique _ | exact Unswayed.setSignature _
    | exact Unswayed.moveTo _ | exact unswayed_send _
    | assumption
    | apply Unswayed.guarded
  | (with_reducible refine Unswayed.setConfig ?_); (exact fun _ => rfl)
  | (with_reducible refine Unswayed.get (fun _ => ?_) ?_); rotate_left; (first | exact fun _ => rfl | (intro c; simp only [Conn.mute_config, Config.mute_require, Config.mute_types, Config.mute_peerTypes]; try rfl))
  | with_reducible refine Unswayed.bind ?_ (fun _ => ?_)
  | split)

macro "unswayed" : tactic => `(tactic| repeat' unswayed1)

theorem unswayed_baseProcess (x : Content) : Unswayed b (baseProcess x) := by
  unfold baseProcess; unswayed

theorem unswayed_kexInit (g : Nat) : Unswayed b (kexInit E g) := by
  unfold kexInit; unswayed

theorem clientExtensions_mute (c : Conn) (k : Option Bytes) :
    clientExtensions E (c.mute true) k = clientExtensions E c k := by
  unfold clientExtensions
  rw [c.mute_config, Config.mute_types, Config.mute_peerTypes, Config.mute_public]
  rfl

theorem unswayed_clientInitiate (k : Option Bytes) : Unswayed true (clientInitiate E k) := by
  have h1 : ∀ g, Unswayed true (kexInit E g) := unswayed_kexInit
  unfold clientInitiate
  refine Unswayed.get (fun c => ?_) (fun c => by simp only [clientExtensions_mute]; rfl)
  split
  · unswayed
  · unswayed
  · refine Unswayed.ite (.throw _) (Unswayed.bind (h1 _) fun p => ?_)
    unswayed

theorem unswayed_clientProcessHrr (h : Bytes) (exts : List Ext) : Unswayed true (clientProcessHrr E h exts) := by
  have h1 : ∀ k, Unswayed true (clientInitiate E k) := unswayed_clientInitiate
  unfold clientProcessHrr
  repeat' first | exact h1 _ | unswayed1

theorem unswayed_clientNegKeyShare (exts : List Ext) (ks : List (Nat × Bytes)) :
    Unswayed true (clientNegKeyShare E exts ks) := by
  unfold clientNegKeyShare; unswayed

theorem unswayed_clientNegVersion (exts : List Ext) : Unswayed true (clientNegVersion exts) := by
  unfold clientNegVersion; unswayed

theorem unswayed_clientProcessServerHello (ks : List (Nat × Bytes)) (r : Bytes) (exts : List Ext) :
    Unswayed true (clientProcessServerHello E ks r exts) := by
  unfold clientProcessServerHello
  repeat' first | with_reducible exact unswayed_clientNegVersion _ | with_reducible exact unswayed_clientNegKeyShare _ _ | unswayed1

theorem unswayed_clientSetup (f : Bool) (s : Nat) : Unswayed true (clientSetup E f s) := by
  unfold clientSetup; unswayed

theorem unswayed_clientWaitSH (f : Bool) (ks : List (Nat × Bytes)) (h : Bytes) (x : Content) :
    Unswayed true (clientWaitSH E f ks h x) := by
  unfold clientWaitSH
  repeat' first
    | with_reducible exact unswayed_clientSetup _ _ | with_reducible exact unswayed_clientProcessServerHello _ _ _
    | with_reducible exact unswayed_clientProcessHrr _ _ | with_reducible exact unswayed_baseProcess _ | unswayed1

theorem unswayed_clientWaitEE (x : Content) : Unswayed true (clientWaitEE x) := by
  unfold clientWaitEE clientNegMfl clientNegAlpn clientNegHeartbeat clientNegCct clientNegSct
  repeat' first | with_reducible exact unswayed_baseProcess _ | unswayed1

theorem unswayed_clientVerifyChain (es : List CertEntry) : Unswayed true (clientVerifyChain E es) := by
  unfold clientVerifyChain; unswayed

theorem unswayed_clientVerifyRevocation (es : List CertEntry) : Unswayed true (clientVerifyRevocation es) := by
  unfold clientVerifyRevocation; unswayed

theorem unswayed_clientVerifyStatus (e i : CertEntry) : Unswayed true (clientVerifyStatus E e i) := by
  unfold clientVerifyStatus; unswayed

theorem unswayed_clientVerifyStatuses : ∀ es : List CertEntry, Unswayed true (clientVerifyStatuses E es)
  | [] => .pure ()
  | [_] => .pure ()
  | e :: i :: rest => by
    unfold clientVerifyStatuses
    exact Unswayed.bind (unswayed_clientVerifyStatus _ _) fun _ => unswayed_clientVerifyStatuses (i :: rest)

theorem unswayed_clientProcessEntries (t : Option Nat) (es : List CertEntry) :
    Unswayed true (clientProcessEntries E t es) := by
  unfold clientProcessEntries clientProcessX509 clientProcessRaw
  repeat' first
    | with_reducible exact unswayed_clientVerifyChain _ | with_reducible exact unswayed_clientVerifyRevocation _
    | with_reducible exact unswayed_clientVerifyStatuses _ | unswayed1

theorem unswayed_clientWaitCert (m : Bool) (x : Content) : Unswayed true (clientWaitCert E m x) := by
  unfold clientWaitCert
  repeat' first | with_reducible exact unswayed_clientProcessEntries _ _ | with_reducible exact unswayed_baseProcess _ | unswayed1

theorem unswayed_clientWaitCertCr (x : Content) : Unswayed true (clientWaitCertCr E x) := by
  unfold clientWaitCertCr
  repeat' first | with_reducible exact unswayed_clientWaitCert _ _ | with_reducible exact unswayed_baseProcess _ | unswayed1

theorem unswayed_clientWaitCV (m : Bool) (h : Bytes) (x : Content) : Unswayed true (clientWaitCV E m h x) := by
  unfold clientWaitCV
  repeat' first | with_reducible exact unswayed_baseProcess _ | unswayed1

theorem unswayed_clientWaitFin (m : Bool) (h : Bytes) (x : Content) : Unswayed true (clientWaitFin E m h x) := by
  unfold clientWaitFin
  repeat' first | with_reducible exact unswayed_baseProcess _ | unswayed1

theorem unswayed_serverCheckHello (f : Bool) (r : Bytes) (s : List Nat) : Unswayed false (serverCheckHello f r s) := by
  unfold serverCheckHello serverSetup serverCheckSecond; unswayed

theorem unswayed_serverNegotiate (exts : List Ext) : Unswayed false (serverNegotiate E exts) := by
  unfold serverNegotiate serverNegVersions serverNegGroups serverNegSignature serverNegKeyShare
    serverNegCct serverNegSct serverNegMfl serverNegAlpn serverNegHeartbeat serverNegStatus
  dsimp only
  unswayed

theorem unswayed_serverSendHrr (f : Bool) (sid : Bytes) (cl : List Ext) : Unswayed false (serverSendHrr E f sid cl) := by
  unfold serverSendHrr; unswayed

theorem unswayed_serverFlight (f : Bool) (sid : Bytes) (cl enc : List Ext) (sh : Bytes) :
    Unswayed false (serverFlight E f sid cl enc sh) := by
  unfold serverFlight serverSendHello serverRequestCert serverSendCertificate serverCertEntries
    serverStaple serverSendFinished
  unswayed

theorem unswayed_serverWaitCH (f : Bool) (x : Content) : Unswayed false (serverWaitCH E f x) := by
  unfold serverWaitCH
  repeat' first
    | with_reducible exact unswayed_serverCheckHello _ _ _ | with_reducible exact unswayed_serverNegotiate _
    | with_reducible exact unswayed_serverSendHrr _ _ _ | with_reducible exact unswayed_serverFlight _ _ _ _ _
    | with_reducible exact unswayed_baseProcess _ | unswayed1

theorem unswayed_serverWaitFin (h : Bytes) (x : Content) : Unswayed false (serverWaitFin E h x) := by
  unfold serverWaitFin
  repeat' first | with_reducible exact unswayed_baseProcess _ | unswayed1

theorem unswayed_connectedProcess (x : Content) : Unswayed b (connectedProcess x) := by
  unfold connectedProcess
  split
  · exact .modify fun _ => rfl
  · exact unswayed_baseProcess _

/-- the role whose settings of the other role are hidden -/
def roleOf (b : Bool) : Side := bif b then .client else .server

/-- `Unswayed` at one connection -/
def UnswayedAt (b : Bool) {α} (m : M α) (c : Conn) : Prop := m (c.mute b) = ((m c).1, (m c).2.mute b)

theorem UnswayedAt.bind {α β} {m : M α} {g : α → M β} {c : Conn} (h : UnswayedAt b m c)
    (hg : ∀ a d, m c = (.ok a, d) → UnswayedAt b (g a) d) : UnswayedAt b (m >>= g) c := by
  show M.bind m g (c.mute b) = ((M.bind m g c).1, (M.bind m g c).2.mute b)
  unfold M.bind
  rw [h]
  rcases hm : m c with ⟨e | a, d⟩
  · rfl
  · exact hg a d hm

theorem unswayedAt_process (x : Content) {c : Conn} (h : ∀ s, c.state.side? = some s → s = roleOf b) :
    UnswayedAt b (process E x) c := by
  unfold UnswayedAt process
  have h1 : (c.mute b).state = c.state := rfl
  rw [h1]
  cases hs : c.state <;> rw [hs] at h
  case connected => exact unswayed_connectedProcess _ _
  case closed r s =>
    cases r
    · rfl
    · exact unswayed_connectedProcess _ _
  case clientStart => exact unswayed_baseProcess _ _
  case serverStart => exact unswayed_baseProcess _ _
  all_goals
    have hb := h _ rfl
    cases b <;> try cases hb
  · exact unswayed_clientWaitSH _ _ _ _ _
  · exact unswayed_clientWaitEE _ _
  · exact unswayed_clientWaitCertCr _ _
  · exact unswayed_clientWaitCert _ _ _
  · exact unswayed_clientWaitCV _ _ _ _
  · exact unswayed_clientWaitFin _ _ _ _
  · exact unswayed_serverWaitCH _ _ _
  · exact unswayed_serverWaitFin _ _ _

/-! ## Receiving -/

theorem unswayed_decrypt (h f : Bytes) : Unswayed b (decryptRecord E h f) := fun c => by
  unfold decryptRecord
  have h1 : (c.mute b).cipher = c.cipher := rfl
  rw [h1]
  cases c.cipher with
  | none => rfl
  | some k =>
    dsimp only
    cases k.rd.key with
    | none => rfl
    | some key =>
      dsimp only
      rcases nextNonce k.info k.rd with e | ⟨n, w⟩
      · rfl
      · dsimp only
        cases E.aeadOpen k.info.id key n h f with
        | none => rfl
        | some inner => dsimp only; cases stripPadding inner <;> rfl

theorem unswayed_record : Unswayed b (readNextRecord E) := fun c => by
  unfold readNextRecord
  have h1 : ({ (c.mute b) with inputData := skipCcs (c.mute b).inputData } : Conn) =
      Conn.mute b { c with inputData := skipCcs c.inputData } := rfl
  rw [h1]
  generalize ({ c with inputData := skipCcs c.inputData } : Conn) = c
  dsimp only
  have h2 : (c.mute b).inputData = c.inputData := rfl
  have h3 : (c.mute b).mfl = c.mfl := rfl
  have h4 : (c.mute b).mustDecrypt = c.mustDecrypt := rfl
  rw [h2, h3, h4]
  split
  · rename_i t v1 v2 l1 l2 rest _
    by_cases ha : beDec [l1, l2] > c.mfl + (if c.mustDecrypt then 256 else 0)
    · simp only [if_pos ha]
    simp only [if_neg ha]
    by_cases hb : rest.length < beDec [l1, l2]
    · simp only [if_pos hb]
    simp only [if_neg hb]
    have h5 : ({ (c.mute b) with inputData := rest.drop (beDec [l1, l2]) } : Conn) =
      Conn.mute b { c with inputData := rest.drop (beDec [l1, l2]) } := rfl
    rw [h5]
    have h6 : (Conn.mute b { c with inputData := rest.drop (beDec [l1, l2]) }).mustDecrypt = c.mustDecrypt := rfl
    have h7 : (Conn.mustDecrypt { c with inputData := rest.drop (beDec [l1, l2]) }) = c.mustDecrypt := rfl
    rw [h6, h7]
    cases c.mustDecrypt with
    | true =>
      simp only [if_true]
      rw [unswayed_decrypt]
      rcases decryptRecord E [t, v1, v2, l1, l2] (rest.take (beDec [l1, l2]))
        { c with inputData := rest.drop (beDec [l1, l2]) } with ⟨e | ⟨x, y⟩, d⟩
      · rfl
      · dsimp only; split <;> rfl
    | false =>
      simp only [Bool.false_eq_true, if_false]
      split <;> rfl
  · rfl

theorem unswayed_finish : Unswayed b finishHandshake := fun c => by
  unfold finishHandshake
  have h : (c.mute b).inputHandshake = c.inputHandshake := rfl
  rw [h]
  split <;> rfl

theorem unswayed_complete : ∀ n, Unswayed b (completeHandshake E n)
  | 0 => fun c => by
    unfold completeHandshake
    have h : (c.mute b).inputHandshake = c.inputHandshake := rfl
    rw [h]
    split
    · rfl
    · exact unswayed_finish c
  | n + 1 => fun c => by
    unfold completeHandshake
    have h : (c.mute b).inputHandshake = c.inputHandshake := rfl
    rw [h]
    split
    · rw [unswayed_record]
      rcases readNextRecord E c with ⟨e | _ | ⟨t, f⟩, d⟩
      · rfl
      · rfl
      · dsimp only
        split
        · rfl
        · exact unswayed_complete n { d with inputHandshake := d.inputHandshake ++ f }
    · exact unswayed_finish c

theorem unswayed_content : Unswayed b (readNextContent E) := fun c => by
  unfold readNextContent
  rw [unswayed_record]
  rcases readNextRecord E c with ⟨e | _ | ⟨t, f⟩, d⟩
  · rfl
  · rfl
  · dsimp only
    have h : (d.mute b).inputHandshake = d.inputHandshake := rfl
    rw [h]
    split
    · rfl
    split
    · rfl
    split
    · rfl
    · exact unswayed_complete _ { d with inputHandshake := d.inputHandshake ++ f }

theorem hashContent_state {d : Bytes} {s : Side} {x : Content} {c c' : Conn} {r : Except Exn Unit}
    (h : hashContent d s x c = (r, c')) : c'.state = c.state := by
  unfold hashContent at h
  split at h
  · unfold transcriptUpdate at h
    split at h <;> cases h <;> rfl
  · cases h; rfl
  · cases h; rfl

theorem unswayedAt_step {c : Conn} (hi : SideInv (roleOf b) c) : UnswayedAt b (receiveStep E) c := by
  unfold receiveStep
  refine UnswayedAt.bind (unswayed_content c) fun next d hd => ?_
  have hsd : d.state = c.state := by
    have h := (run_readNextContent (E := E) (G := fun _ => True) c).2 next (by rw [hd])
    rw [hd] at h
    have h' : d = _ := h.1.same
    rw [h']
  split
  · rfl
  · rename_i ctype data
    have key : ∀ (t : Option (Option Nat)) (s : Side), UnswayedAt b (do
        let content ← M.lift (decodeContent E t ctype data)
        hashContent data s content
        ghost (.recv content)
        process E content
        return true) d := by
      intro t s
      refine UnswayedAt.bind (Unswayed.lift _ d) fun x d1 h1 => ?_
      have h1' : d1 = d := by cases hx : decodeContent E t ctype data <;> rw [hx] at h1 <;> cases h1; rfl
      subst h1'
      refine UnswayedAt.bind (unswayed_hash _ _ _ _) fun _ d2 h2 => ?_
      refine UnswayedAt.bind (Unswayed.ghost d2) fun _ d3 h3 => ?_
      have h3' : d3.state = d2.state := by cases h3; rfl
      refine UnswayedAt.bind (unswayedAt_process x ?_) fun _ d4 _ => rfl
      rw [h3', hashContent_state h2, hsd]
      exact hi.state
    exact key d.certType d.config.side.other

theorem SideInv.turn {s : Side} {c : Conn} (h : SideInv s c) : SideInv s (receiveStep E c).2 :=
  Steps.inv (G := fun _ => True) (fun _ _ h hs => h.step hs)
    (run_receiveStep (E := E) (G := fun _ => True) (c := c) fun _ _ => trivial).1 h

theorem unswayed_fail (d : Nat) : Unswayed b (failWith E d) := by
  unfold failWith
  exact .bind (unswayed_send _) fun _ => .moveTo _

theorem unswayedAt_loop : ∀ (n : Nat) {c : Conn}, SideInv (roleOf b) c → UnswayedAt b (receiveLoop E n) c
  | 0, _, _ => rfl
  | n + 1, c, hi => by
    have h := unswayedAt_step (E := E) hi
    have ht := hi.turn (E := E)
    unfold UnswayedAt at h ⊢
    unfold receiveLoop
    rw [h]
    generalize receiveStep E c = y at ht ⊢
    rcases y with ⟨e | _ | _, d⟩
    · dsimp only
      have h' : UnswayedAt b (failWith E (alertFor e)) d := unswayed_fail _ d
      unfold UnswayedAt at h'
      rw [h']
      rcases failWith E (alertFor e) d with ⟨_ | _, x⟩ <;> rfl
    · rfl
    · exact unswayedAt_loop n ht

theorem unswayed_rekey : Unswayed b rekey := fun c => by
  unfold rekey
  have h : (c.mute b).state = c.state := rfl
  rw [h]
  split <;> rfl

theorem shouldRekey_mute (c : Conn) : shouldRekey (c.mute b) = shouldRekey c := rfl

theorem unswayed_tail : Unswayed b recvTail := fun c => by
  unfold recvTail
  rw [shouldRekey_mute]
  rcases shouldRekey c with _ | _ | _
  · rfl
  · rfl
  · exact unswayed_rekey c

theorem unswayedAt_receive (x : Bytes) {c : Conn} (hi : SideInv (roleOf b) c) : UnswayedAt b (receiveData E x) c := by
  cases h1 : x.isEmpty with
  | true => simp only [UnswayedAt, receiveData, h1, if_true]
  | false =>
    by_cases h2 : c.state.canReceive = false
    · have h3 : (c.mute b).state.canReceive = false := h2
      simp only [UnswayedAt, receiveData, h1, h2, h3, Bool.false_eq_true, if_false, if_true]
    · have h3 : (c.mute b).state.canReceive ≠ false := h2
      unfold UnswayedAt
      rw [receiveData_tail h1 h2, receiveData_tail h1 h3]
      have h4 : SideInv (roleOf b) { c with inputData := c.inputData ++ x } := ⟨hi.1, hi.2, hi.3⟩
      exact UnswayedAt.bind (unswayedAt_loop (E := E) _ h4) fun _ d _ => unswayed_tail d

theorem unswayed_closeRecv : Unswayed b closeReceivingEnd := fun c => by
  unfold closeReceivingEnd
  have h : (c.mute b).state = c.state := rfl
  rw [h]
  cases c.state <;> rfl

theorem unswayed_closeSend : Unswayed b (closeSendingEnd E) := by
  unfold closeSendingEnd
  refine .bind (fun c => rfl) fun _ => .get (fun c => ?_) (fun _ => rfl)
  split
  · refine .bind (unswayed_send _) fun _ => fun c => rfl
  · exact .pure _

theorem unswayedAt_initiate {c : Conn} (hi : SideInv (roleOf b) c) : UnswayedAt b (initiate E) c := by
  unfold UnswayedAt initiate
  have h : (c.mute b).state = c.state := rfl
  rw [h]
  have hs := hi.state
  cases hc : c.state with
  | clientStart k =>
    rw [hc] at hs
    have hb := hs _ rfl
    cases b with
    | false => cases hb
    | true => exact unswayed_clientInitiate k c
  | serverStart => exact Unswayed.moveTo _ c
  | _ => rfl

/-- No method of the API is swayed by the settings of the other role. -/
theorem unswayedAt_run {c : Conn} (hi : SideInv (roleOf b) c) : ∀ o : Op, UnswayedAt b (o.run E) c
  | .initiate => .bind (unswayedAt_initiate hi) fun _ _ _ => rfl
  | .receive d => .bind (unswayedAt_receive d hi) fun _ _ _ => rfl
  | .send _ => .bind (unswayed_send _ c) fun _ _ _ => rfl
  | .read => rfl
  | .drain => rfl
  | .closeRecv => .bind (unswayed_closeRecv c) fun _ _ _ => rfl
  | .closeSend => .bind (unswayed_closeSend c) fun _ _ _ => rfl
  | .rekey => .bind (unswayed_rekey c) fun _ _ _ => rfl

theorem SideInv.runOp {s : Side} {c : Conn} (h : SideInv s c) (o : Op) : SideInv s (o.run E c).2 :=
  runOps_inv (E := E) (fun _ _ h hs => h.api hs) h [o]

theorem runOps_mute : ∀ (ops : List Op) {c : Conn}, SideInv (roleOf b) c →
    runOps E ops (c.mute b) = (runOps E ops c).mute b
  | [], _, _ => rfl
  | o :: os, c, hi => by
    have h : (o.run E (c.mute b)).2 = (o.run E c).2.mute b := by rw [unswayedAt_run hi o]
    show runOps E os (o.run E (c.mute b)).2 = (runOps E os (o.run E c).2).mute b
    rw [h]
    exact runOps_mute os (hi.runOp o)

end Siotls
