import Verif.Proofs.Built
import Verif.Model.Api
/-!
# Settings that have no influence

`Conn.veil` hides the `log_keys` setting, the `server_hostnames` of a server, and the lines logged.
A method is `Deaf` when hiding them changes neither its result nor what else it does.
-/

namespace Siotls

/-- a configuration without the settings in question -/
def Config.veil (g : Config) : Config :=
  { g with logKeys := false, serverHostnames := if g.side = .server then [] else g.serverHostnames }

/-- a connection without them and without its log -/
def Conn.veil (c : Conn) : Conn :=
  { c with config := c.config.veil, tr := c.tr.filter fun e => match e with | .logged _ => false | _ => true }

theorem Config.veil_check (g : Config) : g.veil.check = g.check := by
  have h1 : g.veil.checkMandatory = g.checkMandatory := rfl
  have h2 : g.veil.checkServer = g.checkServer := rfl
  have h3 : g.veil.side = g.side := rfl
  unfold Config.check
  rw [h1, h2, h3]
  cases hs : g.side with
  | server => rfl
  | client => simp [Config.checkClient, Config.veil, hs]

def Deaf {α} (m : M α) : Prop :=
  ∀ c, (m c.veil).1 = (m c).1 ∧ (m c.veil).2.veil = (m c).2.veil

theorem Config.veil_idem (g : Config) : g.veil.veil = g.veil := by
  unfold Config.veil
  dsimp only
  split <;> rfl

theorem Conn.veil_idem (c : Conn) : c.veil.veil = c.veil := by
  simp [Conn.veil, Config.veil_idem]

theorem Deaf.congr {α} {m : M α} (h : Deaf m) {c d : Conn} (e : c.veil = d.veil) :
    (m c).1 = (m d).1 ∧ (m c).2.veil = (m d).2.veil := by
  have h1 := h c
  have h2 := h d
  rw [e] at h1
  exact ⟨h1.1.symm.trans h2.1, h1.2.symm.trans h2.2⟩

theorem Deaf.pure {α} (a : α) : Deaf (Pure.pure a : M α) := fun c => ⟨rfl, c.veil_idem⟩
theorem Deaf.pure' {α} (a : α) : Deaf (M.pure a : M α) := fun c => ⟨rfl, c.veil_idem⟩
theorem Deaf.throw {α} (e : Exn) : Deaf (M.throw e : M α) := fun c => ⟨rfl, c.veil_idem⟩
theorem Deaf.lift {α} (r : Except Exn α) : Deaf (M.lift r) := fun c => ⟨rfl, c.veil_idem⟩

theorem Deaf.bind {α β} {m : M α} {g : α → M β} (h : Deaf m) (hg : ∀ a, Deaf (g a)) :
    Deaf (m >>= g) := by
  intro c
  have h1 := h c
  show (M.bind m g c.veil).1 = (M.bind m g c).1 ∧ (M.bind m g c.veil).2.veil = (M.bind m g c).2.veil
  unfold M.bind
  rcases hm : m c with ⟨r, d⟩
  rcases hm' : m c.veil with ⟨r', d'⟩
  rw [hm, hm'] at h1
  obtain ⟨rfl, h2⟩ := h1
  cases r' with
  | error e => exact ⟨rfl, h2⟩
  | ok a => exact (hg a).congr h2

theorem Deaf.get {β} {g : Conn → M β} (h : ∀ c, Deaf (g c)) (hg : ∀ c, g c.veil = g c) :
    Deaf (M.get >>= g) := by
  intro c
  show (g c.veil c.veil).1 = (g c c).1 ∧ (g c.veil c.veil).2.veil = (g c c).2.veil
  rw [hg c]
  exact h c c

/-- a method that treats veiled connections as others, and veils with them -/
theorem Deaf.of {α} {m : M α} (h : ∀ c, m c.veil = ((m c).1, (m c).2.veil)) : Deaf m := fun c =>
  ⟨by rw [h c], by rw [h c]; exact Conn.veil_idem _⟩

theorem Deaf.modify {f : Conn → Conn} (h : ∀ c, (f c.veil).veil = (f c).veil) : Deaf (M.modify f) :=
  fun c => ⟨rfl, h c⟩

theorem Deaf.nextDraw : Deaf nextDraw := .of fun _ => rfl

theorem Deaf.getNc : Deaf getNc := .of fun c => by
  unfold Siotls.getNc
  show (match c.nconfig with | some n => _ | none => _) = _
  cases c.nconfig <;> rfl

theorem Deaf.setNc (f : NConfig → NConfig) : Deaf (setNc f) := .of fun c => by
  rcases c with ⟨g, h, o, n⟩
  unfold Siotls.setNc Conn.veil
  dsimp only
  cases n with
  | none => rfl
  | some n => dsimp only; split <;> rfl

theorem Deaf.getCipher : Deaf getCipher := .of fun c => by
  rcases c with ⟨g, h, o, n, k⟩
  unfold Siotls.getCipher Conn.veil
  cases k <;> rfl

theorem Deaf.digest {E : Env} : Deaf (transcriptDigest E) := .of fun _ => rfl

theorem Deaf.update (d : Bytes) (s : Side) (t : Nat) : Deaf (transcriptUpdate d s t) := .of fun c => by
  unfold transcriptUpdate
  have h : c.veil.transcript = c.transcript := rfl
  rw [h]
  rcases c.transcript.update d s t with ⟨r | b, t'⟩
  · rfl
  · cases b <;> rfl

theorem Deaf.postInit (a : HashAlg) : Deaf (transcriptPostInit a) := .of fun c => by
  unfold transcriptPostInit
  have h : c.veil.transcript = c.transcript := rfl
  rw [h]
  cases c.transcript.postInit a <;> rfl

theorem Deaf.hrr (s : Side) (x : Bytes) : Deaf (transcriptHrr s x) := .of fun c => by
  unfold transcriptHrr
  have h : c.veil.transcript = c.transcript := rfl
  rw [h]
  cases c.transcript.hrrDance s x <;> rfl

theorem Deaf.setConfig {f : Config → Config} (h : ∀ g : Config, f g.veil = (f g).veil) :
    Deaf (setConfig f) := .of fun c => by
  unfold Siotls.setConfig
  have h1 : c.veil.config = c.config.veil := rfl
  rw [h1, h, Config.veil_check]
  cases (f c.config).check <;> rfl

theorem Deaf.skipEarly {E : Env} : Deaf (cipherSkipEarly E) := .of fun c => by
  unfold cipherSkipEarly
  have h : c.veil.cipher = c.cipher := rfl
  rw [h]
  cases c.cipher with
  | none => rfl
  | some k => dsimp only; cases Siotls.skipEarly E k <;> rfl

theorem keyEvents_veil (log log' : List PyStr) (k k' : CipherSt) (t : List Ev) :
    (keyEvents log k k' ++ t).filter (fun e => match e with | .logged _ => false | _ => true) =
    (keyEvents log' k k' ++ t.filter fun e => match e with | .logged _ => false | _ => true).filter
      (fun e => match e with | .logged _ => false | _ => true) := by
  have h : ∀ log : List PyStr, (log.map Ev.logged).filter
      (fun e => match e with | .logged _ => false | _ => true) = [] := by
    intro log
    rw [List.filter_eq_nil_iff]
    intro e he
    obtain ⟨l, -, rfl⟩ := List.mem_map.mp he
    simp
  simp [keyEvents, List.filter_append, h]

theorem Deaf.deriveHandshake {E : Env} (s h : Bytes) : Deaf (cipherDeriveHandshake E s h) := by
  intro c
  unfold cipherDeriveHandshake
  have hc : c.veil.cipher = c.cipher := rfl
  rw [hc]
  cases c.cipher with
  | none => exact ⟨rfl, c.veil_idem⟩
  | some k =>
    dsimp only
    refine ⟨rfl, ?_⟩
    unfold Conn.veil
    simp only [Config.veil_idem, Conn.mk.injEq, true_and, and_true]
    exact (keyEvents_veil _ _ _ _ _).symm

theorem Deaf.deriveMaster {E : Env} (s h : Bytes) : Deaf (cipherDeriveMaster E s h) := by
  intro c
  unfold cipherDeriveMaster
  have hc : c.veil.cipher = c.cipher := rfl
  rw [hc]
  cases c.cipher with
  | none => exact ⟨rfl, c.veil_idem⟩
  | some k =>
    dsimp only
    refine ⟨rfl, ?_⟩
    unfold Conn.veil
    simp only [Config.veil_idem, Conn.mk.injEq, true_and, and_true]
    exact (keyEvents_veil _ _ _ _ _).symm

theorem Deaf.moveTo (s : St) : Deaf (moveTo s) := .of fun _ => rfl

theorem Deaf.ghost {e : Ev} (h : ∀ l, e ≠ .logged l) : Deaf (ghost e) := .of fun c => by
  cases e <;> first | rfl | exact absurd rfl (h _)

variable {E : Env}

theorem Deaf.ite {α} {p : Prop} [Decidable p] {m₁ m₂ : M α} (h₁ : Deaf m₁) (h₂ : Deaf m₂) :
    Deaf (if p then m₁ else m₂) := by
  split
  · exact h₁
  · exact h₂

theorem Deaf.guarded {b : Bool} {m : M Unit} (h : Deaf m) : Deaf (M.guarded b m) := by
  unfold M.guarded
  exact .ite h (.pure' ())

/-! ## Sending -/

theorem deaf_hash (d : Bytes) (s : Side) (x : Content) : Deaf (hashContent d s x) := by
  unfold hashContent
  split
  · exact .update _ _ _
  · exact .throw _
  · exact .pure _

theorem deaf_encrypt (d h : Bytes) : Deaf (cipherEncrypt E d h) := .of fun c => by
  unfold cipherEncrypt
  have h1 : c.veil.cipher = c.cipher := rfl
  rw [h1]
  cases c.cipher with
  | none => rfl
  | some k =>
    dsimp only
    cases k.wr.key with
    | none => rfl
    | some key =>
      dsimp only
      rcases nextNonce k.info k.wr with e | ⟨n, w⟩
      · cases e <;> rfl
      · rfl

theorem deaf_fragment (t : Nat) (f : Bytes) : Deaf (encryptFragment E t f) := by
  unfold encryptFragment
  refine .get (fun c => .bind .getCipher fun k => .bind (.lift _) fun h => .bind (deaf_encrypt _ _) fun e => ?_)
    (fun c => rfl)
  split
  · exact .pure _
  · exact .throw _

theorem deaf_records (e : Bool) (t : Nat) : ∀ fs, Deaf (makeRecords E e t fs)
  | [] => .pure _
  | f :: fs => by
    unfold makeRecords protect
    refine .bind ?_ fun b => .bind (.lift _) fun h => .bind (deaf_records e t fs) fun r => .pure _
    split
    · exact deaf_fragment _ _
    · exact .pure' _

theorem deaf_emit (x : Content) (r : List (Nat × Bytes × Bytes)) : Deaf (emitRecords x r) := by
  refine .modify fun c => ?_
  simp [Conn.veil, Config.veil_idem, List.filter_append]

theorem deaf_send (x : Content) : Deaf (sendContent E x) := by
  unfold sendContent
  refine .get (fun c => ?_) (fun c => rfl)
  refine .ite (.throw _) (.ite (.throw _) (.ite (.throw _) ?_))
  exact .bind (.lift _) fun d => .bind (deaf_hash _ _ _) fun _ => .bind (.lift _) fun fs =>
    .bind (deaf_records _ _ _) fun r => deaf_emit _ _

theorem Deaf.set (n : Conn → Option NConfig) (k : Conn → Option CipherSt) (s : Conn → Option (Nat × Bytes))
    (cu su : Conn → Option Bytes)
    (h : ∀ c : Conn, n c.veil = n c ∧ k c.veil = k c ∧ s c.veil = s c ∧ cu c.veil = cu c ∧ su c.veil = su c) :
    Deaf (M.modify fun c => { c with nconfig := n c, cipher := k c, signature := s c,
                                      clientUnique := cu c, serverUnique := su c }) := by
  refine .modify fun c => ?_
  obtain ⟨h1, h2, h3, h4, h5⟩ := h c
  simp only [h1, h2, h3, h4, h5]
  simp [Conn.veil, Config.veil_idem]

theorem Deaf.setNconfig (n : NConfig) : Deaf (M.modify fun c => { c with nconfig := some n }) :=
  .set (fun _ => some n) (·.cipher) (·.signature) (·.clientUnique) (·.serverUnique)
    fun _ => ⟨rfl, rfl, rfl, rfl, rfl⟩

theorem Deaf.setCipher (k : CipherSt) : Deaf (M.modify fun c => { c with cipher := some k }) :=
  .set (·.nconfig) (fun _ => some k) (·.signature) (·.clientUnique) (·.serverUnique)
    fun _ => ⟨rfl, rfl, rfl, rfl, rfl⟩

theorem Deaf.setClientUnique (r : Bytes) : Deaf (M.modify fun c => { c with clientUnique := some r }) :=
  .set (·.nconfig) (·.cipher) (·.signature) (fun _ => some r) (·.serverUnique)
    fun _ => ⟨rfl, rfl, rfl, rfl, rfl⟩

theorem Deaf.setServerUnique (r : Bytes) : Deaf (M.modify fun c => { c with serverUnique := some r }) :=
  .set (·.nconfig) (·.cipher) (·.signature) (·.clientUnique) (fun _ => some r)
    fun _ => ⟨rfl, rfl, rfl, rfl, rfl⟩

theorem Deaf.setSignature (s : Nat) :
    Deaf (M.modify fun c => { c with signature := some (s, c.config.privateKey.getD []) }) :=
  .set (·.nconfig) (·.cipher) (fun c => some (s, c.config.privateKey.getD [])) (·.clientUnique)
    (·.serverUnique) fun _ => ⟨rfl, rfl, rfl, rfl, rfl⟩

/-! ## The states -/

/-- one structural step -/
macro "deaf1" : tactic => `(tactic| first
  | with_reducible first
    | exact Deaf.pure _ | exact Deaf.pure' _ | exact Deaf.throw _ | exact Deaf.lift _ | exact Deaf.nextDraw
    | exact Deaf.getNc | exact Deaf.setNc _ | exact Deaf.getCipher | exact Deaf.digest
    | exact Deaf.postInit _ | exact Deaf.hrr _ _
    | exact Deaf.skipEarly | exact Deaf.deriveHandshake _ _ | exact Deaf.deriveMaster _ _
    | exact Deaf.setNconfig _ | exact Deaf.setCipher _
    | exact Deaf.setClientUnique _ | exact Deaf.setServerUnique _ | exact Deaf.setSignature _
    | exact Deaf.moveTo _ | exact deaf_send _
    | assumption
    | apply Deaf.guarded
  | (with_reducible refine Deaf.setConfig ?_); (exact fun _ => rfl)
  | (with_reducible refine Deaf.get (fun _ => ?_) ?_); rotate_left; (exact fun _ => rfl)
  | with_reducible refine Deaf.bind ?_ (fun _ => ?_)
  | split)

macro "deaf" : tactic => `(tactic| repeat' deaf1)

theorem deaf_baseProcess (x : Content) : Deaf (baseProcess x) := by
  unfold baseProcess; deaf

theorem deaf_kexInit (g : Nat) : Deaf (kexInit E g) := by
  unfold kexInit; deaf

theorem deaf_clientInitiate (k : Option Bytes) : Deaf (clientInitiate E k) := by
  have h1 : ∀ g, Deaf (kexInit E g) := deaf_kexInit
  unfold clientInitiate
  refine Deaf.get (fun c => ?_) (fun _ => rfl)
  split
  · deaf
  · deaf
  · refine Deaf.ite (.throw _) (Deaf.bind (h1 _) fun p => ?_)
    deaf

theorem deaf_clientProcessHrr (h : Bytes) (exts : List Ext) : Deaf (clientProcessHrr E h exts) := by
  have h1 : ∀ k, Deaf (clientInitiate E k) := deaf_clientInitiate
  unfold clientProcessHrr
  repeat' first | exact h1 _ | deaf1

theorem deaf_clientNegKeyShare (exts : List Ext) (ks : List (Nat × Bytes)) :
    Deaf (clientNegKeyShare E exts ks) := by
  unfold clientNegKeyShare; deaf

theorem deaf_clientNegVersion (exts : List Ext) : Deaf (clientNegVersion exts) := by
  unfold clientNegVersion; deaf

theorem deaf_clientProcessServerHello (ks : List (Nat × Bytes)) (r : Bytes) (exts : List Ext) :
    Deaf (clientProcessServerHello E ks r exts) := by
  unfold clientProcessServerHello
  repeat' first | with_reducible exact deaf_clientNegVersion _ | with_reducible exact deaf_clientNegKeyShare _ _ | deaf1

theorem deaf_clientSetup (f : Bool) (s : Nat) : Deaf (clientSetup E f s) := by
  unfold clientSetup; deaf

theorem deaf_clientWaitSH (f : Bool) (ks : List (Nat × Bytes)) (h : Bytes) (x : Content) :
    Deaf (clientWaitSH E f ks h x) := by
  unfold clientWaitSH
  repeat' first
    | with_reducible exact deaf_clientSetup _ _ | with_reducible exact deaf_clientProcessServerHello _ _ _
    | with_reducible exact deaf_clientProcessHrr _ _ | with_reducible exact deaf_baseProcess _ | deaf1

theorem deaf_clientWaitEE (x : Content) : Deaf (clientWaitEE x) := by
  unfold clientWaitEE clientNegMfl clientNegAlpn clientNegHeartbeat clientNegCct clientNegSct
  repeat' first | with_reducible exact deaf_baseProcess _ | deaf1

theorem deaf_clientVerifyChain (es : List CertEntry) : Deaf (clientVerifyChain E es) := by
  unfold clientVerifyChain; deaf

theorem deaf_clientVerifyRevocation (es : List CertEntry) : Deaf (clientVerifyRevocation es) := by
  unfold clientVerifyRevocation; deaf

theorem deaf_clientVerifyStatus (e i : CertEntry) : Deaf (clientVerifyStatus E e i) := by
  unfold clientVerifyStatus; deaf

theorem deaf_clientVerifyStatuses : ∀ es : List CertEntry, Deaf (clientVerifyStatuses E es)
  | [] => .pure ()
  | [_] => .pure ()
  | e :: i :: rest => by
    unfold clientVerifyStatuses
    exact Deaf.bind (deaf_clientVerifyStatus _ _) fun _ => deaf_clientVerifyStatuses (i :: rest)

theorem deaf_clientProcessEntries (t : Option Nat) (es : List CertEntry) :
    Deaf (clientProcessEntries E t es) := by
  unfold clientProcessEntries clientProcessX509 clientProcessRaw
  repeat' first
    | with_reducible exact deaf_clientVerifyChain _ | with_reducible exact deaf_clientVerifyRevocation _
    | with_reducible exact deaf_clientVerifyStatuses _ | deaf1

theorem deaf_clientWaitCert (m : Bool) (x : Content) : Deaf (clientWaitCert E m x) := by
  unfold clientWaitCert
  repeat' first | with_reducible exact deaf_clientProcessEntries _ _ | with_reducible exact deaf_baseProcess _ | deaf1

theorem deaf_clientWaitCertCr (x : Content) : Deaf (clientWaitCertCr E x) := by
  unfold clientWaitCertCr
  repeat' first | with_reducible exact deaf_clientWaitCert _ _ | with_reducible exact deaf_baseProcess _ | deaf1

theorem deaf_clientWaitCV (m : Bool) (h : Bytes) (x : Content) : Deaf (clientWaitCV E m h x) := by
  unfold clientWaitCV
  repeat' first | with_reducible exact deaf_baseProcess _ | deaf1

theorem deaf_clientWaitFin (m : Bool) (h : Bytes) (x : Content) : Deaf (clientWaitFin E m h x) := by
  unfold clientWaitFin
  repeat' first | with_reducible exact deaf_baseProcess _ | deaf1

theorem deaf_serverCheckHello (f : Bool) (r : Bytes) (s : List Nat) : Deaf (serverCheckHello f r s) := by
  unfold serverCheckHello serverSetup serverCheckSecond; deaf

theorem deaf_serverNegotiate (exts : List Ext) : Deaf (serverNegotiate E exts) := by
  unfold serverNegotiate serverNegVersions serverNegGroups serverNegSignature serverNegKeyShare
    serverNegCct serverNegSct serverNegMfl serverNegAlpn serverNegHeartbeat serverNegStatus
  dsimp only
  deaf

theorem deaf_serverSendHrr (f : Bool) (sid : Bytes) (cl : List Ext) : Deaf (serverSendHrr E f sid cl) := by
  unfold serverSendHrr; deaf

theorem deaf_serverFlight (f : Bool) (sid : Bytes) (cl enc : List Ext) (sh : Bytes) :
    Deaf (serverFlight E f sid cl enc sh) := by
  unfold serverFlight serverSendHello serverRequestCert serverSendCertificate serverCertEntries
    serverStaple serverSendFinished
  deaf

theorem deaf_serverWaitCH (f : Bool) (x : Content) : Deaf (serverWaitCH E f x) := by
  unfold serverWaitCH
  repeat' first
    | with_reducible exact deaf_serverCheckHello _ _ _ | with_reducible exact deaf_serverNegotiate _
    | with_reducible exact deaf_serverSendHrr _ _ _ | with_reducible exact deaf_serverFlight _ _ _ _ _
    | with_reducible exact deaf_baseProcess _ | deaf1

theorem deaf_serverWaitFin (h : Bytes) (x : Content) : Deaf (serverWaitFin E h x) := by
  unfold serverWaitFin
  repeat' first | with_reducible exact deaf_baseProcess _ | deaf1

theorem deaf_connectedProcess (x : Content) : Deaf (connectedProcess x) := by
  unfold connectedProcess
  split
  · refine .modify fun c => ?_
    simp [Conn.veil, Config.veil_idem]
  · exact deaf_baseProcess _

theorem deaf_process (x : Content) : Deaf (process E x) := by
  intro c
  unfold process
  have h : c.veil.state = c.state := rfl
  rw [h]
  cases c.state with
  | clientStart => exact deaf_baseProcess _ _
  | clientWaitSH => exact deaf_clientWaitSH _ _ _ _ _
  | clientWaitEE => exact deaf_clientWaitEE _ _
  | clientWaitCertCr => exact deaf_clientWaitCertCr _ _
  | clientWaitCert => exact deaf_clientWaitCert _ _ _
  | clientWaitCV => exact deaf_clientWaitCV _ _ _ _
  | clientWaitFin => exact deaf_clientWaitFin _ _ _ _
  | serverStart => exact deaf_baseProcess _ _
  | serverWaitCH => exact deaf_serverWaitCH _ _ _
  | serverWaitFin => exact deaf_serverWaitFin _ _ _
  | connected => exact deaf_connectedProcess _ _
  | closed r s =>
    cases r
    · exact ⟨rfl, c.veil_idem⟩
    · exact deaf_connectedProcess _ _
  | failed => exact ⟨rfl, c.veil_idem⟩

/-! ## Receiving -/

/-- a method that does the same to a veiled connection -/
def Strict {α} (m : M α) : Prop := ∀ c, m c.veil = ((m c).1, (m c).2.veil)

theorem strict_decrypt (h f : Bytes) : Strict (decryptRecord E h f) := fun c => by
  unfold decryptRecord
  have h1 : c.veil.cipher = c.cipher := rfl
  rw [h1]
  cases c.cipher with
  | none => rfl
  | some k =>
    dsimp only
    cases k.rd.key with
    | none => rfl
    | some key =>
      dsimp only
      rcases nextNonce k.info k.rd with e | ⟨n, w⟩
      · rfl
      · dsimp only
        cases E.aeadOpen k.info.id key n h f with
        | none => rfl
        | some inner => dsimp only; cases stripPadding inner <;> rfl

theorem strict_record : Strict (readNextRecord E) := fun c => by
  unfold readNextRecord
  have h1 : ({ c.veil with inputData := skipCcs c.veil.inputData } : Conn) =
      Conn.veil { c with inputData := skipCcs c.inputData } := rfl
  rw [h1]
  generalize ({ c with inputData := skipCcs c.inputData } : Conn) = c
  dsimp only
  have h2 : c.veil.inputData = c.inputData := rfl
  have h3 : c.veil.mfl = c.mfl := rfl
  have h4 : c.veil.mustDecrypt = c.mustDecrypt := rfl
  rw [h2, h3, h4]
  split
  · rename_i t v1 v2 l1 l2 rest _
    by_cases ha : beDec [l1, l2] > c.mfl + (if c.mustDecrypt then 256 else 0)
    · simp only [if_pos ha]
    simp only [if_neg ha]
    by_cases hb : rest.length < beDec [l1, l2]
    · simp only [if_pos hb]
    simp only [if_neg hb]
    have h5 : ({ c.veil with inputData := rest.drop (beDec [l1, l2]) } : Conn) =
      Conn.veil { c with inputData := rest.drop (beDec [l1, l2]) } := rfl
    rw [h5]
    have h6 : (Conn.veil { c with inputData := rest.drop (beDec [l1, l2]) }).mustDecrypt = c.mustDecrypt := rfl
    have h7 : (Conn.mustDecrypt { c with inputData := rest.drop (beDec [l1, l2]) }) = c.mustDecrypt := rfl
    rw [h6, h7]
    cases c.mustDecrypt with
    | true =>
      simp only [if_true]
      rw [strict_decrypt]
      rcases decryptRecord E [t, v1, v2, l1, l2] (rest.take (beDec [l1, l2]))
        { c with inputData := rest.drop (beDec [l1, l2]) } with ⟨e | ⟨x, y⟩, d⟩
      · rfl
      · dsimp only; split <;> rfl
    | false =>
      simp only [Bool.false_eq_true, if_false]
      split <;> rfl
  · rfl

theorem strict_finish : Strict finishHandshake := fun c => by
  unfold finishHandshake
  have h : c.veil.inputHandshake = c.inputHandshake := rfl
  rw [h]
  split <;> rfl

theorem strict_complete : ∀ n, Strict (completeHandshake E n)
  | 0 => fun c => by
    unfold completeHandshake
    have h : c.veil.inputHandshake = c.inputHandshake := rfl
    rw [h]
    split
    · rfl
    · exact strict_finish c
  | n + 1 => fun c => by
    unfold completeHandshake
    have h : c.veil.inputHandshake = c.inputHandshake := rfl
    rw [h]
    split
    · rw [strict_record]
      rcases readNextRecord E c with ⟨e | _ | ⟨t, f⟩, d⟩
      · rfl
      · rfl
      · dsimp only
        split
        · rfl
        · exact strict_complete n { d with inputHandshake := d.inputHandshake ++ f }
    · exact strict_finish c

theorem strict_content : Strict (readNextContent E) := fun c => by
  unfold readNextContent
  rw [strict_record]
  rcases readNextRecord E c with ⟨e | _ | ⟨t, f⟩, d⟩
  · rfl
  · rfl
  · dsimp only
    have h : d.veil.inputHandshake = d.inputHandshake := rfl
    rw [h]
    split
    · rfl
    split
    · rfl
    split
    · rfl
    · exact strict_complete _ { d with inputHandshake := d.inputHandshake ++ f }

theorem deaf_step : Deaf (receiveStep E) := by
  unfold receiveStep
  refine .bind (.of strict_content) fun next => ?_
  split
  · exact .pure _
  · refine .get (fun c => ?_) (fun c => rfl)
    exact .bind (.lift _) fun x => .bind (deaf_hash _ _ _) fun _ => .bind (.ghost (by simp)) fun _ =>
      .bind (deaf_process _) fun _ => .pure _

theorem deaf_fail (d : Nat) : Deaf (failWith E d) := by
  unfold failWith
  exact .bind (deaf_send _) fun _ => .moveTo _

theorem deaf_loop : ∀ n, Deaf (receiveLoop E n)
  | 0 => .throw _
  | n + 1 => fun c => by
    have h := deaf_step (E := E) c
    unfold receiveLoop
    generalize receiveStep E c = x at h ⊢
    generalize receiveStep E c.veil = x' at h ⊢
    rcases x with ⟨r, d⟩
    rcases x' with ⟨r', d'⟩
    obtain ⟨rfl, h⟩ := h
    dsimp only at h
    rcases r' with e | _ | _
    · dsimp only
      have h' := (deaf_fail (E := E) (alertFor e)).congr h
      generalize failWith E (alertFor e) d = y at h' ⊢
      generalize failWith E (alertFor e) d' = y' at h' ⊢
      rcases y with ⟨r, x⟩
      rcases y' with ⟨r', x'⟩
      obtain ⟨rfl, h'⟩ := h'
      cases r' <;> exact ⟨rfl, h'⟩
    · exact ⟨rfl, h⟩
    · exact (deaf_loop n).congr h

theorem deaf_rekey : Deaf rekey := .of fun c => by
  unfold rekey
  have h : c.veil.state = c.state := rfl
  rw [h]
  split <;> rfl

theorem shouldRekey_veil {c d : Conn} (h : c.veil = d.veil) : shouldRekey c = shouldRekey d := by
  have h1 : c.veil.cipher = d.veil.cipher := by rw [h]
  change c.cipher = d.cipher at h1
  unfold shouldRekey
  rw [h1]

/-- what `receive_data` does after its loop -/
def recvTail : M Unit := fun c =>
  match shouldRekey c with
  | .error e => (.error e, c)
  | .ok true => rekey c
  | .ok false => (.ok (), c)

theorem deaf_tail : Deaf recvTail := fun c => by
  unfold recvTail
  rw [shouldRekey_veil c.veil_idem]
  rcases shouldRekey c with e | _ | _
  · exact ⟨rfl, c.veil_idem⟩
  · exact ⟨rfl, c.veil_idem⟩
  · exact deaf_rekey c

theorem receiveData_tail {x : Bytes} {c : Conn} (h1 : x.isEmpty = false) (h2 : c.state.canReceive ≠ false) :
    receiveData E x c = (receiveLoop E ((c.inputData ++ x).length + 1) >>= fun _ => recvTail)
      { c with inputData := c.inputData ++ x } := by
  unfold receiveData
  rw [if_neg (by simp [h1]), if_neg h2]
  show _ = M.bind _ _ _
  unfold M.bind recvTail
  dsimp only
  rcases receiveLoop E ((c.inputData ++ x).length + 1) { c with inputData := c.inputData ++ x } with ⟨_ | _, d⟩
  · rfl
  · rfl

theorem deaf_receive (x : Bytes) : Deaf (receiveData E x) := fun c => by
  cases h1 : x.isEmpty with
  | true =>
    unfold receiveData
    rw [if_pos h1, if_pos h1]
    exact ⟨rfl, c.veil_idem⟩
  | false =>
    by_cases h2 : c.state.canReceive = false
    · have h3 : c.veil.state.canReceive = false := h2
      simp only [receiveData, h1, h2, h3, Bool.false_eq_true, if_false, if_true]
      exact ⟨trivial, c.veil_idem⟩
    · have h3 : c.veil.state.canReceive ≠ false := h2
      rw [receiveData_tail h1 h2, receiveData_tail h1 h3]
      exact ((deaf_loop _).bind fun _ => deaf_tail).congr (Conn.veil_idem { c with inputData := c.inputData ++ x })

theorem deaf_closeRecv : Deaf closeReceivingEnd := .of fun c => by
  unfold closeReceivingEnd
  have h : c.veil.state = c.state := rfl
  rw [h]
  cases c.state <;> rfl

theorem deaf_closeSend : Deaf (closeSendingEnd E) := by
  unfold closeSendingEnd
  refine .bind (.of fun c => rfl) fun _ => .get (fun c => ?_) (fun _ => rfl)
  split
  · refine .bind (deaf_send _) fun _ => .of fun c => rfl
  · exact .pure _

theorem deaf_initiate : Deaf (initiate E) := fun c => by
  unfold initiate
  have h : c.veil.state = c.state := rfl
  rw [h]
  cases c.state with
  | clientStart k => exact deaf_clientInitiate k c
  | serverStart => exact Deaf.moveTo _ c
  | _ => exact ⟨rfl, c.veil_idem⟩

/-- Every method of the API is deaf. -/
theorem deaf_run : ∀ o : Op, Deaf (o.run E)
  | .initiate => .bind deaf_initiate fun _ => .pure _
  | .receive d => .bind (deaf_receive d) fun _ => .pure _
  | .send d => .bind (deaf_send _) fun _ => .pure _
  | .read => .of fun _ => rfl
  | .drain => .of fun _ => rfl
  | .closeRecv => .bind deaf_closeRecv fun _ => .pure _
  | .closeSend => .bind deaf_closeSend fun _ => .pure _
  | .rekey => .bind deaf_rekey fun _ => .pure _

theorem runOps_veil : ∀ (ops : List Op) {c d : Conn}, c.veil = d.veil →
    (runOps E ops c).veil = (runOps E ops d).veil
  | [], _, _, h => h
  | o :: os, _, _, h => runOps_veil os ((deaf_run (E := E) o).congr h).2

end Siotls
