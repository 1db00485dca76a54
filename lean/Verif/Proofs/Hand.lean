import Verif.Proofs.Mute
import Verif.Proofs.CertInv
/-!
# What the private key is for

`Conn.swap w` replaces the private key of a connection by its image under `w`. A method is `Heedless` when
replacing it beforehand is the same as replacing it afterwards; all are, when `w` does not change the
signatures of CertificateVerify messages.
-/

namespace Siotls

def Config.swap (w : Bytes → Bytes) (g : Config) : Config := { g with privateKey := g.privateKey.map w }

/-- a connection with another private key -/
def Conn.swap (w : Bytes → Bytes) (c : Conn) : Conn :=
  { c with config := c.config.swap w, signature := c.signature.map fun p => (p.1, w p.2) }

variable {w : Bytes → Bytes}

theorem Config.swap_check (g : Config) : (g.swap w).check = g.check := by
  have h1 : (g.swap w).checkMandatory = g.checkMandatory := rfl
  have h3 : (g.swap w).side = g.side := rfl
  have h4 : (g.swap w).checkClient = g.checkClient := rfl
  have h2 : (g.swap w).checkServer = g.checkServer := by
    unfold Config.checkServer
    have h5 : (g.swap w).privateKey.isNone = g.privateKey.isNone := by
      show (g.privateKey.map w).isNone = _
      cases g.privateKey <;> rfl
    have h6 : (g.swap w).maxFragmentLength = g.maxFragmentLength := rfl
    have h7 : (g.swap w).hasChain = g.hasChain := rfl
    have h8 : (g.swap w).publicKey = g.publicKey := rfl
    rw [h5, h6, h7, h8]
  unfold Config.check
  rw [h1, h2, h3, h4]

/-- The two keys make the same CertificateVerify messages. -/
structure SameHand (E : Env) (w : Bytes → Bytes) : Prop where
  none : w [] = []
  sign : ∀ s p h d, E.sign s (w p) (signedContent h) d = E.sign s p (signedContent h) d

def Heedless (w : Bytes → Bytes) {α} (m : M α) : Prop := ∀ c : Conn, m (c.swap w) = ((m c).1, (m c).2.swap w)

theorem Heedless.pure {α} (a : α) : Heedless w (Pure.pure a : M α) := fun _ => rfl
theorem Heedless.pure' {α} (a : α) : Heedless w (M.pure a : M α) := fun _ => rfl
theorem Heedless.throw {α} (e : Exn) : Heedless w (M.throw e : M α) := fun _ => rfl
theorem Heedless.lift {α} (r : Except Exn α) : Heedless w (M.lift r) := fun _ => rfl

theorem Heedless.bind {α β} {m : M α} {g : α → M β} (h : Heedless w m) (hg : ∀ a, Heedless w (g a)) :
    Heedless w (m >>= g) := by
  intro c
  show M.bind m g (c.swap w) = ((M.bind m g c).1, (M.bind m g c).2.swap w)
  unfold M.bind
  rw [h c]
  rcases m c with ⟨e | a, d⟩
  · rfl
  · exact hg a d

theorem Heedless.get {β} {g : Conn → M β} (h : ∀ c, Heedless w (g c)) (hg : ∀ c : Conn, g (c.swap w) = g c) :
    Heedless w (M.get >>= g) := by
  intro c
  show g (c.swap w) (c.swap w) = ((g c c).1, (g c c).2.swap w)
  rw [hg c]
  exact h c c

theorem Heedless.modify {f : Conn → Conn} (h : ∀ c : Conn, f (c.swap w) = (f c).swap w) :
    Heedless w (M.modify f) := fun c => by
  show (Except.ok (), f (c.swap w)) = _
  rw [h]
  rfl

theorem Heedless.nextDraw : Heedless w nextDraw := fun _ => rfl

theorem Heedless.getNc : Heedless w getNc := fun c => by
  unfold Siotls.getNc
  show (match c.nconfig with | some n => _ | none => _) = _
  cases c.nconfig <;> rfl

theorem Heedless.setNc (f : NConfig → NConfig) : Heedless w (setNc f) := fun c => by
  rcases c with ⟨g, h, o, n⟩
  unfold Siotls.setNc Conn.swap
  dsimp only
  cases n with
  | none => rfl
  | some n => dsimp only; split <;> rfl

theorem Heedless.getCipher : Heedless w getCipher := fun c => by
  rcases c with ⟨g, h, o, n, k⟩
  unfold Siotls.getCipher Conn.swap
  cases k <;> rfl

theorem Heedless.digest {E : Env} : Heedless w (transcriptDigest E) := fun _ => rfl

theorem Heedless.update (d : Bytes) (s : Side) (t : Nat) : Heedless w (transcriptUpdate d s t) := fun c => by
  unfold transcriptUpdate
  have h : (c.swap w).transcript = c.transcript := rfl
  rw [h]
  rcases c.transcript.update d s t with ⟨r | b, t'⟩
  · rfl
  · cases b <;> rfl

theorem Heedless.postInit (a : HashAlg) : Heedless w (transcriptPostInit a) := fun c => by
  unfold transcriptPostInit
  have h : (c.swap w).transcript = c.transcript := rfl
  rw [h]
  cases c.transcript.postInit a <;> rfl

theorem Heedless.hrr (s : Side) (x : Bytes) : Heedless w (transcriptHrr s x) := fun c => by
  unfold transcriptHrr
  have h : (c.swap w).transcript = c.transcript := rfl
  rw [h]
  cases c.transcript.hrrDance s x <;> rfl

theorem Heedless.setConfig {f : Config → Config} (h : ∀ g : Config, f (g.swap w) = (f g).swap w) :
    Heedless w (setConfig f) := fun c => by
  unfold Siotls.setConfig
  have h1 : (c.swap w).config = c.config.swap w := rfl
  rw [h1, h, Config.swap_check]
  cases (f c.config).check <;> rfl

theorem Heedless.skipEarly {E : Env} : Heedless w (cipherSkipEarly E) := fun c => by
  unfold cipherSkipEarly
  have h : (c.swap w).cipher = c.cipher := rfl
  rw [h]
  cases c.cipher with
  | none => rfl
  | some k => dsimp only; cases Siotls.skipEarly E k <;> rfl

theorem Heedless.deriveHandshake {E : Env} (s h : Bytes) : Heedless w (cipherDeriveHandshake E s h) := fun c => by
  unfold cipherDeriveHandshake
  have hc : (c.swap w).cipher = c.cipher := rfl
  rw [hc]
  cases c.cipher <;> rfl

theorem Heedless.deriveMaster {E : Env} (s h : Bytes) : Heedless w (cipherDeriveMaster E s h) := fun c => by
  unfold cipherDeriveMaster
  have hc : (c.swap w).cipher = c.cipher := rfl
  rw [hc]
  cases c.cipher <;> rfl

theorem Heedless.moveTo (s : St) : Heedless w (moveTo s) := fun _ => rfl

theorem Heedless.ghost {e : Ev} : Heedless w (ghost e) := fun c => by
  rfl

variable {E : Env}

theorem Heedless.ite {α} {p : Prop} [Decidable p] {m₁ m₂ : M α} (h₁ : Heedless w m₁) (h₂ : Heedless w m₂) :
    Heedless w (if p then m₁ else m₂) := by
  split
  · exact h₁
  · exact h₂

theorem Heedless.guarded {p : Bool} {m : M Unit} (h : Heedless w m) : Heedless w (M.guarded p m) := by
  unfold M.guarded
  exact .ite h (.pure' ())

/-! ## Sending -/

theorem heedless_hash (d : Bytes) (s : Side) (x : Content) : Heedless w (hashContent d s x) := by
  unfold hashContent
  split
  · exact .update _ _ _
  · exact .throw _
  · exact .pure _

theorem heedless_encrypt (d h : Bytes) : Heedless w (cipherEncrypt E d h) := fun c => by
  unfold cipherEncrypt
  have h1 : (c.swap w).cipher = c.cipher := rfl
  rw [h1]
  cases c.cipher with
  | none => rfl
  | some k =>
    dsimp only
    cases k.wr.key with
    | none => rfl
    | some key =>
      dsimp only
      rcases nextNonce k.info k.wr with e | ⟨n, w⟩
      · cases e <;> rfl
      · rfl

theorem heedless_fragment (t : Nat) (f : Bytes) : Heedless w (encryptFragment E t f) := by
  unfold encryptFragment
  refine .get (fun c => .bind .getCipher fun k => .bind (.lift _) fun h => .bind (heedless_encrypt _ _) fun e => ?_)
    (fun c => rfl)
  split
  · exact .pure _
  · exact .throw _

theorem heedless_records (e : Bool) (t : Nat) : ∀ fs, Heedless w (makeRecords E e t fs)
  | [] => .pure _
  | f :: fs => by
    unfold makeRecords protect
    refine .bind ?_ fun b => .bind (.lift _) fun h => .bind (heedless_records e t fs) fun r => .pure _
    split
    · exact heedless_fragment _ _
    · exact .pure' _

theorem heedless_emit (x : Content) (r : List (Nat × Bytes × Bytes)) : Heedless w (emitRecords x r) := by
  exact .modify fun _ => rfl

theorem heedless_send (x : Content) : Heedless w (sendContent E x) := by
  unfold sendContent
  refine .get (fun c => ?_) (fun c => rfl)
  refine .ite (.throw _) (.ite (.throw _) (.ite (.throw _) ?_))
  exact .bind (.lift _) fun d => .bind (heedless_hash _ _ _) fun _ => .bind (.lift _) fun fs =>
    .bind (heedless_records _ _ _) fun r => heedless_emit _ _

theorem Heedless.setNconfig (n : NConfig) : Heedless w (M.modify fun c => { c with nconfig := some n }) :=
  .modify fun _ => rfl

theorem Heedless.setCipher (k : CipherSt) : Heedless w (M.modify fun c => { c with cipher := some k }) :=
  .modify fun _ => rfl

theorem Heedless.setClientUnique (r : Bytes) :
    Heedless w (M.modify fun c => { c with clientUnique := some r }) := .modify fun _ => rfl

theorem Heedless.setServerUnique (r : Bytes) :
    Heedless w (M.modify fun c => { c with serverUnique := some r }) := .modify fun _ => rfl

theorem Heedless.setSignature (H : SameHand E w) (s : Nat) :
    Heedless w (M.modify fun c => { c with signature := some (s, c.config.privateKey.getD []) }) :=
  .modify fun c => by
    have h : (c.config.privateKey.map w).getD [] = w (c.config.privateKey.getD []) := by
      cases c.config.privateKey
      · exact H.none.symm
      · rfl
    show ({ c.swap w with signature := some (s, (c.config.privateKey.map w).getD []) } : Conn) = _
    rw [h]
    rfl

/-! ## The states -/

/-- one structural step -/
macro "heedless1" : tactic => `(tactic| first
  | with_reducible first
    | exact Heedless.pure _ | exact Heedless.pure' _ | exact Heedless.throw _ | exact Heedless.lift _ | exact Heedless.nextDraw
    | exact Heedless.getNc | exact Heedless.setNc _ | exact Heedless.getCipher | exact Heedless.digest
    | exact Heedless.postInit _ | exact Heedless.hrr _ _
    | exact Heedless.skipEarly | exact Heedless.deriveHandshake _ _ | exact Heedless.deriveMaster _ _
    | exact Heedless.setNconfig _ | exact Heedless.setCipher _
    | exact Heedless.setClientUnique _ | exact Heedless.setServerUnique _ | exact Heedless.setSignature ‹_› _
    | exact Heedless.moveTo _ | exact heedless_send _
    | assumption
    | apply Heedless.guarded
  | (with_reducible refine Heedless.setConfig ?_); (exact fun _ => rfl)
  | (with_reducible refine Heedless.get (fun _ => ?_) ?_); rotate_left; (exact fun _ => rfl)
  | with_reducible refine Heedless.bind ?_ (fun _ => ?_)
  | split)

macro "heedless" : tactic => `(tactic| repeat' heedless1)

theorem heedless_baseProcess (x : Content) : Heedless w (baseProcess x) := by
  unfold baseProcess; heedless

theorem heedless_kexInit (g : Nat) : Heedless w (kexInit E g) := by
  unfold kexInit; heedless

theorem heedless_clientInitiate (k : Option Bytes) : Heedless w (clientInitiate E k) := by
  have h1 : ∀ g, Heedless w (kexInit E g) := heedless_kexInit
  unfold clientInitiate
  refine Heedless.get (fun c => ?_) (fun _ => rfl)
  split
  · heedless
  · heedless
  · refine Heedless.ite (.throw _) (Heedless.bind (h1 _) fun p => ?_)
    heedless

theorem heedless_clientProcessHrr (h : Bytes) (exts : List Ext) : Heedless w (clientProcessHrr E h exts) := by
  have h1 : ∀ k, Heedless w (clientInitiate E k) := heedless_clientInitiate
  unfold clientProcessHrr
  repeat' first | exact h1 _ | heedless1

theorem heedless_clientNegKeyShare (exts : List Ext) (ks : List (Nat × Bytes)) :
    Heedless w (clientNegKeyShare E exts ks) := by
  unfold clientNegKeyShare; heedless

theorem heedless_clientNegVersion (exts : List Ext) : Heedless w (clientNegVersion exts) := by
  unfold clientNegVersion; heedless

theorem heedless_clientProcessServerHello (ks : List (Nat × Bytes)) (r : Bytes) (exts : List Ext) :
    Heedless w (clientProcessServerHello E ks r exts) := by
  unfold clientProcessServerHello
  repeat' first | with_reducible exact heedless_clientNegVersion _ | with_reducible exact heedless_clientNegKeyShare _ _ | heedless1

theorem heedless_clientSetup (f : Bool) (s : Nat) : Heedless w (clientSetup E f s) := by
  unfold clientSetup; heedless

theorem heedless_clientWaitSH (f : Bool) (ks : List (Nat × Bytes)) (h : Bytes) (x : Content) :
    Heedless w (clientWaitSH E f ks h x) := by
  unfold clientWaitSH
  repeat' first
    | with_reducible exact heedless_clientSetup _ _ | with_reducible exact heedless_clientProcessServerHello _ _ _
    | with_reducible exact heedless_clientProcessHrr _ _ | with_reducible exact heedless_baseProcess _ | heedless1

theorem heedless_clientWaitEE (x : Content) : Heedless w (clientWaitEE x) := by
  unfold clientWaitEE clientNegMfl clientNegAlpn clientNegHeartbeat clientNegCct clientNegSct
  repeat' first | with_reducible exact heedless_baseProcess _ | heedless1

theorem heedless_clientVerifyChain (es : List CertEntry) : Heedless w (clientVerifyChain E es) := by
  unfold clientVerifyChain; heedless

theorem heedless_clientVerifyRevocation (es : List CertEntry) : Heedless w (clientVerifyRevocation es) := by
  unfold clientVerifyRevocation; heedless

theorem heedless_clientVerifyStatus (e i : CertEntry) : Heedless w (clientVerifyStatus E e i) := by
  unfold clientVerifyStatus; heedless

theorem heedless_clientVerifyStatuses : ∀ es : List CertEntry, Heedless w (clientVerifyStatuses E es)
  | [] => .pure ()
  | [_] => .pure ()
  | e :: i :: rest => by
    unfold clientVerifyStatuses
    exact Heedless.bind (heedless_clientVerifyStatus _ _) fun _ => heedless_clientVerifyStatuses (i :: rest)

theorem heedless_clientProcessEntries (t : Option Nat) (es : List CertEntry) :
    Heedless w (clientProcessEntries E t es) := by
  unfold clientProcessEntries clientProcessX509 clientProcessRaw
  repeat' first
    | with_reducible exact heedless_clientVerifyChain _ | with_reducible exact heedless_clientVerifyRevocation _
    | with_reducible exact heedless_clientVerifyStatuses _ | heedless1

theorem heedless_clientWaitCert (m : Bool) (x : Content) : Heedless w (clientWaitCert E m x) := by
  unfold clientWaitCert
  repeat' first | with_reducible exact heedless_clientProcessEntries _ _ | with_reducible exact heedless_baseProcess _ | heedless1

theorem heedless_clientWaitCertCr (x : Content) : Heedless w (clientWaitCertCr E x) := by
  unfold clientWaitCertCr
  repeat' first | with_reducible exact heedless_clientWaitCert _ _ | with_reducible exact heedless_baseProcess _ | heedless1

theorem heedless_clientWaitCV (m : Bool) (h : Bytes) (x : Content) : Heedless w (clientWaitCV E m h x) := by
  unfold clientWaitCV
  repeat' first | with_reducible exact heedless_baseProcess _ | heedless1

theorem heedless_clientWaitFin (m : Bool) (h : Bytes) (x : Content) : Heedless w (clientWaitFin E m h x) := by
  unfold clientWaitFin
  repeat' first | with_reducible exact heedless_baseProcess _ | heedless1

theorem heedless_serverCheckHello (f : Bool) (r : Bytes) (s : List Nat) : Heedless w (serverCheckHello f r s) := by
  unfold serverCheckHello serverSetup serverCheckSecond; heedless

theorem heedless_serverNegotiate (H : SameHand E w) (exts : List Ext) : Heedless w (serverNegotiate E exts) := by
  unfold serverNegotiate serverNegVersions serverNegGroups serverNegSignature serverNegKeyShare
    serverNegCct serverNegSct serverNegMfl serverNegAlpn serverNegHeartbeat serverNegStatus
  dsimp only
  heedless

theorem heedless_serverSendHrr (f : Bool) (sid : Bytes) (cl : List Ext) : Heedless w (serverSendHrr E f sid cl) := by
  unfold serverSendHrr
  refine .ite (.throw _) (.bind (.moveTo _) fun _ => .bind .getCipher fun k => .bind .getNc fun nc =>
    .get (fun c => ?_) (fun c => ?_))
  · heedless
  · have hs : (c.swap w).signature = c.signature.map fun p => (p.1, w p.2) := rfl
    rw [hs]
    rcases c.signature with _ | ⟨_, _⟩ <;> rfl

theorem heedless_serverCertEntries : Heedless w (serverCertEntries E) := by
  unfold serverCertEntries serverStaple; heedless

theorem heedless_serverSendCertificate (H : SameHand E w) : Heedless w (serverSendCertificate E) := by
  unfold serverSendCertificate
  refine .bind heedless_serverCertEntries fun es => .bind (heedless_send _) fun _ =>
    .get (fun c => ?_) (fun c => ?_)
  · heedless
  · have hs : (c.swap w).signature = c.signature.map fun p => (p.1, w p.2) := rfl
    rw [hs]
    rcases c.signature with _ | ⟨s, p⟩
    · rfl
    · simp only [Option.map_some, signedContent_eq, H.sign]

theorem heedless_serverFlight (H : SameHand E w) (f : Bool) (sid : Bytes) (cl enc : List Ext) (sh : Bytes) :
    Heedless w (serverFlight E f sid cl enc sh) := by
  unfold serverFlight serverSendHello serverRequestCert serverSendFinished
  repeat' first | with_reducible exact heedless_serverSendCertificate H | heedless1

theorem heedless_serverWaitCH (H : SameHand E w) (f : Bool) (x : Content) : Heedless w (serverWaitCH E f x) := by
  unfold serverWaitCH
  repeat' first
    | with_reducible exact heedless_serverCheckHello _ _ _ | with_reducible exact heedless_serverNegotiate H _
    | with_reducible exact heedless_serverSendHrr _ _ _ | with_reducible exact heedless_serverFlight H _ _ _ _ _
    | with_reducible exact heedless_baseProcess _ | heedless1

theorem heedless_serverWaitFin (h : Bytes) (x : Content) : Heedless w (serverWaitFin E h x) := by
  unfold serverWaitFin
  repeat' first | with_reducible exact heedless_baseProcess _ | heedless1

theorem heedless_connectedProcess (x : Content) : Heedless w (connectedProcess x) := by
  unfold connectedProcess
  split
  · exact .modify fun _ => rfl
  · exact heedless_baseProcess _

theorem heedless_process (H : SameHand E w) (x : Content) : Heedless w (process E x) := by
  intro c
  unfold process
  have h : (c.swap w).state = c.state := rfl
  rw [h]
  cases c.state with
  | clientStart => exact heedless_baseProcess _ _
  | clientWaitSH => exact heedless_clientWaitSH _ _ _ _ _
  | clientWaitEE => exact heedless_clientWaitEE _ _
  | clientWaitCertCr => exact heedless_clientWaitCertCr _ _
  | clientWaitCert => exact heedless_clientWaitCert _ _ _
  | clientWaitCV => exact heedless_clientWaitCV _ _ _ _
  | clientWaitFin => exact heedless_clientWaitFin _ _ _ _
  | serverStart => exact heedless_baseProcess _ _
  | serverWaitCH => exact heedless_serverWaitCH H _ _ _
  | serverWaitFin => exact heedless_serverWaitFin _ _ _
  | connected => exact heedless_connectedProcess _ _
  | closed r s =>
    cases r
    · rfl
    · exact heedless_connectedProcess _ _
  | failed => rfl

/-! ## Receiving -/

theorem heedless_decrypt (h f : Bytes) : Heedless w (decryptRecord E h f) := fun c => by
  unfold decryptRecord
  have h1 : (c.swap w).cipher = c.cipher := rfl
  rw [h1]
  cases c.cipher with
  | none => rfl
  | some k =>
    dsimp only
    cases k.rd.key with
    | none => rfl
    | some key =>
      dsimp only
      rcases nextNonce k.info k.rd with e | ⟨n, w⟩
      · rfl
      · dsimp only
        cases E.aeadOpen k.info.id key n h f with
        | none => rfl
        | some inner => dsimp only; cases stripPadding inner <;> rfl

theorem heedless_record : Heedless w (readNextRecord E) := fun c => by
  unfold readNextRecord
  have h1 : ({ (c.swap w) with inputData := skipCcs (c.swap w).inputData } : Conn) =
      Conn.swap w { c with inputData := skipCcs c.inputData } := rfl
  rw [h1]
  generalize ({ c with inputData := skipCcs c.inputData } : Conn) = c
  dsimp only
  have h2 : (c.swap w).inputData = c.inputData := rfl
  have h3 : (c.swap w).mfl = c.mfl := rfl
  have h4 : (c.swap w).mustDecrypt = c.mustDecrypt := rfl
  rw [h2, h3, h4]
  split
  · rename_i t v1 v2 l1 l2 rest _
    by_cases ha : beDec [l1, l2] > c.mfl + (if c.mustDecrypt then 256 else 0)
    · simp only [if_pos ha]
    simp only [if_neg ha]
    by_cases hb : rest.length < beDec [l1, l2]
    · simp only [if_pos hb]
    simp only [if_neg hb]
    have h5 : ({ (c.swap w) with inputData := rest.drop (beDec [l1, l2]) } : Conn) =
      Conn.swap w { c with inputData := rest.drop (beDec [l1, l2]) } := rfl
    rw [h5]
    have h6 : (Conn.swap w { c with inputData := rest.drop (beDec [l1, l2]) }).mustDecrypt = c.mustDecrypt := rfl
    have h7 : (Conn.mustDecrypt { c with inputData := rest.drop (beDec [l1, l2]) }) = c.mustDecrypt := rfl
    rw [h6, h7]
    cases c.mustDecrypt with
    | true =>
      simp only [if_true]
      rw [heedless_decrypt]
      rcases decryptRecord E [t, v1, v2, l1, l2] (rest.take (beDec [l1, l2]))
        { c with inputData := rest.drop (beDec [l1, l2]) } with ⟨e | ⟨x, y⟩, d⟩
      · rfl
      · dsimp only; split <;> rfl
    | false =>
      simp only [Bool.false_eq_true, if_false]
      split <;> rfl
  · rfl

theorem heedless_finish : Heedless w finishHandshake := fun c => by
  unfold finishHandshake
  have h : (c.swap w).inputHandshake = c.inputHandshake := rfl
  rw [h]
  split <;> rfl

theorem heedless_complete : ∀ n, Heedless w (completeHandshake E n)
  | 0 => fun c => by
    unfold completeHandshake
    have h : (c.swap w).inputHandshake = c.inputHandshake := rfl
    rw [h]
    split
    · rfl
    · exact heedless_finish c
  | n + 1 => fun c => by
    unfold completeHandshake
    have h : (c.swap w).inputHandshake = c.inputHandshake := rfl
    rw [h]
    split
    · rw [heedless_record]
      rcases readNextRecord E c with ⟨e | _ | ⟨t, f⟩, d⟩
      · rfl
      · rfl
      · dsimp only
        split
        · rfl
        · exact heedless_complete n { d with inputHandshake := d.inputHandshake ++ f }
    · exact heedless_finish c

theorem heedless_content : Heedless w (readNextContent E) := fun c => by
  unfold readNextContent
  rw [heedless_record]
  rcases readNextRecord E c with ⟨e | _ | ⟨t, f⟩, d⟩
  · rfl
  · rfl
  · dsimp only
    have h : (d.swap w).inputHandshake = d.inputHandshake := rfl
    rw [h]
    split
    · rfl
    split
    · rfl
    split
    · rfl
    · exact heedless_complete _ { d with inputHandshake := d.inputHandshake ++ f }

theorem heedless_step (H : SameHand E w) : Heedless w (receiveStep E) := by
  unfold receiveStep
  refine .bind heedless_content fun next => ?_
  split
  · exact .pure _
  · refine .get (fun c => ?_) (fun c => rfl)
    exact .bind (.lift _) fun x => .bind (heedless_hash _ _ _) fun _ => .bind .ghost fun _ =>
      .bind (heedless_process H _) fun _ => .pure _

theorem heedless_fail (d : Nat) : Heedless w (failWith E d) := by
  unfold failWith
  exact .bind (heedless_send _) fun _ => .moveTo _

theorem heedless_loop (H : SameHand E w) : ∀ n, Heedless w (receiveLoop E n)
  | 0 => fun _ => rfl
  | n + 1 => fun c => by
    unfold receiveLoop
    rw [heedless_step H c]
    rcases receiveStep E c with ⟨e | _ | _, d⟩
    · dsimp only
      rw [heedless_fail _ d]
      rcases failWith E (alertFor e) d with ⟨_ | _, x⟩ <;> rfl
    · rfl
    · exact heedless_loop H n d

theorem heedless_rekey : Heedless w rekey := fun c => by
  unfold rekey
  have h : (c.swap w).state = c.state := rfl
  rw [h]
  split <;> rfl

theorem shouldRekey_swap (c : Conn) : shouldRekey (c.swap w) = shouldRekey c := rfl

theorem heedless_tail : Heedless w recvTail := fun c => by
  unfold recvTail
  rw [shouldRekey_swap]
  rcases shouldRekey c with _ | _ | _
  · rfl
  · rfl
  · exact heedless_rekey c

theorem heedless_receive (H : SameHand E w) (x : Bytes) : Heedless w (receiveData E x) := fun c => by
  cases h1 : x.isEmpty with
  | true => simp only [receiveData, h1, if_true]
  | false =>
    by_cases h2 : c.state.canReceive = false
    · have h3 : (c.swap w).state.canReceive = false := h2
      simp only [receiveData, h1, h2, h3, Bool.false_eq_true, if_false, if_true]
    · have h3 : (c.swap w).state.canReceive ≠ false := h2
      rw [receiveData_tail h1 h2, receiveData_tail h1 h3]
      exact Heedless.bind (heedless_loop H _) (fun _ => heedless_tail) { c with inputData := c.inputData ++ x }

theorem heedless_closeRecv : Heedless w closeReceivingEnd := fun c => by
  unfold closeReceivingEnd
  have h : (c.swap w).state = c.state := rfl
  rw [h]
  cases c.state <;> rfl

theorem heedless_closeSend : Heedless w (closeSendingEnd E) := by
  unfold closeSendingEnd
  refine .bind (fun c => rfl) fun _ => .get (fun c => ?_) (fun _ => rfl)
  split
  · refine .bind (heedless_send _) fun _ => fun c => rfl
  · exact .pure _

theorem heedless_initiate : Heedless w (initiate E) := fun c => by
  unfold initiate
  have h : (c.swap w).state = c.state := rfl
  rw [h]
  cases c.state with
  | clientStart k => exact heedless_clientInitiate k c
  | serverStart => exact Heedless.moveTo _ c
  | _ => rfl

/-- Every method of the API is heedless. -/
theorem heedless_run (H : SameHand E w) : ∀ o : Op, Heedless w (o.run E)
  | .initiate => .bind heedless_initiate fun _ => .pure _
  | .receive d => .bind (heedless_receive H d) fun _ => .pure _
  | .send _ => .bind (heedless_send _) fun _ => .pure _
  | .read => fun _ => rfl
  | .drain => fun _ => rfl
  | .closeRecv => .bind heedless_closeRecv fun _ => .pure _
  | .closeSend => .bind heedless_closeSend fun _ => .pure _
  | .rekey => .bind heedless_rekey fun _ => .pure _

theorem runOps_swap (H : SameHand E w) : ∀ (ops : List Op) (c : Conn),
    runOps E ops (c.swap w) = (runOps E ops c).swap w
  | [], _ => rfl
  | o :: os, c => by
    have h : (o.run E (c.swap w)).2 = (o.run E c).2.swap w := by rw [heedless_run H o]
    show runOps E os (o.run E (c.swap w)).2 = (runOps E os (o.run E c).2).swap w
    rw [h]
    exact runOps_swap H os _

end Siotls
