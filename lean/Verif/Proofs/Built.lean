import Verif.Proofs.Careful
/-!
# The methods of the states as programs over a few primitives

Everything the states do when they process a handshake message is built from the primitives of
`Built`; a fact about all of it is proved by checking the primitives.
-/

namespace Siotls

/-- `c` with more input behind, output and data before, and an older trace. -/
def Conn.frame (i o a : Bytes) (t : List Ev) (c : Conn) : Conn :=
  { c with inputData := c.inputData ++ i, outputData := o ++ c.outputData,
           applicationData := a ++ c.applicationData, tr := c.tr ++ t }

/-- what the state methods may send -/
def Content.plain : Content → Bool
  | .handshake _ | .changeCipherSpec => true
  | _ => false

inductive Built (E : Env) : {α : Type} → M α → Prop
  | pure {α} (a : α) : Built E (pure a : M α)
  | throw {α} (e : Exn) : Built E (M.throw e : M α)
  | lift {α} (r : Except Exn α) : Built E (M.lift r)
  | bind {α β} {m : M α} {g : α → M β} : Built E m → (∀ a, Built E (g a)) → Built E (m >>= g)
  | get {β} {g : Conn → M β} : (∀ c, Built E (g c)) →
      (∀ i o a t c, g (c.frame i o a t) = g c) → Built E (M.get >>= g)
  | nextDraw : Built E nextDraw
  | getNc : Built E getNc
  | setNc (f : NConfig → NConfig) : Built E (setNc f)
  | getCipher : Built E getCipher
  | digest : Built E (transcriptDigest E)
  | postInit (a : HashAlg) : Built E (transcriptPostInit a)
  | hrr (side : Side) (h : Bytes) : Built E (transcriptHrr side h)
  | setConfig (f : Config → Config) : Built E (setConfig f)
  | skipEarly : Built E (cipherSkipEarly E)
  | deriveHandshake (s h : Bytes) : Built E (cipherDeriveHandshake E s h)
  | deriveMaster (s h : Bytes) : Built E (cipherDeriveMaster E s h)
  | moveTo {s : St} : s.canSend = true → Built E (moveTo s)
  | modify (n : Conn → Option NConfig) (k : Conn → Option CipherSt) (s : Conn → Option (Nat × Bytes))
      (cu su : Conn → Option Bytes) :
      (∀ i o a t c, n (c.frame i o a t) = n c ∧ k (c.frame i o a t) = k c ∧
        s (c.frame i o a t) = s c ∧ cu (c.frame i o a t) = cu c ∧ su (c.frame i o a t) = su c) →
      Built E (M.modify fun c => { c with nconfig := n c, cipher := k c, signature := s c,
                                          clientUnique := cu c, serverUnique := su c })
  | send {x : Content} : x.plain = true → Built E (sendContent E x)

variable {E : Env}

theorem Built.ite {α} {p : Prop} [Decidable p] {m₁ m₂ : M α} (h₁ : Built E m₁) (h₂ : Built E m₂) :
    Built E (if p then m₁ else m₂) := by
  split
  · exact h₁
  · exact h₂

theorem Built.guarded {b : Bool} {m : M Unit} (h : Built E m) : Built E (M.guarded b m) := by
  unfold M.guarded
  exact .ite h (.pure ())

theorem Built.setNconfig (n : NConfig) :
    Built E (M.modify fun c => { c with nconfig := some n }) :=
  .modify (fun _ => some n) (·.cipher) (·.signature) (·.clientUnique) (·.serverUnique)
    fun _ _ _ _ _ => ⟨rfl, rfl, rfl, rfl, rfl⟩

theorem Built.setCipher (k : CipherSt) :
    Built E (M.modify fun c => { c with cipher := some k }) :=
  .modify (·.nconfig) (fun _ => some k) (·.signature) (·.clientUnique) (·.serverUnique)
    fun _ _ _ _ _ => ⟨rfl, rfl, rfl, rfl, rfl⟩

theorem Built.setClientUnique (r : Bytes) :
    Built E (M.modify fun c => { c with clientUnique := some r }) :=
  .modify (·.nconfig) (·.cipher) (·.signature) (fun _ => some r) (·.serverUnique)
    fun _ _ _ _ _ => ⟨rfl, rfl, rfl, rfl, rfl⟩

theorem Built.setServerUnique (r : Bytes) :
    Built E (M.modify fun c => { c with serverUnique := some r }) :=
  .modify (·.nconfig) (·.cipher) (·.signature) (·.clientUnique) (fun _ => some r)
    fun _ _ _ _ _ => ⟨rfl, rfl, rfl, rfl, rfl⟩

theorem Built.setSignature (s : Nat) :
    Built E (M.modify fun c => { c with signature := some (s, c.config.privateKey.getD []) }) :=
  .modify (·.nconfig) (·.cipher) (fun c => some (s, c.config.privateKey.getD [])) (·.clientUnique)
    (·.serverUnique) fun _ _ _ _ _ => ⟨rfl, rfl, rfl, rfl, rfl⟩

/-- one structural step -/
macro "built1" : tactic => `(tactic| first
  | with_reducible first
    | exact Built.pure _ | exact Built.throw _ | exact Built.lift _ | exact Built.nextDraw
    | exact Built.getNc | exact Built.setNc _ | exact Built.getCipher | exact Built.digest
    | exact Built.postInit _ | exact Built.hrr _ _ | exact Built.setConfig _
    | exact Built.skipEarly | exact Built.deriveHandshake _ _ | exact Built.deriveMaster _ _
    | exact Built.setNconfig _ | exact Built.setCipher _
    | exact Built.setClientUnique _ | exact Built.setServerUnique _ | exact Built.setSignature _
    | assumption
    | apply Built.guarded
  | (with_reducible refine Built.send ?_); rfl
  | (with_reducible refine Built.moveTo ?_); rfl
  | (with_reducible refine Built.get (fun _ => ?_) ?_); rotate_left; (exact fun _ _ _ _ _ => rfl)
  | with_reducible refine Built.bind ?_ (fun _ => ?_)
  | split)

macro "built" : tactic => `(tactic| repeat' built1)

theorem built_baseProcess (x : Content) : Built E (baseProcess x) := by
  unfold baseProcess; built

theorem built_kexInit (g : Nat) : Built E (kexInit E g) := by
  unfold kexInit; built

theorem built_clientInitiate (k : Option Bytes) : Built E (clientInitiate E k) := by
  have h1 : ∀ g, Built E (kexInit E g) := built_kexInit
  unfold clientInitiate
  refine Built.get (fun c => ?_) (fun _ _ _ _ _ => rfl)
  split
  · built
  · built
  · refine Built.ite (.throw _) (Built.bind (h1 _) fun p => ?_)
    built

theorem built_clientProcessHrr (h : Bytes) (exts : List Ext) : Built E (clientProcessHrr E h exts) := by
  have h1 : ∀ k, Built E (clientInitiate E k) := built_clientInitiate
  unfold clientProcessHrr
  repeat' first | exact h1 _ | built1

theorem built_clientNegKeyShare (exts : List Ext) (ks : List (Nat × Bytes)) :
    Built E (clientNegKeyShare E exts ks) := by
  unfold clientNegKeyShare; built

theorem built_clientNegVersion (exts : List Ext) : Built E (clientNegVersion exts) := by
  unfold clientNegVersion; built

theorem built_clientProcessServerHello (ks : List (Nat × Bytes)) (r : Bytes) (exts : List Ext) :
    Built E (clientProcessServerHello E ks r exts) := by
  unfold clientProcessServerHello
  repeat' first | with_reducible exact built_clientNegVersion _ | with_reducible exact built_clientNegKeyShare _ _ | built1

theorem built_clientSetup (f : Bool) (s : Nat) : Built E (clientSetup E f s) := by
  unfold clientSetup; built

theorem built_clientWaitSH (f : Bool) (ks : List (Nat × Bytes)) (h : Bytes) (x : Content) :
    Built E (clientWaitSH E f ks h x) := by
  unfold clientWaitSH
  repeat' first
    | with_reducible exact built_clientSetup _ _ | with_reducible exact built_clientProcessServerHello _ _ _
    | with_reducible exact built_clientProcessHrr _ _ | with_reducible exact built_baseProcess _ | built1

theorem built_clientWaitEE (x : Content) : Built E (clientWaitEE x) := by
  unfold clientWaitEE clientNegMfl clientNegAlpn clientNegHeartbeat clientNegCct clientNegSct
  repeat' first | with_reducible exact built_baseProcess _ | built1

theorem built_clientVerifyChain (es : List CertEntry) : Built E (clientVerifyChain E es) := by
  unfold clientVerifyChain; built

theorem built_clientVerifyRevocation (es : List CertEntry) :
    Built E (clientVerifyRevocation es) := by
  unfold clientVerifyRevocation; built

theorem built_clientVerifyStatus (e i : CertEntry) : Built E (clientVerifyStatus E e i) := by
  unfold clientVerifyStatus; built

theorem built_clientVerifyStatuses : ∀ es : List CertEntry, Built E (clientVerifyStatuses E es)
  | [] => .pure ()
  | [_] => .pure ()
  | e :: i :: rest => by
    unfold clientVerifyStatuses
    exact Built.bind (built_clientVerifyStatus _ _) fun _ => built_clientVerifyStatuses (i :: rest)

theorem built_clientProcessEntries (t : Option Nat) (es : List CertEntry) :
    Built E (clientProcessEntries E t es) := by
  unfold clientProcessEntries clientProcessX509 clientProcessRaw
  repeat' first
    | with_reducible exact built_clientVerifyChain _ | with_reducible exact built_clientVerifyRevocation _
    | with_reducible exact built_clientVerifyStatuses _ | built1

theorem built_clientWaitCert (m : Bool) (x : Content) : Built E (clientWaitCert E m x) := by
  unfold clientWaitCert
  repeat' first | with_reducible exact built_clientProcessEntries _ _ | with_reducible exact built_baseProcess _ | built1

theorem built_clientWaitCertCr (x : Content) : Built E (clientWaitCertCr E x) := by
  unfold clientWaitCertCr
  repeat' first | with_reducible exact built_clientWaitCert _ _ | with_reducible exact built_baseProcess _ | built1

theorem built_clientWaitCV (m : Bool) (h : Bytes) (x : Content) : Built E (clientWaitCV E m h x) := by
  unfold clientWaitCV
  repeat' first | with_reducible exact built_baseProcess _ | built1

theorem built_clientWaitFin (m : Bool) (h : Bytes) (x : Content) :
    Built E (clientWaitFin E m h x) := by
  unfold clientWaitFin
  repeat' first | with_reducible exact built_baseProcess _ | built1

theorem built_serverCheckHello (f : Bool) (r : Bytes) (s : List Nat) :
    Built E (serverCheckHello f r s) := by
  unfold serverCheckHello serverSetup serverCheckSecond; built

theorem built_serverNegotiate (exts : List Ext) : Built E (serverNegotiate E exts) := by
  unfold serverNegotiate serverNegVersions serverNegGroups serverNegSignature serverNegKeyShare
    serverNegCct serverNegSct serverNegMfl serverNegAlpn serverNegHeartbeat serverNegStatus
  dsimp only
  built

theorem built_serverSendHrr (f : Bool) (sid : Bytes) (cl : List Ext) :
    Built E (serverSendHrr E f sid cl) := by
  unfold serverSendHrr; built

theorem built_serverFlight (f : Bool) (sid : Bytes) (cl enc : List Ext) (sh : Bytes) :
    Built E (serverFlight E f sid cl enc sh) := by
  unfold serverFlight serverSendHello serverRequestCert serverSendCertificate serverCertEntries
    serverStaple serverSendFinished
  built

theorem built_serverWaitCH (f : Bool) (x : Content) : Built E (serverWaitCH E f x) := by
  unfold serverWaitCH
  repeat' first
    | with_reducible exact built_serverCheckHello _ _ _ | with_reducible exact built_serverNegotiate _
    | with_reducible exact built_serverSendHrr _ _ _ | with_reducible exact built_serverFlight _ _ _ _ _
    | with_reducible exact built_baseProcess _ | built1

theorem built_serverWaitFin (h : Bytes) (x : Content) : Built E (serverWaitFin E h x) := by
  unfold serverWaitFin
  repeat' first | with_reducible exact built_baseProcess _ | built1

end Siotls
