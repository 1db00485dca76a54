import Verif.Proofs.Built
/-!
# Methods of the states depend neither on the buffers nor on the past of the trace
-/

namespace Siotls

variable {E : Env}

/-- running in a larger frame -/
def Framed {α} (m : M α) : Prop :=
  ∀ i o a t c, m (c.frame i o a t) = ((m c).1, (m c).2.frame i o a t)

theorem Framed.bind {α β} {m : M α} {g : α → M β} (h : Framed m) (hg : ∀ a, Framed (g a)) :
    Framed (m >>= g) := by
  intro i o a t c
  rw [M.bind_def, M.bind_def, h]
  rcases m c with ⟨r, c'⟩
  cases r with
  | ok x => exact hg x _ _ _ _ _
  | error e => rfl

theorem Framed.get {β} {g : Conn → M β} (h : ∀ c, Framed (g c))
    (hl : ∀ i o a t c, g (c.frame i o a t) = g c) : Framed (M.get >>= g) := by
  intro i o a t c
  show g (c.frame i o a t) (c.frame i o a t) = _
  rw [hl, h]; rfl

theorem Framed.pure {α} (x : α) : Framed (pure x : M α) := fun _ _ _ _ _ => rfl
theorem Framed.throw {α} (e : Exn) : Framed (M.throw e : M α) := fun _ _ _ _ _ => rfl
theorem Framed.lift {α} (r : Except Exn α) : Framed (M.lift r) := fun _ _ _ _ _ => rfl

theorem framed_getCipher : Framed getCipher := by
  intro i o a t c
  obtain ⟨config, hostname, hasOcsp, nconfig, cipher, signature, transcript, inputData, inputHandshake,
    outputData, applicationData, clientUnique, serverUnique, state, draws, tr⟩ := c
  cases cipher <;> rfl

theorem framed_encrypt (ctype : Nat) (f : Bytes) : Framed (encryptFragment E ctype f) := by
  unfold encryptFragment
  refine Framed.get (fun c => Framed.bind ?_ fun k => Framed.bind (Framed.lift _) fun h =>
    Framed.bind ?_ fun e => ?_) (fun _ _ _ _ _ => rfl)
  · exact framed_getCipher
  · intro i o a t c
    obtain ⟨config, hostname, hasOcsp, nconfig, cipher, signature, transcript, inputData, inputHandshake,
      outputData, applicationData, clientUnique, serverUnique, state, draws, tr⟩ := c
    unfold cipherEncrypt Conn.frame
    dsimp only
    cases cipher with
    | none => rfl
    | some k =>
      dsimp only
      cases k.wr.key with
      | none => rfl
      | some key =>
        dsimp only
        rcases nextNonce k.info k.wr with e | ⟨n, w⟩
        · cases e <;> rfl
        · rfl
  · split
    · exact Framed.pure _
    · exact Framed.throw _

theorem framed_makeRecords (e : Bool) (ctype : Nat) (fs : List Bytes) :
    Framed (makeRecords E e ctype fs) := by
  induction fs with
  | nil => exact Framed.pure _
  | cons f fs ih =>
    unfold makeRecords
    refine Framed.bind ?_ fun _ => Framed.bind (Framed.lift _) fun _ => Framed.bind ih fun _ =>
      Framed.pure _
    unfold protect
    split
    · exact framed_encrypt _ _
    · exact Framed.pure _

theorem framed_hashContent (d : Bytes) (s : Side) (x : Content) : Framed (hashContent d s x) := by
  unfold hashContent
  split
  · intro i o a t c
    obtain ⟨config, hostname, hasOcsp, nconfig, cipher, signature, transcript, inputData, inputHandshake,
      outputData, applicationData, clientUnique, serverUnique, state, draws, tr⟩ := c
    unfold transcriptUpdate Conn.frame
    dsimp only
    rcases transcript.update d s _ with ⟨r, t'⟩
    cases r with
    | error e => rfl
    | ok b => cases b <;> rfl
  · exact Framed.throw _
  · exact Framed.pure _

theorem framed_emit (x : Content) (rs : List (Nat × Bytes × Bytes)) : Framed (emitRecords x rs) := by
  intro i o a t c
  simp [emitRecords, M.modify, Conn.frame]

theorem framed_send (x : Content) : Framed (sendContent E x) := by
  unfold sendContent
  refine Framed.get (fun c => ?_) (fun _ _ _ _ _ => rfl)
  split
  · exact Framed.throw _
  split
  · exact Framed.throw _
  split
  · exact Framed.throw _
  refine Framed.bind (Framed.lift _) fun d => Framed.bind (framed_hashContent _ _ _) fun _ =>
    Framed.bind (Framed.lift _) fun fr => Framed.bind (framed_makeRecords _ _ _) fun rs =>
    framed_emit _ _

theorem Built.framed {α} {m : M α} (h : Built E m) : Framed m := by
  induction h with
  | pure a => exact Framed.pure _
  | throw e => exact Framed.throw _
  | lift r => exact Framed.lift _
  | bind _ _ h1 h2 => exact Framed.bind h1 h2
  | get _ hl h => exact Framed.get h hl
  | nextDraw => intro i o a t c; rfl
  | getNc =>
    intro i o a t c
    obtain ⟨config, hostname, hasOcsp, nconfig, cipher, signature, transcript, inputData, inputHandshake,
      outputData, applicationData, clientUnique, serverUnique, state, draws, tr⟩ := c
    simp only [Siotls.getNc, Conn.frame]
    cases nconfig <;> rfl
  | setNc f =>
    intro i o a t c
    obtain ⟨config, hostname, hasOcsp, nconfig, cipher, signature, transcript, inputData, inputHandshake,
      outputData, applicationData, clientUnique, serverUnique, state, draws, tr⟩ := c
    simp only [Siotls.setNc, Conn.frame]
    cases nconfig with
    | none => rfl
    | some n => dsimp only; split <;> rfl
  | getCipher =>
    intro i o a t c
    obtain ⟨config, hostname, hasOcsp, nconfig, cipher, signature, transcript, inputData, inputHandshake,
      outputData, applicationData, clientUnique, serverUnique, state, draws, tr⟩ := c
    simp only [Siotls.getCipher, Conn.frame]
    cases cipher <;> rfl
  | digest => intro i o a t c; rfl
  | postInit x =>
    intro i o a t c
    obtain ⟨config, hostname, hasOcsp, nconfig, cipher, signature, transcript, inputData, inputHandshake,
      outputData, applicationData, clientUnique, serverUnique, state, draws, tr⟩ := c
    simp only [transcriptPostInit, Conn.frame]
    cases transcript.postInit x <;> rfl
  | hrr s x =>
    intro i o a t c
    obtain ⟨config, hostname, hasOcsp, nconfig, cipher, signature, transcript, inputData, inputHandshake,
      outputData, applicationData, clientUnique, serverUnique, state, draws, tr⟩ := c
    simp only [transcriptHrr, Conn.frame]
    cases transcript.hrrDance s x <;> rfl
  | setConfig f =>
    intro i o a t c
    obtain ⟨config, hostname, hasOcsp, nconfig, cipher, signature, transcript, inputData, inputHandshake,
      outputData, applicationData, clientUnique, serverUnique, state, draws, tr⟩ := c
    simp only [Siotls.setConfig, Conn.frame]
    cases (f config).check <;> rfl
  | skipEarly =>
    intro i o a t c
    obtain ⟨config, hostname, hasOcsp, nconfig, cipher, signature, transcript, inputData, inputHandshake,
      outputData, applicationData, clientUnique, serverUnique, state, draws, tr⟩ := c
    simp only [cipherSkipEarly, Conn.frame]
    cases cipher with
    | none => rfl
    | some k => dsimp only; cases Siotls.skipEarly E k <;> rfl
  | deriveHandshake s x =>
    intro i o a t c
    obtain ⟨config, hostname, hasOcsp, nconfig, cipher, signature, transcript, inputData, inputHandshake,
      outputData, applicationData, clientUnique, serverUnique, state, draws, tr⟩ := c
    simp only [cipherDeriveHandshake, Conn.frame]
    cases cipher with
    | none => rfl
    | some k => simp [Conn.logId]
  | deriveMaster s x =>
    intro i o a t c
    obtain ⟨config, hostname, hasOcsp, nconfig, cipher, signature, transcript, inputData, inputHandshake,
      outputData, applicationData, clientUnique, serverUnique, state, draws, tr⟩ := c
    simp only [cipherDeriveMaster, Conn.frame]
    cases cipher with
    | none => rfl
    | some k => simp [Conn.logId]
  | moveTo s => intro i o a t c; rfl
  | modify n k s cu su hl =>
    intro i o a t c
    obtain ⟨h1, h2, h3, h4, h5⟩ := hl i o a t c
    simp only [M.modify]
    rw [h1, h2, h3, h4, h5]
    rfl
  | send _ => exact framed_send _

theorem framed_process (x : Content) : Framed (process E x) := by
  have hc : Framed (connectedProcess x) := by
    unfold connectedProcess
    split
    · intro i o a t c; simp [M.modify, Conn.frame]
    · exact (built_baseProcess (E := E) _).framed
  intro i o a t c
  unfold process
  show (match c.state with
    | .clientStart _ => baseProcess x (c.frame i o a t)
    | .clientWaitSH f ks h => clientWaitSH E f ks h x (c.frame i o a t)
    | .clientWaitEE => clientWaitEE x (c.frame i o a t)
    | .clientWaitCertCr => clientWaitCertCr E x (c.frame i o a t)
    | .clientWaitCert m => clientWaitCert E m x (c.frame i o a t)
    | .clientWaitCV m h => clientWaitCV E m h x (c.frame i o a t)
    | .clientWaitFin m h => clientWaitFin E m h x (c.frame i o a t)
    | .serverStart => baseProcess x (c.frame i o a t)
    | .serverWaitCH f => serverWaitCH E f x (c.frame i o a t)
    | .serverWaitFin h => serverWaitFin E h x (c.frame i o a t)
    | .connected => connectedProcess x (c.frame i o a t)
    | .closed r _ =>
      if r then connectedProcess x (c.frame i o a t)
      else (.error (.alert Iana.unexpectedMessage), c.frame i o a t)
    | .failed => (.ok (), c.frame i o a t)) = _
  cases c.state with
  | clientStart _ => exact (built_baseProcess (E := E) _).framed _ _ _ _ _
  | clientWaitSH _ _ _ => exact (built_clientWaitSH _ _ _ _).framed _ _ _ _ _
  | clientWaitEE => exact (built_clientWaitEE (E := E) _).framed _ _ _ _ _
  | clientWaitCertCr => exact (built_clientWaitCertCr _).framed _ _ _ _ _
  | clientWaitCert _ => exact (built_clientWaitCert _ _).framed _ _ _ _ _
  | clientWaitCV _ _ => exact (built_clientWaitCV _ _ _).framed _ _ _ _ _
  | clientWaitFin _ _ => exact (built_clientWaitFin _ _ _).framed _ _ _ _ _
  | serverStart => exact (built_baseProcess (E := E) _).framed _ _ _ _ _
  | serverWaitCH _ => exact (built_serverWaitCH _ _).framed _ _ _ _ _
  | serverWaitFin _ => exact (built_serverWaitFin _ _).framed _ _ _ _ _
  | connected => exact hc _ _ _ _ _
  | closed r s =>
    cases r
    · rfl
    · exact hc _ _ _ _ _
  | failed => rfl

theorem framed_initiate : Framed (Siotls.initiate E) := by
  intro i o a t c
  unfold Siotls.initiate
  show (match c.state with
    | .clientStart cookie => clientInitiate E cookie (c.frame i o a t)
    | .serverStart => moveTo (.serverWaitCH true) (c.frame i o a t)
    | _ => (.error .notImplemented, c.frame i o a t)) = _
  cases c.state with
  | clientStart _ => exact (built_clientInitiate _).framed _ _ _ _ _
  | _ => rfl

theorem framed_failWith (d : Nat) : Framed (failWith E d) := by
  unfold failWith
  exact Framed.bind (framed_send _) fun _ _ _ _ _ _ => rfl

end Siotls
