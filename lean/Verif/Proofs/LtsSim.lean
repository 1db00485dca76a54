import Verif.Proofs.RunServer
/-!
# Every method of the API is a sequence of atomic steps
-/

namespace Siotls

variable {E : Env} {G : Conn → Prop}

theorem run_connectedProcess {content : Content} {c : Conn}
    (hs : c.state = .connected ∨ ∃ s, c.state = .closed true s)
    (h : c.tr.head? = some (.recv content)) : Run E G (connectedProcess content) c (Keep c) := by
  unfold connectedProcess
  split
  · refine Run.modify (.delivered h hs) fun _ => .of_late ?_
    rcases hs with hs | ⟨s, hs⟩ <;> (dsimp only; rw [hs]; rfl)
  · refine run_baseProcess h ?_ ?_
    · rcases hs with hs | ⟨s, hs⟩ <;> rw [hs] <;> rfl
    · rcases hs with hs | ⟨s, hs⟩ <;> rw [hs] <;> simp

theorem run_process {content : Content} {c : Conn} (h : c.tr.head? = some (.recv content))
    (hi : c.inputHandshake = [])
    (ho : ∀ h, content = .handshake h → Landed c.transcript.orderI h.msgType) :
    Run E G (process E content) c (Keep c) := by
  have base : c.state.canReceive = true → c.state ≠ .failed →
      Run E G (baseProcess content) c (Keep c) := fun h1 h2 => run_baseProcess h h1 h2
  unfold Run process
  cases hs : c.state with
  | clientStart k => exact base (by rw [hs]; rfl) (by rw [hs]; simp)
  | clientWaitSH f ks ch => exact run_clientWaitSH hs h hi ho
  | clientWaitEE => exact run_clientWaitEE hs h
  | clientWaitCertCr => exact run_clientWaitCertCr hs h
  | clientWaitCert m => exact run_clientWaitCert hs h
  | clientWaitCV m ch => exact run_clientWaitCV hs h
  | clientWaitFin m ch => exact run_clientWaitFin hs h hi
  | serverStart => exact base (by rw [hs]; rfl) (by rw [hs]; simp)
  | serverWaitCH f => exact run_serverWaitCH hs h hi ho
  | serverWaitFin fh => exact run_serverWaitFin hs h hi
  | connected => exact run_connectedProcess (.inl hs) h
  | closed r s =>
    cases r with
    | true => exact run_connectedProcess (.inr ⟨s, hs⟩) h
    | false => exact ⟨.refl, by simp⟩
  | failed => exact ⟨.refl, by simp⟩

theorem ReadSame.ready {c c' : Conn} (h : ReadSame c c') (hr : c.Ready) : c'.Ready := by
  intro he
  rw [h.mustEncrypt]
  refine hr ?_
  rw [h.same] at he
  exact he

theorem update_order {t t' : Transcript} {d : Bytes} {s : Side} {ty : Nat} {b : Bool}
    (h : t.update d s ty = (.ok b, t')) : Landed t'.orderI ty := by
  unfold Transcript.update at h
  split at h
  · cases h
    rename_i h
    rw [h]; exact ⟨by decide, fun _ => by decide⟩
  · dsimp only at h
    split at h
    · cases h
    · rename_i s' ty' sk hget
      split at h <;> cases h
      rename_i hm
      refine ⟨by simp, ?_⟩
      rintro rfl hi
      have : skipLoop s 2 (order.drop t.orderI) t.orderI = 1 := by simpa using hi
      rw [this] at hget
      cases hget
      exact absurd hm.2 (by decide)

theorem run_receiveStep {c : Conn} (hG : ∀ c', ReadSame c c' → G c') :
    Run E G (receiveStep E) c (Keep c) := by
  unfold receiveStep
  refine Run.bind (run_readNextContent c) ?_
  rintro next c1 ⟨hread, hgot⟩
  try dsimp only
  split
  · exact Run.pure fun h => hread.ready h
  rename_i ctype data
  obtain ⟨hgot, hi⟩ := hgot _ rfl
  dsimp only at hgot
  refine Run.bind' (Run.get ?_)
  refine Run.bind' (Run.lift fun content hdec => ?_)
  -- hashing and logging together are one step
  have key : ∀ c2, c2.tr.head? = some (.recv content) → c2.inputHandshake = [] →
      (c1.Ready → c2.Ready) → (∀ h, content = .handshake h → Landed c2.transcript.orderI h.msgType) →
      Run E G (do process E content; pure true : M Bool) c2 (Keep c) := fun c2 h hi hr ho =>
    Run.bind (run_process h hi ho) fun _ _ hk => Run.pure fun h => hk (hr (hread.ready h))
  have other : (∀ h, content ≠ .handshake h) → content ≠ .unparsed →
      Run E G ((pure () : M Unit) >>= fun _ => ghost (.recv content) >>= fun _ =>
        process E content >>= fun _ => pure true) c1 (Keep c) := fun hne hun =>
    Run.bind' (Run.pure (Run.bind' (Run.modify (.received (hG _ hread) hgot hdec hne hun)
      (key _ rfl hi (fun h => h) fun h he => absurd he (hne h)))))
  cases content with
  | handshake h =>
    rcases hu : c1.transcript.update data c1.config.side.other h.msgType with ⟨r, t⟩
    cases r with
    | error e =>
      refine Run.bind' (Run.of_eq (r := .error e) (c' := { c1 with transcript := t })
        (by simp only [hashContent, transcriptUpdate, hu]) (.single (.hashError hu)) (by simp))
    | ok b =>
      have st := Step.receivedHs (E := E) (hG _ hread) hgot hdec hu
      have := key { c1 with transcript := t, tr := .recv (.handshake h) ::
        (if b then .hashed c1.config.side.other h.msgType data :: c1.tr else c1.tr) } rfl hi (fun h => h)
        (by rintro _ ⟨⟩; exact update_order hu)
      unfold Run at this ⊢
      simp only [M.bind_def, hashContent, transcriptUpdate, hu, ghost, M.modify] at this ⊢
      exact ⟨(Relation.ReflTransGen.single st).trans this.1, this.2⟩
  | unparsed => exact Run.bind' Run.throw
  | alert => exact other (by simp) (by simp)
  | applicationData => exact other (by simp) (by simp)
  | changeCipherSpec => exact other (by simp) (by simp)
  | heartbeat => exact other (by simp) (by simp)

/-- the guard is granted when a call begins: it always holds, or follows from `Ready` -/
def Granted (G : Conn → Prop) (c : Conn) : Prop :=
  (∀ c, G c) ∨ (∀ c : Conn, c.Ready → G c) ∧ c.Ready

theorem run_receiveLoop (fuel : Nat) {c : Conn} (hG : Granted G c) :
    Run E G (receiveLoop E fuel) c (Keep c) := by
  induction fuel generalizing c with
  | zero => exact Run.throw
  | succ fuel ih =>
    have h := run_receiveStep (E := E) (G := G) (c := c) (by
      intro c' hc'
      rcases hG with h | ⟨h, hr⟩
      · exact h _
      · exact h _ (hc'.ready hr))
    rcases hr : receiveStep E c with ⟨r, c1⟩
    unfold Run at h
    rw [hr] at h
    cases r with
    | ok b =>
      have hk := h.2 _ rfl
      cases b
      · exact Run.of_eq (r := .ok ()) (c' := c1) (by simp only [receiveLoop, hr]) h.1 fun _ _ => hk
      · have : receiveLoop E (fuel + 1) c = receiveLoop E fuel c1 := by
          simp only [receiveLoop, hr]
        have ih := ih (c := c1) (hG.imp id fun ⟨a, b⟩ => ⟨a, hk b⟩)
        unfold Run
        rw [this]
        exact ⟨h.1.trans ih.1, fun a ha hr => ih.2 a ha (hk hr)⟩
    | error e =>
      have hf := run_failWith (E := E) (G := G) (alertFor e) c1
      unfold Run at hf
      rcases hfe : failWith E (alertFor e) c1 with ⟨r2, c2⟩
      rw [hfe] at hf
      cases r2 with
      | error e2 =>
        exact Run.of_eq (r := .error e2) (c' := c2) (by simp only [receiveLoop, hr, hfe])
          (h.1.trans hf.1) (by simp)
      | ok u =>
        exact Run.of_eq (r := .error e) (c' := c2) (by simp only [receiveLoop, hr, hfe])
          (h.1.trans hf.1) (by simp)

/-- `initiate_connection` makes atomic steps only -/
theorem initiate_steps (c : Conn) : Steps E G c (initiate E c).2 := by
  unfold initiate
  split
  · rename_i k hs
    exact (run_clientInitiate (E := E) (G := G) hs).1
  · rename_i hs
    exact .single (.move (.serverInit hs))
  · exact .refl

/-- `send_data` makes atomic steps only -/
theorem sendData_steps (d : Bytes) (c : Conn) : Steps E G c (sendData E d c).2 := by
  by_cases h : c.state.canSendApp = true
  · exact (Run.send (E := E) (G := G) (content := .applicationData d) (Q := Done) (fun _ => h)
      fun _ _ => trivial).1
  · have : sendData E d c = (.error .tlsError, c) := by
      simp [sendData, sendContent, M.bind_def, M.get, Content.ctype, h, M.throw]
    rw [this]

/-- `receive_data`: the data is appended to the input, then atomic steps -/
theorem receiveData_steps (d : Bytes) (c : Conn) (hG : Granted G c) :
    (receiveData E d c).2 = c ∨ (c.state.canReceive = true ∧
      Steps E G { c with inputData := c.inputData ++ d } (receiveData E d c).2) := by
  unfold receiveData
  split
  · exact .inl rfl
  split
  · exact .inl rfl
  · rename_i hr
    refine .inr ⟨by simpa using hr, ?_⟩
    dsimp only
    have h := run_receiveLoop (E := E) (G := G) ((c.inputData ++ d).length + 1)
      (c := { c with inputData := c.inputData ++ d }) (hG.imp id fun ⟨a, b⟩ => ⟨a, b⟩)
    unfold Run at h
    rcases hl : receiveLoop E ((c.inputData ++ d).length + 1)
      { c with inputData := c.inputData ++ d } with ⟨r, c1⟩
    rw [hl] at h
    cases r with
    | error e => exact h.1
    | ok u =>
      dsimp only
      cases shouldRekey c1 with
      | error e => exact h.1
      | ok b =>
        cases b
        · exact h.1
        · dsimp only
          unfold rekey
          split <;> exact h.1

/-- reachable by methods of the API -/
abbrev ApiSteps (E : Env) (G : Conn → Prop) : Conn → Conn → Prop := Relation.ReflTransGen (Api E G)

theorem Steps.api {c c' : Conn} (h : Steps E G c c') : ApiSteps E G c c' := by
  induction h with
  | refl => exact .refl
  | tail _ h ih => exact ih.tail (.step h)

/-- the end of `close_sending_end` -/
def closeTail (c : Conn) : Conn := { c with state := match c.state with
      | .closed r _ => .closed r false
      | s => s }

theorem closeSendingEnd_eq (c : Conn) : closeSendingEnd E c =
    if c.state.closing.canSend then
      match sendContent E (.alert Iana.warning Iana.closeNotify)
        { c with state := c.state.closing } with
      | (.ok _, c2) => (.ok (), closeTail c2)
      | (.error e, c2) => (.error e, c2)
    else (.ok (), { c with state := c.state.closing }) := by
  unfold closeSendingEnd
  rw [M.bind_def]
  simp only [M.modify, M.get, M.bind_def]
  split
  · rw [M.bind_def]
    rcases sendContent E (.alert Iana.warning Iana.closeNotify)
      { c with state := c.state.closing } with ⟨r, c2⟩
    cases r <;> rfl
  · rfl

theorem closeSendingEnd_steps (c : Conn) : ApiSteps E G c (closeSendingEnd E c).2 := by
  rw [closeSendingEnd_eq]
  refine Relation.ReflTransGen.head (b := { c with state := c.state.closing }) .closing ?_
  split
  · rename_i hcan
    have hcl : ∃ r s, c.state.closing = .closed r s := by
      unfold St.closing at hcan ⊢
      cases hs : c.state <;> simp_all [St.canSend]
    obtain ⟨r, s, hcl⟩ := hcl
    have h := Run.send (E := E) (G := G) (content := .alert Iana.warning Iana.closeNotify)
      (c := { c with state := c.state.closing })
      (Q := fun _ c' => SentFacts E { c with state := c.state.closing } _ c')
      (fun _ => trivial) fun _ h => h
    unfold Run at h
    rcases hsend : sendContent E (.alert Iana.warning Iana.closeNotify)
      { c with state := c.state.closing } with ⟨x, c2⟩
    rw [hsend] at h
    cases x with
    | error e => exact h.1.api
    | ok u =>
      have f := h.2 _ rfl
      have hst : c2.state = .closed r s := by
        have := f.same
        dsimp only at this
        rw [this]; exact hcl
      refine h.1.api.tail ?_
      show Api E G c2 (closeTail c2)
      unfold closeTail
      rw [hst]
      exact .closedSend hst f.head
  · exact .refl

theorem Op.steps (o : Op) (c : Conn) (hG : Granted G c) : ApiSteps E G c (o.run E c).2 := by
  have wrap : ∀ (m : M Unit), (((do m; pure []) : M Bytes) c).2 = (m c).2 := by
    intro m
    rw [M.bind_def]
    rcases m c with ⟨r, c1⟩
    cases r <;> rfl
  cases o with
  | initiate => rw [Op.run, wrap]; exact (initiate_steps c).api
  | receive d =>
    rw [Op.run, wrap]
    rcases receiveData_steps (E := E) (G := G) d c hG with h | ⟨h1, h2⟩
    · rw [h]
    · exact .head (.appended d h1) h2.api
  | send d => rw [Op.run, wrap]; exact (sendData_steps d c).api
  | read => exact .single .read
  | drain => exact .single .drain
  | closeRecv => rw [Op.run, wrap]; exact .single .closeRecv
  | closeSend => rw [Op.run, wrap]; exact closeSendingEnd_steps c
  | rekey =>
    rw [Op.run, wrap]
    unfold Siotls.rekey
    split <;> exact .refl

/-- Proof principle: an invariant of the atomic steps and of the application's own actions holds
after every program. -/
theorem runOps_inv {I : Conn → Prop} (hI : ∀ c c', I c → Api E (fun _ => True) c c' → I c')
    {c : Conn} (h : I c) (ops : List Op) : I (runOps E ops c) := by
  have : ∀ {c c' : Conn}, ApiSteps E (fun _ => True) c c' → I c → I c' := by
    intro c c' hs h
    induction hs with
    | refl => exact h
    | tail _ hs ih => exact hI _ _ ih hs
  induction ops generalizing c with
  | nil => exact h
  | cons o os ih => exact ih (this (o.steps c (.inl fun _ => trivial)) h)

/-- the same, when every call begins ready -/
theorem runOps_inv_ready {I : Conn → Prop} (hI : ∀ c c', I c → Api E Conn.Ready c c' → I c')
    {c : Conn} (h : I c) (ops : List Op)
    (hr : ∀ n, (runOps E (ops.take n) c).Ready) : I (runOps E ops c) := by
  have : ∀ {c c' : Conn}, ApiSteps E Conn.Ready c c' → I c → I c' := by
    intro c c' hs h
    induction hs with
    | refl => exact h
    | tail _ hs ih => exact hI _ _ ih hs
  induction ops generalizing c with
  | nil => exact h
  | cons o os ih =>
    refine ih (this (o.steps c (.inr ⟨fun _ h => h, hr 0⟩)) h) fun n => ?_
    exact hr (n + 1)

end Siotls
