import Verif.Proofs.LtsSim
import Verif.Spec.History
/-!
# Careful programs find the connection ready
-/

namespace Siotls

variable {E : Env}

/-- a method that keeps some part of the connection, whatever its outcome -/
def Pres {α β} (f : Conn → β) (m : M α) : Prop := ∀ c, f (m c).2 = f c

theorem Pres.bind {α β γ} {f : Conn → γ} {m : M α} {g : α → M β} (h : Pres f m)
    (hg : ∀ a, Pres f (g a)) : Pres f (m >>= g) := by
  intro c
  rw [M.bind_def]
  have := h c
  rcases hm : m c with ⟨r, c'⟩
  rw [hm] at this
  cases r with
  | error e => exact this
  | ok a => exact (hg a c').trans this

theorem Pres.pure {α γ} {f : Conn → γ} (a : α) : Pres f (pure a : M α) := fun _ => rfl
theorem Pres.throw {α γ} {f : Conn → γ} (e : Exn) : Pres f (M.throw e : M α) := fun _ => rfl
theorem Pres.lift {α γ} {f : Conn → γ} (r : Except Exn α) : Pres f (M.lift r) := fun _ => rfl
theorem Pres.get {γ} {f : Conn → γ} : Pres f M.get := fun _ => rfl

/-- parts untouched by sending in clear -/
structure Aside {γ} (f : Conn → γ) : Prop where
  transcript : ∀ c t tr, f { c with transcript := t, tr := tr } = f c
  output : ∀ c o tr, f { c with outputData := o, tr := tr } = f c

theorem aside_state : Aside Conn.state := ⟨fun _ _ _ => rfl, fun _ _ _ => rfl⟩
theorem aside_cipher : Aside Conn.cipher := ⟨fun _ _ _ => rfl, fun _ _ _ => rfl⟩

theorem pres_hashContent {γ} {f : Conn → γ} (hf : Aside f) (d : Bytes) (s : Side) (x : Content) :
    Pres f (hashContent d s x) := by
  cases x with
  | handshake h =>
    intro c
    simp only [hashContent, transcriptUpdate]
    split
    · exact hf.transcript _ _ _
    · exact hf.transcript _ _ c.tr
  | unparsed => exact Pres.throw _
  | _ => exact Pres.pure _

theorem pres_makeRecords {γ} {f : Conn → γ} {encrypt : Bool} {ctype : Nat}
    (h : encrypt = true → ∀ frag, Pres f (encryptFragment E ctype frag)) (frags : List Bytes) :
    Pres f (makeRecords E encrypt ctype frags) := by
  induction frags with
  | nil => exact Pres.pure _
  | cons x xs ih =>
    unfold makeRecords
    refine Pres.bind ?_ fun _ => Pres.bind (Pres.lift _) fun _ => Pres.bind ih fun _ => Pres.pure _
    unfold protect
    split
    · exact h ‹_› x
    · exact Pres.pure _

theorem pres_sendContent {γ} {f : Conn → γ} (hf : Aside f) (content : Content) (c : Conn)
    (h : c.mustEncrypt = true → ∀ frag, Pres f (encryptFragment E content.ctype frag)) :
    f (sendContent E content c).2 = f c := by
  unfold sendContent
  simp only [M.bind_def, M.get]
  split
  · rfl
  split
  · rfl
  split
  · rfl
  refine Pres.bind (f := f) (Pres.lift _) (fun d => Pres.bind (pres_hashContent hf _ _ _) fun _ =>
    Pres.bind (Pres.lift _) fun frags => Pres.bind (pres_makeRecords h frags) fun _ c => ?_) c
  exact hf.output _ _ _

theorem pres_encrypt_state (ctype : Nat) (frag : Bytes) :
    Pres Conn.state (encryptFragment E ctype frag) := by
  unfold encryptFragment
  refine Pres.bind Pres.get fun c => Pres.bind ?_ fun k => Pres.bind (Pres.lift _) fun _ =>
    Pres.bind ?_ fun _ => ?_
  · intro c; unfold getCipher; split <;> rfl
  · intro c
    unfold cipherEncrypt
    split
    · rfl
    split
    · rfl
    split <;> rfl
  · split
    · exact Pres.pure _
    · exact Pres.throw _

theorem sendContent_state (content : Content) (c : Conn) :
    (sendContent E content c).2.state = c.state :=
  pres_sendContent aside_state content c fun _ _ => pres_encrypt_state _ _

theorem sendContent_cipher (content : Content) (c : Conn) (h : c.mustEncrypt = false) :
    (sendContent E content c).2.cipher = c.cipher :=
  pres_sendContent aside_cipher content c fun h' => by rw [h] at h'; cases h'

theorem ready_of_post {c : Conn} (h : c.state.isPostHandshake = true) : c.Ready := by
  intro he
  cases hs : c.state <;> rw [hs] at h he <;> first | (cases h; done) | (cases he; done)

/-- methods that, when nothing is encrypted, keep the cipher -/
def Clear {α} (m : M α) : Prop := ∀ c : Conn, c.mustEncrypt = false → (m c).2.cipher = c.cipher

theorem Clear.bind {α β} {m : M α} {g : α → M β} (h : Clear m) (hg : ∀ a, Clear (g a)) :
    Clear (m >>= g) := by
  intro c hc
  rw [M.bind_def]
  have := h c hc
  rcases hm : m c with ⟨r, c'⟩
  rw [hm] at this
  cases r with
  | error e => exact this
  | ok a =>
    refine (hg a c' ?_).trans this
    unfold Conn.mustEncrypt at *
    dsimp only at this
    rw [this]; exact hc

theorem Pres.clear {α} {m : M α} (h : Pres Conn.cipher m) : Clear m := fun c _ => h c

theorem clear_send (content : Content) : Clear (sendContent E content) :=
  fun c h => sendContent_cipher content c h

theorem clear_clientInitiate (cookie : Option Bytes) : Clear (clientInitiate E cookie) := by
  unfold clientInitiate
  refine Clear.bind Pres.get.clear fun c => ?_
  split
  · exact (Pres.throw _).clear
  · exact (Pres.throw _).clear
  split
  · exact (Pres.throw _).clear
  refine Clear.bind ?_ fun ⟨priv, share⟩ => ?_
  · unfold kexInit
    exact Clear.bind (fun _ _ => rfl) fun _ => (Pres.lift _).clear
  · exact Clear.bind (Pres.lift _).clear fun _ => Clear.bind (clear_send _) fun _ =>
      Clear.bind (fun _ _ => rfl) fun _ => Clear.bind Pres.get.clear fun _ => fun _ _ => rfl

theorem Op.ready (o : Op) (c : Conn) (hr : c.Ready)
    (ho : ∀ d, o = .receive d → (o.run E c).2.Ready) : (o.run E c).2.Ready := by
  have wrap : ∀ (m : M Unit), (((do m; pure []) : M Bytes) c).2 = (m c).2 := by
    intro m
    rw [M.bind_def]
    rcases m c with ⟨r, c1⟩
    cases r <;> rfl
  cases o with
  | initiate =>
    rw [Op.run, wrap]
    unfold Siotls.initiate
    split
    · rename_i k hs
      have hm : c.mustEncrypt = false := hr (by rw [hs]; rfl)
      intro _
      have := clear_clientInitiate (E := E) k c hm
      unfold Conn.mustEncrypt at *
      rw [this]; exact hm
    · rename_i hs
      exact fun _ => hr (by rw [hs]; rfl)
    · exact hr
  | receive d => exact ho d rfl
  | send d =>
    rw [Op.run, wrap]
    by_cases h : c.state.canSendApp = true
    · intro he
      unfold sendData at he
      rw [sendContent_state] at he
      cases hs : c.state <;> rw [hs] at he h <;> first | (cases h; done) | (cases he; done)
    · have : sendData E d c = (.error .tlsError, c) := by
        simp [sendData, sendContent, M.bind_def, M.get, Content.ctype, h, M.throw]
      rw [this]; exact hr
  | read => exact hr
  | drain => exact hr
  | closeRecv =>
    rw [Op.run, wrap]
    unfold closeReceivingEnd
    intro he
    cases hs : c.state <;> rw [hs] at he <;> cases he
  | closeSend =>
    rw [Op.run, wrap, closeSendingEnd_eq]
    apply ready_of_post
    have hp : c.state.closing.isPostHandshake = true := by
      unfold St.closing; cases c.state <;> rfl
    have hst := sendContent_state (E := E) (.alert Iana.warning Iana.closeNotify)
      { c with state := c.state.closing }
    rcases hs : sendContent E (.alert Iana.warning Iana.closeNotify)
      { c with state := c.state.closing } with ⟨r, c2⟩
    rw [hs] at hst
    dsimp only at hst
    split
    · cases r with
      | error e => dsimp only; rw [hst]; exact hp
      | ok u =>
        dsimp only [closeTail]
        rw [hst]
        cases h : c.state.closing <;> rw [h] at hp <;> first | rfl | cases hp
    · exact hp
  | rekey =>
    rw [Op.run, wrap]
    unfold Siotls.rekey
    split <;> exact hr

theorem receiveData_ready (d : Bytes) (c : Conn) (hr : c.Ready)
    (h : raised (receiveData E d c).1 = true → (receiveData E d c).2.state.isPostHandshake = true) :
    (receiveData E d c).2.Ready := by
  cases he : raised (receiveData E d c).1 with
  | true => exact ready_of_post (h he)
  | false =>
    clear h
    revert he
    unfold receiveData
    split
    · intro he; cases he
    split
    · intro he; cases he
    · dsimp only
      have h := run_receiveLoop (E := E) (G := fun _ => True) ((c.inputData ++ d).length + 1)
        (c := { c with inputData := c.inputData ++ d }) (.inl fun _ => trivial)
      unfold Run at h
      rcases hl : receiveLoop E ((c.inputData ++ d).length + 1)
        { c with inputData := c.inputData ++ d } with ⟨r, c1⟩
      rw [hl] at h
      cases r with
      | error e => intro he; cases he
      | ok u =>
        have hk := h.2 () rfl hr
        dsimp only at hk ⊢
        intro _
        cases shouldRekey c1 with
        | error e => exact hk
        | ok b =>
          cases b
          · exact hk
          · dsimp only
            unfold rekey
            split <;> exact hk

theorem Op.run_receive (d : Bytes) (c : Conn) :
    ((Op.receive d).run E c).2 = (receiveData E d c).2 ∧
    raised ((Op.receive d).run E c).1 = raised (receiveData E d c).1 := by
  rw [Op.run, M.bind_def]
  rcases receiveData E d c with ⟨r, c1⟩
  cases r <;> exact ⟨rfl, rfl⟩

/-- the guard is only needed by `receive_data` -/
theorem Op.steps' {G : Conn → Prop} (o : Op) (c : Conn) (ho : o.isReceive = false) :
    ApiSteps E G c (o.run E c).2 := by
  have wrap : ∀ (m : M Unit), (((do m; pure []) : M Bytes) c).2 = (m c).2 := by
    intro m
    rw [M.bind_def]
    rcases m c with ⟨r, c1⟩
    cases r <;> rfl
  cases o with
  | initiate => rw [Op.run, wrap]; exact (initiate_steps c).api
  | receive d => cases ho
  | send d => rw [Op.run, wrap]; exact (sendData_steps d c).api
  | read => exact .single .read
  | drain => exact .single .drain
  | closeRecv => rw [Op.run, wrap]; exact .single .closeRecv
  | closeSend => rw [Op.run, wrap]; exact closeSendingEnd_steps c
  | rekey =>
    rw [Op.run, wrap]
    unfold Siotls.rekey
    split <;> exact .refl

/-- Proof principle for the careful programs. -/
theorem runOps_inv_careful {I : Conn → Prop} (hI : ∀ c c', I c → Api E Conn.Ready c c' → I c')
    {c : Conn} (h : I c) (hr : c.Ready) (ops : List Op) (hc : Careful E ops c) :
    I (runOps E ops c) := by
  have steps : ∀ {c c' : Conn}, ApiSteps E Conn.Ready c c' → I c → I c' := by
    intro c c' hs h
    induction hs with
    | refl => exact h
    | tail _ hs ih => exact hI _ _ ih hs
  have others : ∀ (ops : List Op) (c : Conn), ops.all (!·.isReceive) = true → I c →
      I (runOps E ops c) := by
    intro ops
    induction ops with
    | nil => intro c _ h; exact h
    | cons o os ih =>
      intro c ho h
      rw [List.all_cons, Bool.and_eq_true] at ho
      exact ih _ ho.2 (steps (o.steps' c (by simpa using ho.1)) h)
  induction ops generalizing c with
  | nil => exact h
  | cons o os ih =>
    obtain ⟨h1, h2⟩ := hc
    have hstep := steps (o.steps c (.inr ⟨fun _ h => h, hr⟩)) h
    by_cases hbad : o.isReceive = true ∧ raised (o.run E c).1 = true ∧
        (o.run E c).2.state.isPostHandshake = false
    · exact others os _ (h1 hbad.1 hbad.2.1 hbad.2.2) hstep
    · refine ih hstep (o.ready c hr ?_) h2
      rintro d rfl
      obtain ⟨e1, e2⟩ := Op.run_receive (E := E) d c
      rw [e1]
      refine receiveData_ready d c hr fun he => ?_
      rw [← e2] at he
      rw [← e1]
      cases hp : ((Op.receive d).run E c).2.state.isPostHandshake with
      | true => rfl
      | false => exact absurd ⟨rfl, he, hp⟩ hbad

/-- a careful program calls `receive_data` only on a ready connection -/
theorem runOps_ready {c : Conn} (hr : c.Ready) (ops : List Op) (d : Bytes)
    (hc : Careful E (ops ++ [.receive d]) c) : (runOps E ops c).Ready := by
  induction ops generalizing c with
  | nil => exact hr
  | cons o os ih =>
    obtain ⟨h1, h2⟩ := hc
    refine ih (o.ready c hr ?_) h2
    rintro d' rfl
    obtain ⟨e1, e2⟩ := Op.run_receive (E := E) d' c
    rw [e1]
    refine receiveData_ready d' c hr fun he => ?_
    rw [← e2] at he
    rw [← e1]
    cases hp : ((Op.receive d').run E c).2.state.isPostHandshake with
    | true => rfl
    | false =>
      have := h1 rfl he hp
      simp [Op.isReceive] at this

theorem Careful.left {c : Conn} {ops more : List Op} (hc : Careful E (ops ++ more) c) :
    Careful E ops c := by
  induction ops generalizing c with
  | nil => trivial
  | cons o os ih =>
    obtain ⟨h1, h2⟩ := hc
    refine ⟨fun g1 g2 g3 => ?_, ih h2⟩
    have : (os ++ more).all (!·.isReceive) = true := h1 g1 g2 g3
    rw [List.all_append, Bool.and_eq_true] at this
    exact this.1

theorem Steps.inv {I G : Conn → Prop} (hI : ∀ c c', I c → Step E G c c' → I c') {c c' : Conn}
    (hs : Steps E G c c') (h : I c) : I c' := by
  induction hs with
  | refl => exact h
  | tail _ hs ih => exact hI _ _ ih hs

/-- Proof principle for the inside of `receive_data`. -/
theorem Turns.inv {I G : Conn → Prop} (hI : ∀ c c', I c → Step E G c c' → I c') {c c' : Conn}
    (h : Turns E c c') (hG : Granted G c) (hc : I c) : I c' ∧ Granted G c' := by
  induction h with
  | refl => exact ⟨hc, hG⟩
  | @turn c c' c'' ht _ ih =>
    have h := run_receiveStep (E := E) (G := G) (c := c) (by
      intro c' hc'
      rcases hG with h | ⟨h, hr⟩
      · exact h _
      · exact h _ (hc'.ready hr))
    unfold Run at h
    rw [ht] at h
    refine ih ?_ (Steps.inv hI h.1 hc)
    rcases hG with hG | ⟨hG, hr⟩
    · exact .inl hG
    · exact .inr ⟨hG, h.2 _ rfl hr⟩

end Siotls
