import Verif.Proofs.Loop
/-!
# What the methods append to the buffers, and that emptying the buffers changes nothing else
-/

namespace Siotls
open Spec

variable {E : Env} {G : Conn → Prop}

/-- the two buffers of the application grew by what the trace says -/
def Flow (c c' : Conn) : Prop :=
  ∃ new, c'.tr = new ++ c.tr ∧ c'.outputData = c.outputData ++ wire new ∧
    c'.applicationData = c.applicationData ++ deliveredData new

theorem Flow.refl (c : Conn) : Flow c c := ⟨[], rfl, by simp [wire], by simp [deliveredData]⟩

theorem Flow.trans {a b c : Conn} (h : Flow a b) (h' : Flow b c) : Flow a c := by
  obtain ⟨n, h1, h2, h3⟩ := h
  obtain ⟨m, h4, h5, h6⟩ := h'
  exact ⟨m ++ n, by rw [h4, h1, List.append_assoc], by rw [h5, h2, wire_append, List.append_assoc],
    by rw [h6, h3, deliveredData_append, List.append_assoc]⟩

theorem deliveredData_records (rs : List (Nat × Bytes × Bytes)) :
    deliveredData (rs.map fun r => Ev.record r.1 r.2.1).reverse = [] := by
  induction rs with
  | nil => rfl
  | cons r rs ih =>
    rw [List.map_cons, List.reverse_cons, deliveredData_append, ih]; rfl

theorem deliveredData_keyEvents (l : List PyStr) (k k' : CipherSt) :
    deliveredData (keyEvents l k k') = [] := by
  have key : ∀ l : List Ev, (∀ e ∈ l, ∀ d, e ≠ .delivered d) → deliveredData l = [] := by
    intro l
    induction l with
    | nil => intro; rfl
    | cons e l ih =>
      intro h
      have ih := ih fun e he => h e (.tail _ he)
      cases e <;> first | exact ih | exact absurd rfl (h _ (.head _) _)
  refine key _ fun e he d => ?_
  rcases mem_keyEvents he with ⟨_, _, rfl⟩ | ⟨_, _, rfl⟩ | ⟨_, _, rfl⟩ <;> simp

theorem SendCtx.bytes {c₀ c : Conn} {x : Content} {rs : List (Nat × Bytes × Bytes)}
    (h : SendCtx E c₀ x rs c) : ∀ r ∈ rs, r.2.2 = recordBytes r.1 r.2.1 := by
  obtain ⟨_, _, _, _, _, _, _, _, _, hr⟩ := h.data
  intro r hm
  obtain ⟨h1, h2, _⟩ := hr r hm
  rw [← recordHeader_bytes h1, ← h2, List.take_append_drop]

theorem Step.flow {c c' : Conn} (h : Step E G c c') : Flow c c' := by
  have same : ∀ c' : Conn, c'.tr = c.tr → c'.outputData = c.outputData →
      c'.applicationData = c.applicationData → Flow c c' := fun c' h1 h2 h3 =>
    ⟨[], h1, by rw [h2]; simp [wire], by rw [h3]; simp [deliveredData]⟩
  have one : ∀ (c' : Conn) (new : List Ev), wire new = [] → deliveredData new = [] →
      c'.tr = new ++ c.tr → c'.outputData = c.outputData →
      c'.applicationData = c.applicationData → Flow c c' := fun c' new w d h1 h2 h3 =>
    ⟨new, h1, by rw [h2, w]; simp, by rw [h3, d]; simp⟩
  cases h with
  | gotHandshake => exact one _ [_] rfl rfl rfl rfl rfl
  | gotOther => exact one _ [_] rfl rfl rfl rfl rfl
  | opened => exact one _ [_] rfl rfl rfl rfl rfl
  | sealed => exact one _ [_] rfl rfl rfl rfl rfl
  | received => exact one _ [_] rfl rfl rfl rfl rfl
  | receivedHs =>
    rename_i b _ _ _ _ _
    cases b
    · exact one _ [_] rfl rfl rfl rfl rfl
    · exact one _ [_, _] rfl rfl rfl rfl rfl
  | hashSent =>
    rename_i b _ _ _ _ _
    cases b
    · exact same _ rfl rfl rfl
    · exact one _ [_] rfl rfl rfl rfl rfl
  | emit hs _ =>
    rename_i rs _ 
    refine ⟨.sent _ :: (rs.map fun r => Ev.record r.1 r.2.1).reverse, rfl, ?_, ?_⟩
    · rw [wire, wire_records _ hs.bytes]; simp
    · rw [deliveredData, deliveredData_records] <;> simp
  | delivered => exact ⟨[_], rfl, by simp [wire], by simp [deliveredData]⟩
  | handshakeKeys => exact one _ _ (wire_keyEvents _ _ _) (deliveredData_keyEvents _ _ _) rfl rfl rfl
  | masterKeys => exact one _ _ (wire_keyEvents _ _ _) (deliveredData_keyEvents _ _ _) rfl rfl rfl
  | _ => exact same _ rfl rfl rfl

theorem Steps.flow {c c' : Conn} (h : Steps E G c c') : Flow c c' := by
  induction h with
  | refl => exact .refl _
  | tail _ hs ih => exact ih.trans hs.flow

theorem wrap_snd (m : M Unit) (c : Conn) : (((do m; pure []) : M Bytes) c).2 = (m c).2 := by
  rw [M.bind_def]
  rcases m c with ⟨r, c1⟩
  cases r <;> rfl

theorem wrap_fst (m : M Unit) (c : Conn) :
    returned (((do m; pure []) : M Bytes) c).1 = [] := by
  rw [M.bind_def]
  rcases m c with ⟨r, c1⟩
  cases r <;> rfl

theorem Flow.of_same {c c' : Conn} (h1 : c'.tr = c.tr) (h2 : c'.outputData = c.outputData)
    (h3 : c'.applicationData = c.applicationData) : Flow c c' :=
  ⟨[], h1, by rw [h2]; simp [wire], by rw [h3]; simp [deliveredData]⟩

theorem Op.flow (o : Op) (ho : buffering o = false) (c : Conn) : Flow c (o.run E c).2 := by
  cases o with
  | read => cases ho
  | drain => cases ho
  | initiate =>
    rw [Op.run, wrap_snd]
    exact (initiate_steps (E := E) (G := fun _ => True) c).flow
  | receive d =>
    rw [Op.run, wrap_snd]
    rcases receiveData_steps (E := E) (G := fun _ => True) d c (.inl fun _ => trivial) with h | ⟨_, h⟩
    · rw [h]; exact .refl _
    · exact Flow.trans (.of_same rfl rfl rfl) h.flow
  | send d =>
    rw [Op.run, wrap_snd]
    exact (sendData_steps (E := E) (G := fun _ => True) d c).flow
  | closeRecv =>
    rw [Op.run, wrap_snd]
    obtain ⟨s, hs⟩ := closeReceivingEnd_same c
    rw [hs]; exact .of_same rfl rfl rfl
  | closeSend =>
    rw [Op.run, wrap_snd, closeSendingEnd_eq]
    split
    · have h := has_send (E := E) (.alert Iana.warning Iana.closeNotify)
        { c with state := c.state.closing }
      rcases hm : sendContent E (.alert Iana.warning Iana.closeNotify)
        { c with state := c.state.closing } with ⟨r, c'⟩
      rw [hm] at h
      obtain ⟨_, _, h3, new, h4, h5, h6⟩ := h
      have hd : deliveredData new = [] := by
        clear h4 h6
        induction new with
        | nil => rfl
        | cons e l ih =>
          have he := h5 e List.mem_cons_self
          have hl := ih fun e he => h5 e (List.mem_cons_of_mem _ he)
          cases e <;> first | exact hl | exact absurd he (by simp [Ev.sending])
      cases r <;> exact ⟨new, h4, h6, by rw [hd]; simpa [closeTail] using h3⟩
    · exact .of_same rfl rfl rfl
  | rekey =>
    rw [Op.run, wrap_snd]
    unfold Siotls.rekey
    split <;> exact .refl _

theorem Op.returned_nil (o : Op) (ho : buffering o = false) (c : Conn) :
    returned (o.run E c).1 = [] := by
  cases o <;> first | exact wrap_fst _ _ | cases ho

/-- what was drained and what is pending make the records of the trace; same for the data read -/
theorem collected_flow (ops : List Op) (c : Conn) :
    ∃ new, (runOps E ops c).tr = new ++ c.tr ∧
      collected E .drain ops c ++ (runOps E ops c).outputData = c.outputData ++ wire new ∧
      collected E .read ops c ++ (runOps E ops c).applicationData =
        c.applicationData ++ deliveredData new := by
  induction ops generalizing c with
  | nil => exact ⟨[], rfl, by simp [collected, runOps, wire], by simp [collected, runOps, deliveredData]⟩
  | cons o os ih =>
    obtain ⟨new, h1, h2, h3⟩ := ih (o.run E c).2
    cases hb : buffering o with
    | false =>
      obtain ⟨n, g1, g2, g3⟩ := o.flow (E := E) hb c
      have hr := o.returned_nil (E := E) hb c
      refine ⟨new ++ n, ?_, ?_, ?_⟩
      · show (runOps E os (o.run E c).2).tr = _
        rw [h1, g1, List.append_assoc]
      · simp only [collected, hr, ite_self, List.nil_append]
        show _ ++ (runOps E os (o.run E c).2).outputData = _
        rw [h2, g2, wire_append, List.append_assoc]
      · simp only [collected, hr, ite_self, List.nil_append]
        show _ ++ (runOps E os (o.run E c).2).applicationData = _
        rw [h3, g3, deliveredData_append, List.append_assoc]
    | true =>
      cases o with
      | drain =>
        refine ⟨new, h1, ?_, ?_⟩
        · show (c.outputData ++ _) ++ _ = _
          rw [List.append_assoc]; exact congrArg _ h2
        · exact h3
      | read =>
        refine ⟨new, h1, ?_, ?_⟩
        · exact h2
        · show (c.applicationData ++ _) ++ _ = _
          rw [List.append_assoc]; exact congrArg _ h3
      | _ => cases hb

/-! ## Emptying the buffers changes nothing else -/

/-- `Framed` for programs that read the input: the other buffers -/
def Framed0 {α} (m : M α) : Prop := ∀ o a t c,
  m (c.frame [] o a t) = ((m c).1, (m c).2.frame [] o a t)

theorem Framed.framed0 {α} {m : M α} (h : Framed m) : Framed0 m := fun o a t c => h [] o a t c

theorem framed0_complete (fuel : Nat) : Framed0 (completeHandshake E fuel) := by
  induction fuel with
  | zero =>
    intro o a t c
    unfold completeHandshake
    show (if c.inputHandshake.length - 4 < handshakeLength c.inputHandshake then _ else _) = _
    split
    · rfl
    · exact finish_frame ..
  | succ n ih =>
    intro o a t c
    rw [completeHandshake]
    show (if c.inputHandshake.length - 4 < handshakeLength c.inputHandshake then _ else _) = _
    dsimp only
    split
    · rw [readNextRecord_frame0]
      rcases readNextRecord E c with ⟨r, c'⟩
      cases r with
      | error e => rfl
      | ok r =>
        cases r with
        | none => rfl
        | some r =>
          obtain ⟨ct, fr⟩ := r
          dsimp only
          split
          · rfl
          · exact ih o a t { c' with inputHandshake := c'.inputHandshake ++ fr }
    · exact finish_frame ..

theorem frame0_length (c : Conn) (o a t) : (c.frame [] o a t).inputData.length = c.inputData.length := by
  simp [Conn.frame]

theorem framed0_readNextContent : Framed0 (readNextContent E) := by
  intro o a t c
  unfold readNextContent
  rw [readNextRecord_frame0]
  rcases readNextRecord E c with ⟨r, c'⟩
  cases r with
  | error e => rfl
  | ok r =>
    cases r with
    | none => rfl
    | some r =>
      obtain ⟨ct, fr⟩ := r
      dsimp only
      show (if c'.inputHandshake.isEmpty ∧ ct ≠ Iana.ctHandshake then _ else _) = _
      split
      · rfl
      split
      · rfl
      · show (if (c'.inputHandshake ++ fr).length < 4 then _ else _) = _
        split
        · rfl
        · have := framed0_complete (E := E) (c'.inputData.length + 1) o a t
            { c' with inputHandshake := c'.inputHandshake ++ fr }
          rw [← this]
          show completeHandshake E ((c'.frame [] o a t).inputData.length + 1) _ = _
          rw [frame0_length]; rfl

theorem framed0_receiveStep : Framed0 (receiveStep E) := by
  intro o a t c
  rw [receiveStep_eq, receiveStep_eq, framed0_readNextContent]
  rcases readNextContent E c with ⟨r, c'⟩
  cases r with
  | error e => rfl
  | ok r =>
    cases r with
    | none => rfl
    | some r => exact framed_useContent _ _ _ _ _ _ _

theorem framed0_receiveLoop (fuel : Nat) : Framed0 (receiveLoop E fuel) := by
  induction fuel with
  | zero => intro o a t c; rfl
  | succ n ih =>
    intro o a t c
    rw [receiveLoop]
    dsimp only
    rw [framed0_receiveStep]
    rcases receiveStep E c with ⟨r, c'⟩
    cases r with
    | error e =>
      dsimp only
      rw [framed_failWith]
      rcases failWith E (alertFor e) c' with ⟨x, c₂⟩
      cases x <;> rfl
    | ok b =>
      cases b with
      | false => rfl
      | true => exact ih o a t c'

theorem framed0_rekey : Framed0 Siotls.rekey := by
  intro o a t c
  unfold Siotls.rekey
  show (if c.state.canSend = false then _ else _) = _
  split <;> rfl

theorem framed0_receiveData (d : Bytes) : Framed0 (receiveData E d) := by
  intro o a t c
  unfold receiveData
  split
  · rfl
  show (if c.state.canReceive = false then _ else _) = _
  split
  · rfl
  dsimp only
  have hf : ({ c.frame [] o a t with inputData := (c.frame [] o a t).inputData ++ d } : Conn) =
      ({ c with inputData := c.inputData ++ d } : Conn).frame [] o a t := by
    simp [Conn.frame]
  have hl : ((c.frame [] o a t).inputData ++ d).length = (c.inputData ++ d).length := by
    simp [Conn.frame]
  rw [hf, hl, framed0_receiveLoop]
  rcases receiveLoop E ((c.inputData ++ d).length + 1) { c with inputData := c.inputData ++ d }
    with ⟨r, c'⟩
  cases r with
  | error e => rfl
  | ok u =>
    dsimp only
    rw [show shouldRekey (c'.frame [] o a t) = shouldRekey c' from rfl]
    cases shouldRekey c' with
    | error e => rfl
    | ok b =>
      cases b with
      | false => rfl
      | true => exact framed0_rekey _ _ _ _

theorem framed0_wrap {m : M Unit} (h : Framed0 m) : Framed0 ((do m; pure []) : M Bytes) := by
  intro o a t c
  rw [M.bind_def, M.bind_def, h]
  rcases m c with ⟨r, c'⟩
  cases r <;> rfl

theorem framed_closeSend : Framed (closeSendingEnd E) := by
  intro i o a t c
  rw [closeSendingEnd_eq, closeSendingEnd_eq]
  show (if c.state.closing.canSend then _ else _) = _
  split
  · have := framed_send (E := E) (.alert Iana.warning Iana.closeNotify) i o a t
      { c with state := c.state.closing }
    have hc : ({ c.frame i o a t with state := (c.frame i o a t).state.closing } : Conn) =
      ({ c with state := c.state.closing } : Conn).frame i o a t := rfl
    rw [hc, this]
    rcases sendContent E (.alert Iana.warning Iana.closeNotify) { c with state := c.state.closing }
      with ⟨r, c'⟩
    cases r with
    | error e => rfl
    | ok u => rfl
  · rfl

theorem Op.framed0 (o : Op) (ho : buffering o = false) : Framed0 (o.run E) := by
  cases o with
  | read => cases ho
  | drain => cases ho
  | initiate => exact framed0_wrap framed_initiate.framed0
  | receive d => exact framed0_wrap (framed0_receiveData d)
  | send d => exact framed0_wrap (framed_send _).framed0
  | closeRecv =>
    refine framed0_wrap fun o a t c => ?_
    unfold closeReceivingEnd
    show (match c.state with | .closed _ s => _ | .connected => _ | .failed => _ | _ => _) = _
    cases c.state <;> rfl
  | closeSend => exact framed0_wrap framed_closeSend.framed0
  | rekey => exact framed0_wrap framed0_rekey

/-- two connections that only differ by what they have in the buffers of the application -/
def Alike (c c' : Conn) : Prop := ∃ o a o' a', c.frame [] o a [] = c'.frame [] o' a' []

theorem Alike.refl (c : Conn) : Alike c c := ⟨[], [], [], [], rfl⟩

theorem Alike.run {c c' : Conn} (h : Alike c c') (p : Op) (hp : buffering p = false) :
    (p.run E c).1 = (p.run E c').1 ∧ Alike (p.run E c).2 (p.run E c').2 := by
  obtain ⟨o, a, o', a', h⟩ := h
  have h1 := p.framed0 (E := E) hp o a [] c
  have h2 := p.framed0 (E := E) hp o' a' [] c'
  rw [h, h2] at h1
  exact ⟨(congrArg Prod.fst h1).symm, o, a, o', a', (congrArg Prod.snd h1).symm⟩

theorem Alike.buffer {c c' : Conn} (h : Alike c c') (p : Op) (hp : buffering p = true) :
    Alike (p.run E c).2 c' := by
  obtain ⟨o, a, o', a', h⟩ := h
  cases p with
  | read => exact ⟨o, a ++ c.applicationData, o', a', by rw [← h]; simp [Conn.frame, Op.run, dataToRead]⟩
  | drain => exact ⟨o ++ c.outputData, a, o', a', by rw [← h]; simp [Conn.frame, Op.run, dataToSend]⟩
  | _ => cases hp

theorem Alike.outcomes {c c' : Conn} (h : Alike c c') (ops : List Op) :
    Spec.outcomes E ops c = Spec.outcomes E (ops.filter (!buffering ·)) c' ∧
    Alike (runOps E ops c) (runOps E (ops.filter (!buffering ·)) c') := by
  induction ops generalizing c c' with
  | nil => exact ⟨rfl, h⟩
  | cons p ps ih =>
    cases hp : buffering p with
    | true =>
      rw [List.filter_cons_of_neg (by simp [hp])]
      have := ih (h.buffer (E := E) p hp)
      simpa [Spec.outcomes, runOps, hp] using this
    | false =>
      rw [List.filter_cons_of_pos (by simp [hp])]
      obtain ⟨h1, h2⟩ := h.run (E := E) p hp
      have := ih h2
      simpa [Spec.outcomes, runOps, hp, h1] using this

theorem Alike.same {c c' : Conn} (h : Alike c c') :
    c' = { c with outputData := c'.outputData, applicationData := c'.applicationData } := by
  obtain ⟨o, a, o', a', h⟩ := h
  unfold Conn.frame at h
  simp only [List.append_nil, Conn.mk.injEq] at h
  cases c; cases c'
  simp_all

end Siotls
