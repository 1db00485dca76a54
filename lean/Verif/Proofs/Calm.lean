import Verif.Proofs.DoneInv
/-!
# Histories where the application does not close the connection
-/

namespace Siotls

variable {E : Env} {G : Conn → Prop}

/-- `Api` without the closing methods -/
inductive Calm (E : Env) (G : Conn → Prop) (c : Conn) : Conn → Prop
  | step {c'} : Step E G c c' → Calm E G c c'
  | appended (d : Bytes) : c.state.canReceive = true →
      Calm E G c { c with inputData := c.inputData ++ d }
  | read : Calm E G c { c with applicationData := [] }
  | drain : Calm E G c { c with outputData := [] }

theorem Calm.api {c c' : Conn} (h : Calm E G c c') : Api E G c c' := by
  cases h with
  | step h => exact .step h
  | appended d h => exact .appended d h
  | read => exact .read
  | drain => exact .drain

theorem Steps.calm {c c' : Conn} (h : Steps E G c c') : Relation.ReflTransGen (Calm E G) c c' := by
  induction h with
  | refl => exact .refl
  | tail _ h ih => exact ih.tail (.step h)

theorem Op.calm (o : Op) (c : Conn) (ho : o.isClose = false)
    (hG : o.isReceive = false ∨ Granted G c) :
    Relation.ReflTransGen (Calm E G) c (o.run E c).2 := by
  have wrap : ∀ (m : M Unit), (((do m; pure []) : M Bytes) c).2 = (m c).2 := by
    intro m
    rw [M.bind_def]
    rcases m c with ⟨r, c1⟩
    cases r <;> rfl
  cases o with
  | initiate => rw [Op.run, wrap]; exact (initiate_steps c).calm
  | receive d =>
    rw [Op.run, wrap]
    rcases receiveData_steps (E := E) (G := G) d c (hG.resolve_left (by simp [Op.isReceive])) with
      h | ⟨h1, h2⟩
    · rw [h]
    · exact .head (.appended d h1) h2.calm
  | send d => rw [Op.run, wrap]; exact (sendData_steps d c).calm
  | read => exact .single .read
  | drain => exact .single .drain
  | closeRecv | closeSend => cases ho
  | rekey =>
    rw [Op.run, wrap]
    unfold Siotls.rekey
    split <;> exact .refl

theorem runOps_calm {I : Conn → Prop} (hI : ∀ c c', I c → Calm E (fun _ => True) c c' → I c')
    {c : Conn} (h : I c) (ops : List Op) (ho : ops.all (!·.isClose) = true) :
    I (runOps E ops c) := by
  induction ops generalizing c with
  | nil => exact h
  | cons o os ih =>
    rw [List.all_cons, Bool.and_eq_true] at ho
    refine ih ?_ ho.2
    have hs := o.calm (E := E) (G := fun _ => True) c (by simpa using ho.1) (.inr (.inl fun _ => trivial))
    generalize (o.run E c).2 = c' at hs
    clear ih
    induction hs with
    | refl => exact h
    | tail _ hs ih => exact hI _ _ ih hs

theorem runOps_calm_careful {I : Conn → Prop} (hI : ∀ c c', I c → Calm E Conn.Ready c c' → I c')
    {c : Conn} (h : I c) (hr : c.Ready) (ops : List Op) (hc : Careful E ops c)
    (ho : ops.all (!·.isClose) = true) : I (runOps E ops c) := by
  have steps : ∀ {c c' : Conn}, Relation.ReflTransGen (Calm E Conn.Ready) c c' → I c → I c' := by
    intro c c' hs h
    induction hs with
    | refl => exact h
    | tail _ hs ih => exact hI _ _ ih hs
  have others : ∀ (ops : List Op) (c : Conn), ops.all (!·.isClose) = true →
      ops.all (!·.isReceive) = true → I c → I (runOps E ops c) := by
    intro ops
    induction ops with
    | nil => intro c _ _ h; exact h
    | cons o os ih =>
      intro c ho hq h
      rw [List.all_cons, Bool.and_eq_true] at ho hq
      exact ih _ ho.2 hq.2 (steps (o.calm c (by simpa using ho.1) (.inl (by simpa using hq.1))) h)
  induction ops generalizing c with
  | nil => exact h
  | cons o os ih =>
    rw [List.all_cons, Bool.and_eq_true] at ho
    obtain ⟨h1, h2⟩ := hc
    have hstep := steps (o.calm c (by simpa using ho.1) (.inr (.inr ⟨fun _ h => h, hr⟩))) h
    by_cases hbad : o.isReceive = true ∧ raised (o.run E c).1 = true ∧
        (o.run E c).2.state.isPostHandshake = false
    · exact others os _ ho.2 (h1 hbad.1 hbad.2.1 hbad.2.2) hstep
    · refine ih hstep (o.ready c hr ?_) h2 ho.2
      rintro d rfl
      obtain ⟨e1, e2⟩ := Op.run_receive (E := E) d c
      rw [e1]
      refine receiveData_ready d c hr fun he => ?_
      rw [← e2] at he
      rw [← e1]
      cases hp : ((Op.receive d).run E c).2.state.isPostHandshake with
      | true => rfl
      | false => exact absurd ⟨rfl, he, hp⟩ hbad

/-- a connection is closed because a close_notify was received -/
def ClosedInv (c : Conn) : Prop :=
  (∃ r s, c.state = .closed r s) → ∃ level, Ev.recv (.alert level 0) ∈ c.tr

theorem ClosedInv.calm {c c' : Conn} (h : ClosedInv c) (hs : Calm E G c c') : ClosedInv c' := by
  cases hs with
  | appended | read | drain => exact h
  | step hs =>
    have hsuf := hs.suffix
    have keep : ∀ s, s = c.state → (∃ r x, s = .closed r x) →
        ∃ level, Ev.recv (.alert level 0) ∈ c'.tr := by
      rintro _ rfl hx
      obtain ⟨l, hl⟩ := h hx
      exact ⟨l, hsuf.subset hl⟩
    cases hs with
    | move hm =>
      rintro ⟨r, s, hx⟩
      dsimp only at hx
      subst hx
      cases hm with
      | closeNotify hh => exact ⟨_, List.mem_of_mem_head? hh⟩
    | hrrServer | retry => rintro ⟨r, s, hx⟩; cases hx
    | _ => exact keep _ rfl

theorem ClosedInv.fresh {config : Config} {hostname ocsp algs random} {c : Conn}
    (h : Conn.new config hostname ocsp algs random = .ok c) : ClosedInv c := by
  obtain ⟨_, _, _, _, _, _, _, _, _, _, _, _, hs⟩ := Conn.new_fresh h
  rintro ⟨r, s, hx⟩
  rcases hs with ⟨_, h, _⟩ | ⟨_, h, _⟩ <;> rw [h] at hx <;> cases hx

/-- application data is only delivered when the handshake is over, unless a close_notify came
before; and sent only then or by a server that sent its Finished -/
structure DataInv (Q R : List Ev → Prop) (c : Conn) : Prop where
  delivered : ∀ t d, (Ev.delivered d :: t) <:+ c.tr → Q t ∨ ∃ level, Ev.recv (.alert level 0) ∈ t
  sent : ∀ t d, (Ev.sent (.applicationData d) :: t) <:+ c.tr →
    R t ∨ ∃ level, Ev.recv (.alert level 0) ∈ t

/-- an invariant on all suffixes of the trace that begin with some event -/
theorem suffix_cons_append {e : Ev} {t l tr : List Ev} (h : (e :: t) <:+ (l ++ tr)) :
    (e :: t) <:+ tr ∨ e ∈ l := by
  induction l with
  | nil => exact .inl h
  | cons x l ih =>
    rcases List.suffix_cons_iff.mp h with h | h
    · cases h; exact .inr (.head _)
    · exact (ih h).imp id (.tail _)

theorem DataInv.append {Q R : List Ev → Prop} {c c' : Conn} (h : DataInv Q R c) (l : List Ev)
    (htr : c'.tr = l ++ c.tr) (h1 : ∀ d, Ev.delivered d ∉ l)
    (h2 : ∀ d, Ev.sent (.applicationData d) ∉ l) : DataInv Q R c' := by
  refine ⟨fun t d ht => ?_, fun t d ht => ?_⟩ <;> rw [htr] at ht
  · exact (suffix_cons_append ht).elim (h.delivered t d) fun hx => absurd hx (h1 d)
  · exact (suffix_cons_append ht).elim (h.sent t d) fun hx => absurd hx (h2 d)

theorem DataInv.calm {Q R : List Ev → Prop} {c c' : Conn} (h : DataInv Q R c) (hcl : ClosedInv c)
    (hQ : c.state = .connected → Q c.tr)
    (hR : c.state = .connected ∨ (∃ fh, c.state = .serverWaitFin fh) → ∀ t, c.tr <:+ t → R t)
    (hs : Calm E G c c') : DataInv Q R c' := by
  cases hs with
  | appended | read | drain => exact ⟨h.1, h.2⟩
  | step hs =>
    cases hs with
    | delivered _ hst =>
      refine ⟨fun t d ht => ?_, fun t d ht => ?_⟩
      · rcases List.suffix_cons_iff.mp ht with ht | ht
        · cases ht
          rcases hst with hst | ⟨s, hst⟩
          · exact .inl (hQ hst)
          · exact .inr (hcl ⟨_, _, hst⟩)
        · exact h.delivered t d ht
      · rcases List.suffix_cons_iff.mp ht with ht | ht
        · cases ht
        · exact h.sent t d ht
    | @emit c₀ content records hctx hg =>
      have hr : ∀ e ∈ (records.map fun r => Ev.record r.1 r.2.1).reverse, ∃ o b, e = .record o b := by
        intro e he
        simp only [List.mem_reverse, List.mem_map] at he
        obtain ⟨r, _, rfl⟩ := he
        exact ⟨_, _, rfl⟩
      refine ⟨fun t d ht => ?_, fun t d ht => ?_⟩
      · rcases List.suffix_cons_iff.mp ht with ht | ht
        · cases ht
        · refine (suffix_cons_append ht).elim (h.delivered t d) fun hx => ?_
          obtain ⟨_, _, hx⟩ := hr _ hx
          cases hx
      · rcases List.suffix_cons_iff.mp ht with ht | ht
        · cases ht
          have hst : c.state = c₀.state := by rw [hctx.same]
          have happ : c.state.canSendApp = true := by rw [hst]; exact hg
          have hsuf := List.suffix_append (records.map fun r => Ev.record r.1 r.2.1).reverse c.tr
          cases hs : c.state <;> rw [hs] at happ <;> first
            | (cases happ; done)
            | exact .inl (hR (by rw [hs]; first | exact .inl rfl | exact .inr ⟨_, rfl⟩) _ hsuf)
            | (obtain ⟨l, hl⟩ := hcl ⟨_, _, hs⟩
               exact .inr ⟨l, hsuf.subset hl⟩)
        · refine (suffix_cons_append ht).elim (h.sent t d) fun hx => ?_
          obtain ⟨_, _, hx⟩ := hr _ hx
          cases hx
    | handshakeKeys | masterKeys =>
      refine h.append _ rfl ?_ ?_ <;> intro d hd <;>
        rcases mem_keyEvents hd with ⟨_, _, he⟩ | ⟨_, _, he⟩ | ⟨_, _, he⟩ <;> cases he
    | @hashSent _ _ b =>
      cases b
      · exact ⟨h.1, h.2⟩
      · exact h.append [_] rfl (by simp) (by simp)
    | @receivedHs _ _ _ b =>
      cases b
      · exact h.append [_] rfl (by simp) (by simp)
      · exact h.append [_, _] rfl (by simp) (by simp)
    | _ => first | exact ⟨h.1, h.2⟩ | exact h.append [_] rfl (by simp) (by simp)

theorem DataInv.fresh {Q R : List Ev → Prop} {config : Config} {hostname ocsp algs random} {c : Conn}
    (h : Conn.new config hostname ocsp algs random = .ok c) : DataInv Q R c := by
  obtain ⟨_, _, _, _, _, _, _, _, htr, _⟩ := Conn.new_fresh h
  refine ⟨fun t d ht => ?_, fun t d ht => ?_⟩ <;> rw [htr] at ht <;> simp at ht

/-! ## servers that require client authentication -/

/-- never past its own flight -/
structure MtlsInv (config : Config) (c : Conn) : Prop where
  early : config.requirePeerAuth = true → c.state ≠ .connected ∧ ∀ h, c.state ≠ .serverWaitFin h

theorem MtlsInv.api {config : Config} {hostname} {c c' : Conn}
    (h : MtlsInv config c)
    (hcfg : CfgInv config hostname c) (hi : SideInv .server c) (hs : Api E G c c') :
    MtlsInv config c' := by
  refine ⟨fun hreq => ?_⟩
  have h := h.early hreq
  have hr : c.config.requirePeerAuth = true := by
    obtain ⟨s, g, a, he⟩ := hcfg.same
    rw [he]; exact hreq
  cases hs with
  | appended | read | drain => exact h
  | closeRecv => unfold closeReceivingEnd; split <;> exact ⟨by simp, by simp⟩
  | closing => cases hs : c.state <;> exact ⟨by simp [St.closing], by simp [St.closing]⟩
  | closedSend => exact ⟨by simp, by simp⟩
  | step hs =>
    cases hs with
    | move hm =>
      refine ⟨?_, ?_⟩
      · rintro hx
        dsimp only at hx
        subst hx
        cases hm with
        | clientDone hst => exact absurd (hi.state .client (by rw [hst]; rfl)) (by simp)
        | serverDone hst => exact h.2 _ hst
      · rintro hh hx
        dsimp only at hx
        subst hx
        cases hm with
        | serverFinished _ hf => rw [hr] at hf; cases hf
    | hrrServer | retry => exact ⟨by simp, by simp⟩
    | _ => exact h

theorem MtlsInv.fresh {config : Config} {hostname ocsp algs random} {c : Conn}
    (h : Conn.new config hostname ocsp algs random = .ok c) : MtlsInv config c := by
  obtain ⟨_, _, _, _, _, _, _, _, _, _, _, _, hs⟩ := Conn.new_fresh h
  refine ⟨fun _ => ?_⟩
  rcases hs with ⟨_, h, _⟩ | ⟨_, h, _⟩ <;> rw [h] <;> simp

/-! ## clients that only trust raw public keys -/

/-- never past the server's certificate -/
def St.pastCert : St → Bool
  | .clientWaitCV .. | .clientWaitFin .. | .connected => true
  | _ => false

def RawInv (config : Config) (c : Conn) : Prop :=
  config.requirePeerAuth = true → config.trustStore = none → c.state.pastCert = false

theorem RawInv.api {config : Config} {hostname} {c c' : Conn} (h : RawInv config c)
    (hcfg : CfgInv config hostname c) (hi : SideInv .client c) (hs : Api E G c c') :
    RawInv config c' := by
  intro hreq hnone
  have h := h hreq hnone
  cases hs with
  | appended | read | drain => exact h
  | closeRecv => unfold closeReceivingEnd; split <;> rfl
  | closing => cases hs : c.state <;> rfl
  | closedSend => rfl
  | step hs =>
    cases hs with
    | move hm =>
      cases hm with
      | certificate _ _ _ _ hok =>
        obtain ⟨s, g, a, he⟩ := hcfg.same
        obtain ⟨_, _, _, _, h1, _⟩ := hok (by rw [he]; exact hreq)
        rw [he] at h1
        dsimp only at h1
        rw [hnone] at h1; cases h1
      | verify hst => rw [hst] at h; cases h
      | clientDone hst => rw [hst] at h; cases h
      | serverDone hst => exact absurd (hi.state .server (by rw [hst]; rfl)) (by simp)
      | _ => rfl
    | hrrServer | retry => rfl
    | _ => exact h

theorem RawInv.fresh {config : Config} {hostname ocsp algs random} {c : Conn}
    (h : Conn.new config hostname ocsp algs random = .ok c) : RawInv config c := by
  obtain ⟨_, _, _, _, _, _, _, _, _, _, _, _, hs⟩ := Conn.new_fresh h
  intro _ _
  rcases hs with ⟨_, h, _⟩ | ⟨_, h, _⟩ <;> rw [h] <;> rfl

end Siotls
