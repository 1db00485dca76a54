import Verif.Proofs.CertInv
import Verif.Proofs.Lost
/-!
# Evidence when the handshake is over
-/

namespace Siotls

variable {E : Env} {G : Conn → Prop} {P : Covers}

/-- what an endpoint knows of its peer once the application keys are there -/
def PeerDone (E : Env) (P : Covers) (config : Config) (hostname : Option PyStr) (ocsp : Bool) (a : HashAlg)
    (tr : List Ev) : Prop :=
  match config.side with
  | .client => ServerFinished E P a tr ∧ ∀ store, config.trustStore = some store →
      ServerAuthenticated E P a config hostname ocsp store tr
  | .server => ClientFinished E P a tr

theorem PeerDone.mono {config hostname ocsp a tr tr'} (h : PeerDone E P config hostname ocsp a tr)
    (ht : tr <:+ tr') : PeerDone E P config hostname ocsp a tr' := by
  unfold PeerDone at *
  split at h
  · exact ⟨h.1.mono ht, fun s hs => (h.2 s hs).mono ht⟩
  · exact ClientFinished.mono h ht

structure DoneInv (E : Env) (P : Covers) (config : Config) (hostname : Option PyStr) (ocsp : Bool) (c : Conn) :
    Prop where
  done : ∀ k, c.cipher = some k → k.cFin = .none → PeerDone E P config hostname ocsp k.info.digest c.tr
  last : ∀ h, c.state = .serverWaitFin h → ∃ k t mac, c.cipher = some k ∧ t <:+ c.tr ∧
    t.head? = some (.sent (.handshake (.finished mac))) ∧ P k.info.digest t h
  verified : ∀ m h, c.state = .clientWaitFin m h → ∃ k t alg sig, c.cipher = some k ∧ t <:+ c.tr ∧
    t.head? = some (.recv (.handshake (.certificateVerify alg sig))) ∧ P k.info.digest t h

theorem DoneInv.same {config hostname ocsp} {c c' : Conn} (h : DoneInv E P config hostname ocsp c)
    (ht : c.tr <:+ c'.tr) (hs : c'.state = c.state)
    (hk : ∀ k', c'.cipher = some k' → k'.cFin = .none → ∃ k, c.cipher = some k ∧ k.cFin = .none ∧
      k'.info = k.info)
    (hk' : ∀ k, c.cipher = some k → ∃ k', c'.cipher = some k' ∧ k'.info = k.info) :
    DoneInv E P config hostname ocsp c' := by
  refine ⟨fun k' h1 h2 => ?_, fun hh hst => ?_, fun m hh hst => ?_⟩
  · obtain ⟨k, h3, h4, h5⟩ := hk k' h1 h2
    rw [h5]
    exact (h.done k h3 h4).mono ht
  · obtain ⟨k, t, mac, h1, h2, h3, h4⟩ := h.last hh (hs ▸ hst)
    obtain ⟨k', h5, h6⟩ := hk' k h1
    exact ⟨k', t, mac, h5, h2.trans ht, h3, h6 ▸ h4⟩
  · obtain ⟨k, t, alg, sig, h1, h2, h3, h4⟩ := h.verified m hh (hs ▸ hst)
    obtain ⟨k', h5, h6⟩ := hk' k h1
    exact ⟨k', t, alg, sig, h5, h2.trans ht, h3, h6 ▸ h4⟩

theorem verifyFinish_is {k : CipherSt} {h vd : Bytes} (hv : verifyFinish E k h vd = .ok ()) :
    ∃ x, (match k.side with | .client => k.sFin | .server => k.cFin) = .key x ∧
      vd = E.hmac k.info.digest x h := by
  obtain ⟨info, side, secrets, rd, wr, cf, sf⟩ := k
  unfold verifyFinish at hv
  have key : ∀ x : Bytes, (if E.hmac info.digest x h = vd then (pure () : Except Exn Unit) else
      Except.error Exn.valueError) = .ok () → vd = E.hmac info.digest x h := by
    intro x hx
    split at hx
    · exact Eq.symm ‹_›
    · cases hx
  cases side <;> dsimp only at hv ⊢
  · cases sf with
    | key x => exact ⟨x, rfl, key x hv⟩
    | _ => cases hv
  · cases cf with
    | key x => exact ⟨x, rfl, key x hv⟩
    | _ => cases hv

theorem DoneInv.step {config hostname ocsp} {c c' : Conn} (h : DoneInv E P config hostname ocsp c)
    (hs : Step E G c c') (hi : SideInv config.side c)
    (ha : AlgInv c) (hsrc : SrcInv E P config.side c)
    (hcert : config.side = .client → ∀ store, config.trustStore = some store →
      CertInv E P config hostname ocsp store c) (hP : Hashing E P c) :
    DoneInv E P config hostname ocsp c' := by
  have hsuf := hs.suffix
  have self : ∀ k', c.cipher = some k' → k'.cFin = .none → ∃ k, c.cipher = some k ∧ k.cFin = .none ∧
      k'.info = k.info := fun k hk hf => ⟨k, hk, hf, rfl⟩
  have self' : ∀ k, c.cipher = some k → ∃ k', c.cipher = some k' ∧ k'.info = k.info :=
    fun k hk => ⟨k, hk, rfl⟩
  have kd : ∀ {k k' : CipherSt}, c.cipher = some k → k'.info = k.info → ∀ k₁, c.cipher = some k₁ →
      ∃ k₂, some k' = some k₂ ∧ k₂.info = k₁.info := by
    intro k k' hc hi k₁ hk
    rw [hc] at hk; cases hk
    exact ⟨k', rfl, hi⟩
  cases hs with
  | badRecord hc | opened hc | sealed hc =>
    exact h.same hsuf rfl (by rintro _ ⟨⟩ hf; exact ⟨_, hc, hf, rfl⟩) (kd hc rfl)
  | skipEarly hc hsk =>
    obtain ⟨_, _, rfl⟩ := skipEarly_view hsk
    exact h.same hsuf rfl (by rintro _ ⟨⟩ hf; exact ⟨_, hc, hf, rfl⟩) (kd hc rfl)
  | setup hok =>
    refine ⟨?_, ?_, ?_⟩
    · rintro _ ⟨⟩ hf; cases hf
    · intro hh hst
      dsimp only at hst
      cases hok with
      | client hx => rw [hx] at hst; cases hst
      | server hx => rw [hx] at hst; cases hst
    · intro m hh hst
      dsimp only at hst
      cases hok with
      | client hx => rw [hx] at hst; cases hst
      | server hx => rw [hx] at hst; cases hst
  | handshakeKeys _ hc _ hd =>
    refine h.same hsuf rfl ?_ (kd hc (by cases deriveHandshake_view hd <;> rfl))
    rintro _ ⟨⟩ hf
    cases deriveHandshake_view hd with
    | refused => exact ⟨_, hc, hf, rfl⟩
    | early => exact ⟨_, hc, hf, rfl⟩
    | stuck => cases hf
    | done => cases hf
  | hrrServer | retry => exact ⟨h.done, fun _ hx => (by cases hx), fun _ _ hx => by cases hx⟩
  | @masterKeys k sf cf r k' _ hc hok hd =>
    cases deriveMaster_view hd with
    | refused => exact h.same hsuf rfl (by rintro _ ⟨⟩ hf; exact ⟨_, hc, hf, rfl⟩) (kd hc rfl)
    | stuck => exact h.same hsuf rfl (by rintro _ ⟨⟩ hf; exact ⟨_, hc, hf, rfl⟩) (kd hc rfl)
    | done h2 hu =>
      refine ⟨?_, ?_, ?_⟩
      · rintro _ ⟨⟩ -
        refine PeerDone.mono (tr := c.tr) ?_ hsuf
        have hside := hi.cipher k hc
        unfold PeerDone
        cases hok with
        | @client hh k₁ vd mine data t b hst hc' hl hv =>
          rw [hc] at hc'
          cases hc'
          have hsc := hi.state .client (by rw [hst]; rfl)
          rw [← hsc]
          obtain ⟨x, h3, h4⟩ := verifyFinish_is hv
          rw [hside, ← hsc] at h3
          obtain ⟨sh, th, h5, h6, h7⟩ := hsrc.src k hc hu x (.inr h3)
          rw [← hsc] at h7
          have h3' : k.sFin = .key x := h3
          rw [h6] at h3'
          cases h3'
          refine ⟨?_, fun store hstore => ?_⟩
          · obtain ⟨k', t, alg, sig, h8, h9, h10, h11⟩ := h.verified _ _ hst
            rw [hc] at h8
            cases h8
            exact ⟨c.tr, t, alg, sig, vd, hh, sh, th, List.suffix_refl _, h9, h10, h11,
              lastRecv_mem hl, h7, h4⟩
          obtain ⟨k', leaf, h8, h9⟩ := (hcert hsc.symm store hstore).signature _ _ hst
          rw [hc] at h8
          cases h8
          exact ⟨c.tr, leaf, hh, vd, sh, th, List.suffix_refl _, h9, lastRecv_mem hl, h7, h4⟩
        | @server k₁ vd hst hc' hl hv =>
          rw [hc] at hc'
          cases hc'
          have hsc := hi.state .server (by rw [hst]; rfl)
          rw [← hsc]
          obtain ⟨x, h3, h4⟩ := verifyFinish_is hv
          rw [hside, ← hsc] at h3
          obtain ⟨sh, th, h5, h6, h7⟩ := hsrc.src k hc hu x (.inl h3)
          rw [← hsc] at h7
          obtain ⟨k', t, mac, h8, h9, h10, h11⟩ := h.last _ hst
          rw [hc] at h8
          cases h8
          have h3' : k.cFin = .key x := h3
          rw [h5] at h3'
          cases h3'
          exact ⟨c.tr, t, mac, vd, sf, sh, th, List.suffix_refl _, h9, h10, h11, lastRecv_mem hl, h7,
            h4⟩
      · intro hh hst
        obtain ⟨k₁, t, mac, h3, h4, h5, h6⟩ := h.last hh hst
        rw [hc] at h3
        cases h3
        exact ⟨_, t, mac, rfl, h4.trans hsuf, h5, h6⟩
      · intro m hh hst
        obtain ⟨k₁, t, alg, sig, h3, h4, h5, h6⟩ := h.verified m hh hst
        rw [hc] at h3
        cases h3
        exact ⟨_, t, alg, sig, rfl, h4.trans hsuf, h5, h6⟩
  | @move s hm =>
    refine ⟨h.done, fun hh hst => ?_, fun m hh hst => ?_⟩ <;> dsimp only at hst <;> subst hst
    · cases hm with
      | serverFinished hst _ hhead hdig hw _ =>
        have hal := ha.enc (by rw [← encOf_eq]; exact hw)
        obtain ⟨k, _, hk, _⟩ := id hal
        exact ⟨k, c.tr, _, hk, List.suffix_refl _, hhead,
          hP k _ hk hal (fun _ => ⟨_, List.mem_of_mem_head? hhead⟩)
            (fun hx => by rw [hi.config, ← hi.state .server (by rw [hst]; rfl)] at hx; cases hx) hdig⟩
    · cases hm with
      | verify hst hl hhead _ _ _ _ hdig =>
        have hal := ha.settled (by rw [hst]; rfl)
        obtain ⟨k, _, hk, _⟩ := id hal
        have hsc := hi.state .client (by rw [hst]; rfl)
        exact ⟨k, c.tr, _, _, hk, List.suffix_refl _, hhead, hP k _ hk hal
          (fun hx => by rw [hi.config, ← hsc] at hx; cases hx) (fun _ => .inr (.inr ⟨_, _, hst⟩)) hdig⟩
  | _ => exact h.same hsuf rfl self self'

theorem DoneInv.api {config hostname ocsp} {c c' : Conn} (h : DoneInv E P config hostname ocsp c)
    (hs : Api E G c c') (hi : SideInv config.side c)
    (ha : AlgInv c) (hsrc : SrcInv E P config.side c)
    (hcert : config.side = .client → ∀ store, config.trustStore = some store →
      CertInv E P config hostname ocsp store c) (hP : Hashing E P c) :
    DoneInv E P config hostname ocsp c' := by
  cases hs with
  | step hs => exact h.step hs hi ha hsrc hcert hP
  | appended | read | drain => exact ⟨h.1, h.2, h.3⟩
  | closeRecv =>
    refine ⟨?_, ?_, ?_⟩
    · obtain ⟨s, hs⟩ := closeReceivingEnd_same c
      rw [hs]; exact h.1
    · unfold closeReceivingEnd
      split <;> intro _ hx <;> cases hx
    · unfold closeReceivingEnd
      split <;> intro _ _ hx <;> cases hx
  | closing =>
    refine ⟨h.1, fun hh hx => ?_, fun _ hh hx => ?_⟩ <;>
    cases hs : c.state <;> rw [hs] at hx <;> cases hx
  | closedSend => exact ⟨h.1, fun _ hx => (by cases hx), fun _ _ hx => by cases hx⟩

theorem DoneInv.fresh {config : Config} {hostname ocsp algs random} {c : Conn}
    (h : Conn.new config hostname ocsp algs random = .ok c) : DoneInv E P config hostname ocsp c := by
  obtain ⟨h0, hn, hc, _, _, _, _, _, htr, _, _, _, hs⟩ := Conn.new_fresh h
  refine ⟨by rw [hc]; simp, ?_, ?_⟩ <;>
  rcases hs with ⟨_, h, _⟩ | ⟨_, h, _⟩ <;> rw [h] <;> intros <;> contradiction

/-! ## all together -/

/-- everything known of a client, in all histories -/
structure ClientInv (E : Env) (config : Config) (hostname : Option PyStr) (ocsp : Bool) (c : Conn) : Prop where
  side : SideInv .client c
  cfg : CfgInv config hostname c
  status : c.hasOcsp = ocsp
  key : KeyInv E c
  alg : AlgInv c
  order : ClientOrder c
  since : SinceInv c
  lost : LostInv c
  src : SrcInv E (CoversSince E) .client c
  cert : ∀ store, config.trustStore = some store → CertInv E
    (CoversSince E) config hostname ocsp store c
  done : DoneInv E (CoversSince E) config
    hostname ocsp c

theorem Conn.Hashes.lossy {c : Conn} (hh : c.Hashes) (h : LostInv c) (hn : ¬ NoRetry c.tr) :
    3 ≤ c.transcript.orderI ∧ Lossy c.transcript.hashes c.tr := by
  rcases hh with ⟨f, ks, ch, r, sid, s, e, hs, hl⟩ | ⟨m, hs⟩ | ⟨m, x, hs⟩
  · exact (h.hello (by rw [hs]; rfl) (by rw [hl]; rfl)).imp id fun h => h hn
  · exact (h.amid (by rw [hs]; rfl)).imp id fun h => h hn
  · exact (h.amid (by rw [hs]; rfl)).imp id fun h => h hn

theorem SinceInv.hashing (hE : E.Sized) {c : Conn} (h : SinceInv c) (hl : LostInv c)
    (ho : ClientOrder c) (hi : SideInv .client c) : Hashing E (CoversSince E) c := by
  intro k hh hk ha _ hc hd
  obtain ⟨k', d, h1, h2, rfl⟩ := ha.digest hd
  rw [hk] at h1
  cases h1
  have hm : (k.info.digest, d) ∈ c.transcript.hashes := by rw [h2]; exact .head _
  by_cases hnr : NoRetry c.tr
  · obtain ⟨x, hx, hn⟩ := h.hashes _ hm
    dsimp only at hx
    exact ⟨x, by rw [hx], fun hnr => ⟨hn hnr, sinceRetry_eq hnr⟩, fun hx => absurd hnr hx⟩
  · obtain ⟨h3, h4⟩ := (hc hi.config).lossy hl hnr
    obtain ⟨ch, h1, h2⟩ := h4 _ hm
    dsimp only at h2
    exact ⟨_, by rw [h2], fun hx => absurd hx hnr, fun _ => ⟨⟨ch, h1, rfl⟩, hl.ne hE ho h3 hnr _ h1⟩⟩

theorem ClientInv.api (hE : E.Sized) {config : Config} {hostname ocsp} (hside : config.side = .client)
    {c c' : Conn} (h : ClientInv E config hostname ocsp c) (hs : Api E G c c') :
    ClientInv E config hostname ocsp c' := by
  have hP := h.since.hashing hE h.lost h.order h.side
  have hside' : SideInv config.side c := by rw [hside]; exact h.side
  exact ⟨h.side.api hs, h.cfg.api hs hside', hs.ocsp.trans h.status, h.key.api hE hs, h.alg.api hs,
    h.order.api h.side hs, h.since.api h.order h.side hs,
    h.lost.api hE h.order h.alg h.since h.side hs,
    h.src.api hE hs h.side h.key h.alg hP,
    fun store hst => (h.cert store hst).api hst hside hs h.cfg h.status h.side h.order h.alg hP,
    h.done.api hs hside' h.alg (by rw [hside]; exact h.src) (fun _ => h.cert) hP⟩

theorem ClientInv.run (hE : E.Sized) {config : Config} {hostname ocsp algs random} {c : Conn}
    (h : Conn.new config hostname ocsp algs random = .ok c) (hside : config.side = .client)
    (ops : List Op) : ClientInv E config hostname ocsp (runOps E ops c) := by
  refine runOps_inv (fun c c' h hs => h.api hE hside hs) ?_ ops
  have := SideInv.fresh h
  rw [hside] at this
  exact ⟨this, .fresh h, Conn.new_ocsp h, .fresh h, .fresh h, .fresh h, .fresh h, .fresh h, .fresh h,
    fun _ _ => .fresh h, .fresh h⟩

/-- a handshake message was sent, so there are at least two -/
def TwoMsgs (tr : List Ev) : Prop :=
  (∃ m, Ev.sent (.handshake m) ∈ tr) → 2 ≤ (exchanged tr).length

theorem exchanged_append (l tr : List Ev) : exchanged (l ++ tr) = exchanged tr ++ exchanged l := by
  induction l with
  | nil => simp [exchanged]
  | cons e l ih => cases e <;> simp [exchanged, ih]

theorem TwoMsgs.append {tr : List Ev} (h : TwoMsgs tr) (l : List Ev)
    (hl : ∀ m, Ev.sent (.handshake m) ∉ l) : TwoMsgs (l ++ tr) := by
  rintro ⟨m, hm⟩
  rw [List.mem_append] at hm
  have := h ⟨m, hm.resolve_left (hl m)⟩
  rw [exchanged_append, List.length_append]
  omega

theorem At.two_le {b : List (Side × Nat)} {i : Nat} {l : List (Side × Nat)} (h : At b i l)
    (hi : 3 ≤ i) : 2 ≤ l.length := by
  have key : ∀ i : Fin 13, 3 ≤ i.val → ∀ w ∈ words i.val, 2 ≤ w.length := by decide
  have hle := h.le.2
  obtain ⟨w, hw, rfl⟩ := h
  have := key ⟨i, by omega⟩ hi w hw
  rw [List.length_append]
  omega

theorem kinds_length (tr : List Ev) : (kinds tr).length = (exchanged tr).length := by simp [kinds]

theorem Main.two_le {s : St} {t : Transcript} {tr : List Ev} (h : Main E s t tr) (hi : 3 ≤ t.orderI) :
    2 ≤ (exchanged tr).length := by
  rcases h with ⟨h, _⟩ | ⟨_, h | ⟨_, ch, hrr, rest, a, h, _⟩⟩
  · rw [← kinds_length]; exact h.two_le hi
  · have := h.1; omega
  · rw [h]; simp

/-- a message of the server, hashed, is at least the second -/
theorem Main.server_two {s : St} {t : Transcript} {tr : List Ev} (h : Main E s t tr)
    (hm : ∃ ty d, (Side.server, ty, d) ∈ exchanged tr) : 2 ≤ (exchanged tr).length := by
  rcases h with ⟨h, _⟩ | ⟨_, ⟨_, ch, a, h, _⟩ | ⟨_, ch, hrr, rest, a, h, _⟩⟩
  · rw [← kinds_length]
    by_cases hi : 3 ≤ t.orderI
    · exact h.two_le hi
    · obtain ⟨ty, d, hm⟩ := hm
      have hk : (Side.server, ty) ∈ kinds tr := List.mem_map_of_mem (f := Msg.kind) hm
      have hle := h.le
      have : t.orderI = 1 ∨ t.orderI = 2 := by omega
      rcases this with h1 | h1 <;> rw [h1] at h
      · rw [h.one] at hk; cases hk
      · rw [h.two] at hk; simp at hk
  · obtain ⟨ty, d, hm⟩ := hm
    rw [h] at hm; simp at hm
  · rw [h]; simp

theorem TwoMsgs.step {c c' : Conn} (h : TwoMsgs c.tr) (ho : ServerOrder E c) (hi : SideInv .server c)
    (hs : Step E G c c') : TwoMsgs c'.tr := by
  cases hs with
  | @emit c₀ content records hctx hg =>
    by_cases hh : ∃ m, content = .handshake m
    · rintro -
      rw [exchanged_emit]
      obtain ⟨data, -, -, seals, hs, htr, -, -, hhs, -⟩ := hctx.data
      rcases hhs with ⟨m, -, rfl⟩ | ⟨-, h12⟩
      · refine ho.main.server_two ⟨m.msgType, data, ?_⟩
        have hcs : c₀.config.side = .server := by
          have := hi.config
          rw [hctx.same] at this; exact this
        rw [htr, hcs, exchanged_append, exchanged_append]
        simp [exchanged]
      · exact ho.main.two_le (by rw [h12 hh]; omega)
    · refine h.append (.sent content :: (records.map fun r => Ev.record r.1 r.2.1).reverse) ?_
      intro m hm
      simp only [List.mem_cons, List.mem_reverse, List.mem_map] at hm
      rcases hm with hm | ⟨r, _, hm⟩
      · cases hm; exact hh ⟨m, rfl⟩
      · cases hm
  | handshakeKeys | masterKeys =>
    refine h.append _ fun m hm => ?_
    rcases mem_keyEvents hm with ⟨_, _, he⟩ | ⟨_, _, he⟩ | ⟨_, _, he⟩ <;> cases he
  | @hashSent _ _ b =>
    cases b
    · exact h
    · exact h.append [_] (by simp)
  | @receivedHs _ _ _ b =>
    cases b
    · exact h.append [_] (by simp)
    · exact h.append [_, _] (by simp)
  | _ => first | exact h | exact h.append [_] (by simp)

theorem not_client_two (i : Nat) (hi : i ≤ 12) (w) (hw : w ∈ words i) : (Side.client, 2) ∉ [] ++ w := by
  have key : ∀ i : Fin 13, ∀ w ∈ words i.val, (Side.client, 2) ∉ w := by decide
  exact key ⟨i, by omega⟩ w hw

theorem ServerOrder.hashing {c : Conn} (h : ServerOrder E c) (h2 : TwoMsgs c.tr)
    (hi : SideInv .server c) : Hashing E (CoversRfc E) c := by
  intro k hh hk ha hs _ hdig
  have h2 := h2 (hs hi.config)
  obtain ⟨k', d, h1, hd, rfl⟩ := ha.digest hdig
  rw [hk] at h1
  cases h1
  unfold CoversRfc
  congr 1
  rcases h.main with ⟨hat, hno, h⟩ | ⟨_, ⟨_, ch, a, h, _⟩ | ⟨_, ch, hrr, rest, a, h, hr, hh⟩⟩
  · have := h (k.info.digest, d) (by rw [hd]; exact .head _)
    dsimp only at this
    rw [this]
    unfold Spec.transcript
    split
    · rename_i cs hello ss retry rest he
      split
      · rename_i hr
        have hs : ss = .server := by
          have hk : (ss, 2) ∈ kinds c.tr := by
            unfold kinds; rw [he]; exact .tail _ (.head _)
          have h12 := hat.le.2
          obtain ⟨w, hw, he'⟩ := hat
          rw [he'] at hk
          cases ss with
          | server => rfl
          | client => exact absurd hk (not_client_two _ h12 _ hw)
        have := hno (ss, 2, retry) (by rw [he]; exact .tail _ (.head _)) hs rfl
        rw [hr] at this; cases this
      · rw [he]
    · rfl
  · rw [h] at h2; simp at h2
  · rw [hd] at hh
    cases hh
    rw [h]
    simp [Spec.transcript, hr, synthetic, Env.spec, Spec.concat]

/-- everything known of a server used carefully -/
structure ServerInv (E : Env) (config : Config) (hostname : Option PyStr) (ocsp : Bool) (c : Conn) : Prop where
  side : SideInv .server c
  cfg : CfgInv config hostname c
  key : KeyInv E c
  alg : AlgInv c
  phase : Phase c
  order : ServerOrder E c
  two : TwoMsgs c.tr
  src : SrcInv E (CoversRfc E) .server c
  done : DoneInv E (CoversRfc E) config hostname ocsp c

theorem ServerInv.api (hE : E.Sized) {config : Config} {hostname ocsp} (hside : config.side = .server)
    {c c' : Conn} (h : ServerInv E config hostname ocsp c) (hs : Api E Conn.Ready c c') :
    ServerInv E config hostname ocsp c' := by
  have hP := h.order.hashing h.two h.side
  have hside' : SideInv config.side c := by rw [hside]; exact h.side
  refine ⟨h.side.api hs, h.cfg.api hs hside', h.key.api hE hs, h.alg.api hs, h.phase.api hs,
    h.order.api h.phase h.side hs, ?_, h.src.api hE hs h.side h.key h.alg hP,
    h.done.api hs hside' h.alg (by rw [hside]; exact h.src)
      (fun hx => by rw [hside] at hx; cases hx) hP⟩
  cases hs with
  | step hs => exact h.two.step h.order h.side hs
  | closeRecv =>
    obtain ⟨s, hs⟩ := closeReceivingEnd_same c
    rw [hs]; exact h.two
  | _ => exact h.two

theorem ServerInv.run (hE : E.Sized) {config : Config} {hostname ocsp algs random} {c : Conn}
    (h : Conn.new config hostname ocsp algs random = .ok c) (hside : config.side = .server)
    (hr : random.length = 32) (hne : random ≠ Spec.retryRandom) (ops : List Op)
    (hc : Careful E ops c) : ServerInv E config hostname ocsp (runOps E ops c) := by
  refine runOps_inv_careful (fun c c' h hs => h.api hE hside hs) ?_ (ready_fresh h) ops hc
  have := SideInv.fresh h
  rw [hside] at this
  refine ⟨this, .fresh h, .fresh h, .fresh h, .fresh h, .fresh h hside hr hne, ?_, .fresh h,
    .fresh h⟩
  obtain ⟨_, _, _, _, _, _, _, _, htr, _⟩ := Conn.new_fresh h
  rw [htr]
  rintro ⟨_, h⟩
  cases h

end Siotls
