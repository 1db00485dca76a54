import Verif.Proofs.OrderServer
/-!
# What never changes, and the hash function of the transcript
-/

namespace Siotls

variable {E : Env} {G : Conn → Prop}

/-! ## traces only grow -/

theorem Step.suffix {c c' : Conn} (h : Step E G c c') : c.tr <:+ c'.tr := by
  cases h with
  | emit => exact (List.suffix_append _ _).trans (List.suffix_cons _ _)
  | hashSent => dsimp only; split <;> first | exact List.suffix_cons _ _ | exact List.suffix_refl _
  | receivedHs =>
    dsimp only; split
    · exact (List.suffix_cons _ _).trans (List.suffix_cons _ _)
    · exact List.suffix_cons _ _
  | handshakeKeys | masterKeys => exact List.suffix_append _ _
  | gotHandshake | gotOther | opened | sealed | received | delivered => exact List.suffix_cons _ _
  | _ => exact List.suffix_refl _

theorem Api.suffix {c c' : Conn} (h : Api E G c c') : c.tr <:+ c'.tr := by
  cases h with
  | step h => exact h.suffix
  | closeRecv =>
    obtain ⟨s, hs⟩ := closeReceivingEnd_same c
    rw [hs]; exact List.suffix_refl _
  | _ => exact List.suffix_refl _

/-! ## the configuration -/

/-- only the lists narrowed after a HelloRetryRequest differ from the original configuration -/
structure CfgInv (config : Config) (hostname : Option PyStr) (c : Conn) : Prop where
  same : ∃ s g a, c.config = { config with cipherSuites := s, keyExchanges := g, signatureAlgorithms := a }
  client : config.side = .client → c.config.signatureAlgorithms = config.signatureAlgorithms ∧
    c.hostname = hostname

theorem CfgInv.step {config hostname} {c c' : Conn} (h : CfgInv config hostname c)
    (hs : Step E G c c') (hi : SideInv config.side c) : CfgInv config hostname c' := by
  cases hs with
  | cfg hk =>
    obtain ⟨s, g, a, he⟩ := h.same
    cases hk with
    | client _ _ _ _ _ _ _ hk => subst hk; exact ⟨⟨_, _, _, by dsimp only; rw [he]⟩, h.client⟩
  | retry _ hk =>
    obtain ⟨s, g, a, he⟩ := h.same
    cases hk with
    | client _ _ _ _ _ _ _ hk => subst hk; exact ⟨⟨_, _, _, by dsimp only; rw [he]⟩, h.client⟩
  | hrrServer hst =>
    obtain ⟨s, g, a, he⟩ := h.same
    refine ⟨⟨_, _, _, by dsimp only [narrowed]; rw [he]⟩, fun hc => ?_⟩
    have := hi.state .server (by rw [hst]; rfl)
    rw [hc] at this; cases this
  | _ => exact ⟨h.same, h.client⟩

theorem CfgInv.api {config hostname} {c c' : Conn} (h : CfgInv config hostname c)
    (hs : Api E G c c') (hi : SideInv config.side c) : CfgInv config hostname c' := by
  cases hs with
  | step hs => exact h.step hs hi
  | closeRecv =>
    obtain ⟨s, hs⟩ := closeReceivingEnd_same c
    rw [hs]; exact ⟨h.same, h.client⟩
  | _ => exact ⟨h.same, h.client⟩

theorem CfgInv.fresh {config : Config} {hostname ocsp algs random} {c : Conn}
    (h : Conn.new config hostname ocsp algs random = .ok c) : CfgInv config hostname c := by
  have hf := Conn.new_fresh h
  refine ⟨⟨_, _, _, hf.1⟩, fun hc => ⟨by rw [hf.1], ?_⟩⟩
  rcases hf.2.2.2.2.2.2.2.2.2.2.2.2 with ⟨_, _, _, _, h⟩ | ⟨h, _⟩
  · exact h
  · rw [hc] at h; cases h

/-! ## the hash function -/

/-- states in which the hash function is settled; `nc`: there is a negotiated configuration -/
def St.settled (nc : Bool) : St → Bool
  | .clientStart _ => nc
  | .clientWaitSH f _ _ => !f
  | .serverStart => false
  | .serverWaitCH f => !f
  | .closed .. | .failed => false
  | _ => true

structure AlgInv (c : Conn) : Prop where
  settled : c.state.settled c.nconfig.isSome = true → c.AlgOk
  enc : encOf c.cipher = true → c.AlgOk

theorem hrrDance_algs {t t' : Transcript} {s h} (hd : t.hrrDance s h = .ok t') :
    t'.hashes.map Prod.fst = t.hashes.map Prod.fst := by
  unfold Transcript.hrrDance at hd
  split at hd
  · cases hd
  · rename_i heq
    cases hd
    rw [heq]; rfl

/-- nothing that matters changes -/
theorem AlgInv.same {c c' : Conn} (h : AlgInv c) (hs : c'.state = c.state)
    (hn : c'.nconfig.isSome = c.nconfig.isSome)
    (hk : c'.cipher.map (·.info.digest) = c.cipher.map (·.info.digest))
    (he : encOf c'.cipher = true → encOf c.cipher = true)
    (ht : c'.transcript.hashes.map Prod.fst = c.transcript.hashes.map Prod.fst) : AlgInv c' :=
  ⟨fun hx => (h.settled (by rw [← hs, ← hn]; exact hx)).of hk ht, fun hx => (h.enc (he hx)).of hk ht⟩

theorem AlgInv.step {c c' : Conn} (h : AlgInv c) (hs : Step E G c c') : AlgInv c' := by
  cases hs with
  | nc hn =>
    cases hn with
    | client hst => exact ⟨fun hx => (by dsimp only at hx; rw [hst] at hx; cases hx), h.enc⟩
    | server hst => exact ⟨fun hx => (by dsimp only at hx; rw [hst] at hx; cases hx), h.enc⟩
    | upd ho => exact h.same rfl (by rw [ho]; rfl) rfl id rfl
  | badRecord hc => exact h.same rfl rfl (by rw [hc]; rfl) (by rw [hc]; exact id) rfl
  | opened hc => exact h.same rfl rfl (by rw [hc]; rfl) (by rw [hc]; exact id) rfl
  | sealed hc _ hn =>
    exact h.same rfl rfl (by rw [hc]; rfl) (by rw [hc, nextNonce_enc hn]; exact id) rfl
  | skipEarly hc hk =>
    obtain ⟨_, _, rfl⟩ := skipEarly_view hk
    exact h.same rfl rfl (by rw [hc]; rfl) (by rw [hc]; exact id) rfl
  | setup hok =>
    refine ⟨fun hx => ?_, fun hx => (by cases hx)⟩
    cases hok with
    | client hst => dsimp only at hx; rw [hst] at hx; cases hx
    | server hst => dsimp only at hx; rw [hst] at hx; cases hx
  | postInit hc hp hst =>
    exact ⟨fun _ => postInit_alg hc hp, fun _ => postInit_alg hc hp⟩
  | hashSent _ _ _ hu => exact h.same rfl rfl rfl id (update_algs hu)
  | hashError hu => exact h.same rfl rfl rfl id (update_algs hu)
  | receivedHs _ _ _ hu => exact h.same rfl rfl rfl id (update_algs hu)
  | hrrClient _ _ _ hd => exact h.same rfl rfl rfl id (hrrDance_algs hd)
  | hrrServer _ _ _ ha hd =>
    exact ⟨fun _ => ha.of rfl (hrrDance_algs hd), fun _ => ha.of rfl (hrrDance_algs hd)⟩
  | @retry k f ks ch cookie hst hk ha =>
    refine ⟨fun hx => ?_, h.enc⟩
    suffices hall : c.AlgOk from hall.of rfl rfl
    cases f with
    | true => exact ha rfl
    | false => exact h.settled (by rw [hst]; rfl)
  | @handshakeKeys k shared hash r k' _ hc hok hd =>
    have hi : k'.info = k.info := by cases deriveHandshake_view hd <;> rfl
    have hk : (some k').map (·.info.digest) = c.cipher.map (·.info.digest) := by
      rw [hc]; simp [hi]
    have hall : c.AlgOk := by
      cases hok with
      | @client f ks ch _ _ _ _ _ _ _ hst _ _ _ _ _ _ _ _ ha _ =>
        cases f with
        | true => exact ha rfl
        | false => exact h.settled (by rw [hst]; rfl)
      | @server f _ _ _ _ _ _ _ _ _ _ _ _ hst _ _ _ _ _ _ _ _ _ ha _ =>
        cases f with
        | true => exact ha rfl
        | false => exact h.settled (by rw [hst]; rfl)
    exact ⟨fun _ => hall.of hk rfl, fun _ => hall.of hk rfl⟩
  | @masterKeys k sf cf r k' _ hc hok hd =>
    have hi : k'.info = k.info := by cases deriveMaster_view hd <;> rfl
    have hk : (some k').map (·.info.digest) = c.cipher.map (·.info.digest) := by
      rw [hc]; simp [hi]
    have hall : c.AlgOk := by
      cases hok with
      | client hst => exact h.settled (by rw [hst]; rfl)
      | server hst => exact h.settled (by rw [hst]; rfl)
    exact ⟨fun _ => hall.of hk rfl, fun _ => hall.of hk rfl⟩
  | @move s hm =>
    refine ⟨fun hx => ?_, h.enc⟩
    change s.settled c.nconfig.isSome = true at hx
    suffices hall : c.AlgOk from hall.of rfl rfl
    cases hm with
    | closeNotify | failed | serverInit => cases hx
    | clientHello hst =>
      refine h.settled ?_
      rw [hst]
      simpa [St.settled] using hx
    | serverHello _ _ hc hw _ => exact h.enc (by rw [hc]; exact hw)
    | extensions hst | request hst | noRequest hst | certificate hst | verify hst | clientDone hst
    | serverDone hst => exact h.settled (by rw [hst]; rfl)
    | serverHrr _ _ ha => exact ha
    | serverFinished _ _ _ _ hw _ => exact h.enc (by rw [← encOf_eq]; exact hw)
  | _ => exact h.same rfl rfl rfl id rfl

theorem AlgInv.api {c c' : Conn} (h : AlgInv c) (hs : Api E G c c') : AlgInv c' := by
  cases hs with
  | step hs => exact h.step hs
  | appended | read | drain => exact h.same rfl rfl rfl id rfl
  | closeRecv =>
    refine ⟨fun hx => ?_, fun hx => ?_⟩
    · unfold closeReceivingEnd at hx; split at hx <;> cases hx
    · obtain ⟨s, hs⟩ := closeReceivingEnd_same c
      rw [hs] at hx ⊢
      exact (h.enc hx).of rfl rfl
  | closing =>
    refine ⟨fun hx => ?_, h.enc⟩
    cases hs : c.state <;> rw [hs] at hx <;> cases hx
  | closedSend => exact ⟨fun hx => (by cases hx), h.enc⟩

theorem AlgInv.fresh {config : Config} {hostname ocsp algs random} {c : Conn}
    (h : Conn.new config hostname ocsp algs random = .ok c) : AlgInv c := by
  obtain ⟨-, hn, hc, -, -, -, -, -, htr, ho, hh, -, hs⟩ := Conn.new_fresh h
  refine ⟨?_, by rw [hc]; intro h; cases h⟩
  rw [hn]
  rcases hs with ⟨_, h, _⟩ | ⟨_, h, _⟩ <;> rw [h] <;> intro h <;> cases h

theorem Conn.AlgOk.digest {c : Conn} {h : Bytes} (ha : c.AlgOk) (hd : c.transcript.digest E = .ok h) :
    ∃ k d, c.cipher = some k ∧ c.transcript.hashes = [(k.info.digest, d)] ∧
      h = E.hash k.info.digest d := by
  obtain ⟨k, d, h1, h2⟩ := ha
  unfold Transcript.digest at hd
  rw [h2] at hd
  cases hd
  exact ⟨k, d, h1, h2, rfl⟩

end Siotls
