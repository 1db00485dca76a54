import Verif.Spec.Settlement
import Verif.Proofs.LtsSim
/-!
# Lemmas for C109: nothing changes after the handshake
-/

namespace Siotls
open Spec

variable {E : Env}

/-- the handshake of `c₀` is over, and `c` comes after -/
structure Settlement (c₀ c : Conn) : Prop where
  post : c.state.isPostHandshake = true
  terms : termsOf c = termsOf c₀
  trace : ∃ since, c.tr = since ++ c₀.tr ∧ since.any rekeys = false ∧ KeyUse (termsOf c₀) since

theorem settlement_tr {c₀ c c' : Conn} (h : Settlement c₀ c) (hs : c'.state = c.state)
    (ht : termsOf c' = termsOf c) {l : List Ev} (hl : c'.tr = l ++ c.tr) (hr : l.any rekeys = false)
    (hu : usedKeys l = []) : Settlement c₀ c' := by
  obtain ⟨since, h1, h2, h3⟩ := h.trace
  refine ⟨by rw [hs]; exact h.post, by rw [ht, h.terms], l ++ since, by rw [hl, h1, List.append_assoc], ?_, ?_⟩
  · rw [List.any_append, hr, h2]; rfl
  · have : ∀ l : List Ev, usedKeys l = [] → usedKeys (l ++ since) = usedKeys since := by
      intro l
      induction l with
      | nil => intro _; rfl
      | cons e l ih =>
        intro h
        cases e <;> first | (simp [usedKeys] at h; done) | exact ih h
    unfold KeyUse
    rw [this l hu]
    exact h3

theorem nextNonce_dir {info : SuiteInfo} {d d' : Dir} {n : Bytes} (h : nextNonce info d = .ok (n, d')) :
    d'.key = d.key ∧ d'.iv = d.iv := by
  unfold nextNonce at h
  split at h
  · split at h
    · cases h; exact ⟨rfl, rfl⟩
    · cases h
  · cases h

theorem skipEarly_keys {k k' : CipherSt} (h : skipEarly E k = .ok k') :
    k'.info = k.info ∧ k'.rd = k.rd ∧ k'.wr = k.wr := by
  unfold skipEarly at h
  split at h
  · cases h
  · cases hx : extractNext E k.info.digest k.secrets.salt (zeros k.info.digest.size) with
    | error e => rw [hx] at h; cases h
    | ok p => rw [hx] at h; cases h; exact ⟨rfl, rfl, rfl⟩

theorem usedKeys_records (x : Content) (rs : List (Nat × Bytes × Bytes)) :
    usedKeys (.sent x :: (rs.map fun r => Ev.record r.1 r.2.1).reverse) = [] ∧
    (Ev.sent x :: (rs.map fun r => Ev.record r.1 r.2.1).reverse).any rekeys = false := by
  have : ∀ l : List Ev, (∀ e ∈ l, ∃ a b, e = Ev.record a b) → usedKeys l = [] ∧ l.any rekeys = false := by
    intro l
    induction l with
    | nil => exact fun _ => ⟨rfl, rfl⟩
    | cons e l ih =>
      intro h
      obtain ⟨a, b, rfl⟩ := h e (by simp)
      obtain ⟨h1, h2⟩ := ih fun e he => h e (by simp [he])
      exact ⟨h1, by simpa [rekeys] using h2⟩
  obtain ⟨h1, h2⟩ := this (rs.map fun r => Ev.record r.1 r.2.1).reverse (by
    intro e he
    simp only [List.mem_reverse, List.mem_map] at he
    obtain ⟨r, -, rfl⟩ := he
    exact ⟨_, _, rfl⟩)
  exact ⟨h1, by simpa [rekeys] using h2⟩

theorem nc_same {c : Conn} {o n : NConfig} (h : NcUpd E c o n) (hp : c.state.isPostHandshake = true) :
    n = o := by
  have no : ∀ s, c.state = s → s.isPostHandshake = false → False := by
    intro s hs h'
    rw [hs, h'] at hp
    cases hp
  obtain ⟨h1, h2, h3, h4, h5, h6, h7, h8, h9, h10, h11, h12, h13⟩ := h
  have h1 : n.cipherSuite = o.cipherSuite := by
    rcases h1 with h | ⟨_, _, _, _, _, _, h, _⟩
    exacts [h, (no _ h rfl).elim]
  have h2 : n.keyExchange = o.keyExchange := by
    rcases h2 with h | ⟨_, _, _, _, _, _, _, _, h, _⟩
    exacts [h, (no _ h rfl).elim]
  have h3 : n.alpn = o.alpn := by
    rcases h3 with h | ⟨h | ⟨_, h⟩, _⟩
    exacts [h, (no _ h rfl).elim, (no _ h rfl).elim]
  have h4 : n.maxFragmentLength = o.maxFragmentLength := by
    rcases h4 with h | ⟨h | ⟨_, h⟩, _⟩ | ⟨h, _⟩ | ⟨_, _, _, _, _, _, _, h, _⟩
    exacts [h, (no _ h rfl).elim, (no _ h rfl).elim, (no _ h rfl).elim, (no _ h rfl).elim]
  have h5 : n.clientCertificateType = o.clientCertificateType := by
    rcases h5 with h | ⟨_, _, ⟨h, _⟩ | ⟨_, h, _⟩⟩
    exacts [h, (no _ h rfl).elim, (no _ h rfl).elim]
  have h6 : n.serverCertificateType = o.serverCertificateType := by
    rcases h6 with h | ⟨_, _, ⟨h, _⟩ | ⟨_, h, _⟩⟩
    exacts [h, (no _ h rfl).elim, (no _ h rfl).elim]
  have h7 : n.peerCertificate = o.peerCertificate := by
    rcases h7 with h | ⟨_, _, _, _, _, _, h, _⟩
    exacts [h, (no _ h rfl).elim]
  have h8 : n.peerPublicKey = o.peerPublicKey := by
    rcases h8 with h | ⟨_, _, _, _, _, _, h, _⟩
    exacts [h, (no _ h rfl).elim]
  have h9 : n.signatureAlgorithm = o.signatureAlgorithm := by
    rcases h9 with h | ⟨_, _, _, _, _, h, _⟩
    exacts [h, (no _ h rfl).elim]
  have h10 : n.keyExchanges = o.keyExchanges := by
    rcases h10 with h | ⟨_, _, _, _, _, h, _⟩
    exacts [h, (no _ h rfl).elim]
  have h12 : n.canSendHeartbeat = o.canSendHeartbeat ∧ n.canEchoHeartbeat = o.canEchoHeartbeat := by
    rcases h12 with h | h | ⟨_, h⟩
    exacts [h, (no _ h rfl).elim, (no _ h rfl).elim]
  have h13 : n.peerWantOcspStapling = o.peerWantOcspStapling := by
    rcases h13 with h | ⟨_, h⟩
    exacts [h, (no _ h rfl).elim]
  cases n
  cases o
  simp_all

theorem Settlement.step {G : Conn → Prop} {c₀ c c' : Conn} (h : Settlement c₀ c) (hs : Step E G c c') :
    Settlement c₀ c' := by
  have no : ∀ s, c.state = s → s.isPostHandshake = false → False := by
    intro s hs h'
    have := h.post
    rw [hs, h'] at this
    cases this
  cases hs with
  | input d => exact settlement_tr h rfl rfl (l := []) rfl rfl rfl
  | draw n => exact settlement_tr h rfl rfl (l := []) rfl rfl rfl
  | fragment => exact settlement_tr h rfl rfl (l := []) rfl rfl rfl
  | gotHandshake => exact settlement_tr h rfl rfl (l := [_]) rfl rfl rfl
  | gotOther => exact settlement_tr h rfl rfl (l := [_]) rfl rfl rfl
  | badRecord h1 h2 h3 =>
    obtain ⟨e1, e2⟩ := nextNonce_dir h3
    exact settlement_tr h rfl (by simp [termsOf, h1, e1, e2]) (l := []) rfl rfl rfl
  | @opened k key nonce rd aad ct inner h1 h2 h3 h4 =>
    obtain ⟨e1, e2⟩ := nextNonce_dir h3
    have ht := h.terms
    obtain ⟨since, g1, g2, g3⟩ := h.trace
    refine ⟨h.post, ?_, _ :: since, by rw [g1]; rfl, by simpa [rekeys] using g2, ?_⟩
    · rw [← ht]
      simp [termsOf, h1, e1, e2]
    · intro x hx
      rcases List.mem_cons.mp hx with rfl | hx
      · rw [← ht]
        exact ⟨by simp [termsOf, h1], k.rd.iv, by simp [termsOf, h1, h2]⟩
      · exact g3 x hx
  | @sealed k key nonce wr aad pt h1 h2 h3 =>
    obtain ⟨e1, e2⟩ := nextNonce_dir h3
    have ht := h.terms
    obtain ⟨since, g1, g2, g3⟩ := h.trace
    refine ⟨h.post, ?_, _ :: since, by rw [g1]; rfl, by simpa [rekeys] using g2, ?_⟩
    · rw [← ht]
      simp [termsOf, h1, e1, e2]
    · intro x hx
      rcases List.mem_cons.mp hx with rfl | hx
      · rw [← ht]
        exact ⟨by simp [termsOf, h1], k.wr.iv, by simp [termsOf, h1, h2]⟩
      · exact g3 x hx
  | @emit _ x rs _ _ =>
    obtain ⟨e1, e2⟩ := usedKeys_records x rs
    exact settlement_tr h rfl rfl (l := .sent x :: (rs.map fun r => Ev.record r.1 r.2.1).reverse) rfl e2 e1
  | @hashSent _ _ b _ _ _ _ _ =>
    cases b
    · exact settlement_tr h rfl rfl (l := []) rfl rfl rfl
    · exact settlement_tr h rfl rfl (l := [_]) rfl rfl rfl
  | hashError => exact settlement_tr h rfl rfl (l := []) rfl rfl rfl
  | received => exact settlement_tr h rfl rfl (l := [_]) rfl rfl rfl
  | @receivedHs _ _ _ b _ _ _ _ _ =>
    cases b
    · exact settlement_tr h rfl rfl (l := [_]) rfl rfl rfl
    · exact settlement_tr h rfl rfl (l := [_, _]) rfl rfl rfl
  | delivered => exact settlement_tr h rfl rfl (l := [_]) rfl rfl rfl
  | nc hn =>
    cases hn with
    | client h1 => exact (no _ h1 rfl).elim
    | server h1 => exact (no _ h1 rfl).elim
    | upd h1 h2 =>
      rw [nc_same h2 h.post]
      exact settlement_tr h rfl (by simp [termsOf, h1]) (l := []) rfl rfl rfl
  | cfg hk => cases hk with | client h1 => exact (no _ h1 rfl).elim
  | retry h1 => exact (no _ h1 rfl).elim
  | signature hs => obtain ⟨_, _, _, _, _, _, _, _, _, h1, _⟩ := hs; exact (no _ h1 rfl).elim
  | clientUnique h1 => exact (no _ h1 rfl).elim
  | serverUnique h1 => exact (no _ h1 rfl).elim
  | setup hs =>
    cases hs with
    | client h1 => exact (no _ h1 rfl).elim
    | server h1 => exact (no _ h1 rfl).elim
  | postInit => exact settlement_tr h rfl rfl (l := []) rfl rfl rfl
  | hrrClient h1 => exact (no _ h1 rfl).elim
  | hrrServer h1 => exact (no _ h1 rfl).elim
  | skipEarly h1 h2 =>
    obtain ⟨e1, e2, e3⟩ := skipEarly_keys h2
    exact settlement_tr h rfl (by simp [termsOf, h1, e1, e2, e3]) (l := []) rfl rfl rfl
  | handshakeKeys _ _ h1 =>
    cases h1 with
    | client h1 => exact (no _ h1 rfl).elim
    | server h1 => exact (no _ h1 rfl).elim
  | masterKeys _ _ h1 =>
    cases h1 with
    | client h1 => exact (no _ h1 rfl).elim
    | server h1 => exact (no _ h1 rfl).elim
  | move hm =>
    cases hm with
    | closeNotify => exact ⟨rfl, h.terms, h.trace⟩
    | failed => exact ⟨rfl, h.terms, h.trace⟩
    | clientHello h1 => exact (no _ h1 rfl).elim
    | serverHello h1 => exact (no _ h1 rfl).elim
    | extensions h1 => exact (no _ h1 rfl).elim
    | request h1 => exact (no _ h1 rfl).elim
    | noRequest h1 => exact (no _ h1 rfl).elim
    | certificate h1 => exact (no _ h1 rfl).elim
    | verify h1 => exact (no _ h1 rfl).elim
    | clientDone => exact ⟨rfl, h.terms, h.trace⟩
    | serverInit h1 => exact (no _ h1 rfl).elim
    | serverHrr h1 => exact (no _ h1 rfl).elim
    | serverFinished h1 => exact (no _ h1 rfl).elim
    | serverDone => exact ⟨rfl, h.terms, h.trace⟩

theorem Settlement.api {G : Conn → Prop} {c₀ c c' : Conn} (h : Settlement c₀ c) (hs : Api E G c c') :
    Settlement c₀ c' := by
  have hp := h.post
  cases hs with
  | step hs => exact h.step hs
  | appended => exact settlement_tr h rfl rfl (l := []) rfl rfl rfl
  | read => exact settlement_tr h rfl rfl (l := []) rfl rfl rfl
  | drain => exact settlement_tr h rfl rfl (l := []) rfl rfl rfl
  | closeRecv =>
    unfold closeReceivingEnd
    cases hst : c.state <;> first
      | (rw [hst] at hp; cases hp; done)
      | exact ⟨rfl, h.terms, h.trace⟩
  | closing =>
    refine ⟨?_, h.terms, h.trace⟩
    show c.state.closing.isPostHandshake = true
    cases hst : c.state <;> first | rfl | (rw [hst] at hp; cases hp; done)
  | closedSend => exact ⟨rfl, h.terms, h.trace⟩

end Siotls
