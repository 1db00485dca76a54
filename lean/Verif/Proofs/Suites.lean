import Verif.Proofs.NegSpec
/-!
# The suites a connection can work with
-/

namespace Siotls

variable {E : Env} {G : Conn → Prop}

/-- suite `s` is in the configuration and the library gives it a usage limit -/
def Workable (g : Config) (s : Nat) : Prop :=
  s ∈ g.cipherSuites ∧ ∃ info lim, suiteInfo s = some info ∧ info.usageLimit = some lim

/-- records are only protected with suites that work -/
def Protects (g : Config) : Ev → Prop
  | .sealed s .. => Workable g s
  | .opened s .. => Workable g s
  | _ => True

structure SuiteInv (g : Config) (c : Conn) : Prop where
  cfg : ∀ s ∈ c.config.cipherSuites, s ∈ g.cipherSuites
  nc : ∀ nc s, c.nconfig = some nc → nc.cipherSuite = some s → s ∈ g.cipherSuites
  cipher : ∀ k, c.cipher = some k → ∃ s ∈ g.cipherSuites, suiteInfo s = some k.info
  fin : ∀ k, c.cipher = some k → k.cFin = .none → k.info.usageLimit ≠ none
  done : c.state = .connected → ∃ k, c.cipher = some k ∧ k.info.usageLimit ≠ none
  trace : ∀ e ∈ c.tr, Protects g e

theorem nextNonce_limit {info : SuiteInfo} {d d' : Dir} {n : Bytes}
    (h : nextNonce info d = .ok (n, d')) : ∃ lim, info.usageLimit = some lim := by
  unfold nextNonce at h
  split at h
  · exact ⟨_, ‹_›⟩
  · cases h

theorem keyEvents_protects (g : Config) (l : List PyStr) (k k' : CipherSt) :
    ∀ e ∈ keyEvents l k k', Protects g e := by
  intro e he
  rcases mem_keyEvents he with ⟨_, _, rfl⟩ | ⟨_, _, rfl⟩ | ⟨_, _, rfl⟩ <;> trivial

theorem SuiteInv.same {g : Config} {c c' : Conn} (h : SuiteInv g c) (h1 : c'.config = c.config)
    (h2 : c'.nconfig = c.nconfig) (h3 : c'.cipher = c.cipher)
    (h4 : c'.state = .connected → c.state = .connected) (h5 : ∀ e ∈ c'.tr, Protects g e) :
    SuiteInv g c' := by
  refine ⟨h1 ▸ h.cfg, h2 ▸ h.nc, h3 ▸ h.cipher, h3 ▸ h.fin, fun hs => ?_, h5⟩
  rw [h3]
  exact h.done (h4 hs)

theorem SuiteInv.keys {g : Config} {c : Conn} {k k' : CipherSt} {new : List Ev} (h : SuiteInv g c)
    (hc : c.cipher = some k) (hi : k'.info = k.info) (hf : k'.cFin = .none → k.cFin = .none ∨
      k.info.usageLimit ≠ none) (hn : ∀ e ∈ new, Protects g e) :
    SuiteInv g { c with cipher := some k', tr := new ++ c.tr } := by
  refine ⟨h.cfg, h.nc, ?_, ?_, fun hs => ?_, ?_⟩
  · rintro _ ⟨⟩
    rw [hi]
    exact h.cipher k hc
  · rintro _ ⟨⟩ hx
    rw [hi]
    rcases hf hx with hx | hx
    · exact h.fin k hc hx
    · exact hx
  · obtain ⟨k₁, h1, h2⟩ := h.done hs
    rw [hc] at h1
    cases h1
    exact ⟨k', rfl, hi ▸ h2⟩
  · intro e he
    rcases List.mem_append.mp he with he | he
    · exact hn e he
    · exact h.trace e he

theorem SuiteInv.step {g : Config} {c c' : Conn} (h : SuiteInv g c) (hs : Step E G c c') :
    SuiteInv g c' := by
  have tail : ∀ {e : Ev}, Protects g e → ∀ x ∈ e :: c.tr, Protects g x := by
    intro e he x hx
    rcases List.mem_cons.mp hx with rfl | hx
    · exact he
    · exact h.trace x hx
  have works : ∀ {k : CipherSt} {n d d'}, c.cipher = some k → nextNonce k.info d = .ok (n, d') →
      Workable g k.info.id := by
    intro k n d d' hc hn
    obtain ⟨s, h1, h2⟩ := h.cipher k hc
    obtain ⟨lim, h3⟩ := nextNonce_limit hn
    rw [suiteInfo_id h2]
    exact ⟨h1, _, lim, h2, h3⟩
  cases hs with
  | input | draw | fragment | hashError | signature | clientUnique | serverUnique | postInit
  | hrrClient => exact h.same rfl rfl rfl id h.trace
  | gotHandshake | gotOther | received | delivered => exact h.same rfl rfl rfl id (tail trivial)
  | badRecord hc => exact h.keys (new := []) hc rfl .inl (by simp)
  | opened hc _ hn =>
    exact h.keys (new := [_]) hc rfl .inl (fun e he => by
      cases List.mem_singleton.mp he; exact works hc hn)
  | sealed hc _ hn =>
    exact h.keys (new := [_]) hc rfl .inl (fun e he => by
      cases List.mem_singleton.mp he; exact works hc hn)
  | emit =>
    refine h.same rfl rfl rfl id (fun e he => ?_)
    rcases List.mem_cons.mp he with rfl | he
    · trivial
    rcases List.mem_append.mp he with he | he
    · rw [List.mem_reverse, List.mem_map] at he
      obtain ⟨_, _, rfl⟩ := he
      trivial
    · exact h.trace e he
  | hashSent =>
    refine h.same rfl rfl rfl id ?_
    dsimp only
    split
    · exact tail trivial
    · exact h.trace
  | receivedHs =>
    refine h.same rfl rfl rfl id (fun e he => ?_)
    rcases List.mem_cons.mp he with rfl | he
    · trivial
    split at he
    · exact tail (e := .hashed ..) trivial _ he
    · exact h.trace e he
  | @nc n hn =>
    refine ⟨h.cfg, ?_, h.cipher, h.fin, h.done, h.trace⟩
    rintro _ s ⟨⟩ hsuite
    cases hn with
    | client _ _ _ hm => cases hsuite; exact h.cfg _ hm
    | server => cases hsuite
    | upd ho hu =>
      rcases hu.suite with hx | ⟨s', _, _, _, _, hx, _, _, hf⟩
      · exact h.nc _ _ ho (hx ▸ hsuite)
      · rw [hx] at hsuite
        cases hsuite
        exact h.cfg _ (List.mem_of_find?_eq_some hf)
  | cfg hk =>
    cases hk with
    | client _ _ _ _ _ hnc _ hk =>
      subst hk
      refine ⟨fun s hs => ?_, h.nc, h.cipher, h.fin, h.done, h.trace⟩
      exact h.nc _ s hnc (by simpa using hs)
  | retry _ hk =>
    cases hk with
    | client _ _ _ _ _ hnc _ hk =>
      subst hk
      refine ⟨fun s hs => ?_, h.nc, h.cipher, h.fin, fun hs => (by cases hs), h.trace⟩
      exact h.nc _ s hnc (by simpa using hs)
  | setup hok =>
    refine ⟨h.cfg, h.nc, ?_, ?_, fun hs => ?_, h.trace⟩
    · rintro _ ⟨⟩
      cases hok with
      | client _ _ _ hm hi => exact ⟨_, h.cfg _ hm, hi⟩
      | server _ _ hf hi => exact ⟨_, h.cfg _ (List.mem_of_find?_eq_some hf), hi⟩
    · rintro _ ⟨⟩ hx; cases hx
    · dsimp only at hs
      cases hok with
      | client hx => rw [hx] at hs; cases hs
      | server hx => rw [hx] at hs; cases hs
  | hrrServer _ _ _ _ _ _ _ _ hc =>
    refine ⟨fun s hs => ?_, h.nc, h.cipher, h.fin, fun hs => (by cases hs), h.trace⟩
    obtain ⟨s', h1, h2⟩ := h.cipher _ hc
    cases List.mem_singleton.mp hs
    rw [suiteInfo_id h2]
    exact h1
  | skipEarly hc hsk =>
    obtain ⟨_, _, rfl⟩ := skipEarly_view hsk
    exact h.keys (new := []) hc rfl .inl (by simp)
  | handshakeKeys _ hc _ hd =>
    refine h.keys hc (by cases deriveHandshake_view hd <;> rfl) ?_ (keyEvents_protects g _ _ _)
    intro hf
    cases deriveHandshake_view hd with
    | refused | early => exact .inl hf
    | stuck => cases hf
    | done => cases hf
  | masterKeys _ hc _ hd =>
    refine h.keys hc (by cases deriveMaster_view hd <;> rfl) ?_ (keyEvents_protects g _ _ _)
    intro hf
    cases deriveMaster_view hd with
    | refused | stuck => exact .inl hf
    | done _ hu => exact .inr (fun hn => by rw [hn] at hu; cases hu)
  | move hm =>
    refine ⟨h.cfg, h.nc, h.cipher, h.fin, fun hs => ?_, h.trace⟩
    dsimp only at hs
    subst hs
    cases hm with
    | clientDone _ hc hf => exact ⟨_, hc, h.fin _ hc hf⟩
    | serverDone _ hc hf => exact ⟨_, hc, h.fin _ hc hf⟩

theorem SuiteInv.api {g : Config} {c c' : Conn} (h : SuiteInv g c) (hs : Api E G c c') :
    SuiteInv g c' := by
  cases hs with
  | step hs => exact h.step hs
  | appended | read | drain => exact h.same rfl rfl rfl id h.trace
  | closeRecv =>
    unfold closeReceivingEnd
    split <;> exact h.same rfl rfl rfl (fun hs => by cases hs) h.trace
  | closing =>
    refine h.same rfl rfl rfl (fun hs => ?_) h.trace
    dsimp only at hs
    cases hx : c.state <;> rw [hx] at hs <;> cases hs
  | closedSend => exact h.same rfl rfl rfl (fun hs => by cases hs) h.trace

theorem SuiteInv.run {config : Config} {hostname ocsp algs random} {c : Conn}
    (h : Conn.new config hostname ocsp algs random = .ok c) (ops : List Op) :
    SuiteInv config (runOps E ops c) := by
  refine runOps_inv (I := SuiteInv config) (fun c c' h hs => h.api hs) ?_ ops
  have hf := Conn.new_fresh h
  refine ⟨by rw [hf.1]; exact fun _ h => h, fun nc s hx => ?_, fun k hx => ?_, fun k hx => ?_,
    fun hs => ?_, fun e he => ?_⟩
  · rw [hf.2.1] at hx; cases hx
  · rw [hf.2.2.1] at hx; cases hx
  · rw [hf.2.2.1] at hx; cases hx
  · rcases hf.2.2.2.2.2.2.2.2.2.2.2.2 with ⟨_, hx, _⟩ | ⟨_, hx, _⟩ <;> rw [hx] at hs <;> cases hs
  · rw [hf.2.2.2.2.2.2.2.2.1] at he; cases he

end Siotls
