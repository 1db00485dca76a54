import Verif.Model.Conn
/-!
# Possible results of the key derivations
-/

namespace Siotls

/-- an IV derived for this suite -/
def IvOf (E : Env) (info : SuiteInfo) (iv : Bytes) : Prop :=
  ∃ secret, hkdfExpandLabel E info.digest secret lblIv [] info.nonceLength = .ok iv

theorem deriveKeyIv_iv {E : Env} {info : SuiteInfo} {s k iv : Bytes}
    (h : deriveKeyIv E info s = .ok (k, iv)) : IvOf E info iv := by
  unfold deriveKeyIv at h
  cases h1 : hkdfExpandLabel E info.digest s lblKey [] info.keyLength with
  | error e => rw [h1] at h; cases h
  | ok k1 =>
    cases h2 : hkdfExpandLabel E info.digest s lblIv [] info.nonceLength with
    | error e => rw [h1, h2] at h; cases h
    | ok iv1 =>
      rw [h1, h2] at h
      cases h
      exact ⟨s, h2⟩

/-- results of `installKeys` -/
inductive InstallView (c : CipherSt) (ck ci sk si : Bytes) : Except Exn Unit → CipherSt → Prop
  | stuck {wk wi} : c.info.usageLimit = none → (wk, wi) ∈ [(ck, ci), (sk, si)] →
      InstallView c ck ci sk si (.error .typeError) { c with wr := ⟨some wk, some wi, c.wr.seq⟩ }
  | done {wk wi rk ri} : c.info.usageLimit.isSome = true → (wk, wi) ∈ [(ck, ci), (sk, si)] →
      (rk, ri) ∈ [(ck, ci), (sk, si)] →
      (wk, wi, rk, ri) = (match c.side with
        | .client => (ck, ci, sk, si)
        | .server => (sk, si, ck, ci)) →
      InstallView c ck ci sk si (.ok ())
        { c with wr := ⟨some wk, some wi, some 0⟩, rd := ⟨some rk, some ri, some 0⟩ }

theorem installKeys_view (c : CipherSt) (ck ci sk si : Bytes) :
    InstallView c ck ci sk si (installKeys c ck ci sk si).1 (installKeys c ck ci sk si).2 := by
  obtain ⟨info, side, secrets, rd, wr, cf, sf⟩ := c
  cases hl : info.usageLimit <;> cases side <;> simp only [installKeys, installDir, hl]
  · exact .stuck (c := ⟨info, .client, secrets, rd, wr, cf, sf⟩) hl (.head _)
  · exact .stuck (c := ⟨info, .server, secrets, rd, wr, cf, sf⟩) hl (.tail _ (.head _))
  · exact .done (c := ⟨info, .client, secrets, rd, wr, cf, sf⟩) (by simp [hl]) (.head _)
      (.tail _ (.head _)) rfl
  · exact .done (c := ⟨info, .server, secrets, rd, wr, cf, sf⟩) (by simp [hl])
      (.tail _ (.head _)) (.head _) rfl

/-- results of `deriveHandshake` -/
inductive HsView (E : Env) (k : CipherSt) : Except Exn Unit → CipherSt → Prop
  | refused {e} : HsView E k (.error e) k
  | early {e salt} : k.secrets.stage = 1 → HsView E k (.error e) { k with secrets := ⟨2, salt⟩ }
  | stuck {salt cf sf wk wi} : k.secrets.stage = 1 → k.info.usageLimit = none → IvOf E k.info wi →
      HsView E k (.error .typeError)
        { k with secrets := ⟨2, salt⟩, cFin := .key cf, sFin := .key sf,
                 wr := ⟨some wk, some wi, k.wr.seq⟩ }
  | done {salt cf sf wk wi rk ri} : k.secrets.stage = 1 → k.info.usageLimit.isSome = true →
      IvOf E k.info wi → IvOf E k.info ri →
      HsView E k (.ok ())
        { k with secrets := ⟨2, salt⟩, cFin := .key cf, sFin := .key sf,
                 wr := ⟨some wk, some wi, some 0⟩, rd := ⟨some rk, some ri, some 0⟩ }

theorem deriveHandshake_view {E : Env} {k k' : CipherSt} {shared hash : Bytes} {r}
    (h : deriveHandshake E k shared hash = (r, k')) : HsView E k r k' := by
  unfold deriveHandshake at h
  cases hs : handshakeSecrets E k shared hash with
  | error e => rw [hs] at h; cases h; exact .refused
  | ok x =>
    have hst : k.secrets.stage = 1 := by
      unfold handshakeSecrets at hs
      split at hs
      · cases hs
      · exact Decidable.not_not.mp ‹_›
    obtain ⟨salt, ct, st⟩ := x
    rw [hs] at h
    dsimp only at h
    split at h
    · cases h; exact .early hst
    · rename_i cf sf ck ci sk si heq
      have hiv : IvOf E k.info ci ∧ IvOf E k.info si := by
        cases h1 : deriveSecret E k.info.digest ct lblFinished [] with
        | error e => rw [h1] at heq; cases heq
        | ok v1 =>
        cases h2 : deriveSecret E k.info.digest st lblFinished [] with
        | error e => rw [h1, h2] at heq; cases heq
        | ok v2 =>
        cases h3 : deriveKeyIv E k.info ct with
        | error e => rw [h1, h2, h3] at heq; cases heq
        | ok v3 =>
        cases h4 : deriveKeyIv E k.info st with
        | error e => rw [h1, h2, h3, h4] at heq; cases heq
        | ok v4 =>
          rw [h1, h2, h3, h4] at heq
          cases heq
          exact ⟨deriveKeyIv_iv h3, deriveKeyIv_iv h4⟩
      have hv := installKeys_view { k with secrets := ⟨2, salt⟩, cFin := .key cf, sFin := .key sf }
        ck ci sk si
      rw [h] at hv
      cases hv with
      | stuck hl hm =>
        refine .stuck hst hl ?_
        simp at hm
        rcases hm with ⟨_, rfl⟩ | ⟨_, rfl⟩
        · exact hiv.1
        · exact hiv.2
      | done hl hm hm' _ =>
        refine .done hst hl ?_ ?_
        · simp at hm
          rcases hm with ⟨_, rfl⟩ | ⟨_, rfl⟩
          · exact hiv.1
          · exact hiv.2
        · simp at hm'
          rcases hm' with ⟨_, rfl⟩ | ⟨_, rfl⟩
          · exact hiv.1
          · exact hiv.2

/-- results of `deriveMaster` -/
inductive MsView (E : Env) (k : CipherSt) : Except Exn (Bytes × Bytes) → CipherSt → Prop
  | refused {e} : MsView E k (.error e) k
  | stuck {wk wi} : k.secrets.stage = 2 → k.info.usageLimit = none → IvOf E k.info wi →
      MsView E k (.error .typeError) { k with wr := ⟨some wk, some wi, k.wr.seq⟩ }
  | done {r wk wi rk ri} : k.secrets.stage = 2 → k.info.usageLimit.isSome = true →
      IvOf E k.info wi → IvOf E k.info ri →
      MsView E k (.ok r)
        { k with cFin := .none, sFin := .none,
                 wr := ⟨some wk, some wi, some 0⟩, rd := ⟨some rk, some ri, some 0⟩ }

theorem deriveMaster_view {E : Env} {k k' : CipherSt} {a b : Bytes} {r}
    (h : deriveMaster E k a b = (r, k')) : MsView E k r k' := by
  unfold deriveMaster at h
  cases hs : masterSecrets E k a b with
  | error e => rw [hs] at h; cases h; exact .refused
  | ok x =>
    have hst : k.secrets.stage = 2 := by
      unfold masterSecrets at hs
      split at hs
      · cases hs
      · exact Decidable.not_not.mp ‹_›
    obtain ⟨ct, st, ex, rs⟩ := x
    rw [hs] at h
    dsimp only at h
    split at h
    · cases h; exact .refused
    · rename_i ck ci sk si heq
      have hiv : IvOf E k.info ci ∧ IvOf E k.info si := by
        cases h3 : deriveKeyIv E k.info ct with
        | error e => rw [h3] at heq; cases heq
        | ok v3 =>
        cases h4 : deriveKeyIv E k.info st with
        | error e => rw [h3, h4] at heq; cases heq
        | ok v4 =>
          rw [h3, h4] at heq
          cases heq
          exact ⟨deriveKeyIv_iv h3, deriveKeyIv_iv h4⟩
      have hv := installKeys_view k ck ci sk si
      rcases hi : installKeys k ck ci sk si with ⟨r', k''⟩
      rw [hi] at h hv
      cases hv with
      | stuck hl hm =>
        cases h
        refine .stuck hst hl ?_
        simp at hm
        rcases hm with ⟨_, rfl⟩ | ⟨_, rfl⟩
        · exact hiv.1
        · exact hiv.2
      | done hl hm hm' _ =>
        cases h
        refine .done hst hl ?_ ?_
        · simp at hm
          rcases hm with ⟨_, rfl⟩ | ⟨_, rfl⟩
          · exact hiv.1
          · exact hiv.2
        · simp at hm'
          rcases hm' with ⟨_, rfl⟩ | ⟨_, rfl⟩
          · exact hiv.1
          · exact hiv.2

/-- the result of `skipEarly` -/
theorem skipEarly_view {E : Env} {k k' : CipherSt} (h : skipEarly E k = .ok k') :
    k.secrets.stage = 0 ∧ ∃ salt, k' = { k with secrets := ⟨1, salt⟩ } := by
  unfold skipEarly at h
  split at h
  · cases h
  · rename_i hst
    cases he : extractNext E k.info.digest k.secrets.salt (zeros k.info.digest.size) with
    | error e =>
      rw [he] at h; cases h
    | ok x =>
      rw [he] at h
      cases h
      exact ⟨by simpa using hst, _, rfl⟩

/-! ## The key log -/

/-- a failed derivation logs nothing -/
theorem handshakeLog_error {id : PyStr} {k k' : CipherSt} {a b : Bytes} {e : Exn}
    (h : deriveHandshake E k a b = (.error e, k')) : handshakeLog E id k a b = [] := by
  unfold handshakeLog
  rw [h]
  split <;> rfl

theorem masterLog_error {id : PyStr} {k k' : CipherSt} {a b : Bytes} {e : Exn}
    (h : deriveMaster E k a b = (.error e, k')) : masterLog E id k a b = [] := by
  unfold masterLog
  rw [h]
  split <;> rfl

end Siotls
