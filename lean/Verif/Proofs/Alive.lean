import Verif.Proofs.Nonces
import Verif.Spec.Lifecycle
/-!
# A connection that only uses suites with a usage limit can always encrypt
-/

namespace Siotls
open Spec

variable {E : Env} {G : Conn → Prop}

/-- a key comes with its IV and its sequence -/
def Dir.Whole (d : Dir) : Prop := d.key.isSome = true → d.iv.isSome = true ∧ d.seq.isSome = true

structure AliveInv (c : Conn) : Prop where
  config : ∀ s ∈ c.config.cipherSuites, Limited s
  nc : ∀ n s, c.nconfig = some n → n.cipherSuite = some s → Limited s
  cipher : ∀ k, c.cipher = some k → suiteInfo k.info.id = some k.info ∧
    k.info.usageLimit.isSome = true ∧ k.wr.Whole ∧ k.rd.Whole

theorem Dir.Whole.empty : Dir.empty.Whole := by rintro ⟨⟩

theorem Dir.Whole.full {k iv : Bytes} {n : Nat} : (Dir.mk (some k) (some iv) (some n)).Whole :=
  fun _ => ⟨rfl, rfl⟩

theorem nextNonce_whole {info : SuiteInfo} {d d' : Dir} {nonce : Bytes}
    (h : nextNonce info d = .ok (nonce, d')) : d'.Whole := by
  obtain ⟨iv, n, h1, h2, rfl, _⟩ := nextNonce_shape h
  exact fun _ => ⟨by simp [h1], rfl⟩

theorem AliveInv.step {c c' : Conn} (h : AliveInv c) (hs : Step E G c c') : AliveInv c' := by
  have cipher : ∀ (c' : Conn) (k : CipherSt), c'.config = c.config → c'.nconfig = c.nconfig →
      c'.cipher = some k → (suiteInfo k.info.id = some k.info ∧
      k.info.usageLimit.isSome = true ∧ k.wr.Whole ∧ k.rd.Whole) → AliveInv c' := by
    intro c' k h1 h2 h3 h4
    refine ⟨by rw [h1]; exact h.config, by rw [h2]; exact h.nc, fun k' hk' => ?_⟩
    rw [h3] at hk'
    cases hk'
    exact h4
  cases hs with
  | badRecord hc hk hn =>
    obtain ⟨a, b, w, r⟩ := h.cipher _ hc
    exact cipher _ _ rfl rfl rfl ⟨a, b, w, nextNonce_whole hn⟩
  | opened hc hk hn ho =>
    obtain ⟨a, b, w, r⟩ := h.cipher _ hc
    exact cipher _ _ rfl rfl rfl ⟨a, b, w, nextNonce_whole hn⟩
  | sealed hc hk hn =>
    obtain ⟨a, b, w, r⟩ := h.cipher _ hc
    exact cipher _ _ rfl rfl rfl ⟨a, b, nextNonce_whole hn, r⟩
  | setup hok =>
    cases hok with
    | client _ _ _ _ hi hn hs =>
      have := (suite_facts hi).1
      refine cipher _ _ rfl rfl rfl ⟨?_, h.nc _ _ hn hs _ hi, .empty, .empty⟩
      dsimp only [CipherSt.new]; rw [this]; exact hi
    | server _ _ _ hi hn hs =>
      have := (suite_facts hi).1
      refine cipher _ _ rfl rfl rfl ⟨?_, h.nc _ _ hn hs _ hi, .empty, .empty⟩
      dsimp only [CipherSt.new]; rw [this]; exact hi
  | @skipEarly k k' hc hsk =>
    have : ∃ s, k' = { k with secrets := s } := by
      unfold Siotls.skipEarly at hsk
      split at hsk
      · cases hsk
      · cases hx : extractNext E k.info.digest k.secrets.salt (zeros k.info.digest.size) with
        | error e => rw [hx] at hsk; cases hsk
        | ok v => rw [hx] at hsk; cases hsk; exact ⟨_, rfl⟩
    obtain ⟨s, rfl⟩ := this
    obtain ⟨a, b, w, r⟩ := h.cipher _ hc
    exact cipher _ _ rfl rfl rfl ⟨a, b, w, r⟩
  | handshakeKeys _ hc hok hd =>
    obtain ⟨a, b, w, r⟩ := h.cipher _ hc
    cases deriveHandshake_view hd with
    | refused => exact cipher _ _ rfl rfl rfl ⟨a, b, w, r⟩
    | early => exact cipher _ _ rfl rfl rfl ⟨a, b, w, r⟩
    | stuck _ hl _ => rw [hl] at b; cases b
    | done => exact cipher _ _ rfl rfl rfl ⟨a, b, .full, .full⟩
  | masterKeys _ hc hok hd =>
    obtain ⟨a, b, w, r⟩ := h.cipher _ hc
    cases deriveMaster_view hd with
    | refused => exact cipher _ _ rfl rfl rfl ⟨a, b, w, r⟩
    | stuck _ hl _ => rw [hl] at b; cases b
    | done => exact cipher _ _ rfl rfl rfl ⟨a, b, .full, .full⟩
  | cfg hk =>
    refine ⟨?_, h.nc, h.cipher⟩
    cases hk with
    | client _ _ _ _ _ hn _ hk =>
      subst hk
      intro s hs
      exact h.nc _ s hn (by simpa using hs)
  | retry _ hk =>
    refine ⟨?_, h.nc, h.cipher⟩
    cases hk with
    | client _ _ _ _ _ hn _ hk =>
      subst hk
      intro s hs
      exact h.nc _ s hn (by simpa using hs)
  | hrrServer _ _ _ _ _ _ _ _ hc =>
    refine ⟨?_, h.nc, h.cipher⟩
    intro s hs info hi
    obtain ⟨a, b, _⟩ := h.cipher _ hc
    rw [List.mem_singleton.mp hs, a] at hi
    cases hi
    exact b
  | nc hn =>
    refine ⟨h.config, ?_, h.cipher⟩
    rintro n s ⟨⟩ hv
    cases hn with
    | client _ _ _ hm => cases hv; exact h.config _ hm
    | server => cases hv
    | @upd o _ ho hu =>
      rcases hu.suite with hm | ⟨t, _, _, _, _, hm, _, _, hf⟩
      · exact h.nc o s ho (hm ▸ hv)
      · rw [hm] at hv; cases hv; exact h.config _ (List.mem_of_find?_eq_some hf)
  | _ => exact ⟨h.config, h.nc, h.cipher⟩

theorem AliveInv.api {c c' : Conn} (h : AliveInv c) (hs : Api E G c c') : AliveInv c' := by
  cases hs with
  | step hs => exact h.step hs
  | closeRecv =>
    obtain ⟨s, hs⟩ := closeReceivingEnd_same c
    rw [hs]; exact ⟨h.config, h.nc, h.cipher⟩
  | _ => exact ⟨h.config, h.nc, h.cipher⟩

theorem AliveInv.fresh {config : Config} {hostname ocsp algs random} {c : Conn}
    (h : Conn.new config hostname ocsp algs random = .ok c)
    (hm : ∀ s ∈ config.cipherSuites, Limited s) : AliveInv c := by
  have hf := Conn.new_fresh h
  refine ⟨by rw [hf.1]; exact hm, ?_, ?_⟩
  · rw [hf.2.1]; rintro n v ⟨⟩
  · rw [hf.2.2.1]; rintro k ⟨⟩

theorem AliveInv.run {c : Conn} (h : AliveInv c) (ops : List Op) : AliveInv (runOps E ops c) :=
  runOps_inv (fun _ _ hi ha => hi.api ha) h ops

/-- with a key that is not worn out, a nonce is available -/
theorem AliveInv.nonce {c : Conn} {k : CipherSt} {key : Bytes} (h : AliveInv c)
    (hc : c.cipher = some k) (hk : k.wr.key = some key) : ∃ iv n lim, k.wr.iv = some iv ∧
      k.wr.seq = some n ∧ k.info.usageLimit = some lim ∧ (n < lim →
        nextNonce k.info k.wr = .ok (xorBytes iv (beEnc k.info.nonceLength n),
          { k.wr with seq := some (n + 1) })) := by
  obtain ⟨_, b, w, _⟩ := h.cipher _ hc
  obtain ⟨h1, h2⟩ := w (by simp [hk])
  obtain ⟨iv, h1⟩ := Option.isSome_iff_exists.mp h1
  obtain ⟨n, h2⟩ := Option.isSome_iff_exists.mp h2
  obtain ⟨lim, h3⟩ := Option.isSome_iff_exists.mp b
  refine ⟨iv, n, lim, h1, h2, h3, fun hlt => ?_⟩
  simp [nextNonce, h1, h2, h3, hlt]

end Siotls
