import Verif.Proofs.InteropData
import Verif.Proofs.Carry
/-!
# The application data a connection sends, as records of the RFC: helper lemmas
-/

namespace Siotls
open Spec Serial

variable {E : Env}

theorem innerText_data (mfl tag : Nat) (f : Bytes) : innerText mfl tag 23 f =
    f ++ [UInt8.ofNat 23] ++ List.replicate (padLength mfl f.length tag) 0 := by
  rw [List.append_assoc]
  rfl

/-- records written with the keys of a traffic secret are records of the RFC -/
theorem recs_data {mfl : Nat} {info : SuiteInfo} {secret : Bytes} (fs : List Bytes) :
    ∀ {ks ks' : Option CipherSt} {k : CipherSt} {rs : List (Nat × Bytes)} {w : Nat},
    Recs E mfl ks (fs.map fun f => (23, f)) rs ks' → ks = some k → k.info = info →
    k.wr = trafficKeys E info secret w →
    wireOf rs = dataRecords E info secret w (fs.map fun f => (f, padLength mfl f.length info.tagLength)) ∧
    ks' = some { k with wr := trafficKeys E info secret (w + fs.length) } := by
  induction fs with
  | nil =>
    intro ks ks' k rs w h hk hinfo hwr
    obtain ⟨rfl, rfl⟩ := h.nil_inv
    refine ⟨rfl, ?_⟩
    rw [hk, List.length_nil, Nat.add_zero, ← hwr]
  | cons f fs ih =>
    intro ks ks' k rs w h hk hinfo hwr
    cases h with
    | plain hp => exact absurd (hp k hk) (by rw [hwr]; simp [trafficKeys])
    | @«sealed» _ _ _ key nonce wr body _ rs' _ hkey hnon hbody hlen hlt hrest =>
      cases hk
      subst hinfo
      rw [hwr] at hkey hnon
      have hn : nonce = xorBytes ((E.spec k.info.digest).writeIv secret 12) (beEnc k.info.nonceLength w) ∧
          wr = trafficKeys E k.info secret (w + 1) := by
        unfold nextNonce trafficKeys at hnon
        dsimp only at hnon
        split at hnon
        · next h1 h2 _ =>
          cases h1
          cases h2
          split at hnon
          · cases hnon; exact ⟨rfl, rfl⟩
          · cases hnon
        · cases hnon
      obtain ⟨rfl, rfl⟩ := hn
      cases hkey
      obtain ⟨h1, h2⟩ := ih hrest rfl rfl rfl
      refine ⟨?_, ?_⟩
      · rw [wireOf_cons, h1, List.map_cons, dataRecords]
        congr 1
        unfold sealedUnder
        dsimp only
        rw [hbody, innerText_data, sealedHeader, beEnc_two]
      · rw [h2, List.length_cons]
        dsimp only
        rw [show w + 1 + fs.length = w + (fs.length + 1) by omega]

/-- sending application data leaves the transcript alone -/
theorem sendData_transcript {d : Bytes} {c c' : Conn} (h : sendData E d c = (.ok (), c')) :
    c'.transcript = c.transcript := by
  unfold sendData sendContent at h
  obtain ⟨_, _, h0, h⟩ := M.bind_ok.mp h
  cases h0
  by_cases happ : (Content.applicationData d).ctype = Iana.ctApplicationData ∧ c.state.canSendApp = false
  · rw [if_pos happ] at h; cases h
  rw [if_neg happ] at h
  by_cases hcan : c.state.canSend = false
  · rw [if_pos hcan] at h; cases h
  rw [if_neg hcan, if_neg (by simp [Content.ctype, Iana.ctHeartbeat, Iana.ctApplicationData])] at h
  obtain ⟨data, _, h0, h⟩ := M.bind_ok.mp h
  obtain ⟨hser, rfl⟩ := M.lift_ok.mp h0
  obtain ⟨_, c₁, hhash, h⟩ := M.bind_ok.mp h
  cases hhash
  obtain ⟨fs, _, h0, h⟩ := M.bind_ok.mp h
  obtain ⟨hfr, rfl⟩ := M.lift_ok.mp h0
  obtain ⟨rs, c₂, hrs, h⟩ := M.bind_ok.mp h
  obtain ⟨hrec, seals, hse, hc₂⟩ := makeRecords_ok rfl hrs
  simp only [emitRecords, M.modify, Prod.mk.injEq] at h
  obtain ⟨_, rfl⟩ := h
  show c₂.transcript = _
  rw [hc₂]

end Siotls
