import Verif.Proofs.Phase
/-!
# The keys of a connection are those of the key schedule
-/

namespace Siotls

variable {E : Env} {G : Conn → Prop}

/-- the side a state belongs to -/
def St.side? : St → Option Side
  | .clientStart _ | .clientWaitSH .. | .clientWaitEE | .clientWaitCertCr | .clientWaitCert _
  | .clientWaitCV .. | .clientWaitFin .. => some .client
  | .serverStart | .serverWaitCH _ | .serverWaitFin _ => some .server
  | _ => none

structure SideInv (s : Side) (c : Conn) : Prop where
  config : c.config.side = s
  state : ∀ x, c.state.side? = some x → x = s
  cipher : ∀ k, c.cipher = some k → k.side = s

theorem MoveOk.side {c : Conn} {s : St} (h : MoveOk E c s) (x : Side) (hx : s.side? = some x) :
    c.state.side? = some x := by
  cases h <;> first
    | (rw [‹c.state = _›]; exact hx)
    | cases hx

theorem SideInv.step {s : Side} {c c' : Conn} (h : SideInv s c) (hs : Step E G c c') :
    SideInv s c' := by
  obtain ⟨h1, h2, h3⟩ := h
  cases hs with
  | cfg hc =>
    refine ⟨?_, h2, h3⟩
    cases hc with
    | client _ _ _ _ _ _ _ hk => rw [hk]; exact h1
  | retry hs hc =>
    refine ⟨?_, fun x hx => h2 x (by rw [hs]; exact hx), h3⟩
    cases hc with
    | client _ _ _ _ _ _ _ hk => rw [hk]; exact h1
  | badRecord hc => exact ⟨h1, h2, by rintro _ ⟨⟩; (have := h3 _ hc; exact this)⟩
  | opened hc => exact ⟨h1, h2, by rintro _ ⟨⟩; (have := h3 _ hc; exact this)⟩
  | sealed hc => exact ⟨h1, h2, by rintro _ ⟨⟩; (have := h3 _ hc; exact this)⟩
  | setup hok =>
    refine ⟨h1, h2, ?_⟩
    rintro _ ⟨⟩
    cases hok with
    | client hs => exact h2 _ (by rw [hs]; rfl)
    | server hs => exact h2 _ (by rw [hs]; rfl)
  | skipEarly hc hsk =>
    refine ⟨h1, h2, ?_⟩
    rintro _ ⟨⟩
    obtain ⟨_, _, rfl⟩ := skipEarly_view hsk
    (have := h3 _ hc; exact this)
  | handshakeKeys _ hc _ hd =>
    refine ⟨h1, h2, ?_⟩
    rintro _ ⟨⟩
    cases deriveHandshake_view hd <;> (have := h3 _ hc; exact this)
  | masterKeys _ hc _ hd =>
    refine ⟨h1, h2, ?_⟩
    rintro _ ⟨⟩
    cases deriveMaster_view hd <;> (have := h3 _ hc; exact this)
  | move hm => exact ⟨h1, fun x hx => h2 x (hm.side x hx), h3⟩
  | hrrServer hs => exact ⟨h1, fun x hx => h2 x (by rw [hs]; exact hx), h3⟩
  | _ => exact ⟨h1, h2, h3⟩

theorem SideInv.api {s : Side} {c c' : Conn} (h : SideInv s c) (hs : Api E G c c') :
    SideInv s c' := by
  cases hs with
  | step hs => exact h.step hs
  | appended | read | drain => exact ⟨h.1, h.2, h.3⟩
  | closeRecv =>
    unfold closeReceivingEnd
    split <;> exact ⟨h.1, fun x hx => (by cases hx), h.3⟩
  | closing =>
    refine ⟨h.1, fun x hx => ?_, h.3⟩
    cases hs : c.state <;> rw [hs] at hx <;> cases hx
  | closedSend => exact ⟨h.1, fun x hx => (by cases hx), h.3⟩

theorem SideInv.fresh {config : Config} {hostname ocsp algs random} {c : Conn}
    (h : Conn.new config hostname ocsp algs random = .ok c) : SideInv config.side c := by
  obtain ⟨h0, _, hc, _, _, _, _, _, htr, _, _, _, hs⟩ := Conn.new_fresh h
  refine ⟨by rw [h0], ?_, by rw [hc]; simp⟩
  rcases hs with ⟨hx, h, _⟩ | ⟨hx, h, _⟩ <;> rw [h, hx] <;> rintro x ⟨⟩ <;> rfl

/-- the keys and secrets of a cipher are those of RFC 8446 -/
def KeyOf (E : Env) (k : CipherSt) : Prop :=
  let H := E.spec k.info.digest
  suiteInfo k.info.id = some k.info ∧ (k.info.usageLimit.isSome = true →
    ((k.secrets = ⟨0, zeros k.info.digest.size⟩ ∨
      k.secrets = ⟨1, H.deriveSecret H.earlySecret "derived" (H.hash [])⟩) ∧
      k.cFin = .unset ∧ k.sFin = .unset ∧ k.wr.key = none ∧ k.rd.key = none) ∨
    ∃ shared, k.secrets = ⟨2, H.deriveSecret (H.handshakeSecret shared) "derived" (H.hash [])⟩ ∧
      ((∃ th, k.cFin = .key (H.finishedKey (H.cHs shared th)) ∧
          k.sFin = .key (H.finishedKey (H.sHs shared th)) ∧
          k.wr.key = some (H.writeKey (Spec.bySide k.side (H.cHs shared th) (H.sHs shared th))
            k.info.keyLength) ∧
          k.rd.key = some (H.writeKey (Spec.bySide k.side (H.sHs shared th) (H.cHs shared th))
            k.info.keyLength)) ∨
       (k.cFin = .none ∧ k.sFin = .none ∧ ∃ th,
          k.wr.key = some (H.writeKey (Spec.bySide k.side (H.cAp shared th) (H.sAp shared th))
            k.info.keyLength) ∧
          k.rd.key = some (H.writeKey (Spec.bySide k.side (H.sAp shared th) (H.cAp shared th))
            k.info.keyLength))))

structure KeyInv (E : Env) (c : Conn) : Prop where
  key : ∀ k, c.cipher = some k → KeyOf E k
  hash : ∀ h, c.state = .serverWaitFin h → h.length ≤ 255
  done : ∀ k, c.cipher = some k → c.state = .connected → k.cFin = .none
  present : c.state = .connected → c.cipher.isSome = true

theorem KeyOf.dir {k : CipherSt} {rd wr : Dir} (h : KeyOf E k) (h1 : rd.key = k.rd.key)
    (h2 : wr.key = k.wr.key) : KeyOf E { k with rd := rd, wr := wr } := by
  unfold KeyOf at *
  dsimp only at *
  rw [h1, h2]; exact h

theorem digest_length (hE : E.Sized) {t : Transcript} {h : Bytes} (hd : t.digest E = .ok h) :
    h.length ≤ 255 := by
  unfold Transcript.digest at hd
  split at hd
  · cases hd
  · cases hd
    rename_i a _ _ _
    rw [hE.hash]; have := a.size_le; omega

theorem HsOk.length (hE : E.Sized) {c : Conn} {s h : Bytes} (hs : HsOk E c s h) :
    h.length ≤ 255 := by
  cases hs with
  | client _ _ _ _ _ _ _ _ _ _ hd => exact digest_length hE hd
  | server _ _ _ _ _ _ _ _ _ _ _ hd => exact digest_length hE hd

theorem suite_self {k : CipherSt} (h : KeyOf E k) : suiteInfo k.info.id = some k.info := h.1

theorem KeyInv.step (hE : E.Sized) {c c' : Conn} (h : KeyInv E c) (hs : Step E G c c') :
    KeyInv E c' := by
  obtain ⟨h1, h2, h3, h4⟩ := h
  have notDone : ∀ {f ks ch}, c.state = .clientWaitSH f ks ch ∨ c.state = .serverWaitCH f →
      c.state ≠ .connected := by
    rintro f ks ch (h | h) <;> rw [h] <;> simp
  cases hs with
  | badRecord hc _ hn =>
    exact ⟨by rintro _ ⟨⟩; exact (h1 _ hc).dir (nextNonce_key hn) rfl, h2,
      by rintro _ ⟨⟩ hd; (have := h3 _ hc hd; exact this), fun _ => rfl⟩
  | opened hc _ hn =>
    exact ⟨by rintro _ ⟨⟩; exact (h1 _ hc).dir (nextNonce_key hn) rfl, h2,
      by rintro _ ⟨⟩ hd; (have := h3 _ hc hd; exact this), fun _ => rfl⟩
  | sealed hc _ hn =>
    exact ⟨by rintro _ ⟨⟩; exact (h1 _ hc).dir rfl (nextNonce_key hn), h2,
      by rintro _ ⟨⟩ hd; (have := h3 _ hc hd; exact this), fun _ => rfl⟩
  | setup hok =>
    refine ⟨?_, h2, ?_, fun _ => rfl⟩
    · rintro _ ⟨⟩
      have hid : ∃ s, suiteInfo s = some ‹SuiteInfo› := by
        cases hok with
        | client _ _ _ _ h _ => exact ⟨_, h⟩
        | server _ _ _ h _ => exact ⟨_, h⟩
      obtain ⟨s, hid⟩ := hid
      refine ⟨by dsimp only [CipherSt.new]; rw [(suite_facts hid).1]; exact hid, fun _ => ?_⟩
      exact .inl ⟨.inl rfl, rfl, rfl, rfl, rfl⟩
    · rintro k - hd
      dsimp only at hd
      cases hok with
      | client hs => rw [hs] at hd; cases hd
      | server hs => rw [hs] at hd; cases hd
  | skipEarly hc hsk =>
    rename_i k k'
    refine ⟨?_, h2, ?_, fun _ => rfl⟩
    · rintro _ ⟨⟩
      obtain ⟨hid, hk⟩ := h1 k hc
      obtain ⟨h0, salt, rfl⟩ := skipEarly_view hsk
      refine ⟨hid, fun hu => ?_⟩
      rcases hk hu with ⟨hsec, hrest⟩ | ⟨sh, hsec, _⟩
      · rcases hsec with hsec | hsec
        · rw [skipEarly_ok hE k h0 (by rw [hsec])] at hsk
          simp only [Except.ok.injEq, CipherSt.mk.injEq, true_and, and_true] at hsk
          exact .inl ⟨.inr hsk.symm, hrest⟩
        · rw [hsec] at h0; cases h0
      · rw [hsec] at h0; cases h0
    · obtain ⟨h0, salt, rfl⟩ := skipEarly_view hsk
      rintro _ ⟨⟩ hd
      exact h3 k hc hd
  | @handshakeKeys k shared hash r k' _ hc hok hd =>
    have hnc : c.state ≠ .connected := by
      cases hok with
      | client hs => rw [hs]; simp
      | server hs => rw [hs]; simp
    refine ⟨?_, h2, fun _ _ hd => absurd hd hnc, fun _ => rfl⟩
    rintro _ ⟨⟩
    obtain ⟨hid, hk⟩ := h1 k hc
    by_cases hu : k.info.usageLimit.isSome = true
    · by_cases hst : k.secrets.stage = 1
      · have hsec : k.secrets = ⟨1, (E.spec k.info.digest).deriveSecret
            (E.spec k.info.digest).earlySecret "derived" ((E.spec k.info.digest).hash [])⟩ := by
          rcases hk hu with ⟨hsec | hsec, _⟩ | ⟨sh, hsec, _⟩
          · rw [hsec] at hst; cases hst
          · exact hsec
          · rw [hsec] at hst; cases hst
        rw [handshake_keys hE hid hu k rfl shared hash (hok.length hE) hsec] at hd
        cases hd
        refine ⟨hid, fun _ => .inr ⟨shared, rfl, .inl ⟨hash, rfl, rfl, rfl, rfl⟩⟩⟩
      · cases deriveHandshake_view hd with
        | refused => exact ⟨hid, hk⟩
        | early h => exact absurd h hst
        | stuck h => exact absurd h hst
        | done h => exact absurd h hst
    · have hi : k'.info = k.info := by cases deriveHandshake_view hd <;> rfl
      unfold KeyOf
      rw [hi]
      exact ⟨hid, fun h => absurd h hu⟩
  | @masterKeys k sf cf r k' _ hc hok hd =>
    have hfin : ∀ x, deriveMaster_view (E := E) hd = x → k.cFin = .none → k'.cFin = .none := by
      intro _ _ hx
      cases deriveMaster_view hd <;> first | exact hx | rfl
    refine ⟨?_, h2, ?_, fun _ => rfl⟩
    · rintro _ ⟨⟩
      obtain ⟨hid, hk⟩ := h1 k hc
      have hl : sf.length ≤ 255 ∧ cf.length ≤ 255 := by
        cases hok with
        | client _ _ _ _ h1 _ _ _ h2 => exact ⟨digest_length hE h1, digest_length hE h2⟩
        | server hs _ _ _ h1 => exact ⟨h2 _ hs, digest_length hE h1⟩
      by_cases hu : k.info.usageLimit.isSome = true
      · by_cases hst : k.secrets.stage = 2
        · rcases hk hu with ⟨hsec | hsec, _⟩ | ⟨sh, hsec, _⟩
          · rw [hsec] at hst; cases hst
          · rw [hsec] at hst; cases hst
          · rw [master_keys hE hid hu k rfl sh sf cf hl.1 hl.2 hsec] at hd
            cases hd
            exact ⟨hid, fun _ => .inr ⟨sh, hsec, .inr ⟨rfl, rfl, sf, rfl, rfl⟩⟩⟩
        · cases deriveMaster_view hd with
          | refused => exact ⟨hid, hk⟩
          | stuck h => exact absurd h hst
          | done h => exact absurd h hst
      · have hi : k'.info = k.info := by cases deriveMaster_view hd <;> rfl
        unfold KeyOf
        rw [hi]
        exact ⟨hid, fun h => absurd h hu⟩
    · rintro _ ⟨⟩ hst
      exact hfin _ rfl (h3 k hc hst)
  | move hm =>
    refine ⟨h1, ?_, ?_, ?_⟩
    · intro x hx
      dsimp only at hx
      subst hx
      cases hm with
      | serverFinished _ _ _ hd => exact digest_length hE hd
    · intro k hk hx
      dsimp only at hx hk
      subst hx
      cases hm with
      | clientDone _ hc hf => rw [hk] at hc; cases hc; exact hf
      | serverDone _ hc hf => rw [hk] at hc; cases hc; exact hf
    · intro hx
      dsimp only at hx
      subst hx
      cases hm with
      | clientDone _ hc hf => dsimp only; rw [hc]; rfl
      | serverDone _ hc hf => dsimp only; rw [hc]; rfl
  | hrrServer | retry => exact ⟨h1, fun _ h => (by cases h), fun _ _ h => (by cases h), fun h => by cases h⟩
  | _ => exact ⟨h1, h2, h3, h4⟩

theorem KeyInv.api (hE : E.Sized) {c c' : Conn} (h : KeyInv E c) (hs : Api E G c c') :
    KeyInv E c' := by
  cases hs with
  | step hs => exact h.step hE hs
  | appended | read | drain => exact ⟨h.1, h.2, h.3, h.4⟩
  | closeRecv =>
    unfold closeReceivingEnd
    split <;> exact ⟨h.1, fun _ h => (by cases h), fun _ _ h => (by cases h), fun h => by cases h⟩
  | closing =>
    refine ⟨h.1, ?_, ?_, ?_⟩ <;> cases hs : c.state <;> intros <;> simp_all [St.closing]
  | closedSend =>
    exact ⟨h.1, fun _ h => (by cases h), fun _ _ h => (by cases h), fun h => by cases h⟩

theorem KeyInv.fresh {config : Config} {hostname ocsp algs random} {c : Conn}
    (h : Conn.new config hostname ocsp algs random = .ok c) : KeyInv E c := by
  obtain ⟨h0, _, hc, _, _, _, _, _, htr, _, _, _, hs⟩ := Conn.new_fresh h
  refine ⟨by rw [hc]; simp, ?_, by rw [hc]; simp, ?_⟩ <;>
  rcases hs with ⟨hx, h, _⟩ | ⟨hx, h, _⟩ <;> rw [h] <;> simp

end Siotls
