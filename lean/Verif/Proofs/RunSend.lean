import Verif.Proofs.Run
import Verif.Proofs.Serial
/-!
# `_send_content` as atomic steps
-/

namespace Siotls
open Serial
variable {E : Env} {G : Conn → Prop}

theorem nextNonce_shape {info : SuiteInfo} {d d' : Dir} {nonce : Bytes}
    (h : nextNonce info d = .ok (nonce, d')) : ∃ iv n, d.iv = some iv ∧ d.seq = some n ∧
      d' = { d with seq := some (n + 1) } ∧ nonce = xorBytes iv (beEnc info.nonceLength n) ∧
      ∃ limit, info.usageLimit = some limit ∧ n < limit := by
  unfold nextNonce at h
  split at h
  · rename_i iv n limit h1 h2 h3
    split at h
    · rename_i hlt
      cases h
      exact ⟨iv, n, h1, h2, rfl, rfl, limit, h3, hlt⟩
    · cases h
  · cases h

theorem SameKeys.refl (k : Option CipherSt) : SameKeys k k := by
  cases k with
  | none => trivial
  | some k => exact ⟨k.wr.seq, rfl⟩

theorem SameKeys.trans {a b c : Option CipherSt} (h1 : SameKeys a b) (h2 : SameKeys b c) :
    SameKeys a c := by
  cases a <;> cases b <;> cases c <;> simp only [SameKeys] at h1 h2 ⊢
  obtain ⟨n, rfl⟩ := h1
  obtain ⟨m, rfl⟩ := h2
  exact ⟨m, rfl⟩

/-- what making the records leaves unchanged -/
structure MidSend (c c' : Conn) : Prop where
  same : c' = { c with cipher := c'.cipher, tr := c'.tr }
  keys : SameKeys c.cipher c'.cipher
  seals : ∃ seals, c'.tr = seals ++ c.tr ∧ ∀ e ∈ seals, ∃ s k n a p, e = Ev.sealed s k n a p

theorem MidSend.refl (c : Conn) : MidSend c c := ⟨rfl, .refl _, [], rfl, by simp⟩

theorem MidSend.trans {a b c : Conn} (h1 : MidSend a b) (h2 : MidSend b c) : MidSend a c := by
  obtain ⟨s1, e1, m1⟩ := h1.seals
  obtain ⟨s2, e2, m2⟩ := h2.seals
  refine ⟨?_, h1.keys.trans h2.keys, s2 ++ s1, by rw [e2, e1, List.append_assoc], ?_⟩
  · rw [h2.same, h1.same]
  · intro e he
    rcases List.mem_append.mp he with h | h
    · exact m2 e h
    · exact m1 e h

theorem run_cipherEncrypt (data header : Bytes) (c : Conn) :
    Run E G (cipherEncrypt E data header) c fun enc c' => MidSend c c' ∧
      ∃ s k n, c'.tr = .sealed s k n header data :: c.tr ∧ enc = E.aeadSeal s k n header data := by
  unfold Run cipherEncrypt
  cases hc : c.cipher with
  | none => exact ⟨.refl, by simp⟩
  | some k =>
    dsimp only
    cases hk : k.wr.key with
    | none => exact ⟨.refl, by simp⟩
    | some key =>
      dsimp only
      split
      · exact ⟨.refl, by simp⟩
      · exact ⟨.refl, by simp⟩
      · rename_i nonce wr hn
        refine ⟨.single (.sealed hc hk hn), ?_⟩
        rintro a ha
        cases ha
        obtain ⟨iv, n, _, _, hd, _⟩ := nextNonce_shape hn
        refine ⟨⟨rfl, ?_, [_], rfl, by simp⟩, _, _, _, rfl, rfl⟩
        rw [hc]; exact ⟨_, by rw [hd]⟩

/-- a record made of an outer type, a body, and the bytes -/
structure GoodRecord (E : Env) (encrypt : Bool) (ctype : Nat) (seals : List Ev)
    (r : Nat × Bytes × Bytes) : Prop where
  header : recordHeader r.1 r.2.1.length = .ok (r.2.2.take 5)
  body : r.2.2.drop 5 = r.2.1
  plain : encrypt = false → r.1 = ctype
  enc : encrypt = true → r.1 = Iana.ctApplicationData ∧ ∃ s k n a p,
    Ev.sealed s k n a p ∈ seals ∧ r.2.1 = E.aeadSeal s k n a p

theorem recordHeader_length {o l : Nat} {b : Bytes} (h : recordHeader o l = .ok b) :
    b.length = 5 := by
  simp only [recordHeader, Except.bind_eq_ok, Except.pure_eq_ok] at h
  obtain ⟨x, hx, rfl⟩ := h
  obtain ⟨_, rfl⟩ := toBytes_ok.mp hx
  simp

theorem run_makeRecords (encrypt : Bool) (ctype : Nat) (frags : List Bytes) (c : Conn) :
    Run E G (makeRecords E encrypt ctype frags) c fun records c' => MidSend c c' ∧
      ∃ seals, c'.tr = seals ++ c.tr ∧ (encrypt = false → seals = []) ∧
        ∀ r ∈ records, GoodRecord E encrypt ctype seals r := by
  induction frags generalizing c with
  | nil => exact Run.pure ⟨.refl c, [], rfl, by simp, by simp⟩
  | cons f fs ih =>
    rw [makeRecords]
    refine Run.bind (Q := fun body c' => MidSend c c' ∧ ∃ seals, c'.tr = seals ++ c.tr ∧
      (encrypt = false → seals = []) ∧ (encrypt = true → ∃ s k n a p,
        Ev.sealed s k n a p ∈ seals ∧ body = E.aeadSeal s k n a p)) ?_ ?_
    · unfold protect
      split
      · rename_i he
        unfold encryptFragment
        refine Run.bind' (Run.get ?_)
        refine Run.bind' (Run.getCipher fun k _ => ?_)
        dsimp only
        refine Run.bind' (Run.lift fun hd _ => ?_)
        refine Run.bind (run_cipherEncrypt _ _ _) ?_
        rintro enc c' ⟨hm, s, key, n, ht, henc⟩
        split
        · exact Run.pure ⟨hm, [_], ht, by simp [he], fun _ => ⟨_, _, _, _, _, by simp, henc⟩⟩
        · exact Run.throw
      · rename_i he
        exact Run.mpure ⟨.refl c, [], rfl, fun _ => rfl, fun h => absurd h he⟩
    · rintro body c1 ⟨hm, seals, ht, hp, hs⟩
      dsimp only
      refine Run.bind' (Run.lift fun header hh => ?_)
      refine Run.bind (ih c1) ?_
      rintro records c2 ⟨hm2, seals2, ht2, hp2, hr⟩
      refine Run.pure ⟨hm.trans hm2, seals2 ++ seals, by rw [ht2, ht, List.append_assoc],
        fun he => by rw [hp he, hp2 he]; rfl, ?_⟩
      intro r hr'
      have h5 := recordHeader_length hh
      rcases List.mem_cons.mp hr' with rfl | hr'
      · refine ⟨by simp [h5, hh], by simp [h5], fun he => by simp [he], fun he => ⟨by simp [he], ?_⟩⟩
        obtain ⟨s, k, n, a, p, hmem, hb⟩ := hs he
        exact ⟨s, k, n, a, p, List.mem_append_right _ hmem, hb⟩
      · obtain ⟨g1, g2, g3, g4⟩ := hr r hr'
        refine ⟨g1, g2, g3, fun he => ⟨(g4 he).1, ?_⟩⟩
        obtain ⟨s, k, n, a, p, hmem, hb⟩ := (g4 he).2
        exact ⟨s, k, n, a, p, List.mem_append_left _ hmem, hb⟩

/-- the connection after `content` was sent from `c₀` -/
def Sent (E : Env) (c₀ : Conn) (content : Content) (c' : Conn) : Prop :=
  ∃ c records, SendCtx E c₀ content records c ∧ c' = (emitRecords content records c).2

theorem ctype_handshake (h : Handshake) : (Content.handshake h).ctype = 22 := rfl

theorem run_sendContent {content : Content} {c : Conn}
    (hg : c.state.canSend = true → SentGuard E c content) :
    Run E G (sendContent E content) c fun _ c' => Sent E c content c' := by
  unfold sendContent
  refine Run.bind' (Run.get ?_)
  split
  · exact Run.throw
  split
  · exact Run.throw
  split
  · exact Run.throw
  rename_i _ hcs _
  have hcan : c.state.canSend = true := by simpa using hcs
  have hg := hg hcan
  refine Run.bind' (Run.lift fun data hser => ?_)
  refine Run.bind (Q := fun _ c' => c' = { c with transcript := c'.transcript, tr := c'.tr } ∧
      (∀ h, content = .handshake h → ∃ b,
        c.transcript.update data c.config.side h.msgType = (.ok b, c'.transcript)) ∧
      (∃ hs, c'.tr = hs ++ c.tr ∧ ((∃ h, content = .handshake h ∧
        hs = [.hashed c.config.side h.msgType data]) ∨
          hs = [] ∧ ((∃ h, content = .handshake h) → c'.transcript.orderI = 12))) ∧
      ((∀ h, content ≠ .handshake h) → c'.transcript = c.transcript)) ?_ ?_
  · have other : (∀ h, content ≠ .handshake h) → Run E G (pure () : M Unit) c _ := fun hne =>
      Run.pure (Q := fun _ c' => c' = { c with transcript := c'.transcript, tr := c'.tr } ∧
        (∀ h, content = .handshake h → ∃ b,
          c.transcript.update data c.config.side h.msgType = (.ok b, c'.transcript)) ∧
        (∃ hs, c'.tr = hs ++ c.tr ∧ ((∃ h, content = .handshake h ∧
          hs = [.hashed c.config.side h.msgType data]) ∨
          hs = [] ∧ ((∃ h, content = .handshake h) → c'.transcript.orderI = 12))) ∧
        ((∀ h, content ≠ .handshake h) → c'.transcript = c.transcript))
        ⟨rfl, fun h hc => absurd hc (hne h), ⟨[], rfl, .inr ⟨rfl, fun ⟨h, hc⟩ => absurd hc (hne h)⟩⟩,
          fun _ => rfl⟩
    cases content with
    | handshake h =>
      rcases hu : c.transcript.update data c.config.side h.msgType with ⟨r, t⟩
      cases r with
      | error e =>
        have : hashContent data c.config.side (.handshake h) c =
            (.error e, { c with transcript := t }) := by
          simp only [hashContent, transcriptUpdate, hu]
        exact Run.of_eq this (.single (.hashError hu)) (by simp)
      | ok b =>
        have : hashContent data c.config.side (.handshake h) c =
            (.ok (), { c with
              transcript := t
              tr := if b then .hashed c.config.side h.msgType data :: c.tr else c.tr }) := by
          simp only [hashContent, transcriptUpdate, hu]
        refine Run.of_eq this (.single (.hashSent hser hg hcan hu)) fun _ _ => ?_
        refine ⟨rfl, ?_, ?_, ?_⟩
        · rintro h' h''; cases h''; exact ⟨b, hu⟩
        · cases b
          · refine ⟨[], rfl, .inr ⟨rfl, fun _ => ?_⟩⟩
            unfold Transcript.update at hu
            split at hu
            · cases hu; assumption
            · dsimp only at hu
              split at hu
              · cases hu
              · split at hu <;> cases hu
          · exact ⟨[_], rfl, .inl ⟨h, rfl, rfl⟩⟩
        · intro hne; exact absurd rfl (hne h)
    | unparsed => exact Run.throw
    | _ => exact other (by simp)
  · rintro _ c1 ⟨hsame, hupd, ⟨hs, htr, hhs⟩, htsame⟩
    dsimp only
    refine Run.bind' (Run.lift fun frags _ => ?_)
    refine Run.bind (run_makeRecords _ _ frags c1) ?_
    rintro records c2 ⟨hm, seals, hst, hsp, hrec⟩
    have ctx : SendCtx E c content records c2 := by
      have hsame2 := hm.same
      refine ⟨?_, ?_, hcan, ⟨data, hser, ?_, seals, hs, by rw [hst, htr], ?_, hsp,
        by rw [hsame2]; exact hhs, ?_⟩, ?_⟩
      · rw [hsame2, hsame]
      · have := hm.keys
        rw [hsame] at this
        exact this
      · intro h hc
        obtain ⟨b, hb⟩ := hupd h hc
        refine ⟨b, ?_⟩
        rw [hb, hsame2]
      · obtain ⟨s', hs', hall⟩ := hm.seals
        have : s' = seals := List.append_cancel_right (hs'.symm.trans hst)
        subst this; exact hall
      · intro r hr
        obtain ⟨g1, g2, g3, g4⟩ := hrec r hr
        exact ⟨g1, g2, g3, g4⟩
      · intro hne
        rw [hsame2]; exact htsame hne
    exact Run.modify (Step.emit ctx hg) ⟨c2, records, ctx, rfl⟩

theorem lastRecv_append {l tr : List Ev} (h : ∀ e ∈ l, ∀ x, e ≠ .recv x) :
    lastRecv (l ++ tr) = lastRecv tr := by
  induction l with
  | nil => rfl
  | cons e l ih =>
    have h1 := h e (by simp)
    have := ih (fun e he => h e (by simp [he]))
    cases e <;> simp_all [lastRecv]

/-- what a successful send leaves unchanged -/
structure SentFacts (E : Env) (c : Conn) (content : Content) (c' : Conn) : Prop where
  same : c' = { c with cipher := c'.cipher, transcript := c'.transcript, tr := c'.tr,
                       outputData := c'.outputData }
  keys : SameKeys c.cipher c'.cipher
  head : c'.tr.head? = some (.sent content)
  last : lastRecv c'.tr = lastRecv c.tr
  old : ∃ l, c'.tr = l ++ c.tr
  upd : ∀ h, content = .handshake h → ∃ data b, serHandshake E h = .ok data ∧
    c.transcript.update data c.config.side h.msgType = (.ok b, c'.transcript)
  transcript : (∀ h, content ≠ .handshake h) → c'.transcript = c.transcript

theorem Sent.facts {c c' : Conn} {content : Content} (h : Sent E c content c') :
    SentFacts E c content c' := by
  obtain ⟨c1, records, ctx, rfl⟩ := h
  obtain ⟨data, hser, hu, seals, hs, htr, hseal, _, hhs, _⟩ := ctx.data
  have hs1 := ctx.same
  refine ⟨?_, ctx.keys, rfl, ?_, ?_, ?_, ?_⟩
  · rw [emitRecords, M.modify]
    simp only
    rw [hs1]
  · simp only [emitRecords, M.modify, lastRecv]
    rw [htr, lastRecv_append, lastRecv_append, lastRecv_append]
    · rcases hhs with ⟨h, _, rfl⟩ | ⟨rfl, _⟩ <;> simp
    · intro e he x
      obtain ⟨s, k, n, a, p, rfl⟩ := hseal e he
      simp
    · intro e he x
      simp only [List.mem_reverse, List.mem_map] at he
      obtain ⟨r, _, rfl⟩ := he
      simp
  · exact ⟨.sent content :: ((records.map fun r => Ev.record r.1 r.2.1).reverse ++ (seals ++ hs)),
      by simp only [emitRecords, M.modify, htr, List.cons_append, List.append_assoc]⟩
  · intro h hc
    subst hc
    obtain ⟨b, hb⟩ := hu h rfl
    exact ⟨data, b, hser, hb⟩
  · exact ctx.transcript

theorem Run.send {content : Content} {c : Conn} {Q : Unit → Conn → Prop}
    (hg : c.state.canSend = true → SentGuard E c content)
    (h : ∀ c', SentFacts E c content c' → Q () c') : Run E G (sendContent E content) c Q :=
  (run_sendContent hg).mono fun _ c' hs => h c' hs.facts

theorem SameKeys.enc {c c' : Conn} (h : SameKeys c.cipher c'.cipher) :
    c'.mustEncrypt = c.mustEncrypt ∧ c'.mustDecrypt = c.mustDecrypt := by
  unfold Conn.mustEncrypt Conn.mustDecrypt
  cases h1 : c.cipher <;> cases h2 : c'.cipher <;> rw [h1, h2] at h
  · exact ⟨rfl, rfl⟩
  · cases h
  · cases h
  · obtain ⟨n, rfl⟩ := h; exact ⟨rfl, rfl⟩

theorem run_failWith (d : Nat) (c : Conn) : Run E G (failWith E d) c fun _ _ => True := by
  unfold failWith
  by_cases hcan : c.state.canSend = true
  · refine Run.bind (Run.send (fun _ => trivial)
      (Q := fun _ c' => SentFacts E c (.alert Iana.fatal d) c') (fun _ h => h)) ?_
    rintro _ c' h
    refine Run.moveTo (.failed h.head ?_) trivial
    rw [h.same]; exact hcan
  · refine Run.bind (Q := fun _ _ => False) ?_ (by simp)
    have : sendContent E (.alert Iana.fatal d) c = (.error .tlsError, c) := by
      simp [sendContent, M.bind_def, M.get, hcan, Content.ctype, M.throw]
    exact Run.of_eq this .refl (by simp)

end Siotls
