import Verif.Proofs.Order
/-!
# Invariants of the transcript

`ClientOrder` holds in all histories, `ServerOrder` in those where every received content finds the
connection ready.
-/

namespace Siotls

variable {E : Env} {G : Conn → Prop}

/-! ## bytes of a ServerHello -/

theorem isRetry_hello {random sid : Bytes} {suite : Nat} {exts : List Ext} {h : Handshake}
    {data : Bytes} (hr : random.length = 32)
    (hh : h = .serverHello random sid suite exts ∨ h = .helloRetryRequest random sid suite exts)
    (hs : serHandshake E h = .ok data) : Spec.isRetry data = decide (random = Spec.retryRandom) := by
  have key : ∃ rest, data = beEnc 1 2 ++ (rest) ∧ ∃ l tail, rest = l ++ (beEnc 2 Iana.tls12 ++
      (random ++ tail)) ∧ l.length = 3 := by
    rcases hh with rfl | rfl
    all_goals
      simp only [serHandshake, serHsBody, Except.bind_def] at hs
      cases h1 : serExtList E exts with
      | error e => rw [h1] at hs; cases hs
      | ok e1 =>
      rw [h1] at hs
      cases h2 : Serial.writeVar 1 sid with
      | error e => rw [h2] at hs; cases hs
      | ok e2 =>
      rw [h2] at hs
      cases h3 : Serial.toBytes 2 suite with
      | error e => rw [h3] at hs; cases hs
      | ok e3 =>
      rw [h3] at hs
      simp only [pure, Except.pure] at hs
      unfold Serial.writeVar at hs
      simp only [Except.bind_def] at hs
      split at hs
      · rename_i b hb
        split at hb
        · rename_i l hl
          cases hb
          cases hs
          refine ⟨_, rfl, l, _, rfl, ?_⟩
          unfold Serial.toBytes at hl
          split at hl
          · cases hl; rfl
          · cases hl
        · cases hb
      · cases hs
  obtain ⟨_, rfl, l, tail, rfl, hl⟩ := key
  match l, hl with
  | [a, b, c], _ =>
    have : (beEnc 1 2 ++ ([a, b, c] ++ (beEnc 2 Iana.tls12 ++ (random ++ tail)))).drop 6 =
        random ++ tail := rfl
    unfold Spec.isRetry
    rw [this, ← hr, List.take_left]

/-! ## client -/

/-- `n` rounds of ClientHello and HelloRetryRequest -/
def rounds (n : Nat) : List (Side × Nat) :=
  (List.replicate n [(Side.client, 1), (Side.server, 2)]).flatten

theorem rounds_succ (n : Nat) : rounds (n + 1) = rounds n ++ [(.client, 1), (.server, 2)] := by
  unfold rounds
  rw [List.replicate_succ', List.flatten_append]
  simp

theorem rounds_cert (n : Nat) : (rounds n).count (.server, 11) = 0 := by
  induction n with
  | zero => rfl
  | succ n ih => rw [rounds_succ, List.count_append, ih]; decide

/-- states a client is in when the whole handshake was exchanged -/
def St.last : St → Bool
  | .clientWaitFin .. | .connected | .closed .. | .failed => true
  | _ => false

/-- a ServerHello or HelloRetryRequest -/
def isHello : Option Content → Bool
  | some (.handshake h) => h.msgType = 2
  | _ => false

structure ClientOrder (c : Conn) : Prop where
  place : ∃ n, At (rounds n) c.transcript.orderI (kinds c.tr)
  last : c.transcript.orderI = 12 → c.state.last = true
  hello : isHello (lastRecv c.tr) = true → c.state.early = true → c.transcript.orderI ≤ 3
  retries : (∀ x ∈ c.transcript.hashes, x.2 = Spec.concat (exchanged c.tr)) ∨
    ∃ a b s e, Ev.recv (.handshake (.helloRetryRequest a b s e)) ∈ c.tr

theorem concat_append (l m : List Msg) : Spec.concat (l ++ m) = Spec.concat l ++ Spec.concat m := by
  simp [Spec.concat]

theorem lastRecv_mem {tr : List Ev} {x : Content} (h : lastRecv tr = some x) : Ev.recv x ∈ tr := by
  induction tr with
  | nil => cases h
  | cons e l ih =>
    cases e with
    | recv y => cases h; exact .head _
    | _ => exact .tail _ (ih h)

/-- prepending events without handshake messages nor receptions -/
theorem ClientOrder.mute {c c' : Conn} (h : ClientOrder c) (l : List Ev) (htr : c'.tr = l ++ c.tr)
    (hl : ∀ e ∈ l, Mute e ∧ ∀ x, e ≠ .recv x) (ht : c'.transcript = c.transcript)
    (hs : c'.state = c.state) : ClientOrder c' := by
  have he : exchanged c'.tr = exchanged c.tr := by
    rw [htr]; exact exchanged_mute fun e h => (hl e h).1
  have hr : lastRecv c'.tr = lastRecv c.tr := by
    rw [htr]; exact lastRecv_append fun e h => (hl e h).2
  refine ⟨?_, ?_, ?_, ?_⟩
  · unfold kinds; rw [he, ht]; exact h.place
  · rw [ht, hs]; exact h.last
  · rw [ht, hs, hr]; exact h.hello
  · rw [ht, he]
    exact h.retries.imp id fun ⟨a, b, s, e, hm⟩ => ⟨a, b, s, e, by
      rw [htr]; exact List.mem_append_right _ hm⟩

theorem keyEvents_mute (l : List PyStr) (k k' : CipherSt) :
    ∀ e ∈ keyEvents l k k', Mute e ∧ ∀ x, e ≠ .recv x := by
  intro e he
  rcases mem_keyEvents he with ⟨_, _, rfl⟩ | ⟨_, _, rfl⟩ | ⟨_, _, rfl⟩ <;> exact ⟨trivial, by simp⟩

theorem MoveOk.early {c : Conn} {s : St} (h : MoveOk E c s) (hs : s.early = true) :
    c.state.early = true := by
  cases h <;> first
    | (rw [‹c.state = _›]; rfl)
    | cases hs

theorem MoveOk.last {c : Conn} {s : St} (h : MoveOk E c s) (hs : c.state.last = true) :
    s.last = true := by
  cases h <;> first
    | rfl
    | (rw [‹c.state = _›] at hs; cases hs)

theorem HsGuard.finished {c : Conn} {h : Handshake} (hg : HsGuard E c h)
    (ht : h.msgType = 20) : (∃ f, c.state = .serverWaitCH f) ∨ ∃ vh, c.state = .clientWaitFin false vh := by
  cases h <;> first | cases ht
  obtain ⟨_, _, _, _, _, h⟩ := hg
  exact h

theorem HsGuard.client {c : Conn} {h : Handshake} (hg : HsGuard E c h)
    (hi : SideInv .client c) :
    h.msgType = 1 ∨ h.msgType = 20 ∧ ∃ vh, c.state = .clientWaitFin false vh := by
  have no : ∀ f, c.state ≠ .serverWaitCH f := by
    intro f hf
    have := hi.state .server (by rw [hf]; rfl)
    cases this
  cases h with
  | clientHello => exact .inl rfl
  | serverHello => obtain ⟨f, _, _, _, _, _, _, _, h, _⟩ := hg; exact absurd h (no f)
  | helloRetryRequest => obtain ⟨_, _, _, _, _, h, _⟩ := hg; exact absurd h (no _)
  | encryptedExtensions => obtain ⟨f, _, _, _, _, _, _, _, h, _⟩ := hg; exact absurd h (no f)
  | certificateRequest => obtain ⟨f, h, _⟩ := hg; exact absurd h (no f)
  | certificate => obtain ⟨f, h, _⟩ := hg; exact absurd h (no f)
  | certificateVerify => obtain ⟨f, _, _, _, h, _⟩ := hg; exact absurd h (no f)
  | finished =>
    obtain ⟨_, _, _, _, _, h⟩ := hg
    rcases h with ⟨f, h⟩ | h
    · exact absurd h (no f)
    · exact .inr ⟨rfl, h⟩

theorem ClientOrder.step {c c' : Conn} (h : ClientOrder c) (hi : SideInv .client c)
    (hs : Step E G c c') : ClientOrder c' := by
  have hcs := hi.config
  obtain ⟨n, hat⟩ := h.place
  have hle := hat.le
  cases hs with
  | input | draw | fragment | nc | cfg | signature | clientUnique | serverUnique
  | setup | skipEarly | badRecord => exact ⟨h.1, h.2, h.3, h.4⟩
  | gotHandshake => exact h.mute [_] rfl (by simp [Mute]) rfl rfl
  | gotOther => exact h.mute [_] rfl (by simp [Mute]) rfl rfl
  | opened => exact h.mute [_] rfl (by simp [Mute]) rfl rfl
  | sealed => exact h.mute [_] rfl (by simp [Mute]) rfl rfl
  | delivered => exact h.mute [_] rfl (by simp [Mute]) rfl rfl
  | handshakeKeys => exact h.mute _ rfl (keyEvents_mute _ _ _) rfl rfl
  | masterKeys => exact h.mute _ rfl (keyEvents_mute _ _ _) rfl rfl
  | @emit c₀ content records =>
    refine h.mute (.sent content :: (records.map fun r => Ev.record r.1 r.2.1).reverse) rfl ?_ rfl rfl
    intro e he
    simp only [List.mem_cons, List.mem_reverse, List.mem_map] at he
    rcases he with rfl | ⟨r, _, rfl⟩ <;> exact ⟨trivial, by simp⟩
  | @received ct d x hg hgot hd hne =>
    refine ⟨h.1, h.2, ?_, ?_⟩
    · intro hx
      cases x with
      | handshake y => exact absurd rfl (hne y)
      | _ => cases hx
    · exact h.4.imp id fun ⟨a, b, s, e, hm⟩ => ⟨a, b, s, e, .tail _ hm⟩
  | @hashError data side type e t hu =>
    cases update_view hu with
    | refused h1 h2 h3 =>
      refine ⟨⟨n, hat.skips h1 h2⟩, fun h12 => absurd h12 (skips_end h1 h2 h3), ?_, h.4⟩
      intro hx he
      have := h.hello hx he
      have := no_skip h1 h2 (by omega)
      dsimp only
      omega
  | @hashSent hh data b t hser hg hcan hu =>
    rcases hg.client hi with ht | ⟨ht, vh, hst⟩
    all_goals rw [ht, hcs] at hu
    · cases update_view hu with
      | over => exact ⟨h.1, h.2, h.3, h.4⟩
      | @taken j k h1 h2 h3 h12 =>
        have hj := (place_kind h3).1 rfl
        have hn : kinds (.hashed .client 1 data :: c.tr) = kinds c.tr ++ [(.client, 1)] := by
          simp [kinds, exchanged, Msg.kind]
        rw [hcs, ht]
        refine ⟨⟨n, ?_⟩, ?_, ?_, ?_⟩
        · exact hn ▸ (hat.skips h1 h2).take h3
        · intro hx; dsimp only at hx; omega
        · intro _ _; dsimp only; omega
        · refine h.4.imp ?_ fun ⟨a, b, s, e, hm⟩ => ⟨a, b, s, e, .tail _ hm⟩
          intro hall x hx
          simp only [List.mem_map] at hx
          obtain ⟨y, hy, rfl⟩ := hx
          simp only [↓reduceIte, exchanged, concat_append, hall y hy]
          simp [Spec.concat]
    · cases update_view hu with
      | over => exact ⟨h.1, h.2, h.3, h.4⟩
      | @taken j k h1 h2 h3 h12 =>
        have hn : kinds (.hashed .client 20 data :: c.tr) = kinds c.tr ++ [(.client, 20)] := by
          simp [kinds, exchanged, Msg.kind]
        rw [hcs, ht]
        refine ⟨⟨n, ?_⟩, ?_, ?_, ?_⟩
        · exact hn ▸ (hat.skips h1 h2).take h3
        · intro _; dsimp only; rw [hst]; rfl
        · intro _ he; dsimp only at he; rw [hst] at he; cases he
        · refine h.4.imp ?_ fun ⟨a, b, s, e, hm⟩ => ⟨a, b, s, e, .tail _ hm⟩
          intro hall x hx
          simp only [List.mem_map] at hx
          obtain ⟨y, hy, rfl⟩ := hx
          simp only [↓reduceIte, exchanged, concat_append, hall y hy]
          simp [Spec.concat]
  | @receivedHs ct d x b t hg hgot hd hu =>
    rw [hcs] at hu ⊢
    cases update_view hu with
    | over h12 =>
      refine ⟨h.1, h.2, ?_, ?_⟩
      · intro _ he
        have := h.last h12
        dsimp only at he
        cases hst : c.state <;> rw [hst] at he this <;> first | (cases he; done) | (cases this; done)
      · exact h.4.imp id fun ⟨a, b, s, e, hm⟩ => ⟨a, b, s, e, .tail _ hm⟩
    | @taken j k h1 h2 h3 h12 =>
      have hk := place_kind h3
      have hn : kinds (.recv (.handshake x) :: .hashed Side.client.other x.msgType d :: c.tr) =
          kinds c.tr ++ [(.server, x.msgType)] := by
        simp [kinds, exchanged, Msg.kind, Side.other]
      refine ⟨⟨n, ?_⟩, ?_, ?_, ?_⟩
      · exact hn ▸ (hat.skips h1 h2).take h3
      · intro hx
        dsimp only at hx
        have h11 : j = 11 := by omega
        have := hk.2.2.2.2.2.2 h11
        simp [Side.other] at this
      · intro hx _
        dsimp only
        have : x.msgType = 2 := by simpa [isHello, lastRecv] using hx
        have := hk.2.1 this
        omega
      · refine h.4.imp ?_ fun ⟨a, b, s, e, hm⟩ => ⟨a, b, s, e, .tail _ (.tail _ hm)⟩
        intro hall y hy
        simp only [List.mem_map] at hy
        obtain ⟨z, hz, rfl⟩ := hy
        simp only [↓reduceIte, exchanged, concat_append, hall z hz]
        simp [Spec.concat]
  | @postInit k t hc hp hst =>
    refine ⟨?_, ?_, ?_, ?_⟩
    · dsimp only; rw [postInit_order hp]; exact h.1
    · dsimp only; rw [postInit_order hp]; exact h.2
    · dsimp only; rw [postInit_order hp]; exact h.3
    · refine h.4.imp ?_ id
      intro hall x hx
      unfold Transcript.postInit at hp
      split at hp
      · rename_i y hy
        cases hp
        rw [List.mem_singleton.mp hx]
        exact hall _ (List.mem_of_find?_eq_some hy)
      · cases hp
  | @hrrClient f ks ch random sid suite exts t hst hl h2 hd =>
    have hearly : c.state.early = true := by rw [hst]; rfl
    have h3 := h.hello (by rw [hl]; rfl) hearly
    have hti : t.orderI = 1 := by
      unfold Transcript.hrrDance at hd
      split at hd
      · cases hd
      · cases hd; rw [hcs]
    have hk : ∃ m, kinds c.tr = rounds m := by
      have h13 : c.transcript.orderI = 1 ∨ c.transcript.orderI = 3 := by omega
      rcases h13 with h1 | h1 <;> rw [h1] at hat
      · exact ⟨n, hat.one⟩
      · exact ⟨n + 1, by rw [hat.three, rounds_succ]⟩
    obtain ⟨m, hm⟩ := hk
    refine ⟨⟨m, ?_⟩, ?_, ?_, .inr ⟨_, _, _, _, lastRecv_mem hl⟩⟩
    · dsimp only; rw [hti, hm]; exact .start _
    · dsimp only; rw [hti]; intro h; cases h
    · dsimp only; rw [hti]; intros; omega
  | retry hst =>
    refine ⟨h.1, fun h12 => ?_, fun hx _ => h.3 hx (by rw [hst]; rfl), h.4⟩
    have := h.2 h12
    rw [hst] at this
    cases this
  | hrrServer hst =>
    have := hi.state .server (by rw [hst]; rfl)
    cases this
  | @move s hm =>
    exact ⟨h.1, fun h12 => hm.last (h.2 h12), fun hx he => h.3 hx (hm.early he), h.4⟩

theorem St.closing_last (s : St) : s.closing.last = true := by cases s <;> rfl
theorem St.closing_early (s : St) : s.closing.early = false := by cases s <;> rfl

theorem ClientOrder.api {c c' : Conn} (h : ClientOrder c) (hi : SideInv .client c)
    (hs : Api E G c c') : ClientOrder c' := by
  cases hs with
  | step hs => exact h.step hi hs
  | appended | read | drain => exact ⟨h.1, h.2, h.3, h.4⟩
  | closeRecv =>
    unfold closeReceivingEnd
    split <;> exact ⟨h.1, fun _ => rfl, fun _ he => (by cases he), h.4⟩
  | closing =>
    refine ⟨h.1, fun _ => St.closing_last _, fun _ he => ?_, h.4⟩
    dsimp only at he
    rw [St.closing_early] at he
    cases he
  | closedSend => exact ⟨h.1, fun _ => rfl, fun _ he => (by cases he), h.4⟩

theorem ClientOrder.fresh {config : Config} {hostname ocsp algs random} {c : Conn}
    (h : Conn.new config hostname ocsp algs random = .ok c) : ClientOrder c := by
  obtain ⟨-, -, -, -, -, -, -, -, htr, ho, hh, -, -⟩ := Conn.new_fresh h
  refine ⟨⟨0, ?_⟩, ?_, ?_, .inl ?_⟩
  · rw [ho, htr]; exact .start _
  · rw [ho]; intro h; cases h
  · rw [htr]; intro h; cases h
  · rw [hh, htr]
    intro x hx
    simp only [List.mem_map] at hx
    obtain ⟨a, _, rfl⟩ := hx
    rfl

end Siotls
