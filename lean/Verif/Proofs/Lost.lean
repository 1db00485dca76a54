import Verif.Proofs.AlgInv
import Verif.Proofs.SinceInv
import Verif.Proofs.Mfl
/-!
# What a client that was asked to retry hashes

`LostInv`: after a HelloRetryRequest the transcript of a client is a synthetic message with a hash of
its previous hello, then the messages since, without the HelloRetryRequest itself.
-/

namespace Siotls

variable {E : Env} {G : Conn → Prop}

/-- client states from the ServerHello to the CertificateVerify -/
def St.amid : St → Bool
  | .clientWaitEE | .clientWaitCertCr | .clientWaitCert _ | .clientWaitCV .. => true
  | _ => false

/-- all hashes are over a synthetic message and what came since the HelloRetryRequest -/
def Lossy (hs : List (HashAlg × Bytes)) (tr : List Ev) : Prop :=
  ∀ y ∈ hs, ∃ ch : Bytes, ch.length ≤ 48 ∧
    y.2 = [254, 0, 0, UInt8.ofNat y.1.size] ++ ch ++ Spec.concat (sinceRetry tr)

def lastIsHello : Option Content → Bool
  | some (.handshake (.serverHello ..)) => true
  | _ => false

structure LostInv (c : Conn) : Prop where
  one : ¬ NoRetry c.tr → c.transcript.orderI = 1 → sinceRetry c.tr = [] ∧ Lossy c.transcript.hashes c.tr
  two : ¬ NoRetry c.tr → c.transcript.orderI = 2 → Lossy c.transcript.hashes c.tr
  hello : c.state.early = true → lastIsHello (lastRecv c.tr) = true → 3 ≤ c.transcript.orderI ∧
    (¬ NoRetry c.tr → Lossy c.transcript.hashes c.tr)
  amid : c.state.amid = true → 3 ≤ c.transcript.orderI ∧
    (¬ NoRetry c.tr → Lossy c.transcript.hashes c.tr)
  hash : ∀ f ks ch, c.state = .clientWaitSH f ks ch → ch.length ≤ 48
  before : ¬ NoRetry c.tr → (sinceRetry c.tr).length + 2 ≤ (exchanged c.tr).length
  sizes : ∀ m ∈ exchanged c.tr, (m.2.1 = 2 → 44 ≤ m.2.2.length) ∧ (m.2.1 = 1 → 9 ≤ m.2.2.length)

theorem noRetry_mute {l tr : List Ev} (hl : ∀ e ∈ l, Mute e ∧ ∀ x, e ≠ .recv x) :
    NoRetry (l ++ tr) ↔ NoRetry tr := by
  constructor
  · exact fun h => h.sub (List.suffix_append _ _)
  · intro h a b c d hm
    rcases List.mem_append.mp hm with hm | hm
    · exact (hl _ hm).2 _ rfl
    · exact h _ _ _ _ hm

/-- prepending events without handshake messages nor receptions -/
theorem LostInv.mute {c c' : Conn} (h : LostInv c) (l : List Ev) (htr : c'.tr = l ++ c.tr)
    (hl : ∀ e ∈ l, Mute e ∧ ∀ x, e ≠ .recv x) (ht : c'.transcript = c.transcript)
    (hs : c'.state = c.state) : LostInv c' := by
  have he : sinceRetry c'.tr = sinceRetry c.tr := by rw [htr]; exact sinceRetry_mute hl
  have hx : exchanged c'.tr = exchanged c.tr := by
    rw [htr]; exact exchanged_mute fun e h => (hl e h).1
  have hr : lastRecv c'.tr = lastRecv c.tr := by
    rw [htr]; exact lastRecv_append fun e h => (hl e h).2
  have hn : NoRetry c'.tr ↔ NoRetry c.tr := by rw [htr]; exact noRetry_mute hl
  have hy : Lossy c.transcript.hashes c.tr → Lossy c.transcript.hashes c'.tr := by
    intro h y hy; rw [he]; exact h y hy
  refine ⟨?_, ?_, ?_, ?_, ?_, ?_, ?_⟩
  · rw [hn, ht, he]; exact fun h1 h2 => (h.one h1 h2).imp id hy
  · rw [hn, ht]; exact fun h1 h2 => hy (h.two h1 h2)
  · rw [hn, ht, hs, hr]; exact fun h1 h2 => (h.hello h1 h2).imp id fun h h' => hy (h h')
  · rw [hn, ht, hs]; exact fun h1 => (h.amid h1).imp id fun h h' => hy (h h')
  · rw [hs]; exact h.hash
  · rw [hn, he, hx]; exact h.before
  · rw [hx]; exact h.sizes

/-- the first hello is at least 9 bytes long -/
theorem clientHello_size {r sid : Bytes} {suites : List Nat} {exts : List Ext} {data : Bytes}
    (h : serHandshake E (.clientHello r sid suites exts) = .ok data) : 9 ≤ data.length := by
  simp only [serHandshake, serHsBody, Except.bind_def] at h
  cases h1 : serExtList E exts with
  | error e => rw [h1] at h; cases h
  | ok e1 =>
  rw [h1] at h
  cases h2 : Serial.writeVar 1 sid with
  | error e => rw [h2] at h; cases h
  | ok e2 =>
  rw [h2] at h
  cases h3 : Serial.writeListInt 2 2 suites with
  | error e => rw [h3] at h; cases h
  | ok e3 =>
  rw [h3] at h
  simp only [pure, Except.pure] at h
  have hs : 1 ≤ e2.length := by
    unfold Serial.writeVar at h2
    simp only [Except.bind_def] at h2
    split at h2
    · rename_i b hb
      cases h2
      unfold Serial.toBytes at hb
      split at hb
      · cases hb; simp
      · cases hb
    · cases h2
  generalize hbody : beEnc 2 Iana.tls12 ++ (r ++ (e2 ++ (e3 ++ (beEnc 1 1 ++ [0] ++ e1)))) = body at h
  have hb : 5 ≤ body.length := by rw [← hbody]; simp; omega
  unfold Serial.writeVar at h
  simp only [Except.bind_def] at h
  split at h
  · rename_i b hb'
    cases h
    split at hb'
    · rename_i l hl
      cases hb'
      unfold Serial.toBytes at hl
      split at hl
      · cases hl; simp; omega
      · cases hl
    · cases hb'
  · cases h

/-- a ServerHello or HelloRetryRequest is at least 44 bytes long -/
theorem serverHello_size {ct : Option (Option Nat)} {data : Bytes} {h : Handshake} {ty : Nat}
    (hd : decodeContent E ct ty data = .ok (.handshake h)) (h2 : h.msgType = 2) :
    44 ≤ data.length := by
  cases decode_handshake_ctype hd
  obtain ⟨r, sid, suite, exts, items, -, -, hr, -, -, rfl⟩ := serverHello_layout hd h2
  simp [Spec.serverHello, Spec.message, Spec.extensions, Spec.vec8, Spec.vec16, Spec.be16, hr]
  omega

theorem Lossy.hashed {hs : List (HashAlg × Bytes)} {tr : List Ev} (h : Lossy hs tr) (s : Side)
    (t : Nat) (d : Bytes) :
    Lossy (hs.map fun h => (h.1, h.2 ++ d)) (.hashed s t d :: tr) := by
  intro y hy
  obtain ⟨z, hz, rfl⟩ := List.mem_map.mp hy
  obtain ⟨ch, h1, h2⟩ := h z hz
  refine ⟨ch, h1, ?_⟩
  dsimp only
  rw [h2]
  simp [sinceRetry, Spec.concat]

theorem rounds_length (n : Nat) : (rounds n).length = 2 * n := by
  induction n with
  | zero => rfl
  | succ n ih => rw [rounds_succ, List.length_append, ih]; simp; omega

theorem words_long : ∀ i : Fin 13, 3 ≤ i.val → ∀ w ∈ words i.val,
    2 ≤ w.length ∧ w.take 2 = [(.client, 1), (.server, 2)] := by decide

theorem At.long {n i l} (h : At (rounds n) i l) (hi : 3 ≤ i) : 2 ≤ l.length := by
  have hle := h.le
  obtain ⟨w, hw, rfl⟩ := h
  have := (words_long ⟨i, by omega⟩ hi w hw).1
  simp only [List.length_append]
  omega

theorem LostInv.step (hE : E.Sized) {c c' : Conn} (h : LostInv c) (ho : ClientOrder c)
    (ha : AlgInv c) (hsi : SinceInv c) (hi : SideInv .client c) (hs : Step E G c c') : LostInv c' := by
  have hcs := hi.config
  obtain ⟨n, hat⟩ := ho.place
  have hle := hat.le
  cases hs with
  | input | draw | fragment | nc | cfg | signature | clientUnique | serverUnique
  | setup | skipEarly | badRecord => exact ⟨h.1, h.2, h.3, h.4, h.5, h.6, h.7⟩
  | gotHandshake => exact h.mute [_] rfl (by simp [Mute]) rfl rfl
  | gotOther => exact h.mute [_] rfl (by simp [Mute]) rfl rfl
  | opened => exact h.mute [_] rfl (by simp [Mute]) rfl rfl
  | sealed => exact h.mute [_] rfl (by simp [Mute]) rfl rfl
  | delivered => exact h.mute [_] rfl (by simp [Mute]) rfl rfl
  | handshakeKeys => exact h.mute _ rfl (keyEvents_mute _ _ _) rfl rfl
  | masterKeys => exact h.mute _ rfl (keyEvents_mute _ _ _) rfl rfl
  | @emit c₀ content records =>
    refine h.mute (.sent content :: (records.map fun r => Ev.record r.1 r.2.1).reverse) rfl ?_ rfl rfl
    intro e he
    simp only [List.mem_cons, List.mem_reverse, List.mem_map] at he
    rcases he with rfl | ⟨r, _, rfl⟩ <;> exact ⟨trivial, by simp⟩
  | @received ct d x hg hgot hd hne =>
    have hx : sinceRetry (.recv x :: c.tr) = sinceRetry c.tr := by
      cases x with
      | handshake y => exact absurd rfl (hne y)
      | _ => rfl
    have hn : NoRetry (.recv x :: c.tr) ↔ NoRetry c.tr := by
      constructor
      · exact fun h => h.sub (List.suffix_cons _ _)
      · intro h a b s e hm
        rcases List.mem_cons.mp hm with hm | hm
        · cases hm; exact hne _ rfl
        · exact h _ _ _ _ hm
    have hy : Lossy c.transcript.hashes c.tr → Lossy c.transcript.hashes (.recv x :: c.tr) := by
      intro h y hy; rw [hx]; exact h y hy
    refine ⟨?_, ?_, ?_, ?_, h.hash, ?_, h.sizes⟩
    · dsimp only; rw [hn, hx]; exact fun h1 h2 => (h.one h1 h2).imp id hy
    · dsimp only; rw [hn]; exact fun h1 h2 => hy (h.two h1 h2)
    · intro _ hr
      cases x with
      | handshake y => exact absurd rfl (hne y)
      | _ => cases hr
    · dsimp only; rw [hn]; exact fun h1 => (h.amid h1).imp id fun h h' => hy (h h')
    · dsimp only; rw [hn, hx]; exact h.before
  | @hashError data side type e t hu =>
    cases update_view hu with
    | @refused j e h1 h2 h3 =>
      refine ⟨fun a b => ?_, fun a b => ?_, fun a b => ?_, fun a => ?_, h.hash, h.before, h.sizes⟩
      · dsimp only at b; exact h.one a (by omega)
      · dsimp only at b
        rcases Nat.lt_or_ge c.transcript.orderI 2 with h' | h'
        · have := no_skip h1 h2 (by omega); omega
        · exact h.two a (by omega)
      · obtain ⟨x, y⟩ := h.hello a b
        exact ⟨by dsimp only; omega, y⟩
      · obtain ⟨x, y⟩ := h.amid a
        exact ⟨by dsimp only; omega, y⟩
  | @hashSent hh data b t hser hg hcan hu =>
    rw [hcs] at hu ⊢
    cases update_view hu with
    | over h12 => exact ⟨h.1, h.2, h.3, h.4, h.5, h.6, h.7⟩
    | @taken j k h1 h2 h3 h12 =>
      have hn : NoRetry (.hashed .client hh.msgType data :: c.tr) ↔ NoRetry c.tr := by
        constructor
        · exact fun h => h.sub (List.suffix_cons _ _)
        · intro h a b s e hm
          rcases List.mem_cons.mp hm with hm | hm
          · cases hm
          · exact h _ _ _ _ hm
      refine ⟨fun a b => ?_, fun a b => ?_, fun a b => ?_, fun a => ?_, h.hash, fun a => ?_, ?_⟩
      · dsimp only at b
        have hj : j = 0 := by omega
        omega
      · dsimp only at a b ⊢
        have hj : j = 1 := by omega
        have : c.transcript.orderI = 1 := by omega
        exact (h.one (fun hx => a (hn.mpr hx)) this).2.hashed _ _ _
      · obtain ⟨x, y⟩ := h.hello a b
        exact ⟨by dsimp only; omega, fun hx => (y fun hx' => hx (hn.mpr hx')).hashed _ _ _⟩
      · obtain ⟨x, y⟩ := h.amid a
        exact ⟨by dsimp only; omega, fun hx => (y fun hx' => hx (hn.mpr hx')).hashed _ _ _⟩
      · have := h.before fun hx => a (hn.mpr hx)
        simp only [↓reduceIte, sinceRetry, exchanged, List.length_append, List.length_cons,
          List.length_nil]
        omega
      · intro m hm
        simp only [↓reduceIte, exchanged, List.mem_append, List.mem_singleton] at hm
        rcases hm with hm | rfl
        · exact h.sizes m hm
        · refine ⟨fun ht => ?_, fun ht => ?_⟩ <;> dsimp only at ht ⊢
          · rcases hg.client hi with hx | ⟨hx, _⟩ <;> rw [hx] at ht <;> cases ht
          · cases hh <;> first | (cases ht; done) | exact clientHello_size hser
  | @receivedHs ct d x b t hg hgot hd hu =>
    rw [hcs] at hu ⊢
    cases update_view hu with
    | over h12 =>
      have hl := ho.last h12
      have noEarly : c.state.early ≠ true := by
        intro he; cases hst : c.state <;> rw [hst] at he hl <;> first | (cases he; done) | (cases hl; done)
      have noAmid : c.state.amid ≠ true := by
        intro he; cases hst : c.state <;> rw [hst] at he hl <;> first | (cases he; done) | (cases hl; done)
      refine ⟨fun _ b => ?_, fun _ b => ?_, fun a => absurd a noEarly, fun a => absurd a noAmid, h.hash,
        fun a => ?_, h.sizes⟩
      · dsimp only at b; omega
      · dsimp only at b; omega
      · have := hat.long (by omega)
        have hk : (kinds c.tr).length = (exchanged c.tr).length := by simp [kinds]
        cases x with
        | helloRetryRequest => simp only [Bool.false_eq_true, ↓reduceIte, sinceRetry, exchanged, List.length_nil]; omega
        | _ =>
          refine h.before fun hx => a fun p q r s hm => ?_
          rcases List.mem_cons.mp hm with hm | hm
          · cases hm
          · exact hx _ _ _ _ hm
    | @taken j k h1 h2 h3 h12 =>
      have hk := place_kind h3
      have hat' := (hat.skips h1 h2).take h3
      have hkl : (kinds c.tr).length = (exchanged c.tr).length := by simp [kinds]
      have hsz : ∀ m ∈ exchanged (.recv (.handshake x) :: .hashed Side.client.other x.msgType d :: c.tr),
          (m.2.1 = 2 → 44 ≤ m.2.2.length) ∧ (m.2.1 = 1 → 9 ≤ m.2.2.length) := by
        intro m hm
        simp only [exchanged, List.mem_append, List.mem_singleton] at hm
        rcases hm with hm | rfl
        · exact h.sizes m hm
        · refine ⟨fun ht => serverHello_size hd ht, fun ht => ?_⟩
          dsimp only at ht
          have h3' : order[j]? = some (.server, 1, k) := by rw [← ht]; exact h3
          have : ∀ j < 12, ∀ x, order[j]? = some x → (x.1, x.2.1) ≠ (.server, 1) := by decide
          exact absurd rfl (this j (place_lt h3') _ h3')
      have key : (∀ a b s e, x ≠ .helloRetryRequest a b s e) →
          LostInv { c with
            transcript := ⟨c.transcript.hashes.map fun h => (h.1, h.2 ++ d), j + 1⟩,
            tr := .recv (.handshake x) :: .hashed Side.client.other x.msgType d :: c.tr } := by
        intro hx
        have hn : NoRetry (.recv (.handshake x) :: .hashed Side.client.other x.msgType d :: c.tr) ↔
            NoRetry c.tr := by
          constructor
          · exact fun h => h.sub ((List.suffix_cons _ _).trans (List.suffix_cons _ _))
          · intro h a b s e hm
            rcases List.mem_cons.mp hm with hm | hm
            · cases hm; exact hx _ _ _ _ rfl
            · rcases List.mem_cons.mp hm with hm | hm
              · cases hm
              · exact h _ _ _ _ hm
        have hsi : sinceRetry (.recv (.handshake x) :: .hashed Side.client.other x.msgType d :: c.tr) =
            sinceRetry (.hashed Side.client.other x.msgType d :: c.tr) := by
          cases x <;> first | rfl | exact absurd rfl (hx _ _ _ _)
        have lift : Lossy c.transcript.hashes c.tr →
            Lossy (c.transcript.hashes.map fun h => (h.1, h.2 ++ d))
              (.recv (.handshake x) :: .hashed Side.client.other x.msgType d :: c.tr) := by
          intro h y hy
          rw [hsi]
          exact h.hashed _ _ _ y hy
        refine ⟨fun a b => ?_, fun a b => ?_, fun a b => ?_, fun a => ?_, h.hash, fun a => ?_, hsz⟩
        · dsimp only at b; omega
        · dsimp only at b
          have hj : j = 1 := by omega
          subst hj
          have : order[1]? = some (.client, 1, false) := rfl
          rw [this] at h3
          cases h3
        · dsimp only at b
          have ht : x.msgType = 2 := by
            cases x <;> first | rfl | cases b
          have hj : j = 2 := by have := hk.2.1 ht; omega
          refine ⟨by dsimp only; omega, fun hx' => lift ?_⟩
          have hx' : ¬ NoRetry c.tr := fun h => hx' (hn.mpr h)
          rcases Nat.lt_or_ge c.transcript.orderI 2 with h' | h'
          · have := no_skip h1 h2 (by omega); omega
          · exact h.two hx' (by omega)
        · obtain ⟨p, q⟩ := h.amid a
          exact ⟨by dsimp only; omega, fun hx' => lift (q fun h => hx' (hn.mpr h))⟩
        · have := h.before fun h => a (hn.mpr h)
          dsimp only
          rw [hsi]
          simp only [sinceRetry, exchanged, List.length_append, List.length_cons, List.length_nil]
          omega
      cases x with
      | helloRetryRequest p q r s =>
        have hj : j = 2 := by have := hk.2.1 rfl; omega
        refine ⟨fun a b => ?_, fun a b => ?_, fun a b => ?_, fun a => ?_, h.hash, fun a => ?_, hsz⟩
        · dsimp only at b; omega
        · dsimp only at b; omega
        · cases b
        · obtain ⟨y, _⟩ := h.amid a
          omega
        · have := hat'.long (by omega)
          simp only [List.length_append, List.length_cons, List.length_nil] at this
          simp only [↓reduceIte, sinceRetry, exchanged, List.length_append, List.length_cons, List.length_nil]
          omega
      | _ => exact key (by intros; simp)
  | @postInit k t hc hp hst =>
    have hsub : ∀ y ∈ t.hashes, y ∈ c.transcript.hashes := by
      unfold Transcript.postInit at hp
      split at hp
      · rename_i y hy
        cases hp
        intro z hz
        rw [List.mem_singleton.mp hz]
        exact List.mem_of_find?_eq_some hy
      · cases hp
    have hy : Lossy c.transcript.hashes c.tr → Lossy t.hashes c.tr := fun h y hy => h y (hsub y hy)
    have hti := postInit_order hp
    refine ⟨?_, ?_, ?_, ?_, h.hash, h.before, h.sizes⟩ <;> dsimp only <;> rw [hti]
    · exact fun a b => (h.one a b).imp id hy
    · exact fun a b => hy (h.two a b)
    · exact fun a b => (h.hello a b).imp id fun x z => hy (x z)
    · exact fun a => (h.amid a).imp id fun x z => hy (x z)
  | @hrrClient f ks ch random sid suite exts t hst hl h2 hd hal =>
    have hok : c.AlgOk := by
      cases f with
      | true => exact hal rfl
      | false => exact ha.settled (by rw [hst]; rfl)
    obtain ⟨k, d, _, hh⟩ := hok
    unfold Transcript.hrrDance at hd
    rw [hh, hcs] at hd
    cases hd
    have hnr : ¬ NoRetry c.tr := fun hn => hn _ _ _ _ (lastRecv_mem hl)
    have hsince : sinceRetry c.tr = [] :=
      hsi.retry (by rw [hl]; rfl) (by rw [hst]; rfl) h2
    have hlossy : Lossy [(k.info.digest, [0xfe, 0, 0, UInt8.ofNat k.info.digest.size] ++ ch)] c.tr := by
      intro y hy
      rw [List.mem_singleton.mp hy]
      exact ⟨ch, h.hash _ _ _ hst, by rw [hsince]; simp [Spec.concat]⟩
    refine ⟨fun _ _ => ⟨hsince, hlossy⟩, fun _ b => (by cases b), fun _ b => ?_, fun a => ?_, h.hash,
      h.before, h.sizes⟩
    · dsimp only at b; rw [hl] at b; cases b
    · dsimp only at a; rw [hst] at a; cases a
  | retry hst _ _ hl =>
    obtain ⟨a, b, s, e, _, hl⟩ := hl
    refine ⟨h.one, h.two, fun _ y => ?_, fun x => (by cases x), fun _ _ _ x => (by cases x), h.before, h.sizes⟩
    dsimp only at y; rw [hl] at y; cases y
  | hrrServer hst =>
    have := hi.state .server (by rw [hst]; rfl)
    cases this
  | @move s hm =>
    refine ⟨h.one, h.two, fun x y => h.hello (hm.early x) y, fun x => ?_, fun f ks ch x => ?_, h.before, h.sizes⟩
    · dsimp only at x
      cases hm <;> first
        | (cases x; done)
        | (refine h.amid ?_; rw [‹c.state = _›]; rfl)
        | (refine h.hello (by rw [‹c.state = _›]; rfl) ?_; rw [‹lastRecv c.tr = _›]; rfl)
    · dsimp only at x
      subst x
      cases hm with
      | clientHello _ _ _ _ _ hdig =>
        unfold Transcript.digest at hdig
        split at hdig
        · cases hdig
        · cases hdig
          rename_i a d _ _
          rw [hE.hash]
          cases a <;> simp [HashAlg.size]

theorem LostInv.api (hE : E.Sized) {c c' : Conn} (h : LostInv c) (ho : ClientOrder c)
    (ha : AlgInv c) (hsi : SinceInv c) (hi : SideInv .client c) (hs : Api E G c c') : LostInv c' := by
  have over : ∀ s : St, s.early = false → s.amid = false → LostInv { c with state := s } := by
    intro s h1 h2
    refine ⟨h.one, h.two, fun x => ?_, fun x => ?_, fun f ks ch x => ?_, h.before, h.sizes⟩ <;> dsimp only at x
    · rw [h1] at x; cases x
    · rw [h2] at x; cases x
    · subst x; cases h1
  cases hs with
  | step hs => exact h.step hE ho ha hsi hi hs
  | appended | read | drain => exact ⟨h.1, h.2, h.3, h.4, h.5, h.6, h.7⟩
  | closeRecv => unfold closeReceivingEnd; split <;> exact over _ rfl rfl
  | closing => exact over _ (St.closing_early _) (by cases c.state <;> rfl)
  | closedSend => exact over _ rfl rfl

theorem LostInv.fresh {config : Config} {hostname ocsp algs random} {c : Conn}
    (h : Conn.new config hostname ocsp algs random = .ok c) : LostInv c := by
  obtain ⟨-, -, -, -, -, -, -, -, htr, ho, hh, -, hs⟩ := Conn.new_fresh h
  have hn : NoRetry c.tr := by rw [htr]; intro a b c d h; cases h
  refine ⟨fun x => absurd hn x, fun x => absurd hn x, fun _ x => ?_, fun x => ?_, fun _ _ _ x => ?_,
    fun x => absurd hn x, ?_⟩
  · rw [htr] at x; cases x
  · rcases hs with ⟨_, h, _⟩ | ⟨_, h, _⟩ <;> rw [h] at x <;> cases x
  · rcases hs with ⟨_, h, _⟩ | ⟨_, h, _⟩ <;> rw [h] at x <;> cases x
  · rw [htr]; intro m hm; cases hm

theorem sinceRetry_suffix (tr : List Ev) : sinceRetry tr <:+ exchanged tr := by
  induction tr with
  | nil => exact List.suffix_refl _
  | cons e l ih =>
    cases e with
    | recv x =>
      cases x with
      | handshake m =>
        cases m with
        | helloRetryRequest => exact List.nil_suffix
        | _ => exact ih
      | _ => exact ih
    | hashed s t d =>
      obtain ⟨p, hp⟩ := ih
      exact ⟨p, by simp only [sinceRetry, exchanged, ← hp, List.append_assoc]⟩
    | _ => exact ih

theorem At.hellos {n i l} (h : At (rounds n) i l) (hi : 3 ≤ i) :
    ∃ rest, l = (.client, 1) :: (.server, 2) :: rest := by
  have hle := h.le
  obtain ⟨w, hw, rfl⟩ := h
  cases n with
  | zero =>
    have := (words_long ⟨i, by omega⟩ hi w hw).2
    rw [← List.take_append_drop 2 w, this]
    exact ⟨_, rfl⟩
  | succ n => exact ⟨_, rfl⟩

/-- what a client hashes after a HelloRetryRequest is shorter than the transcript -/
theorem LostInv.ne (hE : E.Sized) {c : Conn} (h : LostInv c) (ho : ClientOrder c)
    (hi : 3 ≤ c.transcript.orderI) (hn : ¬ NoRetry c.tr) (a : HashAlg) {ch : Bytes}
    (hc : ch.length ≤ 48) :
    [254, 0, 0, UInt8.ofNat a.size] ++ ch ++ Spec.concat (sinceRetry c.tr) ≠
      Spec.transcript (E.spec a) (exchanged c.tr) := by
  obtain ⟨n, hat⟩ := ho.place
  obtain ⟨rest, hr⟩ := hat.hellos hi
  have hb := h.before hn
  have hz := h.sizes
  obtain ⟨p, hp⟩ := sinceRetry_suffix c.tr
  generalize sinceRetry c.tr = s at *
  generalize he : exchanged c.tr = ms at *
  unfold kinds at hr
  rw [he] at hr
  match ms, hr with
  | (x, y, m₁) :: (z, w, m₂) :: ms, hr =>
  simp only [List.map_cons, Msg.kind, List.cons.injEq, Prod.mk.injEq] at hr
  obtain ⟨⟨rfl, rfl⟩, ⟨rfl, rfl⟩, -⟩ := hr
  have h1 : 9 ≤ m₁.length := (hz _ (.head _)).2 rfl
  have h2 : 44 ≤ m₂.length := (hz _ (.tail _ (.head _))).1 rfl
  have hs : (Spec.concat s).length ≤ (Spec.concat ms).length := by
    match p, hp with
    | [], hp =>
      rw [List.nil_append] at hp
      subst hp
      simp at hb
    | [_], hp =>
      rw [List.singleton_append] at hp
      cases hp
      simp at hb
    | _ :: _ :: p, hp =>
      simp only [List.cons_append, List.cons.injEq] at hp
      rw [← hp.2.2]
      simp [Spec.concat]
  intro heq
  have hlen := congrArg List.length heq
  unfold Spec.transcript at hlen
  have hh : ((E.spec a).hash m₁).length = a.size := hE.hash a m₁
  have ha : 32 ≤ a.size := by cases a <;> simp [HashAlg.size]
  split at hlen
  · rename_i heq'
    cases heq'
    split at hlen
    · simp only [List.length_append, List.length_cons, List.length_nil, hh] at hlen
      omega
    · have hcc : ∀ (m : Msg) l, Spec.concat (m :: l) = m.2.2 ++ Spec.concat l := fun m l => by
        simp [Spec.concat]
      simp only [hcc, List.length_append, List.length_cons, List.length_nil] at hlen
      omega
  · rename_i hx
    exact hx _ _ _ _ _ rfl

end Siotls
