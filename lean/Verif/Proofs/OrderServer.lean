import Verif.Proofs.OrderInv
/-!
# The transcript of a server
-/

namespace Siotls

variable {E : Env}

/-- no HelloRetryRequest was sent -/
def St.unretried : St → Bool
  | .serverStart | .serverWaitCH true => true
  | _ => false

def Fresh (t : Transcript) (tr : List Ev) : Prop :=
  At [] t.orderI (kinds tr) ∧
  (∀ m ∈ exchanged tr, m.1 = .server → m.2.1 = 2 → Spec.isRetry m.2.2 = false) ∧
  ∀ x ∈ t.hashes, x.2 = Spec.concat (exchanged tr)

/-- the bytes hashed in place of the first ClientHello -/
def synthetic (E : Env) (a : HashAlg) (ch : Bytes) : Bytes :=
  [0xfe, 0, 0, UInt8.ofNat a.size] ++ E.hash a ch

def Danced (E : Env) (t : Transcript) (tr : List Ev) : Prop :=
  t.orderI = 0 ∧ ∃ ch a, exchanged tr = [(.client, 1, ch)] ∧ t.hashes = [(a, synthetic E a ch)]

def Retried (E : Env) (t : Transcript) (tr : List Ev) : Prop :=
  At (rounds 1) t.orderI (kinds tr) ∧
  ∃ ch hrr rest a, exchanged tr = (.client, 1, ch) :: (.server, 2, hrr) :: rest ∧
    Spec.isRetry hrr = true ∧
    t.hashes = [(a, synthetic E a ch ++ hrr ++ Spec.concat rest)]

def Main (E : Env) (s : St) (t : Transcript) (tr : List Ev) : Prop :=
  Fresh t tr ∨ s.unretried = false ∧ (Danced E t tr ∨ Retried E t tr)

structure ServerOrder (E : Env) (c : Conn) : Prop where
  unique : ∀ r, c.serverUnique = some r → r.length = 32 ∧ r ≠ Spec.retryRandom
  enc : 4 ≤ c.transcript.orderI → encOf c.cipher = true
  head : c.state.unretried = true → (∃ random sid suites exts,
    c.tr.head? = some (.recv (.handshake (.clientHello random sid suites exts)))) →
    c.transcript.orderI = 2
  main : Main E c.state c.transcript c.tr

theorem Main.tr {s : St} {t : Transcript} {tr tr' : List Ev} (h : Main E s t tr)
    (he : exchanged tr' = exchanged tr) : Main E s t tr' := by
  unfold Main Fresh Danced Retried kinds at *
  rw [he]; exact h

/-- prepending events without handshake messages -/
theorem ServerOrder.mute {c c' : Conn} (h : ServerOrder E c) (l : List Ev) (htr : c'.tr = l ++ c.tr)
    (hl : ∀ e ∈ l, Mute e ∧ ∀ x, e ≠ .recv x) (ht : c'.transcript = c.transcript)
    (hs : c'.state = c.state) (hu : c'.serverUnique = c.serverUnique)
    (hk : encOf c.cipher = true → encOf c'.cipher = true) : ServerOrder E c' := by
  refine ⟨by rw [hu]; exact h.1, by rw [ht]; exact fun h4 => hk (h.2 h4), ?_, ?_⟩
  · rw [hs, ht]
    intro h1 ⟨a, b, d, e, h2⟩
    cases l with
    | nil => rw [htr] at h2; exact h.head h1 ⟨a, b, d, e, h2⟩
    | cons x l =>
      rw [htr] at h2
      cases h2
      exact absurd rfl ((hl _ (.head _)).2 _)
  · rw [hs, ht]
    refine h.main.tr ?_
    rw [htr]; exact exchanged_mute fun e h => (hl e h).1

theorem nextNonce_enc {k : CipherSt} {wr : Dir} {n : Bytes}
    (h : nextNonce k.info k.wr = .ok (n, wr)) :
    encOf (some { k with wr := wr }) = encOf (some k) := by
  simp [encOf, nextNonce_key h]

theorem handshake_enc {k k' : CipherSt} {s h : Bytes} {r} (hd : deriveHandshake E k s h = (r, k'))
    (he : encOf (some k) = true) : encOf (some k') = true := by
  cases deriveHandshake_view hd <;> first | exact he | rfl

theorem master_enc {k k' : CipherSt} {s h : Bytes} {r} (hd : deriveMaster E k s h = (r, k'))
    (he : encOf (some k) = true) : encOf (some k') = true := by
  cases deriveMaster_view hd <;> first | exact he | rfl

theorem MoveOk.unretried {c : Conn} {s : St} (h : MoveOk E c s) (hs : s.unretried = true) :
    c.state.unretried = true := by
  cases h <;> first
    | (rw [‹c.state = _›]; rfl)
    | cases hs

theorem unretried_early {s : St} (h : s.unretried = true) : s.early = true := by
  cases s <;> first | rfl | cases h

/-- a message of the client taken into account -/
theorem Main.client {s : St} {t t' : Transcript} {tr : List Ev} {d : Bytes} {ty : Nat}
    (h : Main E s t tr) (hu : t.update d .client ty = (.ok true, t')) :
    Main E s t' (.hashed .client ty d :: tr) := by
  have hn : kinds (.hashed .client ty d :: tr) = kinds tr ++ [(.client, ty)] := by
    simp [kinds, exchanged, Msg.kind]
  cases update_view hu with
  | @taken j k h1 h2 h3 h12 =>
  rcases h with ⟨g1, g2, g3⟩ | ⟨hs, ⟨g1, _⟩ | ⟨g1, ch, hrr, rest, a, e1, e2, e3⟩⟩
  · refine .inl ⟨hn ▸ (g1.skips h1 h2).take h3, ?_, ?_⟩
    · intro m hm hc
      simp only [exchanged, List.mem_append, List.mem_singleton] at hm
      rcases hm with hm | rfl
      · exact g2 m hm hc
      · cases hc
    · intro x hx
      simp only [List.mem_map] at hx
      obtain ⟨y, hy, rfl⟩ := hx
      simp only [exchanged, concat_append, g3 y hy]
      simp [Spec.concat]
  · have := no_skip h1 h2 (by omega)
    have := (place_kind h3).2.2.2.2.1 rfl
    omega
  · refine .inr ⟨hs, .inr ⟨hn ▸ (g1.skips h1 h2).take h3, ch, hrr, rest ++ [(.client, ty, d)], a, ?_,
      e2, ?_⟩⟩
    · simp [exchanged, e1]
    · simp [e3, concat_append, Spec.concat]

/-- a message of the server taken into account -/
theorem Main.server {s : St} {t t' : Transcript} {tr : List Ev} {d : Bytes} {ty : Nat}
    (h : Main E s t tr) (hu : t.update d .server ty = (.ok true, t'))
    (h0 : t.orderI = 0 → Spec.isRetry d = true) (h1 : t.orderI ≠ 0 → ty = 2 → Spec.isRetry d = false) :
    Main E s t' (.hashed .server ty d :: tr) := by
  have hn : kinds (.hashed .server ty d :: tr) = kinds tr ++ [(.server, ty)] := by
    simp [kinds, exchanged, Msg.kind]
  cases update_view hu with
  | @taken j k i1 i2 i3 i12 =>
  rcases h with ⟨g1, g2, g3⟩ | ⟨hs, ⟨g1, ch, a, g2, g3⟩ | ⟨g1, ch, hrr, rest, a, e1, e2, e3⟩⟩
  · refine .inl ⟨hn ▸ (g1.skips i1 i2).take i3, ?_, ?_⟩
    · intro m hm hc h2
      simp only [exchanged, List.mem_append, List.mem_singleton] at hm
      rcases hm with hm | rfl
      · exact g2 m hm hc h2
      · refine h1 ?_ h2
        have := g1.le; omega
    · intro x hx
      simp only [List.mem_map] at hx
      obtain ⟨y, hy, rfl⟩ := hx
      simp only [exchanged, concat_append, g3 y hy]
      simp [Spec.concat]
  · have hj := no_skip i1 i2 (by omega)
    rw [g1] at hj
    subst hj
    have hty : ty = 2 := by
      have : order[0]? = some (.server, 2, false) := rfl
      rw [this] at i3
      cases i3; rfl
    subst hty
    refine .inr ⟨hs, .inr ⟨?_, ch, d, [], a, ?_, h0 g1, ?_⟩⟩
    · rw [hn]
      simp only [kinds, g2, List.map_cons, List.map_nil, Msg.kind, List.cons_append, List.nil_append]
      exact .start _
    · simp [exchanged, g2]
    · simp [g3, Spec.concat]
  · refine .inr ⟨hs, .inr ⟨hn ▸ (g1.skips i1 i2).take i3, ch, hrr, rest ++ [(.server, ty, d)], a, ?_,
      e2, ?_⟩⟩
    · simp [exchanged, e1]
    · simp [e3, concat_append, Spec.concat]

theorem Main.refused {s : St} {t : Transcript} {tr : List Ev} {j : Nat} (h : Main E s t tr)
    (h1 : t.orderI ≤ j) (h2 : ∀ m, t.orderI ≤ m → m < j → ∃ s t, order[m]? = some (s, t, true)) :
    Main E s { t with orderI := j } tr := by
  rcases h with ⟨g1, g2, g3⟩ | ⟨hs, ⟨g1, g2⟩ | ⟨g1, g2⟩⟩
  · exact .inl ⟨g1.skips h1 h2, g2, g3⟩
  · have := no_skip h1 h2 (by omega)
    refine .inr ⟨hs, .inl ⟨?_, g2⟩⟩
    dsimp only; omega
  · exact .inr ⟨hs, .inr ⟨g1.skips h1 h2, g2⟩⟩

theorem ServerOrder.step {c c' : Conn} (h : ServerOrder E c) (hp : Phase c) (hi : SideInv .server c)
    (hs : Step E Conn.Ready c c') : ServerOrder E c' := by
  have hcs := hi.config
  have noC : ∀ {f ks ch}, c.state ≠ .clientWaitSH f ks ch := by
    intro f ks ch hst
    have := hi.state .client (by rw [hst]; rfl)
    cases this
  cases hs with
  | input | draw | fragment | nc | cfg | signature | clientUnique => exact ⟨h.1, h.2, h.3, h.4⟩
  | serverUnique hst => exact absurd hst noC
  | gotHandshake => exact h.mute [_] rfl (by simp [Mute]) rfl rfl rfl id
  | gotOther => exact h.mute [_] rfl (by simp [Mute]) rfl rfl rfl id
  | delivered => exact h.mute [_] rfl (by simp [Mute]) rfl rfl rfl id
  | badRecord hc _ hn => exact h.mute [] rfl (by simp) rfl rfl rfl (by rw [hc]; exact id)
  | opened hc => exact h.mute [_] rfl (by simp [Mute]) rfl rfl rfl (by rw [hc]; exact id)
  | sealed hc _ hn =>
    exact h.mute [_] rfl (by simp [Mute]) rfl rfl rfl (by rw [hc, nextNonce_enc hn]; exact id)
  | skipEarly hc hsk =>
    obtain ⟨_, _, rfl⟩ := skipEarly_view hsk
    exact h.mute [] rfl (by simp) rfl rfl rfl (by rw [hc]; exact id)
  | handshakeKeys _ hc _ hd =>
    exact h.mute _ rfl (keyEvents_mute _ _ _) rfl rfl rfl (by rw [hc]; exact handshake_enc hd)
  | masterKeys _ hc _ hd =>
    exact h.mute _ rfl (keyEvents_mute _ _ _) rfl rfl rfl (by rw [hc]; exact master_enc hd)
  | @emit c₀ content records =>
    refine h.mute (.sent content :: (records.map fun r => Ev.record r.1 r.2.1).reverse) rfl ?_ rfl rfl
      rfl id
    intro e he
    simp only [List.mem_cons, List.mem_reverse, List.mem_map] at he
    rcases he with rfl | ⟨r, _, rfl⟩ <;> exact ⟨trivial, by simp⟩
  | @received ct d x hg hgot hd hne =>
    refine ⟨h.1, h.2, ?_, h.4.tr rfl⟩
    rintro _ ⟨_, _, _, _, hx⟩
    cases hx
    exact absurd rfl (hne _)
  | setup hok =>
    cases hok with
    | client hst => exact absurd hst noC
    | server hst hh =>
      have h0 := hp.ready ⟨_, hh⟩ (by rw [hst]; rfl)
      refine ⟨h.1, fun h4 => ?_, h.3, h.4⟩
      rw [h.enc h4] at h0; cases h0
  | @hashError data side type e t hu =>
    cases update_view hu with
    | refused h1 h2 h3 =>
      refine ⟨h.1, ?_, ?_, h.4.refused h1 h2⟩
      · intro h4
        refine h.enc ?_
        by_contra hlt
        have := no_skip h1 h2 (by omega)
        dsimp only at h4
        omega
      · intro hu' hh
        have := h.head hu' hh
        have := no_skip h1 h2 (by omega)
        dsimp only
        omega
  | @hashSent hh data b t hser hg hcan hu =>
    rw [hcs] at hu ⊢
    cases b with
    | false =>
      cases update_view hu
      exact ⟨h.1, h.2, h.3, h.4⟩
    | true =>
      refine ⟨h.1, ?_, ?_, ?_⟩
      · cases update_view hu with
        | @taken j k h1 h2 h3 h12 =>
          intro h4
          dsimp only at h4
          by_cases hj : j = 3
          · have ht := (place_kind h3).2.2.1.2 hj
            cases hh <;> first | cases ht
            obtain ⟨_, _, _, _, _, _, _, _, _, _, _, _, henc, _⟩ := hg
            rw [← encOf_eq]; exact henc
          · refine h.enc ?_
            by_contra hlt
            have := no_skip h1 h2 (by omega)
            omega
      · rintro _ ⟨_, _, _, _, hx⟩
        cases hx
      · refine h.4.server hu ?_ ?_
        · intro h0
          cases update_view hu with
          | @taken j k h1 h2 h3 h12 =>
          have hj := no_skip h1 h2 (by omega)
          rw [h0] at hj; subst hj
          have ht : hh.msgType = 2 := by
            have : order[0]? = some (.server, 2, false) := rfl
            rw [this] at h3
            simpa using (congrArg (fun x => (x.map fun y : Side × Nat × Bool => y.2.1)) h3).symm
          cases hh <;> first | cases ht
          · obtain ⟨_, _, _, _, _, _, _, _, _, _, _, _, _, _, _, _, _, hne⟩ := hg
            exact absurd h0 hne
          · obtain ⟨_, _, _, _, _, _, hr, _⟩ := hg
            rw [isRetry_hello (by rw [hr]; rfl) (.inr rfl) hser, hr]
            rfl
        · intro h0 ht
          cases hh <;> first | cases ht
          · obtain ⟨_, _, _, _, _, _, _, _, _, _, hq, _⟩ := hg
            have := h.unique _ hq
            rw [isRetry_hello this.1 (.inl rfl) hser]
            simpa using this.2
          · obtain ⟨_, _, _, _, _, _, _, _, _, _, _, _, ho⟩ := hg
            rw [hcs] at ho
            exact absurd ho h0
  | @receivedHs ct d x b t hg hgot hd hu =>
    rw [hcs] at hu ⊢
    have hside : Side.server.other = .client := rfl
    rw [hside] at hu ⊢
    have hready : c.state.unretried = true → c.transcript.orderI < 4 := by
      intro hun
      by_contra hlt
      have h1 := hg (unretried_early hun)
      rw [encOf_eq, h.enc (by omega)] at h1
      cases h1
    cases b with
    | false =>
      cases update_view hu with
      | over h12 =>
      refine ⟨h.1, h.2, fun hun => ?_, h.4.tr rfl⟩
      have := hready hun
      omega
    | true =>
      have hm := (h.4.client hu).tr (E := E) (tr' := .recv (.handshake x) ::
        (if true = true then .hashed .client x.msgType d :: c.tr else c.tr)) rfl
      refine ⟨h.1, ?_, ?_, hm⟩
      · cases update_view hu with
        | @taken j k h1 h2 h3 h12 =>
        intro h4
        refine h.enc ?_
        by_contra hlt
        have := no_skip h1 h2 (by omega)
        have := (place_kind h3).2.2.2.2.1 rfl
        dsimp only at h4
        omega
      · rintro hun ⟨_, _, _, _, hx⟩
        cases hx
        cases update_view hu with
        | @taken j k h1 h2 h3 h12 =>
        have := (place_kind h3).1 rfl
        dsimp only
        omega
  | @postInit k t hc hp' hst =>
    have hun : c.state.unretried = true := by
      rcases hst with ⟨_, _, hst⟩ | hst
      · exact absurd hst noC
      · rw [hst]; rfl
    refine ⟨h.1, ?_, ?_, ?_⟩
    · dsimp only; rw [postInit_order hp']; exact h.2
    · dsimp only; rw [postInit_order hp']; exact h.3
    · rcases h.4 with ⟨g1, g2, g3⟩ | ⟨hn, _⟩
      · refine .inl ⟨by rw [postInit_order hp']; exact g1, g2, ?_⟩
        intro x hx
        unfold Transcript.postInit at hp'
        split at hp'
        · rename_i y hy
          cases hp'
          rw [List.mem_singleton.mp hx]
          exact g3 _ (List.mem_of_find?_eq_some hy)
        · cases hp'
      · rw [hun] at hn; cases hn
  | hrrClient hst | retry hst => exact absurd hst noC
  | @hrrServer random sid suites exts dg t c₁ clear nc scheme ks hst hh hdg halg hd =>
    have hun : c.state.unretried = true := by rw [hst]; rfl
    have h2 := h.head hun ⟨_, _, _, _, hh⟩
    rcases h.4 with ⟨g1, g2, g3⟩ | ⟨hn, _⟩
    swap
    · rw [hun] at hn; cases hn
    rw [h2] at g1
    have hk := g1.two
    obtain ⟨k, d, hc, hhs⟩ := halg
    have hex : ∃ ch, exchanged c.tr = [(.client, 1, ch)] := by
      unfold kinds at hk
      match hm : exchanged c.tr with
      | [] => rw [hm] at hk; cases hk
      | [(a, b, ch)] => rw [hm] at hk; cases hk; exact ⟨ch, rfl⟩
      | _ :: _ :: _ => rw [hm] at hk; simp at hk
    obtain ⟨ch, hex⟩ := hex
    have hd0 : d = ch := by
      have := g3 (k.info.digest, d) (by rw [hhs]; exact .head _)
      rw [hex] at this
      simpa [Spec.concat] using this
    subst hd0
    have hdg : dg = E.hash k.info.digest d := by
      unfold Transcript.digest at hdg
      rw [hhs] at hdg
      cases hdg; rfl
    subst hdg
    unfold Transcript.hrrDance at hd
    rw [hhs, hcs] at hd
    cases hd
    refine ⟨h.1, ?_, ?_, .inr ⟨rfl, .inl ⟨rfl, d, k.info.digest, hex, rfl⟩⟩⟩
    · intro h4; dsimp only at h4; omega
    · intro h; cases h
  | @move s hm =>
    refine ⟨h.1, h.2, fun hun => h.3 (hm.unretried hun), ?_⟩
    rcases h.4 with hf | ⟨hn, hr⟩
    · exact .inl hf
    · refine .inr ⟨?_, hr⟩
      cases hx : s.unretried with
      | false => rfl
      | true => rw [hm.unretried hx] at hn; cases hn

theorem ServerOrder.state {c : Conn} {s : St} (h : ServerOrder E c) (hs : s.unretried = false) :
    ServerOrder E { c with state := s } := by
  refine ⟨h.1, h.2, fun hun => absurd (hs.symm.trans hun) (by simp), ?_⟩
  rcases h.4 with hf | ⟨_, hr⟩
  · exact .inl hf
  · exact .inr ⟨hs, hr⟩

theorem ServerOrder.api {c c' : Conn} (h : ServerOrder E c) (hp : Phase c) (hi : SideInv .server c)
    (hs : Api E Conn.Ready c c') : ServerOrder E c' := by
  cases hs with
  | step hs => exact h.step hp hi hs
  | appended | read | drain => exact ⟨h.1, h.2, h.3, h.4⟩
  | closeRecv => unfold closeReceivingEnd; split <;> exact h.state rfl
  | closing => exact h.state (by cases c.state <;> rfl)
  | closedSend => exact h.state rfl

theorem ServerOrder.fresh {config : Config} {hostname ocsp algs random} {c : Conn}
    (h : Conn.new config hostname ocsp algs random = .ok c) (hside : config.side = .server)
    (hr : random.length = 32) (hne : random ≠ Spec.retryRandom) : ServerOrder E c := by
  obtain ⟨-, -, -, -, -, -, -, -, htr, ho, hh, -, hs⟩ := Conn.new_fresh h
  rcases hs with ⟨hx, _⟩ | ⟨-, -, -, hu⟩
  · rw [hside] at hx; cases hx
  refine ⟨?_, ?_, ?_, .inl ⟨?_, ?_, ?_⟩⟩
  · rw [hu]; rintro _ ⟨⟩; exact ⟨hr, hne⟩
  · rw [ho]; intro h; omega
  · rw [htr]; rintro _ ⟨_, _, _, _, hx⟩; cases hx
  · rw [ho, htr]; exact .start _
  · rw [htr]; intro m hm; cases hm
  · rw [hh, htr]
    intro x hx
    simp only [List.mem_map] at hx
    obtain ⟨a, _, rfl⟩ := hx
    rfl

end Siotls
