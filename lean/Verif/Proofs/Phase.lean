import Verif.Proofs.Nonces
import Verif.Proofs.Careful
/-!
# Keys are installed at most twice, and nothing is in clear afterwards

Invariant of the histories in which every received content finds the connection ready (see
`Conn.Ready`); behind C14, C18 and C45.
-/

namespace Siotls

variable {E : Env}

def encOf : Option CipherSt → Bool
  | some k => k.wr.key.isSome
  | none => false

def decOf : Option CipherSt → Bool
  | some k => k.rd.key.isSome
  | none => false

theorem encOf_eq (c : Conn) : c.mustEncrypt = encOf c.cipher := by
  unfold Conn.mustEncrypt encOf; cases c.cipher <;> rfl

theorem decOf_eq (c : Conn) : c.mustDecrypt = decOf c.cipher := by
  unfold Conn.mustDecrypt decOf; cases c.cipher <;> rfl

/-- write keys installed, newest first -/
def wkeys (tr : List Ev) : List (Nat × Bytes) := DEv.keys (tr.filterMap DEv.ofWrite)

/-- read keys installed, newest first -/
def rkeys (tr : List Ev) : List (Nat × Bytes) := DEv.keys (tr.filterMap DEv.ofRead)

/-- states of the handshake after the handshake keys -/
def St.late : St → Bool
  | .clientWaitEE | .clientWaitCertCr | .clientWaitCert _ | .clientWaitCV .. | .clientWaitFin ..
  | .serverWaitFin _ | .connected => true
  | _ => false

/-- number of key installations that a key schedule has done at most -/
def budget (k : CipherSt) : Nat :=
  if k.secrets.stage = 2 then if k.cFin = .none then 2 else 1 else 0

/-- contents of type `ct` decrypted, oldest first -/
def fragments (ct : Nat) : List Ev → List Bytes
  | [] => []
  | .opened _ _ _ _ inner :: l =>
    fragments ct l ++ (match stripPadding inner with
      | some (t, d) => if t = ct then [d] else []
      | none => [])
  | _ :: l => fragments ct l

structure PhaseOf (k? : Option CipherSt) (s : St) (tr : List Ev) (ih : Bytes) : Prop where
  ready : (∃ x, tr.head? = some (.recv x)) → s.early = true → encOf k? = false
  clearW : encOf k? = false → wkeys tr = []
  clearR : decOf k? = false → rkeys tr = []
  both : decOf k? = true → encOf k? = true
  late : s.late = true → decOf k? = true
  fins : ∀ k, k? = some k → (k.cFin = .none ↔ k.sFin = .none)
  stuck : ∀ k, k? = some k → k.info.usageLimit = none → k.rd.key = none
  countW : ∀ k, k? = some k → (wkeys tr).length ≤ budget k
  countR : ∀ k, k? = some k → (rkeys tr).length ≤ budget k
  headW : ∀ k key, k? = some k → k.wr.key = some key → (wkeys tr).head? = some (k.info.id, key)
  headR : ∀ k key, k? = some k → k.rd.key = some key → (rkeys tr).head? = some (k.info.id, key)
  pending : rkeys tr ≠ [] → ∃ frs : List Bytes, ih = frs.flatten ∧
    ∀ f ∈ frs, f ∈ fragments Iana.ctHandshake (sinceR tr)

def Phase (c : Conn) : Prop := PhaseOf c.cipher c.state c.tr c.inputHandshake

/-- events that concern no key -/
def Quiet : Ev → Prop
  | .wkey .. | .rkey .. | .opened .. => False
  | _ => True

theorem wkeys_quiet {l tr : List Ev} (h : ∀ e ∈ l, Quiet e) : wkeys (l ++ tr) = wkeys tr := by
  induction l with
  | nil => rfl
  | cons e l ih =>
    have := h e (.head _)
    have ih := ih fun e he => h e (.tail _ he)
    cases e <;> first | exact ih | cases this

theorem rkeys_quiet {l tr : List Ev} (h : ∀ e ∈ l, Quiet e) : rkeys (l ++ tr) = rkeys tr := by
  induction l with
  | nil => rfl
  | cons e l ih =>
    have := h e (.head _)
    have ih := ih fun e he => h e (.tail _ he)
    cases e <;> first | exact ih | cases this

theorem fragments_quiet {ct : Nat} {l tr : List Ev} (h : ∀ e ∈ l, Quiet e) :
    fragments ct (sinceR (l ++ tr)) = fragments ct (sinceR tr) := by
  induction l with
  | nil => rfl
  | cons e l ih =>
    have := h e (.head _)
    have ih := ih fun e he => h e (.tail _ he)
    cases e <;> first | exact ih | cases this

/-- prepending events that concern no key, the newest of them not a reception -/
theorem PhaseOf.quiet {k? s tr ih l} (h : PhaseOf k? s tr ih) (hl : ∀ e ∈ l, Quiet e)
    (hh : (∃ x, (l ++ tr).head? = some (.recv x)) → s.early = true → encOf k? = false) :
    PhaseOf k? s (l ++ tr) ih := by
  refine ⟨hh, ?_, ?_, h.both, h.late, h.fins, h.stuck, ?_, ?_, ?_, ?_, ?_⟩
  · rw [wkeys_quiet hl]; exact h.clearW
  · rw [rkeys_quiet hl]; exact h.clearR
  · rw [wkeys_quiet hl]; exact h.countW
  · rw [rkeys_quiet hl]; exact h.countR
  · rw [wkeys_quiet hl]; exact h.headW
  · rw [rkeys_quiet hl]; exact h.headR
  · rw [rkeys_quiet hl, fragments_quiet hl]; exact h.pending

theorem PhaseOf.state {k? s s' tr ih} (h : PhaseOf k? s tr ih)
    (he : s'.early = true → s.early = true) (hl : s'.late = true → decOf k? = true) :
    PhaseOf k? s' tr ih :=
  ⟨fun hx hs => h.ready hx (he hs), h.clearW, h.clearR, h.both, hl, h.fins, h.stuck, h.countW,
    h.countR, h.headW, h.headR, h.pending⟩

theorem budget_le_two (k : CipherSt) : budget k ≤ 2 := by unfold budget; split <;> [split; skip] <;> omega

theorem wkeys_keyEvents (l : List PyStr) (k k' : CipherSt) (tr : List Ev) :
    wkeys (keyEvents l k k' ++ tr) = (match k'.wr.key with
      | some x => if k'.wr = k.wr then [] else [(k'.info.id, x)]
      | none => []) ++ wkeys tr := by
  unfold wkeys
  rw [List.filterMap_append, filterMap_keyEvents_write]
  cases k'.wr.key <;> by_cases h : k'.wr = k.wr <;> simp [h, DEv.keys]

theorem rkeys_keyEvents (l : List PyStr) (k k' : CipherSt) (tr : List Ev) :
    rkeys (keyEvents l k k' ++ tr) = (match k'.rd.key with
      | some x => if k'.rd = k.rd then [] else [(k'.info.id, x)]
      | none => []) ++ rkeys tr := by
  unfold rkeys
  rw [List.filterMap_append, filterMap_keyEvents_read]
  cases k'.rd.key <;> by_cases h : k'.rd = k.rd <;> simp [h, DEv.keys]

theorem keyEvents_same {k k' : CipherSt} (h1 : k'.wr = k.wr) (h2 : k'.rd = k.rd) :
    keyEvents [] k k' = [] := by
  unfold keyEvents
  rw [h1, h2]
  cases k.wr.key <;> cases k.rd.key <;> simp

theorem keyEvents_not_recv {l : List PyStr} {k k' : CipherSt} {tr : List Ev} {x : Content}
    (h : (keyEvents l k k' ++ tr).head? = some (.recv x)) : tr.head? = some (.recv x) := by
  cases hk : keyEvents l k k' with
  | nil => rw [hk] at h; exact h
  | cons e es =>
    rw [hk] at h
    have he : e ∈ keyEvents l k k' := by rw [hk]; exact .head _
    cases Option.some.inj h
    rcases mem_keyEvents he with ⟨_, _, he⟩ | ⟨_, _, he⟩ | ⟨_, _, he⟩ <;> cases he

theorem keyEvents_nil {l : List PyStr} {k k' : CipherSt} (h : keyEvents l k k' = []) {x : Bytes}
    (hk : k'.wr.key = some x) : k'.wr = k.wr := by
  unfold keyEvents at h
  simp only [List.append_eq_nil_iff, hk] at h
  by_contra hne
  simp [hne] at h

/-- an installation of keys in an invariant state -/
theorem PhaseOf.install {l : List PyStr} {k k' : CipherSt} {s tr} (h : PhaseOf (some k) s tr [])
    (hid : k'.info = k.info) {wk wi rk ri : Bytes}
    (hw : k'.wr = ⟨some wk, some wi, some 0⟩) (hr : k'.rd = ⟨some rk, some ri, some 0⟩)
    (hf : k'.cFin = .none ↔ k'.sFin = .none) (hl : k.info.usageLimit.isSome = true)
    (hb : budget k + 1 ≤ budget k') : PhaseOf (some k') s (keyEvents l k k' ++ tr) [] := by
  have hwk : wkeys (keyEvents l k k' ++ tr) = (if k'.wr = k.wr then [] else [(k'.info.id, wk)]) ++
      wkeys tr := by rw [wkeys_keyEvents]; simp only [hw]
  have hrk : rkeys (keyEvents l k k' ++ tr) = (if k'.rd = k.rd then [] else [(k'.info.id, rk)]) ++
      rkeys tr := by rw [rkeys_keyEvents]; simp only [hr]
  refine ⟨?_, ?_, ?_, ?_, ?_, ?_, ?_, ?_, ?_, ?_, ?_, ?_⟩
  · rintro ⟨x, hx⟩ he
    have := h.ready ⟨x, keyEvents_not_recv hx⟩ he
    have hk : keyEvents l k k' = [] := by
      cases hk : keyEvents l k k' with
      | nil => rfl
      | cons e es =>
        rw [hk] at hx
        have hm : e ∈ keyEvents l k k' := by rw [hk]; exact .head _
        cases Option.some.inj hx
        rcases mem_keyEvents hm with ⟨_, _, hm⟩ | ⟨_, _, hm⟩ | ⟨_, _, hm⟩ <;> cases hm
    have h3 := keyEvents_nil hk (x := wk) (by rw [hw])
    rw [hw] at h3
    simp [encOf, ← h3] at this
  · simp [encOf, hw]
  · simp [decOf, hr]
  · simp [encOf, hw]
  · simp [decOf, hr]
  · rintro k1 h1; cases h1; exact hf
  · rintro k1 h1 h2; cases h1; rw [hid] at h2; rw [h2] at hl; cases hl
  · rintro k1 h1; cases h1
    have := h.countW k rfl
    rw [hwk]
    split
    · simp only [List.nil_append]; omega
    · simp only [List.cons_append, List.nil_append, List.length_cons]; omega
  · rintro k1 h1; cases h1
    have := h.countR k rfl
    rw [hrk]
    split
    · simp only [List.nil_append]; omega
    · simp only [List.cons_append, List.nil_append, List.length_cons]; omega
  · rintro k1 key h1 h2; cases h1
    rw [hwk]
    rw [hw] at h2; cases h2
    split
    · rename_i heq
      rw [hid]
      exact h.headW k wk rfl (by rw [← heq, hw])
    · rfl
  · rintro k1 key h1 h2; cases h1
    rw [hrk]
    rw [hr] at h2; cases h2
    split
    · rename_i heq
      rw [hid]
      exact h.headR k rk rfl (by rw [← heq, hr])
    · rfl
  · intro _; exact ⟨[], rfl, fun _ hf => by cases hf⟩

theorem finMac_key {a : HashAlg} {f : FinKey} {h m : Bytes} (hm : finMac E a f h = .ok m) :
    ∃ k, f = .key k := by
  cases f with
  | unset => cases hm
  | none => cases hm
  | key k => exact ⟨k, rfl⟩

theorem verifyFinish_key {k : CipherSt} {h v : Bytes} (hv : verifyFinish E k h v = .ok ()) :
    k.cFin ≠ .none ∨ k.sFin ≠ .none := by
  obtain ⟨info, side, secrets, rd, wr, cf, sf⟩ := k
  unfold verifyFinish at hv
  cases side <;> dsimp only at hv ⊢
  · cases sf <;> first | cases hv | exact .inr (by simp)
  · cases cf <;> first | cases hv | exact .inl (by simp)

/-- a change of the cipher state that keeps the keys -/
theorem PhaseOf.cipher {k k' : CipherSt} {s tr ih} (h : PhaseOf (some k) s tr ih)
    (hi : k'.info = k.info) (hw : k'.wr.key = k.wr.key) (hr : k'.rd.key = k.rd.key)
    (hc : k'.cFin = k.cFin) (hs : k'.sFin = k.sFin) (hb : budget k ≤ budget k') :
    PhaseOf (some k') s tr ih := by
  have he : encOf (some k') = encOf (some k) := by simp [encOf, hw]
  have hd : decOf (some k') = decOf (some k) := by simp [decOf, hr]
  refine ⟨?_, ?_, ?_, ?_, ?_, ?_, ?_, ?_, ?_, ?_, ?_, h.pending⟩
  · rw [he]; exact h.ready
  · rw [he]; exact h.clearW
  · rw [hd]; exact h.clearR
  · rw [he, hd]; exact h.both
  · rw [hd]; exact h.late
  · rintro _ ⟨⟩; rw [hc, hs]; exact h.fins _ rfl
  · rintro _ ⟨⟩ hl; rw [hr]; rw [hi] at hl; exact h.stuck _ rfl hl
  · rintro _ ⟨⟩; exact le_trans (h.countW _ rfl) hb
  · rintro _ ⟨⟩; exact le_trans (h.countR _ rfl) hb
  · rintro _ key ⟨⟩ hk; rw [hi]; rw [hw] at hk; exact h.headW _ _ rfl hk
  · rintro _ key ⟨⟩ hk; rw [hi]; rw [hr] at hk; exact h.headR _ _ rfl hk

/-- an installation that stops after the write direction -/
theorem PhaseOf.installW {l : List PyStr} {k k' : CipherSt} {s tr} (h : PhaseOf (some k) s tr [])
    (hid : k'.info = k.info) {wk wi : Bytes} {n : Option Nat}
    (hw : k'.wr = ⟨some wk, some wi, n⟩) (hr : k'.rd = k.rd)
    (hf : k'.cFin = .none ↔ k'.sFin = .none) (hl : k.info.usageLimit = none)
    (hb : budget k + 1 ≤ budget k') : PhaseOf (some k') s (keyEvents l k k' ++ tr) [] := by
  have hrn := h.stuck k rfl hl
  have hrn' : k'.rd.key = none := by rw [hr, hrn]
  have hwk : wkeys (keyEvents l k k' ++ tr) = (if k'.wr = k.wr then [] else [(k'.info.id, wk)]) ++
      wkeys tr := by rw [wkeys_keyEvents]; simp only [hw]
  have hrk : rkeys (keyEvents l k k' ++ tr) = rkeys tr := by rw [rkeys_keyEvents, hrn']; rfl
  have hd : decOf (some k') = false := by simp [decOf, hrn']
  have hd0 : decOf (some k) = false := by simp [decOf, hrn]
  refine ⟨?_, ?_, ?_, ?_, ?_, ?_, ?_, ?_, ?_, ?_, ?_, ?_⟩
  · rintro ⟨x, hx⟩ he
    have := h.ready ⟨x, keyEvents_not_recv hx⟩ he
    have hk : keyEvents l k k' = [] := by
      cases hk : keyEvents l k k' with
      | nil => rfl
      | cons e es =>
        rw [hk] at hx
        have hm : e ∈ keyEvents l k k' := by rw [hk]; exact .head _
        cases Option.some.inj hx
        rcases mem_keyEvents hm with ⟨_, _, hm⟩ | ⟨_, _, hm⟩ | ⟨_, _, hm⟩ <;> cases hm
    have h3 := keyEvents_nil hk (x := wk) (by rw [hw])
    rw [hw] at h3
    simp [encOf, ← h3] at this
  · simp [encOf, hw]
  · rw [hrk]; intro _; exact h.clearR hd0
  · rw [hd]; intro h; cases h
  · intro hs; have := h.late hs; rw [hd0] at this; cases this
  · rintro k1 h1; cases h1; exact hf
  · rintro k1 h1 h2; cases h1; exact hrn'
  · rintro k1 h1; cases h1
    have := h.countW k rfl
    rw [hwk]
    split
    · simp only [List.nil_append]; omega
    · simp only [List.cons_append, List.nil_append, List.length_cons]; omega
  · rintro k1 h1; cases h1
    have := h.countR k rfl
    rw [hrk]; omega
  · rintro k1 key h1 h2; cases h1
    rw [hwk]
    rw [hw] at h2; cases h2
    split
    · rename_i heq
      rw [hid]
      exact h.headW k wk rfl (by rw [← heq, hw])
    · rfl
  · rintro k1 key h1 h2; cases h1
    rw [hrn'] at h2; cases h2
  · intro _; exact ⟨[], rfl, fun _ hf => by cases hf⟩

theorem Phase.dec {c : Conn} (h : Phase c) (hr : rkeys c.tr ≠ []) : c.mustDecrypt = true := by
  rw [decOf_eq]
  cases hd : decOf c.cipher with
  | true => rfl
  | false => exact absurd (h.clearR hd) hr

theorem fragments_head {tr : List Ev} {ct : Nat} {f : Bytes} (h : openedAs tr.head? ct f) :
    f ∈ fragments ct (sinceR tr) := by
  obtain ⟨s, k, n, a, inner, hhead, hst⟩ := h
  cases tr with
  | nil => cases hhead
  | cons e l =>
    cases hhead
    simp [sinceR, fragments, hst]

theorem Phase.step {c c' : Conn} (h : Phase c) (hs : Step E Conn.Ready c c') : Phase c' := by
  cases hs with
  | input | draw | hashError | nc | cfg | signature | clientUnique | serverUnique
  | postInit | hrrClient => exact h
  | fragment frag hop =>
    refine ⟨h.1, h.2, h.3, h.4, h.5, h.6, h.7, h.8, h.9, h.10, h.11, ?_⟩
    intro hr
    obtain ⟨frs, he, hsub⟩ := h.pending hr
    refine ⟨frs ++ [frag], by simp [he], ?_⟩
    intro f hf
    rcases List.mem_append.mp hf with hf | hf
    · exact hsub f hf
    · rw [List.mem_singleton.mp hf]
      exact fragments_head (hop (h.dec hr))
  | gotHandshake =>
    have h1 : PhaseOf c.cipher c.state c.tr [] :=
      ⟨h.1, h.2, h.3, h.4, h.5, h.6, h.7, h.8, h.9, h.10, h.11,
        fun _ => ⟨[], rfl, fun _ hf => by cases hf⟩⟩
    exact h1.quiet (l := [_]) (by simp [Quiet]) (by simp)
  | gotOther => exact PhaseOf.quiet h (l := [_]) (by simp [Quiet]) (by simp)
  | received hg =>
    exact PhaseOf.quiet h (l := [_]) (by simp [Quiet]) fun _ he => by rw [← encOf_eq]; exact hg he
  | delivered => exact PhaseOf.quiet h (l := [_]) (by simp [Quiet]) (by simp)
  | emit =>
    rename_i c₀ content records hctx hg
    refine PhaseOf.quiet h (l := .sent content :: (records.map fun r => Ev.record r.1 r.2.1).reverse)
      ?_ (by simp)
    intro e he
    simp only [List.mem_cons, List.mem_reverse, List.mem_map] at he
    rcases he with rfl | ⟨r, _, rfl⟩ <;> trivial
  | hashSent =>
    rename_i hh data b t h1 h2 h3 h4
    unfold Phase
    cases b
    · exact h
    · exact PhaseOf.quiet h (l := [_]) (by simp [Quiet]) (by simp)
  | receivedHs hg =>
    rename_i ctype data hh b t h1 h2 h3
    unfold Phase
    have hq : ∀ l, (∀ e ∈ l, Quiet e) → PhaseOf c.cipher c.state (l ++ c.tr) c.inputHandshake :=
      fun l hl => PhaseOf.quiet h hl fun _ he => by rw [← encOf_eq]; exact hg he
    cases b
    · exact hq [_] (by simp [Quiet])
    · exact hq [_, _] (by simp [Quiet])
  | badRecord hc hk hn =>
    unfold Phase at *
    rw [hc] at h
    exact h.cipher rfl rfl (nextNonce_key hn) rfl rfl (le_refl _)
  | opened hc hk hn ho =>
    unfold Phase at *
    rw [hc] at h
    have h1 := h.cipher (k' := { ‹CipherSt› with rd := _ }) rfl rfl (nextNonce_key hn) rfl rfl
      (le_refl _)
    refine ⟨fun ⟨x, hx⟩ => (by cases hx), h1.2, h1.3, h1.4, h1.5, h1.6, h1.7, h1.8, h1.9, h1.10,
      h1.11, ?_⟩
    intro hr
    obtain ⟨frs, he, hsub⟩ := h1.pending hr
    refine ⟨frs, he, fun f hf => ?_⟩
    simp only [sinceR, fragments, List.mem_append]
    exact .inl (hsub f hf)
  | sealed hc hk hn =>
    unfold Phase at *
    rw [hc] at h
    have h1 := h.cipher (k' := { ‹CipherSt› with wr := _ }) rfl (nextNonce_key hn) rfl rfl rfl
      (le_refl _)
    exact h1.quiet (l := [_]) (by simp [Quiet]) (by simp)
  | hrrServer hst | retry hst =>
    exact PhaseOf.state h (fun _ => by rw [hst]; rfl) (fun hl => by cases hl)
  | move hm =>
    have hlate : c.state.late = true → decOf c.cipher = true := h.late
    refine PhaseOf.state h ?_ ?_
    · cases hm with
      | clientHello hs | serverInit hs | serverHrr hs => intro _; rw [hs]; rfl
      | _ => intro hx; cases hx
    · cases hm with
      | extensions hs | request hs | noRequest hs | certificate hs | verify hs | clientDone hs
      | serverDone hs => intro _; exact hlate (by rw [hs]; rfl)
      | serverHello _ _ hc _ hr => intro _; rw [hc]; exact hr
      | serverFinished _ _ _ _ _ hd => intro _; rw [← decOf_eq]; exact hd
      | _ => intro hx; cases hx
  | setup hok =>
    have he : c.state.early = true := by
      cases hok with
      | client h => rw [h]; rfl
      | server h => rw [h]; rfl
    have hx : ∃ x, c.tr.head? = some (.recv x) := by
      cases hok with
      | client _ h => exact ⟨_, h⟩
      | server _ h => exact ⟨_, h⟩
    have hnl : c.state.late = false := by
      cases hok with
      | client h => rw [h]; rfl
      | server h => rw [h]; rfl
    have hE := h.ready hx he
    have hD : decOf c.cipher = false := by
      cases hd : decOf c.cipher with
      | false => rfl
      | true => rw [h.both hd] at hE; cases hE
    have hW := h.clearW hE
    have hR := h.clearR hD
    refine ⟨fun _ _ => rfl, fun _ => hW, fun _ => hR, fun h => (by cases h), ?_, ?_, ?_, ?_, ?_, ?_,
      ?_, fun hr => absurd hR hr⟩
    · intro hs; dsimp only at hs; rw [hnl] at hs; cases hs
    · rintro _ ⟨⟩; simp [CipherSt.new]
    · rintro _ ⟨⟩ _; rfl
    · rintro _ ⟨⟩; simp [hW]
    · rintro _ ⟨⟩; simp [hR]
    · rintro _ key ⟨⟩ hk; cases hk
    · rintro _ key ⟨⟩ hk; cases hk
  | skipEarly hc hsk =>
    unfold Phase at *
    rw [hc] at h
    obtain ⟨h0, salt, rfl⟩ := skipEarly_view hsk
    exact h.cipher rfl rfl rfl rfl rfl (by simp [budget, h0])
  | handshakeKeys hih hc hok hd =>
    rename_i k shared hash r k'
    unfold Phase at *
    rw [hc] at h
    dsimp only
    rw [hih] at h ⊢
    cases deriveHandshake_view hd with
    | refused => rw [handshakeLog_error hd, keyEvents_same rfl rfl]; exact h
    | early h1 =>
      rename_i e salt
      rw [handshakeLog_error hd, keyEvents_same (k := k) (k' := { k with secrets := ⟨2, salt⟩ }) rfl rfl]
      exact h.cipher rfl rfl rfl rfl rfl (by simp [budget, h1])
    | stuck h1 hl => exact h.installW rfl rfl rfl (by simp) hl (by simp [budget, h1])
    | done h1 hl => exact h.install rfl rfl rfl (by simp) hl (by simp [budget, h1])
  | masterKeys hih hc hok hd =>
    rename_i k sf cf r k'
    unfold Phase at *
    rw [hc] at h
    dsimp only
    rw [hih] at h ⊢
    have hl : c.state.late = true := by
      cases hok with
      | client h => rw [h]; rfl
      | server h => rw [h]; rfl
    have hdec := h.late hl
    have hcf : k.cFin ≠ .none := by
      have : k.cFin ≠ .none ∨ k.sFin ≠ .none := by
        cases hok with
        | client _ hc' _ hv =>
          rw [hc] at hc'; cases hc'; exact verifyFinish_key hv
        | server _ hc' _ hv =>
          rw [hc] at hc'; cases hc'; exact verifyFinish_key hv
      rcases this with h1 | h1
      · exact h1
      · exact fun hn => h1 ((h.fins k rfl).mp hn)
    cases deriveMaster_view hd with
    | refused => rw [masterLog_error hd, keyEvents_same rfl rfl]; exact h
    | stuck _ hu =>
      have := h.stuck k rfl hu
      simp [decOf, this] at hdec
    | done h2 hu => exact h.install rfl rfl rfl (by simp) hu (by simp [budget, h2, hcf])

theorem Phase.api {c c' : Conn} (h : Phase c) (hs : Api E Conn.Ready c c') : Phase c' := by
  cases hs with
  | step hs => exact h.step hs
  | appended | read | drain => exact h
  | closeRecv =>
    unfold closeReceivingEnd
    split <;> exact PhaseOf.state h (fun hx => by cases hx) (fun hx => by cases hx)
  | closing =>
    refine PhaseOf.state h ?_ ?_ <;> cases c.state <;> intro hx <;> cases hx
  | closedSend => exact PhaseOf.state h (fun hx => by cases hx) (fun hx => by cases hx)

theorem Phase.fresh {config : Config} {hostname ocsp algs random} {c : Conn}
    (h : Conn.new config hostname ocsp algs random = .ok c) : Phase c := by
  obtain ⟨_, _, hc, _, _, _, _, _, htr, _, _, _, hs⟩ := Conn.new_fresh h
  unfold Phase
  rw [hc, htr]
  have hl : c.state.late = false := by
    rcases hs with ⟨_, h, _⟩ | ⟨_, h, _⟩ <;> rw [h] <;> rfl
  refine ⟨fun ⟨x, hx⟩ => (by cases hx), fun _ => rfl, fun _ => rfl, fun h => (by cases h), ?_, ?_,
    ?_, ?_, ?_, ?_, ?_, fun hr => absurd rfl hr⟩
  · intro hx; rw [hl] at hx; cases hx
  all_goals intro _ <;> simp

end Siotls
