import Verif.Spec.Start
import Verif.Proofs.EndToEnd
/-!
# A client that can start does
-/

namespace Siotls
open Spec Serial

variable {E : Env}

theorem Writes.listInt {k n : Nat} {l : List Nat} (hl : l.length * n < 256 ^ k)
    (h : ∀ i ∈ l, i < 256 ^ n) : Writes (writeListInt k n l) (k + l.length * n) := by
  refine .bind (.toBytes hl) fun a ha => ?_
  refine .bind (.concat (g := fun _ => n) fun i hi => .toBytes (h i hi)) fun b hb => .pure ?_
  rw [List.length_append, ha, hb]
  simp

theorem Writes.listVar {k n : Nat} {l : List Bytes} (h : ∀ b ∈ l, b.length < 256 ^ n)
    (hl : (l.map fun b => n + b.length).sum < 256 ^ k) :
    Writes (writeListVar k n l) (k + (l.map fun b => n + b.length).sum) := by
  refine .bind (.concat fun b hb => .writeVar (h b hb)) fun x hx => ?_
  rw [← hx] at hl ⊢
  exact .writeVar hl

/-- the size of an extension of a ClientHello -/
def offerSize (E : Env) : Ext → Nat
  | .supportedVersionsReq l => 5 + l.length * 2
  | .signatureAlgorithms l => 6 + l.length * 2
  | .supportedGroups l => 6 + l.length * 2
  | .heartbeat _ => 5
  | .serverNameReq (some h) => match E.idnaEncode h with
    | .ok enc => 9 + enc.length
    | .error _ => 0
  | .alpn l => 6 + (l.map fun p => 1 + p.length).sum
  | .ocspStatusReq .. => 9
  | .keyShareReq [(_, share)] => 10 + share.length
  | _ => 0

theorem offer_writes {c : Conn} {g : Nat} {share : Bytes} (P : Presentable E c.config c.hostname)
    (hg : g < 65536) (hs : share.length ≤ 2048) {e : Ext} (he : e ∈ offerOf E c g share) :
    Writes (serExt E e) (offerSize E e) := by
  rcases (offer_mem e).mp he with rfl | rfl | rfl | rfl | ⟨h, h1, h2, h3, rfl⟩ | ⟨h1, rfl⟩ | ⟨h1, -⟩ |
    ⟨h1, -⟩ | ⟨-, rfl⟩ | rfl
  · exact .ext (n := 3) (.listInt (by decide) (by decide)) (by show 43 < 65536; decide) (by decide)
  · rw [offerSize, show 6 + c.config.signatureAlgorithms.length * 2 =
      (2 + c.config.signatureAlgorithms.length * 2) + 4 by omega]
    have := P.schemes.1
    exact .ext (.listInt (by omega) P.schemes.2) (by show 13 < 65536; decide) (by omega)
  · rw [offerSize, show 6 + c.config.keyExchanges.length * 2 =
      (2 + c.config.keyExchanges.length * 2) + 4 by omega]
    have := P.groups.1
    exact .ext (.listInt (by omega) P.groups.2) (by show 10 < 65536; decide) (by omega)
  · exact .ext (n := 1) (.toBytes (by cases c.config.canEchoHeartbeat <;> decide))
      (by show 15 < 65536; decide) (by decide)
  · obtain ⟨hl, enc, h4, h5⟩ := P.host h h1 h3
    rw [offerSize, h4]
    dsimp only
    rw [show 9 + enc.length = (5 + enc.length) + 4 by omega]
    refine .ext ?_ (by show 0 < 65536; decide) (by omega)
    refine .bind (.toBytes (by omega)) fun a ha => ?_
    rw [h4]
    show Writes (Serial.writeVar 2 (beEnc 1 0 ++ a ++ enc)) _
    have hx : (beEnc 1 0 ++ a ++ enc).length = 3 + enc.length := by
      simp only [List.length_append, length_beEnc, ha]
    rw [show 5 + enc.length = 2 + (beEnc 1 0 ++ a ++ enc).length by omega]
    exact .writeVar (by omega)
  · rw [offerSize, show 6 + (c.config.alpn.map fun p => 1 + p.length).sum =
      (2 + (c.config.alpn.map fun p => 1 + p.length).sum) + 4 by omega]
    have := P.protocols.2
    exact .ext (.listVar P.protocols.1 (by omega)) (by show 16 < 65536; decide) (by omega)
  · rw [P.noRaw.1] at h1; cases h1
  · rw [P.noRaw.2] at h1; cases h1
  · exact ⟨_, rfl, rfl⟩
  · rw [offerSize, show 10 + share.length = (6 + share.length) + 4 by omega]
    refine .ext ?_ (by show 51 < 65536; decide) (by omega)
    have : Writes (concatMapM (fun gk : Nat × Bytes => do
        let g ← toBytes 2 gk.1
        let k ← Serial.writeVar 2 gk.2
        return g ++ k) [(g, share)]) (4 + share.length) := by
      have := Writes.concat (l := [(g, share)]) (g := fun gk : Nat × Bytes => 4 + gk.2.length)
        (f := fun gk : Nat × Bytes => do
          let g ← toBytes 2 gk.1
          let k ← Serial.writeVar 2 gk.2
          return g ++ k) (by
        intro gk hgk
        rw [List.mem_singleton.mp hgk]
        refine .bind (.toBytes (by simpa using hg)) fun a ha => ?_
        refine .bind (.writeVar (by dsimp only; omega)) fun b hb => .pure ?_
        rw [List.length_append, ha, hb]; dsimp only; omega)
      simpa using this
    refine .bind this fun x hx => ?_
    rw [show 6 + share.length = 2 + x.length by omega]
    exact .writeVar (by omega)

theorem offer_size {c : Conn} {g : Nat} {share : Bytes} (P : Presentable E c.config c.hostname)
    (hs : share.length ≤ 2048) : ((offerOf E c g share).map (offerSize E)).sum ≤ 12200 := by
  have h1 := P.schemes.1
  have h2 := P.groups.1
  have h3 := P.protocols.2
  have ha : (((if c.config.alpn.isEmpty then [] else [Ext.alpn c.config.alpn]) : List Ext).map
      (offerSize E)).sum ≤ 4006 := by
    split
    · simp
    · simp only [List.map_cons, List.map_nil, List.sum_cons, List.sum_nil, offerSize]; omega
  have ho : (((if c.config.trustStore.isSome then [Ext.ocspStatusReq [] []] else []) : List Ext).map
      (offerSize E)).sum ≤ 9 := by
    split
    · simp [offerSize]
    · simp
  unfold offerOf clientExtensions
  simp only [List.map_append, List.sum_append, P.noRaw.1, P.noRaw.2, Option.isSome_none,
    Bool.false_eq_true, if_false, List.isEmpty_nil, if_true, List.map_nil, List.sum_nil,
    List.map_cons, List.sum_cons, offerSize, List.length_cons, List.length_nil]
  cases hh : c.hostname with
  | none =>
    simp only [List.map_nil, List.sum_nil]
    omega
  | some h =>
    dsimp only
    by_cases hi : (h.isEmpty || E.isIp h) = true
    · rw [if_pos hi]
      simp only [List.map_nil, List.sum_nil]
      omega
    · rw [if_neg hi]
      simp only [Bool.or_eq_true, not_or, Bool.not_eq_true] at hi
      obtain ⟨_, enc, h4, h5⟩ := P.host h hh hi.2
      simp only [List.map_cons, List.map_nil, List.sum_cons, List.sum_nil, offerSize, h4]
      omega

theorem hello_writes {c : Conn} {g : Nat} {rnd share : Bytes} (P : Presentable E c.config c.hostname)
    (hr : rnd.length = 32) (hg : g < 65536) (hs : share.length ≤ 2048)
    (hsu : ∀ s ∈ c.config.cipherSuites, s < 65536) :
    ∃ n ≤ 14300, Writes (serHandshake E (.clientHello rnd [] c.config.cipherSuites (offerOf E c g share))) n := by
  have h1 := offer_size (g := g) P hs
  have h2 := P.suites.2
  refine ⟨_, ?_, .message (n := 41 + c.config.cipherSuites.length * 2 +
    ((offerOf E c g share).map (offerSize E)).sum) ?_ (by omega)⟩
  · omega
  · refine .bind (.exts (fun e he => offer_writes P hg hs he) (by omega)) fun e he => ?_
    refine .bind (.writeVar (b := []) (by simp)) fun s hs' => ?_
    refine .bind (.listInt (by omega) hsu) fun x hx => .pure ?_
    simp only [List.length_append, length_beEnc, hr, hs', hx, he, List.length_nil, List.length_cons]
    omega


theorem split_total {n : Nat} (hn : 0 < n) (d : Bytes) : ∃ fs, splitFragments n true d = .ok fs := by
  unfold splitFragments
  split
  · exact ⟨_, rfl⟩
  · rw [if_pos rfl, if_neg (by omega), if_neg (by omega)]
    exact ⟨_, rfl⟩

theorem group_registered {g : Nat} (h : NamedGroup g) : kexRegistered g = true := by
  cases h <;> rfl

theorem suites_small {ss : List Nat} {ds : List HashAlg} (h : suiteDigests ss = .ok ds) :
    ∀ s ∈ ss, s < 65536 := by
  induction ss generalizing ds with
  | nil => intro s hs; cases hs
  | cons x xs ih =>
    unfold suiteDigests at h
    cases hi : suiteInfo x with
    | none => rw [hi] at h; cases h
    | some i =>
      rw [hi] at h
      cases hx : suiteDigests xs with
      | error e => rw [hx] at h; cases h
      | ok r =>
        intro s hs
        rcases List.mem_cons.mp hs with rfl | hs
        · unfold suiteInfo at hi
          split at hi <;> first | decide | cases hi
        · exact ih hx s hs

theorem client_starts {config : Config} {hostname : Option PyStr} {ocsp : Bool} {algs : List HashAlg}
    {random : Bytes} {c : Conn} (P : Presentable E config hostname)
    (h : Conn.new config hostname ocsp algs random = .ok c) (hr : random.length = 32) :
    ∃ (c' : Conn) (g : Nat) (priv hash : Bytes) (fs : List Bytes) (hello : Bytes), Op.initiate.run E c = (.ok [], c') ∧
      c'.state = .clientWaitSH true [(g, priv)] hash ∧
      c'.outputData = wireOf (fs.map fun f => (22, f)) ∧ fs.flatten = hello ∧ 4 ≤ hello.length := by
  obtain ⟨hne, ⟨ds, hds⟩, hc⟩ := new_client h P.client
  obtain ⟨g, hg, hng, hki⟩ := P.group
  obtain ⟨priv, share, hkx, hsh⟩ := hki 0
  obtain ⟨gs, hgs⟩ : ∃ gs, config.keyExchanges = g :: gs := by
    cases hk : config.keyExchanges with
    | nil => rw [hk] at hg; cases hg
    | cons a l => rw [hk] at hg; cases hg; exact ⟨_, rfl⟩
  have hreg := group_registered hng
  have hgl : g < 65536 := kex_small hreg
  have e1 : c.config = config := by rw [hc]
  have e2 : c.hostname = hostname := by rw [hc]
  have P' : Presentable E c.config c.hostname := by rw [e1, e2]; exact P
  obtain ⟨n, hn, ch, hser, hch⟩ := hello_writes (rnd := random) P' hr hgl hsh
    (by rw [e1]; exact suites_small hds)
  have hm0 : 0 < config.maxFragmentLength ∧ config.maxFragmentLength ≤ 16384 := by
    have := P.limit
    simp only [List.mem_cons, List.not_mem_nil, or_false] at this
    omega
  obtain ⟨fs, hfs⟩ := split_total hm0.1 ch
  have hfo := splitFragments_ok (by omega) hfs
  have hmk : mkClientHello random c.config.cipherSuites (offerOf E c g share) =
      .ok (.clientHello random [] c.config.cipherSuites (offerOf E c g share)) := by
    unfold mkClientHello
    rw [dict_offer]
    dsimp only
    rw [if_neg (by simp [hr]), if_neg (by simpa [e1] using P.suites.1), if_neg (by simp), if_neg]
    rw [offer_none]
    · simp
    intro x hx
    rcases (offer_mem x).mp hx with rfl | rfl | rfl | rfl | ⟨h, h1, h2, h3, rfl⟩ | ⟨h1, rfl⟩ | ⟨h1, rfl⟩ |
      ⟨h1, rfl⟩ | ⟨-, rfl⟩ | rfl <;> simp [Ext.type, Iana.extPreSharedKey]
  obtain ⟨a, as, rfl⟩ := List.exists_cons_of_ne_nil hne
  have hg' : Gives (clientInitiate E none) c () { c with
        draws := c.draws + 1
        transcript := ⟨(a :: as).map (·, ch), 2⟩
        outputData := c.outputData ++ wireOf (fs.map fun f => (22, f))
        state := .clientWaitSH true [(g, priv)] (E.hash a ch) } := by
    unfold clientInitiate
    refine .getBind fun t => ?_
    dsimp only
    split
    · next e => rw [e1, hgs] at e; cases e
    · next e _ => rw [hc] at e; cases e
    next e e' =>
    rw [e1, hgs] at e
    rw [hc] at e'
    cases e
    cases e'
    rw [hreg, if_neg (by simp)]
    refine .bind (a := (priv, share)) (c₁ := { c with draws := c.draws + 1 }) ?_ ?_
    · unfold kexInit
      refine .bind .nextDraw (.lift ?_ _)
      rw [hc]
      exact hkx
    dsimp only
    refine .liftBind (a := .clientHello random [] c.config.cipherSuites (offerOf E c g share)) ?_ ?_
    · exact (congrArg (mkClientHello random c.config.cipherSuites) (by rfl)).trans hmk
    refine .bind (send_plain (c := { c with draws := c.draws + 1 }) (fs := fs)
      (t' := ⟨(a :: as).map (·, ch), 2⟩) (hs_ctype _).1 (hs_ctype _).2 ?_ hser
      (hash_handshake (b := true) ?_) ?_ ?_ (fun f hf => by have := hfo.2.1 f hf; omega)) ?_
    · rw [hc]; rfl
    · dsimp only
      rw [e1, P.client, hc]
      exact hello_hashed _ _
    · rw [hc]; rfl
    · have : Conn.mfl { c with draws := c.draws + 1 } = config.maxFragmentLength := by
        rw [hc]; rfl
      rw [this]
      exact hfs
    refine .bind (.digest rfl) ?_
    refine .getBind fun t => ?_
    dsimp only
    rw [show c.nconfig.isNone = true by rw [hc]; rfl]
    exact .moveTo _
  obtain ⟨t, hfin⟩ := hg'.final
  have hst : c.state = .clientStart none := by rw [hc]
  have hout : c.outputData = [] := by rw [hc]
  refine ⟨{ c with
        draws := c.draws + 1
        transcript := ⟨(a :: as).map (·, ch), 2⟩
        outputData := c.outputData ++ wireOf (fs.map fun f => (22, f))
        state := .clientWaitSH true [(g, priv)] (E.hash a ch)
        tr := t }, g, priv, E.hash a ch, fs, ch, ?_, rfl, ?_, hfo.1, (serHandshake_honest hser).1⟩
  · show (Siotls.initiate E >>= fun _ => pure []) c = _
    rw [M.bind_def, Siotls.initiate, hst]
    dsimp only
    rw [hfin]
    rfl
  · dsimp only
    rw [hout]
    rfl

end Siotls
