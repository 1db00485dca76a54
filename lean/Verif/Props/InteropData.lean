import Verif.Proofs.InteropData
import Verif.Props.InteropServer
/-!
# Property C114: a connection reads the application data of conforming peers of any make
-/

namespace Siotls
open Spec Serial

variable {E : Env}

/-- C114. Let a connection with any history be connected, with nothing left aside. Its peer, of
whatever make, sends application data in records under its traffic secret, cut and padded as it likes,
within the agreed fragment length. However the bytes arrive, and however many of them did, no call
raises, the data of exactly the records that are complete is handed over in order, the bytes of the
next one are kept, and apart from the counter of the records nothing else changes. -/
theorem C114_reads {config : Config} {host : Option PyStr} {ocsp : Bool} {algs : List HashAlg} {random : Bytes}
    {c₀ c : Conn} {ops : List Op} {info : SuiteInfo} {k : CipherSt} {lim n : Nat} {secret q : Bytes}
    {items : List (Bytes × Nat)} {ys : List Bytes} (hs : E.Sized) (ho : E.Opens) (hS : E.Seals)
    (hc₀ : Conn.new config host ocsp algs random = .ok c₀)
    (hmfl : config.maxFragmentLength ∈ [512, 1024, 2048, 4096, 16384]) (hc : c = runOps E ops c₀)
    (hst : c.state = .connected ∨ ∃ s, c.state = .closed true s)
    (hin : c.inputData = [] ∧ c.inputHandshake = [])
    (hk : c.cipher = some k ∧ k.info = info ∧ k.rd = trafficKeys E info secret n)
    (hsu : suiteInfo info.id = some info) (hlim : info.usageLimit = some lim)
    (hn : n + items.length ≤ lim) (hw : ∀ w, k.wr.seq = some w → w + 1024 < lim)
    (hfit : ∀ x ∈ items, x.1.length + 1 + x.2 + info.tagLength ≤ c.mfl + 256)
    (hne : ∀ y ∈ ys, y ≠ []) (hys : ys.flatten ++ q = dataRecords E info secret n items) :
    ∃ c' i rest, feed E ys c = (.ok (), c') ∧ Hears E info secret n items c k ys.flatten c' i rest := by
  have hm : c.mfl ≤ 16384 := by
    have := fragmentSizes_bounds ((MflInv.fresh (E := E) hc₀ hmfl).run ops).mfl
    rw [← hc] at this
    omega
  obtain ⟨hk, hinfo, hrd⟩ := hk
  have hkey : shouldRekey c = .ok false := by
    unfold shouldRekey
    rw [hk]
    dsimp only
    rw [hinfo, hlim]
    cases hseq : k.wr.seq with
    | none => rfl
    | some w =>
      have := hw w hseq
      dsimp only
      rw [if_pos (by omega)]
      simp [rekeyThreshold]
      omega
  obtain ⟨c', i, rest, hf, hh⟩ := data_feed (E := E) (q := q) (k := k) ⟨hs, ho, hS, hsu, hlim⟩ ys (items := items)
    (r := c) (n := n) hn ⟨hst, hin.2⟩ hinfo hkey (by rw [hk, ← hrd]) hfit hm hne (by rw [hin.1]; exact hys)
    (fun d pad j _ => by rw [hin.1]; simp [sealedUnder, recordBytes])
  rw [hin.1, List.nil_append] at hh
  exact ⟨c', i, rest, hf, hh⟩

/-- C114, when everything arrived. -/
theorem C114_all {config : Config} {host : Option PyStr} {ocsp : Bool} {algs : List HashAlg} {random : Bytes}
    {c₀ c : Conn} {ops : List Op} {info : SuiteInfo} {k : CipherSt} {lim n : Nat} {secret : Bytes}
    {items : List (Bytes × Nat)} {ys : List Bytes} (hs : E.Sized) (ho : E.Opens) (hS : E.Seals)
    (hc₀ : Conn.new config host ocsp algs random = .ok c₀)
    (hmfl : config.maxFragmentLength ∈ [512, 1024, 2048, 4096, 16384]) (hc : c = runOps E ops c₀)
    (hst : c.state = .connected ∨ ∃ s, c.state = .closed true s)
    (hin : c.inputData = [] ∧ c.inputHandshake = [])
    (hk : c.cipher = some k ∧ k.info = info ∧ k.rd = trafficKeys E info secret n)
    (hsu : suiteInfo info.id = some info) (hlim : info.usageLimit = some lim)
    (hn : n + items.length ≤ lim) (hw : ∀ w, k.wr.seq = some w → w + 1024 < lim)
    (hfit : ∀ x ∈ items, x.1.length + 1 + x.2 + info.tagLength ≤ c.mfl + 256)
    (hne : ∀ y ∈ ys, y ≠ []) (hys : ys.flatten = dataRecords E info secret n items) :
    ∃ c', feed E ys c = (.ok (), c') ∧ c' = { c with
      cipher := some { k with rd := trafficKeys E info secret (n + items.length) }
      applicationData := c.applicationData ++ (items.map (·.1)).flatten
      tr := c'.tr } := by
  obtain ⟨c', i, rest, hf, ⟨j, hj, hg, hz⟩, hsame⟩ := C114_reads (q := []) hs ho hS hc₀ hmfl hc hst hin hk hsu hlim
    hn hw hfit hne (by rw [List.append_nil]; exact hys)
  rw [hys, hj, dataRecords_append] at hg
  have hg := List.append_cancel_left hg
  have hj0 : j = [] := by
    rcases j with _ | ⟨⟨d, pad⟩, j⟩
    · rfl
    · have h1 := hz d pad j rfl
      rw [← hg, dataRecords, List.length_append] at h1
      omega
  subst hj0
  rw [List.append_nil] at hj
  subst hj
  refine ⟨c', hf, ?_⟩
  have hr : rest = [] := hg.symm
  have hci := hin.1
  subst hr
  generalize c'.tr = t at hsame ⊢
  rw [hsame]
  cases c
  cases hci
  rfl

namespace Toy

/-- The server that let in the client unlike the library. -/
theorem let_in : ∃ (s : Conn) (ops : List Op) (k : CipherSt) (info : SuiteInfo) (theirs mine : Bytes),
    s = runOps env ops server0 ∧ s.state = .connected ∧ s.inputData = [] ∧ s.inputHandshake = [] ∧
    s.applicationData = [] ∧ s.mfl ∈ [512, 1024, 2048, 4096, 16384] ∧ suiteInfo 0x1301 = some info ∧
    s.cipher = some k ∧ k.info = info ∧
    k.rd = trafficKeys env info theirs 0 ∧ k.wr = trafficKeys env info mine 0 := by
  obtain ⟨msg, hP⟩ := Toy.other_proposes
  obtain ⟨info, s₁, y, hi, h1, -, -, -, h⟩ := C113_server (E := Toy.env) (gs := Toy.serverConfig)
    (k := Toy.choice) (algs := [.sha256]) (ds := [.sha256, .sha256]) (random := List.replicate 32 6)
    (s₀ := Toy.server0) (h := Toy.otherHello msg) Toy.sized Toy.opens Toy.seals Toy.admits rfl
    ⟨by decide, fun a => by cases a <;> decide⟩ (by decide) rfl hP (z := xorBytes [1] [9] ++ [1]) rfl (by simp)
  cases hi
  obtain ⟨s₂, h2, -, h⟩ := h [(Toy.otherHello msg).bytes] ⟨by simp, by simp, by
    simp [Opening.bytes, Toy.otherHello, recordBytes]⟩
  obtain ⟨fin, hfin, lfin⟩ := (finished_writes (E := Toy.env) (mac := Toy.env.hmac .sha256
    ((Toy.env.spec .sha256).finishedKey ((Toy.env.spec .sha256).cHs (xorBytes [1] [9] ++ [1])
      (Toy.env.hash .sha256 ((Toy.otherHello msg).msg ++ y.sh))))
      (Toy.env.hash .sha256 (y.upToFinished (Toy.otherHello msg)))) (by rw [Toy.sized.hmac]; decide)).get
  rw [Toy.sized.hmac] at lfin
  obtain ⟨-, h⟩ := h fin 77 false ((message_ok (h := .finished _) trivial (by simp [Rfc.extensionsOf])).mp hfin)
    (by have : HashAlg.size .sha256 = 32 := rfl
        show fin.length + 1 + 77 + 16 ≤ 16384 + 256
        omega)
  obtain ⟨s₃, h3, h4⟩ := h [_] ⟨by rw [List.flatten_singleton], by simp, by simp [sealedUnder, recordBytes]⟩
  have r2 := feed_run _ _ _ h2
  have r3 := feed_run _ _ _ h3
  have hnew : Conn.new Toy.serverConfig none false [.sha256] (List.replicate 32 6) = .ok Toy.server0 := rfl
  obtain ⟨ops, hrun⟩ : ∃ ops, s₃ = runOps Toy.env ops Toy.server0 := by
    rw [List.map_singleton, runOps, runOps] at r2
    have key : ∀ ops', s₃ = runOps Toy.env ops' (Op.drain.run Toy.env s₂).2 →
        ∃ ops, s₃ = runOps Toy.env ops Toy.server0 := fun ops' h =>
      ⟨Op.initiate :: .receive (Toy.otherHello msg).bytes :: .drain :: ops', by
        rw [runOps, h1, runOps, ← r2, runOps]
        exact h⟩
    exact key _ r3
  obtain ⟨k, k1, k2, k3, k4⟩ := h4.keys
  have hm := ((MflInv.fresh (E := Toy.env) hnew (by decide)).run ops).mfl
  rw [← hrun] at hm
  exact ⟨s₃, ops, k, _, _, _, hrun, h4.state, h4.nothingLeft.1, h4.nothingLeft.2.1, h4.nothingLeft.2.2.1, hm, rfl,
    k1, k2, k3, k4⟩

end Toy

/-- The hypotheses are met: the server that let in the client unlike the library reads two padded
records from it, which arrive in three pieces. -/
example : ∃ (s s' : Conn) (x y z : Bytes), s.state = .connected ∧ feed Toy.env [x, y, z] s = (.ok (), s') ∧
    s'.applicationData = [104, 101, 121] := by
  obtain ⟨s, ops, k, info, theirs, mine, hrun, hst, hin, hhs, happ, hm, hi, k1, k2, k3, k4⟩ := Toy.let_in
  cases hi
  have hm : 512 ≤ s.mfl := by
    simp only [List.mem_cons, List.not_mem_nil, or_false] at hm
    omega
  have hnew : Conn.new Toy.serverConfig none false [.sha256] (List.replicate 32 6) = .ok Toy.server0 := rfl
  generalize hd : dataRecords Toy.env _ theirs 0 [([104], 3), ([101, 121], 90)] = w
  obtain ⟨a, b, w', hw'⟩ : ∃ a b w', w = a :: b :: w' ∧ w' ≠ [] := by
    rw [← hd]
    simp only [dataRecords, sealedUnder, recordBytes]
    exact ⟨_, _, _, rfl, by simp⟩
  obtain ⟨s', hf, hs'⟩ := C114_all (E := Toy.env) (ys := [[a], [b], w'])
    (items := [([104], 3), ([101, 121], 90)]) Toy.sized Toy.opens Toy.seals hnew
    (by decide) hrun (.inl hst) ⟨hin, hhs⟩ ⟨k1, k2, k3⟩ rfl rfl (by decide)
    (by rw [k4]; rintro w ⟨⟩; decide)
    (by
      intro x hx
      simp only [List.mem_cons, List.not_mem_nil, or_false] at hx
      rcases hx with rfl | rfl
      · show 1 + 1 + 3 + 16 ≤ _; omega
      · show 2 + 1 + 90 + 16 ≤ _; omega)
    (by simpa using hw'.2) (by rw [hd, hw'.1]; simp)
  refine ⟨s, s', _, _, _, hst, hf, ?_⟩
  rw [hs', happ]
  rfl

end Siotls
