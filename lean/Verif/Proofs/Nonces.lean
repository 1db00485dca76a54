import Verif.Proofs.LtsSim
import Verif.Proofs.Views
import Verif.Proofs.Schedule
import Mathlib.Data.List.Nodup
/-!
# Sequence numbers: invariant behind C14 and C15
-/

namespace Siotls

/-- what happens in one direction: a key is installed, or is used with a nonce -/
inductive DEv where
  | key (suite : Nat) (k : Bytes)
  | use (suite : Nat) (k nonce : Bytes)
  deriving DecidableEq, Repr

def DEv.ofWrite : Ev → Option DEv
  | .wkey s k => some (.key s k)
  | .sealed s k n _ _ => some (.use s k n)
  | _ => none

def DEv.ofRead : Ev → Option DEv
  | .rkey s k => some (.key s k)
  | .opened s k n _ _ => some (.use s k n)
  | _ => none

/-- the uses of a key with the first `n` sequence numbers, newest first -/
def usesUpTo (s : Nat) (k iv : Bytes) (n : Nat) : List DEv :=
  (List.range n).reverse.map fun i => .use s k (xorBytes iv (beEnc 12 i))

/-- a history of one direction: each key is used with increasing sequence numbers below the limit -/
inductive Epochs : List DEv → Prop
  | nil : Epochs []
  | stuck {old s k} : Epochs old → Epochs (.key s k :: old)
  | cons {old cur s k iv n info lim} : Epochs old → suiteInfo s = some info →
      info.usageLimit = some lim → n ≤ lim → iv.length = 12 → cur.Sublist (usesUpTo s k iv n) →
      Epochs (cur ++ .key s k :: old)

/-- the current epoch of a direction -/
def Current (info : SuiteInfo) (d : Dir) (l : List DEv) : Prop :=
  ∀ iv n, d.iv = some iv → d.seq = some n → ∃ k lim old cur, d.key = some k ∧
    info.usageLimit = some lim ∧ n ≤ lim ∧ iv.length = 12 ∧ l = cur ++ .key info.id k :: old ∧
    Epochs old ∧ cur.Sublist (usesUpTo info.id k iv n)

structure DirInv (info : SuiteInfo) (d : Dir) (l : List DEv) : Prop where
  epochs : Epochs l
  current : Current info d l
  noSeq : info.usageLimit = none → d.seq = none

theorem usesUpTo_succ (s : Nat) (k iv : Bytes) (n : Nat) :
    usesUpTo s k iv (n + 1) = .use s k (xorBytes iv (beEnc 12 n)) :: usesUpTo s k iv n := by
  simp [usesUpTo, List.range_succ]

theorem DirInv.empty {info : SuiteInfo} {l : List DEv} (h : Epochs l) : DirInv info .empty l :=
  ⟨h, fun _ _ h => (by cases h), fun _ => rfl⟩

theorem DirInv.install {info : SuiteInfo} {l : List DEv} {k iv : Bytes} {s : Option Nat}
    {i : SuiteInfo} (h : Epochs l) (hid : suiteInfo info.id = some info)
    (hu : i = info) (hiv : iv.length = 12)
    (hs : info.usageLimit.isSome = true ∧ s = some 0 ∨ info.usageLimit = none ∧ s = none) :
    DirInv info ⟨some k, some iv, s⟩ (.key i.id k :: l) := by
  subst hu
  refine ⟨.stuck h, ?_, ?_⟩
  · intro iv' n h1 h2
    cases h1
    rcases hs with ⟨hl, rfl⟩ | ⟨_, rfl⟩
    · cases h2
      obtain ⟨lim, hlim⟩ := Option.isSome_iff_exists.mp hl
      exact ⟨k, lim, l, [], rfl, hlim, Nat.zero_le _, hiv, rfl, h, .slnil⟩
    · cases h2
  · intro hl
    rcases hs with ⟨h', _⟩ | ⟨_, rfl⟩
    · rw [hl] at h'; cases h'
    · rfl

/-- taking a nonce without using it -/
theorem DirInv.skip {info : SuiteInfo} {d d' : Dir} {l : List DEv} {nonce : Bytes}
    (h : DirInv info d l) (hn : nextNonce info d = .ok (nonce, d')) : DirInv info d' l := by
  unfold nextNonce at hn
  split at hn
  · rename_i iv n limit h1 h2 h3
    split at hn
    · rename_i hlt
      cases hn
      refine ⟨h.epochs, ?_, by simp [h3]⟩
      intro iv' n' h1' h2'
      cases h2'
      obtain ⟨k, lim, old, cur, a1, a2, a3, a4, a5, a6, a7⟩ := h.current iv' n h1' h2
      have : lim = limit := by rw [h3] at a2; exact (Option.some.inj a2).symm
      subst this
      exact ⟨k, lim, old, cur, a1, a2, hlt, a4, a5, a6,
        a7.trans (by rw [usesUpTo_succ]; exact List.sublist_cons_self _ _)⟩
    · cases hn
  · cases hn

theorem DirInv.use {info : SuiteInfo} {d d' : Dir} {l : List DEv} {nonce key : Bytes}
    (h : DirInv info d l) (hid : suiteInfo info.id = some info) (hk : d.key = some key)
    (hn : nextNonce info d = .ok (nonce, d')) : DirInv info d' (.use info.id key nonce :: l) := by
  unfold nextNonce at hn
  split at hn
  · rename_i iv n limit h1 h2 h3
    split at hn
    · rename_i hlt
      cases hn
      obtain ⟨k, lim, old, cur, a1, a2, a3, a4, a5, a6, a7⟩ := h.current iv n h1 h2
      have : lim = limit := by rw [h3] at a2; exact (Option.some.inj a2).symm
      subst this
      have : k = key := by rw [hk] at a1; exact (Option.some.inj a1).symm
      subst this
      have hcur : (DEv.use info.id k (xorBytes iv (beEnc info.nonceLength n)) :: cur).Sublist
          (usesUpTo info.id k iv (n + 1)) := by
        rw [usesUpTo_succ, (suite_facts hid).2.1]
        exact a7.cons_cons _
      refine ⟨?_, ?_, by simp [h3]⟩
      · rw [a5]
        exact Epochs.cons (cur := _ :: cur) a6 hid a2 hlt a4 hcur
      · intro iv' n' h1' h2'
        cases h2'
        have : iv' = iv := by rw [h1] at h1'; exact (Option.some.inj h1').symm
        subst this
        exact ⟨k, lim, old, _ :: cur, hk, a2, hlt, a4, by rw [a5]; rfl, a6, hcur⟩
    · cases hn
  · cases hn

theorem IvOf.length {E : Env} (hE : E.Sized) {info : SuiteInfo} {iv : Bytes}
    (hid : suiteInfo info.id = some info) (h : IvOf E info iv) : iv.length = 12 := by
  obtain ⟨secret, h⟩ := h
  have h12 := (suite_facts hid).2.1
  have hL : info.nonceLength ≤ 255 * info.digest.size := by
    have := info.digest.size_pos; omega
  rw [hkdfExpandLabel_ok hE _ _ (by decide) (by simp) hL] at h
  cases h
  rw [Spec.Hash.expandLabel, length_expand hE _ _ _ hL, h12]

/-- the invariant of a connection -/
def SeqInv (c : Conn) : Prop :=
  match c.cipher with
  | none => c.tr.filterMap DEv.ofWrite = [] ∧ c.tr.filterMap DEv.ofRead = []
  | some k => suiteInfo k.info.id = some k.info ∧
    DirInv k.info k.wr (c.tr.filterMap DEv.ofWrite) ∧ DirInv k.info k.rd (c.tr.filterMap DEv.ofRead)

theorem SeqInv.epochs {c : Conn} (h : SeqInv c) :
    Epochs (c.tr.filterMap DEv.ofWrite) ∧ Epochs (c.tr.filterMap DEv.ofRead) := by
  unfold SeqInv at h
  split at h
  · rw [h.1, h.2]; exact ⟨.nil, .nil⟩
  · exact ⟨h.2.1.epochs, h.2.2.epochs⟩

theorem SeqInv.same {c c' : Conn} (h : SeqInv c) (h1 : c'.cipher = c.cipher)
    (h2 : c'.tr.filterMap DEv.ofWrite = c.tr.filterMap DEv.ofWrite)
    (h3 : c'.tr.filterMap DEv.ofRead = c.tr.filterMap DEv.ofRead) : SeqInv c' := by
  unfold SeqInv at *
  rw [h1, h2, h3]; exact h

/-- the write part of the events of an installation -/
theorem filterMap_keyEvents_write (log : List PyStr) (k k' : CipherSt) :
    (keyEvents log k k').filterMap DEv.ofWrite =
      match k'.wr.key with
      | some x => if k'.wr = k.wr then [] else [.key k'.info.id x]
      | none => [] := by
  unfold keyEvents
  rw [List.append_assoc, List.filterMap_append, ← List.map_reverse, List.filterMap_map]
  have : log.reverse.filterMap (DEv.ofWrite ∘ Ev.logged) = [] := by
    rw [List.filterMap_eq_nil_iff]; intros; rfl
  rw [this, List.nil_append, List.filterMap_append]
  by_cases h1 : k'.wr = k.wr <;> by_cases h2 : k'.rd = k.rd <;>
    cases k'.wr.key <;> cases k'.rd.key <;> simp [h1, h2, DEv.ofWrite]

theorem filterMap_keyEvents_read (log : List PyStr) (k k' : CipherSt) :
    (keyEvents log k k').filterMap DEv.ofRead =
      match k'.rd.key with
      | some x => if k'.rd = k.rd then [] else [.key k'.info.id x]
      | none => [] := by
  unfold keyEvents
  rw [List.append_assoc, List.filterMap_append, ← List.map_reverse, List.filterMap_map]
  have : log.reverse.filterMap (DEv.ofRead ∘ Ev.logged) = [] := by
    rw [List.filterMap_eq_nil_iff]; intros; rfl
  rw [this, List.nil_append, List.filterMap_append]
  by_cases h1 : k'.wr = k.wr <;> by_cases h2 : k'.rd = k.rd <;>
    cases k'.wr.key <;> cases k'.rd.key <;> simp [h1, h2, DEv.ofRead]

theorem DirInv.installed {info i : SuiteInfo} {l : List DEv} {d : Dir} {k iv : Bytes}
    {s : Option Nat} (h : DirInv info d l) (hid : suiteInfo info.id = some info) (hu : i = info)
    (hiv : iv.length = 12)
    (hs : info.usageLimit.isSome = true ∧ s = some 0 ∨ info.usageLimit = none ∧ s = none) :
    DirInv info ⟨some k, some iv, s⟩
      ((if (⟨some k, some iv, s⟩ : Dir) = d then [] else [.key i.id k]) ++ l) := by
  split
  · rename_i heq; rw [heq]; exact h
  · exact DirInv.install h.epochs hid hu hiv hs

theorem DirInv.unchanged {info i : SuiteInfo} {l : List DEv} {d : Dir} (h : DirInv info d l) :
    DirInv info d
      ((match d.key with
        | some x => if d = d then [] else [.key i.id x]
        | none => []) ++ l) := by
  cases d.key <;> simpa using h

theorem SeqInv.step {E : Env} {G : Conn → Prop} (hE : E.Sized) {c c' : Conn} (h : SeqInv c) (hs : Step E G c c') :
    SeqInv c' := by
  cases hs with
  | input | draw | fragment | hashError | nc | cfg | signature | clientUnique | serverUnique
  | retry | postInit | hrrClient | hrrServer | move => exact h
  | gotHandshake | gotOther | received | delivered => exact h.same rfl rfl rfl
  | emit =>
    refine h.same rfl ?_ ?_ <;>
    · simp only [List.filterMap_cons, List.filterMap_append, DEv.ofWrite, DEv.ofRead]
      rw [List.filterMap_eq_nil_iff.mpr]
      · rfl
      · simp only [List.mem_reverse, List.mem_map]
        rintro _ ⟨r, _, rfl⟩
        rfl
  | hashSent => refine h.same rfl ?_ ?_ <;> (dsimp only; split <;> rfl)
  | receivedHs => refine h.same rfl ?_ ?_ <;> (dsimp only; split <;> rfl)
  | badRecord hc hk hn =>
    unfold SeqInv at *
    rw [hc] at h
    exact ⟨h.1, h.2.1, h.2.2.skip hn⟩
  | opened hc hk hn ho =>
    unfold SeqInv at *
    rw [hc] at h
    exact ⟨h.1, h.2.1, h.2.2.use h.1 hk hn⟩
  | sealed hc hk hn =>
    unfold SeqInv at *
    rw [hc] at h
    exact ⟨h.1, h.2.1.use h.1 hk hn, h.2.2⟩
  | setup hok =>
    have he := h.epochs
    have hid : ∃ s, suiteInfo s = some ‹SuiteInfo› := by
      cases hok with
      | client _ _ _ _ h _ => exact ⟨_, h⟩
      | server _ _ _ h _ => exact ⟨_, h⟩
    obtain ⟨s, hid⟩ := hid
    have := (suite_facts hid).1
    exact ⟨by dsimp only [CipherSt.new]; rw [this]; exact hid,
      .empty he.1, .empty he.2⟩
  | skipEarly hc hsk =>
    rename_i k k'
    unfold SeqInv at *
    rw [hc] at h
    have : ∃ s, k' = { k with secrets := s } := by
      unfold Siotls.skipEarly at hsk
      split at hsk
      · cases hsk
      · cases hx : extractNext E k.info.digest k.secrets.salt (zeros k.info.digest.size) with
        | error e => rw [hx] at hsk; cases hsk
        | ok v => rw [hx] at hsk; cases hsk; exact ⟨_, rfl⟩
    obtain ⟨s, rfl⟩ := this
    exact h
  | handshakeKeys _ hc hok hd =>
    rename_i k shared hash r k'
    unfold SeqInv at *
    rw [hc] at h
    obtain ⟨hid, hw, hr⟩ := h
    simp only [List.filterMap_append, filterMap_keyEvents_write, filterMap_keyEvents_read]
    cases deriveHandshake_view hd with
    | refused => exact ⟨hid, hw.unchanged, hr.unchanged⟩
    | early => exact ⟨hid, hw.unchanged, hr.unchanged⟩
    | stuck _ hl hiv =>
      exact ⟨hid, hw.installed hid rfl (hiv.length hE hid) (.inr ⟨hl, hw.noSeq hl⟩), hr.unchanged⟩
    | done _ hl hwi hri =>
      exact ⟨hid, hw.installed hid rfl (hwi.length hE hid) (.inl ⟨hl, rfl⟩),
        hr.installed hid rfl (hri.length hE hid) (.inl ⟨hl, rfl⟩)⟩
  | masterKeys _ hc hok hd =>
    rename_i k sf cf r k'
    unfold SeqInv at *
    rw [hc] at h
    obtain ⟨hid, hw, hr⟩ := h
    simp only [List.filterMap_append, filterMap_keyEvents_write, filterMap_keyEvents_read]
    cases deriveMaster_view hd with
    | refused => exact ⟨hid, hw.unchanged, hr.unchanged⟩
    | stuck _ hl hiv =>
      exact ⟨hid, hw.installed hid rfl (hiv.length hE hid) (.inr ⟨hl, hw.noSeq hl⟩), hr.unchanged⟩
    | done _ hl hwi hri =>
      exact ⟨hid, hw.installed hid rfl (hwi.length hE hid) (.inl ⟨hl, rfl⟩),
        hr.installed hid rfl (hri.length hE hid) (.inl ⟨hl, rfl⟩)⟩

theorem closeReceivingEnd_same (c : Conn) :
    ∃ s, (closeReceivingEnd c).2 = { c with state := s } := by
  unfold closeReceivingEnd
  split <;> exact ⟨_, rfl⟩

theorem SeqInv.api {E : Env} {G : Conn → Prop} (hE : E.Sized) {c c' : Conn} (h : SeqInv c) (hs : Api E G c c') :
    SeqInv c' := by
  cases hs with
  | step hs => exact h.step hE hs
  | closeRecv =>
    obtain ⟨s, hs⟩ := closeReceivingEnd_same c
    rw [hs]
    exact h
  | _ => exact h

/-- facts about a connection returned by the constructor -/
theorem Conn.new_fresh {config : Config} {hostname ocsp algs random} {c : Conn}
    (h : Conn.new config hostname ocsp algs random = .ok c) :
    c.config = config ∧ c.nconfig = none ∧ c.cipher = none ∧ c.signature = none ∧
    c.inputData = [] ∧ c.inputHandshake = [] ∧ c.outputData = [] ∧ c.applicationData = [] ∧
    c.tr = [] ∧ c.transcript.orderI = 1 ∧ c.transcript.hashes = algs.map (·, []) ∧ algs ≠ [] ∧
    (config.side = .client ∧ c.state = .clientStart none ∧ c.clientUnique = some random ∧
      c.serverUnique = none ∧ c.hostname = hostname ∨
     config.side = .server ∧ c.state = .serverStart ∧ c.clientUnique = none ∧
      c.serverUnique = some random) := by
  unfold Conn.new at h
  cases h1 : suiteDigests config.cipherSuites with
  | error e => rw [h1] at h; cases h
  | ok ds =>
  cases h2 : Transcript.new algs with
  | error e => rw [h1, h2] at h; cases h
  | ok t =>
    rw [h1, h2] at h
    have ht : t = ⟨algs.map (·, []), 1⟩ ∧ algs ≠ [] := by
      unfold Transcript.new at h2
      split at h2
      · cases h2
      · cases h2; exact ⟨rfl, by rintro rfl; simp at *⟩
    obtain ⟨rfl, hne⟩ := ht
    simp only [Except.bind_def] at h
    cases hs : config.side <;> rw [hs] at h <;> dsimp only at h
    · cases h; simp [hne]
    · split at h
      · cases h
      · cases h; simp [hne]

theorem SeqInv.fresh {config : Config} {hostname ocsp algs random} {c : Conn}
    (h : Conn.new config hostname ocsp algs random = .ok c) : SeqInv c := by
  obtain ⟨_, _, hc, _, _, _, _, _, htr, _⟩ := Conn.new_fresh h
  unfold SeqInv
  rw [hc, htr]
  exact ⟨rfl, rfl⟩

/-- the keys installed -/
def DEv.keys (l : List DEv) : List (Nat × Bytes) :=
  l.filterMap fun e => match e with | .key s k => some (s, k) | _ => none

/-- the uses of keys -/
def DEv.uses (l : List DEv) : List (Bytes × Bytes) :=
  l.filterMap fun e => match e with | .use _ k n => some (k, n) | _ => none

theorem nonce_inj {iv : Bytes} {i j : Nat} (hiv : iv.length = 12) (hi : i < 2 ^ 64) (hj : j < 2 ^ 64)
    (h : xorBytes iv (beEnc 12 i) = xorBytes iv (beEnc 12 j)) : i = j := by
  have := xorBytes_right_inj (by simp [hiv]) (by simp [hiv]) h
  exact beEnc_inj (n := 12) (by omega) (by omega) this

theorem limit_le {s : Nat} {info : SuiteInfo} {lim : Nat} (h : suiteInfo s = some info)
    (hl : info.usageLimit = some lim) : lim ≤ 2 ^ 64 := by
  unfold suiteInfo at h
  split at h <;> cases h <;> cases hl <;> decide

theorem mem_usesUpTo {s : Nat} {k iv : Bytes} {n : Nat} {e : DEv} (h : e ∈ usesUpTo s k iv n) :
    ∃ i < n, e = .use s k (xorBytes iv (beEnc 12 i)) := by
  simp only [usesUpTo, List.mem_map, List.mem_reverse, List.mem_range] at h
  obtain ⟨i, h1, h2⟩ := h
  exact ⟨i, h1, h2.symm⟩

theorem uses_key {l : List DEv} (h : Epochs l) : ∀ p ∈ DEv.uses l, ∃ s, (s, p.1) ∈ DEv.keys l := by
  induction h with
  | nil => intro p hp; cases hp
  | stuck _ ih =>
    intro p hp
    obtain ⟨s, hs⟩ := ih p hp
    exact ⟨s, List.mem_cons_of_mem _ hs⟩
  | @cons old cur s k iv n info lim _ _ _ _ _ hsub ih =>
    intro p hp
    simp only [DEv.uses, DEv.keys, List.filterMap_append, List.filterMap_cons, List.mem_append,
      List.mem_filterMap] at hp ⊢
    rcases hp with ⟨e, he, hpe⟩ | hp
    · obtain ⟨i, _, rfl⟩ := mem_usesUpTo (hsub.subset he)
      cases hpe
      exact ⟨s, .inr (.head _)⟩
    · obtain ⟨s', hs'⟩ := ih p (List.mem_filterMap.mpr hp)
      exact ⟨s', .inr (.tail _ hs')⟩

theorem nodup_usesUpTo {s : Nat} {k iv : Bytes} {n : Nat} (hiv : iv.length = 12) (hn : n ≤ 2 ^ 64) :
    (DEv.uses (usesUpTo s k iv n)).Nodup := by
  induction n with
  | zero => exact .nil
  | succ n ih =>
    rw [usesUpTo_succ, DEv.uses, List.filterMap_cons]
    refine List.Nodup.cons ?_ (ih (by omega))
    intro hmem
    obtain ⟨e, he, hpe⟩ := List.mem_filterMap.mp hmem
    obtain ⟨i, hi, rfl⟩ := mem_usesUpTo he
    simp only [Option.some.injEq, Prod.mk.injEq, true_and] at hpe
    have := nonce_inj hiv (i := i) (j := n) (by omega) (by omega) hpe
    omega

theorem keys_of_uses {l : List DEv} {s k iv n} (h : l.Sublist (usesUpTo s k iv n)) :
    DEv.keys l = [] := by
  rw [DEv.keys, List.filterMap_eq_nil_iff]
  intro e he
  obtain ⟨i, _, rfl⟩ := mem_usesUpTo (h.subset he)
  rfl

theorem Epochs.nodup {l : List DEv} (h : Epochs l) (hk : ((DEv.keys l).map Prod.snd).Nodup) :
    (DEv.uses l).Nodup := by
  induction h with
  | nil => exact .nil
  | stuck _ ih => exact ih (List.nodup_cons.mp hk).2
  | @cons old cur s k iv n info lim hold hi hl hn hiv hsub ih =>
    have hkeys : DEv.keys (cur ++ .key s k :: old) = (s, k) :: DEv.keys old := by
      rw [DEv.keys, List.filterMap_append, List.filterMap_cons]
      show DEv.keys cur ++ _ = _
      rw [keys_of_uses hsub]; rfl
    rw [hkeys, List.map_cons, List.nodup_cons] at hk
    have huses : DEv.uses (cur ++ .key s k :: old) = DEv.uses cur ++ DEv.uses old := by
      rw [DEv.uses, List.filterMap_append]; rfl
    rw [huses, List.nodup_append]
    refine ⟨(nodup_usesUpTo hiv (le_trans hn (limit_le hi hl))).sublist (hsub.filterMap _), ih hk.2,
      ?_⟩
    intro a ha b hb hab
    subst hab
    obtain ⟨e, he, hpe⟩ := List.mem_filterMap.mp ha
    obtain ⟨i, _, rfl⟩ := mem_usesUpTo (hsub.subset he)
    cases hpe
    obtain ⟨s', hs'⟩ := uses_key hold _ hb
    exact hk.1 (List.mem_map.mpr ⟨_, hs', rfl⟩)

/-- number of uses of a key -/
theorem Epochs.count {l : List DEv} (h : Epochs l) {key : Bytes} {s lim : Nat} {info : SuiteInfo}
    (hk : ((DEv.keys l).map Prod.snd).Nodup) (hs : (s, key) ∈ DEv.keys l)
    (hi : suiteInfo s = some info) (hl : info.usageLimit = some lim) :
    ((DEv.uses l).filter fun p => p.1 = key).length ≤ lim := by
  induction h with
  | nil => simp [DEv.uses]
  | @stuck old s' k hold ih =>
    have hk' : ((s', k) :: DEv.keys old).map Prod.snd |>.Nodup := hk
    rw [List.map_cons, List.nodup_cons] at hk'
    have hs : (s, key) ∈ (s', k) :: DEv.keys old := hs
    rcases List.mem_cons.mp hs with heq | hs
    · cases heq
      show ((DEv.uses old).filter _).length ≤ lim
      rw [List.filter_eq_nil_iff.mpr]
      · simp
      · intro p hp
        simp only [decide_eq_true_eq]
        rintro rfl
        obtain ⟨s', hs'⟩ := uses_key hold p hp
        exact hk'.1 (List.mem_map.mpr ⟨_, hs', rfl⟩)
    · exact ih hk'.2 hs
  | @cons old cur s' k iv n info' lim' hold hi' hl' hn hiv hsub ih =>
    have hkeys : DEv.keys (cur ++ .key s' k :: old) = (s', k) :: DEv.keys old := by
      rw [DEv.keys, List.filterMap_append, List.filterMap_cons]
      show DEv.keys cur ++ _ = _
      rw [keys_of_uses hsub]; rfl
    rw [hkeys] at hk hs
    rw [List.map_cons, List.nodup_cons] at hk
    have huses : DEv.uses (cur ++ .key s' k :: old) = DEv.uses cur ++ DEv.uses old := by
      rw [DEv.uses, List.filterMap_append]; rfl
    rw [huses, List.filter_append, List.length_append]
    rcases List.mem_cons.mp hs with heq | hs
    · cases heq
      have h0 : (DEv.uses old).filter (fun p => p.1 = key) = [] := by
        rw [List.filter_eq_nil_iff]
        intro p hp
        simp only [decide_eq_true_eq]
        rintro rfl
        obtain ⟨s', hs'⟩ := uses_key hold p hp
        exact hk.1 (List.mem_map.mpr ⟨_, hs', rfl⟩)
      rw [h0]
      have h1 : lim' = lim := by
        rw [hi] at hi'; cases hi'; rw [hl] at hl'; exact (Option.some.inj hl').symm
      subst h1
      have h2 : (DEv.uses cur).length ≤ n := by
        refine le_trans (hsub.filterMap _).length_le ?_
        exact le_trans (List.length_filterMap_le _ _) (by simp [usesUpTo])
      simp only [List.length_nil, Nat.add_zero]
      exact le_trans (List.length_filter_le _ _) (le_trans h2 hn)
    · have h0 : (DEv.uses cur).filter (fun p => p.1 = key) = [] := by
        rw [List.filter_eq_nil_iff]
        intro p hp
        simp only [decide_eq_true_eq]
        rintro rfl
        obtain ⟨e, he, hpe⟩ := List.mem_filterMap.mp hp
        obtain ⟨i, _, rfl⟩ := mem_usesUpTo (hsub.subset he)
        cases hpe
        exact hk.1 (List.mem_map.mpr ⟨_, hs, rfl⟩)
      rw [h0]
      simpa using ih hk.2 hs

end Siotls
