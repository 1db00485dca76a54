import Verif.Proofs.AlgInv
import Verif.Proofs.Parsed
/-!
# The maximum fragment length in force is one of the five sizes
-/

namespace Siotls

variable {E : Env} {G : Conn → Prop}

/-- configuration.py:61, iana.py `MaxFragmentLengthOctets`: the members of the enumeration. -/
def Spec.fragmentSizes : List Nat := [512, 1024, 2048, 4096, 16384]

theorem mflOctets_sizes {code : Nat} (h : code ∈ Iana.mflCodes) :
    Iana.mflOctets code ∈ Spec.fragmentSizes := by
  simp only [Iana.mflCodes, List.mem_cons, List.not_mem_nil, or_false] at h
  rcases h with rfl | rfl | rfl | rfl <;> decide

/-- only handshake records give handshake messages -/
theorem decode_handshake_ctype {ct : Option (Option Nat)} {ctype : Nat} {data : Bytes} {h : Handshake}
    (hd : decodeContent E ct ctype data = .ok (.handshake h)) : ctype = 22 := by
  unfold decodeContent at hd
  dsimp only at hd
  split at hd
  · next c s' hr =>
    cases hd
    obtain ⟨c, s₁, h1, hr⟩ := P.bind_ok hr
    obtain ⟨u, s₂, h2, hr⟩ := P.bind_ok hr
    cases hr
    have hcc : Returns parseChangeCipherSpec fun x => ∀ h, x ≠ .handshake h := by
      unfold parseChangeCipherSpec
      repeat' (with_reducible first
        | exact Returns.throw
        | refine Returns.bind (fun _ => ?_)
        | exact Returns.pure (fun _ h => by cases h)
        | split)
    have hal : Returns parseAlert fun x => ∀ h, x ≠ .handshake h := by
      unfold parseAlert
      repeat' (with_reducible first
        | exact Returns.throw
        | refine Returns.bind (fun _ => ?_)
        | exact Returns.pure (fun _ h => by cases h)
        | split)
    have hap : Returns parseApplicationData fun x => ∀ h, x ≠ .handshake h := by
      unfold parseApplicationData
      repeat' (with_reducible first
        | exact Returns.throw
        | refine Returns.bind (fun _ => ?_)
        | exact Returns.pure (fun _ h => by cases h)
        | split)
    have hhb : Returns parseHeartbeat fun x => ∀ h, x ≠ .handshake h := by
      unfold parseHeartbeat
      repeat' (with_reducible first
        | exact Returns.throw
        | refine Returns.bind (fun _ => ?_)
        | exact Returns.pure (fun _ h => by cases h)
        | split)
    unfold parseContent at h1
    split at h1
    · exact absurd rfl (hcc _ _ _ h1 h)
    · exact absurd rfl (hal _ _ _ h1 h)
    · rfl
    · exact absurd rfl (hap _ _ _ h1 h)
    · exact absurd rfl (hhb _ _ _ h1 h)
    · cases h1
    · cases h1
  · split at hd <;> cases hd

/-- the handshake messages handed to the states were parsed -/
def Parsed (E : Env) (tr : List Ev) : Prop :=
  ∀ h, Ev.recv (.handshake h) ∈ tr → ∃ ct data, decodeContent E ct 22 data = .ok (.handshake h)

theorem Parsed.step {c c' : Conn} (h : Parsed E c.tr) (hs : Step E G c c') : Parsed E c'.tr := by
  have key : ∀ new : List Ev, (∀ x, Ev.recv (.handshake x) ∉ new) → Parsed E (new ++ c.tr) := by
    intro new hn x hx
    rcases List.mem_append.mp hx with hx | hx
    · exact absurd hx (hn x)
    · exact h x hx
  cases hs with
  | @emit _ x records _ _ =>
    refine key (.sent x :: (records.map fun r => Ev.record r.1 r.2.1).reverse) fun x hx => ?_
    rcases List.mem_cons.mp hx with hx | hx
    · cases hx
    · simp only [List.mem_reverse, List.mem_map] at hx
      obtain ⟨_, _, hx⟩ := hx
      cases hx
  | hashSent => dsimp only; split
                · exact key [_] (by simp)
                · exact h
  | @received ctype data content _ _ hd hn _ =>
    intro x hx
    rcases List.mem_cons.mp hx with hx | hx
    · cases hx; exact absurd rfl (hn x)
    · exact h x hx
  | @receivedHs ctype data hh b t _ _ hd _ =>
    intro x hx
    rcases List.mem_cons.mp hx with hx | hx
    · cases hx
      cases decode_handshake_ctype hd
      exact ⟨_, _, hd⟩
    · split at hx
      · rcases List.mem_cons.mp hx with hx | hx
        · cases hx
        · exact h x hx
      · exact h x hx
  | handshakeKeys | masterKeys =>
    refine key _ fun x hx => ?_
    rcases mem_keyEvents hx with ⟨_, _, hx⟩ | ⟨_, _, hx⟩ | ⟨_, _, hx⟩ <;> cases hx
  | gotHandshake => exact key [_] (by simp)
  | gotOther => exact key [_] (by simp)
  | opened => exact key [_] (by simp)
  | sealed => exact key [_] (by simp)
  | delivered => exact key [_] (by simp)
  | _ => exact h

/-- the sizes in the configurations are members of the enumeration -/
structure MflInv (E : Env) (c : Conn) : Prop where
  config : c.config.maxFragmentLength ∈ Spec.fragmentSizes
  negotiated : ∀ n v, c.nconfig = some n → n.maxFragmentLength = some v → v ∈ Spec.fragmentSizes
  parsed : Parsed E c.tr

theorem findExt_mem {l : List Ext} {t : Nat} {e : Ext} (h : findExt l t = some e) : e ∈ l :=
  List.mem_of_find?_eq_some h

theorem MflInv.step {c c' : Conn} (h : MflInv E c) (hs : Step E G c c') : MflInv E c' := by
  have hp := h.parsed.step hs
  cases hs with
  | cfg hk =>
    refine ⟨?_, h.negotiated, hp⟩
    cases hk with
    | client _ _ _ _ _ _ _ hk => subst hk; exact h.config
  | retry _ hk =>
    refine ⟨?_, h.negotiated, hp⟩
    cases hk with
    | client _ _ _ _ _ _ _ hk => subst hk; exact h.config
  | hrrServer => exact ⟨h.config, h.negotiated, hp⟩
  | nc hn =>
    refine ⟨h.config, ?_, hp⟩
    rintro n v ⟨⟩ hv
    cases hn with
    | client => cases hv
    | server => cases hv
    | @upd o _ ho hu =>
      rcases hu.mfl with hm | ⟨_, hm⟩ | ⟨_, hm⟩ | ⟨code, r, sid, su, ex, f, hm, _, hl, hf⟩
      · exact h.negotiated o v ho (hm ▸ hv)
      · rw [hm] at hv; cases hv; exact h.config
      · rw [hm] at hv; cases hv; decide
      · rw [hm] at hv
        cases hv
        obtain ⟨ct, data, hd⟩ := h.parsed _ (lastRecv_mem hl)
        exact mflOctets_sizes (clientHello_mfl hd (findExt_mem hf))
  | _ => exact ⟨h.config, h.negotiated, hp⟩

theorem MflInv.api {c c' : Conn} (h : MflInv E c) (hs : Api E G c c') : MflInv E c' := by
  cases hs with
  | step hs => exact h.step hs
  | closeRecv =>
    obtain ⟨s, hs⟩ := closeReceivingEnd_same c
    rw [hs]; exact ⟨h.config, h.negotiated, h.parsed⟩
  | _ => exact ⟨h.config, h.negotiated, h.parsed⟩

theorem MflInv.mfl {c : Conn} (h : MflInv E c) : c.mfl ∈ Spec.fragmentSizes := by
  unfold Conn.mfl
  split
  · next n hn =>
    cases hc : c.nconfig with
    | none => rw [hc] at hn; cases hn
    | some nc => rw [hc] at hn; exact h.negotiated nc n hc hn
  · exact h.config

theorem fragmentSizes_bounds {n : Nat} (h : n ∈ Spec.fragmentSizes) : 512 ≤ n ∧ n ≤ 16384 := by
  simp only [Spec.fragmentSizes, List.mem_cons, List.not_mem_nil, or_false] at h
  omega

theorem MflInv.pos {c : Conn} (h : MflInv E c) : 0 < c.mfl := by
  have := fragmentSizes_bounds h.mfl; omega

theorem MflInv.fresh {config : Config} {hostname ocsp algs random} {c : Conn}
    (h : Conn.new config hostname ocsp algs random = .ok c)
    (hm : config.maxFragmentLength ∈ Spec.fragmentSizes) : MflInv E c := by
  have hf := Conn.new_fresh h
  refine ⟨by rw [hf.1]; exact hm, ?_, ?_⟩
  · rw [hf.2.1]; rintro n v ⟨⟩
  · unfold Parsed
    rw [hf.2.2.2.2.2.2.2.2.1]
    intro x hx; cases hx

theorem MflInv.run {c : Conn} (h : MflInv E c) (ops : List Op) : MflInv E (runOps E ops c) :=
  runOps_inv (fun _ _ hi ha => hi.api ha) h ops

end Siotls
