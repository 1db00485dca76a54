import Verif.Proofs.InteropSend
import Verif.Props.InteropData
/-!
# Property C115: what a connection sends is application data as the RFC has it
-/

namespace Siotls
open Spec Serial

variable {E : Env}

theorem padLength_fits {mfl tag n : Nat} (hg : mfl ∈ [512, 1024, 2048, 4096, 16384]) (hn : n + 1 + tag < mfl) :
    n + 1 + padLength mfl n tag + tag ≤ mfl := by
  unfold padLength
  simp only [List.mem_cons, List.not_mem_nil, or_false] at hg
  rcases hg with rfl | rfl | rfl | rfl | rfl <;> simp only [min512, min1024, min2048, Nat.min_self,
    show min 16384 4096 = 4096 from rfl] <;> omega

/-- C115. What `send_data` puts out, call after call, are records of application data under the
sender's traffic secret (RFC 8446 §5.2, §5.4, §7.3), numbered from where it stood, that carry what it
was given. No record holds more than the agreed fragment length; if no payload fills a fragment,
padding and tag fit as well (otherwise they do not, see `C10_false`). Only the counter and the output
change. -/
theorem C115_partial {c c' : Conn} {k : CipherSt} {info : SuiteInfo} {secret : Bytes} {w : Nat} {payloads : List Bytes}
    (hmfl : c.mfl ∈ [512, 1024, 2048, 4096, 16384]) (hsu : suiteInfo info.id = some info)
    (hk : c.cipher = some k ∧ k.info = info ∧ k.wr = trafficKeys E info secret w)
    (h : SendsData E c payloads c') :
    ∃ items : List (Bytes × Nat),
      c' = { c with
        cipher := some { k with wr := trafficKeys E info secret (w + items.length) }
        outputData := c.outputData ++ dataRecords E info secret w items
        tr := c'.tr } ∧
      (items.map (·.1)).flatten = payloads.flatten ∧
      (∀ x ∈ items, x.1.length + 1 + info.tagLength ≤ c.mfl) ∧
      ((∀ d ∈ payloads, d.length + 1 + info.tagLength < c.mfl) →
        ∀ x ∈ items, x.1.length + 1 + x.2 + info.tagLength ≤ c.mfl) := by
  induction h generalizing k w with
  | done c =>
    obtain ⟨hk, -, hwr⟩ := hk
    refine ⟨[], ?_, rfl, by simp, by simp⟩
    rw [List.length_nil, Nat.add_zero, ← hwr, dataRecords, List.append_nil]
    cases c
    cases hk
    rfl
  | @send c d c₁ ds c' h1 h2 ih =>
    obtain ⟨hk, hinfo, hwr⟩ := hk
    obtain ⟨data, fs, rs, hw⟩ := sendContent_wrote h1
    have hdata : data = d := by have := hw.ser; cases this; rfl
    subst hdata
    have htag := suite_tag hsu
    have hge : 512 ≤ c.mfl := by
      simp only [List.mem_cons, List.not_mem_nil, or_false] at hmfl
      omega
    have hfl := fragLen_sealed hk (by rw [hwr]; simp [trafficKeys])
    rw [hinfo] at hfl
    obtain ⟨hflat, hle, hone⟩ := splitFragments_ok (by omega) hw.frag
    obtain ⟨g1, g2⟩ := recs_data (secret := secret) fs hw.recs hk hinfo hwr
    have hsame := hw.same
    have hm : c₁.mfl = c.mfl := by rw [hsame]; rfl
    obtain ⟨items, i1, i2, i3, i4⟩ := ih (by rw [hm]; exact hmfl) (k := { k with wr := trafficKeys E info secret (w + fs.length) })
      (w := w + fs.length) ⟨g2, hinfo, rfl⟩
    refine ⟨fs.map (fun f => (f, padLength c.mfl f.length info.tagLength)) ++ items, ?_, ?_, ?_, ?_⟩
    · have ho := hw.out
      rw [g1] at ho
      rw [g2, ho, sendData_transcript h1] at hsame
      generalize c'.tr = t at i1 ⊢
      rw [i1, hsame, dataRecords_append]
      simp [Nat.add_assoc]
    · rw [List.map_append, List.flatten_append, i2, List.map_map]
      simp [Function.comp_def, hflat]
    · intro x hx
      rcases List.mem_append.mp hx with hx | hx
      · obtain ⟨f, hf, rfl⟩ := List.mem_map.mp hx
        have := hle f hf
        dsimp only
        omega
      · rw [← hm]; exact i3 x hx
    · intro hp x hx
      rcases List.mem_append.mp hx with hx | hx
      · obtain ⟨f, hf, rfl⟩ := List.mem_map.mp hx
        have hd := hp data List.mem_cons_self
        have : fs = [data] := by
          rcases hone with ⟨-, h⟩ | ⟨h, -⟩
          · exact h
          · omega
        rw [this] at hf
        cases List.mem_singleton.mp hf
        exact padLength_fits hmfl hd
      · rw [← hm]
        exact i4 (fun d hd => by rw [hm]; exact hp d (List.mem_cons_of_mem _ hd)) x hx

/-- The hypotheses are met: the server that let in a client unlike the library greets it. -/
example : ∃ (s s' : Conn) (ops : List Op) (info : SuiteInfo) (secret : Bytes) (items : List (Bytes × Nat)),
    s = runOps Toy.env ops Toy.server0 ∧ s.state = .connected ∧ sendData Toy.env [104, 105] s = (.ok (), s') ∧
    s'.outputData = s.outputData ++ dataRecords Toy.env info secret 0 items ∧
    (items.map (·.1)).flatten = [104, 105] ∧ ∀ x ∈ items, x.1.length + 1 + x.2 + 16 ≤ s.mfl := by
  obtain ⟨s, ops, k, info, theirs, mine, hrun, hst, hin, hhs, happ, hm, hi, k1, k2, k3, k4⟩ := Toy.let_in
  cases hi
  have hge : 512 ≤ s.mfl ∧ s.mfl ≤ 16384 := by
    simp only [List.mem_cons, List.not_mem_nil, or_false] at hm
    omega
  have htag : k.info.tagLength = 16 := by rw [k2]
  obtain ⟨s', hs'⟩ : ∃ s', sendData Toy.env [104, 105] s = (.ok (), s') := by
    refine ⟨_, sendContent_sealed (x := .applicationData [104, 105]) Toy.seals (by rw [k2]; rfl) rfl (fun _ => by rw [hst]; rfl)
      (by rw [hst]; rfl) rfl k1 (by rw [k4]; rfl) (by rw [k4, k2]; exact nextNonce_at rfl rfl (by decide))
      (by rw [htag]; simp; omega) (by rw [htag]; simp; omega) ?_⟩
    have h1 := innerText_padded (mfl := s.mfl) (tag := k.info.tagLength) (by omega) 23 [104, 105]
    unfold sealedInner
    refine Nat.lt_of_le_of_lt (Nat.le_of_eq h1) ?_
    refine Nat.lt_of_le_of_lt (padded_full hm (by rw [htag]; simp; omega)) ?_
    have : min s.mfl 4096 ≤ 4096 := Nat.min_le_right _ _
    omega
  obtain ⟨items, i1, i2, i3, i4⟩ := C115_partial (E := Toy.env) (payloads := [[104, 105]]) hm (info := k.info)
    (by rw [k2]; rfl) ⟨k1, rfl, by rw [k4, k2]⟩ (.send hs' (.done _))
  rw [htag] at i4
  refine ⟨s, s', ops, k.info, mine, items, hrun, hst, hs', by rw [i1], i2, i4 fun d hd => ?_⟩
  cases List.mem_singleton.mp hd
  show 2 + 1 + 16 < s.mfl
  omega

end Siotls
