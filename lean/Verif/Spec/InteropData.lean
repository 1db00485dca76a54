import Verif.Spec.Interop
/-!
# The application data of a peer of any make
-/

namespace Siotls.Spec

/-- RFC 8446 §5.2, §5.4: application data in records under a traffic secret from the `n`-th on. Each
item is the data of a record and the length of its padding. -/
def dataRecords (E : Env) (info : SuiteInfo) (secret : Bytes) : Nat → List (Bytes × Nat) → Bytes
  | _, [] => []
  | n, (data, pad) :: xs => sealedUnder E info secret n 23 data pad ++ dataRecords E info secret (n + 1) xs

/-- RFC 8446 §7.3: the keys of a traffic secret, after `n` records -/
def trafficKeys (E : Env) (info : SuiteInfo) (secret : Bytes) (n : Nat) : Dir :=
  ⟨some ((E.spec info.digest).writeKey secret info.keyLength),
    some ((E.spec info.digest).writeIv secret 12), some n⟩

/-- Of the records `items`, the connection `c` got `i`, and `rest` of the next. It handed over the data
of the former, kept the latter, stepped its counter, and is as it was in all else. -/
structure Hears (E : Env) (info : SuiteInfo) (secret : Bytes) (n : Nat) (items : List (Bytes × Nat))
    (c : Conn) (k : CipherSt) (got : Bytes) (c' : Conn) (i : List (Bytes × Nat)) (rest : Bytes) : Prop where
  taken : ∃ j, items = i ++ j ∧ got = dataRecords E info secret n i ++ rest ∧
    ∀ data pad j', j = (data, pad) :: j' →
      rest.length < (sealedUnder E info secret (n + i.length) 23 data pad).length
  same : c' = { c with
    inputData := rest
    cipher := some { k with rd := trafficKeys E info secret (n + i.length) }
    applicationData := c.applicationData ++ (i.map (·.1)).flatten
    tr := c'.tr }

end Siotls.Spec
