import Verif.Testing.HelperLemmas
import Verif.Props.Aead
import Verif.Examples.Toy
import Verif.Spec.Valid
import Verif.Py.DictLemmas

/-!
# C105: the fake primitives for tests

`n` is the name of a fake, encoded in UTF-8.
-/

namespace Tink.Props
open Spec Testing

/-! ## MAC and signatures -/

/-- C105.  A fake MAC accepts exactly the tags that it computes. -/
theorem C105_mac {name : PyStr} {n : Bytes} (hn : utf8Encode name = .ok n) (tag data : Bytes) :
    (fakeMac name).computeMac data = .ok (data ++ by! "|" ++ n) ∧
    ((fakeMac name).verifyMac tag data = .ok () ↔ (fakeMac name).computeMac data = .ok tag) ∧
    ((∃ s, utf8Decode tag = .ok s) → ∀ e, (fakeMac name).verifyMac tag data = .error e → e = .tinkError) ∧
    ((∀ s, utf8Decode tag ≠ .ok s) → ∀ e, (fakeMac name).verifyMac tag data = .error e → e = .unicodeError) := by
  have hc : (fakeMac name).computeMac data = .ok (data ++ by! "|" ++ n) := by
    show fakeTag name data = _
    unfold fakeTag
    rw [hn]; rfl
  have hv : (fakeMac name).verifyMac tag data =
      if tag ≠ data ++ [bar] ++ n then (utf8Decode tag).bind fun _ => .error .tinkError else .ok () := by
    show fakeVerify name tag data = _
    unfold fakeVerify
    rw [hn]; rfl
  refine ⟨hc, ?_, ?_, ?_⟩
  · rw [hc, hv]
    constructor
    · intro h
      split at h
      · cases hd : utf8Decode tag <;> rw [hd] at h <;> cases h
      · rename_i hh
        rw [Decidable.not_not] at hh
        rw [hh]; rfl
    · intro h
      injection h with h
      rw [if_neg]
      rw [Decidable.not_not, ← h]; rfl
  · rintro ⟨s, hs⟩ e h
    rw [hv, hs] at h
    split at h
    · cases h; rfl
    · cases h
  · intro hs e h
    rw [hv] at h
    have hd : utf8Decode tag = .error .unicodeError := by
      unfold utf8Decode at hs ⊢
      cases hx : utf8Decode? tag with
      | none => rfl
      | some s => rw [hx] at hs; exact absurd rfl (hs s)
    rw [hd] at h
    split at h
    · cases h; rfl
    · cases h

/-- C105.  Fake MACs with different names, and tags of different data, are told apart, if there is no `|` in
the names. -/
theorem C105_mac_names {name name' : PyStr} {n n' : Bytes} (hn : utf8Encode name = .ok n)
    (hn' : utf8Encode name' = .ok n') (hb : 124 ∉ n) (hb' : 124 ∉ n') {data data' tag : Bytes}
    (hc : (fakeMac name).computeMac data = .ok tag) :
    (fakeMac name').verifyMac tag data' = .ok () ↔ name' = name ∧ data' = data := by
  rw [(C105_mac hn' tag data').2.1, (C105_mac hn' tag data').1]
  rw [(C105_mac hn tag data).1] at hc
  cases hc
  constructor
  · intro h
    injection h with h
    obtain ⟨h1, h2⟩ := bar_unique hb' hb h
    subst h2
    exact ⟨encode_inj hn' hn, h1⟩
  · rintro ⟨rfl, rfl⟩
    rw [hn] at hn'
    cases hn'
    rfl

/-- C105.  Fake signatures are the tags of fake MACs with the same name. -/
theorem C105_signature (name : PyStr) (seed : Seed) (sig data : Bytes) :
    (fakePublicKeySign name).sign seed data = (fakeMac name).computeMac data ∧
    (fakePublicKeyVerify name).verify sig data = (fakeMac name).verifyMac sig data := ⟨rfl, rfl⟩

/-- C105, violation.  With their default names, the fake `PublicKeyVerify` rejects every signature of the fake
`PublicKeySign`. -/
theorem C105_default_names_differ {seed : Seed} {data sig : Bytes}
    (h : (fakePublicKeySign fakePublicKeySignName).sign seed data = .ok sig) (data' : Bytes) :
    (fakePublicKeyVerify fakePublicKeyVerifyName).verify sig data' ≠ .ok () := by
  have e1 : utf8Encode fakePublicKeySignName = .ok (by! "FakePublicKeySign") := by decide +kernel
  have e2 : utf8Encode fakePublicKeyVerifyName = .ok (by! "FakePublicKeyVerify") := by decide +kernel
  intro hv
  exact absurd ((C105_mac_names e1 e2 (by decide) (by decide) h).1 hv).1 (by decide)

/-! ## Encryption -/

/-- C105.  A fake AEAD decrypts a ciphertext to a text if and only if it begins with the text, the associated
data and the name, separated by `|`, ends there or goes on with `|`, and none of the three has a `|` in it. -/
theorem C105_decrypt {name : PyStr} {n : Bytes} (hn : utf8Encode name = .ok n) (ct ad pt : Bytes) :
    (fakeAead name).decrypt ct ad = .ok pt ↔ 124 ∉ pt ∧ 124 ∉ ad ∧ 124 ∉ n ∧
      ∃ rest, ct = pt ++ by! "|" ++ ad ++ by! "|" ++ n ++ rest ∧ (rest = [] ∨ rest.head? = some 124) := by
  refine (fakeDecrypt_iff hn).trans ?_
  have : ∀ rest : Bytes, (∃ r, rest = bar :: r) ↔ rest.head? = some 124 := by
    intro rest
    cases rest with
    | nil => simp
    | cons x xs => simp [bar]
  simp only [this]
  exact Iff.rfl

/-- C105.  Decryption undoes encryption if and only if there is no `|` in the text, the associated data and
the name. -/
theorem C105_round_trip {name : PyStr} {n : Bytes} (hn : utf8Encode name = .ok n) (seed : Seed) (pt ad : Bytes) :
    ∃ ct, (fakeAead name).encrypt seed pt ad = .ok ct ∧
      ((fakeAead name).decrypt ct ad = .ok pt ↔ 124 ∉ pt ∧ 124 ∉ ad ∧ 124 ∉ n) := by
  have he : (fakeAead name).encrypt seed pt ad = .ok (pt ++ by! "|" ++ ad ++ by! "|" ++ n) := by
    show fakeEncrypt name pt ad = _
    unfold fakeEncrypt
    rw [hn]; rfl
  refine ⟨_, he, ?_⟩
  rw [C105_decrypt hn]
  constructor
  · rintro ⟨h1, h2, h3, -⟩; exact ⟨h1, h2, h3⟩
  · rintro ⟨h1, h2, h3⟩; exact ⟨h1, h2, h3, [], by simp, .inl rfl⟩

/-- C105, violation.  The decryption of what was encrypted may be another text. -/
theorem C105_wrong_text {name : PyStr} {n : Bytes} (hn : utf8Encode name = .ok n) (hb : 124 ∉ n) {a ad : Bytes}
    (ha : 124 ∉ a) (had : 124 ∉ ad) (more : Bytes) (seed : Seed) :
    ∃ pt ct, pt = a ++ by! "|" ++ ad ++ by! "|" ++ n ++ by! "|" ++ more ∧ pt ≠ a ∧
      (fakeAead name).encrypt seed pt ad = .ok ct ∧ (fakeAead name).decrypt ct ad = .ok a := by
  refine ⟨_, (a ++ by! "|" ++ ad ++ by! "|" ++ n ++ by! "|" ++ more) ++ by! "|" ++ ad ++ by! "|" ++ n, rfl, ?_, ?_, ?_⟩
  · intro h
    have := congrArg List.length h
    simp at this
  · show fakeEncrypt name _ ad = _
    unfold fakeEncrypt
    rw [hn]; rfl
  · rw [C105_decrypt hn]
    exact ⟨ha, had, hb, by! "|" ++ more ++ by! "|" ++ ad ++ by! "|" ++ n, by simp, .inr (by simp)⟩

/-- C105.  If a ciphertext is refused, the exception is `TinkError` if the ciphertext is valid UTF-8, and
`UnicodeDecodeError` otherwise. -/
theorem C105_decrypt_error {name : PyStr} {n : Bytes} (hn : utf8Encode name = .ok n) {ct ad : Bytes} {e : Exc}
    (h : (fakeAead name).decrypt ct ad = .error e) :
    ((∃ s, utf8Decode ct = .ok s) → e = .tinkError) ∧
    ((∀ s, utf8Decode ct ≠ .ok s) → e = .unicodeError) := by
  have := fakeDecrypt_error hn h
  unfold utf8Decode
  cases hx : utf8Decode? ct with
  | none => rw [hx] at this; simpa using this
  | some s => rw [hx] at this; simpa using this

/-- C105.  The other two kinds of fake encryption do the same as the fake AEAD with that name. -/
theorem C105_encryption (name : PyStr) (seed : Seed) (pt ct ad : Bytes) :
    (fakeDeterministicAead name).encryptDeterministically pt ad = (fakeAead name).encrypt seed pt ad ∧
    (fakeDeterministicAead name).decryptDeterministically ct ad = (fakeAead name).decrypt ct ad ∧
    (fakeHybridEncrypt name).encrypt seed pt ad = (fakeAead name).encrypt seed pt ad ∧
    (fakeHybridDecrypt name).decrypt ct ad = (fakeAead name).decrypt ct ad := ⟨rfl, rfl, rfl, rfl⟩

/-- C105, violation.  In a keyset with two RAW keys that have fake AEADs, a ciphertext of the second key that
is not valid UTF-8 is not decrypted: the first key raises `UnicodeDecodeError`, which ends the search. -/
theorem C105_search_ended {P C : Type} [DecidableEq C] {isInst : P → C → Bool} {V : View P Aead} {t : Nat} {c : C}
    {r : Registry P C} {h : KeysetHandle} {p o1 o2 : P} {k1 k2 : Key}
    (H : Obtained isInst (aeadWrapper V t c) r h c [(k1, o1), (k2, o2)] p)
    (hk1 : k1.outputPrefixType = OutputPrefixType.RAW) (hk2 : k2.outputPrefixType = OutputPrefixType.RAW)
    {name1 name2 : PyStr} (h1 : V.view o1 = fakeAead name1) (h2 : V.view o2 = fakeAead name2)
    {n1 n2 : Bytes} (hn1 : utf8Encode name1 = .ok n1) (hn2 : utf8Encode name2 = .ok n2) (hne : n1 ≠ n2)
    (hb2 : 124 ∉ n2) {pt ad ct : Bytes} (hpt : 124 ∉ pt) (had : 124 ∉ ad)
    (hct : ct = pt ++ by! "|" ++ ad ++ by! "|" ++ n2) (hu : ∀ s, utf8Decode ct ≠ .ok s) :
    (V.view o2).decrypt ct ad = .ok pt ∧ (V.view p).decrypt ct ad = .error .unicodeError := by
  constructor
  · rw [h2, C105_decrypt hn2]
    exact ⟨hpt, had, hb2, [], by simp [hct], .inl rfl⟩
  · have hd : (fakeAead name1).decrypt ct ad = .error .unicodeError := by
      cases hx : (fakeAead name1).decrypt ct ad with
      | error e => rw [(C105_decrypt_error hn1 hx).2 hu]
      | ok pt' =>
        exfalso
        have g1 := split_of_three hpt had hb2 (.inl (rfl : ([] : Bytes) = []))
        obtain ⟨a1, a2, a3, rest, e, hr⟩ := (fakeDecrypt_iff hn1).1 hx
        obtain ⟨ws, g1⟩ := g1
        obtain ⟨ws', g2⟩ := split_of_three a1 a2 a3 hr
        rw [← e, hct] at g2
        rw [List.append_nil] at g1
        have e2 : pt ++ by! "|" ++ ad ++ by! "|" ++ n2 = pt ++ [bar] ++ ad ++ [bar] ++ n2 := rfl
        rw [e2, g1] at g2
        injection g2 with _ g2
        injection g2 with _ g2
        injection g2 with g2 _
        exact hne g2.symm
    have hp1 : payload k1 ct = some ct := by
      have : outputPrefix k1 = .ok [] := by
        unfold outputPrefix
        rw [hk1]
        rfl
      unfold payload
      rw [this]
    rw [C03_aead_decrypt_eq H]
    have ho : tryOrder [(k1, o1), (k2, o2)] = [(k1, o1), (k2, o2)] := by simp [tryOrder, hk1, hk2]
    unfold outcomes
    rw [ho, List.filterMap_cons]
    dsimp only
    rw [hp1]
    simp only [Option.map_some, h1, hd]
    rfl

/-! ## PRF -/

/-- C105.  A fake PRF gives as many bytes as asked for, up to 32, and the shorter outputs are prefixes of the
longer ones; more is a `TinkError`. -/
theorem C105_prf {name : PyStr} {n : Bytes} (hn : utf8Encode name = .ok n) (input : Bytes) :
    (∀ len, len ≤ 32 → ∃ out, (fakePrf name).compute input len = .ok out ∧ out.length = len ∧
      ∀ short, short ≤ len → (fakePrf name).compute input short = .ok (out.take short)) ∧
    ∀ len, 32 < len → (fakePrf name).compute input len = .error .tinkError := by
  have hc : ∀ len : Nat, len ≤ 32 → (fakePrf name).compute input len =
      .ok ((input ++ [bar] ++ n ++ [bar] ++ List.replicate len 42).take len) := by
    intro len hlen
    show fakeCompute name input (len : Int) = _
    unfold fakeCompute
    rw [if_neg (by omega), hn]
    dsimp only [bind, Except.bind]
    unfold sliceTo
    rw [if_neg (by omega), Int.toNat_natCast]
    rfl
  refine ⟨fun len hlen => ⟨_, hc len hlen, ?_, fun short hs => ?_⟩, fun len hlen => ?_⟩
  · rw [List.length_take, List.length_append, List.length_replicate]
    omega
  · rw [hc short (by omega)]
    congr 1
    rw [List.take_take, Nat.min_eq_left hs]
    generalize input ++ [bar] ++ n ++ [bar] = x
    rw [List.take_append, List.take_append, List.take_replicate, List.take_replicate]
    congr 2
    omega
  · show fakeCompute name input (len : Int) = _
    unfold fakeCompute
    rw [if_pos (by omega)]

/-- C105, violation.  A negative length is not refused: that many bytes are cut off. -/
theorem C105_prf_negative {name : PyStr} {n : Bytes} (hn : utf8Encode name = .ok n) (input : Bytes) (k : Nat) :
    fakeCompute name input (-(k + 1 : Nat)) =
      .ok ((input ++ by! "|" ++ n ++ by! "|").take (input.length + n.length + 2 - (k + 1))) := by
  unfold fakeCompute
  rw [if_neg (by omega), hn]
  dsimp only [bind, Except.bind]
  unfold sliceTo
  rw [if_pos (by omega)]
  have e : (-((k + 1 : Nat) : Int)).toNat = 0 := by omega
  rw [e, List.replicate_zero, List.append_nil]
  show Except.ok _ = _
  have : ((input ++ [bar] ++ n ++ [bar]).length : Int) + -((k + 1 : Nat) : Int) =
      ((input.length + n.length + 2 : Nat) : Int) - ((k + 1 : Nat) : Int) := by
    simp
    omega
  rw [this]
  congr 1
  have : (((input.length + n.length + 2 : Nat) : Int) - ((k + 1 : Nat) : Int)).toNat =
    input.length + n.length + 2 - (k + 1) := by omega
  rw [this]
  rfl

/-- C105.  The primary PRF of a fake PRF set is the one that has the primary id. -/
theorem C105_prf_set (name : PyStr) : ∃ id prfs f, (fakePrfSet name).primaryId = .ok id ∧
    (fakePrfSet name).all = .ok prfs ∧ PyDict.get? prfs id = some f ∧ (fakePrfSet name).primary = .ok f ∧
    f = fakePrf name ∧ prfs.length = 1 := ⟨0, [(0, fakePrf name)], _, rfl, rfl, rfl, rfl, rfl, rfl⟩

/-! ## Keys and test data -/

/-- C105.  A keyset with a fake key as its primary key is valid if and only if the key is enabled or has
public key material, and status and prefix type are known. -/
theorem C105_fake_key (value : Bytes) (typeUrl : PStr) (m : EnumVal) (id : UInt32) (status pre : EnumVal) :
    Valid ⟨id, [fakeKey value typeUrl m id status pre]⟩ ↔
      pre ≠ OutputPrefixType.UNKNOWN_PREFIX ∧ (status = KeyStatusType.ENABLED ∨
        m = KeyMaterialType.ASYMMETRIC_PUBLIC ∧ status ≠ KeyStatusType.UNKNOWN_STATUS ∧
          status ≠ KeyStatusType.DESTROYED) := by
  constructor
  · rintro ⟨h1, h2, -, h4⟩
    simp only [List.mem_singleton, exists_eq_left, forall_eq] at h1 h2 h4
    obtain ⟨-, h5, h6⟩ := h2 h1
    refine ⟨h5, ?_⟩
    rcases h4 with h4 | h4
    · exact .inl h4.1
    · exact .inr ⟨h4, h6, h1⟩
  · rintro ⟨h1, h2⟩
    have hs : status ≠ KeyStatusType.DESTROYED ∧ status ≠ KeyStatusType.UNKNOWN_STATUS := by
      rcases h2 with rfl | ⟨-, h, h'⟩
      · decide
      · exact ⟨h', h⟩
    refine ⟨⟨_, List.mem_singleton.2 rfl, hs.1⟩, ?_, ?_, ?_⟩
    · intro k hk _
      rw [List.mem_singleton] at hk
      subst hk
      exact ⟨by simp [fakeKey], h1, hs.2⟩
    · intro pre k1 mid k2 post h
      have := congrArg List.length h
      simp at this
      omega
    · rcases h2 with rfl | ⟨h, -, -⟩
      · exact .inl ⟨_, List.mem_singleton.2 rfl, rfl, rfl⟩
      · refine .inr fun k hk => ?_
        rw [List.mem_singleton] at hk
        subst hk
        exact h

/-- C105.  The directory of the test data is `testdata` in `TINK_PYTHON_ROOT_PATH`, if that variable is set,
and otherwise `tink_py/testdata` in `TEST_SRCDIR`; the second variable is not looked at if the first leads
nowhere. -/
theorem C105_testdata (environ : PyDict PyStr PyStr) (pathExists : PyStr → Bool) :
    (∀ v, PyDict.get? environ (py! "TINK_PYTHON_ROOT_PATH") = some v →
      tinkPyTestdataPath environ pathExists =
        if pathExists (pathJoin v (py! "testdata")) then .ok (pathJoin v (py! "testdata")) else .error .osError) ∧
    (PyDict.get? environ (py! "TINK_PYTHON_ROOT_PATH") = none → ∀ v,
      PyDict.get? environ (py! "TEST_SRCDIR") = some v → tinkPyTestdataPath environ pathExists =
        if pathExists (pathJoin v (py! "tink_py/testdata")) then .ok (pathJoin v (py! "tink_py/testdata"))
        else .error .osError) ∧
    (PyDict.get? environ (py! "TINK_PYTHON_ROOT_PATH") = none →
      PyDict.get? environ (py! "TEST_SRCDIR") = none →
      tinkPyTestdataPath environ pathExists = .error .valueError) := by
  unfold tinkPyTestdataPath
  refine ⟨fun v h => ?_, fun h v h' => ?_, fun h h' => ?_⟩
  · rw [h]; rfl
  · rw [h, h']; rfl
  · rw [h, h']; rfl

namespace TestHelpersExample

example : utf8Encode fakeAeadName = .ok (by! "FakeAead") := by decide +kernel

example : (fakeAead fakeAeadName).encrypt 0 (by! "text") (by! "ad") = .ok (by! "text|ad|FakeAead") := by
  decide +kernel

example : (fakeAead fakeAeadName).decrypt (by! "text|ad|FakeAead") (by! "ad") = .ok (by! "text") := by
  decide +kernel

/-- A text that is not UTF-8 is encrypted by one fake; the other raises `UnicodeDecodeError`. -/
example : (fakeAead (py! "b")).encrypt 0 [255] (by! "ad") = .ok ([255] ++ by! "|ad|b") ∧
    (fakeAead (py! "a")).decrypt ([255] ++ by! "|ad|b") (by! "ad") = .error .unicodeError := by decide +kernel

/-- A key manager for fake AEADs: the key is the name. -/
def manager : KeyManager Toy.Prim Toy.Cls :=
  { Toy.manager .aead with primitive := fun kd => .ok (.aead (fakeAead (kd.value.map UInt8.toNat))) }

def registry : Registry Toy.Prim Toy.Cls :=
  { Toy.registry with keyManagers := [(Toy.url .aead, (manager, true))] }

def keys : List Key :=
  [Toy.key .aead (by! "a") 8 OutputPrefixType.RAW, Toy.key .aead (by! "b") 7 OutputPrefixType.RAW]

/-- The hypotheses of `C105_search_ended` hold together. -/
example : ∃ p, KeysetHandle.primitive Toy.isInst registry ⟨⟨7, keys⟩⟩ .aead = .ok p ∧
    (fakeAead (py! "b")).decrypt ([255] ++ by! "|ad|b") (by! "ad") = .ok [255] ∧
    (Toy.aeadView.view p).decrypt ([255] ++ by! "|ad|b") (by! "ad") = .error .unicodeError := by
  have H : Obtained Toy.isInst (aeadWrapper Toy.aeadView 10 .aead) registry ⟨⟨7, keys⟩⟩ .aead
      [(Toy.key .aead (by! "a") 8 OutputPrefixType.RAW, .aead (fakeAead (py! "a"))),
       (Toy.key .aead (by! "b") 7 OutputPrefixType.RAW, .aead (fakeAead (py! "b")))] _ :=
    ⟨rfl, rfl, rfl, by
      intro q hq
      simp only [List.mem_cons, List.not_mem_nil, or_false] at hq
      rcases hq with rfl | rfl <;> rfl⟩
  obtain ⟨h1, h2⟩ := C105_search_ended H rfl rfl (name1 := py! "a") (name2 := py! "b") rfl rfl (by decide +kernel)
    (by decide +kernel) (n1 := by! "a") (n2 := by! "b") (by decide) (by decide) (pt := [255]) (ad := by! "ad")
    (by decide) (by decide) rfl (fun s h => by
      have : utf8Decode ([255] ++ by! "|ad|b") = .error .unicodeError := by decide +kernel
      rw [show [255] ++ by! "|" ++ by! "ad" ++ by! "|" ++ by! "b" = [255] ++ by! "|ad|b" from rfl, this] at h
      cases h)
  exact ⟨_, H.primitive, h1, h2⟩

example : (fakePrf (py! "p")).compute (by! "in") 7 = .ok (by! "in|p|**") := by decide +kernel
example : fakeCompute (py! "p") (by! "in") (-2) = .ok (by! "in|") := by decide +kernel

example : Valid ⟨1234, [fakeKey]⟩ := (C105_fake_key ..).2 ⟨by decide, .inl rfl⟩

example : tinkPyTestdataPath [(py! "TEST_SRCDIR", py! "/src")] (fun _ => true) =
    .ok (py! "/src/tink_py/testdata") := by decide +kernel

end TestHelpersExample
end Tink.Props
