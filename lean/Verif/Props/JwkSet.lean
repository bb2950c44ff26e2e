import Verif.Examples.ToyJwt
import Verif.Jwt.JwkImportLemmas
import Verif.Props.KeysetIO

/-!
# Properties C51, C52: JWK sets

`Denotes d alg a b kid` says that the JWK `d` describes a public key (RFC 7517, RFC 7518);
`PublicKey k.data alg a b kid` says that the key data of a keyset contain it.
-/

namespace Tink
namespace Props
open Json Jwt Spec Jwk

variable {F : Type}

/-- How a key of a keyset is exported: as an object that describes the same algorithm and numbers, with
the kid of the key. -/
def ExportedAs (k : Key) (v : JVal F) : Prop :=
  ∃ d alg a b kid, v = .dict d ∧ PublicKey k.data alg a b kid ∧ Denotes d alg a b (exportedKid k kid) ∧
    (k.outputPrefixType = OutputPrefixType.RAW ∨ k.outputPrefixType = OutputPrefixType.TINK)

/-- How a JWK is imported: as a key with the algorithm, the numbers and the kid that it describes. -/
def ImportedAs (v : JVal F) (k : Key) : Prop :=
  ∃ d alg a b kid, v = .dict d ∧ Denotes d alg a b kid ∧ PublicKey k.data alg a b kid ∧ ImportedKey k

/-- How a key comes out of export and import. -/
def SameKey (k k' : Key) : Prop :=
  ∃ alg a b kid, PublicKey k.data alg a b kid ∧ PublicKey k'.data alg a b (exportedKid k kid) ∧
    ImportedKey k'

/-- The ids of the keys are distinct, and the last key is the primary. -/
def LastIsPrimary (ks : Keyset) : Prop :=
  (ks.key.map Key.keyId).Nodup ∧ ∃ pre k, ks.key = pre ++ [k] ∧ ks.primaryKeyId = k.keyId

theorem from_ok {env : JsonEnv F} {h : KeysetHandle} {text : PyStr}
    (hf : fromPublicKeysetHandle env h = .ok text) :
    NoSecret h.keyset ∧ ∃ vs, exportKeys h.keyset.key = .ok vs ∧
      dumpsCompact env (.dict [(py! "keys", .list vs)]) = .ok text := by
  unfold fromPublicKeysetHandle at hf
  obtain ⟨b, h1, hf⟩ := bind_ok_iff.1 hf
  obtain ⟨hn, h2⟩ := C22_serialize_without_secret h1
  obtain ⟨ks, h3, hf⟩ := bind_ok_iff.1 hf
  rw [h2] at h3; cases h3
  obtain ⟨vs, h4, hf⟩ := bind_ok_iff.1 hf
  exact ⟨hn, vs, h4, hf⟩

theorem plain_of {keys : List Key} {vs : List (JVal F)} (h : exportKeys keys = .ok vs) :
    ∀ v ∈ vs, ∃ d, v = .dict d ∧ PlainJwk d := by
  intro v hv
  obtain ⟨k, _, hk⟩ := (exportKeys_ok h).right v hv
  obtain ⟨d, _, _, _, _, h1, _, _, h2, _⟩ := exportKey_ok hk
  exact ⟨d, h1, h2⟩

/-! ## C51 -/

/-- C51.  The exported text is a JWK set with one JWK for each enabled key, in order: the same algorithm
and numbers, and the kid of the key.  Nothing is exported from a keyset with secrets. -/
theorem C51_exported {env : JsonEnv F} (hl : LawfulFloats env.floats) {h : KeysetHandle} {text : PyStr}
    (hf : fromPublicKeysetHandle env h = .ok text) :
    NoSecret h.keyset ∧ ∃ jwks, IsJwkSet env text jwks ∧
      Corresponding ExportedAs (h.keyset.key.filter fun k => Enabled k) jwks := by
  obtain ⟨hn, vs, h1, h2⟩ := from_ok hf
  refine ⟨hn, vs, ⟨_, loads_set hl (plain_of h1) h2, rfl⟩, (exportKeys_ok h1).mono ?_⟩
  intro k v hk
  obtain ⟨d, alg, a, b, kid, h3, h4, h5, _, h6⟩ := exportKey_ok hk
  exact ⟨d, alg, a, b, kid, h3, h4, h5, h6⟩

/-- C51.  Every keyset without secrets, of less than 2 GiB, whose enabled keys are supported public keys
is exported (unless the interpreter's recursion limit is less than 4). -/
theorem C51_exports {env : JsonEnv F} (hd : 4 ≤ env.depth) {h : KeysetHandle} (hn : NoSecret h.keyset)
    {b : Bytes} (hb : h.keyset.serializeToString = .ok b)
    (hk : ∀ k ∈ h.keyset.key, Enabled k → k.data.keyMaterialType = KeyMaterialType.ASYMMETRIC_PUBLIC ∧
      (k.outputPrefixType = OutputPrefixType.RAW ∨ k.outputPrefixType = OutputPrefixType.TINK) ∧
      ∃ alg a b kid, PublicKey k.data alg a b kid) :
    ∃ text, fromPublicKeysetHandle env h = .ok text := by
  have h1 : ProtoKeysetFormat.serializeWithoutSecret h = .ok b := by
    unfold ProtoKeysetFormat.serializeWithoutSecret
    rcases C22_write_no_secret h binaryKeysetWriter [] with ⟨_, h1⟩ | ⟨h1, _⟩
    · rw [h1]
      simp only [binaryKeysetWriter, hb]
      rfl
    · exact absurd hn h1
  obtain ⟨vs, h2⟩ := exportKeys_of (F := F) (keys := h.keyset.key) (by
    intro k hk1 hk2
    obtain ⟨h3, h4, alg, a, b, kid, h5⟩ := hk k hk1 hk2
    exact exportKey_of h3 h4 h5)
  obtain ⟨text, h3⟩ := dumps_set hd (plain_of h2)
  refine ⟨text, ?_⟩
  unfold fromPublicKeysetHandle
  simp only [h1, (C22_serialize_without_secret h1).2, h2, h3, bind, Except.bind]

theorem parseImported_ok {ks : Keyset} {h : KeysetHandle} (hp : parseImported ks = .ok h) :
    h.keyset = ks ∧ Valid ks := by
  unfold parseImported at hp
  obtain ⟨b, h1, h2⟩ := bind_ok_iff.1 hp
  obtain ⟨_, hv, h3⟩ := C22_parse_without_secret h2
  rw [C29_keyset_round_trip h1] at h3
  cases h3
  exact ⟨rfl, hv⟩

/-- What the import returns. -/
theorem to_ok {env : JsonEnv F} {draws : List UInt32} {text : PyStr} {h : KeysetHandle}
    (ht : toPublicKeysetHandle env draws text = some (.ok h)) :
    ∃ jwks, IsJwkSet env text jwks ∧ Corresponding ImportedAs jwks h.keyset.key ∧
      LastIsPrimary h.keyset ∧ ∀ k ∈ h.keyset.key, k.keyId ∈ draws := by
  unfold toPublicKeysetHandle at ht
  cases h1 : (do let v ← loadsJwkSet env text; jwksOf v : Py (List (JVal F))) with
  | error e => rw [h1] at ht; cases ht
  | ok vs =>
    rw [h1] at ht
    simp only at ht
    cases h2 : importKeys vs draws {} with
    | none => rw [h2] at ht; cases ht
    | some r =>
      cases r with
      | error e => rw [h2] at ht; cases ht
      | ok ks =>
        rw [h2] at ht
        simp only [Option.some.injEq] at ht
        obtain ⟨h3, hv⟩ := parseImported_ok ht
        obtain ⟨new, e1, e2, e3, e4, e5⟩ := importKeys_ok h2 List.nodup_nil
        have e1 : ks.key = new := e1
        subst h3
        subst e1
        have hne : vs ≠ [] := by
          rintro rfl
          obtain ⟨k, hk, _⟩ := hv.nonempty
          obtain ⟨v, hv, _⟩ := e2.right k hk
          cases hv
        refine ⟨vs, jwks_list h1 (fun v hv => ?_) hne, e2.mono ?_, ⟨e3, ?_⟩, e4⟩
        · obtain ⟨k, _, k₀, h4, _⟩ := e2.left v hv
          exact ⟨k₀, h4⟩
        · rintro v k ⟨k₀, h4, h5⟩
          obtain ⟨d, alg, a, b, kid, h6, h7, h8, h9, _⟩ := importKey_ok h4
          rw [h5]
          exact ⟨d, alg, a, b, kid, h6, h7, h8, h9.material, h9.status, h9.pfx⟩
        · rcases List.eq_nil_or_concat h.keyset.key with h4 | ⟨pre, k, h4⟩
          · obtain ⟨k, hk, _⟩ := hv.nonempty
            rw [h4] at hk; cases hk
          · refine ⟨pre, k, by simpa using h4, ?_⟩
            rw [e5, h4]
            simp

/-- C51.  Importing the exported set gives the enabled keys in order: the same algorithms and numbers, the
kid as custom kid, for signatures without prefix; the ids are new and distinct, and the last key is the
primary. -/
theorem C51_round_trip {env : JsonEnv F} (hl : LawfulFloats env.floats) {h h' : KeysetHandle}
    {text : PyStr} {draws : List UInt32} (hf : fromPublicKeysetHandle env h = .ok text)
    (ht : toPublicKeysetHandle env draws text = some (.ok h')) :
    Corresponding SameKey (h.keyset.key.filter fun k => Enabled k) h'.keyset.key ∧
      LastIsPrimary h'.keyset := by
  obtain ⟨_, jwks, h1, h2⟩ := C51_exported hl hf
  obtain ⟨jwks', h3, h4, h5, _⟩ := to_ok ht
  have := IsJwkSet.unique h1 h3
  subst this
  refine ⟨(h2.trans h4).mono ?_, h5⟩
  rintro k k' ⟨v, ⟨d, alg, a, b, kid, rfl, h6, h7, _⟩, ⟨d', alg', a', b', kid', h8, h9, h10, h11⟩⟩
  cases h8
  obtain ⟨rfl, rfl, rfl, rfl⟩ := Denotes.unique h7 h9
  exact ⟨_, _, _, _, h6, h10, h11⟩

/-- The keyset handle of imported keys. -/
theorem parseImported_of {ks : Keyset} {m : Nat} (hne : ks.key ≠ [])
    (hk : ∀ k ∈ ks.key, ImportedKey k ∧ k.keyData.isSome = true ∧ (encodeFields k.fields).length ≤ m)
    (hn : (ks.key.map Key.keyId).Nodup) (hs : ks.key.length * (m + 20) + 20 < 2147483648) :
    parseImported ks = .ok ⟨ks⟩ := by
  have hm : m < 4294967296 := by
    have : 0 < ks.key.length := List.length_pos_iff.2 hne
    have := Nat.le_mul_of_pos_left (m + 20) this
    omega
  have hlen := length_keysetFields hm fun k hk1 => (hk k hk1).2.2
  have h1 : ks.serializeToString = .ok (encodeFields ks.fields) :=
    serializeFields_of_length (by omega)
  have hv : Valid ks := by
    refine ⟨?_, ?_, ?_, .inr fun k hk1 => (hk k hk1).1.material⟩
    · obtain ⟨k, hk1⟩ := List.exists_mem_of_ne_nil _ hne
      exact ⟨k, hk1, by rw [(hk k hk1).1.status]; decide⟩
    · intro k hk1 _
      obtain ⟨h2, h3, _⟩ := hk k hk1
      refine ⟨fun h => (by rw [h] at h3; cases h3), by rw [h2.pfx]; decide, by rw [h2.status]; decide⟩
    · rintro pre k₁ mid k₂ post he ⟨h2, h3⟩
      rw [he] at hn
      simp only [List.map_append, List.map_cons, List.nodup_append, List.nodup_cons, List.mem_append,
        List.mem_cons] at hn
      exact hn.2.1.1 (.inr (.inl (by rw [h2.2, h3.2])))
  have hns : NoSecret ks := by
    intro k hk1 h2
    have := (hk k hk1).1.material
    rcases h2 with h2 | h2 | h2 <;> (rw [this] at h2; revert h2; decide)
  unfold parseImported
  rw [h1]
  refine (C22_read_no_secret _ ⟨ks⟩).2 ⟨?_, hns, hv⟩
  simp only [binaryKeysetReader]
  have h2 := C29_keyset_round_trip h1
  rw [if_neg, h2]
  · rfl
  · intro h0
    rw [h0, show Keyset.fromString [] = .ok {} from rfl] at h2
    simp only [Except.ok.injEq] at h2
    exact valid_ne_default hv h2.symm

theorem size_bound {n m : Nat} (hn : 0 < n) (h : n * (m + 1000) < 2147483648) :
    n * (m + 600 + 20) + 20 < 2147483648 := by
  simp only [Nat.mul_add] at h ⊢
  omega

/-- C51.  The import of an array of JWKs that describe public keys succeeds, if they are not too big. -/
theorem C51_imports {env : JsonEnv F} {text : PyStr} {jwks : List (JVal F)} (hs : IsJwkSet env text jwks)
    (hne : jwks ≠ []) {m : Nat}
    (hj : ∀ v ∈ jwks, ∃ d, v = .dict d ∧ SizeAtMost m d ∧ ∃ alg a b kid, Denotes d alg a b kid)
    (hm : jwks.length * (m + 1000) < 2147483648) {draws ids : List UInt32} (hi : ids.Nodup)
    (hd : ∀ x ∈ ids, x ∈ draws) (hlen : jwks.length ≤ ids.length) :
    ∃ h, toPublicKeysetHandle env draws text = some (.ok h) := by
  have hm1 : m + 1000 < 2147483648 := by
    have : 0 < jwks.length := List.length_pos_iff.2 hne
    have := Nat.le_mul_of_pos_left (m + 1000) this
    omega
  have hk : ∀ v ∈ jwks, ∃ k, importKey v = .ok k ∧
      ∀ id, (encodeFields ({ k with keyId := id } : Key).fields).length ≤ m + 600 := by
    intro v hv
    obtain ⟨d, rfl, h1, alg, a, b, kid, h2⟩ := hj v hv
    exact importKey_small h2 h1 hm1
  rw [to_of hs]
  cases h1 : importKeys jwks draws {} with
  | none =>
    obtain ⟨l, h2, h3, _⟩ := importKeys_none h1
    have := nodup_length_le hi fun x hx => h3 x (hd x hx)
    simp at h2
    omega
  | some r =>
    cases r with
    | error e =>
      obtain ⟨v, hv, h2⟩ := importKeys_error h1
      obtain ⟨k, h3, _⟩ := hk v hv
      rw [h3] at h2; cases h2
    | ok ks =>
      obtain ⟨new, e1, e2, e3, e4, e5⟩ := importKeys_ok h1 List.nodup_nil
      have e1 : ks.key = new := e1
      subst e1
      refine ⟨⟨ks⟩, ?_⟩
      simp only [Option.some.injEq]
      have hl := e2.length
      refine parseImported_of (m := m + 600) ?_ ?_ e3 ?_
      · intro h2
        rw [h2] at hl
        exact hne (List.length_eq_zero_iff.1 hl)
      · intro k hk1
        obtain ⟨v, hv, k₀, h2, h3⟩ := e2.right k hk1
        obtain ⟨_, h4, h5⟩ := hk v hv
        rw [h2] at h4; cases h4
        obtain ⟨_, _, _, _, _, _, _, _, h6, h7⟩ := importKey_ok h2
        have h8 := h5 k.keyId
        rw [← h3] at h8
        refine ⟨?_, ?_, h8⟩
        · rw [h3]; exact ⟨h6.material, h6.status, h6.pfx⟩
        · rw [h3]; exact h7
      · rw [← hl]
        exact size_bound (List.length_pos_iff.2 hne) hm

/-- C51.  The import of an exported set succeeds when there is at least one enabled key, the keys are not
too big, and as many different key ids are drawn as there are keys. -/
theorem C51_import_succeeds {env : JsonEnv F} (hl : LawfulFloats env.floats) {h : KeysetHandle}
    {text : PyStr} (hf : fromPublicKeysetHandle env h = .ok text) {m : Nat}
    (hne : (h.keyset.key.filter fun k => Enabled k) ≠ [])
    (hk : ∀ k ∈ h.keyset.key, Enabled k → ∀ alg a b kid, PublicKey k.data alg a b kid →
      a.length + b.length + 4 * ((exportedKid k kid).getD []).length ≤ m)
    (hm : h.keyset.key.length * (m + 1000) < 2147483648) {draws ids : List UInt32} (hi : ids.Nodup)
    (hd : ∀ x ∈ ids, x ∈ draws) (hlen : h.keyset.key.length ≤ ids.length) :
    ∃ h', toPublicKeysetHandle env draws text = some (.ok h') := by
  obtain ⟨_, jwks, h1, h2⟩ := C51_exported hl hf
  have h3 : jwks.length ≤ h.keyset.key.length := by
    rw [← h2.length]
    exact List.length_filter_le _ _
  refine C51_imports h1 ?_ (m := m) ?_ ?_ hi hd (by omega)
  · rintro rfl
    have := h2.length
    exact hne (List.length_eq_zero_iff.1 this)
  · intro v hv
    obtain ⟨k, hk1, d, alg, a, b, kid, rfl, h4, h5, _⟩ := h2.right v hv
    rw [List.mem_filter, decide_eq_true_eq] at hk1
    refine ⟨d, rfl, ?_, alg, a, b, _, h5⟩
    intro alg' a' b' kid' h6
    obtain ⟨rfl, rfl, rfl, rfl⟩ := Denotes.unique h5 h6
    exact hk k hk1.1 hk1.2 _ _ _ _ h4
  · exact Nat.lt_of_le_of_lt (Nat.mul_le_mul_right (m + 1000) h3) hm

/-! ## C52 -/

/-- C52.  An imported handle contains exactly the keys that the JWKs of the set describe, in order, all of
them public, enabled and for signatures without prefix. -/
theorem C52_imported {env : JsonEnv F} {draws : List UInt32} {text : PyStr} {h : KeysetHandle}
    (ht : toPublicKeysetHandle env draws text = some (.ok h)) :
    (∀ k ∈ h.keyset.key, ImportedKey k) ∧ LastIsPrimary h.keyset ∧
      ∃ jwks, IsJwkSet env text jwks ∧ Corresponding ImportedAs jwks h.keyset.key := by
  obtain ⟨jwks, h1, h2, h3, _⟩ := to_ok ht
  refine ⟨fun k hk => ?_, h3, jwks, h1, h2⟩
  obtain ⟨v, _, d, alg, a, b, kid, _, _, _, h4⟩ := h2.right k hk
  exact h4

/-- C52.  A JWK set with a private key is never imported. -/
theorem C52_private_refused {env : JsonEnv F} {text : PyStr} {jwks : List (JVal F)}
    (hs : IsJwkSet env text jwks) {d : List (PyStr × JVal F)} (hd : .dict d ∈ jwks) (hp : PrivateJwk d)
    (draws : List UInt32) (h : KeysetHandle) : toPublicKeysetHandle env draws text ≠ some (.ok h) := by
  intro ht
  obtain ⟨_, _, jwks', h1, h2⟩ := C52_imported ht
  have := IsJwkSet.unique hs h1
  subst this
  obtain ⟨k, _, d', alg, a, b, kid, h3, h4, _⟩ := h2.left _ hd
  cases h3
  exact private_not_denotes hp h4

/-- C52.  The import of a JWK set with a private key raises a Tink error, if the members of the JWKs have
the right types and no key is of nearly 2 GiB. -/
theorem C52_private_tink_error {env : JsonEnv F} {text : PyStr} {jwks : List (JVal F)}
    (hs : IsJwkSet env text jwks)
    (hw : ∀ v ∈ jwks, ∃ d, v = .dict d ∧ WellTyped d ∧ SizeAtMost 2147482600 d)
    {d : List (PyStr × JVal F)} (hd : .dict d ∈ jwks) (hp : PrivateJwk d)
    {draws : List UInt32} {r : Py KeysetHandle} (ht : toPublicKeysetHandle env draws text = some r) :
    ∃ e, r = .error e ∧ e.isTink = true := by
  rw [to_of hs] at ht
  cases h1 : importKeys jwks draws {} with
  | none => rw [h1] at ht; cases ht
  | some r' =>
    rw [h1] at ht
    cases r' with
    | error e =>
      cases ht
      refine ⟨e, rfl, ?_⟩
      obtain ⟨v, hv, h2⟩ := importKeys_error h1
      obtain ⟨d', rfl, h3, h4⟩ := hw v hv
      rcases importKey_error h3 h2 with h5 | ⟨alg, a, b, kid, h5⟩
      · exact h5
      · obtain ⟨k, h6, _⟩ := importKey_small h5 h4 (by decide)
        rw [h6] at h2; cases h2
    | ok ks =>
      obtain ⟨new, _, e2, _⟩ := importKeys_ok h1 List.nodup_nil
      obtain ⟨k, _, k₀, h2, _⟩ := e2.left _ hd
      obtain ⟨d', alg, a, b, kid, h3, h4, _⟩ := importKey_ok h2
      cases h3
      exact (private_not_denotes hp h4).elim

/-- C52.  A set whose first key is private raises a Tink error if that key has the right types, whatever
else is in the set and whatever ids are drawn. -/
theorem C52_private_first {env : JsonEnv F} {text : PyStr} {d : List (PyStr × JVal F)}
    {jwks : List (JVal F)} (hs : IsJwkSet env text (.dict d :: jwks)) (hw : WellTyped d)
    (hp : PrivateJwk d) (draws : List UInt32) :
    ∃ e, toPublicKeysetHandle env draws text = some (.error e) ∧ e.isTink = true := by
  rw [to_of hs]
  unfold importKeys
  cases h1 : importKey (JVal.dict d) with
  | ok k =>
    obtain ⟨d', alg, a, b, kid, h3, h4, _⟩ := importKey_ok h1
    cases h3
    exact (private_not_denotes hp h4).elim
  | error e =>
    refine ⟨e, rfl, ?_⟩
    rcases importKey_error hw h1 with h5 | ⟨alg, a, b, kid, h5⟩
    · exact h5
    · exact (private_not_denotes hp h5).elim

/-- C51, C52.  The import ends once as many different ids have been drawn as there are keys. -/
theorem C52_ends {env : JsonEnv F} {text : PyStr} {jwks : List (JVal F)} (hs : IsJwkSet env text jwks)
    {draws ids : List UInt32} (hi : ids.Nodup) (hd : ∀ x ∈ ids, x ∈ draws)
    (hlen : jwks.length ≤ ids.length) : toPublicKeysetHandle env draws text ≠ none := by
  rw [to_of hs]
  cases h1 : importKeys jwks draws {} with
  | none =>
    obtain ⟨l, h2, h3, _⟩ := importKeys_none h1
    have := nodup_length_le hi fun x hx => h3 x (hd x hx)
    simp at h2
    omega
  | some r => cases r <;> simp

/-! ## Examples -/

section
open ToyJwt ToyJson

/-- An RSA key. -/
def rsaKey : Key :=
  key JWT_RSA_SSA_PSS_PUBLIC_KEY_TYPE
    (ToyJwt.value [] (JwtRsaSsaPssPublicKey.serializeToString
      { algorithm := JwtRsaSsaPssAlgorithm.PS512, n := [200, 1, 2], e := [1, 0, 1] }))
    KeyMaterialType.ASYMMETRIC_PUBLIC 9 OutputPrefixType.RAW

/-- A handle with an enabled ES256 key with prefix, a disabled key, an ES384 key with a custom kid and a
PS512 key. -/
def jwkHandle : KeysetHandle :=
  ⟨{ primaryKeyId := 5, key := [verifyKey1, { rsaKey with keyId := 7, status := KeyStatusType.DISABLED },
    verifyKey2, rsaKey] }⟩

/-- Its JWK set. -/
def jwkText : PyStr := ToyJwt.value [] (fromPublicKeysetHandle ToyJson.env jwkHandle)

theorem jwkText_eq : fromPublicKeysetHandle ToyJson.env jwkHandle = .ok jwkText :=
  value_ok (by decide +kernel)

example : jwkText = py! "{\"keys\":[{\"kty\":\"EC\",\"crv\":\"P-256\",\"x\":\"Bg\",\"y\":\"AQ\",\"use\":\"sig\",\"alg\":\"ES256\",\"key_ops\":[\"verify\"],\"kid\":\"AAAABQ\"},{\"kty\":\"EC\",\"crv\":\"P-384\",\"x\":\"BQU\",\"y\":\"AQ\",\"use\":\"sig\",\"alg\":\"ES384\",\"key_ops\":[\"verify\"],\"kid\":\"x\"},{\"kty\":\"RSA\",\"n\":\"yAEC\",\"e\":\"AQAB\",\"use\":\"sig\",\"alg\":\"PS512\",\"key_ops\":[\"verify\"]}]}" := by
  decide +kernel

/-- The handle that is imported from it. -/
def importedHandle : KeysetHandle :=
  match toPublicKeysetHandle ToyJson.env [3, 3, 4, 3, 8] jwkText with
  | some (.ok h) => h
  | _ => ⟨{}⟩

theorem importedHandle_eq :
    toPublicKeysetHandle ToyJson.env [3, 3, 4, 3, 8] jwkText = some (.ok importedHandle) := by
  decide +kernel

example : NoSecret jwkHandle.keyset ∧ ∃ jwks, IsJwkSet ToyJson.env jwkText jwks ∧
    Corresponding ExportedAs (jwkHandle.keyset.key.filter fun k => Enabled k) jwks :=
  C51_exported lawful jwkText_eq

theorem verifyKey1_public : PublicKey verifyKey1.data (py! "ES256") [6] [1] none :=
  .ecdsa (ecdsaPublic 1 [6] none) rfl (by decide +kernel) (by decide) ⟨rfl, rfl⟩ rfl
theorem verifyKey2_public : PublicKey verifyKey2.data (py! "ES384") [5, 5] [1] (some (py! "x")) :=
  .ecdsa (ecdsaPublic 2 [5, 5] (some ['x'])) rfl (by decide +kernel) (by decide) ⟨rfl, rfl⟩ rfl
theorem rsaKey_public : PublicKey rsaKey.data (py! "PS512") [200, 1, 2] [1, 0, 1] none :=
  .rsaSsaPss { algorithm := 3, n := [200, 1, 2], e := [1, 0, 1] } rfl (by decide +kernel) (by decide)
    ⟨rfl, rfl⟩ rfl

example : ∃ text, fromPublicKeysetHandle ToyJson.env jwkHandle = .ok text :=
  C51_exports (by decide) (by unfold NoSecret Secret; decide +kernel)
    (b := ToyJwt.value [] jwkHandle.keyset.serializeToString) (value_ok (by decide +kernel)) (by
      intro k hk he
      simp only [jwkHandle, List.mem_cons, List.not_mem_nil, or_false] at hk
      rcases hk with rfl | rfl | rfl | rfl
      · exact ⟨by decide, by decide, _, _, _, _, verifyKey1_public⟩
      · exact absurd he (by decide)
      · exact ⟨by decide, by decide, _, _, _, _, verifyKey2_public⟩
      · exact ⟨by decide, by decide, _, _, _, _, rsaKey_public⟩)

example : Corresponding SameKey [verifyKey1, verifyKey2, rsaKey] importedHandle.keyset.key ∧
    LastIsPrimary importedHandle.keyset :=
  C51_round_trip lawful jwkText_eq importedHandle_eq

/-- The kid of the first key, `AAAABQ`, is its custom kid now. -/
example : importedHandle.keyset.key.map Key.keyId = [3, 4, 8] ∧ importedHandle.keyset.primaryKeyId = 8 ∧
    importedHandle.keyset.key.map (fun k => JwtEcdsaPublicKey.fromString k.data.value) =
      [.ok (ecdsaPublic 1 [6] (some (py! "AAAABQ" |>.map Char.ofNat))),
       .ok (ecdsaPublic 2 [5, 5] (some ['x'])),
       .ok { algorithm := 3, x := [200, 1, 2], y := [1, 0, 1] }] := by
  decide +kernel

theorem IsJwkSet_jwkText : ∃ jwks, IsJwkSet ToyJson.env jwkText jwks ∧ jwks.length = 3 := by
  obtain ⟨_, jwks, h1, h2⟩ := C51_exported lawful jwkText_eq
  exact ⟨jwks, h1, h2.length.symm⟩

example : ∃ jwks, IsJwkSet ToyJson.env jwkText jwks ∧
    toPublicKeysetHandle ToyJson.env [3, 3, 4, 3, 8] jwkText ≠ none := by
  obtain ⟨jwks, h1, h2⟩ := IsJwkSet_jwkText
  exact ⟨jwks, h1, C52_ends h1 (ids := [3, 4, 8]) (by decide) (by decide) (by rw [h2]; decide)⟩

/-- A key is determined by the data, so the bound on its size can be checked. -/
theorem public_size {kd : KeyData} {alg alg' : PyStr} {a b a' b' : Bytes} {kid kid' : Option PyStr}
    (h : PublicKey kd alg a b kid) (h' : PublicKey kd alg' a' b' kid') : a = a' ∧ b = b' ∧ kid = kid' := by
  cases h with
  | ecdsa k u hk _ hn hkid =>
    cases h' with
    | ecdsa k' u' hk' _ hn' hkid' =>
      rw [hk] at hk'; cases hk'
      exact ⟨by rw [← hn.1, hn'.1], by rw [← hn.2, hn'.2], by rw [hkid, hkid']⟩
    | rsaSsaPkcs1 k' u' => rw [u] at u'; exact absurd u' (by decide)
    | rsaSsaPss k' u' => rw [u] at u'; exact absurd u' (by decide)
  | rsaSsaPkcs1 k u hk _ hn hkid =>
    cases h' with
    | ecdsa k' u' => rw [u] at u'; exact absurd u' (by decide)
    | rsaSsaPkcs1 k' u' hk' _ hn' hkid' =>
      rw [hk] at hk'; cases hk'
      exact ⟨by rw [← hn.1, hn'.1], by rw [← hn.2, hn'.2], by rw [hkid, hkid']⟩
    | rsaSsaPss k' u' => rw [u] at u'; exact absurd u' (by decide)
  | rsaSsaPss k u hk _ hn hkid =>
    cases h' with
    | ecdsa k' u' => rw [u] at u'; exact absurd u' (by decide)
    | rsaSsaPkcs1 k' u' => rw [u] at u'; exact absurd u' (by decide)
    | rsaSsaPss k' u' hk' _ hn' hkid' =>
      rw [hk] at hk'; cases hk'
      exact ⟨by rw [← hn.1, hn'.1], by rw [← hn.2, hn'.2], by rw [hkid, hkid']⟩

example : ∃ h', toPublicKeysetHandle ToyJson.env [3, 3, 4, 3, 8, 2] jwkText = some (.ok h') :=
  C51_import_succeeds lawful jwkText_eq (m := 100) (by decide +kernel) (by
    intro k hk he alg a b kid hp
    simp only [jwkHandle, List.mem_cons, List.not_mem_nil, or_false] at hk
    rcases hk with rfl | rfl | rfl | rfl
    · obtain ⟨rfl, rfl, rfl⟩ := public_size verifyKey1_public hp; decide +kernel
    · exact absurd he (by decide)
    · obtain ⟨rfl, rfl, rfl⟩ := public_size verifyKey2_public hp; decide +kernel
    · obtain ⟨rfl, rfl, rfl⟩ := public_size rsaKey_public hp; decide +kernel)
    (by decide) (ids := [3, 4, 8, 2]) (by decide) (by decide) (by decide)

example : (∀ k ∈ importedHandle.keyset.key, ImportedKey k) ∧ LastIsPrimary importedHandle.keyset ∧
    ∃ jwks, IsJwkSet ToyJson.env jwkText jwks ∧ Corresponding ImportedAs jwks importedHandle.keyset.key :=
  C52_imported importedHandle_eq

/-- A public JWK. -/
def ecPublicJwk : List (PyStr × JVal Int) :=
  [(py! "kty", .str (py! "EC")), (py! "crv", .str (py! "P-256")), (py! "x", .str (py! "Bg")),
    (py! "y", .str (py! "AQ")), (py! "alg", .str (py! "ES256"))]

/-- A private JWK: it has a CRT coefficient. -/
def rsaPrivateJwk : List (PyStr × JVal Int) :=
  [(py! "kty", .str (py! "RSA")), (py! "n", .str (py! "yAEC")), (py! "e", .str (py! "AQAB")),
    (py! "alg", .str (py! "RS256")), (py! "qi", .str (py! "AQ"))]

/-- The text of a JWK set. -/
def setText (jwks : List (JVal Int)) : PyStr :=
  ToyJwt.value [] (dumpsCompact ToyJson.env (.dict [(py! "keys", .list jwks)]))

/-- All members are strings. -/
theorem plain_strings {d : List (PyStr × JVal Int)} (hn : (d.map Prod.fst).Nodup)
    (h : ∀ p ∈ d, ∃ s, p.2 = .str s ∧ (p.1 ++ s).all isScalar = true) : PlainJwk d := by
  refine ⟨hn, fun p hp => ?_⟩
  obtain ⟨s, h1, h2⟩ := h p hp
  rw [List.all_append, Bool.and_eq_true] at h2
  exact ⟨List.all_eq_true.1 h2.1, .inl ⟨s, h1, List.all_eq_true.1 h2.2⟩⟩

theorem isJwkSet_setText {jwks : List (JVal Int)} (h : ∀ v ∈ jwks, ∃ d, v = .dict d ∧ PlainJwk d) :
    IsJwkSet ToyJson.env (setText jwks) jwks := by
  obtain ⟨t, ht⟩ := dumps_set (env := ToyJson.env) (by decide) h
  have : setText jwks = t := by unfold setText; rw [ht]; rfl
  rw [this]
  exact ⟨_, loads_set lawful h ht, rfl⟩

theorem ecPublicJwk_plain : PlainJwk ecPublicJwk := by
  refine plain_strings (by decide) fun p hp => ?_
  simp only [ecPublicJwk, List.mem_cons, List.not_mem_nil, or_false] at hp
  rcases hp with rfl | rfl | rfl | rfl | rfl <;> exact ⟨_, rfl, by decide⟩

theorem rsaPrivateJwk_plain : PlainJwk rsaPrivateJwk := by
  refine plain_strings (by decide) fun p hp => ?_
  simp only [rsaPrivateJwk, List.mem_cons, List.not_mem_nil, or_false] at hp
  rcases hp with rfl | rfl | rfl | rfl | rfl <;> exact ⟨_, rfl, by decide⟩

theorem privateSet : IsJwkSet ToyJson.env (setText [.dict ecPublicJwk, .dict rsaPrivateJwk])
    [.dict ecPublicJwk, .dict rsaPrivateJwk] := by
  refine isJwkSet_setText fun v hv => ?_
  simp only [List.mem_cons, List.not_mem_nil, or_false] at hv
  rcases hv with rfl | rfl
  · exact ⟨_, rfl, ecPublicJwk_plain⟩
  · exact ⟨_, rfl, rsaPrivateJwk_plain⟩

theorem rsaPrivateJwk_private : PrivateJwk rsaPrivateJwk :=
  .inr ⟨rfl, py! "qi", by decide, by simp [rsaPrivateJwk, PyDict.get?]⟩

theorem plain_wellTyped {d : List (PyStr × JVal Int)} (hp : PlainJwk d)
    (hk : ∀ m ∈ [py! "alg", py! "kid", py! "x", py! "y", py! "n", py! "e"],
      PyDict.get? d m ≠ some (.list [.str (py! "verify")]))
    (hec : PyDict.get? d (py! "kty") = some (.str (py! "EC")) →
      PyDict.get? d (py! "x") ≠ none ∧ PyDict.get? d (py! "y") ≠ none)
    (hrsa : PyDict.get? d (py! "kty") = some (.str (py! "RSA")) →
      PyDict.get? d (py! "n") ≠ none ∧ PyDict.get? d (py! "e") ≠ none)
    (hops : PyDict.get? d (py! "key_ops") = none) : WellTyped d := by
  refine ⟨?_, hec, hrsa, by intro v hv; rw [hops] at hv; cases hv⟩
  intro m hm v hv
  rcases (hp.members _ (PyDict.get?_mem _ _ _ hv)).2 with h | h
  · exact h
  · simp only at h
    rw [h] at hv
    exact absurd hv (hk m hm)

theorem rsaPrivateJwk_wellTyped : WellTyped rsaPrivateJwk := by
  refine plain_wellTyped rsaPrivateJwk_plain ?_ ?_ ?_ rfl
  · intro m hm
    simp only [List.mem_cons, List.not_mem_nil, or_false] at hm
    rcases hm with rfl | rfl | rfl | rfl | rfl | rfl <;> simp [rsaPrivateJwk, PyDict.get?]
  · simp [rsaPrivateJwk, PyDict.get?]
  · simp [rsaPrivateJwk, PyDict.get?]

theorem ecPublicJwk_wellTyped : WellTyped ecPublicJwk := by
  refine plain_wellTyped ecPublicJwk_plain ?_ ?_ ?_ rfl
  · intro m hm
    simp only [List.mem_cons, List.not_mem_nil, or_false] at hm
    rcases hm with rfl | rfl | rfl | rfl | rfl | rfl <;> simp [ecPublicJwk, PyDict.get?]
  · simp [ecPublicJwk, PyDict.get?]
  · simp [ecPublicJwk, PyDict.get?]

theorem ecPublicJwk_denotes : Denotes ecPublicJwk (py! "ES256") [6] [1] none :=
  .ec (py! "P-256") rfl ⟨rfl, by decide⟩ rfl (number_encoded rfl) (number_encoded rfl) ⟨rfl, by simp⟩
    ⟨by simp [ecPublicJwk, PyDict.get?], by simp [ecPublicJwk, PyDict.get?]⟩ rfl

theorem ecPublicJwk_size : SizeAtMost 2 ecPublicJwk := by
  intro alg a b kid h
  obtain ⟨rfl, rfl, rfl, rfl⟩ := Denotes.unique ecPublicJwk_denotes h
  decide

example (draws : List UInt32) (h : KeysetHandle) :
    toPublicKeysetHandle ToyJson.env draws (setText [.dict ecPublicJwk, .dict rsaPrivateJwk]) ≠
      some (.ok h) :=
  C52_private_refused privateSet (d := rsaPrivateJwk) (by simp) rsaPrivateJwk_private draws h

example (draws : List UInt32) (r : Py KeysetHandle)
    (ht : toPublicKeysetHandle ToyJson.env draws (setText [.dict ecPublicJwk, .dict rsaPrivateJwk]) =
      some r) : ∃ e, r = .error e ∧ e.isTink = true := by
  refine C52_private_tink_error privateSet (fun v hv => ?_) (d := rsaPrivateJwk) (by simp)
    rsaPrivateJwk_private ht
  simp only [List.mem_cons, List.not_mem_nil, or_false] at hv
  rcases hv with rfl | rfl
  · refine ⟨_, rfl, ecPublicJwk_wellTyped, fun alg a b kid h => ?_⟩
    have := ecPublicJwk_size alg a b kid h
    omega
  · exact ⟨_, rfl, rsaPrivateJwk_wellTyped, fun alg a b kid h =>
      (private_not_denotes rsaPrivateJwk_private h).elim⟩

example : toPublicKeysetHandle ToyJson.env [3] (setText [.dict ecPublicJwk, .dict rsaPrivateJwk]) =
    some (.error .tinkError) := by decide +kernel

example (draws : List UInt32) :
    ∃ e, toPublicKeysetHandle ToyJson.env draws (setText [.dict rsaPrivateJwk]) = some (.error e) ∧
      e.isTink = true :=
  C52_private_first (isJwkSet_setText fun v hv => by
    simp only [List.mem_cons, List.not_mem_nil, or_false] at hv
    exact ⟨_, hv, rsaPrivateJwk_plain⟩) rsaPrivateJwk_wellTyped rsaPrivateJwk_private draws

example : ∃ h, toPublicKeysetHandle ToyJson.env [3, 3, 4]
    (setText [.dict ecPublicJwk, .dict ecPublicJwk]) = some (.ok h) := by
  have hj : ∀ v ∈ [JVal.dict ecPublicJwk, .dict ecPublicJwk], v = .dict ecPublicJwk := by simp
  exact C51_imports (isJwkSet_setText fun v hv => ⟨_, hj v hv, ecPublicJwk_plain⟩) (by simp)
    (m := 2) (fun v hv => ⟨_, hj v hv, ecPublicJwk_size, _, _, _, _, ecPublicJwk_denotes⟩) (by decide)
    (ids := [3, 4]) (by decide) (by decide) (by decide)

/-- Without the conditions on types, other exceptions escape: the private key in
`{"keys":[{"alg":"ES256","kty":"EC","crv":"P-256","key_ops":5,"d":"AQ"}]}` raises `TypeError`. -/
theorem C52_type_error_escapes :
    toPublicKeysetHandle ToyJson.env [3] (setText [.dict [(py! "alg", .str (py! "ES256")),
      (py! "kty", .str (py! "EC")), (py! "crv", .str (py! "P-256")), (py! "key_ops", .int 5),
      (py! "d", .str (py! "AQ"))]]) = some (.error .typeError) := by decide +kernel

/-- A keyset without enabled keys is exported as a JWK set that is not imported. -/
theorem C51_no_enabled_key :
    fromPublicKeysetHandle ToyJson.env
      ⟨{ key := [{ rsaKey with status := KeyStatusType.DISABLED }] }⟩ = .ok (py! "{\"keys\":[]}") ∧
    ∀ draws, toPublicKeysetHandle ToyJson.env draws (py! "{\"keys\":[]}") = some (.error .tinkError) := by
  refine ⟨by decide +kernel, fun draws => ?_⟩
  have h : IsJwkSet ToyJson.env (setText []) [] := isJwkSet_setText (by simp)
  have e : setText [] = py! "{\"keys\":[]}" := by decide +kernel
  rw [← e, to_of h]
  rfl

end

end Props
end Tink
