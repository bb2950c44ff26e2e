import Verif.Cc.HybridNewLemmas
import Verif.Examples.ToyHybSsl

/-!
# C100 and C101: hybrid encryption keys and ciphertexts

`ccHybridDecrypt lib` and `ccHybridEncrypt lib` are the key managers that the C++ registry has for a key type,
after registration; the Python key managers call them (C65).  `lib` is BoringSSL.  The specification is in
`Spec/HybridKeys.lean`.
-/

namespace Tink.Props
open Spec Cpp Cc

section
variable {lib : HybSsl} {seed : Seed}

/-! ## C100: which keys are accepted and made -/

/-- C100.  The key types of private keys. -/
theorem C100_decrypt_types {url : PStr} :
    (∃ cc, ccHybridDecrypt lib url = some cc) ↔ ∃ pubUrl, HybridType url pubUrl := by
  constructor
  · rintro ⟨cc, h⟩
    unfold ccHybridDecrypt at h
    split at h
    · rename_i hu; subst hu; exact ⟨_, .ecies⟩
    split at h
    · rename_i hu; subst hu; exact ⟨_, .hpke⟩
    · cases h
  · rintro ⟨pubUrl, h⟩
    unfold ccHybridDecrypt
    split
    · exact ⟨_, rfl⟩
    split
    · exact ⟨_, rfl⟩
    · rename_i h1 h2
      exfalso
      cases h with
      | ecies => exact h1 rfl
      | hpke => exact h2 rfl

/-- C100.  The key types of public keys. -/
theorem C100_encrypt_types {pubUrl : PStr} :
    (∃ cc, ccHybridEncrypt lib pubUrl = some cc) ↔ ∃ url, HybridType url pubUrl := by
  constructor
  · rintro ⟨cc, h⟩
    unfold ccHybridEncrypt at h
    split at h
    · rename_i hu; subst hu; exact ⟨_, .ecies⟩
    split at h
    · rename_i hu; subst hu; exact ⟨_, .hpke⟩
    · cases h
  · rintro ⟨url, h⟩
    exact ccHybridEncrypt_type h

/-- C100.  There is a primitive for the data of a private key if and only if they hold an acceptable key. -/
theorem C100_decrypt_keys (hl : LawfulHyb lib) {kd : KeyData} {cc : Cpp.KeyManager Cpp.HybridDecrypt}
    (hcc : ccHybridDecrypt lib kd.typeUrl = some cc) :
    (∃ a, cc.getPrimitive kd = .ok a) ↔ ∃ s, HybPriv.StoredIn kd.typeUrl kd.value s ∧ s.Ok := by
  obtain ⟨_, -, M⟩ := decrypt_manages hl 0 hcc
  constructor
  · rintro ⟨a, ha⟩
    obtain ⟨s, h1, h2, -⟩ := M.sound kd a ha
    exact ⟨s, h1, h2⟩
  · rintro ⟨s, h1, h2⟩
    exact M.complete kd s rfl h1 h2

/-- C100.  The same for public keys. -/
theorem C100_encrypt_keys (hl : LawfulHyb lib) {kd : KeyData} {cc : Cpp.KeyManager Cpp.HybridEncrypt}
    (hcc : ccHybridEncrypt lib kd.typeUrl = some cc) :
    (∃ a, cc.getPrimitive kd = .ok a) ↔ ∃ v, HybPub.StoredIn kd.typeUrl kd.value v ∧ v.Ok lib := by
  have M := encrypt_manages hl hcc
  constructor
  · rintro ⟨a, ha⟩
    obtain ⟨s, h1, h2, -⟩ := M.sound kd a ha
    exact ⟨s, h1, h2⟩
  · rintro ⟨s, h1, h2⟩
    exact M.complete kd s rfl h1 h2

/-- C100.  A private key is made for a key format if and only if its parameters are complete and none is
UNKNOWN, and the curve, or the KEM of HPKE, is one there are keys for. -/
theorem C100_formats (hl : LawfulHyb lib) {url : PStr} {cc : Cpp.KeyManager Cpp.HybridDecrypt}
    (hcc : ccHybridDecrypt lib url = some cc) (b : Bytes) :
    (∃ kd, cc.newKeyData seed b = .ok kd) ↔
      ∃ s, HybPriv.AskedFor lib seed url b s ∧ s.publicPart.Checked := by
  obtain ⟨_, -, M⟩ := decrypt_manages hl seed hcc
  exact M.formats b

/-- C100.  The new key data hold the key asked for and can be serialized, if it is not too long.  There is a
primitive for them if and only if the key is acceptable; then its public part is acceptable and that of its
private part.  Both are the case if the algorithms work together. -/
theorem C100_new (hl : LawfulHyb lib) {url : PStr} {cc : Cpp.KeyManager Cpp.HybridDecrypt}
    (hcc : ccHybridDecrypt lib url = some cc) {b : Bytes} {kd : KeyData} (h : cc.newKeyData seed b = .ok kd) :
    ∃ s, HybPriv.AskedFor lib seed url b s ∧ s.publicPart.Checked ∧ kd.typeUrl = url ∧
      kd.keyMaterialType = KeyMaterialType.ASYMMETRIC_PRIVATE ∧
      (s.publicPart.Usable → s.Ok) ∧ (s.Ok → s.Matches lib ∧ s.publicPart.Ok lib) ∧
      (s.size < 2 ^ 31 - 1000 → Fits kd ∧ HybPriv.StoredIn url kd.value s ∧
        ((∃ a, cc.getPrimitive kd = .ok a) ↔ s.Ok)) := by
  obtain ⟨_, -, M⟩ := decrypt_manages hl seed hcc
  obtain ⟨s, h1, h2, h3, h4, h5⟩ := M.made b kd h
  refine ⟨s, h1, h2, h3, h4, fun hu => hyb_asked_usable hl h1 hu h2,
    fun hok => ⟨hyb_asked_matches hl h1 hok, (hyb_asked_ok_iff hl h1).1 hok⟩, fun hs => ?_⟩
  obtain ⟨h6, h7⟩ := h5 hs
  refine ⟨h6, h7, ?_⟩
  constructor
  · rintro ⟨a, ha⟩
    obtain ⟨s', g1, g2, -⟩ := M.sound kd a ha
    cases M.unique _ _ _ h7 g1
    exact g2
  · exact M.complete kd s h3 h7

/-- C100.  Key managers for public keys make no keys. -/
theorem C100_encrypt_new (hl : LawfulHyb lib) {url : PStr} {cc : Cpp.KeyManager Cpp.HybridEncrypt}
    (hcc : ccHybridEncrypt lib url = some cc) (b : Bytes) (kd : KeyData) : cc.newKeyData seed b ≠ .ok kd := by
  rw [(encrypt_manages hl hcc).noKeys]
  exact unimplemented_ne

/-- C100.  The data of the public key are handed out if and only if the parameters are complete and none is
UNKNOWN. -/
theorem C100_public (hl : LawfulHyb lib) {url : PStr} {cc : Cpp.KeyManager Cpp.HybridDecrypt}
    (hcc : ccHybridDecrypt lib url = some cc) : ∃ f, cc.publicKeyData = some f ∧ ∀ b,
      (∃ kd, f b = .ok kd) ↔ ∃ s, HybPriv.StoredIn url b s ∧ s.publicPart.Checked := by
  obtain ⟨_, -, M⟩ := decrypt_manages hl 0 hcc
  obtain ⟨f, hf, h⟩ := M.publicKey
  exact ⟨f, hf, fun b => (h b).1⟩

/-- C100.  They are of the type for public keys and hold the public part of the key, and nothing else. -/
theorem C100_public_part (hl : LawfulHyb lib) {url : PStr} {cc : Cpp.KeyManager Cpp.HybridDecrypt}
    (hcc : ccHybridDecrypt lib url = some cc) {f : Bytes → StatusOr KeyData} (hf : cc.publicKeyData = some f)
    {b : Bytes} {pub : KeyData} (h : f b = .ok pub) {s : HybPriv} (hs : HybPriv.StoredIn url b s)
    (hsize : s.size < 2 ^ 31 - 1000) :
    HybridType url pub.typeUrl ∧ pub.keyMaterialType = KeyMaterialType.ASYMMETRIC_PUBLIC ∧ Fits pub ∧
      HybPub.StoredIn pub.typeUrl pub.value s.publicPart := by
  obtain ⟨pubUrl, ht, M⟩ := decrypt_manages hl 0 hcc
  obtain ⟨f', hf', g⟩ := M.publicKey
  cases hf.symm.trans hf'
  obtain ⟨g1, g2, s', g3, g4⟩ := (g b).2 pub h
  cases M.unique _ _ _ hs g3
  obtain ⟨g5, g6⟩ := g4 hsize
  cases g1
  exact ⟨ht, g2, g5, g6⟩

/-- C100.  If the data hold an acceptable private key, then those of its public key are handed out, and there is
a primitive for them if and only if the public key is acceptable. -/
theorem C100_public_usable (hl : LawfulHyb lib) {kd : KeyData} {cc : Cpp.KeyManager Cpp.HybridDecrypt}
    (hcc : ccHybridDecrypt lib kd.typeUrl = some cc) {s : HybPriv}
    (hs : HybPriv.StoredIn kd.typeUrl kd.value s) (hok : s.Ok) (hsize : s.size < 2 ^ 31 - 1000) :
    ∃ f pub cce, cc.publicKeyData = some f ∧ f kd.value = .ok pub ∧ ccHybridEncrypt lib pub.typeUrl = some cce ∧
      ((∃ e, cce.getPrimitive pub = .ok e) ↔ s.publicPart.Ok lib) := by
  obtain ⟨f, hf, hb⟩ := C100_public hl hcc
  obtain ⟨pub, hp⟩ := (hb kd.value).2 ⟨s, hs, hybChecked_of_ok hok⟩
  obtain ⟨p1, -, -, p4⟩ := C100_public_part hl hcc hf hp hs hsize
  obtain ⟨cce, he⟩ := ccHybridEncrypt_type (lib := lib) p1
  refine ⟨f, pub, cce, hf, hp, he, ?_⟩
  rw [C100_encrypt_keys hl he]
  constructor
  · rintro ⟨v, h1, h2⟩
    cases (encrypt_manages hl he).unique _ _ _ p4 h1
    exact h2
  · intro h
    exact ⟨_, p4, h⟩

/-- An ECIES key format with HKDF-SHA256. -/
def eciesFormat (curve format : EnumVal) (name : PStr) (value : Py Bytes) : Bytes :=
  (EciesAeadHkdfKeyFormat.serializeToString
    { params := some
        { kemParams := some { curveType := curve, hkdfHashType := HashType.SHA256 }
          demParams := some
            { aeadDem := some (KeyTemplate.mk (ps! "type.googleapis.com/google.crypto.tink." ++ name)
                (value.toOption.getD []) 0) }
          ecPointFormat := format } }).toOption.getD []

/-- An HPKE key format with HKDF-SHA256. -/
def hpkeFormat (kem aead : EnumVal) : Bytes :=
  (HpkeKeyFormat.serializeToString
    { params := some { kem, kdf := HpkeKdf.HKDF_SHA256, aead } }).toOption.getD []

/-- With AES-EAX for the data. -/
def eaxFormat : Bytes := eciesFormat EllipticCurveType.NIST_P256 EcPointFormat.UNCOMPRESSED (ps! "AesEaxKey")
  (AesEaxKeyFormat.serializeToString { params := some { ivSize := 16 }, keySize := 16 })

/-- With AES-GCM with a key of 24 bytes for the data. -/
def gcm24Format : Bytes := eciesFormat EllipticCurveType.NIST_P256 EcPointFormat.UNCOMPRESSED (ps! "AesGcmKey")
  (AesGcmKeyFormat.serializeToString { keySize := 24 })

/-- With X25519, and points that are not compressed. -/
def x25519Format : Bytes := eciesFormat EllipticCurveType.CURVE25519 EcPointFormat.UNCOMPRESSED (ps! "AesGcmKey")
  (AesGcmKeyFormat.serializeToString { keySize := 16 })

/-- HPKE with P-256. -/
def p256Format : Bytes := hpkeFormat HpkeKem.DHKEM_P256_HKDF_SHA256 HpkeAead.AES_128_GCM

/-- HPKE with an AEAD that there is not. -/
def hpkeAeadFormat : Bytes := hpkeFormat HpkeKem.DHKEM_X25519_HKDF_SHA256 77

theorem asked_ecies {b : Bytes} {q : EciesAeadHkdfParams} {p : EciesParams}
    (hf : EciesAeadHkdfKeyFormat.fromString b = .ok { params := some q }) (hm : EciesParams.InMessage q p) :
    (∀ s, HybPriv.AskedFor lib seed (ps! "type.googleapis.com/google.crypto.tink.EciesAeadHkdfPrivateKey") b s →
      ∃ x y d, s = .ecies p x y d ∧ HybPriv.NewKey lib seed p.curve x y d) ∧
    ((∃ g, Curve p.curve g) ∨ p.curve = EllipticCurveType.CURVE25519 →
      ∃ x y d, HybPriv.AskedFor lib seed (ps! "type.googleapis.com/google.crypto.tink.EciesAeadHkdfPrivateKey") b
        (.ecies p x y d)) := by
  constructor
  · intro s h
    obtain ⟨f, h1, h2⟩ := (ecies_asked seed b s).1 h
    cases h1.symm.trans hf
    cases h2 with
    | mk h2 h3 h4 =>
      cases h2
      cases inMessage_unique hm h3
      exact ⟨_, _, _, rfl, h4⟩
  · rintro (⟨g, hg⟩ | hc)
    · exact ⟨_, _, _, .ecies hf rfl hm (.nist hg rfl)⟩
    · exact ⟨_, _, _, .ecies hf rfl hm (by rw [hc]; exact .x25519)⟩

theorem newKey_size (hl : LawfulHyb lib) {p : EciesParams} {x y d : Bytes}
    (h : HybPriv.NewKey lib seed p.curve x y d) (hp : p.size < 2 ^ 31 - 2000) :
    (HybPriv.ecies p x y d).size < 2 ^ 31 - 1000 := by
  show p.size + x.length + y.length + d.length < 2 ^ 31 - 1000
  suffices x.length + y.length + d.length ≤ 198 by omega
  generalize p.curve = c at h
  cases h with
  | @nist _ g _ _ hg hxy =>
    simp only [digitsBE_length]
    cases g <;> decide
  | x25519 => rw [hl.x25519Public _ (hl.x25519Generate _), hl.x25519Generate]; decide

theorem pointBytes_le {g : EcGroup} {f : EnumVal} {q : Nat × Nat} {b : Bytes} (h : PointBytes g f q b) :
    b.length ≤ 133 := by
  cases h <;> simp only [List.length_cons, List.length_append, digitsBE_length] <;> cases g <;> decide

theorem newHpkeKey_size (hl : LawfulHyb lib) {kem kdf aead : EnumVal} {pub priv : Bytes}
    (h : HybPriv.NewHpkeKey lib seed kem pub priv) :
    (HybPriv.hpke kem kdf aead pub priv).size < 2 ^ 31 - 1000 := by
  show pub.length + priv.length < 2 ^ 31 - 1000
  suffices pub.length + priv.length ≤ 199 by omega
  cases h with
  | nist hg hb =>
    rename_i g
    have := pointBytes_le hb
    rw [digitsBE_length]
    cases g <;> simp only [EcGroup.fieldSize] <;> omega
  | x25519 => rw [hl.x25519Public _ (hl.x25519Generate _), hl.x25519Generate]; decide

/-- C100, violation.  The key template for the data encryption in an ECIES key format is not checked, and HPKE
keys are made for KEMs that are not supported: keys are made for which there is no primitive. -/
theorem C100_unusable (hl : LawfulHyb lib) {url : PStr} {b : Bytes}
    (h : (url, b) ∈ [(ps! "type.googleapis.com/google.crypto.tink.EciesAeadHkdfPrivateKey", eaxFormat),
      (ps! "type.googleapis.com/google.crypto.tink.HpkePrivateKey", p256Format)]) :
    ∃ cc kd, ccHybridDecrypt lib url = some cc ∧ cc.newKeyData seed b = .ok kd ∧
      ∀ a, cc.getPrimitive kd ≠ .ok a := by
  simp only [List.mem_cons, List.not_mem_nil, or_false, Prod.mk.injEq] at h
  rcases h with ⟨rfl, rfl⟩ | ⟨rfl, rfl⟩
  · obtain ⟨cc, hcc⟩ := (C100_decrypt_types (lib := lib)).2 ⟨_, .ecies⟩
    let t : KeyTemplate := { typeUrl := ps! "type.googleapis.com/google.crypto.tink.AesEaxKey"
                             value := [0x0a, 2, 8, 16, 16, 16] }
    let q : EciesAeadHkdfParams :=
      { kemParams := some { curveType := EllipticCurveType.NIST_P256, hkdfHashType := HashType.SHA256 }
        demParams := some { aeadDem := some t }
        ecPointFormat := EcPointFormat.UNCOMPRESSED }
    have hf : EciesAeadHkdfKeyFormat.fromString eaxFormat = .ok { params := some q } := by decide +kernel
    obtain ⟨g1, g2⟩ := asked_ecies (lib := lib) (seed := seed) hf (.mk rfl rfl rfl)
    obtain ⟨x, y, d, hs⟩ := g2 (.inl ⟨_, .p256⟩)
    obtain ⟨kd, hkd⟩ := (C100_formats (seed := seed) hl hcc eaxFormat).2
      ⟨_, hs, by decide, by decide, by decide⟩
    refine ⟨cc, kd, hcc, hkd, fun a ha => ?_⟩
    obtain ⟨s, h1, -, -, -, -, -, h2⟩ := C100_new hl hcc hkd
    obtain ⟨x, y, d, rfl, hn⟩ := g1 s h1
    obtain ⟨-, -, h3⟩ := h2 (newKey_size hl hn (by decide))
    obtain ⟨-, -, -, -, dem, hd⟩ := h3.1 ⟨a, ha⟩
    generalize hu : EciesParams.demType _ = u at hd
    cases hd with
    | aesGcm => exact absurd hu (by decide)
    | aesCtrHmac => exact absurd hu (by decide)
    | xChaCha20Poly1305 => exact absurd hu (by decide)
    | aesSiv => exact absurd hu (by decide)
  · obtain ⟨cc, hcc⟩ := (C100_decrypt_types (lib := lib)).2 ⟨_, .hpke⟩
    let q : HpkeParams :=
      { kem := HpkeKem.DHKEM_P256_HKDF_SHA256, kdf := HpkeKdf.HKDF_SHA256, aead := HpkeAead.AES_128_GCM }
    have hf : HpkeKeyFormat.fromString p256Format = .ok { params := some q } := by decide +kernel
    obtain ⟨pub, hpub⟩ := pointBytes_total (g := .p256) (.inl rfl) (lib.ecPublic .p256 (lib.ecGenerate seed .p256))
    obtain ⟨kd, hkd⟩ := (C100_formats (seed := seed) hl hcc p256Format).2
      ⟨_, .hpke hf rfl (.nist .p256 hpub), by decide, by decide, by decide⟩
    refine ⟨cc, kd, hcc, hkd, fun a ha => ?_⟩
    obtain ⟨s, h1, -, -, -, -, -, h2⟩ := C100_new hl hcc hkd
    obtain ⟨f, e1, e2⟩ := (hpke_asked seed p256Format s).1 h1
    cases e1.symm.trans hf
    cases e2 with
    | mk e3 e4 =>
      cases e3
      exact absurd ((h2 (newHpkeKey_size hl e4)).2.2.1 ⟨a, ha⟩).1 (by decide)

/-! ## C101: what is encrypted and what is decrypted -/

/-- C101.  Key data hold at most one private key, and at most one public key. -/
theorem C101_unique (hl : LawfulHyb lib) {url : PStr} {b : Bytes} :
    (∀ s s', HybPriv.StoredIn url b s → HybPriv.StoredIn url b s' → s = s') ∧
    ∀ v v', HybPub.StoredIn url b v → HybPub.StoredIn url b v' → v = v' := by
  constructor
  · intro s s' h h'
    have ht : ∃ pubUrl, HybridType url pubUrl := by
      cases h with
      | ecies => exact ⟨_, .ecies⟩
      | hpke => exact ⟨_, .hpke⟩
    obtain ⟨cc, hcc⟩ := (C100_decrypt_types (lib := lib)).2 ht
    obtain ⟨_, -, M⟩ := decrypt_manages hl 0 hcc
    exact M.unique _ _ _ h h'
  · intro s s' h h'
    have ht : ∃ u, HybridType u url := by
      cases h with
      | ecies => exact ⟨_, .ecies⟩
      | hpke => exact ⟨_, .hpke⟩
    obtain ⟨cc, hcc⟩ := (C100_encrypt_types (lib := lib)).2 ht
    exact (encrypt_manages hl hcc).unique _ _ _ h h'

/-- C101.  The primitive for a public key makes exactly the ciphertexts of the stored key. -/
theorem C101_encrypt (hl : LawfulHyb lib) {kd : KeyData} {cc : Cpp.KeyManager Cpp.HybridEncrypt}
    {a : Cpp.HybridEncrypt} (hcc : ccHybridEncrypt lib kd.typeUrl = some cc) (ha : cc.getPrimitive kd = .ok a) :
    ∃ v, HybPub.StoredIn kd.typeUrl kd.value v ∧ v.Ok lib ∧
      ∀ seed pt info ct, a.encrypt seed pt info = .ok ct ↔ v.Encrypts lib seed info pt ct :=
  (encrypt_manages hl hcc).sound kd a ha

/-- C101.  The primitive for a private key decrypts exactly the ciphertexts for the stored key. -/
theorem C101_decrypt (hl : LawfulHyb lib) {kd : KeyData} {cc : Cpp.KeyManager Cpp.HybridDecrypt}
    {a : Cpp.HybridDecrypt} (hcc : ccHybridDecrypt lib kd.typeUrl = some cc) (ha : cc.getPrimitive kd = .ok a) :
    ∃ s, HybPriv.StoredIn kd.typeUrl kd.value s ∧ s.Ok ∧
      ∀ ct info pt, a.decrypt ct info = .ok pt ↔ s.Decrypts lib info ct pt := by
  obtain ⟨_, -, M⟩ := decrypt_manages hl 0 hcc
  exact M.sound kd a ha

/-- C101.  If the public part is that of the private part, then the primitive for the private key decrypts
everything that the primitive for the public key encrypts, with the same context info. -/
theorem C101_round_trip (hl : LawfulHyb lib) {kd pub : KeyData} {cc : Cpp.KeyManager Cpp.HybridDecrypt}
    {cce : Cpp.KeyManager Cpp.HybridEncrypt} {f : Bytes → StatusOr KeyData} {a : Cpp.HybridDecrypt}
    {e : Cpp.HybridEncrypt} {s : HybPriv}
    (hcc : ccHybridDecrypt lib kd.typeUrl = some cc) (ha : cc.getPrimitive kd = .ok a)
    (hf : cc.publicKeyData = some f) (hpub : f kd.value = .ok pub)
    (hcce : ccHybridEncrypt lib pub.typeUrl = some cce) (he : cce.getPrimitive pub = .ok e)
    (hs : HybPriv.StoredIn kd.typeUrl kd.value s) (hsize : s.size < 2 ^ 31 - 1000) (hm : s.Matches lib)
    {pt info ct : Bytes} (h : e.encrypt seed pt info = .ok ct) : a.decrypt ct info = .ok pt := by
  obtain ⟨s', g1, -, g3⟩ := C101_decrypt hl hcc ha
  cases (C101_unique hl).1 _ _ hs g1
  obtain ⟨p1, -, -, p4⟩ := C100_public_part hl hcc hf hpub hs hsize
  obtain ⟨v', q1, -, q3⟩ := C101_encrypt hl hcce he
  cases (C101_unique hl).2 _ _ p4 q1
  exact (g3 _ _ _).2 (hyb_round_trip hl hm ((q3 _ _ _ _).1 h))

/-- C101.  A new key with algorithms that work together: there are primitives for it and for its public key,
and everything below 2 GiB is encrypted and decrypted again. -/
theorem C101_new (hl : LawfulHyb lib) {url : PStr} {cc : Cpp.KeyManager Cpp.HybridDecrypt}
    (hcc : ccHybridDecrypt lib url = some cc) {b : Bytes} {kd : KeyData} (h : cc.newKeyData seed b = .ok kd)
    {s : HybPriv} (ha : HybPriv.AskedFor lib seed url b s) (hsize : s.size < 2 ^ 31 - 1000)
    (hu : s.publicPart.Usable) :
    ∃ a f pub cce e, cc.getPrimitive kd = .ok a ∧ cc.publicKeyData = some f ∧ f kd.value = .ok pub ∧
      ccHybridEncrypt lib pub.typeUrl = some cce ∧ cce.getPrimitive pub = .ok e ∧
      ∀ seed pt info, pt.length < 2 ^ 31 →
        ∃ ct, e.encrypt seed pt info = .ok ct ∧ a.decrypt ct info = .ok pt := by
  obtain ⟨s', a1, -, rfl, -, a5, -, a7⟩ := C100_new hl hcc h
  cases hyb_asked_unique ha a1
  have hok := a5 hu
  obtain ⟨-, hs, -⟩ := a7 hsize
  have hm := hyb_asked_matches hl ha hok
  obtain ⟨a, hprim⟩ := (C100_decrypt_keys hl hcc).2 ⟨s, hs, hok⟩
  obtain ⟨f, pub, cce, g1, g2, g3, g4⟩ := C100_public_usable hl hcc hs hok hsize
  obtain ⟨e, he⟩ := g4.2 ((hyb_asked_ok_iff hl ha).1 hok)
  refine ⟨a, f, pub, cce, e, hprim, g1, g2, g3, he, fun seed' pt info hpt => ?_⟩
  obtain ⟨ct, hct⟩ := encrypts_total hl hm hu seed' info pt hpt
  obtain ⟨p1, -, -, p4⟩ := C100_public_part hl hcc g1 g2 hs hsize
  obtain ⟨v', q1, -, q3⟩ := C101_encrypt hl g3 he
  cases (C101_unique hl).2 _ _ p4 q1
  have hok := (q3 _ _ _ _).2 hct
  exact ⟨ct, hok, C101_round_trip hl hcc hprim g1 g2 g3 he hs hsize hm hok⟩

/-- C101.  A public key that belongs to a private key, new or not, encrypts everything below 2 GiB if the
algorithms work together. -/
theorem C101_total (hl : LawfulHyb lib) {kd : KeyData} {cc : Cpp.KeyManager Cpp.HybridEncrypt}
    {a : Cpp.HybridEncrypt} (hcc : ccHybridEncrypt lib kd.typeUrl = some cc) (ha : cc.getPrimitive kd = .ok a)
    {s : HybPriv} (hs : HybPub.StoredIn kd.typeUrl kd.value s.publicPart) (hm : s.Matches lib)
    (hu : s.publicPart.Usable) (pt info : Bytes) (hp : pt.length < 2 ^ 31) :
    ∃ ct, a.encrypt seed pt info = .ok ct := by
  obtain ⟨v, h1, h2, h3⟩ := C101_encrypt hl hcc ha
  cases (C101_unique hl).2 _ _ hs h1
  obtain ⟨ct, hct⟩ := encrypts_total hl hm hu seed info pt hp
  exact ⟨ct, (h3 _ _ _ _).2 hct⟩

/-- C101.  Otherwise nothing is encrypted and nothing is decrypted. -/
theorem C101_unusable (hl : LawfulHyb lib) :
    (∀ {kd : KeyData} {cc a v}, ccHybridEncrypt lib kd.typeUrl = some cc → cc.getPrimitive kd = .ok a →
      HybPub.StoredIn kd.typeUrl kd.value v → ¬ v.Usable →
      ∀ seed pt info ct, a.encrypt seed pt info ≠ .ok ct) ∧
    ∀ {kd : KeyData} {cc a s}, ccHybridDecrypt lib kd.typeUrl = some cc → cc.getPrimitive kd = .ok a →
      HybPriv.StoredIn kd.typeUrl kd.value s → ¬ s.publicPart.Usable →
      ∀ ct info pt, a.decrypt ct info ≠ .ok pt := by
  constructor
  · intro kd cc a v hcc ha hs hu seed pt info ct h
    obtain ⟨v', h1, h2, h3⟩ := C101_encrypt hl hcc ha
    cases (C101_unique hl).2 _ _ hs h1
    exact hu (encrypts_usable h2 ((h3 _ _ _ _).1 h))
  · intro kd cc a s hcc ha hs hu ct info pt h
    obtain ⟨s', h1, h2, h3⟩ := C101_decrypt hl hcc ha
    cases (C101_unique hl).1 _ _ hs h1
    exact hu (decrypts_usable h2 ((h3 _ _ _).1 h))

/-- C101.  Ciphertexts are longer than the plaintext by a number of bytes that depends on the key only. -/
theorem C101_lengths (hl : LawfulHyb lib) {kd : KeyData} {cc : Cpp.KeyManager Cpp.HybridEncrypt}
    {a : Cpp.HybridEncrypt} (hcc : ccHybridEncrypt lib kd.typeUrl = some cc) (ha : cc.getPrimitive kd = .ok a)
    {v : HybPub} (hs : HybPub.StoredIn kd.typeUrl kd.value v) {pt info ct : Bytes}
    (h : a.encrypt seed pt info = .ok ct) :
    (∃ n, v.Overhead n) ∧ ∀ n, v.Overhead n → ct.length = pt.length + n := by
  obtain ⟨v', h1, h2, h3⟩ := C101_encrypt hl hcc ha
  cases (C101_unique hl).2 _ _ hs h1
  obtain ⟨n, hn, hlen⟩ := encrypts_length hl ((h3 _ _ _ _).1 h)
  exact ⟨⟨n, hn⟩, fun m hm => by rw [overhead_unique hm hn]; exact hlen⟩

/-- C101, violation.  Keys are made, and there are primitives for them and for their public keys, that encrypt
nothing and decrypt nothing: with a size of key that AES does not have, with X25519 and points that are not
compressed, and with an AEAD of HPKE that there is not. -/
theorem C101_refuses (hl : LawfulHyb lib) {url : PStr} {b : Bytes}
    (h : (url, b) ∈ [(ps! "type.googleapis.com/google.crypto.tink.EciesAeadHkdfPrivateKey", gcm24Format),
      (ps! "type.googleapis.com/google.crypto.tink.EciesAeadHkdfPrivateKey", x25519Format),
      (ps! "type.googleapis.com/google.crypto.tink.HpkePrivateKey", hpkeAeadFormat)]) :
    ∃ cc kd a f pub cce e, ccHybridDecrypt lib url = some cc ∧ cc.newKeyData seed b = .ok kd ∧
      cc.getPrimitive kd = .ok a ∧ cc.publicKeyData = some f ∧ f kd.value = .ok pub ∧
      ccHybridEncrypt lib pub.typeUrl = some cce ∧ cce.getPrimitive pub = .ok e ∧
      (∀ seed pt info ct, e.encrypt seed pt info ≠ .ok ct) ∧ ∀ ct info pt, a.decrypt ct info ≠ .ok pt := by
  suffices hex : ∃ s, HybPriv.AskedFor lib seed url b s ∧ s.publicPart.Checked ∧ s.Ok ∧
      s.size < 2 ^ 31 - 1000 ∧ ¬ s.publicPart.Usable by
    obtain ⟨s, h1, h2, h3, h4, h5⟩ := hex
    have ht : ∃ pubUrl, HybridType url pubUrl := by
      cases h1 with
      | ecies => exact ⟨_, .ecies⟩
      | hpke => exact ⟨_, .hpke⟩
    obtain ⟨cc, hcc⟩ := (C100_decrypt_types (lib := lib)).2 ht
    obtain ⟨kd, hkd⟩ := (C100_formats (seed := seed) hl hcc b).2 ⟨s, h1, h2⟩
    obtain ⟨s', a1, -, rfl, -, -, -, a7⟩ := C100_new hl hcc hkd
    cases hyb_asked_unique h1 a1
    obtain ⟨-, hs, hp⟩ := a7 h4
    obtain ⟨a, ha⟩ := hp.2 h3
    obtain ⟨f, pub, cce, g1, g2, g3, g4⟩ := C100_public_usable hl hcc hs h3 h4
    obtain ⟨e, he⟩ := g4.2 ((hyb_asked_ok_iff hl h1).1 h3)
    obtain ⟨-, -, -, p4⟩ := C100_public_part hl hcc g1 g2 hs h4
    exact ⟨cc, kd, a, f, pub, cce, e, hcc, hkd, ha, g1, g2, g3, he, (C101_unusable hl).1 g3 he p4 h5,
      (C101_unusable hl).2 hcc ha hs h5⟩
  simp only [List.mem_cons, List.not_mem_nil, or_false, Prod.mk.injEq] at h
  have eciesCase : ∀ {b : Bytes} {q : EciesAeadHkdfParams} {p : EciesParams} {dem : Dem},
      EciesAeadHkdfKeyFormat.fromString b = .ok { params := some q } → EciesParams.InMessage q p →
      ((∃ g, Curve p.curve g) ∨ p.curve = EllipticCurveType.CURVE25519) → p.size < 2 ^ 31 - 2000 →
      p.hash ≠ HashType.UNKNOWN_HASH → p.format ≠ EcPointFormat.UNKNOWN_FORMAT →
      Dem.AskedFor p.demType p.demFormat dem → ¬ p.Usable →
      ∃ s, HybPriv.AskedFor lib seed (ps! "type.googleapis.com/google.crypto.tink.EciesAeadHkdfPrivateKey") b s ∧
        s.publicPart.Checked ∧ s.Ok ∧ s.size < 2 ^ 31 - 1000 ∧ ¬ s.publicPart.Usable := by
    intro b q p dem hf hm hc hsz hh hfm hd hu
    obtain ⟨g1, g2⟩ := asked_ecies (lib := lib) (seed := seed) hf hm
    obtain ⟨x, y, d, hs⟩ := g2 hc
    obtain ⟨x', y', d', e1, hn⟩ := g1 _ hs
    cases e1
    have hok : (HybPriv.ecies p x y d).Ok := by
      refine ⟨hh, hfm, ?_⟩
      generalize p.curve = c at hn
      cases hn with
      | nist hg hxy => exact ⟨digitsBE_ne, .inl ⟨⟨_, hg⟩, digitsBE_ne, digitsBE_ne⟩, dem, hd⟩
      | x25519 =>
        exact ⟨ne_of_length (hl.x25519Public _ (hl.x25519Generate _)), .inr ⟨rfl, rfl, hl.x25519Generate _⟩,
          dem, hd⟩
    exact ⟨_, hs, hybChecked_of_ok hok, hok, newKey_size hl hn hsz, hu⟩
  rcases h with ⟨rfl, rfl⟩ | ⟨rfl, rfl⟩ | ⟨rfl, rfl⟩
  · let t : KeyTemplate := { typeUrl := ps! "type.googleapis.com/google.crypto.tink.AesGcmKey", value := [16, 24] }
    let q : EciesAeadHkdfParams :=
      { kemParams := some { curveType := EllipticCurveType.NIST_P256, hkdfHashType := HashType.SHA256 }
        demParams := some { aeadDem := some t }
        ecPointFormat := EcPointFormat.UNCOMPRESSED }
    have hf : EciesAeadHkdfKeyFormat.fromString gcm24Format = .ok { params := some q } := by decide +kernel
    have hd : Dem.AskedFor t.typeUrl t.value (.aesGcm 24) :=
      .aesGcm (f := { keySize := 24 }) (by decide +kernel)
    refine eciesCase hf (.mk rfl rfl rfl) (.inl ⟨_, .p256⟩) (by decide) (by decide) (by decide) hd ?_
    rintro ⟨dem, n, h1, h2, -⟩
    cases dem_unique hd h1
    exact absurd h2 (by unfold Dem.Ok; decide)
  · let t : KeyTemplate := { typeUrl := ps! "type.googleapis.com/google.crypto.tink.AesGcmKey", value := [16, 16] }
    let q : EciesAeadHkdfParams :=
      { kemParams := some { curveType := EllipticCurveType.CURVE25519, hkdfHashType := HashType.SHA256 }
        demParams := some { aeadDem := some t }
        ecPointFormat := EcPointFormat.UNCOMPRESSED }
    have hf : EciesAeadHkdfKeyFormat.fromString x25519Format = .ok { params := some q } := by decide +kernel
    have hd : Dem.AskedFor t.typeUrl t.value (.aesGcm 16) :=
      .aesGcm (f := { keySize := 16 }) (by decide +kernel)
    refine eciesCase hf (.mk rfl rfl rfl) (.inr rfl) (by decide) (by decide) (by decide) hd ?_
    rintro ⟨dem, n, -, -, -, -, ⟨g, hg, -⟩ | ⟨-, hf⟩⟩
    · exact not_nist hg rfl
    · exact absurd hf (by decide)
  · let q : HpkeParams := { kem := HpkeKem.DHKEM_X25519_HKDF_SHA256, kdf := HpkeKdf.HKDF_SHA256, aead := 77 }
    have hf : HpkeKeyFormat.fromString hpkeAeadFormat = .ok { params := some q } := by decide +kernel
    have hok : (HybPriv.hpke q.kem q.kdf q.aead (lib.x25519Public (lib.x25519Generate seed))
        (lib.x25519Generate seed)).Ok := ⟨rfl, rfl, by decide, ne_of_length (hl.x25519Generate _)⟩
    refine ⟨_, .hpke hf rfl .x25519, hybChecked_of_ok hok, hok, newHpkeKey_size hl (.x25519 (seed := seed)), ?_⟩
    rintro ⟨-, -, h⟩
    revert h
    unfold HpkeAeadKnown
    decide

/-! ## How the computations end -/

/-- C101.  ECIES encryption with a key that is accepted returns a result or a status, unless the sizes of the
keys for the data add up to `2 ^ 32` or more, or there is no shared secret for the X25519 key. -/
theorem C101_encrypt_ends {k : EciesAeadHkdfPublicKey} {p : EciesParams} {x y : Bytes}
    (hk : HybPub.OfEcies k (.ecies p x y)) {parts : SenderKem × DemKeyParams}
    (hparts : eciesEncryptParts lib k = .ok parts) (ho : p.NoOverflow)
    (hx : p.curve = EllipticCurveType.CURVE25519 → lib.x25519 (lib.x25519Generate seed) x ≠ none)
    (pt info : Bytes) :
    (∃ ct, eciesEncrypt lib k.getParams parts.1 parts.2 seed pt info = .ok ct) ∨
      ∃ st, eciesEncrypt lib k.getParams parts.1 parts.2 seed pt info = .error (.status st) := by
  obtain ⟨kem, q⟩ := parts
  obtain ⟨-, h2, dem, h3, h4⟩ := (eciesEncryptParts_iff hk).1 hparts
  cases h : eciesEncrypt lib k.getParams kem q seed pt info with
  | ok ct => exact .inl ⟨ct, rfl⟩
  | error e =>
    right
    rcases eciesEncrypt_ends (ecies_params hk).1 h2 h4 h with ⟨st, rfl⟩ | ⟨-, h⟩ | ⟨-, h5, -, h6⟩
    · exact ⟨st, rfl⟩
    · exact absurd (ho dem h3) (Nat.not_lt.2 h)
    · exact absurd h6 (hx h5)

/-- C101.  The same for decryption. -/
theorem C101_decrypt_ends {k : EciesAeadHkdfPrivateKey} {p : EciesParams} {x y d : Bytes}
    (hk : HybPriv.OfEcies k (.ecies p x y d)) {parts : RecipientKem × DemKeyParams}
    (hparts : eciesDecryptParts k = .ok parts) (ho : p.NoOverflow) (ct info : Bytes) :
    (∃ pt, eciesDecrypt lib k.getPublicKey.getParams parts.1 parts.2 ct info = .ok pt) ∨
      ∃ st, eciesDecrypt lib k.getPublicKey.getParams parts.1 parts.2 ct info = .error (.status st) := by
  obtain ⟨kem, q⟩ := parts
  obtain ⟨-, -, -, hr, -⟩ := eciesPrivate_parts hk
  obtain ⟨u, hu, h⟩ := sbind_ok.1 (show eciesDecryptParts k = .ok (kem, q) from hparts)
  obtain ⟨kem', -, h⟩ := sbind_ok.1 h
  obtain ⟨q', hq, h⟩ := sbind_ok.1 h
  cases h
  obtain ⟨dem, h3, h4⟩ := dem_sound hq
  rw [hr.demType, hr.demFormat] at h3
  cases h : eciesDecrypt lib k.getPublicKey.getParams kem q ct info with
  | ok pt => exact .inl ⟨pt, rfl⟩
  | error e =>
    right
    rcases eciesDecrypt_ends h4 h with ⟨st, rfl⟩ | ⟨-, h⟩
    · exact ⟨st, rfl⟩
    · exact absurd (ho dem h3) (Nat.not_lt.2 h)

/-- C101, violation.  The sizes of the keys of AES-CTR and HMAC are added with 32 bits.  If the sum is
`2 ^ 32` or more and what remains of it is not too much for HKDF, then encryption ends with
`std::out_of_range`. -/
theorem C101_overflow (hl : LawfulHyb lib) {k : EciesAeadHkdfPublicKey} {p : EciesParams} {x y : Bytes}
    (hk : HybPub.OfEcies k (.ecies p x y)) {parts : SenderKem × DemKeyParams}
    (hparts : eciesEncryptParts lib k = .ok parts) {n iv m tag size : Nat} {hash : EnumVal}
    (hd : Dem.AskedFor p.demType p.demFormat (.aesCtrHmac n iv m hash tag)) (ho : 2 ^ 32 ≤ n + m)
    (hh : Digest p.hash size) (hs : n + m - 2 ^ 32 ≤ 255 * size) {kem secret : Bytes}
    (he : p.Encapsulates lib seed x y kem secret) (pt info : Bytes) :
    eciesEncrypt lib k.getParams parts.1 parts.2 seed pt info = .error .outOfRange := by
  obtain ⟨sk, q⟩ := parts
  obtain ⟨-, h2, dem, h3, h4⟩ := (eciesEncryptParts_iff hk).1 hparts
  cases dem_unique hd h3
  have hr := (ecies_params hk).1
  generalize hdem : Dem.aesCtrHmac n iv m hash tag = dem at h4
  cases h4 with
  | aesGcm => cases hdem
  | xChaCha20Poly1305 => cases hdem
  | aesSiv => cases hdem
  | aesCtrHmac n' iv' m' hash' tag' =>
    cases hdem
    have hn := n'.toNat_lt
    have hm := m'.toNat_lt
    have hsum : (n' + m').toNat = n'.toNat + m'.toNat - 2 ^ 32 := by
      rw [UInt32.toNat_add]
      omega
    have hkey := (derive_iff hl (kem := kem) (secret := secret) (salt := p.salt) (info := info)
      (n := (n' + m').toNat)).2 ⟨size, hh, by rw [hsum]; exact hs, rfl⟩
    unfold eciesEncrypt
    rw [hr.hash, hr.salt, hr.format]
    refine rbind_error.2 (.inr ⟨(kem, _), (senderGenerate_iff hl h2).2 ⟨secret, he, hkey⟩, ?_⟩)
    refine rbind_error.2 (.inl ?_)
    have hlen : ((Hkdf.output (hmacWith lib.sym p.hash) p.salt (kem ++ secret) info).take
        (n' + m').toNat).length = (n' + m').toNat := by
      rw [List.length_take, length_output hl.sym hh]
      omega
    unfold demGetAead
    dsimp only
    rw [if_neg (by rw [hlen]; simp), if_pos (by rw [hlen, hsum]; omega)]

/-- C101, violation.  If there is no shared secret for an X25519 public key, such as the one of 32 zeros, then
encryption ends the process. -/
theorem C101_abort {k : EciesAeadHkdfPublicKey} {p : EciesParams} {x y : Bytes}
    (hk : HybPub.OfEcies k (.ecies p x y)) {parts : SenderKem × DemKeyParams}
    (hparts : eciesEncryptParts lib k = .ok parts) (hc : p.curve = EllipticCurveType.CURVE25519)
    (hf : p.format = EcPointFormat.COMPRESSED) (hx : lib.x25519 (lib.x25519Generate seed) x = none)
    (pt info : Bytes) : eciesEncrypt lib k.getParams parts.1 parts.2 seed pt info = .error .aborted := by
  obtain ⟨sk, q⟩ := parts
  obtain ⟨-, h2, -⟩ := (eciesEncryptParts_iff hk).1 hparts
  have hr := (ecies_params hk).1
  unfold eciesEncrypt
  refine rbind_error.2 (.inl ?_)
  rw [hr.format]
  cases h2 with
  | nist hg => exact absurd hc (not_nist hg)
  | x25519 =>
    unfold senderGenerateKey
    dsimp only
    rw [if_neg (by simpa using hf), hx]

end

/-! ## Examples, and keys whose parts do not match -/

namespace HybridExamples
open ToyHyb

def exampleKey (name : PStr) (b : Py Bytes) (material : EnumVal) : KeyData where
  typeUrl := ps! "type.googleapis.com/google.crypto.tink." ++ name
  value := (b.toOption).getD []
  keyMaterialType := material

/-- Encrypts with the public part of the key, and decrypts with the key. -/
def roundTrip (kd : KeyData) (seed : Seed) (pt info : Bytes) : Option (Bytes × Option Bytes) := do
  let cc ← ccHybridDecrypt lib kd.typeUrl
  let a ← (cc.getPrimitive kd).toOption
  let f ← cc.publicKeyData
  let pub ← (f kd.value).toOption
  let cce ← ccHybridEncrypt lib pub.typeUrl
  let e ← (cce.getPrimitive pub).toOption
  let ct ← (e.encrypt seed pt info).toOption
  return (ct, (a.decrypt ct info).toOption)

/-- The same with a new key. -/
def newRoundTrip (name : PStr) (format : Bytes) (seed : Seed) (pt info : Bytes) : Option (Bytes × Option Bytes) := do
  let cc ← ccHybridDecrypt lib (ps! "type.googleapis.com/google.crypto.tink." ++ name)
  let kd ← (cc.newKeyData seed format).toOption
  roundTrip kd 3 pt info

def ctrHmacFormat : Py Bytes := AesCtrHmacAeadKeyFormat.serializeToString
  { aesCtrKeyFormat := some { params := some { ivSize := 16 }, keySize := 16 }
    hmacKeyFormat := some { params := some { hash := HashType.SHA256, tagSize := 16 }, keySize := 32 } }

/-- P-256, points that are not compressed, AES-GCM: 65 bytes for the key, 28 more for the data. -/
example : (newRoundTrip (ps! "EciesAeadHkdfPrivateKey")
    (eciesFormat EllipticCurveType.NIST_P256 EcPointFormat.UNCOMPRESSED (ps! "AesGcmKey")
      (AesGcmKeyFormat.serializeToString { keySize := 16 })) 5 (by! "text") (by! "info")).map
    (fun r => (r.1.take 2, r.1.length, r.2)) = some ([4, 0], 65 + 28 + 4, some (by! "text")) := by decide +kernel

/-- P-384, compressed points, AES-CTR-HMAC. -/
example : (newRoundTrip (ps! "EciesAeadHkdfPrivateKey")
    (eciesFormat EllipticCurveType.NIST_P384 EcPointFormat.COMPRESSED (ps! "AesCtrHmacAeadKey") ctrHmacFormat)
    5 (by! "text") (by! "info")).map
    (fun r => (r.1.take 2, r.1.length, r.2)) = some ([2, 0], 49 + 32 + 4, some (by! "text")) := by decide +kernel

/-- X25519, XChaCha20-Poly1305. -/
example : (newRoundTrip (ps! "EciesAeadHkdfPrivateKey")
    (eciesFormat EllipticCurveType.CURVE25519 EcPointFormat.COMPRESSED (ps! "XChaCha20Poly1305Key") (.ok []))
    5 (by! "text") (by! "info")).map
    (fun r => (r.1.length, r.2)) = some (32 + 40 + 4, some (by! "text")) := by decide +kernel

/-- P-521, AES-SIV. -/
example : (newRoundTrip (ps! "EciesAeadHkdfPrivateKey")
    (eciesFormat EllipticCurveType.NIST_P521 EcPointFormat.DO_NOT_USE_CRUNCHY_UNCOMPRESSED (ps! "AesSivKey")
      (AesSivKeyFormat.serializeToString { keySize := 64 })) 5 (by! "text") (by! "info")).map
    (fun r => (r.1.length, r.2)) = some (132 + 16 + 4, some (by! "text")) := by decide +kernel

/-- HPKE. -/
example : (newRoundTrip (ps! "HpkePrivateKey") (hpkeFormat HpkeKem.DHKEM_X25519_HKDF_SHA256 HpkeAead.AES_256_GCM)
    5 (by! "text") (by! "info")).map (fun r => (r.1.length, r.2)) = some (48 + 4, some (by! "text")) := by
  decide +kernel

/-- Key formats for which no key is made. -/
example : (ccHybridDecrypt lib (ps! "type.googleapis.com/google.crypto.tink.HpkePrivateKey")).map
    (fun cc => (cc.newKeyData 5 (hpkeFormat 0 1)).toOption.isSome) = some false := by decide +kernel

/-- The hypotheses of `C101_new`. -/
example : ∃ s, HybPriv.AskedFor lib 5 (ps! "type.googleapis.com/google.crypto.tink.HpkePrivateKey")
    (hpkeFormat HpkeKem.DHKEM_X25519_HKDF_SHA256 HpkeAead.AES_256_GCM) s ∧ s.size < 2 ^ 31 - 1000 ∧
    s.publicPart.Usable := by
  let q : HpkeParams :=
    { kem := HpkeKem.DHKEM_X25519_HKDF_SHA256, kdf := HpkeKdf.HKDF_SHA256, aead := HpkeAead.AES_256_GCM }
  exact ⟨_, .hpke (f := { params := some q }) (by decide +kernel) rfl .x25519,
    newHpkeKey_size lawful (.x25519 (seed := 5)), rfl, rfl, .inr (.inl rfl)⟩

/-- A public key with AES-CTR and HMAC keys of `2 ^ 31 + 1` bytes each. -/
def largeFormat : AesCtrHmacAeadKeyFormat :=
  { aesCtrKeyFormat := some { params := some { ivSize := 16 }, keySize := 0x80000001 }
    hmacKeyFormat := some { params := some { hash := HashType.SHA256, tagSize := 16 }, keySize := 0x80000001 } }

def eciesPublic (curve format : EnumVal) (name : PStr) (value x y : Bytes) : EciesAeadHkdfPublicKey :=
  { params := some
      { kemParams := some { curveType := curve, hkdfHashType := HashType.SHA256 }
        demParams := some
          { aeadDem := some (KeyTemplate.mk (ps! "type.googleapis.com/google.crypto.tink." ++ name) value 0) }
        ecPointFormat := format }
    x, y }

/-- The hypotheses of `C101_overflow`. -/
example : ∃ b k p parts n iv m hash tag kem secret, largeFormat.serializeToString = .ok b ∧
    k = eciesPublic EllipticCurveType.NIST_P256 EcPointFormat.COMPRESSED (ps! "AesCtrHmacAeadKey") b [7] [1] ∧
    HybPub.OfEcies k (.ecies p [7] [1]) ∧ eciesEncryptParts lib k = .ok parts ∧
    Dem.AskedFor p.demType p.demFormat (.aesCtrHmac n iv m hash tag) ∧ 2 ^ 32 ≤ n + m ∧
    Digest p.hash 32 ∧ n + m - 2 ^ 32 ≤ 255 * 32 ∧ p.Encapsulates lib 5 [7] [1] kem secret := by
  obtain ⟨b, hb⟩ : ∃ b, largeFormat.serializeToString = .ok b := by
    refine ⟨(largeFormat.serializeToString).toOption.getD [], ?_⟩
    decide +kernel
  have hf : AesCtrHmacAeadKeyFormat.fromString b = .ok largeFormat := by
    have : ∀ b', largeFormat.serializeToString = .ok b' → AesCtrHmacAeadKeyFormat.fromString b' = .ok largeFormat := by
      intro b' h
      have e : b' = (largeFormat.serializeToString).toOption.getD [] := by rw [h]; rfl
      rw [e]
      decide +kernel
    exact this b hb
  have hk : HybPub.OfEcies (eciesPublic EllipticCurveType.NIST_P256 EcPointFormat.COMPRESSED
      (ps! "AesCtrHmacAeadKey") b [7] [1]) _ := .mk rfl rfl (.mk rfl rfl rfl)
  have hd : Dem.AskedFor (ps! "type.googleapis.com/google.crypto.tink.AesCtrHmacAeadKey") b
      (.aesCtrHmac 0x80000001 16 0x80000001 HashType.SHA256 16) := .aesCtrHmac hf
  obtain ⟨parts, hparts⟩ := (eciesEncryptParts_iff (lib := lib) (kem := .x25519 []) (q := ⟨.aesSiv, 0, 0, 0, 0, 0⟩) hk).2
    (.nist .p256 (by intro h; cases h) (by intro h; cases h)
      (show lib.ecPoint .p256 (fromBytesBE [7]) (fromBytesBE [1]) = true by decide +kernel)) ⟨_, hd⟩
  exact ⟨b, _, _, parts, _, _, _, _, _, _, _, hb, rfl, hk, hparts, hd, by decide, .sha256, by decide,
    .nist .p256 (.even (by decide +kernel)) rfl⟩

/-- The hypotheses of `C101_abort`. -/
example : ∃ k p parts, HybPub.OfEcies k (.ecies p (List.replicate 32 0) []) ∧
    eciesEncryptParts lib k = .ok parts ∧ p.curve = EllipticCurveType.CURVE25519 ∧
    p.format = EcPointFormat.COMPRESSED ∧ lib.x25519 (lib.x25519Generate 5) (List.replicate 32 0) = none := by
  have hk : HybPub.OfEcies (eciesPublic EllipticCurveType.CURVE25519 EcPointFormat.COMPRESSED
      (ps! "XChaCha20Poly1305Key") [] (List.replicate 32 0) []) _ := .mk rfl rfl (.mk rfl rfl rfl)
  obtain ⟨parts, hparts⟩ := (eciesEncryptParts_iff (lib := lib) (kem := .x25519 []) (q := ⟨.aesSiv, 0, 0, 0, 0, 0⟩) hk).2
    (.x25519 rfl (by decide) rfl) ⟨_, .xChaCha20Poly1305 (f := {}) (by decide +kernel)⟩
  exact ⟨_, _, parts, hk, hparts, rfl, rfl, by decide +kernel⟩

/-- An ECIES key whose public part is that of another private key. -/
def mixedEcies : KeyData := exampleKey (ps! "EciesAeadHkdfPrivateKey") (EciesAeadHkdfPrivateKey.serializeToString
  { publicKey := some (eciesPublic EllipticCurveType.NIST_P256 EcPointFormat.COMPRESSED
      (ps! "XChaCha20Poly1305Key") [] [7] [1])
    keyValue := [5] }) KeyMaterialType.ASYMMETRIC_PRIVATE

/-- The same for HPKE. -/
def mixedHpke : KeyData := exampleKey (ps! "HpkePrivateKey") (HpkePrivateKey.serializeToString
  { publicKey := some
      { params := some
          { kem := HpkeKem.DHKEM_X25519_HKDF_SHA256, kdf := HpkeKdf.HKDF_SHA256, aead := HpkeAead.AES_128_GCM }
        publicKey := List.replicate 32 9 }
    privateKey := List.replicate 32 5 }) KeyMaterialType.ASYMMETRIC_PRIVATE

end HybridExamples

open HybridExamples in
/-- C101, violation.  Nothing checks that the public part of a key is that of its private part: there are
primitives for such a key and for its public key, and what is encrypted with the public key cannot be decrypted
with the private key. -/
theorem C101_parts_mixed : ∃ lib, LawfulHyb lib ∧
    ∀ kd ∈ [mixedEcies, mixedHpke], ∃ cc f pub cce a e ct, ccHybridDecrypt lib kd.typeUrl = some cc ∧
      cc.getPrimitive kd = .ok a ∧ cc.publicKeyData = some f ∧ f kd.value = .ok pub ∧
      ccHybridEncrypt lib pub.typeUrl = some cce ∧ cce.getPrimitive pub = .ok e ∧
      e.encrypt 0 (by! "text") (by! "info") = .ok ct ∧ ∀ pt, a.decrypt ct (by! "info") ≠ .ok pt := by
  have key : ∀ kd, (HybridExamples.roundTrip kd 0 (by! "text") (by! "info")).map (·.2) = some none →
      ∃ cc f pub cce a e ct, ccHybridDecrypt ToyHyb.lib kd.typeUrl = some cc ∧
      cc.getPrimitive kd = .ok a ∧ cc.publicKeyData = some f ∧ f kd.value = .ok pub ∧
      ccHybridEncrypt ToyHyb.lib pub.typeUrl = some cce ∧ cce.getPrimitive pub = .ok e ∧
      e.encrypt 0 (by! "text") (by! "info") = .ok ct ∧ ∀ pt, a.decrypt ct (by! "info") ≠ .ok pt := by
    intro kd h
    have ok : ∀ {α : Type} {x : StatusOr α} {y : α}, x.toOption = some y → x = .ok y := by
      intro α x y h
      cases x with
      | error _ => cases h
      | ok _ => cases h; rfl
    obtain ⟨⟨ct, r⟩, h, hr⟩ := Option.map_eq_some_iff.1 h
    unfold HybridExamples.roundTrip at h
    obtain ⟨cc, h1, h⟩ := Option.bind_eq_some_iff.1 h
    obtain ⟨a, h2, h⟩ := Option.bind_eq_some_iff.1 h
    obtain ⟨f, h3, h⟩ := Option.bind_eq_some_iff.1 h
    obtain ⟨pub, h4, h⟩ := Option.bind_eq_some_iff.1 h
    obtain ⟨cce, h5, h⟩ := Option.bind_eq_some_iff.1 h
    obtain ⟨e, h6, h⟩ := Option.bind_eq_some_iff.1 h
    obtain ⟨ct', h7, h⟩ := Option.bind_eq_some_iff.1 h
    cases h
    refine ⟨cc, f, pub, cce, a, e, ct, h1, ok h2, h3, ok h4, h5, ok h6, ok h7, fun pt hv => ?_⟩
    rw [hv] at hr
    cases hr
  refine ⟨ToyHyb.lib, ToyHyb.lawful, fun kd hkd => key kd ?_⟩
  simp only [List.mem_cons, List.not_mem_nil, or_false] at hkd
  rcases hkd with rfl | rfl <;> decide +kernel

end Tink.Props
