import Verif.Cc.SigNewLemmas
import Verif.Examples.ToySigSsl

/-!
# C96 and C97: signature keys and signatures

`ccSign lib` and `ccVerify lib` are the key managers that the C++ registry has for a key type, after
registration; the Python key managers call them (C65).  `lib` is BoringSSL.  The specification is in
`Spec/SignatureKeys.lean`.
-/

namespace Tink.Props
open Spec Cpp Cc

section
variable {lib : SigSsl} {seed : Seed}

/-! ## C96: which keys are accepted and made -/

/-- C96.  The key types of private keys. -/
theorem C96_sign_types {url : PStr} : (∃ cc, ccSign lib url = some cc) ↔ ∃ pubUrl, PublicType url pubUrl := by
  constructor
  · rintro ⟨cc, h⟩
    unfold ccSign at h
    split at h
    · rename_i hu; subst hu; exact ⟨_, .ecdsa⟩
    split at h
    · rename_i hu; subst hu; exact ⟨_, .rsaPss⟩
    split at h
    · rename_i hu; subst hu; exact ⟨_, .rsaPkcs1⟩
    split at h
    · rename_i hu; subst hu; exact ⟨_, .ed25519⟩
    · cases h
  · rintro ⟨pubUrl, h⟩
    unfold ccSign
    split
    · exact ⟨_, rfl⟩
    split
    · exact ⟨_, rfl⟩
    split
    · exact ⟨_, rfl⟩
    split
    · exact ⟨_, rfl⟩
    · rename_i h1 h2 h3 h4
      exfalso
      cases h with
      | ecdsa => exact h1 rfl
      | rsaPss => exact h2 rfl
      | rsaPkcs1 => exact h3 rfl
      | ed25519 => exact h4 rfl

/-- C96.  The key types of public keys. -/
theorem C96_verify_types {pubUrl : PStr} :
    (∃ cc, ccVerify lib pubUrl = some cc) ↔ ∃ url, PublicType url pubUrl := by
  constructor
  · rintro ⟨cc, h⟩
    unfold ccVerify at h
    split at h
    · rename_i hu; subst hu; exact ⟨_, .ecdsa⟩
    split at h
    · rename_i hu; subst hu; exact ⟨_, .rsaPss⟩
    split at h
    · rename_i hu; subst hu; exact ⟨_, .rsaPkcs1⟩
    split at h
    · rename_i hu; subst hu; exact ⟨_, .ed25519⟩
    · cases h
  · rintro ⟨url, h⟩
    exact ccVerify_publicType h

/-- C96.  There is a primitive for the data of a private key if and only if they hold an acceptable key. -/
theorem C96_sign_keys (hl : LawfulSigSsl lib) {kd : KeyData} {cc : Cpp.KeyManager Cpp.PublicKeySign}
    (hcc : ccSign lib kd.typeUrl = some cc) :
    (∃ a, cc.getPrimitive kd = .ok a) ↔ ∃ s, SigKey.StoredIn kd.typeUrl kd.value s ∧ s.Ok lib := by
  obtain ⟨_, -, M⟩ := sign_manages hl 0 hcc
  constructor
  · rintro ⟨a, ha⟩
    obtain ⟨s, h1, h2, -⟩ := M.sound kd a ha
    exact ⟨s, h1, h2⟩
  · rintro ⟨s, h1, h2⟩
    exact M.complete kd s rfl h1 h2

/-- C96.  The same for public keys. -/
theorem C96_verify_keys (hl : LawfulSigSsl lib) {kd : KeyData} {cc : Cpp.KeyManager Cpp.PublicKeyVerify}
    (hcc : ccVerify lib kd.typeUrl = some cc) :
    (∃ a, cc.getPrimitive kd = .ok a) ↔ ∃ v, PubKey.StoredIn kd.typeUrl kd.value v ∧ v.Ok lib := by
  have M := verify_manages hl hcc
  constructor
  · rintro ⟨a, ha⟩
    obtain ⟨s, h1, h2, -⟩ := M.sound kd a ha
    exact ⟨s, h1, h2⟩
  · rintro ⟨s, h1, h2⟩
    exact M.complete kd s rfl h1 h2

/-- C96.  A private key is made for a key format if and only if its public part would be acceptable (and, for
RSA, if the library makes one). -/
theorem C96_formats (hl : LawfulSigSsl lib) {url : PStr} {cc : Cpp.KeyManager Cpp.PublicKeySign}
    (hcc : ccSign lib url = some cc) (b : Bytes) :
    (∃ kd, cc.newKeyData seed b = .ok kd) ↔
      ∃ s, SigKey.AskedFor lib seed url b s ∧ s.publicPart.Ok lib := by
  obtain ⟨_, -, M⟩ := sign_manages hl seed hcc
  exact M.formats b

/-- C96.  The new key data can be serialized and hold the key asked for, whose public part is that of its
private part.  There is a primitive for them if and only if, for RSA-SSA-PSS, the salt fits. -/
theorem C96_new (hl : LawfulSigSsl lib) {url : PStr} {cc : Cpp.KeyManager Cpp.PublicKeySign}
    (hcc : ccSign lib url = some cc) {b : Bytes} {kd : KeyData} (h : cc.newKeyData seed b = .ok kd) :
    ∃ s, SigKey.AskedFor lib seed url b s ∧ s.publicPart.Ok lib ∧ s.Matches lib ∧ kd.typeUrl = url ∧
      kd.keyMaterialType = KeyMaterialType.ASYMMETRIC_PRIVATE ∧ Fits kd ∧ SigKey.StoredIn url kd.value s ∧
      ((∃ a, cc.getPrimitive kd = .ok a) ↔ s.Roomy) := by
  obtain ⟨_, -, M⟩ := sign_manages hl seed hcc
  obtain ⟨s, h1, h2, h3, h4, h5⟩ := M.made b kd h
  obtain ⟨h6, h7⟩ := h5 (asked_size hl h1 h2)
  refine ⟨s, h1, h2, asked_matches hl h1, h3, h4, h6, h7, ?_⟩
  rw [← asked_ok_iff hl h1 h2]
  constructor
  · rintro ⟨a, ha⟩
    obtain ⟨s', g1, g2, -⟩ := M.sound kd a ha
    cases M.unique _ _ _ h7 g1
    exact g2
  · exact M.complete kd s h3 h7

/-- C96.  Key managers for public keys make no keys. -/
theorem C96_verify_new (hl : LawfulSigSsl lib) {url : PStr} {cc : Cpp.KeyManager Cpp.PublicKeyVerify}
    (hcc : ccVerify lib url = some cc) (b : Bytes) (kd : KeyData) : cc.newKeyData seed b ≠ .ok kd := by
  rw [(verify_manages hl hcc).noKeys]
  exact unimplemented_ne

/-- C96.  The data of the public key are handed out if and only if the private key meets a weaker condition. -/
theorem C96_public (hl : LawfulSigSsl lib) {url : PStr} {cc : Cpp.KeyManager Cpp.PublicKeySign}
    (hcc : ccSign lib url = some cc) : ∃ f, cc.publicKeyData = some f ∧ ∀ b,
      (∃ kd, f b = .ok kd) ↔ ∃ s, SigKey.StoredIn url b s ∧ s.Checked := by
  obtain ⟨_, -, M⟩ := sign_manages hl 0 hcc
  obtain ⟨f, hf, h⟩ := M.publicKey
  exact ⟨f, hf, fun b => (h b).1⟩

/-- C96.  They are of the type for public keys and hold the public part of the key, and nothing else. -/
theorem C96_public_part (hl : LawfulSigSsl lib) {url : PStr} {cc : Cpp.KeyManager Cpp.PublicKeySign}
    (hcc : ccSign lib url = some cc) {f : Bytes → StatusOr KeyData} (hf : cc.publicKeyData = some f) {b : Bytes}
    {pub : KeyData} (h : f b = .ok pub) {s : SigKey} (hs : SigKey.StoredIn url b s)
    (hsize : s.size < 2 ^ 31 - 1000) :
    PublicType url pub.typeUrl ∧ pub.keyMaterialType = KeyMaterialType.ASYMMETRIC_PUBLIC ∧ Fits pub ∧
      PubKey.StoredIn pub.typeUrl pub.value s.publicPart := by
  obtain ⟨pubUrl, ht, M⟩ := sign_manages hl 0 hcc
  obtain ⟨f', hf', g⟩ := M.publicKey
  cases hf.symm.trans hf'
  obtain ⟨g1, g2, s', g3, g4⟩ := (g b).2 pub h
  cases M.unique _ _ _ hs g3
  obtain ⟨g5, g6⟩ := g4 hsize
  cases g1
  exact ⟨ht, g2, g5, g6⟩

/-- C96.  If there is a primitive for the private key, then the data of the public key are handed out, and
there is a primitive for these. -/
theorem C96_public_usable (hl : LawfulSigSsl lib) {kd : KeyData} {cc : Cpp.KeyManager Cpp.PublicKeySign}
    {a : Cpp.PublicKeySign} (hcc : ccSign lib kd.typeUrl = some cc) (ha : cc.getPrimitive kd = .ok a)
    {s : SigKey} (hs : SigKey.StoredIn kd.typeUrl kd.value s) (hsize : s.size < 2 ^ 31 - 1000) :
    ∃ f pub ccv v, cc.publicKeyData = some f ∧ f kd.value = .ok pub ∧ ccVerify lib pub.typeUrl = some ccv ∧
      ccv.getPrimitive pub = .ok v := by
  obtain ⟨_, -, M⟩ := sign_manages hl 0 hcc
  obtain ⟨s', g1, g2, -⟩ := M.sound kd a ha
  cases M.unique _ _ _ hs g1
  obtain ⟨f, hf, hb⟩ := C96_public hl hcc
  obtain ⟨pub, hp⟩ := (hb kd.value).2 ⟨s, hs, checked_of_ok g2⟩
  obtain ⟨p1, -, -, p4⟩ := C96_public_part hl hcc hf hp hs hsize
  obtain ⟨ccv, hv⟩ := ccVerify_publicType (lib := lib) p1
  obtain ⟨v, hv'⟩ := (C96_verify_keys hl hv).2 ⟨_, p4, g2.1⟩
  exact ⟨f, pub, ccv, v, hf, hp, hv, hv'⟩

/-- C96, violation.  The length of the salt of RSA-SSA-PSS has no upper limit.  A key format may ask for a key
with 2048 bits and a salt that does not fit: the key is made, but there is no primitive for it. -/
theorem C96_pss_unusable (hl : LawfulSigSsl lib) {k : RsaNumbers} (hk : lib.rsaGenerate seed 2048 65537 = some k) :
    ∃ b cc kd, ccSign lib (ps! "type.googleapis.com/google.crypto.tink.RsaSsaPssPrivateKey") = some cc ∧
      cc.newKeyData seed b = .ok kd ∧ ∀ a, cc.getPrimitive kd ≠ .ok a := by
  obtain ⟨cc, hcc⟩ := (C96_sign_types (lib := lib)).2 ⟨_, .rsaPss⟩
  let f : RsaSsaPssKeyFormat :=
    { params := some { sigHash := HashType.SHA256, mgf1Hash := HashType.SHA256, saltLength := 1000 }
      modulusSizeInBits := 2048, publicExponent := [1, 0, 1] }
  let b : Bytes := [0x0a, 7, 0x08, 3, 0x10, 3, 0x18, 0xe8, 7, 0x10, 0x80, 0x10, 0x1a, 3, 1, 0, 1]
  have hf : RsaSsaPssKeyFormat.fromString b = .ok f := by decide +kernel
  have ha : SigKey.AskedFor lib seed (ps! "type.googleapis.com/google.crypto.tink.RsaSsaPssPrivateKey") b
      (.rsaPss (SigKey.rsaKey k) HashType.SHA256 HashType.SHA256 1000) := .rsaPss (f := f) hf hk
  have hp : RsaOk (SigKey.rsaKey k).n (SigKey.rsaKey k).e :=
    (rsaOk_generate hl (x := 2048) (e := [1, 0, 1]) hk).2 (by decide)
  obtain ⟨kd, hkd⟩ := (C96_formats (seed := seed) hl hcc b).2
    ⟨_, ha, hp, .inl rfl, rfl, by decide⟩
  refine ⟨b, cc, kd, hcc, hkd, fun a hprim => ?_⟩
  obtain ⟨s, h1, -, -, -, -, -, -, h8⟩ := C96_new hl hcc hkd
  have hs : s = .rsaPss (SigKey.rsaKey k) HashType.SHA256 HashType.SHA256 1000 := by
    obtain ⟨f1, e1, e2⟩ := (pss_signAsked seed b s).1 h1
    obtain ⟨f2, e3, e4⟩ := (pss_signAsked seed b _).1 ha
    cases e1.symm.trans hf
    cases e2 with
    | mk e5 =>
      cases e5.symm.trans hk
      rfl
  subst hs
  have hr := h8.1 ⟨a, hprim⟩ 32 .sha256
  obtain ⟨-, hb, -⟩ := hl.rsaGenerate _ _ _ _ hk
  unfold SaltFits at hr
  rw [numbers_rsaKey] at hr
  omega

/-! ## C97: what is signed and what is accepted -/

/-- C97.  Key data hold at most one private key, and at most one public key. -/
theorem C97_unique (hl : LawfulSigSsl lib) {url : PStr} {b : Bytes} :
    (∀ s s', SigKey.StoredIn url b s → SigKey.StoredIn url b s' → s = s') ∧
    ∀ v v', PubKey.StoredIn url b v → PubKey.StoredIn url b v' → v = v' := by
  constructor
  · intro s s' h h'
    have ht : ∃ pubUrl, PublicType url pubUrl := by
      cases h with
      | ecdsa => exact ⟨_, .ecdsa⟩
      | ed25519 => exact ⟨_, .ed25519⟩
      | rsaPkcs1 => exact ⟨_, .rsaPkcs1⟩
      | rsaPss => exact ⟨_, .rsaPss⟩
    obtain ⟨cc, hcc⟩ := (C96_sign_types (lib := lib)).2 ht
    obtain ⟨_, -, M⟩ := sign_manages hl 0 hcc
    exact M.unique _ _ _ h h'
  · intro s s' h h'
    have ht : ∃ u, PublicType u url := by
      cases h with
      | ecdsa => exact ⟨_, .ecdsa⟩
      | ed25519 => exact ⟨_, .ed25519⟩
      | rsaPkcs1 => exact ⟨_, .rsaPkcs1⟩
      | rsaPss => exact ⟨_, .rsaPss⟩
    obtain ⟨cc, hcc⟩ := (C96_verify_types (lib := lib)).2 ht
    exact (verify_manages hl hcc).unique _ _ _ h h'

/-- C97.  The primitive for a private key makes exactly the signatures of the stored key. -/
theorem C97_sign (hl : LawfulSigSsl lib) {kd : KeyData} {cc : Cpp.KeyManager Cpp.PublicKeySign}
    {a : Cpp.PublicKeySign} (hcc : ccSign lib kd.typeUrl = some cc) (ha : cc.getPrimitive kd = .ok a) :
    ∃ s, SigKey.StoredIn kd.typeUrl kd.value s ∧ s.Ok lib ∧
      ∀ seed data sig, a.sign seed data = .ok sig ↔ s.signature lib seed data = some sig := by
  obtain ⟨_, -, M⟩ := sign_manages hl 0 hcc
  exact M.sound kd a ha

/-- C97.  The primitive for a public key accepts exactly the valid signatures. -/
theorem C97_verify (hl : LawfulSigSsl lib) {kd : KeyData} {cc : Cpp.KeyManager Cpp.PublicKeyVerify}
    {a : Cpp.PublicKeyVerify} (hcc : ccVerify lib kd.typeUrl = some cc) (ha : cc.getPrimitive kd = .ok a) :
    ∃ v, PubKey.StoredIn kd.typeUrl kd.value v ∧ v.Ok lib ∧
      ∀ sig data, a.verify sig data = .ok () ↔ v.Valid lib data sig :=
  (verify_manages hl hcc).sound kd a ha

/-- C97.  If the public part is that of the private part, then the primitive for the public key accepts every
signature that the primitive for the private key makes. -/
theorem C97_round_trip (hl : LawfulSigSsl lib) {kd pub : KeyData} {cc : Cpp.KeyManager Cpp.PublicKeySign}
    {ccv : Cpp.KeyManager Cpp.PublicKeyVerify} {f : Bytes → StatusOr KeyData} {a : Cpp.PublicKeySign}
    {v : Cpp.PublicKeyVerify} {s : SigKey}
    (hcc : ccSign lib kd.typeUrl = some cc) (ha : cc.getPrimitive kd = .ok a)
    (hf : cc.publicKeyData = some f) (hpub : f kd.value = .ok pub)
    (hccv : ccVerify lib pub.typeUrl = some ccv) (hv : ccv.getPrimitive pub = .ok v)
    (hs : SigKey.StoredIn kd.typeUrl kd.value s) (hsize : s.size < 2 ^ 31 - 1000) (hm : s.Matches lib)
    {data sig : Bytes} (h : a.sign seed data = .ok sig) : v.verify sig data = .ok () := by
  obtain ⟨s', g1, g2, g3⟩ := C97_sign hl hcc ha
  cases (C97_unique hl).1 _ _ hs g1
  obtain ⟨p1, -, -, p4⟩ := C96_public_part hl hcc hf hpub hs hsize
  obtain ⟨v', q1, -, q3⟩ := C97_verify hl hccv hv
  cases (C97_unique hl).2 _ _ p4 q1
  exact (q3 _ _).2 (signature_valid hl g2 hm ((g3 _ _ _).1 h))

/-- C97.  A new key: everything is signed and, with the public key, accepted. -/
theorem C97_new (hl : LawfulSigSsl lib) {url : PStr} {cc : Cpp.KeyManager Cpp.PublicKeySign}
    (hcc : ccSign lib url = some cc) {b : Bytes} {kd : KeyData} (h : cc.newKeyData seed b = .ok kd)
    {a : Cpp.PublicKeySign} (ha : cc.getPrimitive kd = .ok a) :
    ∃ f pub ccv v, cc.publicKeyData = some f ∧ f kd.value = .ok pub ∧ ccVerify lib pub.typeUrl = some ccv ∧
      ccv.getPrimitive pub = .ok v ∧
      ∀ seed data, ∃ sig, a.sign seed data = .ok sig ∧ v.verify sig data = .ok () := by
  obtain ⟨s, h1, h2, h3, h4, -, -, h7, h8⟩ := C96_new hl hcc h
  cases h4
  have hsize := asked_size hl h1 h2
  obtain ⟨f, pub, ccv, v, g1, g2, g3, g4⟩ := C96_public_usable hl hcc ha h7 hsize
  refine ⟨f, pub, ccv, v, g1, g2, g3, g4, fun seed' data => ?_⟩
  obtain ⟨sig, hsig⟩ := asked_total hl h1 h2 (h8.1 ⟨a, ha⟩) seed' data
  obtain ⟨s', q1, q2, q3⟩ := C97_sign hl hcc ha
  cases (C97_unique hl).1 _ _ h7 q1
  have hok := (q3 _ _ _).2 hsig
  exact ⟨sig, hok, C97_round_trip hl hcc ha g1 g2 g3 g4 h7 hsize h3 hok⟩

/-- C97.  ECDSA and Ed25519 keys, new or not, sign everything. -/
theorem C97_total (hl : LawfulSigSsl lib) {kd : KeyData} {cc : Cpp.KeyManager Cpp.PublicKeySign}
    {a : Cpp.PublicKeySign} (hcc : ccSign lib kd.typeUrl = some cc) (ha : cc.getPrimitive kd = .ok a)
    (hu : kd.typeUrl = ps! "type.googleapis.com/google.crypto.tink.EcdsaPrivateKey" ∨
      kd.typeUrl = ps! "type.googleapis.com/google.crypto.tink.Ed25519PrivateKey") (data : Bytes) :
    ∃ sig, a.sign seed data = .ok sig := by
  obtain ⟨s, h1, h2, h3⟩ := C97_sign hl hcc ha
  generalize kd.typeUrl = u at h1 hu
  cases h1 with
  | ecdsa _ hs =>
    cases hs
    obtain ⟨sig, hsig⟩ := ecdsa_total hl h2 seed data
    exact ⟨sig, (h3 _ _ _).2 hsig⟩
  | ed25519 _ hs =>
    cases hs
    exact ⟨_, (h3 _ _ _).2 rfl⟩
  | rsaPkcs1 => exfalso; revert hu; decide
  | rsaPss => exfalso; revert hu; decide

/-- C97.  The lengths of valid signatures. -/
theorem C97_lengths (hl : LawfulSigSsl lib) {v : PubKey} {data sig : Bytes} (h : v.Valid lib data sig) :
    match v with
    | .ecdsa g _ _ _ encoding =>
      if encoding = EcdsaSignatureEncoding.IEEE_P1363 then sig.length = 2 * g.fieldSize
      else sig.length ≤ 2 * g.fieldSize + 9
    | .ed25519 _ => sig.length = 64
    | .rsaPkcs1 n _ _ => sig.length = (bitLength (fromBytesBE n) + 7) / 8
    | .rsaPss n _ _ _ _ => sig.length = (bitLength (fromBytesBE n) + 7) / 8 := by
  cases v with
  | ecdsa g x y hash encoding =>
    obtain ⟨r, s, h1, h2, rfl, -⟩ := h
    dsimp only
    unfold ecdsaEncode
    split
    · rw [List.length_append, digitsBE_length, digitsBE_length]
      omega
    · have hb : ∀ n, n < 256 ^ g.fieldSize → bitLength n ≤ 8 * g.fieldSize := by
        intro n hn
        refine bitLength_lt.2 ?_
        rw [Nat.pow_mul]
        exact hn
      have b1 := hb r h1
      have b2 := hb s h2
      have hg : g.fieldSize ≤ 66 := by cases g <;> decide
      have e1 : (derInteger r).length = bitLength r / 8 + 1 + 2 := by
        unfold derInteger derElement derLength
        rw [digitsBE_length, if_pos (by omega)]
        simp only [List.length_cons, List.length_append, digitsBE_length, List.length_nil]
        omega
      have e2 : (derInteger s).length = bitLength s / 8 + 1 + 2 := by
        unfold derInteger derElement derLength
        rw [digitsBE_length, if_pos (by omega)]
        simp only [List.length_cons, List.length_append, digitsBE_length, List.length_nil]
        omega
      unfold derSignature derElement derLength
      rw [List.length_cons, List.length_append, List.length_append, e1, e2]
      split
      · simp only [List.length_cons, List.length_nil]
        omega
      · have : bnNumBytes (bitLength r / 8 + 1 + 2 + (bitLength s / 8 + 1 + 2)) ≤ 1 := by
          have : bitLength (bitLength r / 8 + 1 + 2 + (bitLength s / 8 + 1 + 2)) ≤ 8 :=
            bitLength_lt.2 (by omega)
          unfold bnNumBytes
          omega
        simp only [List.length_cons, digitsBE_length]
        omega
  | ed25519 pub => exact h.1
  | rsaPkcs1 n e hash => exact hl.rsaSize _ _ _ _ _ h
  | rsaPss n e h1 h2 salt =>
    obtain ⟨em, g1, -⟩ := h
    exact (hl.rsaRawSize _ _ _ _ g1).1

/-- C97, violation.  A public RSA-SSA-PSS key with a salt that does not fit is accepted, but its primitive
refuses every signature. -/
theorem C97_pss_refuses (hl : LawfulSigSsl lib) {kd : KeyData} {cc : Cpp.KeyManager Cpp.PublicKeyVerify}
    (hcc : ccVerify lib kd.typeUrl = some cc) {n e : Bytes} {hash : EnumVal} {salt : Int} {h : Nat}
    (hs : PubKey.StoredIn kd.typeUrl kd.value (.rsaPss n e hash hash salt)) (hn : RsaOk n e)
    (hh : SafeHash hash) (hd : Digest hash h) (h0 : 0 ≤ salt) (hfit : ¬ SaltFits (fromBytesBE n) h salt) :
    ∃ a, cc.getPrimitive kd = .ok a ∧ ∀ sig data, a.verify sig data ≠ .ok () := by
  obtain ⟨a, ha⟩ := (C96_verify_keys hl hcc).2 ⟨_, hs, hn, hh, rfl, h0⟩
  refine ⟨a, ha, fun sig data hv => hfit ?_⟩
  obtain ⟨v, g1, -, g3⟩ := C97_verify hl hcc ha
  cases (C97_unique hl).2 _ _ hs g1
  obtain ⟨em, -, hc⟩ := (g3 _ _).1 hv
  exact hl.pssFits _ _ _ _ _ _ hh hd (hl.digest _ _ _ hd) h0 hc

end

/-! ## Examples, and keys whose parts do not match -/

namespace SignatureExamples
open ToySig

def exampleKey (name : PStr) (b : Py Bytes) (material : EnumVal) : KeyData where
  typeUrl := ps! "type.googleapis.com/google.crypto.tink." ++ name
  value := (b.toOption).getD []
  keyMaterialType := material

/-- Signs with the key, and verifies with its public part. -/
def roundTrip (kd : KeyData) (seed : Seed) (data : Bytes) : Option (Bytes × Bool) := do
  let cc ← ccSign lib kd.typeUrl
  let a ← (cc.getPrimitive kd).toOption
  let f ← cc.publicKeyData
  let pub ← (f kd.value).toOption
  let ccv ← ccVerify lib pub.typeUrl
  let v ← (ccv.getPrimitive pub).toOption
  let sig ← (a.sign seed data).toOption
  return (sig, (v.verify sig data).toOption.isSome)

/-- The same with a new key. -/
def newRoundTrip (name : PStr) (format : Py Bytes) (seed : Seed) (data : Bytes) : Option (Bytes × Bool) := do
  let cc ← ccSign lib (ps! "type.googleapis.com/google.crypto.tink." ++ name)
  let b ← format.toOption
  let kd ← (cc.newKeyData seed b).toOption
  roundTrip kd 3 data

def ecdsaFormat (encoding : EnumVal) : Py Bytes := EcdsaKeyFormat.serializeToString
  { params := some { hashType := HashType.SHA256, curve := EllipticCurveType.NIST_P256, encoding := encoding } }

example : (newRoundTrip (ps! "EcdsaPrivateKey") (ecdsaFormat EcdsaSignatureEncoding.DER) 5 (by! "data to be signed")).map
    (fun r => (r.1.take 8, r.1.length, r.2)) = some ([0x30, 30, 2, 1, 4, 2, 25, 32], 32, true) := by decide +kernel

example : (newRoundTrip (ps! "EcdsaPrivateKey") (ecdsaFormat EcdsaSignatureEncoding.IEEE_P1363) 5
    (by! "data")).map (fun r => (r.1.length, r.2)) = some (64, true) := by decide +kernel

example : (newRoundTrip (ps! "EcdsaPrivateKey") (ecdsaFormat 7) 5 (by! "data")) = none := by decide +kernel

example : (newRoundTrip (ps! "Ed25519PrivateKey") (.ok []) 5 (by! "data")).map (fun r => (r.1.length, r.2)) =
    some (64, true) := by decide +kernel

example : (newRoundTrip (ps! "RsaSsaPkcs1PrivateKey") (RsaSsaPkcs1KeyFormat.serializeToString
    { params := some { hashType := HashType.SHA384 }, modulusSizeInBits := 3072, publicExponent := [1, 0, 1] })
    5 (by! "data")).map (fun r => (r.1.length, r.2)) = some (384, true) := by decide +kernel

def pssFormat (salt : UInt32) : Py Bytes := RsaSsaPssKeyFormat.serializeToString
  { params := some { sigHash := HashType.SHA256, mgf1Hash := HashType.SHA256, saltLength := salt }
    modulusSizeInBits := 2048, publicExponent := [1, 0, 1] }

/-- The longest salt that fits, and one byte more. -/
example : (newRoundTrip (ps! "RsaSsaPssPrivateKey") (pssFormat 222) 5 (by! "data")).map
    (fun r => (r.1.length, r.2)) = some (256, true) := by decide +kernel

example : newRoundTrip (ps! "RsaSsaPssPrivateKey") (pssFormat 223) 5 (by! "data") = none := by decide +kernel

example : ∃ k, lib.rsaGenerate 5 2048 65537 = some k := ⟨_, rfl⟩

/-- A public key with such a salt. -/
def pssPublic : KeyData := exampleKey (ps! "RsaSsaPssPublicKey") (RsaSsaPssPublicKey.serializeToString
  { params := some { sigHash := HashType.SHA256, mgf1Hash := HashType.SHA256, saltLength := 223 }
    n := digitsBE 256 (2 ^ 2047), e := [1, 0, 1] }) KeyMaterialType.ASYMMETRIC_PUBLIC

/-- The hypotheses of `C97_pss_refuses`. -/
example : ∃ cc a, ccVerify lib pssPublic.typeUrl = some cc ∧ cc.getPrimitive pssPublic = .ok a ∧
    ∀ sig data, a.verify sig data ≠ .ok () := by
  obtain ⟨cc, hcc⟩ := (C96_verify_types (lib := lib) (pubUrl := pssPublic.typeUrl)).2 ⟨_, .rsaPss⟩
  have hs : PubKey.StoredIn pssPublic.typeUrl pssPublic.value
      (.rsaPss (digitsBE 256 (2 ^ 2047)) [1, 0, 1] HashType.SHA256 HashType.SHA256 223) :=
    .rsaPss (k := { params := some { sigHash := HashType.SHA256, mgf1Hash := HashType.SHA256, saltLength := 223 }
                    n := digitsBE 256 (2 ^ 2047), e := [1, 0, 1] }) (by decide +kernel) (.mk rfl)
  obtain ⟨a, h1, h2⟩ := C97_pss_refuses lawful hcc hs ⟨by decide +kernel, by decide, by decide, by decide⟩
    (.inl rfl) .sha256 (by decide) (by unfold SaltFits; decide +kernel)
  exact ⟨cc, a, hcc, h1, h2⟩

/-- An ECDSA key whose public part is that of another private key. -/
def mixedEcdsa : KeyData := exampleKey (ps! "EcdsaPrivateKey") (EcdsaPrivateKey.serializeToString
  { publicKey := some
      { params := some { hashType := HashType.SHA256, curve := EllipticCurveType.NIST_P256
                         encoding := EcdsaSignatureEncoding.DER }
        x := [7], y := [8] }
    keyValue := [5] }) KeyMaterialType.ASYMMETRIC_PRIVATE

/-- The same for Ed25519. -/
def mixedEd25519 : KeyData := exampleKey (ps! "Ed25519PrivateKey") (Ed25519PrivateKey.serializeToString
  { keyValue := List.replicate 32 5, publicKey := some { keyValue := List.replicate 32 9 } })
  KeyMaterialType.ASYMMETRIC_PRIVATE

end SignatureExamples

open SignatureExamples in
/-- C97, violation.  Nothing checks that the public part of an ECDSA or Ed25519 key is that of its private
part: there is a primitive for such a key, and its signatures are refused with the public key. -/
theorem C97_parts_mixed : ∃ lib, LawfulSigSsl lib ∧
    ∀ kd ∈ [mixedEcdsa, mixedEd25519], ∃ cc f pub ccv a v sig, ccSign lib kd.typeUrl = some cc ∧
      cc.getPrimitive kd = .ok a ∧ cc.publicKeyData = some f ∧ f kd.value = .ok pub ∧
      ccVerify lib pub.typeUrl = some ccv ∧ ccv.getPrimitive pub = .ok v ∧
      a.sign 0 (by! "data") = .ok sig ∧ v.verify sig (by! "data") ≠ .ok () := by
  have key : ∀ kd, (roundTrip kd 0 (by! "data")).map (·.2) = some false →
      ∃ cc f pub ccv a v sig, ccSign ToySig.lib kd.typeUrl = some cc ∧
      cc.getPrimitive kd = .ok a ∧ cc.publicKeyData = some f ∧ f kd.value = .ok pub ∧
      ccVerify ToySig.lib pub.typeUrl = some ccv ∧ ccv.getPrimitive pub = .ok v ∧
      a.sign 0 (by! "data") = .ok sig ∧ v.verify sig (by! "data") ≠ .ok () := by
    intro kd h
    have ok : ∀ {α : Type} {x : StatusOr α} {y : α}, x.toOption = some y → x = .ok y := by
      intro α x y h
      cases x with
      | error _ => cases h
      | ok _ => cases h; rfl
    obtain ⟨⟨sig, r⟩, h, hr⟩ := Option.map_eq_some_iff.1 h
    unfold roundTrip at h
    obtain ⟨cc, h1, h⟩ := Option.bind_eq_some_iff.1 h
    obtain ⟨a, h2, h⟩ := Option.bind_eq_some_iff.1 h
    obtain ⟨f, h3, h⟩ := Option.bind_eq_some_iff.1 h
    obtain ⟨pub, h4, h⟩ := Option.bind_eq_some_iff.1 h
    obtain ⟨ccv, h5, h⟩ := Option.bind_eq_some_iff.1 h
    obtain ⟨v, h6, h⟩ := Option.bind_eq_some_iff.1 h
    obtain ⟨sig', h7, h⟩ := Option.bind_eq_some_iff.1 h
    cases h
    refine ⟨cc, f, pub, ccv, a, v, sig, h1, ok h2, h3, ok h4, h5, ok h6, ok h7, fun hv => ?_⟩
    rw [hv] at hr
    cases hr
  refine ⟨ToySig.lib, ToySig.lawful, fun kd hkd => key kd ?_⟩
  simp only [List.mem_cons, List.not_mem_nil, or_false] at hkd
  rcases hkd with rfl | rfl <;> decide +kernel

end Tink.Props
