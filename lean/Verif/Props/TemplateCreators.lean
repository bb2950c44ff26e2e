import Verif.Props.Templates

/-!
# C60: functions that create key templates

If a creator returns, every number given was in range and the template decodes to exactly the
parameters given.  `UInt32.ofNat n.toNat` is the number `n` itself when `0 ≤ n < 2^32`.
-/

namespace Tink.Props
open Templates
open OutputPrefixType (TINK RAW)

/-- `n` can be stored in a `uint32` field. -/
def InU32 (n : Int) : Prop := 0 ≤ n ∧ n < 4294967296

theorem setUInt32_ok {n : Int} {u : UInt32} (h : setUInt32 n = .ok u) :
    InU32 n ∧ u = UInt32.ofNat n.toNat := by
  unfold setUInt32 at h
  split at h
  · cases h; exact ⟨by assumption, rfl⟩
  · cases h

theorem setUInt32_error {n : Int} (h : ¬ InU32 n) : setUInt32 n = .error .valueError := if_neg h

theorem InU32.toNat {n : Int} (h : InU32 n) : ((UInt32.ofNat n.toNat).toNat : Int) = n := by
  obtain ⟨h0, h1⟩ := h
  rw [UInt32.toNat_ofNat']
  omega

theorem setInt32_ok {n : Int} {u : UInt32} (h : setInt32 n = .ok u) : u.toInt32.toInt = n := by
  unfold setInt32 at h
  split at h
  · rename_i hr
    cases h
    have h1 : (UInt32.ofNat (n % 4294967296).toNat).toNat = (n % 4294967296).toNat := by
      rw [UInt32.toNat_ofNat']; omega
    rw [← Int32.toInt_toBitVec, UInt32.toBitVec_toInt32, BitVec.toInt_eq_toNat_bmod,
      UInt32.toNat_toBitVec, h1]
    have h2 : ((n % 4294967296).toNat : Int) = n % 4294967296 := by omega
    rw [h2]
    simp only [Int.bmod]
    omega
  · cases h

/-- C60.  `createAesEax`. -/
theorem C60_create_aes_eax (keySize : Int) (ivSize : Int) (output : EnumVal) :
    ∀ t, createAesEax keySize ivSize output = .ok t →
      InU32 keySize ∧ InU32 ivSize ∧ 
      Decodes AesEaxKeyFormat.fromString (.ok t) (ps! "AesEaxKey") output
        { params := some { ivSize := UInt32.ofNat ivSize.toNat },
          keySize := UInt32.ofNat keySize.toNat } := by
  intro t ht
  unfold createAesEax at ht
  obtain ⟨iv, hiv, ht⟩ := bind_ok_iff.mp ht
  obtain ⟨k, hk, ht⟩ := bind_ok_iff.mp ht
  obtain ⟨w, hw, ht⟩ := bind_ok_iff.mp ht
  cases ht
  obtain ⟨riv, rfl⟩ := setUInt32_ok hiv
  obtain ⟨rk, rfl⟩ := setUInt32_ok hk
  exact ⟨rk, riv, _, rfl, rfl, rfl, AesEaxKeyFormat.fromString_serializeToString hw⟩

/-- C60.  `createAesGcm`. -/
theorem C60_create_aes_gcm (keySize : Int) (output : EnumVal) :
    ∀ t, createAesGcm keySize output = .ok t →
      InU32 keySize ∧ 
      Decodes AesGcmKeyFormat.fromString (.ok t) (ps! "AesGcmKey") output
        { keySize := UInt32.ofNat keySize.toNat } := by
  intro t ht
  unfold createAesGcm at ht
  obtain ⟨k, hk, ht⟩ := bind_ok_iff.mp ht
  obtain ⟨w, hw, ht⟩ := bind_ok_iff.mp ht
  cases ht
  obtain ⟨rk, rfl⟩ := setUInt32_ok hk
  exact ⟨rk, _, rfl, rfl, rfl, AesGcmKeyFormat.fromString_serializeToString hw⟩

/-- C60.  `createAesGcmSiv`. -/
theorem C60_create_aes_gcm_siv (keySize : Int) (output : EnumVal) :
    ∀ t, createAesGcmSiv keySize output = .ok t →
      InU32 keySize ∧ 
      Decodes AesGcmSivKeyFormat.fromString (.ok t) (ps! "AesGcmSivKey") output
        { keySize := UInt32.ofNat keySize.toNat } := by
  intro t ht
  unfold createAesGcmSiv at ht
  obtain ⟨k, hk, ht⟩ := bind_ok_iff.mp ht
  obtain ⟨w, hw, ht⟩ := bind_ok_iff.mp ht
  cases ht
  obtain ⟨rk, rfl⟩ := setUInt32_ok hk
  exact ⟨rk, _, rfl, rfl, rfl, AesGcmSivKeyFormat.fromString_serializeToString hw⟩

/-- C60.  `createAesCtrHmacAead`. -/
theorem C60_create_aes_ctr_hmac_aead (aesKeySize : Int) (ivSize : Int) (hmacKeySize : Int) (tagSize : Int) (hash : EnumVal) (output : EnumVal) :
    ∀ t, createAesCtrHmacAead aesKeySize ivSize hmacKeySize tagSize hash output = .ok t →
      InU32 aesKeySize ∧ InU32 ivSize ∧ InU32 hmacKeySize ∧ InU32 tagSize ∧ 
      Decodes AesCtrHmacAeadKeyFormat.fromString (.ok t) (ps! "AesCtrHmacAeadKey") output
        { aesCtrKeyFormat := some { params := some { ivSize := UInt32.ofNat ivSize.toNat },
                                    keySize := UInt32.ofNat aesKeySize.toNat },
          hmacKeyFormat := some { params := some { hash := hash,
                                                   tagSize := UInt32.ofNat tagSize.toNat },
                                  keySize := UInt32.ofNat hmacKeySize.toNat } } := by
  intro t ht
  unfold createAesCtrHmacAead at ht
  obtain ⟨iv, hiv, ht⟩ := bind_ok_iff.mp ht
  obtain ⟨ak, hak, ht⟩ := bind_ok_iff.mp ht
  obtain ⟨tag, htag, ht⟩ := bind_ok_iff.mp ht
  obtain ⟨hk, hhk, ht⟩ := bind_ok_iff.mp ht
  obtain ⟨w, hw, ht⟩ := bind_ok_iff.mp ht
  cases ht
  obtain ⟨riv, rfl⟩ := setUInt32_ok hiv
  obtain ⟨rak, rfl⟩ := setUInt32_ok hak
  obtain ⟨rtag, rfl⟩ := setUInt32_ok htag
  obtain ⟨rhk, rfl⟩ := setUInt32_ok hhk
  exact ⟨rak, riv, rhk, rtag, _, rfl, rfl, rfl, AesCtrHmacAeadKeyFormat.fromString_serializeToString hw⟩

/-- C60.  `Mac.createHmac`. -/
theorem C60_create_mac_hmac (keySize : Int) (tagSize : Int) (hash : EnumVal) :
    ∀ t, Mac.createHmac keySize tagSize hash = .ok t →
      InU32 keySize ∧ InU32 tagSize ∧ 
      Decodes HmacKeyFormat.fromString (.ok t) (ps! "HmacKey") TINK
        { params := some { hash := hash, tagSize := UInt32.ofNat tagSize.toNat },
          keySize := UInt32.ofNat keySize.toNat } := by
  intro t ht
  unfold Mac.createHmac at ht
  obtain ⟨tag, htag, ht⟩ := bind_ok_iff.mp ht
  obtain ⟨k, hk, ht⟩ := bind_ok_iff.mp ht
  obtain ⟨w, hw, ht⟩ := bind_ok_iff.mp ht
  cases ht
  obtain ⟨rtag, rfl⟩ := setUInt32_ok htag
  obtain ⟨rk, rfl⟩ := setUInt32_ok hk
  exact ⟨rk, rtag, _, rfl, rfl, rfl, HmacKeyFormat.fromString_serializeToString hw⟩

/-- C60.  `Mac.createAesCmac`. -/
theorem C60_create_mac_aes_cmac (keySize : Int) (tagSize : Int) :
    ∀ t, Mac.createAesCmac keySize tagSize = .ok t →
      InU32 keySize ∧ InU32 tagSize ∧ 
      Decodes AesCmacKeyFormat.fromString (.ok t) (ps! "AesCmacKey") TINK
        { keySize := UInt32.ofNat keySize.toNat,
          params := some { tagSize := UInt32.ofNat tagSize.toNat } } := by
  intro t ht
  unfold Mac.createAesCmac at ht
  obtain ⟨k, hk, ht⟩ := bind_ok_iff.mp ht
  obtain ⟨tag, htag, ht⟩ := bind_ok_iff.mp ht
  obtain ⟨w, hw, ht⟩ := bind_ok_iff.mp ht
  cases ht
  obtain ⟨rk, rfl⟩ := setUInt32_ok hk
  obtain ⟨rtag, rfl⟩ := setUInt32_ok htag
  exact ⟨rk, rtag, _, rfl, rfl, rfl, AesCmacKeyFormat.fromString_serializeToString hw⟩

/-- C60.  `createAesSiv`. -/
theorem C60_create_aes_siv (keySize : Int) :
    ∀ t, createAesSiv keySize = .ok t →
      InU32 keySize ∧ 
      Decodes AesSivKeyFormat.fromString (.ok t) (ps! "AesSivKey") TINK
        { keySize := UInt32.ofNat keySize.toNat } := by
  intro t ht
  unfold createAesSiv at ht
  obtain ⟨k, hk, ht⟩ := bind_ok_iff.mp ht
  obtain ⟨w, hw, ht⟩ := bind_ok_iff.mp ht
  cases ht
  obtain ⟨rk, rfl⟩ := setUInt32_ok hk
  exact ⟨rk, _, rfl, rfl, rfl, AesSivKeyFormat.fromString_serializeToString hw⟩

/-- C60.  `Prf.createAesCmac`. -/
theorem C60_create_prf_aes_cmac (keySize : Int) :
    ∀ t, Prf.createAesCmac keySize = .ok t →
      InU32 keySize ∧ 
      Decodes AesCmacPrfKeyFormat.fromString (.ok t) (ps! "AesCmacPrfKey") RAW
        { keySize := UInt32.ofNat keySize.toNat } := by
  intro t ht
  unfold Prf.createAesCmac at ht
  obtain ⟨k, hk, ht⟩ := bind_ok_iff.mp ht
  obtain ⟨w, hw, ht⟩ := bind_ok_iff.mp ht
  cases ht
  obtain ⟨rk, rfl⟩ := setUInt32_ok hk
  exact ⟨rk, _, rfl, rfl, rfl, AesCmacPrfKeyFormat.fromString_serializeToString hw⟩

/-- C60.  `Prf.createHmac`. -/
theorem C60_create_prf_hmac (keySize : Int) (hash : EnumVal) :
    ∀ t, Prf.createHmac keySize hash = .ok t →
      InU32 keySize ∧ 
      Decodes HmacPrfKeyFormat.fromString (.ok t) (ps! "HmacPrfKey") RAW
        { params := some { hash := hash }, keySize := UInt32.ofNat keySize.toNat } := by
  intro t ht
  unfold Prf.createHmac at ht
  obtain ⟨k, hk, ht⟩ := bind_ok_iff.mp ht
  obtain ⟨w, hw, ht⟩ := bind_ok_iff.mp ht
  cases ht
  obtain ⟨rk, rfl⟩ := setUInt32_ok hk
  exact ⟨rk, _, rfl, rfl, rfl, HmacPrfKeyFormat.fromString_serializeToString hw⟩

/-- C60.  `Prf.createHkdf`. -/
theorem C60_create_prf_hkdf (keySize : Int) (hash : EnumVal) :
    ∀ t, Prf.createHkdf keySize hash = .ok t →
      InU32 keySize ∧ 
      Decodes HkdfPrfKeyFormat.fromString (.ok t) (ps! "HkdfPrfKey") RAW
        { params := some { hash := hash }, keySize := UInt32.ofNat keySize.toNat } := by
  intro t ht
  unfold Prf.createHkdf at ht
  obtain ⟨k, hk, ht⟩ := bind_ok_iff.mp ht
  obtain ⟨w, hw, ht⟩ := bind_ok_iff.mp ht
  cases ht
  obtain ⟨rk, rfl⟩ := setUInt32_ok hk
  exact ⟨rk, _, rfl, rfl, rfl, HkdfPrfKeyFormat.fromString_serializeToString hw⟩

/-- C60.  `Streaming.createAesGcmHkdf`. -/
theorem C60_create_streaming_aes_gcm_hkdf (aesKeySize : Int) (hash : EnumVal) (derivedKeySize : Int) (segmentSize : Int) :
    ∀ t, Streaming.createAesGcmHkdf aesKeySize hash derivedKeySize segmentSize = .ok t →
      InU32 aesKeySize ∧ InU32 derivedKeySize ∧ InU32 segmentSize ∧ 
      Decodes AesGcmHkdfStreamingKeyFormat.fromString (.ok t) (ps! "AesGcmHkdfStreamingKey") RAW
        { params := some { ciphertextSegmentSize := UInt32.ofNat segmentSize.toNat,
                           derivedKeySize := UInt32.ofNat derivedKeySize.toNat,
                           hkdfHashType := hash },
          keySize := UInt32.ofNat aesKeySize.toNat } := by
  intro t ht
  unfold Streaming.createAesGcmHkdf at ht
  obtain ⟨k, hk, ht⟩ := bind_ok_iff.mp ht
  obtain ⟨d, hd, ht⟩ := bind_ok_iff.mp ht
  obtain ⟨s, hs, ht⟩ := bind_ok_iff.mp ht
  obtain ⟨w, hw, ht⟩ := bind_ok_iff.mp ht
  cases ht
  obtain ⟨rk, rfl⟩ := setUInt32_ok hk
  obtain ⟨rd, rfl⟩ := setUInt32_ok hd
  obtain ⟨rs, rfl⟩ := setUInt32_ok hs
  exact ⟨rk, rd, rs, _, rfl, rfl, rfl, AesGcmHkdfStreamingKeyFormat.fromString_serializeToString hw⟩

/-- C60.  `Streaming.createAesCtrHmac`. -/
theorem C60_create_streaming_aes_ctr_hmac (aesKeySize : Int) (hkdfHash : EnumVal) (derivedKeySize : Int) (macHash : EnumVal) (tagSize : Int) (segmentSize : Int) :
    ∀ t, Streaming.createAesCtrHmac aesKeySize hkdfHash derivedKeySize macHash tagSize segmentSize = .ok t →
      InU32 aesKeySize ∧ InU32 derivedKeySize ∧ InU32 tagSize ∧ InU32 segmentSize ∧ 
      Decodes AesCtrHmacStreamingKeyFormat.fromString (.ok t) (ps! "AesCtrHmacStreamingKey") RAW
        { params := some { ciphertextSegmentSize := UInt32.ofNat segmentSize.toNat,
                           derivedKeySize := UInt32.ofNat derivedKeySize.toNat,
                           hkdfHashType := hkdfHash,
                           hmacParams := some { hash := macHash,
                                                tagSize := UInt32.ofNat tagSize.toNat } },
          keySize := UInt32.ofNat aesKeySize.toNat } := by
  intro t ht
  unfold Streaming.createAesCtrHmac at ht
  obtain ⟨k, hk, ht⟩ := bind_ok_iff.mp ht
  obtain ⟨s, hs, ht⟩ := bind_ok_iff.mp ht
  obtain ⟨d, hd, ht⟩ := bind_ok_iff.mp ht
  obtain ⟨tag, htag, ht⟩ := bind_ok_iff.mp ht
  obtain ⟨w, hw, ht⟩ := bind_ok_iff.mp ht
  cases ht
  obtain ⟨rk, rfl⟩ := setUInt32_ok hk
  obtain ⟨rs, rfl⟩ := setUInt32_ok hs
  obtain ⟨rd, rfl⟩ := setUInt32_ok hd
  obtain ⟨rtag, rfl⟩ := setUInt32_ok htag
  exact ⟨rk, rd, rtag, rs, _, rfl, rfl, rfl, AesCtrHmacStreamingKeyFormat.fromString_serializeToString hw⟩

/-- C60.  `createEciesAeadHkdf`. -/
theorem C60_create_ecies (curve : EnumVal) (pointFormat : EnumVal) (hash : EnumVal) (dem : KeyTemplate) :
    ∀ t, createEciesAeadHkdf curve pointFormat hash dem = .ok t →
      
      Decodes EciesAeadHkdfKeyFormat.fromString (.ok t) (ps! "EciesAeadHkdfPrivateKey") TINK
        { params := some { kemParams := some { curveType := curve, hkdfHashType := hash },
                           demParams := some { aeadDem := some dem },
                           ecPointFormat := pointFormat } } := by
  intro t ht
  unfold createEciesAeadHkdf at ht
  obtain ⟨w, hw, ht⟩ := bind_ok_iff.mp ht
  cases ht
  exact ⟨_, rfl, rfl, rfl, EciesAeadHkdfKeyFormat.fromString_serializeToString hw⟩

/-- C60.  `createHpke`. -/
theorem C60_create_hpke (kem : EnumVal) (kdf : EnumVal) (aead : EnumVal) (output : EnumVal) :
    ∀ t, createHpke kem kdf aead output = .ok t →
      
      Decodes HpkeKeyFormat.fromString (.ok t) (ps! "HpkePrivateKey") output
        { params := some { kem := kem, kdf := kdf, aead := aead } } := by
  intro t ht
  unfold createHpke at ht
  obtain ⟨w, hw, ht⟩ := bind_ok_iff.mp ht
  cases ht
  exact ⟨_, rfl, rfl, rfl, HpkeKeyFormat.fromString_serializeToString hw⟩

/-- C60.  `createEcdsa`. -/
theorem C60_create_ecdsa (hash : EnumVal) (curve : EnumVal) (encoding : EnumVal) (output : EnumVal) :
    ∀ t, createEcdsa hash curve encoding output = .ok t →
      
      Decodes EcdsaKeyFormat.fromString (.ok t) (ps! "EcdsaPrivateKey") output
        { params := some { hashType := hash, curve := curve, encoding := encoding } } := by
  intro t ht
  unfold createEcdsa at ht
  obtain ⟨w, hw, ht⟩ := bind_ok_iff.mp ht
  cases ht
  exact ⟨_, rfl, rfl, rfl, EcdsaKeyFormat.fromString_serializeToString hw⟩

theorem numToBytes_value {n : Int} {b : Bytes} (h : numToBytes n = .ok b) :
    (fromBytesBE b : Int) = n := by
  by_cases h0 : n < 0
  · rw [C58_negative h0] at h; cases h
  · obtain ⟨b', hb, hv⟩ := C58_value (n := n) (by omega)
    rw [hb] at h; cases h; exact hv

theorem numToBytes_head {n : Int} {b : Bytes} (h : numToBytes n = .ok b) :
    b.head? = some 0 → b = [0] := by
  rcases C58_no_leading_zero h with ⟨_, rfl⟩ | ⟨x, r, rfl, hx⟩
  · exact fun _ => rfl
  · intro h0; simp at h0; exact absurd h0 hx

/-- C60.  `createRsaSsaPkcs1`. -/
theorem C60_create_rsa_ssa_pkcs1 (hash : EnumVal) (modulusSize : Int) (publicExponent : Int) :
    ∀ t, createRsaSsaPkcs1 hash modulusSize publicExponent = .ok t →
      ∃ e, (fromBytesBE e : Int) = publicExponent ∧ (e.head? = some 0 → e = [0]) ∧
      InU32 modulusSize ∧ 
      Decodes RsaSsaPkcs1KeyFormat.fromString (.ok t) (ps! "RsaSsaPkcs1PrivateKey") TINK
        { params := some { hashType := hash },
          modulusSizeInBits := UInt32.ofNat modulusSize.toNat,
          publicExponent := e } := by
  intro t ht
  unfold createRsaSsaPkcs1 at ht
  obtain ⟨e, he, ht⟩ := bind_ok_iff.mp ht
  obtain ⟨m, hm, ht⟩ := bind_ok_iff.mp ht
  obtain ⟨w, hw, ht⟩ := bind_ok_iff.mp ht
  cases ht
  obtain ⟨rm, rfl⟩ := setUInt32_ok hm
  exact ⟨e, numToBytes_value he, numToBytes_head he, rm, _, rfl, rfl, rfl, RsaSsaPkcs1KeyFormat.fromString_serializeToString hw⟩

/-- C60.  `createRsaSsaPss`. -/
theorem C60_create_rsa_ssa_pss (sigHash : EnumVal) (mgf1Hash : EnumVal) (saltLength : Int) (modulusSize : Int) (publicExponent : Int) :
    ∀ t, createRsaSsaPss sigHash mgf1Hash saltLength modulusSize publicExponent = .ok t →
      ∃ e, (fromBytesBE e : Int) = publicExponent ∧ (e.head? = some 0 → e = [0]) ∧
      ∃ salt : UInt32, salt.toInt32.toInt = saltLength ∧
      InU32 modulusSize ∧ 
      Decodes RsaSsaPssKeyFormat.fromString (.ok t) (ps! "RsaSsaPssPrivateKey") TINK
        { params := some { sigHash := sigHash, mgf1Hash := mgf1Hash, saltLength := salt },
          modulusSizeInBits := UInt32.ofNat modulusSize.toNat,
          publicExponent := e } := by
  intro t ht
  unfold createRsaSsaPss at ht
  obtain ⟨salt, hsalt, ht⟩ := bind_ok_iff.mp ht
  obtain ⟨e, he, ht⟩ := bind_ok_iff.mp ht
  obtain ⟨m, hm, ht⟩ := bind_ok_iff.mp ht
  obtain ⟨w, hw, ht⟩ := bind_ok_iff.mp ht
  cases ht
  obtain ⟨rm, rfl⟩ := setUInt32_ok hm
  exact ⟨e, numToBytes_value he, numToBytes_head he, salt, setInt32_ok hsalt, rm, _, rfl, rfl, rfl, RsaSsaPssKeyFormat.fromString_serializeToString hw⟩

/-- C60.  A number that does not fit its field is refused with `ValueError`, not truncated. -/
theorem C60_create_out_of_range (output hash : EnumVal) :
    (∀ k iv, ¬ (InU32 k ∧ InU32 iv) → createAesEax k iv output = .error .valueError) ∧
    (∀ k, ¬ InU32 k → createAesGcm k output = .error .valueError) ∧
    (∀ k, ¬ InU32 k → createAesGcmSiv k output = .error .valueError) ∧
    (∀ k iv hk tag, ¬ (InU32 k ∧ InU32 iv ∧ InU32 hk ∧ InU32 tag) →
      createAesCtrHmacAead k iv hk tag hash output = .error .valueError) ∧
    (∀ k tag, ¬ (InU32 k ∧ InU32 tag) → Mac.createHmac k tag hash = .error .valueError) ∧
    (∀ k tag, ¬ (InU32 k ∧ InU32 tag) → Mac.createAesCmac k tag = .error .valueError) ∧
    (∀ k, ¬ InU32 k → createAesSiv k = .error .valueError) ∧
    (∀ k d s, ¬ (InU32 k ∧ InU32 d ∧ InU32 s) →
      Streaming.createAesGcmHkdf k hash d s = .error .valueError) ∧
    (∀ k d tag s mac, ¬ (InU32 k ∧ InU32 d ∧ InU32 tag ∧ InU32 s) →
      Streaming.createAesCtrHmac k hash d mac tag s = .error .valueError) := by
  have key : ∀ n, (∃ u, setUInt32 n = .ok u ∧ InU32 n) ∨ setUInt32 n = .error .valueError := by
    intro n
    by_cases h : InU32 n
    · exact .inl ⟨_, if_pos h, h⟩
    · exact .inr (if_neg h)
  refine ⟨?_, ?_, ?_, ?_, ?_, ?_, ?_, ?_, ?_⟩
  · intro k iv h
    rcases key iv with ⟨a, ha, ia⟩ | ha <;> rcases key k with ⟨b, hb, ib⟩ | hb <;>
      simp_all [createAesEax, bind, Except.bind]
  · intro k h
    simp [createAesGcm, setUInt32_error h, bind, Except.bind]
  · intro k h
    simp [createAesGcmSiv, setUInt32_error h, bind, Except.bind]
  · intro k iv hk tag h
    rcases key iv with ⟨a, ha, ia⟩ | ha <;> rcases key k with ⟨b, hb, ib⟩ | hb <;>
    rcases key hk with ⟨c, hc, ic⟩ | hc <;> rcases key tag with ⟨d, hd, id⟩ | hd <;>
      simp_all [createAesCtrHmacAead, bind, Except.bind]
  · intro k tag h
    rcases key k with ⟨b, hb, ib⟩ | hb <;> rcases key tag with ⟨d, hd, id⟩ | hd <;>
      simp_all [Mac.createHmac, bind, Except.bind]
  · intro k tag h
    rcases key k with ⟨b, hb, ib⟩ | hb <;> rcases key tag with ⟨d, hd, id⟩ | hd <;>
      simp_all [Mac.createAesCmac, bind, Except.bind]
  · intro k h
    simp [createAesSiv, setUInt32_error h, bind, Except.bind]
  · intro k d s h
    rcases key k with ⟨b, hb, ib⟩ | hb <;> rcases key d with ⟨c, hc, ic⟩ | hc <;>
    rcases key s with ⟨e, he, ie⟩ | he <;>
      simp_all [Streaming.createAesGcmHkdf, bind, Except.bind]
  · intro k d tag s mac h
    rcases key k with ⟨b, hb, ib⟩ | hb <;> rcases key d with ⟨c, hc, ic⟩ | hc <;>
    rcases key s with ⟨e, he, ie⟩ | he <;> rcases key tag with ⟨f, hf, if'⟩ | hf <;>
      simp_all [Streaming.createAesCtrHmac, bind, Except.bind]

example : (createAesEax 32 12 RAW).isOk = true := by decide +kernel
example : (createRsaSsaPss HashType.SHA512 HashType.SHA512 64 4096 65537).isOk = true := by
  decide +kernel
example : (createRsaSsaPss HashType.SHA512 HashType.SHA512 64 4096 (-3)) = .error .overflowError := by
  decide +kernel

end Tink.Props
