import Verif.Props.RotationExamples
import Verif.Props.RotationJwtWorks

/-!
# C109: examples for JWT
-/

namespace Tink.Props
open Spec Cc

namespace RotationKeysetsExample

/-! ## MAC -/

section
open Jwt ToyJwt JwtMacKeysExample

theorem opsWith_only {ts : List (Py KeyTemplate)} {t : KeyTemplate} (ht : .ok t ∈ ts) : OnlyFrom ts (opsWith t) := by
  intro seed draws t' h
  simp only [opsWith, List.mem_cons, List.not_mem_nil, or_false, BuilderOp.addNewKey.injEq, reduceCtorEq] at h
  obtain ⟨-, -, rfl⟩ := h
  exact ht

theorem revokingWith_only {ts : List (Py KeyTemplate)} {t : KeyTemplate} (ht : .ok t ∈ ts) :
    OnlyFrom ts (revokingWith t) := by
  intro seed draws t' h
  simp only [revokingWith, opsWith, List.mem_append, List.mem_cons, List.not_mem_nil, or_false,
    BuilderOp.addNewKey.injEq, reduceCtorEq] at h
  obtain ⟨-, -, rfl⟩ := h
  exact ht

def newJwtMac : KeyTemplate := Templates.jwt_hs512_template.toOption.getD {}

theorem newJwtMac_mem : .ok newJwtMac ∈ jwsMacTemplates := by
  unfold newJwtMac
  rw [← toOption_ok (by decide +kernel)]
  simp [jwsMacTemplates]

/-- The primary key of the example for C95, two more of the kind, and a destroyed one. -/
def jwtMacHandle : KeysetHandle where
  keyset := ⟨7, [⟨none, KeyStatusType.DESTROYED, 3, OutputPrefixType.UNKNOWN_PREFIX⟩,
    { JwtMacKeysExample.key1 with keyId := 5 }, { JwtMacKeysExample.key1 with keyId := 9 },
    JwtMacKeysExample.key1]⟩

theorem jwtMac_usable : TokenUsableExcept [3] GoodTokenMac jwtMacHandle.keyset := by
  intro k hk
  simp only [jwtMacHandle, List.mem_cons, List.not_mem_nil, or_false] at hk
  rcases hk with rfl | rfl | rfl | rfl
  · exact .inr ⟨by decide, by decide⟩
  · exact .inl ⟨.inr rfl, JwtMacKeysExample.fits (by decide +kernel), _, _, _, _, JwtMacKeysExample.holds1⟩
  · exact .inl ⟨.inr rfl, JwtMacKeysExample.fits (by decide +kernel), _, _, _, _, JwtMacKeysExample.holds1⟩
  · exact .inl ⟨.inr rfl, JwtMacKeysExample.fits (by decide +kernel), _, _, _, _, JwtMacKeysExample.holds1⟩

theorem jwtMac_rotates : rotates JwtMacKeysExample.registry jwtMacHandle (opsWith newJwtMac) = true := by
  decide +kernel
theorem jwtMac_revokes : rotates JwtMacKeysExample.registry jwtMacHandle (revokingWith newJwtMac) = true := by
  decide +kernel
theorem jwtMac_stays : rotates JwtMacKeysExample.registry jwtMacHandle [] = true := by decide +kernel

/-- The hypotheses of `C109_jwt_mac_works`, `C109_jwt_mac`, `C109_jwt_mac_names` and `C109_jwt_mac_revoked`: a token is made,
accepted after the rotation, and refused after its key has been deleted. -/
example : ∃ h' h'' p p' p'' compact,
    Rotated JwtMacKeysExample.registry jwtMacHandle (opsWith newJwtMac) h' ∧
    Rotated JwtMacKeysExample.registry jwtMacHandle (revokingWith newJwtMac) h'' ∧
    jwtMacHandle.primitive ToyJwt.isInst JwtMacKeysExample.registry .mac = .ok p ∧
    h'.primitive ToyJwt.isInst JwtMacKeysExample.registry .mac = .ok p' ∧
    h''.primitive ToyJwt.isInst JwtMacKeysExample.registry .mac = .ok p'' ∧
    (JwtMacKeysExample.library.mac.view p).computeMacAndEncode token = .ok compact ∧
    (JwtMacKeysExample.library.mac.view p').verifyMacAndDecode clock compact validator = .ok ⟨written args token⟩ ∧
    ∀ clock v a, (JwtMacKeysExample.library.mac.view p'').verifyMacAndDecode clock compact v ≠ .ok a := by
  have hr := JwtMacKeysExample.registered
  obtain ⟨h', H⟩ := exists_rotated jwtMac_rotates
  obtain ⟨h'', H'⟩ := exists_rotated jwtMac_revokes
  obtain ⟨-, p, hp⟩ := C109_jwt_mac_works JwtMacKeysExample.cc instances ToySsl.lawful hr (rotated_nil jwtMac_stays)
    (by intro _ _ _ h; cases h) (by intro _ _ h; cases h) jwtMac_usable
  obtain ⟨-, p', hp'⟩ := C109_jwt_mac_works JwtMacKeysExample.cc instances ToySsl.lawful hr H
    (opsWith_only newJwtMac_mem) (by simp [NeverEnables, opsWith]) jwtMac_usable
  obtain ⟨-, p'', hp''⟩ := C109_jwt_mac_works JwtMacKeysExample.cc instances ToySsl.lawful hr H'
    (revokingWith_only newJwtMac_mem) (by simp [NeverEnables, revokingWith, opsWith]) jwtMac_usable
  have hm : JwtMacKeysExample.key1 ∈ jwtMacHandle.keyset.key := by simp [jwtMacHandle]
  obtain ⟨kps, O⟩ := jwtMac_obtained hr hp
  obtain ⟨o, ho⟩ := isPrimary_of_key (rotated_iff_run (rotated_nil jwtMac_stays)).2 O.keys.1 hm ⟨rfl, rfl⟩
  obtain ⟨compact, he⟩ := C41_mac_encodes O hr.only ToyJson.lawful ho
    (.inr fun alg' ck h1 => (h1.unique (JwsMacKey.token JwtMacKeysExample.holds1)).2)
    (fun data mac hm => (jwtMac_tinkErrors JwtMacKeysExample.cc ToySsl.lawful hm).2.1) token_created
    (value_ok (d := []) (by decide +kernel))
  refine ⟨h', h'', p, p', p'', compact, H, H', hp, hp', hp'', he, ?_, fun clock v a ha => ?_⟩
  · exact C109_jwt_mac JwtMacKeysExample.cc ToySsl.lawful hr ToyJson.lawful lawfulUpper H hp hp' hm ⟨rfl, rfl⟩
      (opsWith_spares _) token_created token_valid args_type he (by decide +kernel)
  · have hn := C109_jwt_mac_names JwtMacKeysExample.cc ToySsl.lawful hr ToyJson.lawful hp hm ⟨rfl, rfl⟩ rfl
      token_created token_valid args_type he
    obtain ⟨k', h1, -, h2, -⟩ := C109_jwt_mac_revoked JwtMacKeysExample.cc instances ToySsl.lawful hr lawfulUpper H' hp''
      (k := JwtMacKeysExample.key1) (by decide) (by unfold AtMostOne; decide +kernel) rfl keepsOut rfl hn ha
    exact noRaw (fun k hk => by revert k; decide +kernel) (by decide +kernel) H' k' h1 h2

end

section
open Jwt ToyJwt JwtSignatureKeysExample

def newJwtSign : KeyTemplate := Templates.jwt_es512_template.toOption.getD {}

theorem newJwtSign_mem : .ok newJwtSign ∈ jwsTemplates := by
  unfold newJwtSign
  rw [← toOption_ok (by decide +kernel)]
  simp [jwsTemplates]

def jwtSignHandle : KeysetHandle where
  keyset := ⟨7, [{ JwtSignatureKeysExample.key1 with keyId := 5 }, { JwtSignatureKeysExample.key1 with keyId := 9 },
    JwtSignatureKeysExample.key1]⟩

theorem jwtSign_matches : JwtSignatureKeysExample.secret1.Matches ToySig.lib := by
  unfold SigKey.Matches JwtSignatureKeysExample.secret1
  decide +kernel

theorem jwtSign_good : GoodTokenSign ToySig.lib JwtSignatureKeysExample.key1.data :=
  ⟨by decide +kernel, rfl, _, _, JwtSignatureKeysExample.holds1, ok1, jwtSign_matches, by decide⟩

theorem jwtSign_usable : AllTokenUsable (GoodTokenSign ToySig.lib) jwtSignHandle.keyset := by
  intro k hk
  simp only [jwtSignHandle, List.mem_cons, List.not_mem_nil, or_false] at hk
  rcases hk with rfl | rfl | rfl
  · exact ⟨.inr rfl, JwtSignatureKeysExample.fits (by decide +kernel), jwtSign_good⟩
  · exact ⟨.inr rfl, JwtSignatureKeysExample.fits (by decide +kernel), jwtSign_good⟩
  · exact ⟨.inr rfl, JwtSignatureKeysExample.fits (by decide +kernel), jwtSign_good⟩

theorem jwtSign_rotates : rotates JwtSignatureKeysExample.registry jwtSignHandle (opsWith newJwtSign) = true := by
  decide +kernel
theorem jwtSign_revokes : rotates JwtSignatureKeysExample.registry jwtSignHandle (revokingWith newJwtSign) = true := by
  decide +kernel
theorem jwtSign_stays : rotates JwtSignatureKeysExample.registry jwtSignHandle [] = true := by decide +kernel

/-- The hypotheses of `C109_jwt_signature_works`, `C109_jwt_signature`, `C109_jwt_signature_names` and
`C109_jwt_signature_revoked`. -/
example : ∃ h' h'' pub' pub'' p p' p'' compact,
    Rotated JwtSignatureKeysExample.registry jwtSignHandle (opsWith newJwtSign) h' ∧
    Rotated JwtSignatureKeysExample.registry jwtSignHandle (revokingWith newJwtSign) h'' ∧
    jwtSignHandle.primitive ToyJwt.isInst JwtSignatureKeysExample.registry .sign = .ok p ∧
    h'.publicKeysetHandle JwtSignatureKeysExample.registry = .ok pub' ∧
    pub'.primitive ToyJwt.isInst JwtSignatureKeysExample.registry .verify = .ok p' ∧
    h''.publicKeysetHandle JwtSignatureKeysExample.registry = .ok pub'' ∧
    pub''.primitive ToyJwt.isInst JwtSignatureKeysExample.registry .verify = .ok p'' ∧
    (JwtSignatureKeysExample.library.sign.view p).signAndEncode 3 token = .ok compact ∧
    (JwtSignatureKeysExample.library.verify.view p').verifyAndDecode clock compact validator =
      .ok ⟨written args token⟩ ∧
    ∀ clock v a, (JwtSignatureKeysExample.library.verify.view p'').verifyAndDecode clock compact v ≠ .ok a := by
  have hr := JwtSignatureKeysExample.registered
  obtain ⟨h', H⟩ := exists_rotated jwtSign_rotates
  obtain ⟨h'', H'⟩ := exists_rotated jwtSign_revokes
  obtain ⟨-, ⟨p, hp⟩, -⟩ := C109_jwt_signature_works ccs ccv classes ToySig.lawful hr (rotated_nil jwtSign_stays)
    (by intro _ _ _ h; cases h) jwtSign_usable
  obtain ⟨hu', -, pub', p', hpub', hp'⟩ := C109_jwt_signature_works ccs ccv classes ToySig.lawful hr H
    (opsWith_only newJwtSign_mem) jwtSign_usable
  obtain ⟨hu'', -, pub'', p'', hpub'', hp''⟩ := C109_jwt_signature_works ccs ccv classes ToySig.lawful hr H'
    (revokingWith_only newJwtSign_mem) jwtSign_usable
  have hm : JwtSignatureKeysExample.key1 ∈ jwtSignHandle.keyset.key := by simp [jwtSignHandle]
  obtain ⟨kps, O⟩ := jwtSign_obtained hr hp
  obtain ⟨o, ho⟩ := isPrimary_of_key (rotated_iff_run (rotated_nil jwtSign_stays)).2 O.keys.1 hm ⟨rfl, rfl⟩
  obtain ⟨compact, he⟩ := C41_signature_encodes O hr.onlySign ToyJson.lawful ho
    (.inr fun alg' ck h1 => (h1.unique (jwsPrivate_signKey JwtSignatureKeysExample.holds1)).2)
    (fun data signer g1 g2 seed d => by
      obtain ⟨s', e1, -, e3⟩ := jwtSign_key ccs ToySig.lawful (jwsPrivate_signKey JwtSignatureKeysExample.holds1) g1 g2
      obtain ⟨-, rfl⟩ := (jws_unique ToySig.lib ToySig.lawful).1 JwtSignatureKeysExample.holds1 e1
      obtain ⟨sig, hsig⟩ := ecdsa_total ToySig.lawful ok1 seed d
      exact ⟨sig, by rw [e3]; unfold JwtSignatureKeysExample.secret1; rw [hsig]⟩) token_created
    (value_ok (d := []) (by decide +kernel)) 3
  refine ⟨h', h'', pub', pub'', p, p', p'', compact, H, H', hp, hpub', hp', hpub'', hp'', he, ?_,
    fun clock v a ha => ?_⟩
  · exact C109_jwt_signature ccs ccv ToySig.lawful hr ToyJson.lawful lawfulUpper H
      (token_usable_private ToySig.lawful hu') hp hm ⟨rfl, rfl⟩ (fun i s hs => by
        obtain ⟨-, rfl⟩ := (jws_unique ToySig.lib ToySig.lawful).1 JwtSignatureKeysExample.holds1 hs
        exact jwtSign_matches) (opsWith_spares _) hpub' hp' token_created token_valid args_type he (by decide +kernel)
  · have hn := C109_jwt_signature_names ccs ToySig.lawful hr ToyJson.lawful hp hm ⟨rfl, rfl⟩ rfl
      token_created token_valid args_type he
    obtain ⟨k', h1, -, h2, -⟩ := C109_jwt_signature_revoked ccs ccv classes ToySig.lawful hr lawfulUpper H'
      (token_usable_private ToySig.lawful hu'') hpub'' hp'' (k := JwtSignatureKeysExample.key1) (by decide)
      (by unfold AtMostOne; decide +kernel) rfl keepsOut rfl hn ha
    obtain ⟨-, c2, c3, -⟩ := C99_public_keys ccs ToySig.lawful hr (token_usable_private ToySig.lawful hu'') hpub''
    obtain ⟨k, hk, hmem⟩ := zip_mem' c2 h1
    obtain ⟨-, -, e, -⟩ := c3 _ hmem
    exact noRaw (fun k hk => by revert k; decide +kernel) (by decide +kernel) H' k hk (e ▸ h2)

end

end RotationKeysetsExample
end Tink.Props
