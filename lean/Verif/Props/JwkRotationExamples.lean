import Verif.Props.JwkRotation
import Verif.Props.RotationJwtExamples

/-!
# C111: examples
-/

namespace Tink.Props
open Spec Cc Jwt Jwk
open ToyJwt hiding registry library

namespace JwkRotationExample
open RotationKeysetsExample JwtSignatureKeysExample

/-- A small ECDSA key. -/
def small (k : Key) : Bool :=
  decide (k.data.typeUrl = ps! "type.googleapis.com/google.crypto.tink.JwtEcdsaPublicKey") &&
    parsed (JwtEcdsaPublicKey.fromString k.data.value) fun m => decide (m.x.length + m.y.length +
      4 * ((exportedKid k (m.customKid.map fun c => c.value.toPy)).getD []).length ≤ 1000)

/-- After the rotation, the public keyset can be serialized, and has at most four keys, all small. -/
def publishable (ops : List BuilderOp) : Bool :=
  match runBuilder registry ops jwtSignHandle.keyset with
  | none => false
  | some ks => match (⟨ks⟩ : KeysetHandle).publicKeysetHandle registry with
    | .error _ => false
    | .ok pub => Except.isOk pub.keyset.serializeToString && decide (pub.keyset.key.length ≤ 4) &&
        pub.keyset.key.all small

theorem small_size {k : Key} (hs : small k = true) {alg : PyStr} {a b : Bytes} {kid : Option PyStr}
    (h : PublicKey k.data alg a b kid) : a.length + b.length + 4 * ((exportedKid k kid).getD []).length ≤ 1000 := by
  unfold small at hs
  rw [Bool.and_eq_true, decide_eq_true_eq, parsed_iff] at hs
  obtain ⟨h1, m, h2, h3⟩ := hs
  cases h with
  | ecdsa k' g1 g2 g3 g4 g5 =>
    rw [h2] at g2
    cases g2
    obtain ⟨rfl, rfl⟩ := g4
    subst g5
    exact of_decide_eq_true h3
  | rsaSsaPkcs1 k' g1 => rw [h1] at g1; exact absurd g1 (by decide)
  | rsaSsaPss k' g1 => rw [h1] at g1; exact absurd g1 (by decide)

theorem publishes {ops : List BuilderOp} (hc : publishable ops = true) {h' pub : KeysetHandle}
    (H : Rotated registry jwtSignHandle ops h') (hops : OnlyFrom jwsTemplates ops)
    (hpub : h'.publicKeysetHandle registry = .ok pub) :
    ∃ text imp p', fromPublicKeysetHandle library.env.json pub = .ok text ∧
      toPublicKeysetHandle library.env.json [3, 3, 1, 4, 1, 5] text = some (.ok imp) ∧
      imp.primitive ToyJwt.isInst registry .verify = .ok p' := by
  unfold publishable at hc
  rw [(rotated_iff_run H).1] at hc
  dsimp only at hc
  rw [hpub] at hc
  simp only [Bool.and_eq_true, decide_eq_true_eq, List.all_eq_true] at hc
  obtain ⟨⟨h1, h2⟩, h3⟩ := hc
  cases hb : pub.keyset.serializeToString with
  | error e => rw [hb] at h1; cases h1
  | ok b =>
    exact C111_works ccs ccv classes classes ToySig.lawful registered registered ToyJson.lawful (by decide) H hops
      jwtSign_usable hpub hb (m := 1000) (fun k hk _ alg a b kid hp => small_size (h3 k hk) hp) (by omega)
      (ids := [3, 1, 4, 5]) (by decide) (by decide) h2

theorem after_rotation : publishable (opsWith newJwtSign) = true := by decide +kernel
theorem after_revocation : publishable (revokingWith newJwtSign) = true := by decide +kernel

/-- The hypotheses of `C111_works`, `C111_rotated` and `C111_revoked`, and with them those of `C111_accepted_iff`: a token
is signed, accepted with the JWK set published after a rotation, and refused with that published after its key has been
deleted. -/
example : ∃ h' h'' pub' pub'' text' text'' imp' imp'' p p' p'' compact,
    Rotated registry jwtSignHandle (opsWith newJwtSign) h' ∧
    Rotated registry jwtSignHandle (revokingWith newJwtSign) h'' ∧
    jwtSignHandle.primitive ToyJwt.isInst registry .sign = .ok p ∧
    h'.publicKeysetHandle registry = .ok pub' ∧ fromPublicKeysetHandle library.env.json pub' = .ok text' ∧
    toPublicKeysetHandle library.env.json [3, 3, 1, 4, 1, 5] text' = some (.ok imp') ∧
    imp'.primitive ToyJwt.isInst registry .verify = .ok p' ∧
    h''.publicKeysetHandle registry = .ok pub'' ∧ fromPublicKeysetHandle library.env.json pub'' = .ok text'' ∧
    toPublicKeysetHandle library.env.json [3, 3, 1, 4, 1, 5] text'' = some (.ok imp'') ∧
    imp''.primitive ToyJwt.isInst registry .verify = .ok p'' ∧
    (library.sign.view p).signAndEncode 3 token = .ok compact ∧
    (library.verify.view p').verifyAndDecode clock compact validator = .ok ⟨written args token⟩ ∧
    ∀ clock v a, (library.verify.view p'').verifyAndDecode clock compact v ≠ .ok a := by
  have hr := registered
  obtain ⟨h', H⟩ := exists_rotated jwtSign_rotates
  obtain ⟨h'', H'⟩ := exists_rotated jwtSign_revokes
  obtain ⟨-, ⟨p, hp⟩, -⟩ := C109_jwt_signature_works ccs ccv classes ToySig.lawful hr (rotated_nil jwtSign_stays)
    (by intro _ _ _ h; cases h) jwtSign_usable
  obtain ⟨hu', -, pub', -, hpub', -⟩ := C109_jwt_signature_works ccs ccv classes ToySig.lawful hr H
    (opsWith_only newJwtSign_mem) jwtSign_usable
  obtain ⟨hu'', -, pub'', -, hpub'', -⟩ := C109_jwt_signature_works ccs ccv classes ToySig.lawful hr H'
    (revokingWith_only newJwtSign_mem) jwtSign_usable
  obtain ⟨text', imp', p', hf', hto', hp'⟩ := publishes after_rotation H (opsWith_only newJwtSign_mem) hpub'
  obtain ⟨text'', imp'', p'', hf'', hto'', hp''⟩ :=
    publishes after_revocation H' (revokingWith_only newJwtSign_mem) hpub''
  have hm : key1 ∈ jwtSignHandle.keyset.key := by simp [jwtSignHandle]
  obtain ⟨kps, O⟩ := jwtSign_obtained hr hp
  obtain ⟨o, ho⟩ := isPrimary_of_key (rotated_iff_run (rotated_nil jwtSign_stays)).2 O.keys.1 hm ⟨rfl, rfl⟩
  obtain ⟨compact, he⟩ := C41_signature_encodes O hr.onlySign ToyJson.lawful ho
    (.inr fun alg' ck h1 => (h1.unique (jwsPrivate_signKey holds1)).2)
    (fun data signer g1 g2 seed d => by
      obtain ⟨s', e1, -, e3⟩ := jwtSign_key ccs ToySig.lawful (jwsPrivate_signKey holds1) g1 g2
      obtain ⟨-, rfl⟩ := (jws_unique ToySig.lib ToySig.lawful).1 holds1 e1
      obtain ⟨sig, hsig⟩ := ecdsa_total ToySig.lawful ok1 seed d
      exact ⟨sig, by rw [e3]; unfold secret1; rw [hsig]⟩) token_created (value_ok (d := []) (by decide +kernel)) 3
  refine ⟨h', h'', pub', pub'', text', text'', imp', imp'', p, p', p'', compact, H, H', hp, hpub', hf', hto', hp', hpub'',
    hf'', hto'', hp'', he, ?_, fun clock v a ha => ?_⟩
  · exact C111_rotated ccs ccv classes ToySig.lawful hr hr ToyJson.lawful lawfulUpper H
      (token_usable_private ToySig.lawful hu') hp hm ⟨rfl, rfl⟩ (fun i s hs => by
        obtain ⟨-, rfl⟩ := (jws_unique ToySig.lib ToySig.lawful).1 holds1 hs
        exact jwtSign_matches) (opsWith_spares _) hpub' hf' hto' hp' token_created token_valid args_type he
        (by decide +kernel)
  · have hn := C109_jwt_signature_names ccs ToySig.lawful hr ToyJson.lawful hp hm ⟨rfl, rfl⟩ rfl
      token_created token_valid args_type he
    obtain ⟨k', h1, -, h2, -⟩ := C111_revoked ccs ccv ToySig.lawful hr hr ToyJson.lawful lawfulUpper H'
      (token_usable_private ToySig.lawful hu'') hpub'' hf'' hto'' hp'' (k := key1) (by decide)
      (by unfold AtMostOne; decide +kernel) rfl keepsOut rfl hn ha
    obtain ⟨-, c2, c3, -⟩ := C99_public_keys ccs ToySig.lawful hr (token_usable_private ToySig.lawful hu'') hpub''
    obtain ⟨k, hk, hmem⟩ := zip_mem' c2 h1
    obtain ⟨-, -, e, -⟩ := c3 _ hmem
    exact noRaw (fun k hk => by revert k; decide +kernel) (by decide +kernel) H' k hk (e ▸ h2)

/-! ## Keys of an unknown version -/

def futureKey : JwtEcdsaPublicKey := { version := 7, algorithm := 1, x := [5], y := [6] }

def futureEntry : Key := ToyJwt.key JWT_ECDSA_PUBLIC_KEY_TYPE (ToyJwt.value [] futureKey.serializeToString)
  KeyMaterialType.ASYMMETRIC_PUBLIC 7 OutputPrefixType.TINK

def future : KeysetHandle := ⟨⟨7, [futureEntry]⟩⟩

theorem future_public {k : Key} (hk : k ∈ future.keyset.key) : PublicKey k.data (py! "ES256") [5] [6] none := by
  simp only [future, List.mem_cons, List.not_mem_nil, or_false] at hk
  subst hk
  exact .ecdsa futureKey rfl (by decide +kernel) (by decide) ⟨rfl, rfl⟩ rfl

end JwkRotationExample

open JwkRotationExample JwtSignatureKeysExample in
/-- C111, violation.  A public key of a version that Tink does not know cannot be used for verifying.  Its JWK set can:
the export does not look at the version. -/
theorem C111_version_violated :
    (∀ p, future.primitive ToyJwt.isInst registry .verify ≠ .ok p) ∧
    ∃ text imp p, fromPublicKeysetHandle library.env.json future = .ok text ∧
      toPublicKeysetHandle library.env.json [3] text = some (.ok imp) ∧
      imp.primitive ToyJwt.isInst registry .verify = .ok p := by
  refine ⟨fun p hp => ?_, ?_⟩
  · obtain ⟨-, h⟩ := (C99_verify_primitive (h := future) ccv classes ToySig.lawful registered).1 ⟨p, hp⟩
    obtain ⟨-, -, i, v, h1, -⟩ := h futureEntry (by simp [future]) (by decide)
    have h1 : PubKey.JwsStoredIn JWT_ECDSA_PUBLIC_KEY_TYPE (ToyJwt.value [] futureKey.serializeToString) i v := h1
    have h2 : JwtEcdsaPublicKey.fromString (ToyJwt.value [] futureKey.serializeToString) = .ok futureKey := by
      decide +kernel
    generalize ToyJwt.value [] futureKey.serializeToString = b at h1 h2
    unfold JWT_ECDSA_PUBLIC_KEY_TYPE at h1
    cases h1 with
    | ecdsa g1 g2 =>
      rw [h2] at g1
      cases g1
      cases g2 with
      | mk g3 _ => exact absurd g3 (by decide)
  · obtain ⟨text, hf⟩ := C51_exports (env := library.env.json) (h := future) (by decide)
      (fun k hk => by
        simp only [future, List.mem_cons, List.not_mem_nil, or_false] at hk
        subst hk
        unfold Secret
        decide +kernel)
      (value_ok (d := []) (by decide +kernel)) (fun k hk _ => by
        refine ⟨?_, ?_, _, _, _, _, future_public hk⟩ <;>
        · simp only [future, List.mem_cons, List.not_mem_nil, or_false] at hk
          subst hk
          decide +kernel)
    obtain ⟨imp, hto⟩ := C51_import_succeeds (m := 1000) ToyJson.lawful hf (by decide +kernel)
      (fun k hk _ alg a b kid hp => by
        refine small_size ?_ hp
        simp only [future, List.mem_cons, List.not_mem_nil, or_false] at hk
        subst hk
        decide +kernel) (by decide +kernel) (draws := [3]) (ids := [3]) (by decide) (by simp) (by decide +kernel)
    obtain ⟨hval, b', hb'⟩ := imported_serializes hto
    obtain ⟨hcor, -⟩ := C51_round_trip ToyJson.lawful hf hto
    obtain ⟨p, hp⟩ := (C99_verify_primitive (h := imp) ccv classes ToySig.lawful registered).2 ⟨hval, fun k' hk' _ => by
      obtain ⟨k, hkm, alg, x, y, kid, g1, g2, g3⟩ := hcor.right k' hk'
      rw [List.mem_filter] at hkm
      obtain ⟨i', key', e1⟩ := imported_jws hto k' hk'
      obtain ⟨-, n2⟩ := jwsPublic_numbers g2 e1
      have e : alg = py! "ES256" ∧ x = [5] ∧ y = [6] := by
        cases g1 with
        | ecdsa m q1 q2 q3 q4 q5 =>
          have h2 : JwtEcdsaPublicKey.fromString k.data.value = .ok futureKey := by
            have := hkm.1
            simp only [future, List.mem_cons, List.not_mem_nil, or_false] at this
            subst this
            decide +kernel
          rw [h2] at q2
          cases q2
          exact ⟨by simpa [futureKey] using q3, q4.1.symm, q4.2.symm⟩
        | rsaSsaPkcs1 m q1 =>
          have := hkm.1
          simp only [future, List.mem_cons, List.not_mem_nil, or_false] at this
          subst this
          exact absurd q1 (by decide +kernel)
        | rsaSsaPss m q1 =>
          have := hkm.1
          simp only [future, List.mem_cons, List.not_mem_nil, or_false] at this
          subst this
          exact absurd q1 (by decide +kernel)
      obtain ⟨rfl, rfl, rfl⟩ := e
      obtain rfl := jwsNumbers_unique (.ecdsa .es256) n2
      exact ⟨.inl g3.pfx, keyData_serializes hb' hk', i', _, e1, ok1.1⟩⟩
    exact ⟨text, imp, p, hf, hto, hp⟩

end Tink.Props
