import Verif.Kms.EnvelopeLemmas
import Verif.Examples.Toy

/-!
# C31-C34: envelope encryption

The registry and the state of the server may differ between encryption and decryption.
-/

namespace Tink.Props
open Spec
variable {P C σ : Type} [DecidableEq C]

/-- C31.  Decrypting an envelope ciphertext returns the plaintext, if
* the server, in the state in which it is asked to decrypt, undoes its own encryption,
* the generated key is a symmetric key of the template's type,
* the generated key's AEAD is undone by the AEAD that the registry makes of the same key data at
  the time of decryption. -/
theorem C31_round_trip {V : View P Aead} {c : C} {r r2 : Registry P C} {env : KmsEnvelopeAead σ}
    {s s' s2 : σ} {sd se : Seed} {pt ad ct : Bytes}
    (henc : env.encrypt V c r s sd se pt ad = (s', .ok ct))
    (hserver : ∀ k ed, env.remoteAead.encrypt s k [] = (s', .ok ed) →
      (env.remoteAead.decrypt s2 ed []).2 = .ok k)
    (hkey : ∀ dek, r.newKeyData sd env.keyTemplate = .ok dek →
      dek.typeUrl = env.keyTemplate.typeUrl ∧ dek.keyMaterialType = KeyMaterialType.SYMMETRIC)
    (haead : ∀ dek p x, r.newKeyData sd env.keyTemplate = .ok dek → r.primitive dek c = .ok p →
      (V.view p).encrypt se pt ad = .ok x →
      ∃ p2, r2.primitive dek c = .ok p2 ∧ (V.view p2).decrypt x ad = .ok pt) :
    (env.decrypt V c r2 s2 ct ad).2 = .ok pt := by
  obtain ⟨dek, p, body, ed, hd, hp, he, hr, hf⟩ := KmsEnvelopeAead.encrypt_ok_iff.1 henc
  rw [KmsEnvelopeAead.decrypt_framed V c r2 env s2 hf]
  obtain ⟨p2, hp2, hx⟩ := haead dek p body hd hp he
  obtain ⟨h1, h2⟩ := hkey dek hd
  have hdek : (⟨env.keyTemplate.typeUrl, dek.value, KeyMaterialType.SYMMETRIC⟩ : KeyData) = dek := by
    cases dek; cases h1; cases h2; rfl
  simp only [openEnvelope, hserver _ _ hr, bind, Except.bind, hdek, hp2, hx]

/-- C31.  If the server returns an encrypted key of `2^32` bytes or more, encryption raises
`struct.error`, which is not a `TinkError`. -/
theorem C31_long_dek {V : View P Aead} {c : C} {r : Registry P C} {env : KmsEnvelopeAead σ}
    {s s' : σ} {sd se : Seed} {pt ad : Bytes} {dek : KeyData} {p : P} {body ed : Bytes}
    (hd : r.newKeyData sd env.keyTemplate = .ok dek) (hp : r.primitive dek c = .ok p)
    (he : (V.view p).encrypt se pt ad = .ok body)
    (hr : env.remoteAead.encrypt s dek.value [] = (s', .ok ed)) (hl : 4294967296 ≤ ed.length) :
    env.encrypt V c r s sd se pt ad = (s', .error .structError) := by
  unfold KmsEnvelopeAead.encrypt
  have : KmsEnvelopeAead.packLen ed.length = .error .structError :=
    if_neg (Nat.not_lt.2 hl)
  simp only [hd, hp, he, hr, this]

/-- C32.  An envelope ciphertext is a four byte big-endian length, the encrypted key of that length,
and the payload made by the generated key. -/
theorem C32_ciphertext_framing {V : View P Aead} {c : C} {r : Registry P C}
    {env : KmsEnvelopeAead σ} {s s' : σ} {sd se : Seed} {pt ad ct : Bytes}
    (henc : env.encrypt V c r s sd se pt ad = (s', .ok ct)) :
    ∃ dek p body ed, r.newKeyData sd env.keyTemplate = .ok dek ∧ r.primitive dek c = .ok p ∧
      (V.view p).encrypt se pt ad = .ok body ∧
      env.remoteAead.encrypt s dek.value [] = (s', .ok ed) ∧ Framed ct ed body :=
  KmsEnvelopeAead.encrypt_ok_iff.1 henc

/-- C32.  Any byte string can be split in at most one way, and decryption either opens it according
to that split, or there is none and it raises `TinkError` with the server untouched. -/
theorem C32_decrypt_framing (V : View P Aead) (c : C) (r : Registry P C) (env : KmsEnvelopeAead σ)
    (s : σ) (bs ad : Bytes) :
    (∃ dek body, Framed bs dek body ∧ (∀ d b, Framed bs d b → d = dek ∧ b = body) ∧
      env.decrypt V c r s bs ad =
        openEnvelope V c r env.keyTemplate.typeUrl env.remoteAead s dek body ad) ∨
    ((∀ dek body, ¬ Framed bs dek body) ∧ env.decrypt V c r s bs ad = (s, .error .tinkError)) := by
  by_cases h : ∃ dek body, Framed bs dek body
  · obtain ⟨dek, body, hf⟩ := h
    exact .inl ⟨dek, body, hf, fun d b hdb => KmsEnvelopeAead.framed_unique hdb hf,
      KmsEnvelopeAead.decrypt_framed V c r env s hf ad⟩
  · exact .inr ⟨fun d b hf => h ⟨d, b, hf⟩, KmsEnvelopeAead.decrypt_unframed V c r env s h ad⟩

/-- C33.  During encryption the server is not called at all, or called once to encrypt the generated
key's bytes with empty associated data. -/
theorem C33_encrypt_calls (V : View P Aead) (c : C) (r : Registry P C) (t : KeyTemplate)
    (a : RemoteAead σ) (s : σ) (sd se : Seed) (pt ad : Bytes) :
    let s' := ((⟨t, recording a⟩ : KmsEnvelopeAead _).encrypt V c r (s, []) sd se pt ad).1
    s' = (s, []) ∨ ∃ dek, r.newKeyData sd t = .ok dek ∧
      s' = ((a.encrypt s dek.value []).1, [.encrypt dek.value []]) := by
  unfold KmsEnvelopeAead.encrypt
  simp only
  cases h1 : r.newKeyData sd t with
  | error e => exact .inl rfl
  | ok dek =>
    simp only
    cases h2 : r.primitive dek c with
    | error e => exact .inl rfl
    | ok p =>
      simp only
      cases h3 : (V.view p).encrypt se pt ad with
      | error e => exact .inl rfl
      | ok body =>
        right
        refine ⟨dek, rfl, ?_⟩
        simp only [recording]
        rcases a.encrypt s dek.value [] with ⟨s2, x⟩
        cases x with
        | error e => rfl
        | ok ed =>
          simp only [KmsEnvelopeAead.packLen]
          by_cases hl : ed.length < 4294967296
          · simp [hl]
          · simp [hl]

/-- C33.  During decryption the server is not called at all, or called once to decrypt the embedded
encrypted key with empty associated data. -/
theorem C33_decrypt_calls (V : View P Aead) (c : C) (r : Registry P C) (t : KeyTemplate)
    (a : RemoteAead σ) (s : σ) (bs ad : Bytes) :
    let s' := ((⟨t, recording a⟩ : KmsEnvelopeAead _).decrypt V c r (s, []) bs ad).1
    s' = (s, []) ∨ ∃ dek body, Framed bs dek body ∧
      s' = ((a.decrypt s dek []).1, [.decrypt dek []]) := by
  rcases C32_decrypt_framing V c r (⟨t, recording a⟩ : KmsEnvelopeAead _) (s, []) bs ad with
    ⟨dek, body, hf, _, h⟩ | ⟨_, h⟩
  · right
    refine ⟨dek, body, hf, ?_⟩
    rw [h]; rfl
  · left; rw [h]

/-- C33.  Whatever the remote AEAD is, recording its calls changes nothing else: results are the
same, so the record tells what happens with the remote AEAD itself. -/
theorem C33_recording_faithful (V : View P Aead) (c : C) (r : Registry P C) (t : KeyTemplate)
    (a : RemoteAead σ) (s : σ) (log : List RemoteCall) (sd se : Seed) (x ad : Bytes) :
    (let e := (⟨t, recording a⟩ : KmsEnvelopeAead _).encrypt V c r (s, log) sd se x ad
     (e.1.1, e.2)) = (⟨t, a⟩ : KmsEnvelopeAead _).encrypt V c r s sd se x ad ∧
    (let d := (⟨t, recording a⟩ : KmsEnvelopeAead _).decrypt V c r (s, log) x ad
     (d.1.1, d.2)) = (⟨t, a⟩ : KmsEnvelopeAead _).decrypt V c r s x ad := by
  constructor
  · unfold KmsEnvelopeAead.encrypt
    simp only
    cases h1 : r.newKeyData sd t with
    | error e => rfl
    | ok dek =>
      simp only
      cases h2 : r.primitive dek c with
      | error e => rfl
      | ok p =>
        simp only
        cases h3 : (V.view p).encrypt se x ad with
        | error e => rfl
        | ok body =>
          simp only [recording]
          rcases a.encrypt s dek.value [] with ⟨s2, y⟩
          cases y with
          | error e => rfl
          | ok ed =>
            simp only [KmsEnvelopeAead.packLen]
            by_cases hl : ed.length < 4294967296
            · simp [hl]
            · simp [hl]
  · by_cases h : ∃ dek body, Framed x dek body
    · obtain ⟨dek, body, hf⟩ := h
      rw [KmsEnvelopeAead.decrypt_framed V c r _ _ hf, KmsEnvelopeAead.decrypt_framed V c r _ _ hf]
      rfl
    · rw [KmsEnvelopeAead.decrypt_unframed V c r _ _ h, KmsEnvelopeAead.decrypt_unframed V c r _ _ h]

/-- C33.  What the server gets to see does not depend on the plaintext or the associated data: two
encryptions that get past the local encryption leave it in the same state. -/
theorem C33_server_ignorant {V : View P Aead} {c : C} {r : Registry P C} {env : KmsEnvelopeAead σ}
    {s s1 s2 : σ} {sd se se' : Seed} {pt ad pt' ad' ct ct' : Bytes}
    (h1 : env.encrypt V c r s sd se pt ad = (s1, .ok ct))
    (h2 : env.encrypt V c r s sd se' pt' ad' = (s2, .ok ct')) : s1 = s2 := by
  obtain ⟨dek, _, _, _, hd, _, _, hr, _⟩ := KmsEnvelopeAead.encrypt_ok_iff.1 h1
  obtain ⟨dek', _, _, _, hd', _, _, hr', _⟩ := KmsEnvelopeAead.encrypt_ok_iff.1 h2
  rw [hd] at hd'; cases hd'
  rw [hr] at hr'; cases hr'; rfl

theorem isSupported_iff (u : PStr) : isSupportedDekKeyType u = true ↔ DekType u := by
  unfold isSupportedDekKeyType supportedDekKeyTypes
  simp only [decide_eq_true_eq, List.mem_cons, List.not_mem_nil, or_false]
  constructor
  · rintro (h | h | h | h | h) <;> subst h <;> constructor
  · intro h
    cases h <;> simp

/-- C34.  Constructing an envelope AEAD succeeds exactly when the template has one of the five key
types and the registry generates a key from it. -/
theorem C34_create_ok_iff (r : Registry P C) (seed : Seed) (t : KeyTemplate) (a : RemoteAead σ) :
    (∃ env, KmsEnvelopeAead.create r seed t a = .ok env) ↔
      DekType t.typeUrl ∧ ∃ dek, r.newKeyData seed t = .ok dek := by
  unfold KmsEnvelopeAead.create
  by_cases h : DekType t.typeUrl
  · rw [(isSupported_iff _).2 h]
    cases hd : r.newKeyData seed t with
    | error e => simp [bind, Except.bind]
    | ok dek => simp [bind, Except.bind, pure, Except.pure, h]
  · have : isSupportedDekKeyType t.typeUrl = false := by
      rw [Bool.eq_false_iff]; exact fun hh => h ((isSupported_iff _).1 hh)
    simp [this, h]

/-- C34.  Any other key type is refused with `TinkError`, whatever the registry holds. -/
theorem C34_unsupported (r : Registry P C) (seed : Seed) {t : KeyTemplate} (a : RemoteAead σ)
    (h : ¬ DekType t.typeUrl) : KmsEnvelopeAead.create r seed t a = .error .tinkError := by
  unfold KmsEnvelopeAead.create
  have : isSupportedDekKeyType t.typeUrl = false := by
    rw [Bool.eq_false_iff]; exact fun hh => h ((isSupported_iff _).1 hh)
  simp [this]

/-- C34.  A key type for which there is no key manager, or new keys are forbidden, is refused with
`TinkError`; an exception of the key manager itself is passed on. -/
theorem C34_generation_fails (r : Registry P C) (seed : Seed) {t : KeyTemplate} (a : RemoteAead σ) :
    ((PyDict.get? r.keyManagers t.typeUrl = none ∨
        ∃ m, PyDict.get? r.keyManagers t.typeUrl = some (m, false)) →
      KmsEnvelopeAead.create r seed t a = .error .tinkError) ∧
    (∀ e, DekType t.typeUrl → r.newKeyData seed t = .error e →
      KmsEnvelopeAead.create r seed t a = .error e) := by
  have key : ∀ e, r.newKeyData seed t = .error e → DekType t.typeUrl →
      KmsEnvelopeAead.create r seed t a = .error e := by
    intro e he h
    unfold KmsEnvelopeAead.create
    simp [(isSupported_iff _).2 h, he, bind, Except.bind]
  refine ⟨fun h => ?_, fun e h he => key e he h⟩
  by_cases hd : DekType t.typeUrl
  · refine key _ ?_ hd
    unfold Registry.newKeyData Registry.keyManagerInternal
    rcases h with h | ⟨m, h⟩
    · rw [h]; rfl
    · rw [h]; rfl
  · exact C34_unsupported r seed a hd

/-- C34.  The envelope AEAD works with exactly the template and the remote AEAD it was given. -/
theorem C34_create_value {r : Registry P C} {seed : Seed} {t : KeyTemplate} {a : RemoteAead σ}
    {env : KmsEnvelopeAead σ} (h : KmsEnvelopeAead.create r seed t a = .ok env) :
    env = ⟨t, a⟩ := by
  unfold KmsEnvelopeAead.create at h
  split at h
  · cases h
  · obtain ⟨_, _, h⟩ := bind_ok_iff.1 h
    cases h; rfl

namespace EnvelopeExample
open Toy

def gcm : PStr := ps! "type.googleapis.com/google.crypto.tink.AesGcmKey"

/-- A toy key manager under the type URL of AES-GCM. -/
def gcmManager : KeyManager Prim Cls :=
  { manager .aead with
    keyType := gcm
    newKeyData := fun seed _ =>
      .ok { typeUrl := gcm, value := [UInt8.ofNat seed], keyMaterialType := KeyMaterialType.SYMMETRIC } }

def reg : Registry Prim Cls := { keyManagers := [(gcm, (gcmManager, true))] }
def template : KeyTemplate := { typeUrl := gcm, outputPrefixType := OutputPrefixType.TINK }

/-- A server that counts its calls and tags what it encrypts. -/
def server : RemoteAead Nat where
  encrypt s pt ad := (s + 1, .ok (7 :: ad ++ pt))
  decrypt s ct ad := (s + 1, if (7 :: ad).isPrefixOf ct then .ok (ct.drop (1 + ad.length))
    else .error .tinkError)

def env : KmsEnvelopeAead Nat := ⟨template, server⟩

example : KmsEnvelopeAead.create reg 3 template server = .ok env := rfl
example : env.encrypt aeadView .aead reg 0 5 6 [1, 2] [9] = (1, .ok [0, 0, 0, 2, 7, 5, 5, 9, 1, 2]) := rfl
example : (env.decrypt aeadView .aead reg 4 [0, 0, 0, 2, 7, 5, 5, 9, 1, 2] [9]) = (5, .ok [1, 2]) := by
  decide +kernel
example : (env.decrypt aeadView .aead reg 4 [0, 0, 0, 8, 7, 5, 5, 9, 1, 2] [9]) = (4, .error .tinkError) := by
  decide +kernel

/-- The hypotheses of `C31_round_trip` hold together. -/
example : (env.decrypt aeadView .aead reg 4 [0, 0, 0, 2, 7, 5, 5, 9, 1, 2] [9]).2 = .ok [1, 2] := by
  refine C31_round_trip (r := reg) (s := 0) (s' := 1) (sd := 5) (se := 6) rfl ?_ ?_ ?_
  · intro k ed h
    cases h
    simp [env, server]
  · intro dek h
    cases h; exact ⟨rfl, rfl⟩
  · intro dek p x hd hp hx
    cases hd
    cases hp
    exact ⟨_, rfl, by cases hx; rfl⟩

end EnvelopeExample
end Tink.Props
