import Verif.Cc.EnvelopeLemmas
import Verif.Props.SymmetricTemplates

/-!
# C104: envelope encryption, from Python down to the block cipher

The library is any library whose C++ key managers for AEAD keys are those of `Cc/KeyManagers.lean`.  The
server may be anything.  Registries, and the state of the server, may differ between calls.
-/

namespace Tink.Props
open Spec Config Cc

section
variable {σ δ ε τ S P C Srv : Type} [DecidableEq C] {L : Library σ δ ε τ S P C}
  {r r2 : Registry P C} {lib : Ssl} {t : KeyTemplate} {remote : RemoteAead Srv} {env : KmsEnvelopeAead Srv}

/-- C104.  An envelope AEAD can be constructed if and only if the template asks for an AEAD key that is
strong enough; otherwise the constructor raises `TinkError`. -/
theorem C104_create (hl : LawfulSsl lib) (hcc : ∀ u cc, ccAead lib u = some cc → L.ccAead u = some cc)
    (hr : PackageRegistered L r .aead) (hft : FitsTemplate t)
    (hsize : ∀ seed k, AeadKey.AskedFor (lib.random seed) t.typeUrl t.value k → k.size < 2 ^ 31 - 1000)
    (seed : Seed) :
    (KmsEnvelopeAead.create r seed t remote = .ok ⟨t, remote⟩ ↔
      ∃ key, AeadKey.AskedFor (lib.random seed) t.typeUrl t.value key ∧ key.Ok) ∧
    (KmsEnvelopeAead.create r seed t remote = .error .tinkError ↔
      ¬ ∃ key, AeadKey.AskedFor (lib.random seed) t.typeUrl t.value key ∧ key.Ok) := by
  by_cases hu : DekType t.typeUrl
  · obtain ⟨cc, hc, hn⟩ := aead_newKeyData hl hcc hr (dekType_iff.1 hu) hft (hsize seed)
    have hf := C89_aead_formats (seed := seed) hl hc t.value
    unfold KmsEnvelopeAead.create
    rw [← hf, (isSupported_iff _).2 hu, hn]
    cases hx : cc.newKeyData seed t.value with
    | ok kd => simp [reported, bind, Except.bind, pure, Except.pure]
    | error e => simp [reported, bind, Except.bind]
  · have hno : ¬ ∃ key, AeadKey.AskedFor (lib.random seed) t.typeUrl t.value key ∧ key.Ok := by
      rintro ⟨key, h1, -⟩
      exact hu (dekType_iff.2 (asked_type h1))
    rw [C34_unsupported r seed remote hu]
    simp [hno]

/-- C104.  An envelope AEAD that has been constructed encrypts every text below 2 GiB, whatever the random
numbers: with a new key as the template prescribes, in the algorithm of that key, with a random nonce.  The
server is asked, with empty associated data, to encrypt the stored form of the key, and what it returns is
put before the ciphertext, after its length.  Only the server can make it fail, by failing itself or by
returning 4 GiB or more. -/
theorem C104_encrypt (hl : LawfulSsl lib) (hcc : ∀ u cc, ccAead lib u = some cc → L.ccAead u = some cc)
    (hr : PackageRegistered L r .aead) (hr2 : PackageRegistered L r2 .aead) (hft : FitsTemplate t)
    (hsize : ∀ seed k, AeadKey.AskedFor (lib.random seed) t.typeUrl t.value k → k.size < 2 ^ 31 - 1000)
    {seed : Seed} (hc : KmsEnvelopeAead.create r seed t remote = .ok env) (s : Srv) (seedDek seedEnc : Seed)
    {pt ad : Bytes} (hpt : pt.length < 2 ^ 31) (had : ad.length < 2 ^ 31) :
    ∃ key value body, AeadKey.AskedFor (lib.random seedDek) t.typeUrl t.value key ∧ key.Ok ∧
      AeadKey.StoredIn t.typeUrl value key ∧
      key.ciphertext lib (lib.random seedEnc 0 key.nonceSize) ad pt = some body ∧
      body.length = pt.length + key.overhead ∧
      env.encrypt L.aead (L.cls .aead) r2 s seedDek seedEnc pt ad =
        ((remote.encrypt s value []).1,
          match (remote.encrypt s value []).2 with
          | .ok ed => if ed.length < 2 ^ 32 then .ok (be32 ed.length ++ ed ++ body) else .error .structError
          | .error e => .error e) := by
  obtain rfl := C34_create_value hc
  obtain ⟨key0, h1, h2⟩ := (C104_create hl hcc hr hft hsize seed).1.1 hc
  obtain ⟨key, h3, h4, -⟩ := asked_other (hl.random_length seed) (hl.random_length seedDek) h1
  have hu := asked_type h3
  obtain ⟨cc, hcc', hn⟩ := aead_newKeyData hl hcc hr2 hu hft (hsize seedDek)
  obtain ⟨kd, hkd⟩ := (C89_aead_formats (seed := seedDek) hl hcc' t.value).2 ⟨key, h3, h4 h2⟩
  obtain ⟨key', h5, h6, h7, h8, h9⟩ := C89_aead_new hl hcc' hkd
  cases aead_asked_unique h3 h5
  obtain ⟨hfit, hst, a0, ha0⟩ := h9 (hsize _ _ h3)
  obtain ⟨cc2, hcc2, hp⟩ := aead_registry (kd := kd) hcc hr2 (by rw [h7]; exact hu) hfit
  rw [h7, hcc'] at hcc2
  cases hcc2
  rw [ha0] at hp
  have hp' : r2.primitive kd (L.cls .aead) = .ok (L.aead.inj (aeadCcToPy a0)) := hp
  obtain ⟨a, key', ha, g1, g2, g3, g4⟩ := aead_key hl hcc hr2 (by rw [h7]; exact hu) hfit hp'
  rw [h7] at g1
  cases aead_unique hst g1
  have hav : ∀ seed pt ad, (L.aead.view (L.aead.inj (aeadCcToPy a0))).encrypt seed pt ad =
      reported id (a.encrypt seed pt ad) := by
    intro seed pt ad
    rw [ha, L.aead.view_inj, C65_primitives.1]
  obtain ⟨body, hb⟩ := g3.total seedEnc pt ad hpt had
  refine ⟨_, kd.value, body, h3, g2, hst, ((g4 ad (by omega) pt body).1 seedEnc).1 hb, g3.length _ _ _ _ hb, ?_⟩
  unfold KmsEnvelopeAead.encrypt
  dsimp only
  rw [hn, hkd]
  show (match r2.primitive kd (L.cls .aead) with | .error e => _ | .ok dekAead => _) = _
  rw [hp']
  dsimp only
  rw [hav, hb]
  dsimp only [reported, id]
  rcases remote.encrypt s kd.value [] with ⟨s', x⟩
  cases x with
  | error e => rfl
  | ok ed =>
    dsimp only [KmsEnvelopeAead.packLen]
    by_cases he : ed.length < 4294967296
    · rw [if_pos he, if_pos (show ed.length < 2 ^ 32 from he)]
    · rw [if_neg he, if_neg (show ¬ ed.length < 2 ^ 32 from he)]

/-- C104.  Decryption returns a text if and only if the ciphertext is an encrypted key, after its length, and
a ciphertext of that text in the algorithm of the key that the server decrypts it to, which must be a stored
key of the template's type and strong enough. -/
theorem C104_decrypt (hl : LawfulSsl lib) (hcc : ∀ u cc, ccAead lib u = some cc → L.ccAead u = some cc)
    (hr : PackageRegistered L r .aead) (hu : env.keyTemplate.typeUrl ∈ aeadTypes) {s : Srv}
    (hs : ∀ ed value, (env.remoteAead.decrypt s ed []).2 = .ok value → value.length < 2 ^ 31 - 500)
    (ct pt : Bytes) {ad : Bytes} (had : ad.length < 2 ^ 64) :
    (env.decrypt L.aead (L.cls .aead) r s ct ad).2 = .ok pt ↔
      ∃ ed body value key nonce, ed.length < 2 ^ 32 ∧ ct = be32 ed.length ++ ed ++ body ∧
        (env.remoteAead.decrypt s ed []).2 = .ok value ∧
        AeadKey.StoredIn env.keyTemplate.typeUrl value key ∧ key.Ok ∧
        nonce.length = key.nonceSize ∧ key.ciphertext lib nonce ad pt = some body := by
  rcases C32_decrypt_framing L.aead (L.cls .aead) r env s ct ad with ⟨ed, body, hf, huniq, hd⟩ | ⟨hno, hd⟩
  · rw [hd]
    unfold openEnvelope
    dsimp only
    cases hv : (env.remoteAead.decrypt s ed []).2 with
    | error e =>
      refine ⟨fun h => (by cases h), ?_⟩
      rintro ⟨ed', body', value, key, nonce, h1, h2, h3, -⟩
      obtain ⟨rfl, rfl⟩ := huniq _ _ ⟨h1, h2⟩
      rw [hv] at h3
      cases h3
    | ok value =>
      have hfit : Fits ⟨env.keyTemplate.typeUrl, value, KeyMaterialType.SYMMETRIC⟩ := dek_fits hu (hs _ _ hv)
      dsimp only [bind, Except.bind]
      constructor
      · intro h
        cases hp : r.primitive ⟨env.keyTemplate.typeUrl, value, KeyMaterialType.SYMMETRIC⟩ (L.cls .aead) with
        | error e => rw [hp] at h; cases h
        | ok o =>
          rw [hp] at h
          obtain ⟨a, key, rfl, g1, g2, -, g4⟩ := aead_key hl hcc hr hu hfit hp
          dsimp only at h
          rw [L.aead.view_inj, C65_primitives.2.1, reported_ok] at h
          obtain ⟨nonce, n1, n2⟩ := ((g4 ad had pt body).2).1 h
          exact ⟨ed, body, value, key, nonce, hf.1, hf.2, hv, g1, g2, n1, n2⟩
      · rintro ⟨ed', body', value', key, nonce, h1, h2, h3, h4, h5, h6, h7⟩
        obtain ⟨rfl, rfl⟩ := huniq _ _ ⟨h1, h2⟩
        rw [hv] at h3
        cases h3
        obtain ⟨cc, hc, hp⟩ := aead_registry hcc hr hu hfit
        obtain ⟨a, ha⟩ := (C89_aead_keys hl hc (fits_length hfit)).2 ⟨key, h4, h5⟩
        rw [ha] at hp
        have hp' : r.primitive ⟨env.keyTemplate.typeUrl, value, KeyMaterialType.SYMMETRIC⟩ (L.cls .aead) =
          .ok (L.aead.inj (aeadCcToPy a)) := hp
        obtain ⟨a', key', e, g1, g2, -, g4⟩ := aead_key hl hcc hr hu hfit hp'
        cases aead_unique h4 g1
        rw [hp', e]
        dsimp only
        rw [L.aead.view_inj, C65_primitives.2.1, reported_ok]
        exact ((g4 ad had pt body').2).2 ⟨nonce, h6, h7⟩
  · rw [hd]
    refine ⟨fun h => (by cases h), ?_⟩
    rintro ⟨ed', body', value, key, nonce, h1, h2, h3, -⟩
    exact absurd ⟨h1, h2⟩ (hno _ _)

/-- C104.  Any other ciphertext is a `TinkError`, unless the server fails: then its exception is passed on. -/
theorem C104_decrypt_error (hl : LawfulSsl lib) (hcc : ∀ u cc, ccAead lib u = some cc → L.ccAead u = some cc)
    (hr : PackageRegistered L r .aead) (hu : env.keyTemplate.typeUrl ∈ aeadTypes) {s : Srv}
    (hs : ∀ ed value, (env.remoteAead.decrypt s ed []).2 = .ok value → value.length < 2 ^ 31 - 500)
    {ct ad : Bytes} {e : Exc} (h : (env.decrypt L.aead (L.cls .aead) r s ct ad).2 = .error e) :
    e = .tinkError ∨ ∃ ed body, ed.length < 2 ^ 32 ∧ ct = be32 ed.length ++ ed ++ body ∧
      (env.remoteAead.decrypt s ed []).2 = .error e := by
  rcases C32_decrypt_framing L.aead (L.cls .aead) r env s ct ad with ⟨ed, body, hf, huniq, hd⟩ | ⟨hno, hd⟩
  · rw [hd] at h
    unfold openEnvelope at h
    dsimp only at h
    cases hv : (env.remoteAead.decrypt s ed []).2 with
    | error e' =>
      rw [hv] at h
      cases h
      exact .inr ⟨ed, body, hf.1, hf.2, hv⟩
    | ok value =>
      left
      have hfit : Fits ⟨env.keyTemplate.typeUrl, value, KeyMaterialType.SYMMETRIC⟩ := dek_fits hu (hs _ _ hv)
      rw [hv] at h
      dsimp only [bind, Except.bind] at h
      cases hp : r.primitive ⟨env.keyTemplate.typeUrl, value, KeyMaterialType.SYMMETRIC⟩ (L.cls .aead) with
      | error e' =>
        rw [hp] at h
        cases h
        obtain ⟨cc, -, hq⟩ := aead_registry (lib := lib) hcc hr hu hfit
        rw [hq] at hp
        cases hx : cc.getPrimitive ⟨env.keyTemplate.typeUrl, value, KeyMaterialType.SYMMETRIC⟩ with
        | ok a => rw [hx] at hp; cases hp
        | error s => rw [hx] at hp; cases hp; rfl
      | ok o =>
        rw [hp] at h
        obtain ⟨a, key, rfl, -⟩ := aead_key hl hcc hr hu hfit hp
        dsimp only at h
        rw [L.aead.view_inj, C65_primitives.2.1] at h
        cases hx : a.decrypt body ad with
        | ok x => rw [hx] at h; cases h
        | error s => rw [hx] at h; cases h; rfl
  · rw [hd] at h
    cases h
    exact .inl rfl

/-- C104.  What one envelope AEAD encrypts, another decrypts that has a template of the same key type, at
any later time, provided that the server then undoes what it did. -/
theorem C104_round_trip (hl : LawfulSsl lib) (hcc : ∀ u cc, ccAead lib u = some cc → L.ccAead u = some cc)
    (hr : PackageRegistered L r .aead) (hr2 : PackageRegistered L r2 .aead) (hft : FitsTemplate t)
    (hsize : ∀ seed k, AeadKey.AskedFor (lib.random seed) t.typeUrl t.value k → k.size < 2 ^ 31 - 1000)
    {seed : Seed} (hc : KmsEnvelopeAead.create r seed t remote = .ok env) {s s' s2 : Srv}
    {seedDek seedEnc : Seed} {pt ad ct : Bytes} (hpt : pt.length < 2 ^ 31) (had : ad.length < 2 ^ 31)
    (henc : env.encrypt L.aead (L.cls .aead) r s seedDek seedEnc pt ad = (s', .ok ct))
    {t2 : KeyTemplate} (ht2 : t2.typeUrl = t.typeUrl) {remote2 : RemoteAead Srv}
    (hserver : ∀ value ed, remote.encrypt s value [] = (s', .ok ed) → (remote2.decrypt s2 ed []).2 = .ok value)
    (hs : ∀ ed value, (remote2.decrypt s2 ed []).2 = .ok value → value.length < 2 ^ 31 - 500) :
    ((⟨t2, remote2⟩ : KmsEnvelopeAead Srv).decrypt L.aead (L.cls .aead) r2 s2 ct ad).2 = .ok pt := by
  obtain ⟨key, value, body, h1, h2, h3, h4, -, h5⟩ :=
    C104_encrypt hl hcc hr hr hft hsize hc s seedDek seedEnc hpt had
  rw [h5] at henc
  have hu := asked_type h1
  rcases hx : remote.encrypt s value [] with ⟨s1, y⟩
  rw [hx] at henc
  dsimp only at henc
  cases y with
  | error e => cases henc
  | ok ed =>
    dsimp only at henc
    split at henc
    · rename_i hlen
      cases henc
      exact (C104_decrypt hl hcc hr2 (env := ⟨t2, remote2⟩) (by rw [ht2]; exact hu) hs _ _ (by omega)).2
        ⟨ed, body, value, key, _, hlen, rfl, hserver _ _ hx, by rw [ht2]; exact h3, h2,
          hl.random_length .., h4⟩
    · cases henc

/-- C104.  An envelope AEAD can be constructed with every predefined AEAD template. -/
theorem C104_templates (hl : LawfulSsl lib) (hcc : ∀ u cc, ccAead lib u = some cc → L.ccAead u = some cc)
    (hr : PackageRegistered L r .aead) (ht : .ok t ∈ templates .aead) (seed : Seed) :
    KmsEnvelopeAead.create r seed t remote = .ok ⟨t, remote⟩ ∧ FitsTemplate t ∧
    ∀ seed k, AeadKey.AskedFor (lib.random seed) t.typeUrl t.value k → k.size < 2 ^ 31 - 1000 := by
  obtain ⟨t', e, hft, -⟩ := C64_templates .aead _ ht
  cases e
  have hsize : ∀ seed k, AeadKey.AskedFor (lib.random seed) t.typeUrl t.value k → k.size < 2 ^ 31 - 1000 := by
    intro seed k hk
    obtain ⟨-, key, h1, -, h3⟩ := aead_template (hl.random_length seed) ht
    cases aead_asked_unique hk h1
    omega
  obtain ⟨-, key, h1, h2, -⟩ := aead_template (hl.random_length seed) ht
  exact ⟨(C104_create hl hcc hr hft hsize seed).1.2 ⟨key, h1, h2⟩, hft, hsize⟩

/-- C104.  The size and parameters of the key that a ciphertext was made with are not compared with the
template: decryption depends on the key type only. -/
theorem C104_template_ignored {V : View P Aead} {c : C} {r : Registry P C} {t t2 : KeyTemplate}
    (h : t2.typeUrl = t.typeUrl) (remote : RemoteAead Srv) (s : Srv) (ct ad : Bytes) :
    (⟨t2, remote⟩ : KmsEnvelopeAead Srv).decrypt V c r s ct ad =
      (⟨t, remote⟩ : KmsEnvelopeAead Srv).decrypt V c r s ct ad := by
  rcases C32_decrypt_framing V c r ⟨t, remote⟩ s ct ad with ⟨ed, body, hf, -, hd⟩ | ⟨hno, hd⟩
  · rw [hd, KmsEnvelopeAead.decrypt_framed V c r ⟨t2, remote⟩ s hf]
    dsimp only
    rw [h]
  · rw [hd, KmsEnvelopeAead.decrypt_unframed V c r ⟨t2, remote⟩ s (fun ⟨d, b, h⟩ => hno d b h)]

end

namespace EnvelopeKeysExample

/-- A server that counts its calls and tags what it encrypts, below 1000 bytes. -/
def server : RemoteAead Nat where
  encrypt s pt ad := (s + 1, if pt.length < 1000 then .ok (7 :: ad ++ pt) else .error .tinkError)
  decrypt s ct ad := (s + 1, if (7 :: ad).isPrefixOf ct ∧ ct.length < 2000 then .ok (ct.drop (1 + ad.length))
    else .error .tinkError)

theorem server_short (s : Nat) (ed value : Bytes) (h : (server.decrypt s ed []).2 = .ok value) :
    value.length < 2 ^ 31 - 500 := by
  dsimp only [server] at h
  split at h
  · rename_i hh
    cases h
    rw [List.length_drop]
    omega
  · cases h

theorem server_undoes (s s' s2 : Nat) (value ed : Bytes) (h : server.encrypt s value [] = (s', .ok ed)) :
    (server.decrypt s2 ed []).2 = .ok value := by
  dsimp only [server] at h
  split at h
  · rename_i hh
    cases h
    dsimp only [server]
    rw [if_pos ⟨by simp, by simp; omega⟩]
    simp
  · cases h

def library := ToySymmetricConfig.library

/-- `aead_key_templates.AES128_GCM`. -/
def template : KeyTemplate where
  typeUrl := ps! "type.googleapis.com/google.crypto.tink.AesGcmKey"
  value := [16, 16]
  outputPrefixType := OutputPrefixType.TINK

theorem template_mem : .ok template ∈ templates .aead := by decide +kernel

def env : KmsEnvelopeAead Nat := ⟨template, server⟩

example : KmsEnvelopeAead.create symmetricRegistry 3 template server = .ok env :=
  (C104_templates (L := library) ToySsl.lawful (fun _ _ h => h) (symmetric_registered .aead) template_mem 3).1

/-- The hypotheses hold together: a text is encrypted and decrypted. -/
example : ∃ s' ct, env.encrypt library.aead .aead symmetricRegistry 0 5 6 (by! "text") (by! "ad") = (s', .ok ct) ∧
    (env.decrypt library.aead .aead symmetricRegistry 9 ct (by! "ad")).2 = .ok (by! "text") := by
  obtain ⟨h1, h2, h3⟩ := C104_templates (L := library) (remote := server) ToySsl.lawful (fun _ _ h => h)
    (symmetric_registered .aead) template_mem 3
  cases h : env.encrypt library.aead .aead symmetricRegistry 0 5 6 (by! "text") (by! "ad") with
  | mk s' x =>
    cases x with
    | error e =>
      have : Except.isOk (env.encrypt library.aead .aead symmetricRegistry 0 5 6 (by! "text") (by! "ad")).2 = true := by
        decide +kernel
      rw [h] at this
      cases this
    | ok ct =>
      exact ⟨s', ct, rfl, C104_round_trip (L := library) ToySsl.lawful (fun _ _ h => h) (symmetric_registered .aead)
        (symmetric_registered .aead) h2 h3 h1 (by decide) (by decide) h rfl (server_undoes 0 s' 9)
        (server_short 9)⟩

end EnvelopeKeysExample
end Tink.Props
