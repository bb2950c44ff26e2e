import Verif.Props.RotationHistory
import Verif.Props.SymmetricTemplates
import Verif.Props.SignatureKeysets
import Verif.Props.HybridKeysets

/-!
# C109: rotation of keysets, from Python down to the algorithms

What was made with a keyset before a rotation can be used after it, and not after its key has been disabled or deleted.
In contrast to C12, nothing is assumed of the primitives of single keys: they are those of `Cc/KeyManagers.lean`,
`Cc/SigKeyManagers.lean` and `Cc/HybridKeyManagers.lean`.
-/

namespace Tink.Props
open Spec Config Cc

/-! ## Prefixes -/

theorem prefix_id {k k' : Key} {pre body b : Bytes} (hpre : outputPrefix k = .ok pre)
    (hk : k.outputPrefixType ≠ OutputPrefixType.RAW) (hk' : k'.outputPrefixType ≠ OutputPrefixType.RAW)
    (h : payload k' (pre ++ body) = some b) : k'.keyId = k.keyId := by
  have hl := outputPrefix_nonraw hpre hk
  have hpre' : outputPrefix k' = .ok pre := by
    cases ho : outputPrefix k' with
    | error e => unfold payload at h; rw [ho] at h; cases h
    | ok pre' =>
      rw [payload_nonraw ho hk'] at h
      split at h
      · rename_i hc
        rw [hc.2, List.take_append_of_le_length (by omega), List.take_of_length_le (by omega)]
      · cases h
  have hid : ∀ {q : Key} {p : Bytes}, outputPrefix q = .ok p → q.outputPrefixType ≠ OutputPrefixType.RAW →
      p.tail = be32 q.keyId.toNat := by
    intro q p hp hr
    rcases C11_prefix_cases q with ⟨-, e⟩ | ⟨-, e⟩ | ⟨e, -⟩ | ⟨-, -, -, -, e⟩
    · rw [e] at hp; cases hp; rfl
    · rw [e] at hp; cases hp; rfl
    · exact absurd e hr
    · rw [e] at hp; cases hp
  have := (hid hpre' hk').symm.trans (hid hpre hk)
  exact UInt32.toNat_inj.1 (be32_inj (UInt32.toNat_lt _) (UInt32.toNat_lt _) this)

/-- A key whose prefix is before the ciphertext is the first that can do something with it, if no other key has its id;
a RAW key is, if no other key does something else with it. -/
theorem firstDoes_only {α : Type} {does : Key → α → Prop} {ks : Keyset} {k : Key} {a : α} {pre body : Bytes}
    (hk : OnlyWithId ks k) (he : Enabled k) (hpre : outputPrefix k = .ok pre) (hd : does k a)
    (hpay : ∀ k' a', does k' a' → ∃ b, payload k' (pre ++ body) = some b)
    (hraw : k.outputPrefixType = OutputPrefixType.RAW →
      ∀ k' ∈ ks.key, Enabled k' → k' ≠ k → ∀ a', does k' a' → a' = a) :
    FirstDoes does ks a := by
  obtain ⟨before, k', after, q1, ⟨a', q2⟩, q3⟩ := first_of_mem (p := fun k => ∃ a, does k a)
    (mem_keysInOrder.2 ⟨hk.1, he⟩) ⟨a, hd⟩
  have hk' := mem_keysInOrder.1 (show k' ∈ keysInOrder ks by rw [q1]; simp)
  by_cases e : k' = k
  · subst e
    exact ⟨before, k', after, q1, hd, fun x hx y hy => q3 x hx ⟨y, hy⟩⟩
  by_cases hr : k.outputPrefixType = OutputPrefixType.RAW
  · cases hraw hr k' hk'.1 hk'.2 e a' q2
    exact ⟨before, k', after, q1, q2, fun x hx y hy => q3 x hx ⟨y, hy⟩⟩
  · exfalso
    obtain ⟨b, hb⟩ := hpay _ _ q2
    by_cases hr' : k'.outputPrefixType = OutputPrefixType.RAW
    · -- RAW keys come after `k`
      have hkb : k ∈ before := by
        have hm : k ∈ (ks.key.filter fun k => Enabled k).filter
            (fun k => k.outputPrefixType ≠ OutputPrefixType.RAW) := by
          simp only [List.mem_filter, decide_eq_true_eq]; exact ⟨⟨hk.1, he⟩, hr⟩
        unfold keysInOrder at q1
        rcases List.append_eq_append_iff.1 q1 with ⟨s, e1, e2⟩ | ⟨s, e1, e2⟩
        · rw [e1]; exact List.mem_append_left _ hm
        · cases s with
          | nil => rw [List.append_nil] at e1; rw [← e1]; exact hm
          | cons x s =>
            rw [List.cons_append, List.cons.injEq] at e2
            have : k' ∈ (ks.key.filter fun k => Enabled k).filter
                (fun k => k.outputPrefixType ≠ OutputPrefixType.RAW) := by
              rw [e1]; simp [e2.1]
            simp only [List.mem_filter, decide_eq_true_eq] at this
            exact absurd hr' this.2
      exact q3 k hkb ⟨a, hd⟩
    · exact e (hk.2 k' hk'.1 (prefix_id hpre hr hr' hb))

section
variable {σ δ ε τ S P C : Type} [DecidableEq C] {L : Library σ δ ε τ S P C} {isInst isInst' : P → C → Bool}
  {r r' rb : Registry P C} {h h' : KeysetHandle} {p p' : P} {ops : List BuilderOp}

/-! ## What was made before is accepted afterwards -/

/-- C109, AEAD.  If the primary key is neither disabled nor deleted, the rotated keyset decrypts what was encrypted
before; if it is a RAW key, unless another key makes something else of the ciphertext. -/
theorem C109_aead {lib : Ssl} (hl : LawfulSsl lib) (hcc : ∀ u cc, ccAead lib u = some cc → L.ccAead u = some cc)
    (hr : PackageRegistered L r .aead) (hr' : PackageRegistered L r' .aead) (H : Rotated rb h ops h')
    (hk : KeysOf aeadTypes h.keyset) (hk' : KeysOf aeadTypes h'.keyset)
    (hp : h.primitive isInst r (L.cls .aead) = .ok p) (hp' : h'.primitive isInst' r' (L.cls .aead) = .ok p')
    {k : Key} (hm : OnlyWithId h.keyset k) (h0 : k.keyId ≠ 0) (hpk : IsPrimaryKey h.keyset k)
    (hs : ∀ op ∈ ops, Spares k.keyId op) {seed : Seed} {pt ad ct : Bytes} (had : ad.length < 2 ^ 64)
    (hct : (L.aead.view p).encrypt seed pt ad = .ok ct)
    (hraw : k.outputPrefixType = OutputPrefixType.RAW →
      ∀ k' ∈ h'.keyset.key, Enabled k' → k' ≠ k → ∀ pt', AeadOpens lib ad ct k' pt' → pt' = pt) :
    (L.aead.view p').decrypt ct ad = .ok pt := by
  obtain ⟨pre, key, h1, h2, h3⟩ := C94_aead_encrypt hl hcc hr hk hp hm.1 hpk
  rw [h3 seed pt ad had] at hct
  cases hx : key.ciphertext lib (lib.random seed 0 key.nonceSize) ad pt with
  | none => rw [hx] at hct; cases hct
  | some body =>
  rw [hx] at hct
  cases hct
  have hne : body ≠ [] := by
    obtain ⟨kps, O⟩ := aead_obtained hr hp
    obtain ⟨o, -, ho⟩ := enabled_mem O.keys hm.1 hpk.1
    obtain ⟨a, key', -, g1, g2, g3, g4⟩ := aead_key hl hcc hr (hk k hm.1 hpk.1).1 (hk k hm.1 hpk.1).2 ho
    cases aead_unique h2 g1
    have := g3.length seed pt ad body (((g4 ad had pt body).1 seed).2 hx)
    have := Cc.overhead_pos _ g2
    intro e
    subst e
    simp at *
    omega
  refine ((C94_aead_decrypt hl hcc hr' hk' hp' had _).1 _).2
    (firstDoes_only (body := body) (C109_stays H hm hpk.1 h0 hs) hpk.1 h1
    ⟨body, key, _, payload_append h1 _ (.inr hne), h2, hl.random_length .., hx⟩ ?_ hraw)
  rintro k1 a1 ⟨b, -, -, g, -⟩
  exact ⟨b, g⟩

/-- C109, deterministic AEAD. -/
theorem C109_daead {lib : Ssl} (hl : LawfulSsl lib) (hcc : ∀ u cc, ccDaead lib u = some cc → L.ccDaead u = some cc)
    (hr : PackageRegistered L r .daead) (hr' : PackageRegistered L r' .daead) (H : Rotated rb h ops h')
    (hk : KeysOf daeadTypes h.keyset) (hk' : KeysOf daeadTypes h'.keyset)
    (hp : h.primitive isInst r (L.cls .daead) = .ok p) (hp' : h'.primitive isInst' r' (L.cls .daead) = .ok p')
    {k : Key} (hm : OnlyWithId h.keyset k) (h0 : k.keyId ≠ 0) (hpk : IsPrimaryKey h.keyset k)
    (hs : ∀ op ∈ ops, Spares k.keyId op) {pt ad ct : Bytes}
    (hct : (L.daead.view p).encryptDeterministically pt ad = .ok ct)
    (hraw : k.outputPrefixType = OutputPrefixType.RAW →
      ∀ k' ∈ h'.keyset.key, Enabled k' → k' ≠ k → ∀ pt', SivOpens lib ad ct k' pt' → pt' = pt) :
    (L.daead.view p').decryptDeterministically ct ad = .ok pt := by
  obtain ⟨pre, key, h1, h2, h3⟩ := C94_daead_encrypt hl hcc hr hk hp hm.1 hpk
  rw [h3 pt ad] at hct
  cases hct
  have hne : key.ciphertext lib ad pt ≠ [] := by
    obtain ⟨kps, O⟩ := daead_obtained hr hp
    obtain ⟨o, -, ho⟩ := enabled_mem O.keys hm.1 hpk.1
    obtain ⟨cc, hc, hq⟩ := daead_registry hcc hr (hk k hm.1 hpk.1).1 (hk k hm.1 hpk.1).2
    obtain ⟨a, ha, -⟩ := reported_inj_ok.1 (hq.symm.trans ho)
    obtain ⟨-, -, -, g3⟩ := C90_daead hl hc ha (fits_length (hk k hm.1 hpk.1).2)
    obtain ⟨key', g1, g2⟩ := C91_daead hl hc ha (fits_length (hk k hm.1 hpk.1).2)
    cases siv_unique h2 g1
    have hlen := g3.length pt ad _ (g2 pt ad)
    intro e
    have : (SivKey.ciphertext lib key ad pt).length = pt.length + 16 := hlen
    rw [e] at this
    simp at this
  refine ((C94_daead_decrypt hl hcc hr' hk' hp' _ ad).1 _).2
    (firstDoes_only (body := key.ciphertext lib ad pt)
    (C109_stays H hm hpk.1 h0 hs) hpk.1 h1
    ⟨_, key, payload_append h1 _ (.inr hne), h2, rfl⟩ ?_ hraw)
  rintro k1 a1 ⟨b, -, g, -⟩
  exact ⟨b, g⟩

/-- C109, MAC.  Nothing is assumed of the other keys. -/
theorem C109_mac {lib : Ssl} (hl : LawfulSsl lib) (hcc : ∀ u cc, ccMac lib u = some cc → L.ccMac u = some cc)
    (hr : PackageRegistered L r .mac) (hr' : PackageRegistered L r' .mac) (H : Rotated rb h ops h')
    (hk : KeysOf macTypes h.keyset) (hk' : KeysOf macTypes h'.keyset)
    (hp : h.primitive isInst r (L.cls .mac) = .ok p) (hp' : h'.primitive isInst' r' (L.cls .mac) = .ok p')
    {k : Key} (hm : k ∈ h.keyset.key) (hpk : IsPrimaryKey h.keyset k)
    (hs : ∀ op ∈ ops, Spares k.keyId op) {data tag : Bytes} (ht : (L.mac.view p).computeMac data = .ok tag) :
    (L.mac.view p').verifyMac tag data = .ok () := by
  obtain ⟨pre, key, h1, h2, h3⟩ := C94_mac_compute hl hcc hr hk hp hm hpk
  rw [h3 data] at ht
  cases ht
  have hlen : 10 ≤ (key.tag lib (authenticated k data)).length := by
    obtain ⟨kps, O⟩ := mac_obtained hr hp
    obtain ⟨o, -, ho⟩ := enabled_mem O.keys hm hpk.1
    obtain ⟨cc, hc, hq⟩ := mac_registry hcc hr (hk k hm hpk.1).1 (hk k hm hpk.1).2
    obtain ⟨a, ha, -⟩ := reported_inj_ok.1 (hq.symm.trans ho)
    obtain ⟨key', g1, g2, -, g3⟩ := C90_mac hl hc ha (fits_length (hk k hm hpk.1).2)
    cases mac_unique h2 g1
    rw [g3]
    cases key with
    | hmac => exact g2.2.1
    | aesCmac => exact g2.2.1
  have hne : key.tag lib (authenticated k data) ≠ [] := by intro e; rw [e] at hlen; simp at hlen
  obtain ⟨hrun, -⟩ := rotated_iff_run H
  exact ((C94_mac_verify hl hcc hr' hk' hp' _ data).1).2 ⟨by rw [List.length_append]; omega, k,
    C12_key_survives hs hrun hm hpk.1, hpk.1, _, key, payload_append h1 _ (.inr hne), h2, rfl⟩

/-- C109, PRF.  A key that is neither disabled nor deleted has the same function, under the same id, before and after. -/
theorem C109_prf {lib : Ssl} (hl : LawfulSsl lib) (hcc : ∀ u cc, ccPrf lib u = some cc → L.ccPrf u = some cc)
    (hr : PackageRegistered L r .prf) (hr' : PackageRegistered L r' .prf) (H : Rotated rb h ops h')
    (hk : KeysOf prfTypes h.keyset) (hk' : KeysOf prfTypes h'.keyset)
    (hp : h.primitive isInst r (L.cls .prfSet) = .ok p) (hp' : h'.primitive isInst' r' (L.cls .prfSet) = .ok p')
    {k : Key} (hm : OnlyWithId h.keyset k) (h0 : k.keyId ≠ 0) (he : Enabled k)
    (hs : ∀ op ∈ ops, Spares k.keyId op) {all all' : PyDict UInt32 Prf}
    (ha : (L.prfSet.view p).all = .ok all) (ha' : (L.prfSet.view p').all = .ok all') :
    ∃ f f', PyDict.get? all k.keyId = some f ∧ PyDict.get? all' k.keyId = some f' ∧
      ∀ input n, n < 2 ^ 31 → f'.compute input n = f.compute input n := by
  obtain ⟨-, all1, e1, h1⟩ := C94_prf_set hl hcc hr hk hp
  obtain ⟨-, all2, e2, h2⟩ := C94_prf_set hl hcc hr' hk' hp'
  rw [ha] at e1; cases e1
  rw [ha'] at e2; cases e2
  have hm' := C109_stays H hm he h0 hs
  cases hf : PyDict.get? all k.keyId with
  | none => exact absurd rfl ((h1 _).2 hf k hm.1 he)
  | some f =>
  cases hf' : PyDict.get? all' k.keyId with
  | none => exact absurd rfl ((h2 _).2 hf' k hm'.1 he)
  | some f' =>
  obtain ⟨k1, g1, -, g2, key1, g3, g4⟩ := (h1 _).1 f hf
  obtain ⟨k2, g5, -, g6, key2, g7, g8⟩ := (h2 _).1 f' hf'
  cases hm.2 k1 g1 g2
  cases hm'.2 k2 g5 g6
  cases prf_unique g3 g7
  exact ⟨f, f', rfl, rfl, fun input n hn => by rw [g8 input n hn, g4 input n hn]⟩

/-- A key of a keyset and its counterpart in the other. -/
theorem zip_mem {A B : Type} {l : List A} {l' : List B} (hl : l'.length = l.length) {a : A} (ha : a ∈ l) :
    ∃ b ∈ l', (a, b) ∈ l.zip l' := by
  obtain ⟨i, hi, rfl⟩ := List.getElem_of_mem ha
  refine ⟨l'[i]'(by omega), List.getElem_mem _, ?_⟩
  rw [List.mem_iff_getElem]
  exact ⟨i, by simp; omega, by simp⟩

theorem zip_mem' {A B : Type} {l : List A} {l' : List B} (hl : l'.length = l.length) {b : B} (hb : b ∈ l') :
    ∃ a ∈ l, (a, b) ∈ l.zip l' := by
  obtain ⟨i, hi, rfl⟩ := List.getElem_of_mem hb
  refine ⟨l[i]'(by omega), List.getElem_mem _, ?_⟩
  rw [List.mem_iff_getElem]
  exact ⟨i, by simp; omega, by simp⟩

theorem counterpart_keys {ks pub : Keyset} (hl : pub.key.length = ks.key.length)
    (hc : ∀ q ∈ ks.key.zip pub.key, Counterpart q.1 q.2) : KeysOf verifyTypes pub := by
  intro k' hk' _
  obtain ⟨k, -, hm⟩ := zip_mem' hl hk'
  obtain ⟨-, -, -, g1, -, g2, -⟩ := hc _ hm
  exact ⟨verify_types_iff.1 ⟨_, g1⟩, g2⟩

/-- C109, signatures.  The public keyset of the rotated keyset accepts what was signed before, if the public part of the
key is that of its private part. -/
theorem C109_signature {lib : SigSsl} (hl : LawfulSigSsl lib)
    (hccs : ∀ u cc, ccSign lib u = some cc → L.ccSign u = some cc)
    (hccv : ∀ u cc, ccVerify lib u = some cc → L.ccVerify u = some cc)
    (hr : PackageRegistered L r .signature) (hr' : PackageRegistered L r' .signature) (H : Rotated rb h ops h')
    (hk : KeysOf signTypes h.keyset) (hk' : PrivateKeyset h'.keyset)
    (hp : h.primitive isInst r (L.cls .sign) = .ok p) {k : Key} (hm : k ∈ h.keyset.key)
    (hpk : IsPrimaryKey h.keyset k)
    (hmatch : ∀ s, SigKey.StoredIn k.data.typeUrl k.data.value s → s.Matches lib)
    (hs : ∀ op ∈ ops, Spares k.keyId op)
    {pub : KeysetHandle} (hpub : h'.publicKeysetHandle r' = .ok pub)
    (hp' : pub.primitive isInst' r' (L.cls .verify) = .ok p') {seed : Seed} {data sig : Bytes}
    (hsig : (L.sign.view p).sign seed data = .ok sig) : (L.verify.view p').verify sig data = .ok () := by
  obtain ⟨pre, s, h1, h2, h2', h3⟩ := C98_sign hl hccs hr hk hp hm hpk
  rw [h3] at hsig
  cases hx : s.signature lib seed (authenticated k data) with
  | none => rw [hx] at hsig; cases hsig
  | some body =>
  rw [hx] at hsig
  cases hsig
  obtain ⟨hrun, -⟩ := rotated_iff_run H
  obtain ⟨c1, c2, c3, c4, c5⟩ := C98_public_keys hl hccs hr' hk' hpub
  have hvalid := signature_valid hl h2' (hmatch s h2) hx
  obtain ⟨kp, hkp, hmem⟩ := zip_mem c2 (C12_key_survives hs hrun hm hpk.1)
  obtain ⟨g1, g2, g3, g4, -, g6, s', g7, g8⟩ := c3 _ hmem
  dsimp only at g1 g2 g3 g4 g6 g7 g8
  cases (C97_unique hl).1 _ _ h2 g7
  have hlong := valid_length hl h2'.1 hvalid
  have hne : body ≠ [] := by intro e; rw [e] at hlong; simp at hlong
  refine (C98_verify hl hccv hr' (counterpart_keys c2 c3) hp' _ _).1.2 ⟨by rw [List.length_append]; omega, kp, hkp, ?_,
    body, _, ?_, g8, ?_⟩
  · have := hpk.1
    unfold Enabled at this ⊢
    rw [g1]
    exact this
  · refine payload_append ?_ _ (.inr hne)
    rw [← h1]
    unfold outputPrefix
    rw [g2, g3]
  · unfold authenticated at hvalid ⊢
    rw [g3]
    exact hvalid

/-- C109, hybrid encryption.  The rotated keyset decrypts what was encrypted with the public keyset before, if the public
part of the key is that of its private part; if it is a RAW key, unless another key makes something else of the
ciphertext. -/
theorem C109_hybrid {lib : HybSsl} (hl : LawfulHyb lib)
    (hccd : ∀ u cc, ccHybridDecrypt lib u = some cc → L.ccHybridDecrypt u = some cc)
    (hcce : ∀ u cc, ccHybridEncrypt lib u = some cc → L.ccHybridEncrypt u = some cc)
    (hr : PackageRegistered L r .hybrid) (hr' : PackageRegistered L r' .hybrid) (H : Rotated rb h ops h')
    (hk : PrivateHybridKeyset h.keyset) (hk' : KeysOf hybridPrivateTypes h'.keyset) (hno : NoOverflowIn h'.keyset)
    {pub : KeysetHandle} (hpub : h.publicKeysetHandle r = .ok pub)
    (hp : pub.primitive isInst r (L.cls .hybridEncrypt) = .ok p)
    (hp' : h'.primitive isInst' r' (L.cls .hybridDecrypt) = .ok p') {k : Key} (hm : OnlyWithId h.keyset k)
    (h0 : k.keyId ≠ 0) (hpk : IsPrimaryKey h.keyset k)
    (hmatch : ∀ s, HybPriv.StoredIn k.data.typeUrl k.data.value s → s.Matches lib)
    (hs : ∀ op ∈ ops, Spares k.keyId op) {seed : Seed} {pt info ct : Bytes}
    (hct : (L.hybridEncrypt.view p).encrypt seed pt info = .ok ct)
    (hraw : k.outputPrefixType = OutputPrefixType.RAW →
      ∀ k' ∈ h'.keyset.key, Enabled k' → k' ≠ k → ∀ pt', HybridOpens lib info ct k' pt' → pt' = pt) :
    (L.hybridDecrypt.view p').decrypt ct info = .ok pt := by
  obtain ⟨c1, c2, c3, c4, c5⟩ := C102_public_keys hl hccd hr hk hpub
  have hkeys : KeysOf hybridPublicTypes pub.keyset := by
    intro k' hk' _
    obtain ⟨k1, -, hmem⟩ := zip_mem' c2 hk'
    obtain ⟨-, -, -, g1, -, g2, -⟩ := c3 _ hmem
    exact ⟨hybrid_public_iff.1 ⟨_, g1⟩, g2⟩
  obtain ⟨kp, hkp, hmem⟩ := zip_mem c2 hm.1
  obtain ⟨g1, g2, g3, g4, -, g6, s, g7, g8⟩ := c3 _ hmem
  dsimp only at g1 g2 g3 g4 g6 g7 g8
  have hprim : IsPrimaryKey pub.keyset kp := by
    refine ⟨?_, by rw [g2, c1]; exact hpk.2⟩
    have := hpk.1
    unfold Enabled at this ⊢
    rw [g1]
    exact this
  obtain ⟨pre, v, h1, h2, -, h3⟩ := C102_encrypt hl hcce hr hkeys hp hkp hprim
  obtain ⟨body, h4, rfl⟩ := ((h3 seed pt info).1 _).1 hct
  cases (C101_unique hl).2 _ _ g8 h2
  have hne : body ≠ [] := by
    obtain ⟨n, hn, hlen⟩ := encrypts_length hl h4
    intro e
    rw [e] at hlen
    have := overhead_pos hn
    simp at hlen
    omega
  have h1' : outputPrefix k = .ok pre := by
    rw [← h1]
    unfold outputPrefix
    rw [g2, g3]
  refine ((C102_decrypt hl hccd hr' hk' hno hp' _ _).1 _).2
    (firstDoes_only (body := body) (C109_stays H hm hpk.1 h0 hs) hpk.1 h1'
    ⟨body, s, payload_append h1' _ (.inr hne), g7, hyb_round_trip hl (hmatch s g7) h4⟩ ?_ hraw)
  rintro k1 a1 ⟨b, -, g, -⟩
  exact ⟨b, g⟩

/-! ## What was made with a key that has been disabled or deleted -/

/-- C109, AEAD.  After the key with this id has been disabled or deleted, what has its prefix is decrypted only by a RAW
key that makes it. -/
theorem C109_aead_revoked {lib : Ssl} (hl : LawfulSsl lib)
    (hcc : ∀ u cc, ccAead lib u = some cc → L.ccAead u = some cc) (hr' : PackageRegistered L r' .aead)
    {before after : List BuilderOp} {op : BuilderOp} (H : Rotated rb h (before ++ op :: after) h')
    (hk' : KeysOf aeadTypes h'.keyset) (hp' : h'.primitive isInst' r' (L.cls .aead) = .ok p')
    {k : Key} (h0 : k.keyId ≠ 0) (hone : AtMostOne k.keyId h.keyset) (hop : Revokes k.keyId op)
    (ha : ∀ op ∈ after, KeepsOut k.keyId op) (hnr : k.outputPrefixType ≠ OutputPrefixType.RAW) {pre body : Bytes}
    (hpre : outputPrefix k = .ok pre) {pt ad : Bytes} (had : ad.length < 2 ^ 64)
    (hd : (L.aead.view p').decrypt (pre ++ body) ad = .ok pt) :
    ∃ k' ∈ h'.keyset.key, Enabled k' ∧ k'.outputPrefixType = OutputPrefixType.RAW ∧
      AeadOpens lib ad (pre ++ body) k' pt := by
  obtain ⟨b, k', a, e, g, -⟩ := ((C94_aead_decrypt hl hcc hr' hk' hp' had _).1 _).1 hd
  have hm := mem_keysInOrder.1 (show k' ∈ keysInOrder h'.keyset by rw [e]; simp)
  refine ⟨k', hm.1, hm.2, Decidable.byContradiction fun hn => ?_, g⟩
  obtain ⟨x, -, -, hx, -⟩ := g
  exact C109_gone H h0 hone hop ha k' hm.1 hm.2 (prefix_id hpre hnr hn hx)

/-- C109, deterministic AEAD. -/
theorem C109_daead_revoked {lib : Ssl} (hl : LawfulSsl lib)
    (hcc : ∀ u cc, ccDaead lib u = some cc → L.ccDaead u = some cc) (hr' : PackageRegistered L r' .daead)
    {before after : List BuilderOp} {op : BuilderOp} (H : Rotated rb h (before ++ op :: after) h')
    (hk' : KeysOf daeadTypes h'.keyset) (hp' : h'.primitive isInst' r' (L.cls .daead) = .ok p')
    {k : Key} (h0 : k.keyId ≠ 0) (hone : AtMostOne k.keyId h.keyset) (hop : Revokes k.keyId op)
    (ha : ∀ op ∈ after, KeepsOut k.keyId op) (hnr : k.outputPrefixType ≠ OutputPrefixType.RAW) {pre body : Bytes}
    (hpre : outputPrefix k = .ok pre) {pt ad : Bytes}
    (hd : (L.daead.view p').decryptDeterministically (pre ++ body) ad = .ok pt) :
    ∃ k' ∈ h'.keyset.key, Enabled k' ∧ k'.outputPrefixType = OutputPrefixType.RAW ∧
      SivOpens lib ad (pre ++ body) k' pt := by
  obtain ⟨b, k', a, e, g, -⟩ := ((C94_daead_decrypt hl hcc hr' hk' hp' _ ad).1 _).1 hd
  have hm := mem_keysInOrder.1 (show k' ∈ keysInOrder h'.keyset by rw [e]; simp)
  refine ⟨k', hm.1, hm.2, Decidable.byContradiction fun hn => ?_, g⟩
  obtain ⟨x, -, hx, -⟩ := g
  exact C109_gone H h0 hone hop ha k' hm.1 hm.2 (prefix_id hpre hnr hn hx)

/-- C109, MAC. -/
theorem C109_mac_revoked {lib : Ssl} (hl : LawfulSsl lib)
    (hcc : ∀ u cc, ccMac lib u = some cc → L.ccMac u = some cc) (hr' : PackageRegistered L r' .mac)
    {before after : List BuilderOp} {op : BuilderOp} (H : Rotated rb h (before ++ op :: after) h')
    (hk' : KeysOf macTypes h'.keyset) (hp' : h'.primitive isInst' r' (L.cls .mac) = .ok p')
    {k : Key} (h0 : k.keyId ≠ 0) (hone : AtMostOne k.keyId h.keyset) (hop : Revokes k.keyId op)
    (ha : ∀ op ∈ after, KeepsOut k.keyId op) (hnr : k.outputPrefixType ≠ OutputPrefixType.RAW) {pre body : Bytes}
    (hpre : outputPrefix k = .ok pre) {data : Bytes}
    (hv : (L.mac.view p').verifyMac (pre ++ body) data = .ok ()) :
    ∃ k' ∈ h'.keyset.key, Enabled k' ∧ k'.outputPrefixType = OutputPrefixType.RAW ∧
      TagOf lib data (pre ++ body) k' := by
  obtain ⟨-, k', hm, he, g⟩ := ((C94_mac_verify hl hcc hr' hk' hp' _ data).1).1 hv
  refine ⟨k', hm, he, Decidable.byContradiction fun hn => ?_, g⟩
  obtain ⟨x, -, hx, -⟩ := g
  exact C109_gone H h0 hone hop ha k' hm he (prefix_id hpre hnr hn hx)

/-- C109, PRF.  No function is under the id. -/
theorem C109_prf_revoked {lib : Ssl} (hl : LawfulSsl lib)
    (hcc : ∀ u cc, ccPrf lib u = some cc → L.ccPrf u = some cc) (hr' : PackageRegistered L r' .prf)
    {before after : List BuilderOp} {op : BuilderOp} (H : Rotated rb h (before ++ op :: after) h')
    (hk' : KeysOf prfTypes h'.keyset) (hp' : h'.primitive isInst' r' (L.cls .prfSet) = .ok p')
    {id : UInt32} (h0 : id ≠ 0) (hone : AtMostOne id h.keyset) (hop : Revokes id op)
    (ha : ∀ op ∈ after, KeepsOut id op) {all : PyDict UInt32 Prf} (hall : (L.prfSet.view p').all = .ok all) :
    PyDict.get? all id = none := by
  obtain ⟨-, all1, e1, h1⟩ := C94_prf_set hl hcc hr' hk' hp'
  rw [hall] at e1; cases e1
  cases hf : PyDict.get? all id with
  | none => rfl
  | some f =>
    obtain ⟨k, hm, he, hid, -⟩ := (h1 id).1 f hf
    exact absurd hid (C109_gone H h0 hone hop ha k hm he)

/-- C109, signatures.  The public keyset of the rotated keyset accepts what has the prefix only if it is a signature
under a RAW key. -/
theorem C109_signature_revoked {lib : SigSsl} (hl : LawfulSigSsl lib)
    (hccs : ∀ u cc, ccSign lib u = some cc → L.ccSign u = some cc)
    (hccv : ∀ u cc, ccVerify lib u = some cc → L.ccVerify u = some cc) (hr' : PackageRegistered L r' .signature)
    {before after : List BuilderOp} {op : BuilderOp} (H : Rotated rb h (before ++ op :: after) h')
    (hk' : PrivateKeyset h'.keyset) {pub : KeysetHandle} (hpub : h'.publicKeysetHandle r' = .ok pub)
    (hp' : pub.primitive isInst' r' (L.cls .verify) = .ok p')
    {k : Key} (h0 : k.keyId ≠ 0) (hone : AtMostOne k.keyId h.keyset) (hop : Revokes k.keyId op)
    (ha : ∀ op ∈ after, KeepsOut k.keyId op) (hnr : k.outputPrefixType ≠ OutputPrefixType.RAW) {pre body : Bytes}
    (hpre : outputPrefix k = .ok pre) {data : Bytes}
    (hv : (L.verify.view p').verify (pre ++ body) data = .ok ()) :
    ∃ k' ∈ pub.keyset.key, Enabled k' ∧ k'.outputPrefixType = OutputPrefixType.RAW ∧
      SignatureUnder lib data (pre ++ body) k' := by
  obtain ⟨c1, c2, c3, c4, c5⟩ := C98_public_keys hl hccs hr' hk' hpub
  obtain ⟨-, k', hm, he, g⟩ := ((C98_verify hl hccv hr' (counterpart_keys c2 c3) hp' _ data).1).1 hv
  refine ⟨k', hm, he, Decidable.byContradiction fun hn => ?_, g⟩
  obtain ⟨x, -, hx, -⟩ := g
  obtain ⟨k1, hm1, hmem⟩ := zip_mem' c2 hm
  obtain ⟨g1, g2, -⟩ := c3 _ hmem
  dsimp only at g1 g2
  refine C109_gone H h0 hone hop ha k1 hm1 ?_ (g2 ▸ prefix_id hpre hnr hn hx)
  unfold Enabled at he ⊢
  rw [← g1]
  exact he

/-- C109, hybrid encryption. -/
theorem C109_hybrid_revoked {lib : HybSsl} (hl : LawfulHyb lib)
    (hccd : ∀ u cc, ccHybridDecrypt lib u = some cc → L.ccHybridDecrypt u = some cc)
    (hr' : PackageRegistered L r' .hybrid)
    {before after : List BuilderOp} {op : BuilderOp} (H : Rotated rb h (before ++ op :: after) h')
    (hk' : KeysOf hybridPrivateTypes h'.keyset) (hno : NoOverflowIn h'.keyset)
    (hp' : h'.primitive isInst' r' (L.cls .hybridDecrypt) = .ok p')
    {k : Key} (h0 : k.keyId ≠ 0) (hone : AtMostOne k.keyId h.keyset) (hop : Revokes k.keyId op)
    (ha : ∀ op ∈ after, KeepsOut k.keyId op) (hnr : k.outputPrefixType ≠ OutputPrefixType.RAW) {pre body : Bytes}
    (hpre : outputPrefix k = .ok pre) {pt info : Bytes}
    (hd : (L.hybridDecrypt.view p').decrypt (pre ++ body) info = .ok pt) :
    ∃ k' ∈ h'.keyset.key, Enabled k' ∧ k'.outputPrefixType = OutputPrefixType.RAW ∧
      HybridOpens lib info (pre ++ body) k' pt := by
  obtain ⟨b, k', a, e, g, -⟩ := ((C102_decrypt hl hccd hr' hk' hno hp' _ info).1 _).1 hd
  have hm := mem_keysInOrder.1 (show k' ∈ keysInOrder h'.keyset by rw [e]; simp)
  refine ⟨k', hm.1, hm.2, Decidable.byContradiction fun hn => ?_, g⟩
  obtain ⟨x, -, hx, -⟩ := g
  exact C109_gone H h0 hone hop ha k' hm.1 hm.2 (prefix_id hpre hnr hn hx)

end
end Tink.Props
