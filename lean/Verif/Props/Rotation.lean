import Verif.Props.Misbehaving
import Verif.Props.Builder
import Verif.Props.Handle

/-!
# C12: key rotation keeps old data readable

A rotation is any history of keyset builder calls (`runBuilder`) that does not disable or delete
the key in question.  Other keys may be added, enabled, disabled or deleted, calls may fail, and
any key may become the primary.
-/

namespace Tink.Props
open Spec
section
variable {P C : Type}

/-- The call neither disables nor deletes a key with this id. -/
def Spares (id : UInt32) : BuilderOp → Prop
  | .disableKey i => i ≠ id
  | .deleteKey i => i ≠ id
  | _ => True

theorem spared_call {r : Registry P C} {op : BuilderOp} {k : Key} (hs : Spares k.keyId op)
    {ks ks' : Keyset} {e : Option Exc} (h : op.call r ks = some (ks', e)) (hk : k ∈ ks.key)
    (he : Enabled k) : k ∈ ks'.key := by
  cases op with
  | addNewKey seed draws template =>
    simp only [BuilderOp.call, Option.map_eq_some_iff] at h
    obtain ⟨⟨ks1, res⟩, h1, h2⟩ := h
    simp only [Prod.mk.injEq] at h2
    obtain ⟨rfl, _⟩ := h2
    cases hr : r.newKeyData seed template with
    | error x =>
      rw [C59_add_new_key_failure hr] at h1
      simp only [Option.some.injEq, Prod.mk.injEq] at h1
      rw [← h1.1]
      exact List.mem_append_left _ hk
    | ok kd =>
      cases res with
      | error x =>
        have hcall : (BuilderOp.addNewKey seed draws template).call r ks =
            some (ks1, some x) := by simp [BuilderOp.call, h1, raised]
        rw [C59_failure_changes_nothing (r := r) (op := .addNewKey seed draws template) ⟨kd, hr⟩ hcall]
        exact hk
      | ok id =>
        obtain ⟨_, _, _, _, _, rfl⟩ := C59_add_new_key h1
        exact List.mem_append_left _ hk
  | setPrimaryKey id =>
    rcases C59_set_primary_key id ks with ⟨_, h1⟩ | ⟨_, h1⟩ <;>
    · simp only [BuilderOp.call, BuilderOp.call.out, h1, Option.some.injEq, Prod.mk.injEq] at h
      rw [← h.1]; exact hk
  | enableKey id =>
    rcases C59_enable_key id ks with ⟨pre, k0, post, ⟨h2, _, _⟩, h1⟩ | ⟨_, h1⟩
    · simp only [BuilderOp.call, BuilderOp.call.out, h1, Option.some.injEq, Prod.mk.injEq] at h
      rw [← h.1]
      rw [h2] at hk
      simp only [List.mem_append, List.mem_cons] at hk ⊢
      rcases hk with hk | rfl | hk
      · exact .inl hk
      · right; left
        unfold Enabled at he
        rw [← he]
      · exact .inr (.inr hk)
    · simp only [BuilderOp.call, BuilderOp.call.out, h1, Option.some.injEq, Prod.mk.injEq] at h
      rw [← h.1]; exact hk
  | disableKey id =>
    rcases C59_disable_key id ks with ⟨pre, k0, post, ⟨h2, h3, _⟩, h1⟩ | ⟨_, h1⟩
    · simp only [BuilderOp.call, BuilderOp.call.out, h1, Option.some.injEq, Prod.mk.injEq] at h
      rw [← h.1]
      rw [h2] at hk
      simp only [List.mem_append, List.mem_cons] at hk ⊢
      rcases hk with hk | rfl | hk
      · exact .inl hk
      · exact absurd h3.symm hs
      · exact .inr (.inr hk)
    · simp only [BuilderOp.call, BuilderOp.call.out, h1, Option.some.injEq, Prod.mk.injEq] at h
      rw [← h.1]; exact hk
  | deleteKey id =>
    rcases C59_delete_key id ks with ⟨pre, k0, post, ⟨h2, h3, _⟩, h1⟩ | ⟨_, h1⟩
    · simp only [BuilderOp.call, BuilderOp.call.out, h1, Option.some.injEq, Prod.mk.injEq] at h
      rw [← h.1]
      rw [h2] at hk
      simp only [List.mem_append, List.mem_cons] at hk ⊢
      rcases hk with hk | rfl | hk
      · exact .inl hk
      · exact absurd h3.symm hs
      · exact .inr hk
    · simp only [BuilderOp.call, BuilderOp.call.out, h1, Option.some.injEq, Prod.mk.injEq] at h
      rw [← h.1]; exact hk

/-- C12.  An enabled key is still there, unchanged, after any history that spares its id. -/
theorem C12_key_survives {r : Registry P C} {ops : List BuilderOp} {k : Key}
    (hs : ∀ op ∈ ops, Spares k.keyId op) {ks ks' : Keyset}
    (h : runBuilder r ops ks = some ks') (hk : k ∈ ks.key) (he : Enabled k) : k ∈ ks'.key := by
  induction ops generalizing ks with
  | nil => cases h; exact hk
  | cons op ops ih =>
    unfold runBuilder at h
    obtain ⟨⟨ks1, e⟩, h1, h2⟩ := Option.bind_eq_some_iff.1 h
    exact ih (fun op hop => hs op (List.mem_cons_of_mem _ hop)) h2
      (spared_call (hs op (by simp)) h1 hk he)

variable [DecidableEq C]

theorem enabled_mem {r : Registry P C} {c : C} {ks : Keyset} {kps : List (Key × P)}
    (E : EnabledPrimitives r c ks kps) {k : Key} (hk : k ∈ ks.key) (he : Enabled k) :
    ∃ o, (k, o) ∈ kps ∧ r.primitive k.data c = .ok o := by
  have : k ∈ kps.map Prod.fst := by
    rw [E.1, List.mem_filter]; exact ⟨hk, by simpa using he⟩
  obtain ⟨q, hq, rfl⟩ := List.mem_map.1 this
  exact ⟨q.2, hq, E.2 q hq⟩

theorem mem_enabled {r : Registry P C} {c : C} {ks : Keyset} {kps : List (Key × P)}
    (E : EnabledPrimitives r c ks kps) {q : Key × P} (hq : q ∈ kps) :
    q.1 ∈ ks.key ∧ Enabled q.1 := by
  have : q.1 ∈ kps.map Prod.fst := List.mem_map_of_mem hq
  rw [E.1, List.mem_filter] at this
  exact ⟨this.1, by simpa using this.2⟩

omit [DecidableEq C] in
/-- The public counterpart of a key in the public keyset. -/
theorem public_key_mem {r : Registry P C} {h pub : KeysetHandle}
    (hp : h.publicKeysetHandle r = .ok pub) {k : Key} (hk : k ∈ h.keyset.key) :
    ∃ m f kd, r.keyManager k.data.typeUrl = .ok m ∧ m.publicKeyData = some f ∧
      f k.data = .ok kd ∧
      (⟨some kd, k.status, k.keyId, k.outputPrefixType⟩ : Key) ∈ pub.keyset.key := by
  obtain ⟨kds, hl, hq, he, _⟩ := C27_public_keyset hp
  obtain ⟨i, hi, rfl⟩ := List.getElem_of_mem hk
  have hm : (h.keyset.key[i], kds[i]'(by omega)) ∈ h.keyset.key.zip kds := by
    rw [List.mem_iff_getElem]
    exact ⟨i, by simp [hl, hi], by simp⟩
  obtain ⟨_, m, f, h1, h2, h3⟩ := hq _ hm
  refine ⟨m, f, _, h1, h2, h3, ?_⟩
  rw [he]
  exact List.mem_map.2 ⟨_, hm, rfl⟩

omit [DecidableEq C] in
/-- The private counterpart of a key of the public keyset. -/
theorem private_key_mem {r : Registry P C} {h pub : KeysetHandle}
    (hp : h.publicKeysetHandle r = .ok pub) {kp : Key} (hk : kp ∈ pub.keyset.key) :
    ∃ k ∈ h.keyset.key, ∃ m f, r.keyManager k.data.typeUrl = .ok m ∧
      m.publicKeyData = some f ∧ f k.data = .ok kp.data ∧
      k.status = kp.status ∧ k.keyId = kp.keyId ∧ k.outputPrefixType = kp.outputPrefixType := by
  obtain ⟨kds, _, hq, he, _⟩ := C27_public_keyset hp
  rw [he] at hk
  obtain ⟨q, hm, rfl⟩ := List.mem_map.1 hk
  obtain ⟨_, m, f, h1, h2, h3⟩ := hq _ hm
  exact ⟨q.1, (List.of_mem_zip hm).1, m, f, h1, h2, h3, rfl, rfl, rfl⟩

variable {isInst isInst' : P → C → Bool} {r rb r' : Registry P C} {ks ks' : Keyset}
  {kps kps' : List (Key × P)} {p p' : P} {t t' : Nat} {c c' : C} {ops : List BuilderOp}

/-- C12, AEAD.  `p` is obtained from `ks` with primary key `k`; after a rotation `p'` is obtained
from `ks'`, possibly with another registry that still makes from `k` a primitive which decrypts. -/
theorem C12_aead {V : View P Aead}
    (H : Obtained isInst (aeadWrapper V t c) r ⟨ks⟩ c kps p)
    {k : Key} {o : P} (hk : IsPrimary ks kps (k, o))
    (hs : ∀ op ∈ ops, Spares k.keyId op) (hrun : runBuilder rb ops ks = some ks')
    (H' : Obtained isInst' (aeadWrapper V t' c') r' ⟨ks'⟩ c' kps' p')
    {seed : Seed} {pt ad body ct : Bytes}
    (henc : (V.view o).encrypt seed pt ad = .ok body)
    (hdec : ∀ o', r'.primitive k.data c' = .ok o' → (V.view o').decrypt body ad = .ok pt)
    (hbody : k.outputPrefixType = OutputPrefixType.RAW ∨ body ≠ [])
    (hct : (V.view p).encrypt seed pt ad = .ok ct)
    (hothers : ∀ q ∈ kps', ∀ b, payload q.1 ct = some b →
      (V.view q.2).decrypt b ad = .ok pt ∨ Rejects ((V.view q.2).decrypt b ad)) :
    (V.view p').decrypt ct ad = .ok pt := by
  obtain ⟨hm, he⟩ := mem_enabled H.keys hk.mem
  obtain ⟨o', hm', ho'⟩ := enabled_mem H'.keys (C12_key_survives hs hrun hm he) he
  obtain ⟨pre, hpre⟩ := H.prop.2 _ hk.mem
  rw [C01_aead_encrypt_eq H hk hpre, henc] at hct
  cases hct
  exact C13_aead_some_key_accepts H' hothers hm' (payload_append hpre body hbody) (hdec o' ho')

/-- C12, deterministic AEAD. -/
theorem C12_daead {V : View P DeterministicAead}
    (H : Obtained isInst (daeadWrapper V t c) r ⟨ks⟩ c kps p)
    {k : Key} {o : P} (hk : IsPrimary ks kps (k, o))
    (hs : ∀ op ∈ ops, Spares k.keyId op) (hrun : runBuilder rb ops ks = some ks')
    (H' : Obtained isInst' (daeadWrapper V t' c') r' ⟨ks'⟩ c' kps' p')
    {pt ad body ct : Bytes}
    (henc : (V.view o).encryptDeterministically pt ad = .ok body)
    (hdec : ∀ o', r'.primitive k.data c' = .ok o' →
      (V.view o').decryptDeterministically body ad = .ok pt)
    (hbody : k.outputPrefixType = OutputPrefixType.RAW ∨ body ≠ [])
    (hct : (V.view p).encryptDeterministically pt ad = .ok ct)
    (hothers : ∀ q ∈ kps', ∀ b, payload q.1 ct = some b →
      (V.view q.2).decryptDeterministically b ad = .ok pt ∨
      Rejects ((V.view q.2).decryptDeterministically b ad)) :
    (V.view p').decryptDeterministically ct ad = .ok pt := by
  obtain ⟨hm, he⟩ := mem_enabled H.keys hk.mem
  obtain ⟨o', hm', ho'⟩ := enabled_mem H'.keys (C12_key_survives hs hrun hm he) he
  obtain ⟨pre, hpre⟩ := H.prop.2 _ hk.mem
  rw [C05_daead_encrypt_eq H hk hpre, henc] at hct
  cases hct
  rw [C05_daead_decrypt_eq H']
  exact outcomes_of_mem hothers hm' (payload_append hpre body hbody) (hdec o' ho')

/-- The condition on the length of a tag or signature (see C07). -/
def LongEnough (k : Key) (body : Bytes) : Prop :=
  if k.outputPrefixType = OutputPrefixType.RAW then 5 < body.length else body ≠ []

theorem LongEnough.payload {k : Key} {pre body : Bytes} (h : LongEnough k body)
    (hpre : outputPrefix k = .ok pre) :
    5 < (pre ++ body).length ∧ (k.outputPrefixType = OutputPrefixType.RAW ∨ body ≠ []) := by
  unfold LongEnough at h
  split at h
  · rename_i hr
    rw [(raw_iff_prefix_nil hpre).1 hr]; exact ⟨h, .inl hr⟩
  · rename_i hr
    have := outputPrefix_nonraw hpre hr
    have : 0 < body.length := List.length_pos_iff.2 h
    exact ⟨by rw [List.length_append]; omega, .inr h⟩

/-- C12, MAC. -/
theorem C12_mac {V : View P Mac}
    (H : Obtained isInst (macWrapper V t c) r ⟨ks⟩ c kps p)
    {k : Key} {o : P} (hk : IsPrimary ks kps (k, o))
    (hs : ∀ op ∈ ops, Spares k.keyId op) (hrun : runBuilder rb ops ks = some ks')
    (H' : Obtained isInst' (macWrapper V t' c') r' ⟨ks'⟩ c' kps' p')
    {data body tag : Bytes}
    (hcomp : (V.view o).computeMac (authenticated k data) = .ok body)
    (hver : ∀ o', r'.primitive k.data c' = .ok o' →
      (V.view o').verifyMac body (authenticated k data) = .ok ())
    (hbody : LongEnough k body) (htag : (V.view p).computeMac data = .ok tag)
    (hothers : ∀ q ∈ kps', ∀ b, payload q.1 tag = some b →
      (V.view q.2).verifyMac b (authenticated q.1 data) = .ok () ∨
      Rejects ((V.view q.2).verifyMac b (authenticated q.1 data))) :
    (V.view p').verifyMac tag data = .ok () := by
  obtain ⟨hm, he⟩ := mem_enabled H.keys hk.mem
  obtain ⟨o', hm', ho'⟩ := enabled_mem H'.keys (C12_key_survives hs hrun hm he) he
  obtain ⟨pre, hpre⟩ := H.prop.2 _ hk.mem
  rw [C07_mac_compute_eq H hk hpre, hcomp] at htag
  cases htag
  obtain ⟨hl, hb⟩ := hbody.payload hpre
  exact C13_mac_some_key_accepts H' hl hothers hm' (payload_append hpre body hb) (hver o' ho')

/-- C12, signatures.  The private keyset is rotated, and the verifier is obtained from the public
keyset of the rotated keyset. -/
theorem C12_signature {VS : View P PublicKeySign} {VV : View P PublicKeyVerify}
    (H : Obtained isInst (signWrapper VS t c) r ⟨ks⟩ c kps p)
    {k : Key} {o : P} (hk : IsPrimary ks kps (k, o))
    (hs : ∀ op ∈ ops, Spares k.keyId op) (hrun : runBuilder rb ops ks = some ks')
    {rp : Registry P C} {pub : KeysetHandle}
    (hpub : (⟨ks'⟩ : KeysetHandle).publicKeysetHandle rp = .ok pub)
    (H' : Obtained isInst' (verifyWrapper VV t' c') r' pub c' kps' p')
    {seed : Seed} {data body sig : Bytes}
    (hsign : (VS.view o).sign seed (authenticated k data) = .ok body)
    (hver : ∀ m f kd o', rp.keyManager k.data.typeUrl = .ok m → m.publicKeyData = some f →
      f k.data = .ok kd → r'.primitive kd c' = .ok o' →
      (VV.view o').verify body (authenticated k data) = .ok ())
    (hbody : LongEnough k body) (hsig : (VS.view p).sign seed data = .ok sig)
    (hothers : ∀ q ∈ kps', ∀ b, payload q.1 sig = some b →
      (VV.view q.2).verify b (authenticated q.1 data) = .ok () ∨
      Rejects ((VV.view q.2).verify b (authenticated q.1 data))) :
    (VV.view p').verify sig data = .ok () := by
  obtain ⟨hm, he⟩ := mem_enabled H.keys hk.mem
  obtain ⟨m, f, kd, h1, h2, h3, hmp⟩ := public_key_mem hpub (C12_key_survives hs hrun hm he)
  obtain ⟨o', hm', ho'⟩ := enabled_mem H'.keys hmp he
  obtain ⟨pre, hpre⟩ := H.prop.2 _ hk.mem
  rw [C09_sign_eq H hk hpre, hsign] at hsig
  cases hsig
  obtain ⟨hl, hb⟩ := hbody.payload hpre
  exact C13_signature_some_key_accepts H' hl hothers hm'
    (payload_append (k := ⟨some kd, k.status, k.keyId, k.outputPrefixType⟩) hpre body hb)
    (hver m f kd o' h1 h2 h3 ho')

/-- C12, hybrid encryption.  Encrypted with the public keyset before the rotation, whose primary
key is `kp`; decrypted with the rotated private keyset. -/
theorem C12_hybrid {VE : View P HybridEncrypt} {VD : View P HybridDecrypt}
    {rp : Registry P C} {pub : KeysetHandle}
    (hpub : (⟨ks⟩ : KeysetHandle).publicKeysetHandle rp = .ok pub)
    (H : Obtained isInst (hybridEncryptWrapper VE t c) r pub c kps p)
    {kp : Key} {o : P} (hk : IsPrimary pub.keyset kps (kp, o))
    (hs : ∀ op ∈ ops, Spares kp.keyId op) (hrun : runBuilder rb ops ks = some ks')
    (H' : Obtained isInst' (hybridDecryptWrapper VD t' c') r' ⟨ks'⟩ c' kps' p')
    {seed : Seed} {pt info body ct : Bytes}
    (henc : (VE.view o).encrypt seed pt info = .ok body)
    (hdec : ∀ k ∈ ks.key, ∀ m f o', rp.keyManager k.data.typeUrl = .ok m →
      m.publicKeyData = some f → f k.data = .ok kp.data → r'.primitive k.data c' = .ok o' →
      (VD.view o').decrypt body info = .ok pt)
    (hbody : kp.outputPrefixType = OutputPrefixType.RAW ∨ body ≠ [])
    (hct : (VE.view p).encrypt seed pt info = .ok ct)
    (hothers : ∀ q ∈ kps', ∀ b, payload q.1 ct = some b →
      (VD.view q.2).decrypt b info = .ok pt ∨ Rejects ((VD.view q.2).decrypt b info)) :
    (VD.view p').decrypt ct info = .ok pt := by
  obtain ⟨hmp, he⟩ := mem_enabled H.keys hk.mem
  obtain ⟨k, hkm, m, f, h1, h2, h3, hst, hid, hpt⟩ := private_key_mem hpub hmp
  have he' : Enabled k := by unfold Enabled at he ⊢; rw [hst]; exact he
  obtain ⟨o', hm', ho'⟩ :=
    enabled_mem H'.keys (C12_key_survives (hid ▸ hs) hrun hkm he') he'
  obtain ⟨pre, hpre⟩ := H.prop.2 _ hk.mem
  rw [C06_hybrid_encrypt_eq H hk hpre, henc] at hct
  cases hct
  have hpre' : outputPrefix k = .ok pre := by
    rw [← hpre]; unfold outputPrefix; rw [hid, hpt]
  rw [C06_hybrid_decrypt_eq H']
  exact outcomes_of_mem hothers hm' (payload_append hpre' body (hpt ▸ hbody))
    (hdec k hkm m f o' h1 h2 h3 ho')

end

namespace RotationExample
open Toy

/-- One AEAD key; then a key is added, made primary, the old one enabled again, a third key is
added and deleted, and a call fails. -/
def ks : Keyset := { primaryKeyId := 7, key := [key .aead [6] 7 OutputPrefixType.TINK] }
def template : KeyTemplate := { typeUrl := url .aead, outputPrefixType := OutputPrefixType.RAW }
def ops : List BuilderOp :=
  [.addNewKey 4 [7, 18] template, .setPrimaryKey 18, .enableKey 7, .addNewKey 5 [19] template,
   .deleteKey 19, .disableKey 99]
def ks' : Keyset :=
  { primaryKeyId := 18
    key := [key .aead [6] 7 OutputPrefixType.TINK, key .aead [4] 18 OutputPrefixType.RAW] }
def kps : List (Key × Prim) := [(key .aead [6] 7 OutputPrefixType.TINK, obj .aead [6])]
def kps' : List (Key × Prim) :=
  [(key .aead [6] 7 OutputPrefixType.TINK, obj .aead [6]),
   (key .aead [4] 18 OutputPrefixType.RAW, obj .aead [4])]

/-- The hypotheses of `C12_aead` hold together. -/
example : (aeadView.view (AeadExample.prim ks' kps')).decrypt [1, 0, 0, 0, 7, 6, 50, 51] [50] =
    .ok [51] :=
  C12_aead (V := aeadView) (t := 10) (c := Cls.aead) (isInst := isInst) (r := registry)
    (ks := ks) (kps := kps) (p := AeadExample.prim ks kps)
    (k := key .aead [6] 7 OutputPrefixType.TINK) (o := obj .aead [6])
    (ops := ops) (rb := registry) (ks' := ks') (t' := 10) (c' := Cls.aead) (isInst' := isInst)
    (r' := registry) (kps' := kps') (seed := 0) (body := [6, 50, 51])
    ⟨rfl, rfl, rfl, by
      intro q hq
      simp only [kps, List.mem_cons, List.not_mem_nil, or_false] at hq
      subst hq; rfl⟩ rfl
    (by
      intro op hop
      simp only [ops, List.mem_cons, List.not_mem_nil, or_false] at hop
      rcases hop with rfl | rfl | rfl | rfl | rfl | rfl <;> simp [Spares, key])
    rfl
    ⟨rfl, rfl, rfl, by
      intro q hq
      simp only [kps', List.mem_cons, List.not_mem_nil, or_false] at hq
      rcases hq with rfl | rfl <;> rfl⟩
    rfl (by intro o' ho'; cases ho'; rfl) (.inr (by simp)) rfl
    (by
      intro q hq b hb
      simp only [kps', List.mem_cons, List.not_mem_nil, or_false] at hq
      rcases hq with rfl | rfl
      · cases (show some [6, 50, 51] = some b from hb); exact .inl rfl
      · cases (show some [1, 0, 0, 0, 7, 6, 50, 51] = some b from hb)
        exact .inr ⟨.tinkError, rfl, rfl⟩)

def signKs : Keyset := { primaryKeyId := 7, key := [key .sign [6] 7 OutputPrefixType.LEGACY] }
def signTemplate : KeyTemplate :=
  { typeUrl := url .sign, outputPrefixType := OutputPrefixType.TINK }

/-- Sign, rotate, publish the rotated keyset and verify. -/
def signRotateVerify : Py Unit := do
  let p ← (⟨signKs⟩ : KeysetHandle).primitive isInst registry .sign
  let sig ← (signView.view p).sign 0 [51]
  match runBuilder registry [.addNewKey 4 [18] signTemplate, .setPrimaryKey 18] signKs with
  | none => .error .tinkError
  | some ks' =>
    let pub ← (⟨ks'⟩ : KeysetHandle).publicKeysetHandle registry
    let v ← pub.primitive isInst registry .verify
    (verifyView.view v).verify sig [51]

example : signRotateVerify = .ok () := by rfl

end RotationExample
end Tink.Props
