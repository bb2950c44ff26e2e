import Verif.Props.RotationWorks
import Verif.Props.SignatureTemplates
import Verif.Props.HybridTemplates

/-!
# C109: examples
-/

namespace Tink.Props
open Spec Config Cc

namespace RotationKeysetsExample
open ToyConfig

/-- The rotation succeeds. -/
def rotates {P C : Type} (r : Registry P C) (h : KeysetHandle) (ops : List BuilderOp) : Bool :=
  match KeysetBuilder.fromKeysetHandle h with
  | .error _ => false
  | .ok b =>
    match runBuilder r ops b with
    | none => false
    | some b' => Except.isOk (KeysetBuilder.keysetHandle b')

theorem exists_rotated {P C : Type} {r : Registry P C} {h : KeysetHandle} {ops : List BuilderOp}
    (hc : rotates r h ops = true) : ∃ h', Rotated r h ops h' := by
  unfold rotates at hc
  split at hc
  · cases hc
  · rename_i b hb
    split at hc
    · cases hc
    · rename_i b' hb'
      cases hh : KeysetBuilder.keysetHandle b' with
      | error e => rw [hh] at hc; cases hc
      | ok h' => exact ⟨h', b, b', hb, hb', hh⟩

theorem toOption_ok {x : Py KeyTemplate} (h : Except.isOk x = true) : x = .ok (x.toOption.getD {}) := by
  cases x with
  | error e => cases h
  | ok t => rfl

theorem never_none {ops : List BuilderOp} : NeverEnables [] ops := fun _ h => nomatch h

/-- A key is added with another template and made primary (its id is drawn twice, as 7 is taken), a key is disabled, and
a key that is not there cannot be deleted. -/
def opsWith (t : KeyTemplate) : List BuilderOp :=
  [.addNewKey 4 [7, 18] t, .setPrimaryKey 18, .disableKey 9, .deleteKey 99]

theorem opsWith_spares (t : KeyTemplate) : ∀ op ∈ opsWith t, Spares 7 op := by
  intro op hop
  simp only [opsWith, List.mem_cons, List.not_mem_nil, or_false] at hop
  rcases hop with rfl | rfl | rfl | rfl <;> simp [Spares]

theorem opsWith_predefined {pkg : Package} {t : KeyTemplate} (ht : .ok t ∈ templates pkg) :
    PredefinedOnly pkg (opsWith t) := by
  intro seed draws t' h
  simp only [opsWith, List.mem_cons, List.not_mem_nil, or_false, BuilderOp.addNewKey.injEq, reduceCtorEq] at h
  obtain ⟨-, -, rfl⟩ := h
  exact ht

theorem opsWith_variant {pkg : Package} {t tv : KeyTemplate} (ht : .ok t ∈ templates pkg) (hv : VariantOf t tv) :
    FromPredefined pkg (opsWith tv) := by
  intro seed draws t' h
  simp only [opsWith, List.mem_cons, List.not_mem_nil, or_false, BuilderOp.addNewKey.injEq, reduceCtorEq] at h
  obtain ⟨-, -, rfl⟩ := h
  exact ⟨t, ht, hv⟩

/-- As before, and then the old primary key is deleted. -/
def revokingWith (t : KeyTemplate) : List BuilderOp := opsWith t ++ .deleteKey 7 :: [.enableKey 9]

theorem revokingWith_predefined {pkg : Package} {t : KeyTemplate} (ht : .ok t ∈ templates pkg) :
    PredefinedOnly pkg (revokingWith t) := by
  intro seed draws t' h
  simp only [revokingWith, opsWith, List.mem_append, List.mem_cons, List.not_mem_nil, or_false,
    BuilderOp.addNewKey.injEq, reduceCtorEq] at h
  obtain ⟨-, -, rfl⟩ := h
  exact ht

theorem keepsOut : ∀ op ∈ [BuilderOp.enableKey 9], KeepsOut 7 op := by
  intro op hop
  rw [List.mem_singleton] at hop
  subst hop
  simp [KeepsOut]

theorem rotated_nil {P C : Type} {r : Registry P C} {h : KeysetHandle} (hc : rotates r h [] = true) :
    Rotated r h [] h := by
  obtain ⟨h', H⟩ := exists_rotated hc
  have e := (rotated_iff_run H).1
  simp only [runBuilder, Option.some.injEq] at e
  have : h' = h := by cases h; cases h'; cases e; rfl
  exact this ▸ H

/-- If no key is RAW before, none is after. -/
theorem noRaw {P C : Type} {r : Registry P C} {h h' : KeysetHandle} {t : KeyTemplate}
    (h0 : ∀ k ∈ h.keyset.key, k.outputPrefixType ≠ OutputPrefixType.RAW)
    (ht : t.outputPrefixType ≠ OutputPrefixType.RAW) (H : Rotated r h (revokingWith t) h') :
    ∀ k ∈ h'.keyset.key, k.outputPrefixType ≠ OutputPrefixType.RAW := by
  intro k' hk'
  rcases C109_origin H hk' with ⟨k, hk, -, -, e⟩ | ⟨seed, draws, t', kd, h1, -, -, -, e⟩
  · rw [e]; exact h0 k hk
  · simp only [revokingWith, opsWith, List.mem_append, List.mem_cons, List.not_mem_nil, or_false,
      BuilderOp.addNewKey.injEq, reduceCtorEq] at h1
    obtain ⟨-, -, rfl⟩ := h1
    rw [e]; exact ht

/-! ## AEAD -/

def newAead : KeyTemplate := Templates.AES128_GCM.toOption.getD {}

theorem newAead_mem : .ok newAead ∈ templates .aead := by
  unfold newAead
  rw [← toOption_ok (by decide +kernel)]
  simp [templates]

def oldAead : Key := ⟨some eaxKey, KeyStatusType.ENABLED, 7, OutputPrefixType.TINK⟩

/-- Keys with different algorithms; the primary key is the last. -/
def aeadHandle : KeysetHandle where
  keyset := ⟨7, [⟨some gcmKey, KeyStatusType.ENABLED, 5, OutputPrefixType.CRUNCHY⟩,
    ⟨some gcmKey, KeyStatusType.ENABLED, 9, OutputPrefixType.TINK⟩, oldAead]⟩

theorem aead_usable : AllUsable aeadTypes GoodAead aeadHandle.keyset := by
  intro k hk
  simp only [aeadHandle, List.mem_cons, List.not_mem_nil, or_false] at hk
  rcases hk with rfl | rfl | rfl
  · exact ⟨by decide +kernel, fits_key (by decide +kernel), by unfold PrefixKnown; decide, _, gcmKey_stored, .inl (by decide)⟩
  · exact ⟨by decide +kernel, fits_key (by decide +kernel), by unfold PrefixKnown; decide, _, gcmKey_stored, .inl (by decide)⟩
  · exact ⟨by decide +kernel, fits_key (by decide +kernel), by unfold PrefixKnown; decide, _, eaxKey_stored, .inr (by decide), .inr rfl⟩

theorem aead_rotates : rotates symmetricRegistry aeadHandle (opsWith newAead) = true := by decide +kernel
theorem aead_revokes : rotates symmetricRegistry aeadHandle (revokingWith newAead) = true := by decide +kernel
theorem aead_stays : rotates symmetricRegistry aeadHandle [] = true := by decide +kernel

/-- The hypotheses of `C109_aead_works`, `C109_aead` and `C109_stays` hold together. -/
example : ∃ h' p p', Rotated symmetricRegistry aeadHandle (opsWith newAead) h' ∧ OnlyWithId h'.keyset oldAead ∧
    aeadHandle.primitive ToyConfig.isInst symmetricRegistry PrimClass.aead = .ok p ∧
    h'.primitive ToyConfig.isInst symmetricRegistry PrimClass.aead = .ok p' ∧
    ∀ seed pt ad ct, ad.length < 2 ^ 64 → (ToySymmetricConfig.library.aead.view p).encrypt seed pt ad = .ok ct →
      (ToySymmetricConfig.library.aead.view p').decrypt ct ad = .ok pt := by
  obtain ⟨h', H⟩ := exists_rotated aead_rotates
  have hr := symmetric_registered .aead
  obtain ⟨-, p, hp⟩ := C109_aead_works ToySymmetricConfig.lawful ToySsl.lawful (fun _ _ h => h) hr
    (rotated_nil aead_stays) (by intro _ _ _ h; cases h) never_none aead_usable.except
  obtain ⟨hu, p', hp'⟩ := C109_aead_works ToySymmetricConfig.lawful ToySsl.lawful (fun _ _ h => h) hr H
    (opsWith_predefined newAead_mem).variants never_none aead_usable.except
  have hm : OnlyWithId aeadHandle.keyset oldAead := by unfold OnlyWithId; decide +kernel
  exact ⟨h', p, p', H, C109_stays H hm rfl (by decide) (opsWith_spares _), hp, hp', fun seed pt ad ct had hct =>
    C109_aead ToySsl.lawful (fun _ _ h => h) hr hr H (usable_keysOf aead_usable) (except_keysOf hu) hp hp' hm (by decide)
      (by decide +kernel) (opsWith_spares _) had hct (fun h => absurd h (by decide))⟩

/-- The hypotheses of `C109_aead_revoked`.  As no key is RAW afterwards, nothing with the prefix of key 7 is decrypted. -/
example : ∃ h' p', Rotated symmetricRegistry aeadHandle (revokingWith newAead) h' ∧
    h'.primitive ToyConfig.isInst symmetricRegistry PrimClass.aead = .ok p' ∧
    ∀ body ad pt, ad.length < 2 ^ 64 →
      (ToySymmetricConfig.library.aead.view p').decrypt ([1, 0, 0, 0, 7] ++ body) ad ≠ .ok pt := by
  obtain ⟨h', H⟩ := exists_rotated aead_revokes
  have hr := symmetric_registered .aead
  obtain ⟨hu, p', hp'⟩ := C109_aead_works ToySymmetricConfig.lawful ToySsl.lawful (fun _ _ h => h) hr H
    (revokingWith_predefined newAead_mem).variants never_none aead_usable.except
  refine ⟨h', p', H, hp', fun body ad pt had hd => ?_⟩
  obtain ⟨k', h1, -, h2, -⟩ := C109_aead_revoked ToySsl.lawful (fun _ _ h => h) hr H (except_keysOf hu) hp'
    (k := oldAead) (by decide) (by unfold AtMostOne; decide +kernel) rfl keepsOut (by decide) (by decide) had hd
  exact noRaw (fun k hk => by revert k; decide +kernel) (by decide +kernel) H k' h1 h2

/-- As before, and a key was destroyed: its key data are gone. -/
def agedHandle : KeysetHandle where
  keyset := { aeadHandle.keyset with key := ⟨none, KeyStatusType.DESTROYED, 11, OutputPrefixType.UNKNOWN_PREFIX⟩ ::
    aeadHandle.keyset.key }

theorem aged_usable : UsableExcept [11] aeadTypes GoodAead agedHandle.keyset := by
  intro k hk
  rcases List.mem_cons.1 hk with rfl | hk
  · exact .inr ⟨by decide, by decide⟩
  · exact .inl (aead_usable k hk)

/-- Migrating to a RAW or LEGACY key in a keyset with a destroyed key: the hypotheses of `C109_aead_works` and `C109_aead`
hold for the variants too. -/
example {tv : KeyTemplate}
    (htv : tv = KeysetBuilder.rawTemplate newAead ∨ tv = KeysetBuilder.legacyTemplate newAead) :
    ∃ h' p p', Rotated symmetricRegistry agedHandle (opsWith tv) h' ∧
      agedHandle.primitive ToyConfig.isInst symmetricRegistry PrimClass.aead = .ok p ∧
      h'.primitive ToyConfig.isInst symmetricRegistry PrimClass.aead = .ok p' ∧
      ∀ seed pt ad ct, ad.length < 2 ^ 64 → (ToySymmetricConfig.library.aead.view p).encrypt seed pt ad = .ok ct →
        (ToySymmetricConfig.library.aead.view p').decrypt ct ad = .ok pt := by
  have hrot : rotates symmetricRegistry agedHandle (opsWith tv) = true := by
    rcases htv with rfl | rfl <;> decide +kernel
  obtain ⟨h', H⟩ := exists_rotated hrot
  have hr := symmetric_registered .aead
  obtain ⟨-, p, hp⟩ := C109_aead_works ToySymmetricConfig.lawful ToySsl.lawful (fun _ _ h => h) hr
    (rotated_nil (h := agedHandle) (by decide +kernel)) (by intro _ _ _ h; cases h) (by intro _ _ h; cases h) aged_usable
  obtain ⟨hu, p', hp'⟩ := C109_aead_works ToySymmetricConfig.lawful ToySsl.lawful (fun _ _ h => h) hr H
    (opsWith_variant newAead_mem (.inr htv)) (by simp [NeverEnables, opsWith]) aged_usable
  have hm : OnlyWithId agedHandle.keyset oldAead := by unfold OnlyWithId; decide +kernel
  exact ⟨h', p, p', H, hp, hp', fun seed pt ad ct had hct =>
    C109_aead ToySsl.lawful (fun _ _ h => h) hr hr H (except_keysOf aged_usable) (except_keysOf hu) hp hp' hm (by decide)
      (by decide +kernel) (opsWith_spares _) had hct (fun h => absurd h (by decide))⟩

/-! ## Deterministic AEAD -/

def newDaead : KeyTemplate := Templates.AES256_SIV.toOption.getD {}

theorem newDaead_mem : .ok newDaead ∈ templates .daead := by
  unfold newDaead
  rw [← toOption_ok (by decide +kernel)]
  simp [templates]

def oldDaead : Key := ⟨some sivKey, KeyStatusType.ENABLED, 7, OutputPrefixType.CRUNCHY⟩

def daeadHandle : KeysetHandle where
  keyset := ⟨7, [⟨some sivKey, KeyStatusType.ENABLED, 5, OutputPrefixType.TINK⟩,
    ⟨some sivKey, KeyStatusType.ENABLED, 9, OutputPrefixType.TINK⟩, oldDaead]⟩

theorem daead_usable : AllUsable daeadTypes GoodDaead daeadHandle.keyset := by
  intro k hk
  simp only [daeadHandle, List.mem_cons, List.not_mem_nil, or_false] at hk
  rcases hk with rfl | rfl | rfl
  · exact ⟨by decide +kernel, fits_key (by decide +kernel), by unfold PrefixKnown; decide, _, sivKey_stored, by show (bytes 64).length = 64; decide⟩
  · exact ⟨by decide +kernel, fits_key (by decide +kernel), by unfold PrefixKnown; decide, _, sivKey_stored, by show (bytes 64).length = 64; decide⟩
  · exact ⟨by decide +kernel, fits_key (by decide +kernel), by unfold PrefixKnown; decide, _, sivKey_stored, by show (bytes 64).length = 64; decide⟩

theorem daead_rotates : rotates symmetricRegistry daeadHandle (opsWith newDaead) = true := by decide +kernel
theorem daead_revokes : rotates symmetricRegistry daeadHandle (revokingWith newDaead) = true := by decide +kernel
theorem daead_stays : rotates symmetricRegistry daeadHandle [] = true := by decide +kernel

/-- The hypotheses of `C109_daead_works` and `C109_daead` hold together. -/
example : ∃ h' p p', Rotated symmetricRegistry daeadHandle (opsWith newDaead) h' ∧
    daeadHandle.primitive ToyConfig.isInst symmetricRegistry PrimClass.daead = .ok p ∧
    h'.primitive ToyConfig.isInst symmetricRegistry PrimClass.daead = .ok p' ∧
    ∀ pt ad ct, (ToySymmetricConfig.library.daead.view p).encryptDeterministically pt ad = .ok ct →
      (ToySymmetricConfig.library.daead.view p').decryptDeterministically ct ad = .ok pt := by
  obtain ⟨h', H⟩ := exists_rotated daead_rotates
  have hr := symmetric_registered .daead
  obtain ⟨-, p, hp⟩ := C109_daead_works ToySymmetricConfig.lawful ToySsl.lawful (fun _ _ h => h) hr
    (rotated_nil daead_stays) (by intro _ _ _ h; cases h) never_none daead_usable.except
  obtain ⟨hu, p', hp'⟩ := C109_daead_works ToySymmetricConfig.lawful ToySsl.lawful (fun _ _ h => h) hr H
    (opsWith_predefined newDaead_mem).variants never_none daead_usable.except
  have hm : OnlyWithId daeadHandle.keyset oldDaead := by unfold OnlyWithId; decide +kernel
  exact ⟨h', p, p', H, hp, hp', fun pt ad ct hct =>
    C109_daead ToySsl.lawful (fun _ _ h => h) hr hr H (usable_keysOf daead_usable) (except_keysOf hu) hp hp' hm
      (by decide) (by decide +kernel) (opsWith_spares _) hct (fun h => absurd h (by decide))⟩

/-- The hypotheses of `C109_daead_revoked`. -/
example : ∃ h' p', Rotated symmetricRegistry daeadHandle (revokingWith newDaead) h' ∧
    h'.primitive ToyConfig.isInst symmetricRegistry PrimClass.daead = .ok p' ∧
    ∀ body ad pt,
      (ToySymmetricConfig.library.daead.view p').decryptDeterministically ([0, 0, 0, 0, 7] ++ body) ad ≠ .ok pt := by
  obtain ⟨h', H⟩ := exists_rotated daead_revokes
  have hr := symmetric_registered .daead
  obtain ⟨hu, p', hp'⟩ := C109_daead_works ToySymmetricConfig.lawful ToySsl.lawful (fun _ _ h => h) hr H
    (revokingWith_predefined newDaead_mem).variants never_none daead_usable.except
  refine ⟨h', p', H, hp', fun body ad pt hd => ?_⟩
  obtain ⟨k', h1, -, h2, -⟩ := C109_daead_revoked ToySsl.lawful (fun _ _ h => h) hr H (except_keysOf hu) hp'
    (k := oldDaead) (by decide) (by unfold AtMostOne; decide +kernel) rfl keepsOut (by decide) (by decide) hd
  exact noRaw (fun k hk => by revert k; decide +kernel) (by decide +kernel) H k' h1 h2

/-! ## MAC -/

def newMac : KeyTemplate := Templates.Mac.HMAC_SHA512_256BITTAG.toOption.getD {}

theorem newMac_mem : .ok newMac ∈ templates .mac := by
  unfold newMac
  rw [← toOption_ok (by decide +kernel)]
  simp [templates]

def oldMac : Key := ⟨some hmacKey, KeyStatusType.ENABLED, 7, OutputPrefixType.LEGACY⟩

def macHandle : KeysetHandle where
  keyset := ⟨7, [⟨some cmacKey, KeyStatusType.ENABLED, 5, OutputPrefixType.TINK⟩,
    ⟨some cmacKey, KeyStatusType.ENABLED, 9, OutputPrefixType.TINK⟩, oldMac]⟩

theorem mac_usable : AllUsable macTypes GoodMac macHandle.keyset := by
  intro k hk
  simp only [macHandle, List.mem_cons, List.not_mem_nil, or_false] at hk
  rcases hk with rfl | rfl | rfl
  · exact ⟨by decide +kernel, fits_key (by decide +kernel), by unfold PrefixKnown; decide, _, cmacKey_stored, by decide, by decide, by decide⟩
  · exact ⟨by decide +kernel, fits_key (by decide +kernel), by unfold PrefixKnown; decide, _, cmacKey_stored, by decide, by decide, by decide⟩
  · exact ⟨by decide +kernel, fits_key (by decide +kernel), by unfold PrefixKnown; decide, _, hmacKey_stored, by decide, by decide, 20, .sha1, by decide⟩

theorem mac_rotates : rotates symmetricRegistry macHandle (opsWith newMac) = true := by decide +kernel
theorem mac_revokes : rotates symmetricRegistry macHandle (revokingWith newMac) = true := by decide +kernel
theorem mac_stays : rotates symmetricRegistry macHandle [] = true := by decide +kernel

/-- The hypotheses of `C109_mac_works` and `C109_mac` hold together. -/
example : ∃ h' p p', Rotated symmetricRegistry macHandle (opsWith newMac) h' ∧
    macHandle.primitive ToyConfig.isInst symmetricRegistry PrimClass.mac = .ok p ∧
    h'.primitive ToyConfig.isInst symmetricRegistry PrimClass.mac = .ok p' ∧
    ∀ data tag, (ToySymmetricConfig.library.mac.view p).computeMac data = .ok tag →
      (ToySymmetricConfig.library.mac.view p').verifyMac tag data = .ok () := by
  obtain ⟨h', H⟩ := exists_rotated mac_rotates
  have hr := symmetric_registered .mac
  obtain ⟨-, p, hp⟩ := C109_mac_works ToySymmetricConfig.lawful ToySsl.lawful (fun _ _ h => h) hr
    (rotated_nil mac_stays) (by intro _ _ _ h; cases h) never_none mac_usable.except
  obtain ⟨hu, p', hp'⟩ := C109_mac_works ToySymmetricConfig.lawful ToySsl.lawful (fun _ _ h => h) hr H
    (opsWith_predefined newMac_mem).variants never_none mac_usable.except
  have hm : OnlyWithId macHandle.keyset oldMac := by unfold OnlyWithId; decide +kernel
  exact ⟨h', p, p', H, hp, hp', fun data tag ht =>
    C109_mac ToySsl.lawful (fun _ _ h => h) hr hr H (usable_keysOf mac_usable) (except_keysOf hu) hp hp' hm.1
      (by decide +kernel) (opsWith_spares _) ht⟩

/-- The hypotheses of `C109_mac_revoked`. -/
example : ∃ h' p', Rotated symmetricRegistry macHandle (revokingWith newMac) h' ∧
    h'.primitive ToyConfig.isInst symmetricRegistry PrimClass.mac = .ok p' ∧
    ∀ body data,
      (ToySymmetricConfig.library.mac.view p').verifyMac ([0, 0, 0, 0, 7] ++ body) data ≠ .ok () := by
  obtain ⟨h', H⟩ := exists_rotated mac_revokes
  have hr := symmetric_registered .mac
  obtain ⟨hu, p', hp'⟩ := C109_mac_works ToySymmetricConfig.lawful ToySsl.lawful (fun _ _ h => h) hr H
    (revokingWith_predefined newMac_mem).variants never_none mac_usable.except
  refine ⟨h', p', H, hp', fun body data hd => ?_⟩
  obtain ⟨k', h1, -, h2, -⟩ := C109_mac_revoked ToySsl.lawful (fun _ _ h => h) hr H (except_keysOf hu) hp'
    (k := oldMac) (by decide) (by unfold AtMostOne; decide +kernel) rfl keepsOut (by decide) (by decide) hd
  exact noRaw (fun k hk => by revert k; decide +kernel) (by decide +kernel) H k' h1 h2

/-! ## PRF -/

def newPrf : KeyTemplate := Templates.Prf.HMAC_SHA256.toOption.getD {}

theorem newPrf_mem : .ok newPrf ∈ templates .prf := by
  unfold newPrf
  rw [← toOption_ok (by decide +kernel)]
  simp [templates]

def oldPrf : Key := ⟨some hkdfKey, KeyStatusType.ENABLED, 7, OutputPrefixType.RAW⟩

def prfHandle : KeysetHandle where
  keyset := ⟨7, [⟨some hkdfKey, KeyStatusType.ENABLED, 5, OutputPrefixType.RAW⟩,
    ⟨some hkdfKey, KeyStatusType.ENABLED, 9, OutputPrefixType.RAW⟩, oldPrf]⟩

theorem prf_usable : AllUsable prfTypes GoodPrf prfHandle.keyset := by
  intro k hk
  simp only [prfHandle, List.mem_cons, List.not_mem_nil, or_false] at hk
  rcases hk with rfl | rfl | rfl
  · exact ⟨by decide +kernel, fits_key (by decide +kernel), by unfold PrefixKnown; decide, _, hkdfKey_stored, by decide, by decide, .inl rfl⟩
  · exact ⟨by decide +kernel, fits_key (by decide +kernel), by unfold PrefixKnown; decide, _, hkdfKey_stored, by decide, by decide, .inl rfl⟩
  · exact ⟨by decide +kernel, fits_key (by decide +kernel), by unfold PrefixKnown; decide, _, hkdfKey_stored, by decide, by decide, .inl rfl⟩

theorem prf_rotates : rotates symmetricRegistry prfHandle (opsWith newPrf) = true := by decide +kernel
theorem prf_revokes : rotates symmetricRegistry prfHandle (revokingWith newPrf) = true := by decide +kernel
theorem prf_stays : rotates symmetricRegistry prfHandle [] = true := by decide +kernel

/-- The hypotheses of `C109_prf_works` and `C109_prf` hold together. -/
example : ∃ h' p p', Rotated symmetricRegistry prfHandle (opsWith newPrf) h' ∧
    prfHandle.primitive ToyConfig.isInst symmetricRegistry PrimClass.prfSet = .ok p ∧
    h'.primitive ToyConfig.isInst symmetricRegistry PrimClass.prfSet = .ok p' ∧
    ∀ all all', (ToySymmetricConfig.library.prfSet.view p).all = .ok all →
      (ToySymmetricConfig.library.prfSet.view p').all = .ok all' →
      ∃ f f', PyDict.get? all 7 = some f ∧ PyDict.get? all' 7 = some f' ∧
        ∀ input n, n < 2 ^ 31 → f'.compute input n = f.compute input n := by
  obtain ⟨h', H⟩ := exists_rotated prf_rotates
  have hr := symmetric_registered .prf
  obtain ⟨-, -, p, hp⟩ := C109_prf_works ToySymmetricConfig.lawful ToySsl.lawful (fun _ _ h => h) hr
    (rotated_nil prf_stays) (by intro _ _ _ h; cases h) never_none prf_usable.except (by decide +kernel)
  obtain ⟨hu, -, p', hp'⟩ := C109_prf_works ToySymmetricConfig.lawful ToySsl.lawful (fun _ _ h => h) hr H
    (opsWith_predefined newPrf_mem) never_none prf_usable.except (by decide +kernel)
  have hm : OnlyWithId prfHandle.keyset oldPrf := by unfold OnlyWithId; decide +kernel
  exact ⟨h', p, p', H, hp, hp', fun all all' ha ha' =>
    C109_prf ToySsl.lawful (fun _ _ h => h) hr hr H (usable_keysOf prf_usable) (except_keysOf hu) hp hp' hm
      (by decide) rfl (opsWith_spares _) ha ha'⟩

/-- The hypotheses of `C109_prf_revoked`. -/
example : ∃ h' p', Rotated symmetricRegistry prfHandle (revokingWith newPrf) h' ∧
    h'.primitive ToyConfig.isInst symmetricRegistry PrimClass.prfSet = .ok p' ∧
    ∀ all, (ToySymmetricConfig.library.prfSet.view p').all = .ok all → PyDict.get? all 7 = none := by
  obtain ⟨h', H⟩ := exists_rotated prf_revokes
  have hr := symmetric_registered .prf
  obtain ⟨hu, -, p', hp'⟩ := C109_prf_works ToySymmetricConfig.lawful ToySsl.lawful (fun _ _ h => h) hr H
    (revokingWith_predefined newPrf_mem) never_none prf_usable.except (by decide +kernel)
  exact ⟨h', p', H, hp', fun all hall => C109_prf_revoked ToySsl.lawful (fun _ _ h => h) hr H (except_keysOf hu) hp'
    (by decide) (by unfold AtMostOne; decide +kernel) rfl keepsOut hall⟩

/-! ## Signatures -/

section
open SignatureExamples

def newSign : KeyTemplate := Templates.ED25519.toOption.getD {}

theorem newSign_mem : .ok newSign ∈ templates .signature := by
  unfold newSign
  rw [← toOption_ok (by decide +kernel)]
  simp [templates]

def oldSign : Key := ⟨some ecdsaData, KeyStatusType.ENABLED, 7, OutputPrefixType.LEGACY⟩

def signHandle : KeysetHandle where
  keyset := ⟨7, [⟨some ecdsaData, KeyStatusType.ENABLED, 5, OutputPrefixType.TINK⟩,
    ⟨some ecdsaData, KeyStatusType.ENABLED, 9, OutputPrefixType.CRUNCHY⟩, oldSign]⟩

theorem ecdsa_good : GoodSign ToySig.lib ecdsaData :=
  ⟨rfl, _, ecdsa_stored, ⟨⟨.p256, .inl rfl, by decide +kernel⟩, by decide +kernel⟩,
    by unfold SigKey.Matches; decide +kernel, by decide⟩

theorem sign_usable : AllUsable signTypes (GoodSign ToySig.lib) signHandle.keyset := by
  intro k hk
  simp only [signHandle, List.mem_cons, List.not_mem_nil, or_false] at hk
  rcases hk with rfl | rfl | rfl
  · exact ⟨by decide +kernel, fits_key (by decide +kernel), by unfold PrefixKnown; decide, ecdsa_good⟩
  · exact ⟨by decide +kernel, fits_key (by decide +kernel), by unfold PrefixKnown; decide, ecdsa_good⟩
  · exact ⟨by decide +kernel, fits_key (by decide +kernel), by unfold PrefixKnown; decide, ecdsa_good⟩

theorem sign_rotates : rotates signatureRegistry signHandle (opsWith newSign) = true := by decide +kernel
theorem sign_revokes : rotates signatureRegistry signHandle (revokingWith newSign) = true := by decide +kernel
theorem sign_stays : rotates signatureRegistry signHandle [] = true := by decide +kernel

theorem ecdsa_match {s : SigKey} (h : SigKey.StoredIn ecdsaData.typeUrl ecdsaData.value s) : s.Matches ToySig.lib := by
  cases (C97_unique ToySig.lawful).1 _ _ ecdsa_stored h
  unfold SigKey.Matches
  decide +kernel

/-- The hypotheses of `C109_signature_works` and `C109_signature` hold together. -/
example : ∃ h' pub p p', Rotated signatureRegistry signHandle (opsWith newSign) h' ∧
    signHandle.primitive ToyConfig.isInst signatureRegistry PrimClass.sign = .ok p ∧
    h'.publicKeysetHandle signatureRegistry = .ok pub ∧
    pub.primitive ToyConfig.isInst signatureRegistry PrimClass.verify = .ok p' ∧
    ∀ seed data sig, (ToySignatureConfig.library.sign.view p).sign seed data = .ok sig →
      (ToySignatureConfig.library.verify.view p').verify sig data = .ok () := by
  obtain ⟨h', H⟩ := exists_rotated sign_rotates
  have hr := signature_registered .signature
  obtain ⟨-, ⟨p, hp⟩, -⟩ := C109_signature_works ToySignatureConfig.lawful ToySig.lawful (fun _ _ h => h)
    (fun _ _ h => h) hr (rotated_nil sign_stays) (by intro _ _ _ h; cases h) sign_usable
  obtain ⟨hu, -, pub, p', hpub, hp'⟩ := C109_signature_works ToySignatureConfig.lawful ToySig.lawful (fun _ _ h => h)
    (fun _ _ h => h) hr H (opsWith_predefined newSign_mem).variants sign_usable
  exact ⟨h', pub, p, p', H, hp, hpub, hp', fun seed data sig hsig =>
    C109_signature ToySig.lawful (fun _ _ h => h) (fun _ _ h => h) hr hr H (usable_keysOf sign_usable)
      (usable_private ToySig.lawful hu) hp (k := oldSign) (by decide +kernel) (by decide +kernel)
      (fun _ hs => ecdsa_match hs) (opsWith_spares _) hpub hp' hsig⟩

/-- The hypotheses of `C109_signature_revoked`.  The public keys have the prefixes of the private keys. -/
example : ∃ h' pub p', Rotated signatureRegistry signHandle (revokingWith newSign) h' ∧
    h'.publicKeysetHandle signatureRegistry = .ok pub ∧
    pub.primitive ToyConfig.isInst signatureRegistry PrimClass.verify = .ok p' ∧
    ∀ body data, (ToySignatureConfig.library.verify.view p').verify ([0, 0, 0, 0, 7] ++ body) data ≠ .ok () := by
  obtain ⟨h', H⟩ := exists_rotated sign_revokes
  have hr := signature_registered .signature
  obtain ⟨hu, -, pub, p', hpub, hp'⟩ := C109_signature_works ToySignatureConfig.lawful ToySig.lawful (fun _ _ h => h)
    (fun _ _ h => h) hr H (revokingWith_predefined newSign_mem).variants sign_usable
  refine ⟨h', pub, p', H, hpub, hp', fun body data hd => ?_⟩
  obtain ⟨k', h1, -, h2, -⟩ := C109_signature_revoked ToySig.lawful (fun _ _ h => h) (fun _ _ h => h) hr H
    (usable_private ToySig.lawful hu) hpub hp'
    (k := oldSign) (by decide) (by unfold AtMostOne; decide +kernel) rfl keepsOut (by decide) (by decide) hd
  obtain ⟨-, c2, c3, -⟩ := C98_public_keys ToySig.lawful (fun _ _ h => h) hr (usable_private ToySig.lawful hu) hpub
  obtain ⟨i, hi, rfl⟩ := List.getElem_of_mem h1
  have hmem : (h'.keyset.key[i]'(by omega), pub.keyset.key[i]) ∈ h'.keyset.key.zip pub.keyset.key := by
    rw [List.mem_iff_getElem]
    exact ⟨i, by simp; omega, by simp⟩
  obtain ⟨-, -, e, -⟩ := c3 _ hmem
  exact noRaw (fun k hk => by revert k; decide +kernel) (by decide +kernel) H _ (List.getElem_mem _) (e ▸ h2)

end

/-! ## The public keyset of a builder -/

section
open SignatureExamples

/-- The hypothesis of `C109_public_keyset`. -/
example : ∃ b, KeysetBuilder.publicKeyset signatureRegistry signHandle.keyset = .ok b := by
  have : Except.isOk (KeysetBuilder.publicKeyset signatureRegistry signHandle.keyset) = true := by decide +kernel
  cases h : KeysetBuilder.publicKeyset signatureRegistry signHandle.keyset with
  | ok b => exact ⟨b, rfl⟩
  | error e => rw [h] at this; cases this

end

/-! ## Hybrid encryption -/

section
open HybridExamples

def newHybrid : KeyTemplate := Templates.DHKEM_X25519_HKDF_SHA256_HKDF_SHA256_AES_256_GCM.toOption.getD {}

theorem newHybrid_mem : .ok newHybrid ∈ templates .hybrid := by
  unfold newHybrid
  rw [← toOption_ok (by decide +kernel)]
  simp [templates]

def oldHybrid : Key := ⟨some eciesData, KeyStatusType.ENABLED, 7, OutputPrefixType.CRUNCHY⟩

def hybridHandle : KeysetHandle where
  keyset := ⟨7, [⟨some eciesData, KeyStatusType.ENABLED, 5, OutputPrefixType.TINK⟩,
    ⟨some eciesData, KeyStatusType.ENABLED, 9, OutputPrefixType.CRUNCHY⟩, oldHybrid]⟩

theorem ecies_good : GoodHybrid ToyHyb.lib eciesData :=
  ⟨rfl, _, ecies_stored, ecies_ok, ecies_matches,
    ⟨by decide, by decide, .nist .p256 (by decide) (by decide) (by decide +kernel), _, ecies_dem⟩,
    ⟨by decide, by decide, by decide⟩, by
      intro dem hd
      rw [dem_unique hd ecies_dem]
      decide, by decide⟩

theorem hybrid_usable : AllUsable hybridPrivateTypes (GoodHybrid ToyHyb.lib) hybridHandle.keyset := by
  intro k hk
  simp only [hybridHandle, List.mem_cons, List.not_mem_nil, or_false] at hk
  rcases hk with rfl | rfl | rfl
  · exact ⟨by decide +kernel, fits_key (by decide +kernel), by unfold PrefixKnown; decide, ecies_good⟩
  · exact ⟨by decide +kernel, fits_key (by decide +kernel), by unfold PrefixKnown; decide, ecies_good⟩
  · exact ⟨by decide +kernel, fits_key (by decide +kernel), by unfold PrefixKnown; decide, ecies_good⟩

theorem hybrid_rotates : rotates hybridRegistry hybridHandle (opsWith newHybrid) = true := by decide +kernel
theorem hybrid_revokes : rotates hybridRegistry hybridHandle (revokingWith newHybrid) = true := by decide +kernel
theorem hybrid_stays : rotates hybridRegistry hybridHandle [] = true := by decide +kernel

theorem ecies_match {s : HybPriv} (h : HybPriv.StoredIn eciesData.typeUrl eciesData.value s) :
    s.Matches ToyHyb.lib := by
  cases (C101_unique ToyHyb.lawful).1 _ _ ecies_stored h
  exact ecies_matches

/-- The hypotheses of `C109_hybrid_works` and `C109_hybrid` hold together. -/
example : ∃ h' pub p p', Rotated hybridRegistry hybridHandle (opsWith newHybrid) h' ∧
    hybridHandle.publicKeysetHandle hybridRegistry = .ok pub ∧
    pub.primitive ToyConfig.isInst hybridRegistry PrimClass.hybridEncrypt = .ok p ∧
    h'.primitive ToyConfig.isInst hybridRegistry PrimClass.hybridDecrypt = .ok p' ∧
    ∀ seed pt info ct, (ToyHybridConfig.library.hybridEncrypt.view p).encrypt seed pt info = .ok ct →
      (ToyHybridConfig.library.hybridDecrypt.view p').decrypt ct info = .ok pt := by
  obtain ⟨h', H⟩ := exists_rotated hybrid_rotates
  have hr := hybrid_registered .hybrid
  obtain ⟨-, -, pub, p, hpub, hp⟩ := C109_hybrid_works ToyHybridConfig.lawful ToyHyb.lawful (fun _ _ h => h)
    (fun _ _ h => h) hr (rotated_nil hybrid_stays) (by intro _ _ _ h; cases h) hybrid_usable
  obtain ⟨hu, ⟨p', hp'⟩, -⟩ := C109_hybrid_works ToyHybridConfig.lawful ToyHyb.lawful (fun _ _ h => h)
    (fun _ _ h => h) hr H (opsWith_predefined newHybrid_mem).variants hybrid_usable
  exact ⟨h', pub, p, p', H, hpub, hp, hp', fun seed pt info ct hct =>
    C109_hybrid ToyHyb.lawful (fun _ _ h => h) (fun _ _ h => h) hr hr H (usable_hybrid ToyHyb.lawful hybrid_usable).1
      (usable_keysOf hu) (usable_hybrid ToyHyb.lawful hu).2 hpub hp hp' (k := oldHybrid)
      (by unfold OnlyWithId; decide +kernel) (by decide) (by decide +kernel)
      (fun _ hs => ecies_match hs) (opsWith_spares _) hct (fun h => absurd h (by decide))⟩

/-- The hypotheses of `C109_hybrid_revoked`. -/
example : ∃ h' p', Rotated hybridRegistry hybridHandle (revokingWith newHybrid) h' ∧
    h'.primitive ToyConfig.isInst hybridRegistry PrimClass.hybridDecrypt = .ok p' ∧
    ∀ body info pt, (ToyHybridConfig.library.hybridDecrypt.view p').decrypt ([0, 0, 0, 0, 7] ++ body) info ≠ .ok pt := by
  obtain ⟨h', H⟩ := exists_rotated hybrid_revokes
  have hr := hybrid_registered .hybrid
  obtain ⟨hu, ⟨p', hp'⟩, -⟩ := C109_hybrid_works ToyHybridConfig.lawful ToyHyb.lawful (fun _ _ h => h)
    (fun _ _ h => h) hr H (revokingWith_predefined newHybrid_mem).variants hybrid_usable
  refine ⟨h', p', H, hp', fun body info pt hd => ?_⟩
  obtain ⟨k', h1, -, h2, -⟩ := C109_hybrid_revoked ToyHyb.lawful (fun _ _ h => h) hr H (usable_keysOf hu)
    (usable_hybrid ToyHyb.lawful hu).2 hp'
    (k := oldHybrid) (by decide) (by unfold AtMostOne; decide +kernel) rfl keepsOut (by decide) (by decide) hd
  exact noRaw (fun k hk => by revert k; decide +kernel) (by decide +kernel) H k' h1 h2

end

end RotationKeysetsExample
end Tink.Props
