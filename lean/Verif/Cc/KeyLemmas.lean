import Verif.Cc.KeyManagers
import Verif.Cc.PrimitiveLemmas
import Verif.Props.StreamingKeyManagers

/-!
# Lemmas about the key managers for symmetric keys
-/

namespace Tink.Cc
open Spec Cpp Props

/-! ## Key type managers and the keys they are about -/

/-- The functions of a key type manager, in terms of the keys: which it accepts, which it makes, and
which primitives it makes from them. -/
structure Describes {K F B S : Type} (m : KeyTypeManager K F B) (seed : Seed) (Ok : S → Prop) (size : S → Nat)
    (prim : S → B) (stored : K → S) (asked : F → S) (VK : K → Prop) (VF : F → Prop) : Prop where
  format : ∀ f, m.validateKeyFormat f = .ok () ↔ VF f ∧ Ok (asked f)
  key : ∀ k, size (stored k) < 2 ^ 31 → ∀ a,
    (m.validateKey k = .ok () ∧ m.create k = .ok a) ↔ VK k ∧ Ok (stored k) ∧ a = prim (stored k)
  create : ∀ f, ∃ k, m.createKey seed f = .ok k ∧ VK k ∧ stored k = asked f
  serialize : ∀ k, size (stored k) < 2 ^ 31 - 1000 →
    ∃ v, m.serializeKey k = .ok v ∧ v.length ≤ size (stored k) + 400
  parse : ∀ k v, m.serializeKey k = .ok v → m.parseKey v = .ok k
  url : m.keyType.length ≤ 100
  symmetric : m.keyMaterialType = KeyMaterialType.SYMMETRIC

namespace Describes
variable {K F B S : Type} {m : KeyTypeManager K F B} {seed : Seed} {Ok : S → Prop} {size : S → Nat}
  {prim : S → B} {stored : K → S} {asked : F → S} {VK : K → Prop} {VF : F → Prop}

theorem getPrimitive (D : Describes m seed Ok size prim stored asked VK VF) {kd : KeyData}
    (hu : kd.typeUrl = m.keyType) (hs : ∀ k, m.parseKey kd.value = .ok k → size (stored k) < 2 ^ 31) {a : B} :
    m.getPrimitive kd = .ok a ↔
      ∃ k, m.parseKey kd.value = .ok k ∧ VK k ∧ Ok (stored k) ∧ a = prim (stored k) := by
  rw [getPrimitive_iff]
  constructor
  · rintro ⟨-, k, h1, h2⟩
    exact ⟨k, h1, (D.key k (hs k h1) a).1 h2⟩
  · rintro ⟨k, h1, h2⟩
    exact ⟨hu, k, h1, (D.key k (hs k h1) a).2 h2⟩

theorem new (D : Describes m seed Ok size prim stored asked VK VF) {b : Bytes} {kd : KeyData} :
    m.newKeyData seed b = .ok kd ↔ ∃ f k, m.parseKeyFormat b = .ok f ∧ VF f ∧ Ok (asked f) ∧
      m.createKey seed f = .ok k ∧ VK k ∧ stored k = asked f ∧
      kd = { typeUrl := m.keyType, value := KeyTypeManager.serialized (m.serializeKey k),
             keyMaterialType := m.keyMaterialType } := by
  rw [newKeyData_iff fun f => let ⟨k, h, _⟩ := D.create f; ⟨k, h⟩]
  constructor
  · rintro ⟨f, k, h1, h2, h3, h4⟩
    obtain ⟨k', g1, g2, g3⟩ := D.create f
    rw [h3] at g1
    cases g1
    exact ⟨f, k, h1, ((D.format f).1 h2).1, ((D.format f).1 h2).2, h3, g2, g3, h4⟩
  · rintro ⟨f, k, h1, h2, h2', h3, -, -, h4⟩
    exact ⟨f, k, h1, (D.format f).2 ⟨h2, h2'⟩, h3, h4⟩

theorem formats (D : Describes m seed Ok size prim stored asked VK VF) {b : Bytes} :
    (∃ kd, m.newKeyData seed b = .ok kd) ↔ ∃ f, m.parseKeyFormat b = .ok f ∧ VF f ∧ Ok (asked f) := by
  constructor
  · rintro ⟨kd, h⟩
    obtain ⟨f, k, h1, h2, h3, -⟩ := D.new.1 h
    exact ⟨f, h1, h2, h3⟩
  · rintro ⟨f, h1, h2, h3⟩
    obtain ⟨k, g1, g2, g3⟩ := D.create f
    exact ⟨_, D.new.2 ⟨f, k, h1, h2, h3, g1, g2, g3, rfl⟩⟩

theorem usable (D : Describes m seed Ok size prim stored asked VK VF) {b : Bytes} {kd : KeyData}
    (h : m.newKeyData seed b = .ok kd) :
    ∃ f, m.parseKeyFormat b = .ok f ∧ VF f ∧ Ok (asked f) ∧ kd.typeUrl = m.keyType ∧
      kd.keyMaterialType = KeyMaterialType.SYMMETRIC ∧
      (size (asked f) < 2 ^ 31 - 1000 → Fits kd ∧ m.getPrimitive kd = .ok (prim (asked f)) ∧
        ∃ k, m.parseKey kd.value = .ok k ∧ VK k ∧ stored k = asked f) := by
  obtain ⟨f, k, h1, h2, h3, h4, h5, h6, rfl⟩ := D.new.1 h
  refine ⟨f, h1, h2, h3, rfl, D.symmetric, fun hs => ?_⟩
  rw [← h6] at hs h3 ⊢
  obtain ⟨v, hv, hlen⟩ := D.serialize k hs
  rw [hv]
  have hp := D.parse k v hv
  refine ⟨keyData_fits D.url (by simp only [KeyTypeManager.serialized]; omega), ?_, k, hp, h5, rfl⟩
  refine (D.getPrimitive rfl ?_).2 ⟨k, hp, h5, h3, rfl⟩
  intro k' hk'
  have hk' : m.parseKey v = .ok k' := hk'
  rw [hp] at hk'
  cases hk'
  omega

end Describes

/-! ## Conditions -/

theorem size32_toNat {b : Bytes} (h : b.length < 2 ^ 32) : (size32 b).toNat = b.length := by
  unfold size32
  rw [UInt32.toNat_ofNat', Nat.mod_eq_of_lt h]

theorem then_invalid {x y : StatusOr Unit} : (x >>= fun _ => y) = .ok () ↔ x = .ok () ∧ y = .ok () := by
  rw [sbind_ok]
  constructor
  · rintro ⟨_, h1, h2⟩; exact ⟨h1, h2⟩
  · rintro ⟨h1, h2⟩; exact ⟨(), h1, h2⟩

theorem ite_invalid' {c : Prop} [Decidable c] {x : StatusOr Unit} :
    (if c then invalidArgument else x) = .ok () ↔ ¬ c ∧ x = .ok () := by
  by_cases h : c <;> simp [h, invalidArgument]

theorem aesKey_iff {b : Bytes} (h : b.length < 2 ^ 31) : validateAesKeySize (size32 b) = .ok () ↔ IsAesKey b := by
  rw [aesKeySize_iff, size32_toNat (by omega)]
  rfl

theorem random_aesKey {lib : Ssl} (hl : LawfulSsl lib) (seed : Seed) (i n : Nat) :
    IsAesKey (lib.random seed i n) ↔ n = 16 ∨ n = 32 := by
  unfold IsAesKey
  rw [hl.random_length]

theorem aesOneShot_ok {key : Bytes} : createAesOneShotCrypter key = .ok () ↔ IsAesKey key := by
  unfold createAesOneShotCrypter IsAesKey
  constructor
  · intro h
    split at h
    · exact absurd h invalid_ne'
    · split at h
      · exact absurd h internal_ne
      · rename_i g
        simp only [ne_eq, decide_not, Bool.and_eq_true, Bool.not_eq_true', decide_eq_false_iff_not] at g
        omega
  · rintro (h | h) <;> rw [h] <;> rfl

theorem maxTagSize_iff {hash : EnumVal} {n : UInt32} :
    HmacKeyManager.maxTagSize hash = some n ↔ Digest hash n.toNat := by
  rw [← mdSize_iff]
  unfold HmacKeyManager.maxTagSize mdSize
  have e : ∀ {a : UInt32} {b : Nat}, a.toNat = b → (some a = some n ↔ some b = some n.toNat) := by
    intro a b h
    rw [Option.some.injEq, Option.some.injEq, ← UInt32.toNat_inj, h]
  split
  · exact e rfl
  split
  · exact e rfl
  split
  · exact e rfl
  split
  · exact e rfl
  split
  · exact e rfl
  simp

theorem maxTagSize_digest {hash : EnumVal} {n : Nat} (h : Digest hash n) :
    ∃ m, HmacKeyManager.maxTagSize hash = some m ∧ m.toNat = n := by
  cases h <;> exact ⟨_, rfl, rfl⟩

theorem hmacParams_iff {p : HmacParams} :
    HmacKeyManager.validateParams p = .ok () ↔
      10 ≤ p.tagSize.toNat ∧ ∃ n, Digest p.hash n ∧ p.tagSize.toNat ≤ n := by
  unfold HmacKeyManager.validateParams
  rw [ite_invalid', UInt32.lt_iff_toNat_lt, Nat.not_lt]
  refine and_congr Iff.rfl ?_
  cases h : HmacKeyManager.maxTagSize p.hash with
  | none =>
    simp only [invalidArgument, reduceCtorEq, false_iff]
    rintro ⟨n, hn, -⟩
    obtain ⟨m, hm, -⟩ := maxTagSize_digest hn
    rw [h] at hm
    cases hm
  | some m =>
    dsimp only
    rw [ite_invalid', gt_iff_lt, UInt32.lt_iff_toNat_lt, Nat.not_lt]
    have hd := maxTagSize_iff.1 h
    constructor
    · rintro ⟨h1, -⟩; exact ⟨_, hd, h1⟩
    · rintro ⟨n, hn, h1⟩
      rw [digest_unique hn hd] at h1
      exact ⟨h1, rfl⟩

theorem hmacKey_iff {k : HmacKey} :
    HmacKeyManager.validateKey k = .ok () ↔
      k.version = 0 ∧ HmacOk k.keyValue k.getParams.hash k.getParams.tagSize.toNat := by
  unfold HmacKeyManager.validateKey HmacOk
  rw [then_invalid, version_iff, ite_invalid', hmacParams_iff, Nat.not_lt]

theorem hmacFormat_iff {f : HmacKeyFormat} :
    HmacKeyManager.validateKeyFormat f = .ok () ↔ 16 ≤ f.keySize.toNat ∧ 10 ≤ f.getParams.tagSize.toNat ∧
      ∃ n, Digest f.getParams.hash n ∧ f.getParams.tagSize.toNat ≤ n := by
  unfold HmacKeyManager.validateKeyFormat
  rw [ite_invalid', hmacParams_iff, UInt32.lt_iff_toNat_lt, Nat.not_lt]
  rfl

/-- The HMAC primitive of a key. -/
def hmacPrim (lib : Ssl) (key : Bytes) (hash : EnumVal) (tagSize : Nat) : Cpp.Mac where
  computeMac := hmacCompute lib hash tagSize key
  verifyMac := hmacVerify lib hash tagSize key

theorem hmacNew_ok {lib : Ssl} {key : Bytes} {hash : EnumVal} {t : UInt32} (h : HmacOk key hash t.toNat) :
    hmacNew lib hash t key = .ok (hmacPrim lib key hash t.toNat) := by
  obtain ⟨h1, h2, n, hd, ht⟩ := h
  unfold hmacNew
  rw [mdSize_iff.2 hd]
  dsimp only
  rw [if_neg (by omega), if_neg (by omega)]
  rfl

/-! ## Sizes of messages -/

theorem length_eaxParams (p : AesEaxParams) : (encodeFields p.fields).length ≤ 40 := by
  unfold AesEaxParams.fields
  have h2 := length_uint32Field (num := 1) (n := p.ivSize) (by decide)
  omega

theorem length_aesCtrParams (p : AesCtrParams) : (encodeFields p.fields).length ≤ 40 := by
  unfold AesCtrParams.fields
  have h2 := length_uint32Field (num := 1) (n := p.ivSize) (by decide)
  omega

theorem length_cmacParams (p : AesCmacParams) : (encodeFields p.fields).length ≤ 40 := by
  unfold AesCmacParams.fields
  have h2 := length_uint32Field (num := 1) (n := p.tagSize) (by decide)
  omega

theorem length_hmacPrfParams (p : HmacPrfParams) : (encodeFields p.fields).length ≤ 40 := by
  unfold HmacPrfParams.fields
  have h2 := length_enumField (num := 1) (e := p.hash) (by decide)
  omega

end Tink.Cc
