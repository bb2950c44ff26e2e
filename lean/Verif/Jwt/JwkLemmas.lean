import Verif.Jwt.JwkSet
import Verif.Jwt.CodecLemmas
import Verif.Jwt.EncodeLemmas
import Verif.Keyset.HandleLemmas
import Verif.Py.DictLemmas
import Verif.Proto.GenLemmas
import Verif.Spec.JwkSet

/-!
# Lemmas about JWKs
-/

namespace Tink
namespace Jwk
open Json Jwt Spec

variable {F : Type}

theorem isStr_iff (s : PyStr) (v : JVal F) : isStr s v = true ↔ v = .str s := by
  cases v <;> simp [isStr]

theorem differs_iff (d : List (PyStr × JVal F)) (k s : PyStr) :
    differs d k s = false ↔ PyDict.get? d k = some (.str s) := by
  unfold differs
  cases h : PyDict.get? d k with
  | none => simp
  | some v => simp [isStr_iff]

theorem badKeyOps_iff (v : JVal F) : badKeyOps v = .ok false ↔ v = .list [.str (py! "verify")] := by
  constructor
  · intro h
    match v, h with
    | .list [x], h =>
      simp only [badKeyOps, Except.ok.injEq, Bool.not_eq_false', isStr_iff] at h
      rw [h]
    | .str [c], h => simp [badKeyOps] at h
    | .dict [], h => simp [badKeyOps] at h
    | .dict [_], h => simp [badKeyOps] at h
    | .dict (_ :: _ :: _), h => simp [badKeyOps] at h
  · rintro rfl
    simp [badKeyOps, isStr]

theorem validate_ok_iff (d : List (PyStr × JVal F)) :
    validateUseAndKeyOps d = .ok () ↔ ForVerifying d := by
  unfold validateUseAndKeyOps ForVerifying
  cases h1 : PyDict.get? d (py! "key_ops") with
  | none =>
    cases h2 : PyDict.get? d (py! "use") with
    | none => simp [pure, Except.pure, bind, Except.bind]
    | some v =>
      by_cases hv : isStr (py! "sig") v = true
      · simp [pure, Except.pure, bind, Except.bind, (isStr_iff _ v).1 hv, isStr]
      · simp only [pure, Except.pure, bind, Except.bind, hv]
        simp
        intro h; exact hv ((isStr_iff _ _).2 h)
  | some w =>
    cases hb : badKeyOps w with
    | error e =>
      simp only [bind, Except.bind, hb]
      constructor
      · intro h; cases h
      · rintro ⟨_, h⟩
        rw [(badKeyOps_iff w).2 (h w rfl)] at hb; cases hb
    | ok bad =>
      cases bad with
      | true =>
        simp only [bind, Except.bind, hb]
        constructor
        · intro h; cases h
        · rintro ⟨_, h⟩
          rw [(badKeyOps_iff w).2 (h w rfl)] at hb; cases hb
      | false =>
        have hw := (badKeyOps_iff w).1 hb
        cases h2 : PyDict.get? d (py! "use") with
        | none => simp [pure, Except.pure, bind, Except.bind, badKeyOps, isStr, hw]
        | some v =>
          by_cases hv : isStr (py! "sig") v = true
          · simp [pure, Except.pure, bind, Except.bind, badKeyOps, isStr, hw, (isStr_iff _ v).1 hv]
          · simp only [pure, Except.pure, bind, Except.bind, hb, hv]
            simp
            intro h; exact absurd ((isStr_iff _ _).2 h) hv

theorem bits8_inj {a b : UInt8} (h : bits 8 a.toNat = bits 8 b.toNat) : a = b := by
  apply UInt8.toNat_inj.1
  apply Nat.eq_of_testBit_eq
  intro i
  by_cases hi : i < 8
  · have := congrArg (fun l => l[7 - i]?) h
    simp only [bits] at this
    rcases (by omega : i = 0 ∨ i = 1 ∨ i = 2 ∨ i = 3 ∨ i = 4 ∨ i = 5 ∨ i = 6 ∨ i = 7) with
      rfl | rfl | rfl | rfl | rfl | rfl | rfl | rfl <;> simpa using this
  · have h8 : 2 ^ 8 ≤ 2 ^ i := Nat.pow_le_pow_right (by decide) (by omega)
    have ha := a.toNat_lt
    have hb := b.toNat_lt
    rw [Nat.testBit_lt_two_pow (by omega), Nat.testBit_lt_two_pow (by omega)]

theorem octetBits_inj {a b : Bytes} (h : octetBits a = octetBits b) : a = b := by
  induction a generalizing b with
  | nil =>
    cases b with
    | nil => rfl
    | cons y b =>
      have := congrArg List.length h
      simp [octetBits, bits_length] at this
      omega
  | cons x a ih =>
    cases b with
    | nil =>
      have := congrArg List.length h
      simp [octetBits, bits_length] at this
    | cons y b =>
      unfold octetBits at h
      rw [List.flatMap_cons, List.flatMap_cons] at h
      obtain ⟨h1, h2⟩ := List.append_inj h (by rw [bits_length, bits_length])
      rw [bits8_inj h1, ih h2]

theorem utf8Encode_toNat {s : PyStr} {b : Bytes} (h : utf8Encode s = .ok b) (hb : ∀ c ∈ b, UrlChar c) :
    s = b.map UInt8.toNat := by
  have h1 := utf8Decode_encode s b h
  rw [utf8Decode_ascii b fun c hc => UrlChar.ascii (hb c hc)] at h1
  cases h1; rfl

/-- A member that is read as a number. -/
theorem number_iff (d : List (PyStr × JVal F)) (k : PyStr) (b : Bytes) :
    (do let v ← item d k; base64DecodeStr v) = Except.ok b ↔ Number d k b := by
  unfold item Number
  cases h : PyDict.get? d k with
  | none => simp [bind, Except.bind]
  | some v =>
    cases v with
    | str t =>
      simp only [bind, Except.bind, base64DecodeStr, Option.some.injEq, JVal.str.injEq]
      constructor
      · intro h1
        cases h2 : utf8Encode t with
        | error e => rw [h2] at h1; cases h1
        | ok bs =>
          rw [h2] at h1
          simp only at h1
          rcases base64Decode_cases bs with ⟨h3, _⟩ | ⟨h3, h4, b', h5, h6⟩
          · rw [h3] at h1; cases h1
          · rw [h5] at h1; cases h1
            exact ⟨bs, utf8Encode_toNat h2 h3, h3, h4, h6⟩
      · rintro ⟨s, rfl, h3, h4, h6⟩
        rw [utf8Encode_ascii s fun c hc => UrlChar.ascii (h3 c hc)]
        simp only
        rcases base64Decode_cases s with ⟨_, h⟩ | ⟨_, _, b', h5, h7⟩
        · exact absurd ⟨h3, h4⟩ h
        · rw [h5, octetBits_inj (h6.trans h7.symm)]
    | _ => simp [bind, Except.bind, base64DecodeStr]

theorem customKid_ok_iff (d : List (PyStr × JVal F)) (kid : Option PStr) :
    customKidOf d = .ok kid ↔ PyDict.get? d (py! "kid") = kid.map fun s => .str s.toPy := by
  unfold customKidOf
  cases h : PyDict.get? d (py! "kid") with
  | none => cases kid <;> simp
  | some v =>
    cases v with
    | str s =>
      cases h1 : s.toProto with
      | error e =>
        simp only [bind, Except.bind, h1]
        cases kid with
        | none => simp
        | some t =>
          simp
          rintro rfl
          rw [toProto_toPy] at h1; cases h1
      | ok t =>
        have := toPy_toProto s t h1
        simp only [bind, Except.bind, h1, pure, Except.pure]
        cases kid with
        | none => simp
        | some u =>
          simp
          constructor
          · rintro rfl; exact this.symm
          · rintro rfl; rw [toProto_toPy] at h1; cases h1; rfl
    | _ => cases kid <;> simp

theorem read_bind {α : Type} (d : List (PyStr × JVal F)) (k : PyStr) (f : Bytes → Py α) :
    (do let v ← item d k; let b ← base64DecodeStr v; f b) =
      (do let b ← (do let v ← item d k; base64DecodeStr v); f b) := by
  cases item d k with
  | error e => rfl
  | ok v => cases h : base64DecodeStr v <;> simp [bind, Except.bind, h]

theorem number_bind {α : Type} {d : List (PyStr × JVal F)} {k : PyStr} {b : Bytes} (h : Number d k b)
    (f : Bytes → Py α) : (do let v ← item d k; let b ← base64DecodeStr v; f b) = f b := by
  rw [read_bind, (number_iff d k b).2 h]; rfl

theorem number_of_bind {α : Type} {d : List (PyStr × JVal F)} {k : PyStr} {f : Bytes → Py α} {y : α}
    (h : (do let v ← item d k; let b ← base64DecodeStr v; f b) = Except.ok y) :
    ∃ b, Number d k b ∧ f b = .ok y := by
  rw [read_bind] at h
  obtain ⟨b, h1, h2⟩ := bind_ok_iff.1 h
  exact ⟨b, (number_iff d k b).1 h1, h2⟩

theorem Number.unique {d : List (PyStr × JVal F)} {k : PyStr} {a b : Bytes} (h1 : Number d k a)
    (h2 : Number d k b) : a = b := by
  have h1 := (number_iff d k a).2 h1
  rw [(number_iff d k b).2 h2] at h1
  cases h1; rfl

/-- The proto of an EC key. -/
def ecdsaProto (algorithm : EnumVal) (a b : Bytes) (kid : Option PStr) : JwtEcdsaPublicKey :=
  { algorithm := algorithm, x := a, y := b, customKid := kid.map fun k => ⟨k⟩ }
/-- The proto of an RSA key with PKCS #1 padding. -/
def pkcs1Proto (algorithm : EnumVal) (a b : Bytes) (kid : Option PStr) : JwtRsaSsaPkcs1PublicKey :=
  { algorithm := algorithm, n := a, e := b, customKid := kid.map fun k => ⟨k⟩ }
/-- The proto of an RSA key with PSS padding. -/
def pssProto (algorithm : EnumVal) (a b : Bytes) (kid : Option PStr) : JwtRsaSsaPssPublicKey :=
  { algorithm := algorithm, n := a, e := b, customKid := kid.map fun k => ⟨k⟩ }

/-- Wrapping a serialized proto in a key. -/
def wrapped (url : PStr) (x : Py Bytes) : Py Key := do
  let value ← x
  return protoKey url value

theorem ecdsaNames_iff {alg : PyStr} {i : EnumVal} (h : PyDict.get? ecdsaNames alg = some i) :
    ∃ crv, (i, alg, crv) ∈ [(1, py! "ES256", py! "P-256"), (2, py! "ES384", py! "P-384"),
      (3, py! "ES512", py! "P-521")] := by
  have := PyDict.get?_mem _ _ _ h
  simp only [ecdsaNames, ecdsaParams, List.map_cons, List.map_nil, List.mem_cons, List.not_mem_nil,
    or_false, Prod.mk.injEq] at this
  rcases this with ⟨rfl, rfl⟩ | ⟨rfl, rfl⟩ | ⟨rfl, rfl⟩
  · exact ⟨_, List.mem_cons_self⟩
  · exact ⟨_, List.mem_cons_of_mem _ List.mem_cons_self⟩
  · exact ⟨_, List.mem_cons_of_mem _ (List.mem_cons_of_mem _ List.mem_cons_self)⟩

theorem ecdsa_table {i : EnumVal} {alg crv : PyStr}
    (h : (i, alg, crv) ∈ [((1 : EnumVal), py! "ES256", py! "P-256"), (2, py! "ES384", py! "P-384"),
      (3, py! "ES512", py! "P-521")]) :
    PyDict.get? ecdsaNames alg = some i ∧ i ≠ 0 ∧ PyDict.get? ecdsaParams i = some (alg, crv) ∧
      (i, alg) ∈ [((1 : EnumVal), py! "ES256"), (2, py! "ES384"), (3, py! "ES512")] ∧
      (alg, crv) ∈ [(py! "ES256", py! "P-256"), (py! "ES384", py! "P-384"), (py! "ES512", py! "P-521")] ∧
      (py! "ES").isPrefixOf alg = true := by
  simp only [List.mem_cons, List.not_mem_nil, or_false, Prod.mk.injEq] at h
  rcases h with ⟨rfl, rfl, rfl⟩ | ⟨rfl, rfl, rfl⟩ | ⟨rfl, rfl, rfl⟩ <;> decide

/-- The conditions on an EC key. -/
structure EcOk (d : List (PyStr × JVal F)) (crv : PyStr) (a b : Bytes) (kid : Option PStr) : Prop where
  kty : PyDict.get? d (py! "kty") = some (.str (py! "EC"))
  crv : PyDict.get? d (py! "crv") = some (.str crv)
  use : ForVerifying d
  isPublic : PyDict.get? d (py! "d") = none
  a : Number d (py! "x") a
  b : Number d (py! "y") b
  kid : PyDict.get? d (py! "kid") = kid.map fun s => .str s.toPy

/-- The conditions on an RSA key. -/
structure RsaOk (d : List (PyStr × JVal F)) (a b : Bytes) (kid : Option PStr) : Prop where
  kty : PyDict.get? d (py! "kty") = some (.str (py! "RSA"))
  use : ForVerifying d
  isPublic : rsaPrivate d = false
  a : Number d (py! "n") a
  b : Number d (py! "e") b
  kid : PyDict.get? d (py! "kid") = kid.map fun s => .str s.toPy

theorem convertToEcdsa_of {d : List (PyStr × JVal F)} {i : EnumVal} {alg crv : PyStr} {a b : Bytes}
    {kid : Option PStr}
    (ht : (i, alg, crv) ∈ [((1 : EnumVal), py! "ES256", py! "P-256"), (2, py! "ES384", py! "P-384"),
      (3, py! "ES512", py! "P-521")]) (h : EcOk d crv a b kid) :
    convertToEcdsa d alg = wrapped JWT_ECDSA_PUBLIC_KEY_TYPE (ecdsaProto i a b kid).serializeToString := by
  obtain ⟨h1, h2, h3, _⟩ := ecdsa_table ht
  unfold convertToEcdsa
  rw [h1]
  simp only [h2, if_false, (differs_iff d _ _).2 h.kty, Bool.false_eq_true, h3,
    (differs_iff d _ _).2 h.crv, (validate_ok_iff d).2 h.use]
  show (if (PyDict.get? d (py! "d")).isSome = true then _ else _) = _
  rw [if_neg (by rw [h.isPublic]; simp), number_bind h.a, number_bind h.b,
    (customKid_ok_iff d kid).2 h.kid]
  rfl

theorem of_convertToEcdsa {d : List (PyStr × JVal F)} {alg : PyStr} {k : Key}
    (h : convertToEcdsa d alg = .ok k) : ∃ i crv a b kid,
      (i, alg, crv) ∈ [((1 : EnumVal), py! "ES256", py! "P-256"), (2, py! "ES384", py! "P-384"),
        (3, py! "ES512", py! "P-521")] ∧ EcOk d crv a b kid := by
  unfold convertToEcdsa at h
  cases h0 : PyDict.get? ecdsaNames alg with
  | none => rw [h0] at h; cases h
  | some i =>
    rw [h0] at h
    obtain ⟨crv, ht⟩ := ecdsaNames_iff h0
    obtain ⟨_, h2, h3, _⟩ := ecdsa_table ht
    simp only [h2, if_false, h3] at h
    cases hk : differs d (py! "kty") (py! "EC") with
    | true => rw [hk] at h; cases h
    | false =>
      cases hc : differs d (py! "crv") crv with
      | true => rw [hk, hc] at h; cases h
      | false =>
        rw [hk, hc] at h
        simp only [Bool.false_eq_true, if_false] at h
        obtain ⟨_, hu, h⟩ := bind_ok_iff.1 h
        by_cases hd : (PyDict.get? d (py! "d")).isSome = true
        · rw [if_pos hd] at h; cases h
        · rw [if_neg hd] at h
          obtain ⟨a, ha, h⟩ := number_of_bind h
          obtain ⟨b, hb, h⟩ := number_of_bind h
          obtain ⟨kid, hkid, h⟩ := bind_ok_iff.1 h
          exact ⟨i, crv, a, b, kid, ht, (differs_iff d _ _).1 hk, (differs_iff d _ _).1 hc,
            (validate_ok_iff d).1 hu, by simpa using hd, ha, hb, (customKid_ok_iff d kid).1 hkid⟩

theorem pkcs1Names_iff {alg : PyStr} {i : EnumVal} (h : PyDict.get? rsaSsaPkcs1Names alg = some i) :
    (i, alg) ∈ [((1 : EnumVal), py! "RS256"), (2, py! "RS384"), (3, py! "RS512")] := by
  have := PyDict.get?_mem _ _ _ h
  simp only [rsaSsaPkcs1Names, rsaSsaPkcs1Params, List.map_cons, List.map_nil, List.mem_cons, List.not_mem_nil,
    or_false, Prod.mk.injEq] at this
  rcases this with ⟨rfl, rfl⟩ | ⟨rfl, rfl⟩ | ⟨rfl, rfl⟩ <;> decide

theorem pkcs1_table {i : EnumVal} {alg : PyStr} (h : (i, alg) ∈ [((1 : EnumVal), py! "RS256"), (2, py! "RS384"), (3, py! "RS512")]) :
    PyDict.get? rsaSsaPkcs1Names alg = some i ∧ i ≠ 0 ∧ PyDict.get? rsaSsaPkcs1Params i = some alg ∧
      alg ∈ [py! "RS256", py! "RS384", py! "RS512", py! "PS256", py! "PS384", py! "PS512"] ∧
      (py! "RS").isPrefixOf alg = true := by
  simp only [List.mem_cons, List.not_mem_nil, or_false, Prod.mk.injEq] at h
  rcases h with ⟨rfl, rfl⟩ | ⟨rfl, rfl⟩ | ⟨rfl, rfl⟩ <;> decide

theorem convertToRsaSsaPkcs1_of {d : List (PyStr × JVal F)} {i : EnumVal} {alg : PyStr} {a b : Bytes}
    {kid : Option PStr} (ht : (i, alg) ∈ [((1 : EnumVal), py! "RS256"), (2, py! "RS384"), (3, py! "RS512")]) (h : RsaOk d a b kid) :
    convertToRsaSsaPkcs1 d alg = wrapped JWT_RSA_SSA_PKCS1_PUBLIC_KEY_TYPE (pkcs1Proto i a b kid).serializeToString := by
  obtain ⟨h1, h2, _⟩ := pkcs1_table ht
  unfold convertToRsaSsaPkcs1
  rw [h1]
  simp only [h2, if_false, (differs_iff d _ _).2 h.kty, Bool.false_eq_true,
    (validate_ok_iff d).2 h.use]
  show (if rsaPrivate d = true then _ else _) = _
  rw [if_neg (by rw [h.isPublic]; simp), number_bind h.a, number_bind h.b,
    (customKid_ok_iff d kid).2 h.kid]
  rfl

theorem of_convertToRsaSsaPkcs1 {d : List (PyStr × JVal F)} {alg : PyStr} {k : Key}
    (h : convertToRsaSsaPkcs1 d alg = .ok k) : ∃ i a b kid, (i, alg) ∈ [((1 : EnumVal), py! "RS256"), (2, py! "RS384"), (3, py! "RS512")] ∧ RsaOk d a b kid := by
  unfold convertToRsaSsaPkcs1 at h
  cases h0 : PyDict.get? rsaSsaPkcs1Names alg with
  | none => rw [h0] at h; cases h
  | some i =>
    rw [h0] at h
    have ht := pkcs1Names_iff h0
    obtain ⟨_, h2, _⟩ := pkcs1_table ht
    simp only [h2, if_false] at h
    cases hk : differs d (py! "kty") (py! "RSA") with
    | true => rw [hk] at h; cases h
    | false =>
      rw [hk] at h
      simp only [Bool.false_eq_true, if_false] at h
      obtain ⟨_, hu, h⟩ := bind_ok_iff.1 h
      by_cases hd : rsaPrivate d = true
      · rw [if_pos hd] at h; cases h
      · rw [if_neg hd] at h
        obtain ⟨a, ha, h⟩ := number_of_bind h
        obtain ⟨b, hb, h⟩ := number_of_bind h
        obtain ⟨kid, hkid, h⟩ := bind_ok_iff.1 h
        exact ⟨i, a, b, kid, ht, (differs_iff d _ _).1 hk, (validate_ok_iff d).1 hu, by simpa using hd,
          ha, hb, (customKid_ok_iff d kid).1 hkid⟩

theorem pssNames_iff {alg : PyStr} {i : EnumVal} (h : PyDict.get? rsaSsaPssNames alg = some i) :
    (i, alg) ∈ [((1 : EnumVal), py! "PS256"), (2, py! "PS384"), (3, py! "PS512")] := by
  have := PyDict.get?_mem _ _ _ h
  simp only [rsaSsaPssNames, rsaSsaPssParams, List.map_cons, List.map_nil, List.mem_cons, List.not_mem_nil,
    or_false, Prod.mk.injEq] at this
  rcases this with ⟨rfl, rfl⟩ | ⟨rfl, rfl⟩ | ⟨rfl, rfl⟩ <;> decide

theorem pss_table {i : EnumVal} {alg : PyStr} (h : (i, alg) ∈ [((1 : EnumVal), py! "PS256"), (2, py! "PS384"), (3, py! "PS512")]) :
    PyDict.get? rsaSsaPssNames alg = some i ∧ i ≠ 0 ∧ PyDict.get? rsaSsaPssParams i = some alg ∧
      alg ∈ [py! "RS256", py! "RS384", py! "RS512", py! "PS256", py! "PS384", py! "PS512"] ∧
      (py! "PS").isPrefixOf alg = true := by
  simp only [List.mem_cons, List.not_mem_nil, or_false, Prod.mk.injEq] at h
  rcases h with ⟨rfl, rfl⟩ | ⟨rfl, rfl⟩ | ⟨rfl, rfl⟩ <;> decide

theorem convertToRsaSsaPss_of {d : List (PyStr × JVal F)} {i : EnumVal} {alg : PyStr} {a b : Bytes}
    {kid : Option PStr} (ht : (i, alg) ∈ [((1 : EnumVal), py! "PS256"), (2, py! "PS384"), (3, py! "PS512")]) (h : RsaOk d a b kid) :
    convertToRsaSsaPss d alg = wrapped JWT_RSA_SSA_PSS_PUBLIC_KEY_TYPE (pssProto i a b kid).serializeToString := by
  obtain ⟨h1, h2, _⟩ := pss_table ht
  unfold convertToRsaSsaPss
  rw [h1]
  simp only [h2, if_false, (differs_iff d _ _).2 h.kty, Bool.false_eq_true,
    (validate_ok_iff d).2 h.use]
  show (if rsaPrivate d = true then _ else _) = _
  rw [if_neg (by rw [h.isPublic]; simp), number_bind h.a, number_bind h.b,
    (customKid_ok_iff d kid).2 h.kid]
  rfl

theorem of_convertToRsaSsaPss {d : List (PyStr × JVal F)} {alg : PyStr} {k : Key}
    (h : convertToRsaSsaPss d alg = .ok k) : ∃ i a b kid, (i, alg) ∈ [((1 : EnumVal), py! "PS256"), (2, py! "PS384"), (3, py! "PS512")] ∧ RsaOk d a b kid := by
  unfold convertToRsaSsaPss at h
  cases h0 : PyDict.get? rsaSsaPssNames alg with
  | none => rw [h0] at h; cases h
  | some i =>
    rw [h0] at h
    have ht := pssNames_iff h0
    obtain ⟨_, h2, _⟩ := pss_table ht
    simp only [h2, if_false] at h
    cases hk : differs d (py! "kty") (py! "RSA") with
    | true => rw [hk] at h; cases h
    | false =>
      rw [hk] at h
      simp only [Bool.false_eq_true, if_false] at h
      obtain ⟨_, hu, h⟩ := bind_ok_iff.1 h
      by_cases hd : rsaPrivate d = true
      · rw [if_pos hd] at h; cases h
      · rw [if_neg hd] at h
        obtain ⟨a, ha, h⟩ := number_of_bind h
        obtain ⟨b, hb, h⟩ := number_of_bind h
        obtain ⟨kid, hkid, h⟩ := bind_ok_iff.1 h
        exact ⟨i, a, b, kid, ht, (differs_iff d _ _).1 hk, (validate_ok_iff d).1 hu, by simpa using hd,
          ha, hb, (customKid_ok_iff d kid).1 hkid⟩

theorem rsaPrivate_iff (d : List (PyStr × JVal F)) :
    rsaPrivate d = false ↔ ∀ m ∈ rsaPrivateMembers, PyDict.get? d m = none := by
  unfold rsaPrivate rsaPrivateMembers
  simp [and_assoc]

/-- The key made of a JWK with the given algorithm, numbers and kid. -/
def keyFor (alg : PyStr) (a b : Bytes) (kid : Option PStr) : Py Key :=
  match PyDict.get? ecdsaNames alg, PyDict.get? rsaSsaPkcs1Names alg, PyDict.get? rsaSsaPssNames alg with
  | some i, _, _ => wrapped JWT_ECDSA_PUBLIC_KEY_TYPE (ecdsaProto i a b kid).serializeToString
  | none, some i, _ => wrapped JWT_RSA_SSA_PKCS1_PUBLIC_KEY_TYPE (pkcs1Proto i a b kid).serializeToString
  | none, none, some i => wrapped JWT_RSA_SSA_PSS_PUBLIC_KEY_TYPE (pssProto i a b kid).serializeToString
  | none, none, none => .error .tinkError

theorem kid_some {d : List (PyStr × JVal F)} {kid : Option PyStr}
    (h : PyDict.get? d (py! "kid") = kid.map .str ∧ ∀ s ∈ kid, ValidText s) :
    ∃ kid' : Option PStr, kid = kid'.map PStr.toPy ∧
      PyDict.get? d (py! "kid") = kid'.map fun s => .str s.toPy := by
  cases kid with
  | none => exact ⟨none, rfl, h.1⟩
  | some s =>
    have hv : s.toProto = .ok (s.map Char.ofNat) := by
      unfold PyStr.toProto
      rw [if_pos (List.all_eq_true.2 (h.2 s rfl))]
    have := toPy_toProto s _ hv
    exact ⟨some (s.map Char.ofNat), by simp [this], by rw [h.1]; simp [this]⟩

theorem kid_of {d : List (PyStr × JVal F)} {kid : Option PStr}
    (h : PyDict.get? d (py! "kid") = kid.map fun s => .str s.toPy) :
    PyDict.get? d (py! "kid") = (kid.map PStr.toPy).map .str ∧
      ∀ s ∈ kid.map PStr.toPy, ValidText s := by
  constructor
  · rw [h, Option.map_map]; rfl
  · intro s hs
    cases kid with
    | none => cases hs
    | some t => cases hs; exact toPy_valid t

theorem importKey_dict {d : List (PyStr × JVal F)} {v : JVal F} (h : PyDict.get? d (py! "alg") = some v) :
    importKey (.dict d) = importDict d v := by
  unfold importKey contains item
  simp [h, bind, Except.bind]

/-- A JWK that describes a public key is converted. -/
theorem importKey_denotes {d : List (PyStr × JVal F)} {alg : PyStr} {a b : Bytes} {kid : Option PyStr}
    (h : Denotes d alg a b kid) : ∃ kid' : Option PStr, kid = kid'.map PStr.toPy ∧
      importKey (.dict d) = keyFor alg a b kid' := by
  cases h with
  | ec crv kty halg hcrv ha hb hkid use pub =>
    obtain ⟨kid', h1, h2⟩ := kid_some hkid
    refine ⟨kid', h1, ?_⟩
    have h3 : ∃ i, (i, alg, crv) ∈ [((1 : EnumVal), py! "ES256", py! "P-256"), (2, py! "ES384", py! "P-384"),
        (3, py! "ES512", py! "P-521")] := by
      have := halg.2
      simp only [List.mem_cons, List.not_mem_nil, or_false, Prod.mk.injEq] at this
      rcases this with ⟨rfl, rfl⟩ | ⟨rfl, rfl⟩ | ⟨rfl, rfl⟩
      · exact ⟨1, by decide⟩
      · exact ⟨2, by decide⟩
      · exact ⟨3, by decide⟩
    obtain ⟨i, ht⟩ := h3
    obtain ⟨h4, _, _, _, _, h5⟩ := ecdsa_table ht
    rw [importKey_dict halg.1]
    unfold keyFor
    simp only [importDict]
    rw [if_pos h5, convertToEcdsa_of ht ⟨kty, hcrv, use, pub, ha, hb, h2⟩, h4]
  | rsa kty halg ha hb hkid use pub =>
    obtain ⟨kid', h1, h2⟩ := kid_some hkid
    refine ⟨kid', h1, ?_⟩
    have hok : RsaOk d a b kid' := ⟨kty, use, (rsaPrivate_iff d).2 pub, ha, hb, h2⟩
    rw [importKey_dict halg.1]
    have := halg.2
    simp only [List.mem_cons, List.not_mem_nil, or_false] at this
    rcases this with rfl | rfl | rfl | rfl | rfl | rfl
    · exact convertToRsaSsaPkcs1_of (i := 1) (alg := py! "RS256") (by decide) hok
    · exact convertToRsaSsaPkcs1_of (i := 2) (alg := py! "RS384") (by decide) hok
    · exact convertToRsaSsaPkcs1_of (i := 3) (alg := py! "RS512") (by decide) hok
    · exact convertToRsaSsaPss_of (i := 1) (alg := py! "PS256") (by decide) hok
    · exact convertToRsaSsaPss_of (i := 2) (alg := py! "PS384") (by decide) hok
    · exact convertToRsaSsaPss_of (i := 3) (alg := py! "PS512") (by decide) hok

/-- Only JWKs that describe a public key are converted. -/
theorem denotes_of_importKey {v : JVal F} {k : Key} (h : importKey v = .ok k) :
    ∃ d alg a b kid, v = .dict d ∧ Denotes d alg a b kid := by
  unfold importKey at h
  obtain ⟨has, h1, h⟩ := bind_ok_iff.1 h
  cases has with
  | false => cases h
  | true =>
    cases v with
    | dict d =>
      obtain ⟨w, h2, h⟩ := bind_ok_iff.1 h
      have h3 : PyDict.get? d (py! "alg") = some w := by
        unfold item at h2
        cases h4 : PyDict.get? d (py! "alg") with
        | none => rw [h4] at h2; cases h2
        | some x => rw [h4] at h2; cases h2; rfl
      cases w with
      | str alg =>
        simp only [importDict] at h
        by_cases p1 : (py! "ES").isPrefixOf alg = true
        · rw [if_pos p1] at h
          obtain ⟨i, crv, a, b, kid, ht, ho⟩ := of_convertToEcdsa h
          exact ⟨d, alg, a, b, _, rfl, .ec crv ho.kty ⟨h3, (ecdsa_table ht).2.2.2.2.1⟩ ho.crv ho.a ho.b
            (kid_of ho.kid) ho.use ho.isPublic⟩
        · rw [if_neg p1] at h
          by_cases p2 : (py! "RS").isPrefixOf alg = true
          · rw [if_pos p2] at h
            obtain ⟨i, a, b, kid, ht, ho⟩ := of_convertToRsaSsaPkcs1 h
            exact ⟨d, alg, a, b, _, rfl, .rsa ho.kty ⟨h3, (pkcs1_table ht).2.2.2.1⟩ ho.a ho.b
              (kid_of ho.kid) ho.use ((rsaPrivate_iff d).1 ho.isPublic)⟩
          · rw [if_neg p2] at h
            by_cases p3 : (py! "PS").isPrefixOf alg = true
            · rw [if_pos p3] at h
              obtain ⟨i, a, b, kid, ht, ho⟩ := of_convertToRsaSsaPss h
              exact ⟨d, alg, a, b, _, rfl, .rsa ho.kty ⟨h3, (pss_table ht).2.2.2.1⟩ ho.a ho.b
                (kid_of ho.kid) ho.use ((rsaPrivate_iff d).1 ho.isPublic)⟩
            · rw [if_neg p3] at h; cases h
      | _ => cases h
    | _ => cases h

theorem Denotes.alg {d : List (PyStr × JVal F)} {alg : PyStr} {a b : Bytes} {kid : Option PyStr}
    (h : Denotes d alg a b kid) : PyDict.get? d (py! "alg") = some (.str alg) := by
  cases h with
  | ec _ _ h => exact h.1
  | rsa _ h => exact h.1

theorem Denotes.kid {d : List (PyStr × JVal F)} {alg : PyStr} {a b : Bytes} {kid : Option PyStr}
    (h : Denotes d alg a b kid) : PyDict.get? d (py! "kid") = kid.map .str := by
  cases h with
  | ec _ _ _ _ _ _ h => exact h.1
  | rsa _ _ _ _ h => exact h.1

/-- What a JWK describes is determined. -/
theorem Denotes.unique {d : List (PyStr × JVal F)} {alg alg' : PyStr} {a b a' b' : Bytes}
    {kid kid' : Option PyStr} (h : Denotes d alg a b kid) (h' : Denotes d alg' a' b' kid') :
    alg = alg' ∧ a = a' ∧ b = b' ∧ kid = kid' := by
  have h1 := Denotes.alg h
  rw [Denotes.alg h'] at h1
  cases h1
  have h2 := Denotes.kid h
  rw [Denotes.kid h'] at h2
  have h3 : kid = kid' := by
    cases kid <;> cases kid' <;> simp_all
  refine ⟨rfl, ?_, ?_, h3⟩ <;> clear h2 h3
  all_goals
    cases h with
    | ec _ k _ _ ha hb =>
      cases h' with
      | ec _ _ _ _ ha' hb' => first | exact Number.unique ha ha' | exact Number.unique hb hb'
      | rsa k' => rw [k] at k'; simp at k'
    | rsa k _ ha hb =>
      cases h' with
      | ec _ k' => rw [k] at k'; simp at k'
      | rsa _ _ ha' hb' => first | exact Number.unique ha ha' | exact Number.unique hb hb'

theorem wrapped_ok {url : PStr} {x : Py Bytes} {k : Key} (h : wrapped url x = .ok k) :
    ∃ value, x = .ok value ∧ k = protoKey url value := by
  obtain ⟨v, h1, h2⟩ := bind_ok_iff.1 h
  cases h2
  exact ⟨v, h1, rfl⟩

/-- The key that is made of a JWK. -/
theorem keyFor_ok {alg : PyStr} {a b : Bytes} {kid : Option PStr} {k : Key}
    (h : keyFor alg a b kid = .ok k) :
    PublicKey k.data alg a b (kid.map PStr.toPy) ∧ ImportedKey k ∧ k.keyData.isSome = true := by
  unfold keyFor at h
  split at h
  · rename_i i h0
    obtain ⟨value, h1, rfl⟩ := wrapped_ok h
    obtain ⟨crv, ht⟩ := ecdsaNames_iff h0
    refine ⟨.ecdsa _ rfl (JwtEcdsaPublicKey.fromString_serializeToString h1) (ecdsa_table ht).2.2.2.1
      ⟨rfl, rfl⟩ ?_, ⟨rfl, rfl, rfl⟩, rfl⟩
    simp [ecdsaProto, Function.comp_def]
  · rename_i i h0
    obtain ⟨value, h1, rfl⟩ := wrapped_ok h
    refine ⟨.rsaSsaPkcs1 _ rfl (JwtRsaSsaPkcs1PublicKey.fromString_serializeToString h1) (pkcs1Names_iff h0)
      ⟨rfl, rfl⟩ ?_, ⟨rfl, rfl, rfl⟩, rfl⟩
    simp [pkcs1Proto, Function.comp_def]
  · rename_i i h0
    obtain ⟨value, h1, rfl⟩ := wrapped_ok h
    refine ⟨.rsaSsaPss _ rfl (JwtRsaSsaPssPublicKey.fromString_serializeToString h1) (pssNames_iff h0)
      ⟨rfl, rfl⟩ ?_, ⟨rfl, rfl, rfl⟩, rfl⟩
    simp [pssProto, Function.comp_def]
  · cases h

/-- The key that is imported for a JWK. -/
theorem importKey_ok {v : JVal F} {k : Key} (h : importKey v = .ok k) :
    ∃ d alg a b kid, v = .dict d ∧ Denotes d alg a b kid ∧ PublicKey k.data alg a b kid ∧
      ImportedKey k ∧ k.keyData.isSome = true := by
  obtain ⟨d, alg, a, b, kid, rfl, hd⟩ := denotes_of_importKey h
  obtain ⟨kid', rfl, h1⟩ := importKey_denotes hd
  rw [h] at h1
  exact ⟨d, alg, a, b, _, rfl, hd, keyFor_ok h1.symm⟩

end Jwk
end Tink
