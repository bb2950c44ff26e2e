import Verif.Cc.HybridLemmas

/-!
# Lemmas on ECIES and HPKE
-/

namespace Tink.Cc
open Spec Cpp Props

section
variable {lib : HybSsl}

/-! ## Points -/

theorem bignum_ok {n len : Nat} (h : n < 256 ^ len) : bignumToString n len = .ok (digitsBE len n) := if_pos h

theorem fieldSize_pos (g : EcGroup) : 0 < g.fieldSize := by cases g <;> decide

theorem not_nist {c : EnumVal} {g : EcGroup} (h : Curve c g) : c ≠ EllipticCurveType.CURVE25519 := by
  cases h <;> decide

theorem encodingSize_nist {c f : EnumVal} {g : EcGroup} (h : Curve c g) {q : Nat × Nat} {b : Bytes}
    (hb : PointBytes g f q b) : ecPointEncodingSizeInBytes c f = .ok b.length := by
  unfold ecPointEncodingSizeInBytes ecFieldSizeInBytes
  rw [if_neg (not_nist h)]
  refine sbind_ok.2 ⟨g.fieldSize, sbind_ok.2 ⟨g, ecGroup_iff.2 h, rfl⟩, ?_⟩
  rw [if_neg (not_nist h), if_neg (Nat.ne_of_gt (fieldSize_pos g))]
  cases hb with
  | uncompressed =>
    rw [if_pos rfl]
    simp only [List.length_cons, List.length_append, digitsBE_length]
    rw [Nat.two_mul]
    rfl
  | even =>
    rw [if_neg (by decide), if_pos rfl]
    simp only [List.length_cons, digitsBE_length]
    rfl
  | odd =>
    rw [if_neg (by decide), if_pos rfl]
    simp only [List.length_cons, digitsBE_length]
    rfl
  | crunchy =>
    rw [if_neg (by decide), if_neg (by decide), if_pos rfl]
    simp only [List.length_append, digitsBE_length]
    rw [Nat.two_mul]
    rfl

theorem pointEncode_iff (hl : LawfulHyb lib) {c f : EnumVal} {g : EcGroup} (h : Curve c g) {q : Nat × Nat}
    (hq : lib.ecPoint g q.1 q.2 = true) {b : Bytes} :
    ecPointEncode lib c f q = .ok b ↔ PointBytes g f q b := by
  obtain ⟨x, y⟩ := q
  obtain ⟨hx, hy⟩ := hl.point _ _ _ hq
  unfold ecPointEncode
  rw [ecGroup_iff.2 h]
  dsimp only [bind, Except.bind]
  have hq : lib.ecPoint g x y = true := hq
  rw [hq]
  constructor
  · intro e
    rw [if_neg (by simp)] at e
    split at e
    · rename_i hf; subst hf; cases e; exact .uncompressed
    split at e
    · rename_i hf
      subst hf
      cases e
      split
      · rename_i hy; exact .odd hy
      · rename_i hy; exact .even (by omega)
    split at e
    · rename_i hf
      subst hf
      rw [bignum_ok hx, bignum_ok hy] at e
      cases e
      exact .crunchy
    · cases e
  · intro e
    rw [if_neg (by simp)]
    cases e with
    | uncompressed => rw [if_pos rfl]; rfl
    | even hy => rw [if_neg (by decide), if_pos rfl, if_neg (by omega)]; rfl
    | odd hy => rw [if_neg (by decide), if_pos rfl, if_pos hy]; rfl
    | crunchy => rw [if_neg (by decide), if_neg (by decide), if_pos rfl, bignum_ok hx, bignum_ok hy]; rfl

theorem pointDecode_iff (hl : LawfulHyb lib) {c f : EnumVal} {g : EcGroup} (h : Curve c g) {q : Nat × Nat}
    {b : Bytes} :
    ecPointDecode lib c f b = .ok q ↔ PointBytes g f q b ∧ lib.ecPoint g q.1 q.2 = true := by
  have hg := ecGroup_iff.2 h
  have hn := not_nist h
  have hpos := fieldSize_pos g
  have hfs : ecFieldSizeInBytes c = .ok g.fieldSize := by
    unfold ecFieldSizeInBytes
    rw [if_neg hn, hg]
    rfl
  have hsize : ∀ f', ecPointEncodingSizeInBytes c f' =
      if f' = EcPointFormat.UNCOMPRESSED then .ok (2 * g.fieldSize + 1)
      else if f' = EcPointFormat.COMPRESSED then .ok (g.fieldSize + 1)
      else if f' = EcPointFormat.DO_NOT_USE_CRUNCHY_UNCOMPRESSED then .ok (2 * g.fieldSize)
      else invalidArgument := by
    intro f'
    unfold ecPointEncodingSizeInBytes
    rw [hfs]
    dsimp only [bind, Except.bind]
    rw [if_neg hn, if_neg (Nat.ne_of_gt hpos)]
    rfl
  have cu : decide (EcPointFormat.UNCOMPRESSED = EcPointFormat.COMPRESSED) = false := by decide
  have uc : decide (EcPointFormat.COMPRESSED = EcPointFormat.UNCOMPRESSED) = false := by decide
  have uc' : ¬ EcPointFormat.COMPRESSED = EcPointFormat.UNCOMPRESSED := by decide
  unfold ecPointDecode
  by_cases f1 : f = EcPointFormat.UNCOMPRESSED
  · subst f1
    rw [if_pos (by decide)]
    unfold sslGetEcPointFromEncoded
    rw [if_neg (by decide), hg, hsize, if_pos rfl]
    dsimp only [bind, Except.bind]
    constructor
    · intro e
      split at e
      · cases e
      rename_i hlen
      have hlen : b.length = 2 * g.fieldSize + 1 := Decidable.not_not.1 hlen
      split at e
      · cases e
      rename_i h4
      rw [if_neg (by rw [cu]; simp), if_pos rfl] at e
      split at e
      · rename_i hp
        cases e
        refine ⟨?_, hp⟩
        cases b with
        | nil => simp at hlen
        | cons a t =>
          have ha : a = 4 := by simpa using h4
          subst ha
          simp only [List.length_cons] at hlen
          simp only [List.drop_succ_cons, List.drop_zero, Nat.add_comm 1]
          have e1 : digitsBE g.fieldSize (fromBytesBE (t.take g.fieldSize)) = t.take g.fieldSize :=
            digits_fromBytesBE' (by rw [List.length_take]; omega)
          have e2 : digitsBE g.fieldSize (fromBytesBE (t.drop g.fieldSize)) = t.drop g.fieldSize :=
            digits_fromBytesBE' (by rw [List.length_drop]; omega)
          have := PointBytes.uncompressed (g := g) (x := fromBytesBE (t.take g.fieldSize))
            (y := fromBytesBE (t.drop g.fieldSize))
          rw [e1, e2, List.take_append_drop] at this
          exact this
      · cases e
    · rintro ⟨hb, hp⟩
      generalize hf : EcPointFormat.UNCOMPRESSED = f at hb
      cases hb with
      | uncompressed =>
        rename_i x y
        obtain ⟨hx, hy⟩ := hl.point _ _ _ hp
        have hlen : (4 :: (digitsBE g.fieldSize x ++ digitsBE g.fieldSize y)).length = 2 * g.fieldSize + 1 := by
          simp only [List.length_cons, List.length_append, digitsBE_length]; omega
        rw [if_neg (by simpa using hlen), if_neg (by simp), if_neg (by rw [cu]; simp), if_pos rfl]
        have t1 : (digitsBE g.fieldSize x ++ digitsBE g.fieldSize y).take g.fieldSize = digitsBE g.fieldSize x :=
          List.take_left' (digitsBE_length _ _)
        have t2 : (digitsBE g.fieldSize x ++ digitsBE g.fieldSize y).drop g.fieldSize = digitsBE g.fieldSize y :=
          List.drop_left' (digitsBE_length _ _)
        simp only [List.drop_succ_cons, List.drop_zero, Nat.add_comm 1, t1, t2]
        rw [fromBytesBE_digits _ _ hx, fromBytesBE_digits _ _ hy]
        exact if_pos hp
      | _ => exact absurd hf (by decide)
  by_cases f2 : f = EcPointFormat.COMPRESSED
  · subst f2
    rw [if_pos (by decide)]
    unfold sslGetEcPointFromEncoded
    rw [if_neg (by decide), hg, hsize, if_neg (by decide), if_pos rfl]
    dsimp only [bind, Except.bind]
    constructor
    · intro e
      split at e
      · cases e
      rename_i hlen
      have hlen : b.length = g.fieldSize + 1 := Decidable.not_not.1 hlen
      rw [if_neg (by rw [uc]; simp)] at e
      split at e
      · cases e
      rename_i h23
      try rw [if_neg uc'] at e
      cases b with
      | nil => simp at hlen
      | cons a t =>
        simp only [List.length_cons] at hlen
        simp only [List.drop_succ_cons, List.drop_zero, List.headD_cons] at e h23
        have e1 : digitsBE g.fieldSize (fromBytesBE t) = t := digits_fromBytesBE' (by omega)
        split at e
        · cases e
        rename_i y hy
        obtain ⟨d1, d2⟩ := (hl.decompress _ _ _ _).1 hy
        rw [if_pos d1] at e
        cases e
        refine ⟨?_, d1⟩
        by_cases h3 : a = 3
        · subst h3
          have := PointBytes.odd (g := g) (x := fromBytesBE t) (y := y) (d2.2 rfl)
          rwa [e1] at this
        · have h2 : a = 2 := Decidable.byContradiction fun h2 => by simp [h3, h2] at h23
          subst h2
          have := PointBytes.even (g := g) (x := fromBytesBE t) (y := y) (by
            have : ¬ y % 2 = 1 := fun hy => by have := d2.1 hy; revert this; decide
            omega)
          rwa [e1] at this
    · rintro ⟨hb, hp⟩
      generalize hf : EcPointFormat.COMPRESSED = f at hb
      cases hb with
      | even hy =>
        rename_i x y
        obtain ⟨hx, -⟩ := hl.point _ _ _ hp
        have hlen : ((2 : UInt8) :: digitsBE g.fieldSize x).length = g.fieldSize + 1 := by
          simp only [List.length_cons, digitsBE_length]
        rw [if_neg (by simpa using hlen), if_neg (by rw [uc]; simp), if_neg (by simp), if_neg (by decide)]
        simp only [List.drop_succ_cons, List.drop_zero, List.headD_cons]
        rw [fromBytesBE_digits _ _ hx, (hl.decompress g x ((2 : UInt8) == 3) y).2 ⟨hp, by
          rw [show ((2 : UInt8) == 3) = false from rfl]; simp; omega⟩]
        exact if_pos hp
      | odd hy =>
        rename_i x y
        obtain ⟨hx, -⟩ := hl.point _ _ _ hp
        have hlen : ((3 : UInt8) :: digitsBE g.fieldSize x).length = g.fieldSize + 1 := by
          simp only [List.length_cons, digitsBE_length]
        rw [if_neg (by simpa using hlen), if_neg (by rw [uc]; simp), if_neg (by simp), if_neg (by decide)]
        simp only [List.drop_succ_cons, List.drop_zero, List.headD_cons]
        rw [fromBytesBE_digits _ _ hx, (hl.decompress g x ((3 : UInt8) == 3) y).2 ⟨hp, by
          rw [show ((3 : UInt8) == 3) = true from rfl]; simp; omega⟩]
        exact if_pos hp
      | _ => exact absurd hf (by decide)
  rw [if_neg (by simp [f1, f2])]
  by_cases f3 : f = EcPointFormat.DO_NOT_USE_CRUNCHY_UNCOMPRESSED
  · subst f3
    rw [if_pos rfl, hg]
    dsimp only [bind, Except.bind]
    constructor
    · intro e
      split at e
      · cases e
      rename_i hlen
      have hlen : b.length = 2 * g.fieldSize := Decidable.not_not.1 hlen
      split at e
      · rename_i hp
        cases e
        refine ⟨?_, hp⟩
        have e1 : digitsBE g.fieldSize (fromBytesBE (b.take g.fieldSize)) = b.take g.fieldSize :=
          digits_fromBytesBE' (by rw [List.length_take]; omega)
        have e2 : digitsBE g.fieldSize (fromBytesBE (b.drop g.fieldSize)) = b.drop g.fieldSize :=
          digits_fromBytesBE' (by rw [List.length_drop]; omega)
        have := PointBytes.crunchy (g := g) (x := fromBytesBE (b.take g.fieldSize))
          (y := fromBytesBE (b.drop g.fieldSize))
        rw [e1, e2, List.take_append_drop] at this
        exact this
      · cases e
    · rintro ⟨hb, hp⟩
      generalize hf : EcPointFormat.DO_NOT_USE_CRUNCHY_UNCOMPRESSED = f at hb
      cases hb with
      | crunchy =>
        rename_i x y
        obtain ⟨hx, hy⟩ := hl.point _ _ _ hp
        have hlen : (digitsBE g.fieldSize x ++ digitsBE g.fieldSize y).length = 2 * g.fieldSize := by
          simp only [List.length_append, digitsBE_length]; omega
        rw [if_neg (by simpa using hlen)]
        have t1 : (digitsBE g.fieldSize x ++ digitsBE g.fieldSize y).take g.fieldSize = digitsBE g.fieldSize x :=
          List.take_left' (digitsBE_length _ _)
        have t2 : (digitsBE g.fieldSize x ++ digitsBE g.fieldSize y).drop g.fieldSize = digitsBE g.fieldSize y :=
          List.drop_left' (digitsBE_length _ _)
        simp only [t1, t2]
        rw [fromBytesBE_digits _ _ hx, fromBytesBE_digits _ _ hy]
        exact if_pos hp
      | _ => exact absurd hf (by decide)
  · rw [if_neg f3]
    constructor
    · intro e; cases e
    · rintro ⟨hb, -⟩
      cases hb with
      | uncompressed => exact absurd rfl f1
      | even => exact absurd rfl f2
      | odd => exact absurd rfl f2
      | crunchy => exact absurd rfl f3

theorem ecdh_iff (hl : LawfulHyb lib) {c : EnumVal} {g : EcGroup} (h : Curve c g) {d : Nat} {q : Nat × Nat}
    {secret : Bytes} (hq : lib.ecPoint g q.1 q.2 = true) :
    computeEcdhSharedSecret lib c d q = .ok secret ↔
      ∃ s, lib.ecMul g d q = some s ∧ secret = digitsBE g.fieldSize s.1 := by
  unfold computeEcdhSharedSecret
  rw [ecGroup_iff.2 h]
  dsimp only [bind, Except.bind]
  rw [hq, if_neg (by simp)]
  cases hm : lib.ecMul g d q with
  | none => simp [internalError]
  | some s =>
    have hs := hl.mulOnCurve _ _ _ _ _ hq hm
    dsimp only
    rw [hs, if_neg (by simp), bignum_ok (hl.point _ _ _ hs).1]
    simp [eq_comm]

/-! ## Key derivation -/

theorem evpHash_iff {h m : EnumVal} : evpHashFromHashType h = .ok m ↔ m = h ∧ ∃ d, Digest h d := by
  constructor
  · intro e
    unfold evpHashFromHashType at e
    split at e
    · cases e
      rename_i hh
      refine ⟨rfl, ?_⟩
      simp only [Bool.or_eq_true, decide_eq_true_eq] at hh
      rcases hh with (((rfl | rfl) | rfl) | rfl) | rfl
      all_goals first | exact ⟨_, .sha1⟩ | exact ⟨_, .sha224⟩ | exact ⟨_, .sha256⟩ | exact ⟨_, .sha384⟩ | exact ⟨_, .sha512⟩
    · cases e
  · rintro ⟨rfl, d, hd⟩
    cases hd <;> rfl

theorem derive_iff (hl : LawfulHyb lib) {hash : EnumVal} {kem secret salt info key : Bytes} {n : Nat} :
    computeEciesHkdfSymmetricKey lib hash kem secret salt info n = .ok key ↔ ∃ d, Digest hash d ∧ n ≤ 255 * d ∧
      key = (Hkdf.output (hmacWith lib.sym hash) salt (kem ++ secret) info).take n := by
  unfold computeEciesHkdfSymmetricKey
  rw [sbind_ok]
  constructor
  · rintro ⟨m, hm, h⟩
    obtain ⟨rfl, d, hd⟩ := evpHash_iff.1 hm
    rw [hl.hkdf _ _ _ _ _ _ hd] at h
    refine ⟨d, hd, ?_⟩
    split at h
    · cases h
    · rename_i h2
      cases h
      split at h2
      · rename_i hn; exact ⟨hn, (Option.some.inj h2).symm⟩
      · cases h2
  · rintro ⟨d, hd, hn, rfl⟩
    refine ⟨hash, evpHash_iff.2 ⟨rfl, d, hd⟩, ?_⟩
    rw [hl.hkdf _ _ _ _ _ _ hd, if_pos hn]
    rfl

/-! ## Encapsulation -/

theorem nist_iff {c : EnumVal} : (c = EllipticCurveType.NIST_P256 || c = EllipticCurveType.NIST_P384 ||
    c = EllipticCurveType.NIST_P521) = true ↔ ∃ g, Curve c g := by
  simp only [Bool.or_eq_true, decide_eq_true_eq]
  constructor
  · rintro ((rfl | rfl) | rfl)
    · exact ⟨_, .p256⟩
    · exact ⟨_, .p384⟩
    · exact ⟨_, .p521⟩
  · rintro ⟨g, h⟩
    cases h
    · exact .inl (.inl rfl)
    · exact .inl (.inr rfl)
    · exact .inr rfl

theorem hybEcPoint_iff {c : EnumVal} {x y : Bytes} {q : Nat × Nat} :
    hybEcPoint lib c x y = .ok q ↔ ∃ g, Curve c g ∧ lib.ecPoint g (fromBytesBE x) (fromBytesBE y) = true ∧
      q = (fromBytesBE x, fromBytesBE y) := by
  unfold hybEcPoint
  rw [sbind_ok]
  constructor
  · rintro ⟨g, hg, h⟩
    split at h
    · rename_i hp; cases h; exact ⟨g, ecGroup_iff.1 hg, hp, rfl⟩
    · cases h
  · rintro ⟨g, hg, hp, rfl⟩
    exact ⟨g, ecGroup_iff.2 hg, by rw [if_pos hp]; rfl⟩

/-- What a sender's KEM holds. -/
inductive SenderIs (lib : HybSsl) (c : EnumVal) (x y : Bytes) : SenderKem → Prop
  | nist {g} : Curve c g → lib.ecPoint g (fromBytesBE x) (fromBytesBE y) = true →
    SenderIs lib c x y (.nist c (fromBytesBE x, fromBytesBE y))
  | x25519 : c = EllipticCurveType.CURVE25519 → x.length = 32 → y = [] → SenderIs lib c x y (.x25519 x)

theorem senderKemNew_iff {c : EnumVal} {x y : Bytes} {kem : SenderKem} :
    senderKemNew lib c x y = .ok kem ↔ SenderIs lib c x y kem := by
  unfold senderKemNew
  by_cases hn : (c = EllipticCurveType.NIST_P256 || c = EllipticCurveType.NIST_P384 ||
      c = EllipticCurveType.NIST_P521) = true
  · rw [if_pos hn, sbind_ok]
    obtain ⟨g, hg⟩ := nist_iff.1 hn
    constructor
    · rintro ⟨q, hq, h⟩
      obtain ⟨g', hg', hp, rfl⟩ := hybEcPoint_iff.1 hq
      cases h
      exact .nist hg' hp
    · intro h
      cases h with
      | nist hg' hp => exact ⟨_, hybEcPoint_iff.2 ⟨_, hg', hp, rfl⟩, rfl⟩
      | x25519 hc => exact absurd hc (not_nist hg)
  · rw [if_neg hn]
    by_cases hc : c = EllipticCurveType.CURVE25519
    · rw [if_pos hc]
      constructor
      · intro h
        split at h
        · cases h
        split at h
        · cases h
        rename_i h1 h2
        cases h
        exact .x25519 hc (Decidable.not_not.1 h1) (by simpa using h2)
      · intro h
        cases h with
        | nist hg => exact absurd (nist_iff.2 ⟨_, hg⟩) hn
        | x25519 _ h1 h2 => rw [if_neg (by simpa using h1), if_neg (by simp [h2])]
    · rw [if_neg hc]
      constructor
      · intro h; cases h
      · intro h
        cases h with
        | nist hg => exact absurd (nist_iff.2 ⟨_, hg⟩) hn
        | x25519 hc' => exact absurd hc' hc

theorem senderGenerate_iff (hl : LawfulHyb lib) {p : EciesParams} {x y : Bytes} {kem : SenderKem}
    (hk : SenderIs lib p.curve x y kem) {seed : Seed} {info : Bytes} {n : Nat} {r : Bytes × Bytes} :
    senderGenerateKey lib seed p.hash p.salt info n p.format kem = .ok r ↔
      ∃ secret, p.Encapsulates lib seed x y r.1 secret ∧
        computeEciesHkdfSymmetricKey lib p.hash r.1 secret p.salt info n = .ok r.2 := by
  obtain ⟨kb, key⟩ := r
  cases hk with
  | nist hg hp =>
    rename_i g
    have hpub := hl.onCurve g _ (hl.generate seed g)
    unfold senderGenerateKey
    dsimp only
    constructor
    · intro h
      obtain ⟨g', hg', h⟩ := rbind_ok.1 h
      cases curve_unique hg (ecGroup_iff.1 (run_ok.1 hg'))
      obtain ⟨kb', h1, h⟩ := rbind_ok.1 h
      obtain ⟨secret, h2, h⟩ := rbind_ok.1 h
      obtain ⟨key', h3, h⟩ := rbind_ok.1 h
      cases h
      have h1 := (pointEncode_iff hl hg hpub).1 (run_ok.1 h1)
      obtain ⟨s, h4, rfl⟩ := (ecdh_iff hl hg hp).1 (run_ok.1 h2)
      exact ⟨_, .nist hg h1 h4, run_ok.1 h3⟩
    · rintro ⟨secret, h, h3⟩
      cases h with
      | nist hg' h1 h2 =>
        cases curve_unique hg hg'
        exact rbind_ok.2 ⟨g, run_ok.2 (ecGroup_iff.2 hg), rbind_ok.2 ⟨kb,
          run_ok.2 ((pointEncode_iff hl hg hpub).2 h1), rbind_ok.2 ⟨_,
          run_ok.2 ((ecdh_iff hl hg hp).2 ⟨_, h2, rfl⟩), rbind_ok.2 ⟨key, run_ok.2 h3, rfl⟩⟩⟩⟩
      | x25519 hc => exact absurd hc (not_nist hg)
  | x25519 hc hx hy =>
    unfold senderGenerateKey
    dsimp only
    constructor
    · intro h
      split at h
      · cases h
      rename_i hf
      have hf : p.format = EcPointFormat.COMPRESSED := Decidable.not_not.1 hf
      split at h
      · cases h
      rename_i s hs
      obtain ⟨key', h3, h⟩ := rbind_ok.1 h
      cases h
      exact ⟨s, .x25519 hc hf hs, run_ok.1 h3⟩
    · rintro ⟨secret, h, h3⟩
      cases h with
      | nist hg => exact absurd hc (not_nist hg)
      | x25519 _ hf hs =>
        rw [if_neg (by simpa using hf), hs]
        exact rbind_ok.2 ⟨key, run_ok.2 h3, rfl⟩

/-- What a recipient's KEM holds. -/
inductive RecipientIs (c : EnumVal) (d : Bytes) : RecipientKem → Prop
  | nist {g} : Curve c g → d ≠ [] → RecipientIs c d (.nist c d)
  | x25519 : c = EllipticCurveType.CURVE25519 → d.length = 32 → RecipientIs c d (.x25519 d)

theorem recipientKemNew_iff {c : EnumVal} {d : Bytes} {kem : RecipientKem} :
    recipientKemNew c d = .ok kem ↔ RecipientIs c d kem := by
  unfold recipientKemNew
  by_cases hn : (c = EllipticCurveType.NIST_P256 || c = EllipticCurveType.NIST_P384 ||
      c = EllipticCurveType.NIST_P521) = true
  · rw [if_pos hn]
    obtain ⟨g, hg⟩ := nist_iff.1 hn
    constructor
    · intro h
      split at h
      · cases h
      rename_i hd
      obtain ⟨g', hg', h⟩ := sbind_ok.1 h
      cases h
      exact .nist hg (by simpa using hd)
    · intro h
      cases h with
      | nist hg' hd =>
        rw [if_neg (by simpa using hd)]
        exact sbind_ok.2 ⟨_, ecGroup_iff.2 hg', rfl⟩
      | x25519 hc => exact absurd hc (not_nist hg)
  · rw [if_neg hn]
    by_cases hc : c = EllipticCurveType.CURVE25519
    · rw [if_pos hc]
      constructor
      · intro h
        split at h
        · cases h
        rename_i h1
        cases h
        exact .x25519 hc (Decidable.not_not.1 h1)
      · intro h
        cases h with
        | nist hg => exact absurd (nist_iff.2 ⟨_, hg⟩) hn
        | x25519 _ h1 => rw [if_neg (by simpa using h1)]
    · rw [if_neg hc]
      constructor
      · intro h; cases h
      · intro h
        cases h with
        | nist hg => exact absurd (nist_iff.2 ⟨_, hg⟩) hn
        | x25519 hc' => exact absurd hc' hc

theorem recipientGenerate_iff (hl : LawfulHyb lib) {p : EciesParams} {d : Bytes} {kem : RecipientKem}
    (hk : RecipientIs p.curve d kem) {kb info key : Bytes} {n : Nat} :
    recipientGenerateKey lib kb p.hash p.salt info n p.format kem = .ok key ↔
      ∃ secret, p.Decapsulates lib d kb secret ∧
        computeEciesHkdfSymmetricKey lib p.hash kb secret p.salt info n = .ok key := by
  cases hk with
  | nist hg hd =>
    rename_i g
    unfold recipientGenerateKey
    dsimp only
    constructor
    · intro h
      split at h
      · cases h
      rename_i q hq
      obtain ⟨h1, hp⟩ := (pointDecode_iff hl hg).1 hq
      obtain ⟨secret, h2, h⟩ := sbind_ok.1 h
      obtain ⟨s, h4, rfl⟩ := (ecdh_iff hl hg hp).1 h2
      exact ⟨_, .nist hg h1 hp h4, h⟩
    · rintro ⟨secret, h, h3⟩
      cases h with
      | nist hg' h1 hp h2 =>
        cases curve_unique hg hg'
        rw [(pointDecode_iff hl hg).2 ⟨h1, hp⟩]
        exact sbind_ok.2 ⟨_, (ecdh_iff hl hg hp).2 ⟨_, h2, rfl⟩, h3⟩
      | x25519 hc => exact absurd hc (not_nist hg)
  | x25519 hc hx =>
    unfold recipientGenerateKey
    dsimp only
    constructor
    · intro h
      split at h
      · cases h
      rename_i hf
      split at h
      · cases h
      rename_i hlen
      split at h
      · cases h
      rename_i s hs
      exact ⟨s, .x25519 hc (Decidable.not_not.1 hf) (Decidable.not_not.1 hlen) hs, h⟩
    · rintro ⟨secret, h, h3⟩
      cases h with
      | nist hg => exact absurd hc (not_nist hg)
      | x25519 _ hf hlen hs =>
        rw [if_neg (by simpa using hf), if_neg (by simpa using hlen), hs]
        exact h3

/-! ## ECIES -/

/-- The data of a key derived from a KEM. -/
theorem derived_iff (hl : LawfulHyb lib) {p : EciesParams} {dem : Dem} {q : DemKeyParams} (hq : DemIs q dem)
    {kem secret info : Bytes} {P : Bytes → Cpp.Aead → Prop} :
    (∃ key a, computeEciesHkdfSymmetricKey lib p.hash kem secret p.salt info q.keySize.toNat = .ok key ∧
      demGetAead lib.sym q key = .ok a ∧ P key a) ↔
    ∃ key a, dem.Ok ∧ p.DerivedKey lib dem info kem secret key ∧ demGetAead lib.sym q key = .ok a ∧
      DemDoes lib.sym dem key a ∧ P key a := by
  constructor
  · rintro ⟨key, a, h1, h2, h3⟩
    obtain ⟨g1, g2, g3, g4⟩ := (demGetAead_iff hl.sym hq).1 a h2
    obtain ⟨d, hd, hn, rfl⟩ := (derive_iff hl).1 h1
    rw [g3] at *
    exact ⟨_, a, g1, .mk hd hn, h2, g4, h3⟩
  · rintro ⟨key, a, h1, h2, h3, h4, h5⟩
    obtain ⟨g1, g2, g3, g4⟩ := (demGetAead_iff hl.sym hq).1 a h3
    refine ⟨key, a, ?_, h3, h5⟩
    cases h2 with
    | mk hd hn =>
      rw [g3]
      exact (derive_iff hl).2 ⟨_, hd, hn, rfl⟩

theorem length_hmacWith (hl : LawfulSsl lib.sym) {hash : EnumVal} {d : Nat} (hd : Digest hash d) (k b : Bytes) :
    (hmacWith lib.sym hash k b).length = d := by
  obtain ⟨t, ht, hlen⟩ := hl.hmac hash d hd k b
  unfold hmacWith
  rw [ht]
  exact hlen

theorem length_output (hl : LawfulSsl lib.sym) {hash : EnumVal} {d : Nat} (hd : Digest hash d)
    (salt secret info : Bytes) : (Hkdf.output (hmacWith lib.sym hash) salt secret info).length = 255 * d := by
  have hT : ∀ i, (Hkdf.T (hmacWith lib.sym hash) (hmacWith lib.sym hash salt secret) info (i + 1)).length = d :=
    fun i => length_hmacWith hl hd _ _
  have hb : ∀ n, (Hkdf.blocks (hmacWith lib.sym hash) (hmacWith lib.sym hash salt secret) info n).length = n * d := by
    intro n
    induction n with
    | zero => simp [Hkdf.blocks]
    | succ n ih => rw [Hkdf.blocks, List.length_append, ih, hT, Nat.succ_mul]
  exact hb 255

theorem length_derived (hl : LawfulHyb lib) {p : EciesParams} {dem : Dem} {kem secret info key : Bytes}
    (h : p.DerivedKey lib dem info kem secret key) : key.length = dem.keySize := by
  cases h with
  | mk hd hn => rw [List.length_take, length_output hl.sym hd]; omega

/-- A usable key has no overflow in its size. -/
theorem dem_size {q : DemKeyParams} {dem : Dem} (hq : DemIs q dem) (h : dem.keySize < 2 ^ 32) :
    q.keySize.toNat = dem.keySize := by
  cases hq with
  | aesGcm => rfl
  | xChaCha20Poly1305 => rfl
  | aesSiv => rfl
  | aesCtrHmac n iv m =>
    have h : n.toNat + m.toNat < 2 ^ 32 := h
    show (n + m).toNat = n.toNat + m.toNat
    rw [UInt32.toNat_add]
    omega

theorem dem_primitive (hl : LawfulHyb lib) {p : EciesParams} {dem : Dem} {q : DemKeyParams} (hq : DemIs q dem)
    {kem secret info key : Bytes} (hok : dem.Ok) (hk : p.DerivedKey lib dem info kem secret key) :
    ∃ a, demGetAead lib.sym q key = .ok a ∧ DemDoes lib.sym dem key a := by
  have hlen := length_derived hl hk
  have hsize : dem.keySize < 2 ^ 32 := by
    cases hk with
    | mk hd hn => have := digest_le hd; omega
  obtain ⟨a, ha⟩ := (demGetAead_iff hl.sym hq).2 hok hlen (by rw [dem_size hq hsize]; exact hlen)
  exact ⟨a, ha, ((demGetAead_iff hl.sym hq).1 a ha).2.2.2⟩

/-- The parameters in a message, as they are read. -/
structure Reads (m : EciesAeadHkdfParams) (p : EciesParams) : Prop where
  curve : m.getKemParams.curveType = p.curve
  hash : m.getKemParams.hkdfHashType = p.hash
  salt : m.getKemParams.hkdfSalt = p.salt
  demType : m.getDemParams.getAeadDem.typeUrl = p.demType
  demFormat : m.getDemParams.getAeadDem.value = p.demFormat
  format : m.ecPointFormat = p.format

theorem reads {m : EciesAeadHkdfParams} {p : EciesParams} (h : EciesParams.InMessage m p) : Reads m p := by
  cases h with
  | mk h1 h2 h3 =>
    constructor <;> simp [EciesAeadHkdfParams.getKemParams, EciesAeadHkdfParams.getDemParams,
      EciesAeadDemParams.getAeadDem, h1, h2, h3]

theorem eciesEncrypt_iff (hl : LawfulHyb lib) {m : EciesAeadHkdfParams} {p : EciesParams} (hm : Reads m p)
    {x y : Bytes} {kem : SenderKem} (hk : SenderIs lib p.curve x y kem) {dem : Dem} {q : DemKeyParams}
    (hq : DemIs q dem) (hd : Dem.AskedFor p.demType p.demFormat dem) {seed : Seed} {pt info ct : Bytes} :
    eciesEncrypt lib m kem q seed pt info = .ok ct ↔ (HybPub.ecies p x y).Encrypts lib seed info pt ct := by
  unfold eciesEncrypt
  rw [hm.hash, hm.salt, hm.format]
  constructor
  · intro h
    obtain ⟨r, h1, h⟩ := rbind_ok.1 h
    obtain ⟨a, h2, h⟩ := rbind_ok.1 h
    obtain ⟨c, h3, h⟩ := rbind_ok.1 h
    cases h
    obtain ⟨secret, g1, g2⟩ := (senderGenerate_iff hl hk).1 h1
    obtain ⟨key, a', k1, k2, k3, k4, rfl, rfl⟩ := (derived_iff hl hq
      (P := fun key a' => key = r.2 ∧ a' = a)).1 ⟨_, a, g2, h2, rfl, rfl⟩
    exact ⟨dem, r.1, secret, r.2, c, hd, k1, g1, k2, (k4.encrypt _ _ _).1 (run_ok.1 h3), rfl⟩
  · rintro ⟨dem', kb, secret, key, c, h1, h2, h3, h4, h5, rfl⟩
    cases dem_unique hd h1
    obtain ⟨a, ha, hdo⟩ := dem_primitive hl hq h2 h4
    obtain ⟨key', a', d1, d2, rfl, rfl⟩ := (derived_iff hl hq (kem := kb) (secret := secret) (info := info) (p := p)
      (P := fun key' a' => key' = key ∧ a' = a)).2 ⟨key, a, h2, h4, ha, hdo, rfl, rfl⟩
    exact rbind_ok.2 ⟨(kb, key'), (senderGenerate_iff hl hk).2 ⟨secret, h3, d1⟩, rbind_ok.2 ⟨a', ha,
      rbind_ok.2 ⟨c, run_ok.2 ((hdo.encrypt _ _ _).2 h5), rfl⟩⟩⟩

theorem encodingSize_decap {p : EciesParams} {d kem secret : Bytes}
    (h : p.Decapsulates lib d kem secret) : ecPointEncodingSizeInBytes p.curve p.format = .ok kem.length := by
  cases h with
  | nist hg hb => exact encodingSize_nist hg hb
  | x25519 hc hf hlen =>
    rw [hc, hlen]
    rfl

theorem eciesDecrypt_iff (hl : LawfulHyb lib) {m : EciesAeadHkdfParams} {p : EciesParams} (hm : Reads m p)
    {x y d : Bytes} {kem : RecipientKem} (hk : RecipientIs p.curve d kem) {dem : Dem} {q : DemKeyParams}
    (hq : DemIs q dem) (hd : Dem.AskedFor p.demType p.demFormat dem) {pt info ct : Bytes} :
    eciesDecrypt lib m kem q ct info = .ok pt ↔ (HybPriv.ecies p x y d).Decrypts lib info ct pt := by
  unfold eciesDecrypt
  rw [hm.hash, hm.salt, hm.format, hm.curve]
  constructor
  · intro h
    obtain ⟨n, h1, h⟩ := rbind_ok.1 h
    split at h
    · cases h
    rename_i hlen
    obtain ⟨key, h2, h⟩ := rbind_ok.1 h
    obtain ⟨a, h3, h⟩ := rbind_ok.1 h
    obtain ⟨secret, g1, g2⟩ := (recipientGenerate_iff hl hk).1 (run_ok.1 h2)
    obtain ⟨key', a', k1, k2, k3, k4, rfl, rfl⟩ := (derived_iff hl hq
      (P := fun key' a' => key' = key ∧ a' = a)).1 ⟨_, a, g2, h3, rfl, rfl⟩
    obtain ⟨nonce, n1, n2⟩ := (k4.decrypt _ _).1 (run_ok.1 h)
    exact ⟨dem, _, secret, key', nonce, _, hd, k1, g1, k2, n1, n2, (List.take_append_drop _ _).symm⟩
  · rintro ⟨dem', kb, secret, key, nonce, c, h1, h2, h3, h4, h5, h6, rfl⟩
    cases dem_unique hd h1
    obtain ⟨a, ha, hdo⟩ := dem_primitive hl hq h2 h4
    obtain ⟨key', a', d1, d2, rfl, rfl⟩ := (derived_iff hl hq (kem := kb) (secret := secret) (info := info) (p := p)
      (P := fun key' a' => key' = key ∧ a' = a)).2 ⟨key, a, h2, h4, ha, hdo, rfl, rfl⟩
    refine rbind_ok.2 ⟨kb.length, run_ok.2 (encodingSize_decap h3), ?_⟩
    rw [if_neg (by rw [List.length_append]; omega), List.take_left, List.drop_left]
    exact rbind_ok.2 ⟨key', run_ok.2 ((recipientGenerate_iff hl hk).2 ⟨secret, h3, d1⟩), rbind_ok.2 ⟨a', ha,
      run_ok.2 ((hdo.decrypt _ _).2 ⟨nonce, h5, h6⟩)⟩⟩

/-! ## HPKE -/

theorem ite_invalid_any {α : Type} {c : Prop} [Decidable c] {x : StatusOr α} {a : α} :
    (if c then invalidArgument else x) = .ok a ↔ ¬ c ∧ x = .ok a := by
  by_cases h : c <;> simp [h, invalidArgument]

theorem hpkeParams_iff {p : HpkeParams} {aead : EnumVal} : hpkeParams p = .ok aead ↔
    p.kem = HpkeKem.DHKEM_X25519_HKDF_SHA256 ∧ p.kdf = HpkeKdf.HKDF_SHA256 ∧ HpkeAeadKnown p.aead ∧
      aead = p.aead := by
  unfold hpkeParams
  rw [ite_invalid_any, ite_invalid_any, Decidable.not_not, Decidable.not_not]
  refine and_congr Iff.rfl (and_congr Iff.rfl ?_)
  unfold HpkeAeadKnown
  constructor
  · intro h
    split at h
    · rename_i ha
      cases h
      simp only [Bool.or_eq_true, decide_eq_true_eq] at ha
      rcases ha with (ha | ha) | ha
      · exact ⟨.inl ha, rfl⟩
      · exact ⟨.inr (.inl ha), rfl⟩
      · exact ⟨.inr (.inr ha), rfl⟩
    · cases h
  · rintro ⟨h, rfl⟩
    rw [if_pos]
    simp only [Bool.or_eq_true, decide_eq_true_eq]
    rcases h with h | h | h
    · exact .inl (.inl h)
    · exact .inl (.inr h)
    · exact .inr h

theorem hpkeEncrypt_iff {k : HpkePublicKey} {kem kdf aead : EnumVal} {pub : Bytes}
    (h1 : k.getParams.kem = HpkeKem.DHKEM_X25519_HKDF_SHA256) (h2 : k.getParams.kdf = HpkeKdf.HKDF_SHA256)
    (h3 : k.getParams.aead = aead) (h4 : k.publicKey = pub) (hne : pub ≠ []) {seed : Seed} {pt info ct : Bytes} :
    hpkeEncrypt lib k seed pt info = .ok ct ↔ (HybPub.hpke kem kdf aead pub).Encrypts lib seed info pt ct := by
  subst h3 h4
  unfold hpkeEncrypt
  constructor
  · intro h
    obtain ⟨aead, ha, h⟩ := sbind_ok.1 h
    obtain ⟨-, -, hk, rfl⟩ := hpkeParams_iff.1 ha
    split at h
    · cases h
    split at h
    · cases h
    rename_i enc ctx hs
    split at h
    · cases h
    rename_i c hc
    cases h
    exact ⟨enc, ctx, c, hk, hs, hc, rfl⟩
  · rintro ⟨enc, ctx, c, ha, hs, hc, rfl⟩
    refine sbind_ok.2 ⟨_, hpkeParams_iff.2 ⟨h1, h2, ha, rfl⟩, ?_⟩
    rw [if_neg (by simpa using hne), hs]
    dsimp only
    rw [hc]
    rfl

theorem hpkeDecrypt_iff (hl : LawfulHyb lib) {p : HpkeParams} {kem kdf aead : EnumVal} {pub priv : Bytes}
    (h1 : p.kem = HpkeKem.DHKEM_X25519_HKDF_SHA256) (h2 : p.kdf = HpkeKdf.HKDF_SHA256)
    (h3 : p.aead = aead) {pt info ct : Bytes} :
    hpkeDecrypt lib p priv ct info = .ok pt ↔
      (HybPriv.hpke kem kdf aead pub priv).Decrypts lib info ct pt := by
  subst h3
  have hsize : hpkeEncapsulatedKeyLength p.kem = .ok 32 := by rw [h1]; rfl
  unfold hpkeDecrypt
  rw [hsize]
  constructor
  · intro h
    obtain ⟨n, hn, h⟩ := sbind_ok.1 h
    cases hn
    split at h
    · cases h
    rename_i hlen
    obtain ⟨aead, ha, h⟩ := sbind_ok.1 h
    obtain ⟨-, -, hk, rfl⟩ := hpkeParams_iff.1 ha
    split at h
    · cases h
    split at h
    · cases h
    split at h
    · cases h
    rename_i hkey
    split at h
    · cases h
    rename_i ctx hs
    split at h
    · cases h
    rename_i c hc
    cases h
    refine ⟨_, ctx, _, hk, (hl.hpkeKey _).1 (by simpa using hkey), ?_, hs, (hl.hpkeOpens _ _ _ _).1 hc,
      (List.take_append_drop 32 _).symm⟩
    rw [List.length_take]
    omega
  · rintro ⟨enc, ctx, c, ha, hp, he, hs, hc, rfl⟩
    refine sbind_ok.2 ⟨_, rfl, ?_⟩
    rw [if_neg (by rw [List.length_append]; omega)]
    refine sbind_ok.2 ⟨_, hpkeParams_iff.2 ⟨h1, h2, ha, rfl⟩, ?_⟩
    have e1 : (enc ++ c).take 32 = enc := List.take_left' he
    have e2 : (enc ++ c).drop 32 = c := List.drop_left' he
    rw [e1, e2, if_neg (by cases priv with | nil => cases hp | cons => simp),
      if_neg (by cases enc with | nil => cases he | cons => simp),
      if_neg (by simp [(hl.hpkeKey priv).2 hp]), hs]
    dsimp only
    rw [(hl.hpkeOpens _ _ _ _).2 hc]
    rfl

end

end Tink.Cc
