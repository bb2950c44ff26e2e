import Verif.Cc.HybridManages

/-!
# New hybrid encryption keys, and which keys encrypt everything
-/

namespace Tink.Cc
open Spec Cpp Props

/-! ## Data encapsulation -/

section
variable {lib : Ssl}

theorem aeadCiphertext_total (hl : LawfulSsl lib) {k : AeadKey} (hk : k.Ok) {nonce pt : Bytes}
    (hn : nonce.length = k.nonceSize) (hp : pt.length < 2 ^ 31) : ∃ c, k.ciphertext lib nonce [] pt = some c := by
  obtain ⟨seed, hs⟩ := hl.random_any 0 nonce
  obtain ⟨c, hc⟩ := (aeadPrim_exact hl hk).total seed pt [] hp (by decide)
  have := ((aeadPrim_ciphertexts hl hk (ad := []) (by decide) pt c).1 seed).1 hc
  rw [← hn, hs] at this
  exact ⟨c, this⟩

theorem aeadCiphertext_length (hl : LawfulSsl lib) {k : AeadKey} (hk : k.Ok) {nonce pt c : Bytes}
    (hn : nonce.length = k.nonceSize) (h : k.ciphertext lib nonce [] pt = some c) :
    c.length = pt.length + k.overhead := by
  obtain ⟨seed, hs⟩ := hl.random_any 0 nonce
  rw [← hs, hn] at h
  exact (aeadPrim_exact hl hk).length seed pt [] c
    (((aeadPrim_ciphertexts hl hk (ad := []) (by decide) pt c).1 seed).2 h)

/-- The AEAD key of a data encapsulation. -/
theorem ctrHmac_ok {n iv m tag : Nat} {hash : EnumVal} {key : Bytes} (h : (Dem.aesCtrHmac n iv m hash tag).Ok)
    (hk : key.length = n + m) : (AeadKey.aesCtrHmac (key.take n) iv (key.drop n) hash tag).Ok := by
  obtain ⟨h1, h2, h3, h4, h5⟩ := h
  refine ⟨?_, h2, h3, ?_, h5⟩
  · show IsAesKey (key.take n)
    unfold IsAesKey
    rw [List.length_take, Nat.min_eq_left (by omega)]
    exact h1
  · rw [List.length_drop]; omega

theorem dem_total (hl : LawfulSsl lib) {dem : Dem} (h : dem.Ok) {key nonce pt : Bytes}
    (hk : key.length = dem.keySize) (hn : nonce.length = dem.nonceSize) (hp : pt.length < 2 ^ 31) :
    ∃ c, dem.ciphertext lib key nonce pt = some c := by
  cases dem with
  | aesGcm n =>
    have hk : key.length = n := hk
    exact aeadCiphertext_total hl (k := .aesGcm key) (by
      show IsAesKey key; unfold IsAesKey; rw [hk]; exact h) hn hp
  | aesCtrHmac n iv m hash tag => exact aeadCiphertext_total hl (ctrHmac_ok h hk) hn hp
  | xChaCha20Poly1305 => exact aeadCiphertext_total hl (k := .xChaCha20Poly1305 key) hk hn hp
  | aesSiv n => exact ⟨_, rfl⟩

theorem dem_length (hl : LawfulSsl lib) {dem : Dem} (h : dem.Ok) {key nonce pt c : Bytes}
    (hk : key.length = dem.keySize) (hn : nonce.length = dem.nonceSize)
    (hc : dem.ciphertext lib key nonce pt = some c) : c.length = pt.length + dem.overhead := by
  cases dem with
  | aesGcm n =>
    have hk : key.length = n := hk
    exact aeadCiphertext_length hl (k := .aesGcm key) (by
      show IsAesKey key; unfold IsAesKey; rw [hk]; exact h) hn hc
  | aesCtrHmac n iv m hash tag => exact aeadCiphertext_length hl (ctrHmac_ok h hk) hn hc
  | xChaCha20Poly1305 => exact aeadCiphertext_length hl (k := .xChaCha20Poly1305 key) hk hn hc
  | aesSiv n =>
    have h : n = 64 := h
    have hk : key.length = n := hk
    obtain ⟨a1, a2⟩ := siv_aes hl (k := ⟨key⟩) (hk.trans h)
    cases hc
    unfold SivKey.ciphertext Modes.siv
    dsimp only
    rw [List.length_append, length_s2v a1, ← ctr128_eq a2, length_ctr128 a2, Nat.add_comm]
    rfl

end

section
variable {lib : HybSsl}

/-! ## Key encapsulation -/

theorem pointBytes_total {g : EcGroup} {f : EnumVal} (hf : f = EcPointFormat.UNCOMPRESSED ∨
    f = EcPointFormat.COMPRESSED ∨ f = EcPointFormat.DO_NOT_USE_CRUNCHY_UNCOMPRESSED) (q : Nat × Nat) :
    ∃ b, PointBytes g f q b := by
  obtain ⟨x, y⟩ := q
  rcases hf with rfl | rfl | rfl
  · exact ⟨_, .uncompressed⟩
  · rcases Nat.mod_two_eq_zero_or_one y with h | h
    · exact ⟨_, .even h⟩
    · exact ⟨_, .odd h⟩
  · exact ⟨_, .crunchy⟩

theorem pointBytes_format {g : EcGroup} {f : EnumVal} {q : Nat × Nat} {b : Bytes} (h : PointBytes g f q b) :
    f = EcPointFormat.UNCOMPRESSED ∨ f = EcPointFormat.COMPRESSED ∨
      f = EcPointFormat.DO_NOT_USE_CRUNCHY_UNCOMPRESSED := by
  cases h <;> decide

theorem pointBytes_kemSize {p : EciesParams} {g : EcGroup} {q : Nat × Nat} {b : Bytes} (hg : Curve p.curve g)
    (h : PointBytes g p.format q b) : p.KemSize b.length := by
  generalize hf : p.format = f at h
  cases h with
  | uncompressed =>
    have := EciesParams.KemSize.uncompressed hg hf
    simp only [List.length_cons, List.length_append, digitsBE_length]
    rwa [show g.fieldSize + g.fieldSize + 1 = 1 + 2 * g.fieldSize by omega]
  | even =>
    have := EciesParams.KemSize.compressed hg hf
    simp only [List.length_cons, digitsBE_length]
    rwa [Nat.add_comm]
  | odd =>
    have := EciesParams.KemSize.compressed hg hf
    simp only [List.length_cons, digitsBE_length]
    rwa [Nat.add_comm]
  | crunchy =>
    have := EciesParams.KemSize.crunchy hg hf
    simp only [List.length_append, digitsBE_length]
    rwa [← Nat.two_mul]

theorem encapsulates_size (hl : LawfulHyb lib) {seed : Seed} {p : EciesParams} {x y kem secret : Bytes}
    (h : p.Encapsulates lib seed x y kem secret) : p.KemSize kem.length := by
  cases h with
  | nist hg hb => exact pointBytes_kemSize hg hb
  | x25519 hc => rw [hl.x25519Public _ (hl.x25519Generate _)]; exact .x25519 hc

/-- The recipient finds the secret of the sender. -/
theorem kem_round_trip (hl : LawfulHyb lib) {seed : Seed} {p : EciesParams} {x y d kem secret : Bytes}
    (hm : (HybPriv.ecies p x y d).Matches lib) (h : p.Encapsulates lib seed x y kem secret) :
    p.Decapsulates lib d kem secret := by
  cases h with
  | @nist g kem s hg hb hs =>
    rcases hm with ⟨g', hg', hd, hxy⟩ | ⟨hc, -⟩
    · cases curve_unique hg hg'
      have hgen := hl.generate seed g
      rw [hxy, ← hl.ecdh g _ _ hd hgen] at hs
      exact .nist hg hb (hl.onCurve g _ hgen) hs
    · exact absurd hc (not_nist hg)
  | @x25519 s hc hf hs =>
    rcases hm with ⟨g', hg', -⟩ | ⟨-, hd, rfl⟩
    · exact absurd hc (not_nist hg')
    · rw [hl.x25519 _ _ (hl.x25519Generate seed) hd] at hs
      exact .x25519 hc hf (hl.x25519Public _ (hl.x25519Generate _)) hs

/-- What is encrypted for a key pair can be decrypted with it. -/
theorem hyb_round_trip (hl : LawfulHyb lib) {s : HybPriv} (hm : s.Matches lib) {seed : Seed} {info pt ct : Bytes}
    (h : s.publicPart.Encrypts lib seed info pt ct) : s.Decrypts lib info ct pt := by
  cases s with
  | ecies p x y d =>
    obtain ⟨dem, kem, secret, key, c, h1, h2, h3, h4, h5, h6⟩ := h
    exact ⟨dem, kem, secret, key, _, c, h1, h2, kem_round_trip hl hm h3, h4, hl.sym.random_length _ _ _, h5, h6⟩
  | hpke kem kdf aead pub priv =>
    obtain ⟨enc, ctx, c, h1, h2, h3, h4⟩ := h
    obtain ⟨hp, rfl⟩ := hm
    exact ⟨enc, ctx, c, h1, hp, hl.hpkeLength _ _ _ _ _ _ h2, hl.hpke _ _ _ _ _ _ hp h2, h3, h4⟩

/-- A key encrypts only with algorithms that work. -/
theorem encrypts_usable {v : HybPub} (hv : v.Ok lib) {seed : Seed} {info pt ct : Bytes}
    (h : v.Encrypts lib seed info pt ct) : v.Usable := by
  cases v with
  | ecies p x y =>
    obtain ⟨dem, kem, secret, key, c, h1, h2, h3, h4, -⟩ := h
    cases h4 with
    | @mk n hn hle =>
      refine ⟨dem, n, h1, h2, hn, hle, ?_⟩
      cases h3 with
      | nist hg hb => exact .inl ⟨_, hg, pointBytes_format hb⟩
      | x25519 hc hf => exact .inr ⟨hc, hf⟩
  | hpke kem kdf aead pub =>
    obtain ⟨enc, ctx, c, h1, -⟩ := h
    exact ⟨hv.1, hv.2.1, h1⟩

theorem decrypts_usable {s : HybPriv} (hs : s.Ok) {info pt ct : Bytes} (h : s.Decrypts lib info ct pt) :
    s.publicPart.Usable := by
  cases s with
  | ecies p x y d =>
    obtain ⟨dem, kem, secret, key, nonce, c, h1, h2, h3, h4, -⟩ := h
    cases h4 with
    | @mk n hn hle =>
      refine ⟨dem, n, h1, h2, hn, hle, ?_⟩
      cases h3 with
      | nist hg hb => exact .inl ⟨_, hg, pointBytes_format hb⟩
      | x25519 hc hf => exact .inr ⟨hc, hf⟩
  | hpke kem kdf aead pub priv =>
    obtain ⟨enc, ctx, c, h1, -⟩ := h
    exact ⟨hs.1, hs.2.1, h1⟩

/-- A key pair with algorithms that work encrypts everything. -/
theorem encrypts_total (hl : LawfulHyb lib) {s : HybPriv} (hm : s.Matches lib) (hu : s.publicPart.Usable)
    (seed : Seed) (info pt : Bytes) (hp : pt.length < 2 ^ 31) :
    ∃ ct, s.publicPart.Encrypts lib seed info pt ct := by
  cases s with
  | ecies p x y d =>
    obtain ⟨dem, n, h1, h2, h3, h4, h5⟩ := hu
    have henc : ∃ kem secret, p.Encapsulates lib seed x y kem secret := by
      rcases hm with ⟨g, hg, hd, hxy⟩ | ⟨hc, hd, rfl⟩
      · rcases h5 with ⟨g', hg', hf⟩ | ⟨hc, -⟩
        · obtain ⟨b, hb⟩ := pointBytes_total (g := g) hf (lib.ecPublic g (lib.ecGenerate seed g))
          obtain ⟨s, hs⟩ := hl.mulTotal g (lib.ecGenerate seed g) (fromBytesBE x) (fromBytesBE y)
            (hl.generate seed g) (by have := hl.onCurve g _ hd; rwa [← hxy] at this)
          exact ⟨b, _, .nist hg hb hs⟩
        · exact absurd hc (not_nist hg)
      · rcases h5 with ⟨g', hg', hf⟩ | ⟨-, hf⟩
        · exact absurd hc (not_nist hg')
        · obtain ⟨s, hs⟩ := hl.x25519Total (lib.x25519Generate seed) d (hl.x25519Generate seed) hd
          exact ⟨_, _, .x25519 hc hf hs⟩
    obtain ⟨kem, secret, henc⟩ := henc
    have hk := EciesParams.DerivedKey.mk (lib := lib) (p := p) (dem := dem) (info := info) (kem := kem)
      (secret := secret) h3 h4
    obtain ⟨c, hc⟩ := dem_total hl.sym h2 (length_derived hl hk) (hl.sym.random_length seed 0 dem.nonceSize) hp
    exact ⟨_, dem, kem, secret, _, c, h1, h2, henc, hk, hc, rfl⟩
  | hpke kem kdf aead pub priv =>
    obtain ⟨hlen, rfl⟩ := hm
    obtain ⟨-, -, ha⟩ := hu
    obtain ⟨⟨enc, ctx⟩, hr⟩ := hl.hpkeTotal seed aead priv info ha hlen
    obtain ⟨c, hc⟩ := hl.hpkeSeals _ _ _ _ _ _ pt [] hr hp (by decide)
    exact ⟨_, enc, ctx, c, ha, hr, hc, rfl⟩

theorem encrypts_length (hl : LawfulHyb lib) {v : HybPub} {seed : Seed} {info pt ct : Bytes}
    (h : v.Encrypts lib seed info pt ct) : ∃ n, v.Overhead n ∧ ct.length = pt.length + n := by
  cases v with
  | ecies p x y =>
    obtain ⟨dem, kem, secret, key, c, h1, h2, h3, h4, h5, rfl⟩ := h
    refine ⟨_, .ecies h1 (encapsulates_size hl h3), ?_⟩
    rw [List.length_append, dem_length hl.sym h2 (length_derived hl h4) (hl.sym.random_length _ _ _) h5]
    omega
  | hpke kem kdf aead pub =>
    obtain ⟨enc, ctx, c, h1, h2, h3, rfl⟩ := h
    refine ⟨_, .hpke, ?_⟩
    rw [List.length_append, hl.hpkeLength _ _ _ _ _ _ h2, hl.hpkeOverhead _ _ _ _ h3]
    omega

theorem kemSize_unique {p : EciesParams} {n m : Nat} (h : p.KemSize n) (h' : p.KemSize m) : n = m := by
  cases h with
  | uncompressed hg hf =>
    cases h' with
    | uncompressed hg' => cases curve_unique hg hg'; rfl
    | compressed _ hf' => rw [hf] at hf'; exact absurd hf' (by decide)
    | crunchy _ hf' => rw [hf] at hf'; exact absurd hf' (by decide)
    | x25519 hc => exact absurd hc (not_nist hg)
  | compressed hg hf =>
    cases h' with
    | uncompressed _ hf' => rw [hf] at hf'; exact absurd hf' (by decide)
    | compressed hg' => cases curve_unique hg hg'; rfl
    | crunchy _ hf' => rw [hf] at hf'; exact absurd hf' (by decide)
    | x25519 hc => exact absurd hc (not_nist hg)
  | crunchy hg hf =>
    cases h' with
    | uncompressed _ hf' => rw [hf] at hf'; exact absurd hf' (by decide)
    | compressed _ hf' => rw [hf] at hf'; exact absurd hf' (by decide)
    | crunchy hg' => cases curve_unique hg hg'; rfl
    | x25519 hc => exact absurd hc (not_nist hg)
  | x25519 hc =>
    cases h' with
    | x25519 => rfl
    | uncompressed hg => exact absurd hc (not_nist hg)
    | compressed hg => exact absurd hc (not_nist hg)
    | crunchy hg => exact absurd hc (not_nist hg)

theorem overhead_unique {v : HybPub} {n m : Nat} (h : v.Overhead n) (h' : v.Overhead m) : n = m := by
  cases h with
  | ecies h1 h2 =>
    cases h' with
    | ecies h1' h2' => rw [dem_unique h1 h1', kemSize_unique h2 h2']
  | hpke => cases h'; rfl

/-! ## New keys -/

theorem digitsBE_ne {g : EcGroup} {n : Nat} : digitsBE g.fieldSize n ≠ [] := by
  intro h
  have := digitsBE_length g.fieldSize n
  rw [h] at this
  exact absurd this (Nat.ne_of_lt (fieldSize_pos g))

theorem pointBytes_ne {g : EcGroup} {f : EnumVal} {q : Nat × Nat} {b : Bytes} (h : PointBytes g f q b) :
    b ≠ [] := by
  cases h with
  | crunchy => exact fun h => digitsBE_ne (List.append_eq_nil_iff.1 h).1
  | _ => exact List.cons_ne_nil _ _

theorem ne_of_length {b : Bytes} (h : b.length = 32) : b ≠ [] := by rintro rfl; cases h

/-- The key a format asks for has the right public part. -/
theorem hyb_asked_matches (hl : LawfulHyb lib) {seed : Seed} {url : PStr} {b : Bytes} {s : HybPriv}
    (h : HybPriv.AskedFor lib seed url b s) (hok : s.Ok) : s.Matches lib := by
  cases h with
  | @ecies b f q p x y d h1 h2 h3 h4 =>
    generalize hc : p.curve = c at h4
    cases h4 with
    | @nist _ g x y hg hxy =>
      have q1 := hl.generate seed g
      have q3 := hl.onCurve g _ q1
      rw [hxy] at q3
      obtain ⟨q4, q5⟩ := hl.point _ _ _ q3
      have ed := fromBytesBE_digits _ _ (Nat.lt_trans q1.2 (order_lt g))
      left
      refine ⟨g, hc ▸ hg, ?_, ?_⟩
      · rw [ed]; exact q1
      · rw [ed, fromBytesBE_digits _ _ q4, fromBytesBE_digits _ _ q5, hxy]
    | x25519 => exact .inr ⟨hc, hl.x25519Generate _, rfl⟩
  | @hpke b f q pub priv h1 h2 h3 =>
    have hk : q.kem = HpkeKem.DHKEM_X25519_HKDF_SHA256 := hok.1
    generalize hc : q.kem = c at h3 hk
    cases h3 with
    | nist hg => subst hk; cases hg
    | x25519 => exact ⟨hl.x25519Generate _, rfl⟩

theorem newKey_unique {seed : Seed} {c : EnumVal} {x y d x' y' d' : Bytes}
    (h : HybPriv.NewKey lib seed c x y d) (h' : HybPriv.NewKey lib seed c x' y' d') : x = x' ∧ y = y' ∧ d = d' := by
  generalize hz : c = z at h'
  cases h with
  | nist hg e =>
    cases h' with
    | nist hg' e' =>
      subst hz
      cases curve_unique hg hg'
      rw [e] at e'
      cases e'
      exact ⟨rfl, rfl, rfl⟩
    | x25519 => exact absurd hz (not_nist hg)
  | x25519 =>
    cases h' with
    | nist hg' => exact absurd hz.symm (not_nist hg')
    | x25519 => exact ⟨rfl, rfl, rfl⟩

theorem pointBytes_unique {g : EcGroup} {f : EnumVal} {q : Nat × Nat} {b b' : Bytes} (h : PointBytes g f q b)
    (h' : PointBytes g f q b') : b = b' := by
  generalize hz : f = z at h'
  generalize hw : q = w at h'
  cases h <;> cases h' <;> first
    | (exfalso; revert hz; decide)
    | (cases hw; first | rfl | (exfalso; omega))

theorem newHpkeKey_unique {seed : Seed} {c : EnumVal} {x d x' d' : Bytes}
    (h : HybPriv.NewHpkeKey lib seed c x d) (h' : HybPriv.NewHpkeKey lib seed c x' d') : x = x' ∧ d = d' := by
  generalize hz : c = z at h'
  cases h with
  | nist hg e =>
    cases h' with
    | nist hg' e' =>
      subst hz
      cases kemCurve_unique hg hg'
      exact ⟨pointBytes_unique e e', rfl⟩
    | x25519 => subst hz; cases hg
  | x25519 =>
    cases h' with
    | nist hg' => subst hz; cases hg'
    | x25519 => exact ⟨rfl, rfl⟩

/-- A format asks for one key. -/
theorem hyb_asked_unique {seed : Seed} {url : PStr} {b : Bytes} {s s' : HybPriv}
    (h : HybPriv.AskedFor lib seed url b s) (h' : HybPriv.AskedFor lib seed url b s') : s = s' := by
  cases h with
  | ecies h1 h2 h3 h4 =>
    obtain ⟨f, g1, g⟩ := (ecies_asked seed b s').1 h'
    cases h1.symm.trans g1
    cases g with
    | mk g2 g3 g4 =>
      cases h2.symm.trans g2
      cases inMessage_unique h3 g3
      obtain ⟨rfl, rfl, rfl⟩ := newKey_unique h4 g4
      rfl
  | hpke h1 h2 h3 =>
    obtain ⟨f, g1, g⟩ := (hpke_asked seed b s').1 h'
    cases h1.symm.trans g1
    cases g with
    | mk g2 g3 =>
      cases h2.symm.trans g2
      obtain ⟨rfl, rfl⟩ := newHpkeKey_unique h3 g3
      rfl

/-- A new private key is acceptable if and only if its public key is. -/
theorem hyb_asked_ok_iff (hl : LawfulHyb lib) {seed : Seed} {url : PStr} {b : Bytes} {s : HybPriv}
    (h : HybPriv.AskedFor lib seed url b s) : s.Ok ↔ s.publicPart.Ok lib := by
  cases h with
  | @ecies b f q p x y d h1 h2 h3 h4 =>
    unfold HybPriv.Ok HybPriv.publicPart HybPub.Ok
    dsimp only
    refine and_congr Iff.rfl (and_congr Iff.rfl ?_)
    generalize p.curve = c at h4
    cases h4 with
    | @nist _ g x y hg hxy =>
      have q3 := hl.onCurve g _ (hl.generate seed g)
      rw [hxy] at q3
      obtain ⟨q4, q5⟩ := hl.point _ _ _ q3
      constructor
      · rintro ⟨-, -, hd⟩
        exact ⟨.nist hg digitsBE_ne digitsBE_ne
          (by rw [fromBytesBE_digits _ _ q4, fromBytesBE_digits _ _ q5]; exact q3), hd⟩
      · rintro ⟨-, hd⟩
        exact ⟨digitsBE_ne, .inl ⟨⟨g, hg⟩, digitsBE_ne, digitsBE_ne⟩, hd⟩
    | x25519 =>
      have hp := hl.x25519Public _ (hl.x25519Generate seed)
      constructor
      · rintro ⟨-, -, hd⟩
        exact ⟨.x25519 rfl hp rfl, hd⟩
      · rintro ⟨-, hd⟩
        exact ⟨ne_of_length hp, .inr ⟨rfl, rfl, hl.x25519Generate _⟩, hd⟩
  | @hpke b f q pub priv h1 h2 h3 =>
    unfold HybPriv.Ok HybPriv.publicPart HybPub.Ok
    dsimp only
    refine and_congr Iff.rfl (and_congr Iff.rfl (and_congr Iff.rfl ?_))
    generalize q.kem = c at h3
    cases h3 with
    | nist hg hb =>
      exact ⟨fun _ => pointBytes_ne hb, fun _ => digitsBE_ne⟩
    | x25519 =>
      exact ⟨fun _ => ne_of_length (hl.x25519Public _ (hl.x25519Generate _)),
        fun _ => ne_of_length (hl.x25519Generate _)⟩

/-- A new key with algorithms that work is acceptable. -/
theorem hyb_asked_usable (hl : LawfulHyb lib) {seed : Seed} {url : PStr} {b : Bytes} {s : HybPriv}
    (h : HybPriv.AskedFor lib seed url b s) (hu : s.publicPart.Usable) (hc : s.publicPart.Checked) : s.Ok := by
  rw [hyb_asked_ok_iff hl h]
  cases h with
  | @ecies b f q p x y d h1 h2 h3 h4 =>
    obtain ⟨dem, n, u1, -⟩ := hu
    refine ⟨hc.2.1, hc.2.2, ?_, dem, u1⟩
    generalize p.curve = c at h4
    cases h4 with
    | @nist _ g x y hg hxy =>
      have q3 := hl.onCurve g _ (hl.generate seed g)
      rw [hxy] at q3
      obtain ⟨q4, q5⟩ := hl.point _ _ _ q3
      exact .nist hg digitsBE_ne digitsBE_ne
          (by rw [fromBytesBE_digits _ _ q4, fromBytesBE_digits _ _ q5]; exact q3)
    | x25519 => exact .x25519 rfl (hl.x25519Public _ (hl.x25519Generate seed)) rfl
  | @hpke b f q pub priv h1 h2 h3 =>
    obtain ⟨u1, u2, u3⟩ := hu
    refine ⟨u1, u2, hc.2.2, ?_⟩
    generalize q.kem = c at h3 u1
    cases h3 with
    | nist hg hb => subst u1; cases hg
    | x25519 => exact ne_of_length (hl.x25519Public _ (hl.x25519Generate _))

/-! ## How the computations end -/

theorem run_status {α : Type} {x : StatusOr α} {e : Stop} (h : run x = .error e) : ∃ s, e = .status s := by
  cases x with
  | ok a => cases h
  | error s => cases h; exact ⟨s, rfl⟩

theorem rbind_error {α β : Type} {x : Run α} {f : α → Run β} {e : Stop} :
    (x >>= f) = .error e ↔ x = .error e ∨ ∃ a, x = .ok a ∧ f a = .error e := by
  cases x with
  | ok a => exact ⟨fun h => .inr ⟨a, rfl, h⟩, by rintro (h | ⟨_, h, h'⟩) <;> cases h; exact h'⟩
  | error e' =>
    constructor
    · intro h; injection h with h; exact .inl (by rw [h])
    · rintro (h | ⟨_, h, _⟩)
      · injection h with h; rw [h]; rfl
      · cases h

theorem demGetAead_ends {lib : Ssl} {q : DemKeyParams} {dem : Dem} (hq : DemIs q dem) {key : Bytes}
    {e : Stop} (h : demGetAead lib q key = .error e) :
    (∃ s, e = .status s) ∨ (e = .outOfRange ∧ 2 ^ 32 ≤ dem.keySize) := by
  unfold demGetAead at h
  split at h
  · exact .inl (run_status h)
  rename_i hs
  have hs : key.length = q.keySize.toNat := Decidable.not_not.1 hs
  cases hq with
  | aesGcm => exact .inl (run_status h)
  | xChaCha20Poly1305 => exact .inl (run_status h)
  | aesSiv => exact .inl (run_status h)
  | aesCtrHmac n iv m hash tag =>
    dsimp only at h
    split at h
    · rename_i hlt
      cases h
      refine .inr ⟨rfl, ?_⟩
      have hsum : (n + m).toNat = (n.toNat + m.toNat) % 2 ^ 32 := UInt32.toNat_add n m
      have hs : key.length = (n + m).toNat := hs
      show 2 ^ 32 ≤ n.toNat + m.toNat
      apply Decidable.byContradiction
      intro hc
      rw [Nat.mod_eq_of_lt (by omega)] at hsum
      omega
    · exact .inl (run_status h)

theorem senderGenerate_ends {c : EnumVal} {x y : Bytes} {kem : SenderKem} (hk : SenderIs lib c x y kem)
    {seed : Seed} {hash f : EnumVal} {salt info : Bytes} {n : Nat} {e : Stop}
    (h : senderGenerateKey lib seed hash salt info n f kem = .error e) :
    (∃ s, e = .status s) ∨ (e = .aborted ∧ c = EllipticCurveType.CURVE25519 ∧ f = EcPointFormat.COMPRESSED ∧
      lib.x25519 (lib.x25519Generate seed) x = none) := by
  cases hk with
  | nist hg hp =>
    left
    unfold senderGenerateKey at h
    dsimp only at h
    rcases rbind_error.1 h with h | ⟨_, -, h⟩
    · exact run_status h
    rcases rbind_error.1 h with h | ⟨_, -, h⟩
    · exact run_status h
    rcases rbind_error.1 h with h | ⟨_, -, h⟩
    · exact run_status h
    rcases rbind_error.1 h with h | ⟨_, -, h⟩
    · exact run_status h
    cases h
  | x25519 hc hx hy =>
    unfold senderGenerateKey at h
    dsimp only at h
    split at h
    · exact .inl (run_status h)
    rename_i hf
    split at h
    · rename_i hs
      cases h
      exact .inr ⟨rfl, hc, Decidable.not_not.1 hf, hs⟩
    · left
      rcases rbind_error.1 h with h | ⟨_, -, h⟩
      · exact run_status h
      cases h

theorem eciesEncrypt_ends {m : EciesAeadHkdfParams} {p : EciesParams} (hm : Reads m p) {x y : Bytes}
    {kem : SenderKem} (hk : SenderIs lib p.curve x y kem) {dem : Dem} {q : DemKeyParams} (hq : DemIs q dem)
    {seed : Seed} {pt info : Bytes} {e : Stop} (h : eciesEncrypt lib m kem q seed pt info = .error e) :
    (∃ s, e = .status s) ∨ (e = .outOfRange ∧ 2 ^ 32 ≤ dem.keySize) ∨
      (e = .aborted ∧ p.curve = EllipticCurveType.CURVE25519 ∧ p.format = EcPointFormat.COMPRESSED ∧
        lib.x25519 (lib.x25519Generate seed) x = none) := by
  unfold eciesEncrypt at h
  rw [hm.format] at h
  rcases rbind_error.1 h with h | ⟨_, -, h⟩
  · rcases senderGenerate_ends hk h with h | h
    · exact .inl h
    · exact .inr (.inr h)
  rcases rbind_error.1 h with h | ⟨_, -, h⟩
  · rcases demGetAead_ends hq h with h | h
    · exact .inl h
    · exact .inr (.inl h)
  rcases rbind_error.1 h with h | ⟨_, -, h⟩
  · exact .inl (run_status h)
  · cases h

theorem eciesDecrypt_ends {m : EciesAeadHkdfParams} {kem : RecipientKem} {dem : Dem} {q : DemKeyParams}
    (hq : DemIs q dem) {ct info : Bytes} {e : Stop} (h : eciesDecrypt lib m kem q ct info = .error e) :
    (∃ s, e = .status s) ∨ (e = .outOfRange ∧ 2 ^ 32 ≤ dem.keySize) := by
  unfold eciesDecrypt at h
  rcases rbind_error.1 h with h | ⟨_, -, h⟩
  · exact .inl (run_status h)
  split at h
  · exact .inl (run_status h)
  rcases rbind_error.1 h with h | ⟨_, -, h⟩
  · exact .inl (run_status h)
  rcases rbind_error.1 h with h | ⟨_, -, h⟩
  · exact demGetAead_ends hq h
  · exact .inl (run_status h)

/-- There is a key manager for the public keys. -/
theorem ccHybridEncrypt_type {url pubUrl : PStr} (h : HybridType url pubUrl) :
    ∃ cc, ccHybridEncrypt lib pubUrl = some cc := by
  cases h with
  | ecies => exact ⟨_, if_pos rfl⟩
  | hpke => exact ⟨_, (if_neg (by
      show ¬ (_ = ps! "type.googleapis.com/google.crypto.tink.EciesAeadHkdfPublicKey"); decide)).trans (if_pos rfl)⟩

theorem hybridType_unique {url p p' : PStr} (h : HybridType url p) (h' : HybridType url p') : p = p' := by
  generalize hu : url = u at h'
  cases h <;> cases h' <;> first | rfl | (exfalso; revert hu; decide)

end

end Tink.Cc
