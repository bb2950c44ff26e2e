import Verif.Props.RotationJwt
import Verif.Props.RotationWorks
import Verif.Spec.RotationJwt

/-!
# C109: rotated keysets for JWT keep working
-/

namespace Tink.Props
open Spec Cc Jwt

section
variable {F P C : Type} [DecidableEq C] {L : Library F P C} {isInst : P → C → Bool} {r : Registry P C}
  {h h' : KeysetHandle} {p p' : P} {ops : List BuilderOp}

theorem token_usable_same {good : KeyData → Prop} {k k' : Key} (hs : SameButStatus k k')
    (g : (k.outputPrefixType = OutputPrefixType.RAW ∨ k.outputPrefixType = OutputPrefixType.TINK) ∧ Fits k.data ∧
      good k.data) :
    (k'.outputPrefixType = OutputPrefixType.RAW ∨ k'.outputPrefixType = OutputPrefixType.TINK) ∧ Fits k'.data ∧
      good k'.data := by
  have : k'.data = k.data := by unfold Key.data; rw [hs.1]
  rw [this, hs.2.2]
  exact g

omit [DecidableEq C] in
theorem added_token_usable {good : KeyData → Prop} {ts : List (Py KeyTemplate)} (hops : OnlyFrom ts ops)
    (hnew : ∀ seed t kd, .ok t ∈ ts → r.newKeyData seed t = .ok kd →
      (t.outputPrefixType = OutputPrefixType.RAW ∨ t.outputPrefixType = OutputPrefixType.TINK) ∧ Fits kd ∧ good kd)
    {k : Key} (ha : AddedBy r ops k) :
    (k.outputPrefixType = OutputPrefixType.RAW ∨ k.outputPrefixType = OutputPrefixType.TINK) ∧ Fits k.data ∧
      good k.data := by
  obtain ⟨seed, draws, t, kd, h1, h2, h3, -, h5⟩ := ha
  have : k.data = kd := by unfold Key.data; rw [h3]; rfl
  rw [this, h5]
  exact hnew _ _ _ (hops _ _ _ h1) h2

omit [DecidableEq C] in
theorem rotated_token_usable {good : KeyData → Prop} {ts : List (Py KeyTemplate)} (H : Rotated r h ops h')
    (hops : OnlyFrom ts ops) (h0 : AllTokenUsable good h.keyset)
    (hnew : ∀ seed t kd, .ok t ∈ ts → r.newKeyData seed t = .ok kd →
      (t.outputPrefixType = OutputPrefixType.RAW ∨ t.outputPrefixType = OutputPrefixType.TINK) ∧ Fits kd ∧ good kd) :
    AllTokenUsable good h'.keyset :=
  rotated_all H (fun _ _ => token_usable_same) h0 fun _ => added_token_usable hops hnew

omit [DecidableEq C] in
theorem rotated_token_except {ids : List UInt32} {good : KeyData → Prop} {ts : List (Py KeyTemplate)}
    (H : Rotated r h ops h') (hops : OnlyFrom ts ops) (hids : NeverEnables ids ops)
    (h0 : TokenUsableExcept ids good h.keyset)
    (hnew : ∀ seed t kd, .ok t ∈ ts → r.newKeyData seed t = .ok kd →
      (t.outputPrefixType = OutputPrefixType.RAW ∨ t.outputPrefixType = OutputPrefixType.TINK) ∧ Fits kd ∧ good kd) :
    TokenUsableExcept ids good h'.keyset :=
  rotated_except H (fun _ _ => token_usable_same) hids h0 fun _ => added_token_usable hops hnew

/-! ## MAC -/

section
variable {lib : Ssl}
variable (hcc : L.ccMac jwtHmacType =
  boundKeyManager macCcToPy (RawJwtHmacKeyManager.keyTypeManager lib).toKeyManager)

theorem mac_template_facts {t : KeyTemplate} (ht : .ok t ∈ jwsMacTemplates) :
    t.typeUrl = jwtHmacType ∧ FitsTemplate t ∧
      (t.outputPrefixType = OutputPrefixType.RAW ∨ t.outputPrefixType = OutputPrefixType.TINK) ∧
      ∀ f, JwtHmacKeyFormat.fromString t.value = .ok f → f.keySize.toNat < 2 ^ 31 - 1000 := by
  have hcheck : ∀ x ∈ jwsMacTemplates, parsed x (fun t =>
      decide (t.typeUrl = jwtHmacType) && parsed t.serializeToString (fun _ => true) &&
      decide (t.outputPrefixType = OutputPrefixType.RAW ∨ t.outputPrefixType = OutputPrefixType.TINK) &&
      parsed (JwtHmacKeyFormat.fromString t.value) fun f => decide (f.keySize.toNat < 2 ^ 31 - 1000)) = true := by
    decide +kernel
  obtain ⟨t', h0, h⟩ := parsed_iff.1 (hcheck _ ht)
  cases h0
  simp only [Bool.and_eq_true, decide_eq_true_eq, parsed_iff] at h
  obtain ⟨⟨⟨h1, b, h2, -⟩, h3⟩, f, h4, h5⟩ := h
  refine ⟨h1, ⟨b, h2⟩, h3, fun f' hf => ?_⟩
  rw [h4] at hf
  cases hf
  exact h5

include hcc in
/-- C109, JWT MAC.  A rotated keyset works. -/
theorem C109_jwt_mac_works (hi : JwtMacInstances isInst L) (hl : LawfulSsl lib) (hr : JwtMacRegistered L r)
    (H : Rotated r h ops h') (hops : OnlyFrom jwsMacTemplates ops) {ids : List UInt32}
    (hids : NeverEnables ids ops) (h0 : TokenUsableExcept ids GoodTokenMac h.keyset) :
    TokenUsableExcept ids GoodTokenMac h'.keyset ∧ ∃ p, h'.primitive isInst r L.macClass = .ok p := by
  have h1 : TokenUsableExcept ids GoodTokenMac h'.keyset := by
    refine rotated_token_except H hops hids h0 fun seed t kd ht hn => ?_
    obtain ⟨g1, g2, g3, g4⟩ := mac_template_facts ht
    obtain ⟨e1, -, f, alg, hash, -, e2, -⟩ := (C95_formats hcc hl hr g2 g1 seed g4).2.2 kd hn
    exact ⟨g3, e1, alg, none, hash, _, e2⟩
  exact ⟨h1, (C95_primitive hcc hi hr).2 ⟨(rotated_iff_run H).2, fun k hk he =>
    (h1 k hk).resolve_right fun g => g.2 he⟩⟩

end

/-! ## Signatures -/

section
variable {lib : SigSsl}
variable (hccs : ∀ url cc, ccJwtSign lib url = some cc → L.ccSign url = boundKeyManager signCcToPy cc)
variable (hccv : ∀ url cc, ccJwtVerify lib url = some cc → L.ccVerify url = boundKeyManager verifyCcToPy cc)

theorem token_usable_private (hl : LawfulSigSsl lib) {ks : Keyset} (h : AllTokenUsable (GoodTokenSign lib) ks) :
    JwsPrivateKeyset ks := by
  intro k hk
  obtain ⟨-, h2, h1, h3, i, s, h4, -, -, h7⟩ := h k hk
  refine ⟨h1, h2, h3, fun i' s' hs => ?_⟩
  obtain ⟨rfl, rfl⟩ := (jws_unique lib hl).1 h4 hs
  exact h7

include hccs hccv in
/-- C109, JWT signatures.  A rotated keyset works, and so does its public keyset. -/
theorem C109_jwt_signature_works (hi : LawfulClasses isInst L) (hl : LawfulSigSsl lib)
    (hr : JwtSignatureRegistered L r) (H : Rotated r h ops h') (hops : OnlyFrom jwsTemplates ops)
    (h0 : AllTokenUsable (GoodTokenSign lib) h.keyset) :
    AllTokenUsable (GoodTokenSign lib) h'.keyset ∧ (∃ p, h'.primitive isInst r L.signClass = .ok p) ∧
      ∃ pub p, h'.publicKeysetHandle r = .ok pub ∧ pub.primitive isInst r L.verifyClass = .ok p := by
  have h1 : AllTokenUsable (GoodTokenSign lib) h'.keyset := by
    refine rotated_token_usable H hops h0 fun seed t kd ht hn => ?_
    obtain ⟨g1, g2, g3, -⟩ := jws_template (lib := lib) hl ht seed
    obtain ⟨e1, e2, e3, alg, s, e4, e5, e6, e7⟩ := (C99_formats hccs hl hr g2 g1 seed).2.2 kd hn
    exact ⟨g3, e1, by rw [e2]; exact g1, e3, ⟨alg, none⟩, s, e5, e6, e7, jwsAsked_size hl e4 e6.1⟩
  have hv := (rotated_iff_run H).2
  have hpriv := token_usable_private hl h1
  obtain ⟨pub, hpub⟩ := (C99_public hccs hl hr hv hpriv).2 fun k hk => by
    obtain ⟨g3, -, -, -, i, s, g5, g6, -⟩ := h1 k hk
    refine ⟨?_, ?_, i, s, g5, checked_of_ok g6⟩
    · rcases g3 with e | e <;> rw [e] <;> decide
    · by_cases hd : k.status = KeyStatusType.DESTROYED
      · rw [hd]; decide
      · exact (hv.complete k hk hd).2.2
  obtain ⟨c1, c2, c3, c4, c5⟩ := C99_public_keys hccs hl hr hpriv hpub
  obtain ⟨pv, hpv⟩ := (C99_verify_primitive (h := pub) hccv hi hl hr).2 ⟨c4, fun k' hk' _ => by
    obtain ⟨k, hk, hmem⟩ := zip_mem' c2 hk'
    obtain ⟨-, -, g3, -, -, g6, i, s, g7, g8⟩ := c3 _ hmem
    dsimp only at g3 g6 g7 g8
    obtain ⟨e3, -, -, -, i', s', e5, e6, -⟩ := h1 k hk
    obtain ⟨rfl, rfl⟩ := (jws_unique lib hl).1 g7 e5
    rw [g3]
    exact ⟨e3, g6, _, _, g8, e6.1⟩⟩
  refine ⟨h1, (C99_sign_primitive hccs hi hl hr).2 ⟨hv, fun k hk _ => ?_⟩, pub, pv, hpub, hpv⟩
  obtain ⟨g3, g4, -, -, i, s, g5, g6, -⟩ := h1 k hk
  exact ⟨g3, g4, i, s, g5, g6⟩

end
end
end Tink.Props
