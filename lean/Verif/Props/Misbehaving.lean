import Verif.Props.Aead
import Verif.Props.Deterministic
import Verif.Props.Hybrid
import Verif.Props.MacSignature

/-!
# C13 for the other primitives

The AEAD case is in `Props/Aead.lean`.  For each primitive: if the keys that the input concerns
succeed or fail with `TinkError`, one success suffices; and a concrete keyset where a key raising
another exception hides one that accepts.
-/

namespace Tink.Props
open Spec
section
variable {P C : Type} [DecidableEq C] {t : Nat} {c : C} {VD : View P DeterministicAead}
  {VH : View P HybridDecrypt} {VM : View P Mac} {VV : View P PublicKeyVerify}
  {isInst : P → C → Bool} {r : Registry P C} {h : KeysetHandle} {kps : List (Key × P)} {p : P}

/-- Some key accepts and the others accept or refuse: the search accepts. -/
theorem search_accepts {A α : Type} {F : Key → A → Bytes → Py α} {kps : List (Key × A)} {x : Bytes}
    (honly : ∀ q ∈ kps, ∀ b, payload q.1 x = some b →
      (∃ a, F q.1 q.2 b = .ok a) ∨ Rejects (F q.1 q.2 b))
    {q : Key × A} {b : Bytes} {a : α} (hq : q ∈ kps) (hb : payload q.1 x = some b)
    (ha : F q.1 q.2 b = .ok a) : ∃ a', firstNonTink (outcomes F kps x) = .ok a' := by
  cases hx : firstNonTink (outcomes F kps x) with
  | ok a' => exact ⟨a', rfl⟩
  | error e =>
    rcases outcomes_error hx with rfl | ⟨he, q', hq', b', hb', hy⟩
    · obtain ⟨_, h1, _⟩ := outcomes_tink_iff.1 hx q hq b hb
      rw [ha] at h1; cases h1
    · rcases honly q' hq' b' hb' with ⟨a', h1⟩ | ⟨e', h1, h2⟩
      · rw [hy] at h1; cases h1
      · rw [hy] at h1; cases h1; rw [h2] at he; cases he

/-- C13, deterministic AEAD. -/
theorem C13_daead_some_key_accepts (H : Obtained isInst (daeadWrapper VD t c) r h c kps p)
    {ct ad : Bytes}
    (honly : ∀ q ∈ kps, ∀ b, payload q.1 ct = some b →
      (∃ pt, (VD.view q.2).decryptDeterministically b ad = .ok pt) ∨
      Rejects ((VD.view q.2).decryptDeterministically b ad))
    {k : Key} {o : P} {body pt : Bytes} (hm : (k, o) ∈ kps) (hb : payload k ct = some body)
    (hd : (VD.view o).decryptDeterministically body ad = .ok pt) :
    ∃ pt', (VD.view p).decryptDeterministically ct ad = .ok pt' := by
  rw [C05_daead_decrypt_eq H]
  exact search_accepts honly hm hb hd

/-- C13, hybrid decryption. -/
theorem C13_hybrid_some_key_accepts (H : Obtained isInst (hybridDecryptWrapper VH t c) r h c kps p)
    {ct info : Bytes}
    (honly : ∀ q ∈ kps, ∀ b, payload q.1 ct = some b →
      (∃ pt, (VH.view q.2).decrypt b info = .ok pt) ∨ Rejects ((VH.view q.2).decrypt b info))
    {k : Key} {o : P} {body pt : Bytes} (hm : (k, o) ∈ kps) (hb : payload k ct = some body)
    (hd : (VH.view o).decrypt body info = .ok pt) :
    ∃ pt', (VH.view p).decrypt ct info = .ok pt' := by
  rw [C06_hybrid_decrypt_eq H]
  exact search_accepts honly hm hb hd

/-- C13, MAC (tags longer than 5 bytes; shorter ones are refused by `C08_mac_short_rejected`). -/
theorem C13_mac_some_key_accepts (H : Obtained isInst (macWrapper VM t c) r h c kps p)
    {tag data : Bytes} (hlen : 5 < tag.length)
    (honly : ∀ q ∈ kps, ∀ b, payload q.1 tag = some b →
      (VM.view q.2).verifyMac b (authenticated q.1 data) = .ok () ∨
      Rejects ((VM.view q.2).verifyMac b (authenticated q.1 data)))
    {k : Key} {o : P} {body : Bytes} (hm : (k, o) ∈ kps) (hb : payload k tag = some body)
    (hd : (VM.view o).verifyMac body (authenticated k data) = .ok ()) :
    (VM.view p).verifyMac tag data = .ok () := by
  rw [C08_mac_verify_eq H, if_neg (by omega)]
  exact outcomes_of_mem honly hm hb hd

/-- C13, signatures. -/
theorem C13_signature_some_key_accepts (H : Obtained isInst (verifyWrapper VV t c) r h c kps p)
    {sig data : Bytes} (hlen : 5 < sig.length)
    (honly : ∀ q ∈ kps, ∀ b, payload q.1 sig = some b →
      (VV.view q.2).verify b (authenticated q.1 data) = .ok () ∨
      Rejects ((VV.view q.2).verify b (authenticated q.1 data)))
    {k : Key} {o : P} {body : Bytes} (hm : (k, o) ∈ kps) (hb : payload k sig = some body)
    (hd : (VV.view o).verify body (authenticated k data) = .ok ()) :
    (VV.view p).verify sig data = .ok () := by
  rw [C08_signature_verify_eq H, if_neg (by omega)]
  exact outcomes_of_mem honly hm hb hd

end

namespace MisbehavingExample
open Toy

/-- A key that raises `ValueError` before a good key, both RAW, for a class of primitives. -/
def ks (c : Cls) : Keyset :=
  { primaryKeyId := 7
    key := [key c [99] 8 OutputPrefixType.RAW, key c [6] 7 OutputPrefixType.RAW] }
def kps (c : Cls) : List (Key × Prim) :=
  [(key c [99] 8 OutputPrefixType.RAW, obj c [99]), (key c [6] 7 OutputPrefixType.RAW, obj c [6])]

/-- The same with the good key first, which meets the hypothesis of the positive halves for
inputs of the good key. -/
def good (c : Cls) : Keyset :=
  { primaryKeyId := 7
    key := [key c [4] 8 OutputPrefixType.RAW, key c [6] 7 OutputPrefixType.RAW] }
def goodKps (c : Cls) : List (Key × Prim) :=
  [(key c [4] 8 OutputPrefixType.RAW, obj c [4]), (key c [6] 7 OutputPrefixType.RAW, obj c [6])]

def daead (kps : List (Key × Prim)) : Prim :=
  .daead (WrappedDeterministicAead.wrap ((psetOf Cls.daead 7 kps).map daeadView.view))
def hybrid (kps : List (Key × Prim)) : Prim :=
  .hybridDecrypt (WrappedHybridDecrypt.wrap ((psetOf Cls.hybridDecrypt 7 kps).map
    hybridDecryptView.view))
def mac (kps : List (Key × Prim)) : Prim :=
  .mac (WrappedMac.wrap ((psetOf Cls.mac 7 kps).map macView.view))
def verifier (kps : List (Key × Prim)) : Prim :=
  .verify (WrappedPublicKeyVerify.wrap ((psetOf Cls.verify 7 kps).map verifyView.view))

theorem C13_daead_good_key_hidden :
    Obtained isInst (daeadWrapper daeadView 11 .daead) registry ⟨ks .daead⟩ .daead (kps .daead)
      (daead (kps .daead)) ∧
    (daeadView.view (obj .daead [6])).decryptDeterministically [6, 1] [] = .ok [1] ∧
    (daeadView.view (daead (kps .daead))).decryptDeterministically [6, 1] [] =
      .error .valueError :=
  ⟨⟨rfl, rfl, rfl, by
    intro q hq
    simp only [kps, List.mem_cons, List.not_mem_nil, or_false] at hq
    rcases hq with rfl | rfl <;> rfl⟩, rfl, rfl⟩

theorem C13_hybrid_good_key_hidden :
    Obtained isInst (hybridDecryptWrapper hybridDecryptView 13 .hybridDecrypt) registry
      ⟨ks .hybridDecrypt⟩ .hybridDecrypt (kps .hybridDecrypt) (hybrid (kps .hybridDecrypt)) ∧
    (hybridDecryptView.view (obj .hybridDecrypt [6])).decrypt [6, 1] [] = .ok [1] ∧
    (hybridDecryptView.view (hybrid (kps .hybridDecrypt))).decrypt [6, 1] [] =
      .error .valueError :=
  ⟨⟨rfl, rfl, rfl, by
    intro q hq
    simp only [kps, List.mem_cons, List.not_mem_nil, or_false] at hq
    rcases hq with rfl | rfl <;> rfl⟩, rfl, rfl⟩

theorem C13_mac_good_key_hidden :
    Obtained isInst (macWrapper macView 14 .mac) registry ⟨ks .mac⟩ .mac (kps .mac)
      (mac (kps .mac)) ∧
    (macView.view (obj .mac [6])).verifyMac [6, 1, 2, 3, 4, 5] [1, 2, 3, 4, 5] = .ok () ∧
    (macView.view (mac (kps .mac))).verifyMac [6, 1, 2, 3, 4, 5] [1, 2, 3, 4, 5] =
      .error .valueError :=
  ⟨⟨rfl, rfl, rfl, by
    intro q hq
    simp only [kps, List.mem_cons, List.not_mem_nil, or_false] at hq
    rcases hq with rfl | rfl <;> rfl⟩, rfl, rfl⟩

theorem C13_signature_good_key_hidden :
    Obtained isInst (verifyWrapper verifyView 16 .verify) registry ⟨ks .verify⟩ .verify
      (kps .verify) (verifier (kps .verify)) ∧
    (verifyView.view (obj .verify [6])).verify [6, 1, 2, 3, 4, 5] [1, 2, 3, 4, 5] = .ok () ∧
    (verifyView.view (verifier (kps .verify))).verify [6, 1, 2, 3, 4, 5] [1, 2, 3, 4, 5] =
      .error .valueError :=
  ⟨⟨rfl, rfl, rfl, by
    intro q hq
    simp only [kps, List.mem_cons, List.not_mem_nil, or_false] at hq
    rcases hq with rfl | rfl <;> rfl⟩, rfl, rfl⟩

/-- The hypotheses of the positive half, for MAC: the first key refuses, the second accepts. -/
example : (macView.view (mac (goodKps .mac))).verifyMac [6, 1, 2, 3, 4, 5] [1, 2, 3, 4, 5] =
    .ok () :=
  C13_mac_some_key_accepts (t := 14) (c := Cls.mac) (isInst := isInst) (r := registry)
    (h := ⟨good .mac⟩) (kps := goodKps .mac) (k := key .mac [6] 7 OutputPrefixType.RAW)
    (o := obj .mac [6]) (body := [6, 1, 2, 3, 4, 5])
    ⟨rfl, rfl, rfl, by
      intro q hq
      simp only [goodKps, List.mem_cons, List.not_mem_nil, or_false] at hq
      rcases hq with rfl | rfl <;> rfl⟩ (by simp)
    (by
      intro q hq b hb
      simp only [goodKps, List.mem_cons, List.not_mem_nil, or_false] at hq
      rcases hq with rfl | rfl
      · cases (show some [6, 1, 2, 3, 4, 5] = some b from hb)
        exact .inr ⟨.tinkError, rfl, rfl⟩
      · cases (show some [6, 1, 2, 3, 4, 5] = some b from hb)
        exact .inl rfl)
    (by simp [goodKps]) rfl rfl

end MisbehavingExample
end Tink.Props
