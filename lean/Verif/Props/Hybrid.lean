import Verif.Wrap.Lemmas
import Verif.Examples.Toy

/-!
# C06: hybrid encryption over a pair of keysets
-/

namespace Tink.Props
open Spec
section
variable {P C : Type} [DecidableEq C] {VE : View P HybridEncrypt} {VD : View P HybridDecrypt}
  {t t' : Nat} {c c' : C}
  {isInst isInst' : P → C → Bool} {r r' : Registry P C} {h h' : KeysetHandle}
  {kps kps' : List (Key × P)} {p p' : P}

/-- C06 (main equation of decryption). -/
theorem C06_hybrid_decrypt_eq (H : Obtained isInst (hybridDecryptWrapper VD t c) r h c kps p)
    (ct info : Bytes) :
    (VD.view p).decrypt ct info =
      firstNonTink (outcomes (fun _ o body => (VD.view o).decrypt body info) kps ct) := by
  obtain ⟨hw, hk⟩ := H.prop
  simp only [hybridDecryptWrapper, Except.ok.injEq] at hw
  rw [← hw, VD.view_inj]
  exact search_eq c h.keyset.primaryKeyId VD.view kps hk
    (fun e b => e.primitive.decrypt b info) (fun e b => e.primitive.decrypt b info)
    (fun _ o body => (VD.view o).decrypt body info) (fun _ _ => rfl) (fun _ _ _ => rfl) ct

/-- Encryption uses the primary key of the public keyset. -/
theorem C06_hybrid_encrypt_eq (H : Obtained isInst (hybridEncryptWrapper VE t c) r h c kps p)
    {k : Key} {o : P} {pre : Bytes} (hk : IsPrimary h.keyset kps (k, o))
    (hpre : outputPrefix k = .ok pre) (seed : Seed) (pt info : Bytes) :
    (VE.view p).encrypt seed pt info =
      (VE.view o).encrypt seed pt info >>= fun body => .ok (pre ++ body) := by
  obtain ⟨hw, _⟩ := H.prop
  simp only [hybridEncryptWrapper, Except.ok.injEq] at hw
  rw [← hw, VE.view_inj]
  show WrappedHybridEncrypt.encrypt _ seed pt info = _
  unfold WrappedHybridEncrypt.encrypt
  rw [primary_map, primary_psetOf_some hk]
  simp only [entryOf, mkEntry, Entry.map, prefixOf_eq hpre]
  rfl

/-- C06.  A public keyset may lack a primary key; encryption then fails with `TinkError`. -/
theorem C06_hybrid_encrypt_no_primary
    (H : Obtained isInst (hybridEncryptWrapper VE t c) r h c kps p)
    (hk : ∀ q, ¬ IsPrimary h.keyset kps q) (seed : Seed) (pt info : Bytes) :
    (VE.view p).encrypt seed pt info = .error .tinkError := by
  obtain ⟨hw, _⟩ := H.prop
  simp only [hybridEncryptWrapper, Except.ok.injEq] at hw
  rw [← hw, VE.view_inj]
  show WrappedHybridEncrypt.encrypt _ seed pt info = _
  unfold WrappedHybridEncrypt.encrypt
  rw [primary_map, primary_psetOf_none hk]
  rfl

/-- C06.  `p` is the encrypter of a public keyset with primary key `k`, `p'` the decrypter of a
private keyset containing a key `k'` with the same id and prefix type whose primitive decrypts
what the public key's primitive produced. -/
theorem C06_hybrid_round_trip (H : Obtained isInst (hybridEncryptWrapper VE t c) r h c kps p)
    (H' : Obtained isInst' (hybridDecryptWrapper VD t' c') r' h' c' kps' p')
    {k k' : Key} {o o' : P} (hk : IsPrimary h.keyset kps (k, o))
    {before after : List (Key × P)} (hk' : tryOrder kps' = before ++ (k', o') :: after)
    (hid : k'.keyId = k.keyId) (hpt : k'.outputPrefixType = k.outputPrefixType)
    {seed : Seed} {pt info body : Bytes}
    (henc : (VE.view o).encrypt seed pt info = .ok body)
    (hdec : (VD.view o').decrypt body info = .ok pt)
    (hbody : k.outputPrefixType = OutputPrefixType.RAW ∨ body ≠ [])
    {ct : Bytes} (hct : (VE.view p).encrypt seed pt info = .ok ct)
    (hbefore : ∀ q ∈ before, ∀ b, payload q.1 ct = some b →
      Rejects ((VD.view q.2).decrypt b info)) :
    (VD.view p').decrypt ct info = .ok pt := by
  obtain ⟨pre, hpre⟩ := H.prop.2 _ hk.mem
  rw [C06_hybrid_encrypt_eq H hk hpre, henc] at hct
  simp only [bind, Except.bind, Except.ok.injEq] at hct
  subst hct
  have hpre' : outputPrefix k' = .ok pre := by
    rw [← hpre]; unfold outputPrefix; rw [hid, hpt]
  rw [C06_hybrid_decrypt_eq H']
  exact firstNonTink_outcomes hk' (payload_append hpre' body (hpt ▸ hbody)) hdec hbefore

/-- C06, authenticity. -/
theorem C06_hybrid_authentic (H : Obtained isInst (hybridDecryptWrapper VD t c) r h c kps p)
    {ct info pt : Bytes} (hd : (VD.view p).decrypt ct info = .ok pt) :
    ∃ k o body, (k, o) ∈ kps ∧ payload k ct = some body ∧
      (VD.view o).decrypt body info = .ok pt := by
  rw [C06_hybrid_decrypt_eq H] at hd
  obtain ⟨q, hq, b, hb, hy⟩ := outcomes_ok hd
  exact ⟨q.1, q.2, b, hq, hb, hy⟩

/-- C06, refusal. -/
theorem C06_hybrid_rejects_iff (H : Obtained isInst (hybridDecryptWrapper VD t c) r h c kps p)
    (ct info : Bytes) :
    (VD.view p).decrypt ct info = .error .tinkError ↔
      ∀ q ∈ kps, ∀ body, payload q.1 ct = some body →
        Rejects ((VD.view q.2).decrypt body info) := by
  rw [C06_hybrid_decrypt_eq H, outcomes_tink_iff]

end

namespace HybridExample
open Toy

def priv : Keyset :=
  { primaryKeyId := 8
    key := [key .hybridDecrypt [5] 8 OutputPrefixType.TINK,
            key .hybridDecrypt [6] 7 OutputPrefixType.RAW] }
def pub : Keyset :=
  { primaryKeyId := 7
    key := [key .hybridEncrypt [6] 7 OutputPrefixType.RAW] }
def privKps : List (Key × Prim) :=
  [(key .hybridDecrypt [5] 8 OutputPrefixType.TINK, obj .hybridDecrypt [5]),
   (key .hybridDecrypt [6] 7 OutputPrefixType.RAW, obj .hybridDecrypt [6])]
def pubKps : List (Key × Prim) :=
  [(key .hybridEncrypt [6] 7 OutputPrefixType.RAW, obj .hybridEncrypt [6])]
def dec : Prim := .hybridDecrypt
  (WrappedHybridDecrypt.wrap ((psetOf Cls.hybridDecrypt 8 privKps).map hybridDecryptView.view))
def enc : Prim := .hybridEncrypt
  (WrappedHybridEncrypt.wrap ((psetOf Cls.hybridEncrypt 7 pubKps).map hybridEncryptView.view))

theorem obtainedDec : Obtained isInst (hybridDecryptWrapper hybridDecryptView 13 .hybridDecrypt)
    registry ⟨priv⟩ .hybridDecrypt privKps dec :=
  ⟨rfl, rfl, rfl, by
    intro q hq
    simp only [privKps, List.mem_cons, List.not_mem_nil, or_false] at hq
    rcases hq with rfl | rfl <;> rfl⟩
theorem obtainedEnc : Obtained isInst (hybridEncryptWrapper hybridEncryptView 12 .hybridEncrypt)
    registry ⟨pub⟩ .hybridEncrypt pubKps enc :=
  ⟨rfl, rfl, rfl, by
    intro q hq
    simp only [pubKps, List.mem_cons, List.not_mem_nil, or_false] at hq
    subst hq; rfl⟩

/-- All hypotheses of the round trip hold here. -/
example : (hybridDecryptView.view dec).decrypt [6, 50, 51] [50] = .ok [51] :=
  C06_hybrid_round_trip (seed := 0) (body := [6, 50, 51])
    (before := [(key .hybridDecrypt [5] 8 OutputPrefixType.TINK, obj .hybridDecrypt [5])])
    (after := [])
    (k := key .hybridEncrypt [6] 7 OutputPrefixType.RAW) (o := obj .hybridEncrypt [6])
    (k' := key .hybridDecrypt [6] 7 OutputPrefixType.RAW) (o' := obj .hybridDecrypt [6])
    obtainedEnc obtainedDec rfl rfl rfl rfl rfl rfl (.inr (by simp)) rfl (by
      intro q hq b hb
      simp only [List.mem_cons, List.not_mem_nil, or_false] at hq
      subst hq
      cases (show (none : Option Bytes) = some b from hb))

end HybridExample
end Tink.Props
