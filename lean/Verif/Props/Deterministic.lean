import Verif.Wrap.Lemmas
import Verif.Examples.Toy

/-!
# C05: deterministic AEAD over a keyset
-/

namespace Tink.Props
open Spec
section
variable {P C : Type} [DecidableEq C] {V : View P DeterministicAead} {t : Nat} {c : C}
  {isInst : P → C → Bool} {r : Registry P C} {h : KeysetHandle} {kps : List (Key × P)} {p : P}

/-- C05 (main equation). -/
theorem C05_daead_decrypt_eq (H : Obtained isInst (daeadWrapper V t c) r h c kps p)
    (ct ad : Bytes) :
    (V.view p).decryptDeterministically ct ad =
      firstNonTink (outcomes (fun _ o body => (V.view o).decryptDeterministically body ad)
        kps ct) := by
  obtain ⟨hw, hk⟩ := H.prop
  simp only [daeadWrapper, Except.ok.injEq] at hw
  rw [← hw, V.view_inj]
  exact search_eq c h.keyset.primaryKeyId V.view kps hk
    (fun e b => e.primitive.decryptDeterministically b ad)
    (fun e b => e.primitive.decryptDeterministically b ad)
    (fun _ o body => (V.view o).decryptDeterministically body ad)
    (fun _ _ => rfl) (fun _ _ _ => rfl) ct

/-- C05.  The ciphertext is a function of the primary key, the plaintext and the associated
data: the key's own deterministic ciphertext after the key's prefix. -/
theorem C05_daead_encrypt_eq (H : Obtained isInst (daeadWrapper V t c) r h c kps p)
    {k : Key} {o : P} {pre : Bytes} (hk : IsPrimary h.keyset kps (k, o))
    (hpre : outputPrefix k = .ok pre) (pt ad : Bytes) :
    (V.view p).encryptDeterministically pt ad =
      (V.view o).encryptDeterministically pt ad >>= fun body => .ok (pre ++ body) := by
  obtain ⟨hw, _⟩ := H.prop
  simp only [daeadWrapper, Except.ok.injEq] at hw
  rw [← hw, V.view_inj]
  show WrappedDeterministicAead.encryptDeterministically _ pt ad = _
  unfold WrappedDeterministicAead.encryptDeterministically
  rw [primary_map, primary_psetOf_some hk]
  simp only [entryOf, mkEntry, Entry.map, prefixOf_eq hpre]
  rfl

/-- C05, determinism: two primitives obtained at any time, from any keysets with the same
primary key and key primitive, give the same ciphertext. -/
theorem C05_daead_deterministic (H : Obtained isInst (daeadWrapper V t c) r h c kps p)
    {t' : Nat} {isInst' : P → C → Bool} {c' : C}
    {r' : Registry P C} {h' : KeysetHandle} {kps' : List (Key × P)} {p' : P}
    (H' : Obtained isInst' (daeadWrapper V t' c') r' h' c' kps' p')
    {k : Key} {o : P} (hk : IsPrimary h.keyset kps (k, o)) (hk' : IsPrimary h'.keyset kps' (k, o))
    (pt ad : Bytes) :
    (V.view p).encryptDeterministically pt ad = (V.view p').encryptDeterministically pt ad := by
  obtain ⟨pre, hpre⟩ := H.prop.2 _ hk.mem
  rw [C05_daead_encrypt_eq H hk hpre, C05_daead_encrypt_eq H' hk' hpre]

/-- C05, round trip, under the same conditions as for AEAD. -/
theorem C05_daead_round_trip (H : Obtained isInst (daeadWrapper V t c) r h c kps p)
    {V' : View P DeterministicAead} {t' : Nat} {isInst' : P → C → Bool}
    {r' : Registry P C} {h' : KeysetHandle} {kps' : List (Key × P)} {p' : P} {c' : C}
    (H' : Obtained isInst' (daeadWrapper V' t' c') r' h' c' kps' p')
    {k k' : Key} {o o' : P} (hk : IsPrimary h.keyset kps (k, o))
    {before after : List (Key × P)} (hk' : tryOrder kps' = before ++ (k', o') :: after)
    (hid : k'.keyId = k.keyId) (hpt : k'.outputPrefixType = k.outputPrefixType)
    {pt ad body : Bytes}
    (henc : (V.view o).encryptDeterministically pt ad = .ok body)
    (hdec : (V'.view o').decryptDeterministically body ad = .ok pt)
    (hbody : k.outputPrefixType = OutputPrefixType.RAW ∨ body ≠ [])
    {ct : Bytes} (hct : (V.view p).encryptDeterministically pt ad = .ok ct)
    (hbefore : ∀ q ∈ before, ∀ b, payload q.1 ct = some b →
      Rejects ((V'.view q.2).decryptDeterministically b ad)) :
    (V'.view p').decryptDeterministically ct ad = .ok pt := by
  obtain ⟨pre, hpre⟩ := H.prop.2 _ hk.mem
  rw [C05_daead_encrypt_eq H hk hpre, henc] at hct
  simp only [bind, Except.bind, Except.ok.injEq] at hct
  subst hct
  have hpre' : outputPrefix k' = .ok pre := by
    rw [← hpre]; unfold outputPrefix; rw [hid, hpt]
  rw [C05_daead_decrypt_eq H']
  exact firstNonTink_outcomes hk' (payload_append hpre' body (hpt ▸ hbody)) hdec hbefore

/-- C05, authenticity. -/
theorem C05_daead_authentic (H : Obtained isInst (daeadWrapper V t c) r h c kps p)
    {ct ad pt : Bytes} (hd : (V.view p).decryptDeterministically ct ad = .ok pt) :
    ∃ k o body, (k, o) ∈ kps ∧ payload k ct = some body ∧
      (V.view o).decryptDeterministically body ad = .ok pt := by
  rw [C05_daead_decrypt_eq H] at hd
  obtain ⟨q, hq, b, hb, hy⟩ := outcomes_ok hd
  exact ⟨q.1, q.2, b, hq, hb, hy⟩

/-- C05, refusal. -/
theorem C05_daead_rejects_iff (H : Obtained isInst (daeadWrapper V t c) r h c kps p)
    (ct ad : Bytes) :
    (V.view p).decryptDeterministically ct ad = .error .tinkError ↔
      ∀ q ∈ kps, ∀ body, payload q.1 ct = some body →
        Rejects ((V.view q.2).decryptDeterministically body ad) := by
  rw [C05_daead_decrypt_eq H, outcomes_tink_iff]

end

namespace DaeadExample
open Toy

def ks : Keyset :=
  { primaryKeyId := 7
    key := [key .daead [5] 8 OutputPrefixType.RAW, key .daead [6] 7 OutputPrefixType.LEGACY,
            key .daead [1] 9 OutputPrefixType.CRUNCHY KeyStatusType.DISABLED] }
def kps : List (Key × Prim) :=
  [(key .daead [5] 8 OutputPrefixType.RAW, obj .daead [5]),
   (key .daead [6] 7 OutputPrefixType.LEGACY, obj .daead [6])]
def prim : Prim :=
  .daead (WrappedDeterministicAead.wrap ((psetOf Cls.daead ks.primaryKeyId kps).map daeadView.view))

theorem obtained : Obtained isInst (daeadWrapper daeadView 11 .daead) registry ⟨ks⟩ .daead kps
    prim :=
  ⟨rfl, rfl, rfl, by
    intro q hq
    simp only [kps, List.mem_cons, List.not_mem_nil, or_false] at hq
    rcases hq with rfl | rfl <;> rfl⟩

/-- All hypotheses of the round trip hold here. -/
example : (daeadView.view prim).decryptDeterministically [0, 0, 0, 0, 7, 6, 50, 51] [50] =
    .ok [51] :=
  C05_daead_round_trip (body := [6, 50, 51]) (before := [])
    (after := [(key .daead [5] 8 OutputPrefixType.RAW, obj .daead [5])])
    (k := key .daead [6] 7 OutputPrefixType.LEGACY) (o := obj .daead [6])
    (k' := key .daead [6] 7 OutputPrefixType.LEGACY) (o' := obj .daead [6])
    obtained obtained rfl rfl rfl rfl rfl rfl (.inr (by simp)) rfl (by simp)

end DaeadExample
end Tink.Props
