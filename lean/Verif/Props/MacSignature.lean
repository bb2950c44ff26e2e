import Verif.Wrap.Lemmas
import Verif.Examples.Toy

/-!
# C07-C09: MACs and signatures over keysets
-/

namespace Tink.Props
open Spec
section
variable {P C : Type} [DecidableEq C] {V V' : View P Mac} {VS : View P PublicKeySign}
  {VV : View P PublicKeyVerify} {t t' : Nat} {c c' : C}
  {isInst isInst' : P → C → Bool} {r r' : Registry P C} {h h' : KeysetHandle}
  {kps kps' : List (Key × P)} {p p' : P}

private theorem authenticated_raw {k : Key} (hr : k.outputPrefixType = OutputPrefixType.RAW)
    (data : Bytes) : authenticated k data = data := by
  unfold authenticated; rw [hr]; rfl

private theorem guard_eq {α : Type} (x : Bytes) (a b : Py α) :
    (if x.length ≤ NON_RAW_PREFIX_SIZE then .error .tinkError else a) =
    (if x.length ≤ 5 then .error .tinkError else
      if x.length > NON_RAW_PREFIX_SIZE then a else b) := by
  by_cases hx : x.length ≤ NON_RAW_PREFIX_SIZE
  · rw [if_pos hx, if_pos (show x.length ≤ 5 from hx)]
  · rw [if_neg hx, if_neg (show ¬ x.length ≤ 5 from hx), if_pos (by omega)]

/-- C08 (main equation, MAC).  Tags of at most 5 bytes are refused; for any other the first key,
in the order in which keys are tried, that does not refuse decides. -/
theorem C08_mac_verify_eq (H : Obtained isInst (macWrapper V t c) r h c kps p)
    (tag data : Bytes) :
    (V.view p).verifyMac tag data =
      if tag.length ≤ 5 then .error .tinkError else
        firstNonTink (outcomes
          (fun k o body => (V.view o).verifyMac body (authenticated k data)) kps tag) := by
  obtain ⟨hw, hk⟩ := H.prop
  simp only [macWrapper, Except.ok.injEq] at hw
  rw [← hw, V.view_inj]
  show WrappedMac.verifyMac _ tag data = _
  unfold WrappedMac.verifyMac
  rw [guard_eq tag _ (tryEntries (fun e => e.primitive.verifyMac tag data)
    ((psetOf c h.keyset.primaryKeyId kps).map V.view).rawPrimitives (.error .tinkError))]
  congr 1
  refine search_eq c h.keyset.primaryKeyId V.view kps hk
    (fun e b => if e.outputPrefixType = OutputPrefixType.LEGACY then
          e.primitive.verifyMac b (data ++ [0x00])
        else e.primitive.verifyMac b data) (fun e b => e.primitive.verifyMac b data)
    (fun k o body => (V.view o).verifyMac body (authenticated k data)) ?_ ?_ tag
  · intro q b
    simp only [entryOf, mkEntry, Entry.map, authenticated]
    split <;> simp [*]
  · intro q hr b
    simp only [authenticated_raw hr]; rfl

/-- Computation uses the primary key; LEGACY keys authenticate the data and a zero byte. -/
theorem C07_mac_compute_eq (H : Obtained isInst (macWrapper V t c) r h c kps p)
    {k : Key} {o : P} {pre : Bytes} (hk : IsPrimary h.keyset kps (k, o))
    (hpre : outputPrefix k = .ok pre) (data : Bytes) :
    (V.view p).computeMac data =
      (V.view o).computeMac (authenticated k data) >>= fun body => .ok (pre ++ body) := by
  obtain ⟨hw, _⟩ := H.prop
  simp only [macWrapper, Except.ok.injEq] at hw
  rw [← hw, V.view_inj]
  show WrappedMac.computeMac _ data = _
  unfold WrappedMac.computeMac
  rw [primary_map, primary_psetOf_some hk]
  simp only [entryOf, mkEntry, Entry.map, prefixOf_eq hpre, authenticated, bind, Except.bind]
  split <;> rfl

private theorem tag_length {k : Key} {pre body : Bytes} (hpre : outputPrefix k = .ok pre)
    (hbody : if k.outputPrefixType = OutputPrefixType.RAW then 5 < body.length else body ≠ []) :
    ¬ (pre ++ body).length ≤ 5 := by
  split at hbody
  · rename_i hr
    rw [(raw_iff_prefix_nil hpre).1 hr]; simp; omega
  · rename_i hr
    have := outputPrefix_nonraw hpre hr
    have : 0 < body.length := List.length_pos_iff.2 hbody
    rw [List.length_append]; omega

private theorem raw_or {k : Key} {body : Bytes}
    (hbody : if k.outputPrefixType = OutputPrefixType.RAW then 5 < body.length else body ≠ []) :
    k.outputPrefixType = OutputPrefixType.RAW ∨ body ≠ [] := by
  split at hbody
  · exact .inl ‹_›
  · exact .inr hbody

/-- C07.  A tag computed with a keyset verifies with any keyset that contains the key, provided
that the key's own tag is not empty (longer than 5 bytes for a RAW key) and that the
keys tried before it refuse. -/
theorem C07_mac_round_trip (H : Obtained isInst (macWrapper V t c) r h c kps p)
    (H' : Obtained isInst' (macWrapper V' t' c') r' h' c' kps' p')
    {k k' : Key} {o o' : P} (hk : IsPrimary h.keyset kps (k, o))
    {before after : List (Key × P)} (hk' : tryOrder kps' = before ++ (k', o') :: after)
    (hid : k'.keyId = k.keyId) (hpt : k'.outputPrefixType = k.outputPrefixType)
    {data body : Bytes}
    (hcomp : (V.view o).computeMac (authenticated k data) = .ok body)
    (hver : (V'.view o').verifyMac body (authenticated k data) = .ok ())
    (hbody : if k.outputPrefixType = OutputPrefixType.RAW then 5 < body.length else body ≠ [])
    {tag : Bytes} (htag : (V.view p).computeMac data = .ok tag)
    (hbefore : ∀ q ∈ before, ∀ b, payload q.1 tag = some b →
      Rejects ((V'.view q.2).verifyMac b (authenticated q.1 data))) :
    (V'.view p').verifyMac tag data = .ok () := by
  obtain ⟨pre, hpre⟩ := H.prop.2 _ hk.mem
  rw [C07_mac_compute_eq H hk hpre, hcomp] at htag
  simp only [bind, Except.bind, Except.ok.injEq] at htag
  subst htag
  have hpre' : outputPrefix k' = .ok pre := by
    rw [← hpre]; unfold outputPrefix; rw [hid, hpt]
  rw [C08_mac_verify_eq H', if_neg (tag_length hpre hbody)]
  refine firstNonTink_outcomes hk' (payload_append hpre' body (hpt ▸ raw_or hbody)) ?_ hbefore
  show (V'.view o').verifyMac body (authenticated k' data) = _
  unfold authenticated at hver ⊢
  rw [hpt]; exact hver

/-- C08, MAC: a verified tag was verified by an enabled key. -/
theorem C08_mac_authentic (H : Obtained isInst (macWrapper V t c) r h c kps p)
    {tag data : Bytes} (hv : (V.view p).verifyMac tag data = .ok ()) :
    5 < tag.length ∧ ∃ k o body, (k, o) ∈ kps ∧ payload k tag = some body ∧
      (V.view o).verifyMac body (authenticated k data) = .ok () := by
  rw [C08_mac_verify_eq H] at hv
  split at hv
  · cases hv
  · obtain ⟨q, hq, b, hb, hy⟩ := outcomes_ok hv
    exact ⟨by omega, q.1, q.2, b, hq, hb, hy⟩

/-- C08, MAC: short tags are always refused. -/
theorem C08_mac_short_rejected (H : Obtained isInst (macWrapper V t c) r h c kps p)
    {tag : Bytes} (hlen : tag.length ≤ 5) (data : Bytes) :
    (V.view p).verifyMac tag data = .error .tinkError := by
  rw [C08_mac_verify_eq H, if_pos hlen]

/-- C08, MAC: refusal of longer tags. -/
theorem C08_mac_rejects_iff (H : Obtained isInst (macWrapper V t c) r h c kps p)
    {tag : Bytes} (hlen : 5 < tag.length) (data : Bytes) :
    (V.view p).verifyMac tag data = .error .tinkError ↔
      ∀ q ∈ kps, ∀ body, payload q.1 tag = some body →
        Rejects ((V.view q.2).verifyMac body (authenticated q.1 data)) := by
  rw [C08_mac_verify_eq H, if_neg (by omega), outcomes_tink_iff]

/-- C08 (main equation, signatures). -/
theorem C08_signature_verify_eq (H : Obtained isInst (verifyWrapper VV t c) r h c kps p)
    (sig data : Bytes) :
    (VV.view p).verify sig data =
      if sig.length ≤ 5 then .error .tinkError else
        firstNonTink (outcomes
          (fun k o body => (VV.view o).verify body (authenticated k data)) kps sig) := by
  obtain ⟨hw, hk⟩ := H.prop
  simp only [verifyWrapper, Except.ok.injEq] at hw
  rw [← hw, VV.view_inj]
  show WrappedPublicKeyVerify.verify _ sig data = _
  unfold WrappedPublicKeyVerify.verify
  rw [guard_eq sig _ (tryEntries (fun e => e.primitive.verify sig data)
    ((psetOf c h.keyset.primaryKeyId kps).map VV.view).rawPrimitives (.error .tinkError))]
  congr 1
  refine search_eq c h.keyset.primaryKeyId VV.view kps hk
    (fun e b => if e.outputPrefixType = OutputPrefixType.LEGACY then
          e.primitive.verify b (data ++ [0x00])
        else e.primitive.verify b data) (fun e b => e.primitive.verify b data)
    (fun k o body => (VV.view o).verify body (authenticated k data)) ?_ ?_ sig
  · intro q b
    simp only [entryOf, mkEntry, Entry.map, authenticated]
    split <;> simp [*]
  · intro q hr b
    simp only [authenticated_raw hr]; rfl

theorem C09_sign_eq (H : Obtained isInst (signWrapper VS t c) r h c kps p)
    {k : Key} {o : P} {pre : Bytes} (hk : IsPrimary h.keyset kps (k, o))
    (hpre : outputPrefix k = .ok pre) (seed : Seed) (data : Bytes) :
    (VS.view p).sign seed data =
      (VS.view o).sign seed (authenticated k data) >>= fun body => .ok (pre ++ body) := by
  obtain ⟨hw, _⟩ := H.prop
  simp only [signWrapper, Except.ok.injEq] at hw
  rw [← hw, VS.view_inj]
  show WrappedPublicKeySign.sign _ seed data = _
  unfold WrappedPublicKeySign.sign
  rw [primary_map, primary_psetOf_some hk]
  simp only [entryOf, mkEntry, Entry.map, prefixOf_eq hpre, authenticated, bind, Except.bind]
  rfl

/-- C09.  A signature made with a private keyset verifies with any public keyset that contains
a matching key with the same id and prefix type. -/
theorem C09_signature_round_trip (H : Obtained isInst (signWrapper VS t c) r h c kps p)
    (H' : Obtained isInst' (verifyWrapper VV t' c') r' h' c' kps' p')
    {k k' : Key} {o o' : P} (hk : IsPrimary h.keyset kps (k, o))
    {before after : List (Key × P)} (hk' : tryOrder kps' = before ++ (k', o') :: after)
    (hid : k'.keyId = k.keyId) (hpt : k'.outputPrefixType = k.outputPrefixType)
    {seed : Seed} {data body : Bytes}
    (hsign : (VS.view o).sign seed (authenticated k data) = .ok body)
    (hver : (VV.view o').verify body (authenticated k data) = .ok ())
    (hbody : if k.outputPrefixType = OutputPrefixType.RAW then 5 < body.length else body ≠ [])
    {sig : Bytes} (hsig : (VS.view p).sign seed data = .ok sig)
    (hbefore : ∀ q ∈ before, ∀ b, payload q.1 sig = some b →
      Rejects ((VV.view q.2).verify b (authenticated q.1 data))) :
    (VV.view p').verify sig data = .ok () := by
  obtain ⟨pre, hpre⟩ := H.prop.2 _ hk.mem
  rw [C09_sign_eq H hk hpre, hsign] at hsig
  simp only [bind, Except.bind, Except.ok.injEq] at hsig
  subst hsig
  have hpre' : outputPrefix k' = .ok pre := by
    rw [← hpre]; unfold outputPrefix; rw [hid, hpt]
  rw [C08_signature_verify_eq H', if_neg (tag_length hpre hbody)]
  refine firstNonTink_outcomes hk' (payload_append hpre' body (hpt ▸ raw_or hbody)) ?_ hbefore
  show (VV.view o').verify body (authenticated k' data) = _
  unfold authenticated at hver ⊢
  rw [hpt]; exact hver

/-- C08, signatures: a verified signature was verified by an enabled key. -/
theorem C08_signature_authentic (H : Obtained isInst (verifyWrapper VV t c) r h c kps p)
    {sig data : Bytes} (hv : (VV.view p).verify sig data = .ok ()) :
    5 < sig.length ∧ ∃ k o body, (k, o) ∈ kps ∧ payload k sig = some body ∧
      (VV.view o).verify body (authenticated k data) = .ok () := by
  rw [C08_signature_verify_eq H] at hv
  split at hv
  · cases hv
  · obtain ⟨q, hq, b, hb, hy⟩ := outcomes_ok hv
    exact ⟨by omega, q.1, q.2, b, hq, hb, hy⟩

/-- C08, signatures: short signatures are always refused. -/
theorem C08_signature_short_rejected (H : Obtained isInst (verifyWrapper VV t c) r h c kps p)
    {sig : Bytes} (hlen : sig.length ≤ 5) (data : Bytes) :
    (VV.view p).verify sig data = .error .tinkError := by
  rw [C08_signature_verify_eq H, if_pos hlen]

/-- C08, signatures: refusal of longer signatures. -/
theorem C08_signature_rejects_iff (H : Obtained isInst (verifyWrapper VV t c) r h c kps p)
    {sig : Bytes} (hlen : 5 < sig.length) (data : Bytes) :
    (VV.view p).verify sig data = .error .tinkError ↔
      ∀ q ∈ kps, ∀ body, payload q.1 sig = some body →
        Rejects ((VV.view q.2).verify body (authenticated q.1 data)) := by
  rw [C08_signature_verify_eq H, if_neg (by omega), outcomes_tink_iff]

end

namespace MacExample
open Toy

def ks : Keyset :=
  { primaryKeyId := 7
    key := [key .mac [5] 8 OutputPrefixType.RAW, key .mac [6] 7 OutputPrefixType.LEGACY,
            key .mac [1] 9 OutputPrefixType.CRUNCHY KeyStatusType.DISABLED] }
def kps : List (Key × Prim) :=
  [(key .mac [5] 8 OutputPrefixType.RAW, obj .mac [5]),
   (key .mac [6] 7 OutputPrefixType.LEGACY, obj .mac [6])]
def prim : Prim := .mac (WrappedMac.wrap ((psetOf Cls.mac 7 kps).map macView.view))

theorem obtained : Obtained isInst (macWrapper macView 14 .mac) registry ⟨ks⟩ .mac kps prim :=
  ⟨rfl, rfl, rfl, by
    intro q hq
    simp only [kps, List.mem_cons, List.not_mem_nil, or_false] at hq
    rcases hq with rfl | rfl <;> rfl⟩

/-- All hypotheses of the round trip hold here (a LEGACY key, data `[51]`). -/
example : (macView.view prim).verifyMac [0, 0, 0, 0, 7, 6, 51, 0] [51] = .ok () :=
  C07_mac_round_trip (body := [6, 51, 0]) (before := [])
    (after := [(key .mac [5] 8 OutputPrefixType.RAW, obj .mac [5])])
    (k := key .mac [6] 7 OutputPrefixType.LEGACY) (o := obj .mac [6])
    (k' := key .mac [6] 7 OutputPrefixType.LEGACY) (o' := obj .mac [6])
    obtained obtained rfl rfl rfl rfl rfl rfl (by simp [key, OutputPrefixType.LEGACY,
      OutputPrefixType.RAW]) rfl (by simp)

/-- C07, why the length condition: a RAW key with a short tag.  The key verifies its own tag but
the keyset refuses it. -/
def ksShort : Keyset := { primaryKeyId := 8, key := [key .mac [5] 8 OutputPrefixType.RAW] }
def kpsShort : List (Key × Prim) := [(key .mac [5] 8 OutputPrefixType.RAW, obj .mac [5])]
def primShort : Prim := .mac (WrappedMac.wrap ((psetOf Cls.mac 8 kpsShort).map macView.view))

theorem C07_short_raw_tag_fails :
    Obtained isInst (macWrapper macView 14 .mac) registry ⟨ksShort⟩ .mac kpsShort primShort ∧
    (macView.view (obj .mac [5])).computeMac [51] = .ok [5, 51] ∧
    (macView.view (obj .mac [5])).verifyMac [5, 51] [51] = .ok () ∧
    (macView.view primShort).computeMac [51] = .ok [5, 51] ∧
    (macView.view primShort).verifyMac [5, 51] [51] = .error .tinkError :=
  ⟨⟨rfl, rfl, rfl, by
    intro q hq
    simp only [kpsShort, List.mem_cons, List.not_mem_nil, or_false] at hq
    subst hq; rfl⟩, rfl, rfl, rfl, rfl⟩

def priv : Keyset :=
  { primaryKeyId := 7, key := [key .sign [6] 7 OutputPrefixType.TINK] }
def pub : Keyset :=
  { primaryKeyId := 8
    key := [key .verify [5] 8 OutputPrefixType.RAW, key .verify [6] 7 OutputPrefixType.TINK] }
def privKps : List (Key × Prim) := [(key .sign [6] 7 OutputPrefixType.TINK, obj .sign [6])]
def pubKps : List (Key × Prim) :=
  [(key .verify [5] 8 OutputPrefixType.RAW, obj .verify [5]),
   (key .verify [6] 7 OutputPrefixType.TINK, obj .verify [6])]
def signer : Prim :=
  .sign (WrappedPublicKeySign.wrap ((psetOf Cls.sign 7 privKps).map signView.view))
def verifier : Prim :=
  .verify (WrappedPublicKeyVerify.wrap ((psetOf Cls.verify 8 pubKps).map verifyView.view))

theorem obtainedSigner : Obtained isInst (signWrapper signView 15 .sign) registry ⟨priv⟩ .sign
    privKps signer :=
  ⟨rfl, rfl, rfl, by
    intro q hq
    simp only [privKps, List.mem_cons, List.not_mem_nil, or_false] at hq
    subst hq; rfl⟩
theorem obtainedVerifier : Obtained isInst (verifyWrapper verifyView 16 .verify) registry ⟨pub⟩
    .verify pubKps verifier :=
  ⟨rfl, rfl, rfl, by
    intro q hq
    simp only [pubKps, List.mem_cons, List.not_mem_nil, or_false] at hq
    rcases hq with rfl | rfl <;> rfl⟩

/-- All hypotheses of the signature round trip hold here. -/
example : (verifyView.view verifier).verify [1, 0, 0, 0, 7, 6, 51] [51] = .ok () :=
  C09_signature_round_trip (seed := 0) (body := [6, 51]) (before := [])
    (after := [(key .verify [5] 8 OutputPrefixType.RAW, obj .verify [5])])
    (k := key .sign [6] 7 OutputPrefixType.TINK) (o := obj .sign [6])
    (k' := key .verify [6] 7 OutputPrefixType.TINK) (o' := obj .verify [6])
    obtainedSigner obtainedVerifier rfl rfl rfl rfl rfl rfl (by simp [key, OutputPrefixType.TINK,
      OutputPrefixType.RAW]) rfl (by simp)

end MacExample
end Tink.Props
