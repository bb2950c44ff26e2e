import Verif.Wrap.Lemmas
import Verif.Examples.Toy

/-!
# C01-C04, C13: AEAD over a keyset

`V` lists the `Aead` objects among all primitive objects; `(V.view o).decrypt` is
the `decrypt` method of the object `o`.
-/

namespace Tink.Props
open Spec
section
variable {P C : Type} [DecidableEq C] {V : View P Aead} {t : Nat} {c : C}
  {isInst : P → C → Bool} {r : Registry P C} {h : KeysetHandle} {kps : List (Key × P)} {p : P}

/-- C03 (main equation). `decrypt` returns the outcome of the first key, in the order in
which keys are tried, that does not refuse with a `TinkError`. -/
theorem C03_aead_decrypt_eq (H : Obtained isInst (aeadWrapper V t c) r h c kps p)
    (ct ad : Bytes) :
    (V.view p).decrypt ct ad =
      firstNonTink (outcomes (fun _ o body => (V.view o).decrypt body ad) kps ct) := by
  obtain ⟨hw, hk⟩ := H.prop
  simp only [aeadWrapper, Except.ok.injEq] at hw
  rw [← hw, V.view_inj]
  exact search_eq c h.keyset.primaryKeyId V.view kps hk
    (fun e b => e.primitive.decrypt b ad) (fun e b => e.primitive.decrypt b ad)
    (fun _ o body => (V.view o).decrypt body ad) (fun _ _ => rfl) (fun _ _ _ => rfl) ct

/-- Encryption uses the primary key and prepends its output prefix. -/
theorem C01_aead_encrypt_eq (H : Obtained isInst (aeadWrapper V t c) r h c kps p)
    {k : Key} {o : P} {pre : Bytes} (hk : IsPrimary h.keyset kps (k, o))
    (hpre : outputPrefix k = .ok pre) (seed : Seed) (pt ad : Bytes) :
    (V.view p).encrypt seed pt ad =
      (V.view o).encrypt seed pt ad >>= fun body => .ok (pre ++ body) := by
  obtain ⟨hw, _⟩ := H.prop
  simp only [aeadWrapper, Except.ok.injEq] at hw
  rw [← hw, V.view_inj]
  show WrappedAead.encrypt _ seed pt ad = _
  unfold WrappedAead.encrypt
  rw [primary_map, primary_psetOf_some hk]
  simp only [entryOf, mkEntry, Entry.map, prefixOf_eq hpre]
  rfl

/-- C01.  `p` comes from any keyset whose primary key is `k`; `p'` from any keyset (and
registry) in which a key `k'` with the same id and prefix type is enabled, such that
that key's primitive decrypts what the primary's produced.  If every key tried before it refuses,
decryption returns the plaintext. -/
theorem C01_aead_round_trip (H : Obtained isInst (aeadWrapper V t c) r h c kps p)
    {V' : View P Aead} {t' : Nat} {isInst' : P → C → Bool}
    {r' : Registry P C} {h' : KeysetHandle} {kps' : List (Key × P)} {p' : P} {c' : C}
    (H' : Obtained isInst' (aeadWrapper V' t' c') r' h' c' kps' p')
    {k k' : Key} {o o' : P} (hk : IsPrimary h.keyset kps (k, o))
    {before after : List (Key × P)} (hk' : tryOrder kps' = before ++ (k', o') :: after)
    (hid : k'.keyId = k.keyId) (hpt : k'.outputPrefixType = k.outputPrefixType)
    {seed : Seed} {pt ad body : Bytes}
    (henc : (V.view o).encrypt seed pt ad = .ok body)
    (hdec : (V'.view o').decrypt body ad = .ok pt)
    (hbody : k.outputPrefixType = OutputPrefixType.RAW ∨ body ≠ [])
    {ct : Bytes} (hct : (V.view p).encrypt seed pt ad = .ok ct)
    (hbefore : ∀ q ∈ before, ∀ b, payload q.1 ct = some b → Rejects ((V'.view q.2).decrypt b ad)) :
    (V'.view p').decrypt ct ad = .ok pt := by
  obtain ⟨pre, hpre⟩ := H.prop.2 _ hk.mem
  rw [C01_aead_encrypt_eq H hk hpre, henc] at hct
  simp only [bind, Except.bind, Except.ok.injEq] at hct
  subst hct
  have hpre' : outputPrefix k' = .ok pre := by
    rw [← hpre]; unfold outputPrefix; rw [hid, hpt]
  rw [C03_aead_decrypt_eq H']
  exact firstNonTink_outcomes hk' (payload_append hpre' body (hpt ▸ hbody)) hdec hbefore

/-- C01: encryption does succeed when the primary key's does. -/
theorem C01_aead_encrypt_ok (H : Obtained isInst (aeadWrapper V t c) r h c kps p)
    {k : Key} {o : P} (hk : IsPrimary h.keyset kps (k, o)) {seed : Seed} {pt ad body : Bytes}
    (henc : (V.view o).encrypt seed pt ad = .ok body) :
    ∃ pre, outputPrefix k = .ok pre ∧ (V.view p).encrypt seed pt ad = .ok (pre ++ body) := by
  obtain ⟨pre, hpre⟩ := H.prop.2 _ hk.mem
  refine ⟨pre, hpre, ?_⟩
  rw [C01_aead_encrypt_eq H hk hpre, henc]; rfl

/-- C02.  A returned plaintext was returned by an enabled key of the keyset, for the part of
the ciphertext that concerns this key, under the same associated data. -/
theorem C02_aead_authentic (H : Obtained isInst (aeadWrapper V t c) r h c kps p)
    {ct ad pt : Bytes} (hd : (V.view p).decrypt ct ad = .ok pt) :
    ∃ k o body, (k, o) ∈ kps ∧ payload k ct = some body ∧
      (V.view o).decrypt body ad = .ok pt := by
  rw [C03_aead_decrypt_eq H] at hd
  obtain ⟨q, hq, b, hb, hy⟩ := outcomes_ok hd
  exact ⟨q.1, q.2, b, hq, hb, hy⟩

/-- C02, in the words of the property: either a key's 5-byte prefix starts the ciphertext and
the key decrypted the rest, or a RAW key decrypted all of it. -/
theorem C02_aead_authentic' (H : Obtained isInst (aeadWrapper V t c) r h c kps p)
    {ct ad pt : Bytes} (hd : (V.view p).decrypt ct ad = .ok pt) :
    ∃ k o, (k, o) ∈ kps ∧
      ((∃ pre body, outputPrefix k = .ok pre ∧ pre.length = 5 ∧ ct = pre ++ body ∧ body ≠ [] ∧
          (V.view o).decrypt body ad = .ok pt) ∨
       (k.outputPrefixType = OutputPrefixType.RAW ∧ (V.view o).decrypt ct ad = .ok pt)) := by
  obtain ⟨k, o, body, hm, hb, hdec⟩ := C02_aead_authentic H hd
  refine ⟨k, o, hm, ?_⟩
  rcases payload_cases hb with ⟨hr, rfl⟩ | ⟨_, pre, hpre, hl, hx, hne⟩
  · exact .inr ⟨hr, hdec⟩
  · exact .inl ⟨pre, body, hpre, hl, hx, hne, hdec⟩

/-- C03.  `decrypt` fails with a `TinkError` exactly when every key that the ciphertext
concerns refuses with a `TinkError`. -/
theorem C03_aead_rejects_iff (H : Obtained isInst (aeadWrapper V t c) r h c kps p)
    (ct ad : Bytes) :
    (V.view p).decrypt ct ad = .error .tinkError ↔
      ∀ q ∈ kps, ∀ body, payload q.1 ct = some body → Rejects ((V.view q.2).decrypt body ad) := by
  rw [C03_aead_decrypt_eq H, outcomes_tink_iff]

/-- C03.  The only refusal is `TinkError` itself: whatever else is raised was raised by a key. -/
theorem C03_aead_other_errors (H : Obtained isInst (aeadWrapper V t c) r h c kps p)
    {ct ad : Bytes} {e : Exc} (hd : (V.view p).decrypt ct ad = .error e) :
    e = .tinkError ∨ (e.isTink = false ∧ ∃ q ∈ kps, ∃ body, payload q.1 ct = some body ∧
      (V.view q.2).decrypt body ad = .error e) := by
  rw [C03_aead_decrypt_eq H] at hd
  exact outcomes_error hd

/-- C04.  Ciphertexts of at most 5 bytes concern RAW keys only. -/
theorem C04_short_never_prefixed {k : Key} {ct : Bytes} (hlen : ct.length ≤ 5)
    (hr : k.outputPrefixType ≠ OutputPrefixType.RAW) : payload k ct = none := by
  cases hid : outputPrefix k with
  | error e => unfold payload; rw [hid]
  | ok id => rw [payload_nonraw hid hr, if_neg (by omega)]

/-- C04.  Hence without RAW keys they are refused, whatever the keys would do. -/
theorem C04_short_rejected (H : Obtained isInst (aeadWrapper V t c) r h c kps p)
    {ct : Bytes} (hlen : ct.length ≤ 5) (ad : Bytes)
    (hr : ∀ q ∈ kps, q.1.outputPrefixType ≠ OutputPrefixType.RAW) :
    (V.view p).decrypt ct ad = .error .tinkError := by
  rw [C03_aead_rejects_iff H]
  intro q hq b hb
  rw [C04_short_never_prefixed hlen (hr q hq)] at hb
  cases hb

/-- C13 (positive half).  If the keys that the ciphertext concerns fail only with `TinkError`
and those that succeed agree on the plaintext, then one success suffices. -/
theorem C13_aead_some_key_accepts (H : Obtained isInst (aeadWrapper V t c) r h c kps p)
    {ct ad pt : Bytes}
    (honly : ∀ q ∈ kps, ∀ b, payload q.1 ct = some b →
      (V.view q.2).decrypt b ad = .ok pt ∨ Rejects ((V.view q.2).decrypt b ad))
    {k : Key} {o : P} {body : Bytes} (hm : (k, o) ∈ kps) (hb : payload k ct = some body)
    (hd : (V.view o).decrypt body ad = .ok pt) :
    (V.view p).decrypt ct ad = .ok pt := by
  rw [C03_aead_decrypt_eq H]
  exact outcomes_of_mem honly hm hb hd

/-- C13 (positive half), without agreement: decryption succeeds. -/
theorem C13_aead_some_key_accepts' (H : Obtained isInst (aeadWrapper V t c) r h c kps p)
    {ct ad : Bytes}
    (honly : ∀ q ∈ kps, ∀ b, payload q.1 ct = some b →
      (∃ pt, (V.view q.2).decrypt b ad = .ok pt) ∨ Rejects ((V.view q.2).decrypt b ad))
    {k : Key} {o : P} {body pt : Bytes} (hm : (k, o) ∈ kps) (hb : payload k ct = some body)
    (hd : (V.view o).decrypt body ad = .ok pt) :
    ∃ pt', (V.view p).decrypt ct ad = .ok pt' := by
  cases hx : (V.view p).decrypt ct ad with
  | ok pt' => exact ⟨pt', rfl⟩
  | error e =>
    rcases C03_aead_other_errors H hx with rfl | ⟨he, q, hq, b, hb', hy⟩
    · have := (C03_aead_rejects_iff H ct ad).1 hx _ hm _ hb
      rw [hd] at this
      obtain ⟨_, h, _⟩ := this
      cases h
    · rcases honly q hq b hb' with ⟨pt', h⟩ | ⟨e', h, h'⟩
      · rw [hy] at h; cases h
      · rw [hy] at h; cases h; rw [h'] at he; cases he

end

/-! ## The hypotheses can be met; concrete violations -/

namespace AeadExample
open Toy

/-- Three enabled keys and a disabled one; the primary is the TINK key 7. -/
def ks : Keyset :=
  { primaryKeyId := 7
    key := [key .aead [5] 8 OutputPrefixType.RAW, key .aead [6] 7 OutputPrefixType.TINK,
            key .aead [1] 9 OutputPrefixType.CRUNCHY KeyStatusType.DISABLED,
            key .aead [7] 7 OutputPrefixType.LEGACY KeyStatusType.DISABLED] }

/-- The same keys after rotation to key 8. -/
def ks' : Keyset :=
  { ks with primaryKeyId := 8, key := key .aead [4] 10 OutputPrefixType.TINK :: ks.key }

def kps : List (Key × Prim) :=
  [(key .aead [5] 8 OutputPrefixType.RAW, obj .aead [5]),
   (key .aead [6] 7 OutputPrefixType.TINK, obj .aead [6])]

def kps' : List (Key × Prim) :=
  (key .aead [4] 10 OutputPrefixType.TINK, obj .aead [4]) :: kps

def prim (ks : Keyset) (kps : List (Key × Prim)) : Prim :=
  .aead (WrappedAead.wrap ((psetOf Cls.aead ks.primaryKeyId kps).map aeadView.view))

theorem obtained : Obtained isInst (aeadWrapper aeadView 10 .aead) registry ⟨ks⟩ .aead kps
    (prim ks kps) :=
  ⟨rfl, rfl, rfl, by
    intro q hq
    simp only [kps, List.mem_cons, List.not_mem_nil, or_false] at hq
    rcases hq with rfl | rfl <;> rfl⟩

theorem obtained' : Obtained isInst (aeadWrapper aeadView 10 .aead) registry ⟨ks'⟩ .aead kps'
    (prim ks' kps') :=
  ⟨rfl, rfl, rfl, by
    intro q hq
    simp only [kps', kps, List.mem_cons, List.not_mem_nil, or_false] at hq
    rcases hq with rfl | rfl | rfl <;> rfl⟩

/-- All hypotheses of `C01_aead_round_trip` hold here: the ciphertext made before the rotation
is read afterwards. -/
example : (aeadView.view (prim ks' kps')).decrypt [1, 0, 0, 0, 7, 6, 50, 51] [50] = .ok [51] :=
  C01_aead_round_trip (seed := 0) (body := [6, 50, 51])
    (before := [(key .aead [4] 10 OutputPrefixType.TINK, obj .aead [4])])
    (after := [(key .aead [5] 8 OutputPrefixType.RAW, obj .aead [5])])
    (k := key .aead [6] 7 OutputPrefixType.TINK) (o := obj .aead [6])
    (k' := key .aead [6] 7 OutputPrefixType.TINK) (o' := obj .aead [6])
    obtained obtained' rfl rfl rfl rfl rfl rfl (.inr (by simp)) rfl (by
      intro q hq b hb
      simp only [List.mem_cons, List.not_mem_nil, or_false] at hq
      subst hq
      cases (show (none : Option Bytes) = some b from hb))

/-- `C02`, `C03`: a ciphertext that no key accepts is refused. -/
example : (aeadView.view (prim ks kps)).decrypt [1, 0, 0, 0, 7, 9] [] = .error .tinkError := by rfl

/-- C04, violation: a key whose own ciphertext is empty (here: the toy key with empty value, and
empty plaintext and associated data) inverts itself, yet the keyset cannot decrypt. -/
def ks04 : Keyset := { primaryKeyId := 7, key := [key .aead [] 7 OutputPrefixType.TINK] }
def kps04 : List (Key × Prim) := [(key .aead [] 7 OutputPrefixType.TINK, obj .aead [])]

theorem C04_round_trip_fails_when_empty :
    ∃ (ks : Keyset) (kps : List (Key × Prim)) (p o : Prim) (k : Key),
      Obtained isInst (aeadWrapper aeadView 10 .aead) registry ⟨ks⟩ .aead kps p ∧
      kps = [(k, o)] ∧ IsPrimary ks kps (k, o) ∧
      (aeadView.view o).encrypt 0 [] [] = .ok [] ∧ (aeadView.view o).decrypt [] [] = .ok [] ∧
      (aeadView.view p).encrypt 0 [] [] = .ok [1, 0, 0, 0, 7] ∧
      (aeadView.view p).decrypt [1, 0, 0, 0, 7] [] = .error .tinkError :=
  ⟨ks04, kps04, prim ks04 kps04, obj .aead [], key .aead [] 7 OutputPrefixType.TINK,
    ⟨rfl, rfl, rfl, by
      intro q hq
      simp only [kps04, List.mem_cons, List.not_mem_nil, or_false] at hq
      subst hq; rfl⟩, rfl, rfl, rfl, rfl, rfl, rfl⟩

/-- C13, violation: the first key raises `ValueError`; the second one would accept. -/
def ks13 : Keyset :=
  { primaryKeyId := 7
    key := [key .aead [99] 8 OutputPrefixType.RAW, key .aead [6] 7 OutputPrefixType.RAW] }
def kps13 : List (Key × Prim) :=
  [(key .aead [99] 8 OutputPrefixType.RAW, obj .aead [99]),
   (key .aead [6] 7 OutputPrefixType.RAW, obj .aead [6])]

theorem C13_good_key_hidden :
    ∃ (ks : Keyset) (kps : List (Key × Prim)) (p o : Prim) (k : Key),
      Obtained isInst (aeadWrapper aeadView 10 .aead) registry ⟨ks⟩ .aead kps p ∧
      (k, o) ∈ kps ∧ payload k [6, 1] = some [6, 1] ∧
      (aeadView.view o).decrypt [6, 1] [] = .ok [1] ∧
      (aeadView.view p).decrypt [6, 1] [] = .error .valueError :=
  ⟨ks13, kps13, prim ks13 kps13, obj .aead [6], key .aead [6] 7 OutputPrefixType.RAW,
    ⟨rfl, rfl, rfl, by
      intro q hq
      simp only [kps13, List.mem_cons, List.not_mem_nil, or_false] at hq
      rcases hq with rfl | rfl <;> rfl⟩, by simp [kps13], rfl, rfl, rfl⟩

end AeadExample
end Tink.Props
