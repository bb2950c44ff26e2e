import Verif.Props.EndToEnd
import Verif.Props.SymmetricKeys
import Verif.Spec.SymmetricKeysets

/-!
# Lemmas about keysets of symmetric keys
-/

namespace Tink.Cc
open Spec Config Props

/-- A search in which all refusals are Tink errors. -/
theorem search_iff {A α : Type} {l : List (Key × A)} {f : Key → A → Bytes → Py α} {x : Bytes}
    {does : Key → α → Prop}
    (hS : ∀ q ∈ l, ∀ a, does q.1 a ↔ ∃ b, payload q.1 x = some b ∧ f q.1 q.2 b = .ok a)
    (hT : ∀ q ∈ l, ∀ b e, f q.1 q.2 b = .error e → e.isTink = true) (a : α) :
    firstNonTink (l.filterMap fun q => (payload q.1 x).map (f q.1 q.2)) = .ok a ↔
      ∃ before k after, l.map Prod.fst = before ++ k :: after ∧ does k a ∧
        ∀ k' ∈ before, ∀ a', ¬ does k' a' := by
  induction l with
  | nil =>
    simp only [List.filterMap_nil, firstNonTink, List.map_nil, reduceCtorEq, false_iff]
    rintro ⟨before, k, after, h, -⟩
    cases before <;> cases h
  | cons q l ih =>
    have ih := ih (fun q hq => hS q (by simp [hq])) (fun q hq => hT q (by simp [hq]))
    have hq := hS q (by simp)
    have hqT := hT q (by simp)
    have skip : (∀ a', ¬ does q.1 a') →
        ((∃ before k after, l.map Prod.fst = before ++ k :: after ∧ does k a ∧
          ∀ k' ∈ before, ∀ a', ¬ does k' a') ↔
        ∃ before k after, (q :: l).map Prod.fst = before ++ k :: after ∧ does k a ∧
          ∀ k' ∈ before, ∀ a', ¬ does k' a') := by
      intro hn
      constructor
      · rintro ⟨before, k, after, h1, h2, h3⟩
        refine ⟨q.1 :: before, k, after, by simp [h1], h2, ?_⟩
        intro k' hk'
        rcases List.mem_cons.1 hk' with rfl | hk'
        · exact hn
        · exact h3 k' hk'
      · rintro ⟨before, k, after, h1, h2, h3⟩
        cases before with
        | nil =>
          simp only [List.map_cons, List.nil_append, List.cons.injEq] at h1
          rw [← h1.1] at h2
          exact absurd h2 (hn a)
        | cons b before =>
          simp only [List.map_cons, List.cons_append, List.cons.injEq] at h1
          exact ⟨before, k, after, h1.2, h2, fun k' hk' => h3 k' (by simp [hk'])⟩
    cases hp : payload q.1 x with
    | none =>
      rw [List.filterMap_cons_none (by rw [hp]; rfl), ih]
      refine skip fun a' h => ?_
      obtain ⟨b, hb, -⟩ := (hq a').1 h
      rw [hp] at hb
      cases hb
    | some b =>
      rw [List.filterMap_cons_some (by rw [hp]; rfl)]
      cases hf : f q.1 q.2 b with
      | error e =>
        rw [firstNonTink, if_pos (hqT b e hf), ih]
        refine skip fun a' h => ?_
        obtain ⟨b', hb, hb'⟩ := (hq a').1 h
        rw [hp] at hb
        cases hb
        rw [hf] at hb'
        cases hb'
      | ok a' =>
        have hd : does q.1 a' := (hq a').2 ⟨b, hp, hf⟩
        rw [firstNonTink]
        constructor
        · intro h
          cases h
          exact ⟨[], q.1, l.map Prod.fst, rfl, hd, by simp⟩
        · rintro ⟨before, k, after, h1, h2, h3⟩
          cases before with
          | nil =>
            simp only [List.map_cons, List.nil_append, List.cons.injEq] at h1
            rw [← h1.1] at h2
            obtain ⟨b', hb, hb'⟩ := (hq a).1 h2
            rw [hp] at hb
            cases hb
            rw [hf] at hb'
            exact hb'
          | cons b0 before =>
            simp only [List.map_cons, List.cons_append, List.cons.injEq] at h1
            exact absurd hd (h3 q.1 (by simp [h1.1]) a')

theorem map_tryOrder {A : Type} {ks : Keyset} {kps : List (Key × A)}
    (h : kps.map Prod.fst = ks.key.filter (fun k => Enabled k)) :
    (tryOrder kps).map Prod.fst = keysInOrder ks := by
  unfold tryOrder keysInOrder
  rw [List.map_append, ← h, List.filter_map, List.filter_map]
  rfl

theorem mem_keysInOrder {ks : Keyset} {k : Key} : k ∈ keysInOrder ks ↔ k ∈ ks.key ∧ Enabled k := by
  unfold keysInOrder
  simp only [List.mem_append, List.mem_filter, decide_eq_true_eq]
  by_cases h : k.outputPrefixType = OutputPrefixType.RAW <;> simp [h]

theorem first_of_mem {A : Type} {p : A → Prop} {l : List A} {a : A} (ha : a ∈ l) (hp : p a) :
    ∃ before b after, l = before ++ b :: after ∧ p b ∧ ∀ x ∈ before, ¬ p x := by
  induction l with
  | nil => cases ha
  | cons x l ih =>
    by_cases hx : p x
    · exact ⟨[], x, l, rfl, hx, by simp⟩
    · rcases List.mem_cons.1 ha with rfl | ha
      · exact absurd hp hx
      · obtain ⟨s, b, t, rfl, h2, h3⟩ := ih ha
        refine ⟨x :: s, b, t, rfl, h2, fun y hy => ?_⟩
        rcases List.mem_cons.1 hy with rfl | hy
        · exact hx
        · exact h3 y hy

theorem prefixKnown_iff {k : Key} : (∃ id, outputPrefix k = .ok id) ↔ PrefixKnown k := by
  unfold outputPrefix PrefixKnown
  simp only [List.mem_cons, List.not_mem_nil, or_false]
  repeat' split
  · simp_all
  · rename_i h
    rcases h with h | h <;> simp [h]
  · simp_all
  · simp_all

theorem mem_enabled {A : Type} {ks : Keyset} {kps : List (Key × A)}
    (h : kps.map Prod.fst = ks.key.filter (fun k => Enabled k)) {q : Key × A} (hq : q ∈ kps) :
    q.1 ∈ ks.key ∧ Enabled q.1 := by
  have : q.1 ∈ kps.map Prod.fst := List.mem_map.2 ⟨q, hq, rfl⟩
  rw [h, List.mem_filter, decide_eq_true_eq] at this
  exact this

/-- Two different keys of a list, in one order or the other. -/
theorem two_mem {A : Type} {l : List A} {a b : A} (ha : a ∈ l) (hb : b ∈ l) (hne : a ≠ b) :
    (∃ pre mid post, l = pre ++ a :: (mid ++ b :: post)) ∨ ∃ pre mid post, l = pre ++ b :: (mid ++ a :: post) := by
  obtain ⟨s, t, rfl⟩ := List.append_of_mem ha
  rcases List.mem_append.1 hb with hb | hb
  · obtain ⟨s1, s2, rfl⟩ := List.append_of_mem hb
    exact .inr ⟨s1, s2, t, by simp⟩
  · rcases List.mem_cons.1 hb with rfl | hb
    · exact absurd rfl hne
    · obtain ⟨t1, t2, rfl⟩ := List.append_of_mem hb
      exact .inl ⟨s, t1, t2, rfl⟩

/-- The enabled primary key of a valid keyset is the one that is used. -/
theorem isPrimary_of_key {A : Type} {ks : Keyset} {kps : List (Key × A)} (hv : Valid ks)
    (h : kps.map Prod.fst = ks.key.filter (fun k => Enabled k)) {k : Key} (hm : k ∈ ks.key)
    (hk : IsPrimaryKey ks k) : ∃ o, IsPrimary ks kps (k, o) := by
  have hmem : k ∈ kps.map Prod.fst := by
    rw [h, List.mem_filter, decide_eq_true_eq]; exact ⟨hm, hk.1⟩
  obtain ⟨q, hq, rfl⟩ := List.mem_map.1 hmem
  have hm' : q ∈ kps.filter (fun q => q.1.keyId = ks.primaryKeyId) := by
    rw [List.mem_filter, decide_eq_true_eq]; exact ⟨hq, hk.2⟩
  cases hl : (kps.filter (fun q => q.1.keyId = ks.primaryKeyId)).getLast? with
  | none => rw [List.getLast?_eq_none_iff] at hl; rw [hl] at hm'; cases hm'
  | some q' =>
    have hq' := List.mem_filter.1 (List.mem_of_getLast? hl)
    have he := mem_enabled h hq'.1
    have hp' : IsPrimaryKey ks q'.1 := ⟨he.2, by simpa using hq'.2⟩
    have : q'.1 = q.1 := by
      apply Decidable.byContradiction
      intro hne
      rcases two_mem he.1 hm hne with ⟨a, b, c, habc⟩ | ⟨a, b, c, habc⟩
      · exact hv.one_primary _ _ _ _ _ habc ⟨hp', hk⟩
      · exact hv.one_primary _ _ _ _ _ habc ⟨hk, hp'⟩
    rw [← this]
    exact ⟨q'.2, hl⟩

/-! ## A stored key is the only one -/

section
variable {url : PStr} {v : Bytes}

theorem aead_unique {k k' : AeadKey} (hk : AeadKey.StoredIn url v k) (hk' : AeadKey.StoredIn url v k') : k' = k := by
  cases hk with
  | aesGcm g1 =>
    generalize hw : ps! "type.googleapis.com/google.crypto.tink.AesGcmKey" = w at hk'
    cases hk' with
    | aesGcm g1' => rw [g1] at g1'; cases g1'; rfl
    | _ => other_type hw
  | aesGcmSiv g1 =>
    generalize hw : ps! "type.googleapis.com/google.crypto.tink.AesGcmSivKey" = w at hk'
    cases hk' with
    | aesGcmSiv g1' => rw [g1] at g1'; cases g1'; rfl
    | _ => other_type hw
  | aesEax g1 =>
    generalize hw : ps! "type.googleapis.com/google.crypto.tink.AesEaxKey" = w at hk'
    cases hk' with
    | aesEax g1' => rw [g1] at g1'; cases g1'; rfl
    | _ => other_type hw
  | xChaCha20Poly1305 g1 =>
    generalize hw : ps! "type.googleapis.com/google.crypto.tink.XChaCha20Poly1305Key" = w at hk'
    cases hk' with
    | xChaCha20Poly1305 g1' => rw [g1] at g1'; cases g1'; rfl
    | _ => other_type hw
  | aesCtrHmac g1 =>
    generalize hw : ps! "type.googleapis.com/google.crypto.tink.AesCtrHmacAeadKey" = w at hk'
    cases hk' with
    | aesCtrHmac g1' => rw [g1] at g1'; cases g1'; rfl
    | _ => other_type hw

theorem siv_unique {k k' : SivKey} (hk : SivKey.StoredIn url v k) (hk' : SivKey.StoredIn url v k') : k' = k := by
  cases hk with
  | aesSiv g1 =>
    cases hk' with
    | aesSiv g1' => rw [g1] at g1'; cases g1'; rfl

theorem mac_unique {k k' : MacKey} (hk : MacKey.StoredIn url v k) (hk' : MacKey.StoredIn url v k') : k' = k := by
  cases hk with
  | hmac g1 =>
    generalize hw : ps! "type.googleapis.com/google.crypto.tink.HmacKey" = w at hk'
    cases hk' with
    | hmac g1' => rw [g1] at g1'; cases g1'; rfl
    | _ => other_type hw
  | aesCmac g1 =>
    generalize hw : ps! "type.googleapis.com/google.crypto.tink.AesCmacKey" = w at hk'
    cases hk' with
    | aesCmac g1' => rw [g1] at g1'; cases g1'; rfl
    | _ => other_type hw

theorem prf_unique {k k' : PrfKey} (hk : PrfKey.StoredIn url v k) (hk' : PrfKey.StoredIn url v k') : k' = k := by
  cases hk with
  | hmac g1 =>
    generalize hw : ps! "type.googleapis.com/google.crypto.tink.HmacPrfKey" = w at hk'
    cases hk' with
    | hmac g1' => rw [g1] at g1'; cases g1'; rfl
    | _ => other_type hw
  | aesCmac g1 =>
    generalize hw : ps! "type.googleapis.com/google.crypto.tink.AesCmacPrfKey" = w at hk'
    cases hk' with
    | aesCmac g1' => rw [g1] at g1'; cases g1'; rfl
    | _ => other_type hw
  | hkdf g1 =>
    generalize hw : ps! "type.googleapis.com/google.crypto.tink.HkdfPrfKey" = w at hk'
    cases hk' with
    | hkdf g1' => rw [g1] at g1'; cases g1'; rfl
    | _ => other_type hw

end

section
variable {σ δ ε τ S P C : Type} [DecidableEq C] {L : Library σ δ ε τ S P C} {isInst : P → C → Bool}
  {r : Registry P C}

theorem registry_primitive {A B : Type} {V : View P A} {toPy : B → A} {cc : Cpp.KeyManager B} {b : Bool}
    {m : KeyManager P C} {kd : KeyData} {c : C} {n : Bool}
    (hg : PyDict.get? r.keyManagers kd.typeUrl = some (m, n)) (hc : m.primitiveClass = c)
    (hs : Serves V toPy cc b m) (hf : Fits kd) :
    r.primitive kd c = reported (fun x => V.inj (toPy x)) (cc.getPrimitive kd) := by
  unfold Registry.primitive Registry.keyManager Registry.keyManagerInternal
  rw [hg]
  show (if m.primitiveClass ≠ c then _ else m.primitive kd) = _
  rw [if_neg (by simp [hc]), hs.primitive kd hf]

theorem reported_inj_ok {A : Type} {B : Type} {f : B → A} {x : StatusOr B} {y : A} :
    reported f x = .ok y ↔ ∃ b, x = .ok b ∧ f b = y := by
  cases x with
  | ok b => simp [reported]
  | error e => simp [reported]

theorem fits_length {kd : KeyData} (h : Fits kd) : kd.value.length < 2 ^ 31 := by
  apply Decidable.byContradiction
  intro hn
  obtain ⟨b, hb⟩ := h
  have hne : kd.value ≠ [] := by intro e; rw [e] at hn; simp at hn
  have h1 : (⟨2, .len kd.value⟩ : Field) ∈ kd.fields := by
    unfold KeyData.fields
    simp [mem_bytesField hne]
  have h2 := len_le_encodeFields h1
  have h3 : kd.serializeToString = serializeFields kd.fields := rfl
  rw [h3, serializeFields, if_neg (by omega)] at hb
  cases hb

/-! ## Handles -/

theorem key_primitives (c : C) (l : List Key) (h : ∀ k ∈ l, ∃ o, r.primitive k.data c = .ok o) :
    ∃ kps : List (Key × P), kps.map Prod.fst = l ∧ ∀ q ∈ kps, r.primitive q.1.data c = .ok q.2 := by
  induction l with
  | nil => exact ⟨[], rfl, by simp⟩
  | cons k l ih =>
    obtain ⟨o, ho⟩ := h k (by simp)
    obtain ⟨kps, h1, h2⟩ := ih fun k hk => h k (by simp [hk])
    refine ⟨(k, o) :: kps, by simp [h1], fun q hq => ?_⟩
    rcases List.mem_cons.1 hq with rfl | hq
    · exact ho
    · exact h2 q hq

/-- When a handle gives a primitive. -/
theorem handle_primitive_iff {h : KeysetHandle} {c : C} {w : PrimitiveWrapper P C}
    (hw : PyDict.get? r.wrappers c = some w) {ok good : Key → Prop}
    (hkeys : ∀ k ∈ h.keyset.key, Enabled k →
      ((∃ o, r.primitive k.data w.inputPrimitiveClass = .ok o) ↔ ok k))
    (hinst : ∀ k ∈ h.keyset.key, Enabled k → ∀ o, r.primitive k.data w.inputPrimitiveClass = .ok o →
      isInst o w.inputPrimitiveClass = true)
    (hwrap : ∀ (kps : List (Key × P)) id, (∃ p, w.wrap (psetOf w.inputPrimitiveClass id kps) = .ok p) ↔
      ∀ q ∈ kps, good q.1) :
    (∃ p, h.primitive isInst r c = .ok p) ↔
      Valid h.keyset ∧ ∀ k ∈ h.keyset.key, Enabled k → PrefixKnown k ∧ good k ∧ ok k := by
  simp only [primitive_ok_iff, C20_validate_iff]
  constructor
  · rintro ⟨p, hv, w', kps, h1, h2, h3, h4⟩
    rw [hw] at h1
    cases h1
    refine ⟨hv, fun k hk he => ?_⟩
    have hm : k ∈ kps.map Prod.fst := by
      rw [h2.1, List.mem_filter, decide_eq_true_eq]; exact ⟨hk, he⟩
    obtain ⟨q, hq, rfl⟩ := List.mem_map.1 hm
    exact ⟨prefixKnown_iff.1 (h3 q hq).2, (hwrap kps _).1 ⟨p, h4⟩ q hq,
      (hkeys q.1 hk he).1 ⟨q.2, h2.2 q hq⟩⟩
  · rintro ⟨hv, hall⟩
    obtain ⟨kps, h1, h2⟩ := key_primitives w.inputPrimitiveClass
      (h.keyset.key.filter fun k => Enabled k) (r := r) fun k hk => by
        rw [List.mem_filter, decide_eq_true_eq] at hk
        exact (hkeys k hk.1 hk.2).2 (hall k hk.1 hk.2).2.2
    obtain ⟨p, hp⟩ := (hwrap kps h.keyset.primaryKeyId).2 fun q hq =>
      (hall q.1 (mem_enabled h1 hq).1 (mem_enabled h1 hq).2).2.1
    refine ⟨p, hv, w, kps, hw, ⟨h1, h2⟩, fun q hq => ?_, hp⟩
    have he := mem_enabled h1 hq
    exact ⟨hinst q.1 he.1 he.2 q.2 (h2 q hq), prefixKnown_iff.2 (hall q.1 he.1 he.2).1⟩

end

end Tink.Cc
