import Verif.Keyset.WireLemmas

/-!
# Bounds on the size of serialized messages
-/

namespace Tink

theorem length_encodeVarint (k : Nat) : ∀ n, n < 128 ^ (k + 1) → (encodeVarint n).length ≤ k + 1 := by
  induction k with
  | zero =>
    intro n h
    rw [encodeVarint, if_pos (by simpa using h)]; simp
  | succ k ih =>
    intro n h
    rw [encodeVarint]
    split
    · simp
    · have : n / 128 < 128 ^ (k + 1) := by
        rw [Nat.div_lt_iff_lt_mul (by decide)]
        rwa [Nat.pow_succ] at h
      simp only [List.length_cons]
      have := ih _ this
      omega

theorem length_varint {n : Nat} (h : n < 18446744073709551616) : (encodeVarint n).length ≤ 10 :=
  length_encodeVarint 9 n (by omega)

theorem length_encodeFields_append (a b : List Field) :
    (encodeFields (a ++ b)).length = (encodeFields a).length + (encodeFields b).length := by
  simp [encodeFields]

theorem length_lenField {num : Nat} {b : Bytes} (hn : num < 536870912) (hb : b.length < 4294967296) :
    (encodeFields [⟨num, .len b⟩]).length ≤ 20 + b.length := by
  simp only [encodeFields, List.flatMap_cons, List.flatMap_nil, List.append_nil, Field.encode,
    WireVal.encode, WireVal.wireType, List.length_append]
  have h1 := length_varint (n := num * 8 + 2) (by omega)
  have h2 := length_varint (n := b.length) (by omega)
  omega

theorem length_varintField {num n : Nat} (hn : num < 536870912) (h : n < 18446744073709551616) :
    (encodeFields [⟨num, .varint n⟩]).length ≤ 20 := by
  simp only [encodeFields, List.flatMap_cons, List.flatMap_nil, List.append_nil, Field.encode,
    WireVal.encode, WireVal.wireType, List.length_append]
  have h1 := length_varint (n := num * 8 + 0) (by omega)
  have h2 := length_varint h
  omega

theorem length_utf8EncodeCp (c : Nat) : (utf8EncodeCp c).length ≤ 4 := by
  unfold utf8EncodeCp
  split
  · simp
  · split
    · simp
    · split <;> simp

theorem length_pstrEncode (s : PStr) : (pstrEncode s).length ≤ 4 * s.length := by
  induction s with
  | nil => simp [pstrEncode]
  | cons c s ih =>
    have := length_utf8EncodeCp c.toNat
    simp only [pstrEncode, List.flatMap_cons, List.length_append, List.length_cons] at ih ⊢
    omega

theorem length_strField {num : Nat} {s : PStr} (hn : num < 536870912) (hs : s.length < 1073741824) :
    (encodeFields (strField num s)).length ≤ 20 + 4 * s.length := by
  have h := length_pstrEncode s
  unfold strField
  split
  · simp [encodeFields]
  · have := length_lenField (num := num) (b := pstrEncode s) hn (by omega)
    omega

theorem length_bytesField {num : Nat} {b : Bytes} (hn : num < 536870912) (hb : b.length < 4294967296) :
    (encodeFields (bytesField num b)).length ≤ 20 + b.length := by
  unfold bytesField
  split
  · simp [encodeFields]
  · exact length_lenField hn hb

theorem length_uint32Field {num : Nat} {n : UInt32} (hn : num < 536870912) :
    (encodeFields (uint32Field num n)).length ≤ 20 := by
  unfold uint32Field
  split
  · simp [encodeFields]
  · have := n.toNat_lt
    exact length_varintField hn (by omega)

theorem length_enumField {num : Nat} {e : EnumVal} (hn : num < 536870912) :
    (encodeFields (enumField num e)).length ≤ 20 := by
  unfold enumField
  split
  · simp [encodeFields]
  · exact length_varintField hn (enumToVarint_lt e)

theorem length_msgField {num : Nat} {o : Option (List Field)} {m : Nat} (hn : num < 536870912)
    (hm : m < 4294967296) (h : ∀ fs, o = some fs → (encodeFields fs).length ≤ m) :
    (encodeFields (msgField num o)).length ≤ 20 + m := by
  cases o with
  | none => simp [msgField, encodeFields]
  | some fs =>
    have := h fs rfl
    have := length_lenField (num := num) (b := encodeFields fs) hn (by omega)
    simp only [msgField]
    omega

theorem serializeFields_of_length {fs : List Field} (h : (encodeFields fs).length < 2147483648) :
    serializeFields fs = .ok (encodeFields fs) := if_pos h

theorem length_keyFields {k : Key} {u v : Nat} (hu : k.data.typeUrl.length ≤ u)
    (hv : k.data.value.length ≤ v) (h : 4 * u + v + 1000 < 4294967296) :
    (encodeFields k.fields).length ≤ 4 * u + v + 140 := by
  unfold Key.fields
  rw [length_encodeFields_append, length_encodeFields_append, length_encodeFields_append]
  have h1 := length_enumField (num := 2) (e := k.status) (by decide)
  have h2 := length_uint32Field (num := 3) (n := k.keyId) (by decide)
  have h3 := length_enumField (num := 4) (e := k.outputPrefixType) (by decide)
  have h4 := length_msgField (num := 1) (o := k.keyData.map KeyData.fields) (m := 4 * u + v + 60) (by decide)
    (by omega) (by
      intro fs hfs
      cases hk : k.keyData with
      | none => rw [hk] at hfs; cases hfs
      | some d =>
        rw [hk] at hfs; cases hfs
        simp only [Key.data, hk, Option.getD_some] at hu hv
        unfold KeyData.fields
        rw [length_encodeFields_append, length_encodeFields_append]
        have h1 := length_strField (num := 1) (s := d.typeUrl) (by decide) (by omega)
        have h2 := length_bytesField (num := 2) (b := d.value) (by decide) (by omega)
        have h3 := length_enumField (num := 3) (e := d.keyMaterialType) (by decide)
        omega)
  omega

theorem length_keysetFields {ks : Keyset} {m : Nat} (hm : m < 4294967296)
    (h : ∀ k ∈ ks.key, (encodeFields k.fields).length ≤ m) :
    (encodeFields ks.fields).length ≤ 20 + ks.key.length * (m + 20) := by
  unfold Keyset.fields
  rw [length_encodeFields_append]
  have h1 := length_uint32Field (num := 1) (n := ks.primaryKeyId) (by decide)
  have h2 : ∀ l : List Key, (∀ k ∈ l, (encodeFields k.fields).length ≤ m) →
      (encodeFields (l.map fun k => ⟨2, .len (encodeFields k.fields)⟩)).length ≤ l.length * (m + 20) := by
    intro l
    induction l with
    | nil => intro _; simp [encodeFields]
    | cons k l ih =>
      intro hl
      have hk := hl k List.mem_cons_self
      have := ih fun k hk => hl k (List.mem_cons_of_mem _ hk)
      rw [List.map_cons, ← List.singleton_append, length_encodeFields_append, List.length_cons,
        Nat.add_mul]
      have := length_lenField (num := 2) (b := encodeFields k.fields) (by decide) (by omega)
      omega
  have := h2 ks.key h
  omega

end Tink
