import Verif.Keyset.FormatLemmas
import Verif.Json.HookAgree

/-!
# The JSON reader reads every document that describes a keyset
-/

namespace Tink
open Spec Spec.KeysetFormat JsonFormat

variable {F : Type}

/-! ## Values of fields -/

theorem read_number (E : JsonFormatEnv F) {v : UInt32} {x : JVal F} (h : IsNumber E.intOfStr v x) :
    convertScalar (convertUint32 E) 0 x = .ok v := by
  rcases h with rfl | ⟨s, rfl, hs, hi⟩ | ⟨rfl, rfl⟩
  · exact scalarUint32 E v
  · have hc : s.contains 32 = false := by simpa using hs
    rw [convertScalar_some (by simp)]
    simp only [convertUint32, convertInteger, hc, pyInt, hi]
    exact uint32OfNumber_toNat v
  · rfl

theorem read_text {s : PStr} {x : JVal F} (h : IsText s x) : convertScalar convertString [] x = .ok s := by
  rcases h with rfl | ⟨rfl, rfl⟩
  · exact scalarString s
  · rfl

theorem read_enum (E : JsonFormatEnv F) {names : List (PyStr × Nat)} {names' : List (PyStr × EnumVal)}
    (hn : SameNames names names') (hd : Distinct names') {v : UInt32} {x : JVal F}
    (h : IsEnum names v x) : convertScalar (convertEnum E names') 0 x = .ok v := by
  rcases h with ⟨name, hm, rfl⟩ | rfl | ⟨rfl, rfl⟩
  · subst hn
    obtain ⟨p, hp, he⟩ := List.mem_map.1 hm
    simp only [Prod.mk.injEq] at he
    show convertEnum E names' (.str name) = _
    have := hd p hp
    rw [he.1] at this
    simp only [convertEnum, this]
    rw [UInt32.toNat_inj.1 he.2]
  · exact enumOfNumber_enumNumber v
  · rfl

/-- An alphabet that `urlsafe_b64decode` reads. -/
def Readable (A : PyStr) : Prop := ∀ v < 64, A[v]! < 128 ∧ stdChar (UInt8.ofNat A[v]!) = b64Char v

theorem readable_standard : Readable standard := by unfold Readable; decide +kernel
theorem readable_urlSafe : Readable urlSafe := by unfold Readable; decide +kernel

theorem base64_readable {A : PyStr} (hA : Readable A) (b : Bytes) :
    (∀ c ∈ base64 A b, c < 128) ∧
      (base64 A b).map (fun c => stdChar (UInt8.ofNat c)) ++
        List.replicate ((4 - (base64 A b).length % 4) % 4) 61 = b64encode b ∧
      (base64 A b).length % 4 ≠ 1 := by
  fun_induction b64encode b with
  | case1 => exact ⟨by simp [base64], by simp [base64], by simp [base64]⟩
  | case2 a =>
    have ha := a.toNat_lt
    have h1 := hA (a.toNat / 4) (by omega)
    have h2 := hA (a.toNat % 4 * 16) (by omega)
    refine ⟨?_, ?_, by simp [base64]⟩
    · simp only [base64, List.mem_cons, List.not_mem_nil, or_false]
      rintro c (rfl | rfl)
      · exact h1.1
      · exact h2.1
    · simp only [base64, List.map_cons, List.map_nil, h1.2, h2.2]
      rfl
  | case3 a b =>
    have ha := a.toNat_lt
    have hb := b.toNat_lt
    have h1 := hA (a.toNat / 4) (by omega)
    have h2 := hA (a.toNat % 4 * 16 + b.toNat / 16) (by omega)
    have h3 := hA (b.toNat % 16 * 4) (by omega)
    refine ⟨?_, ?_, by simp [base64]⟩
    · simp only [base64, List.mem_cons, List.not_mem_nil, or_false]
      rintro c (rfl | rfl | rfl)
      · exact h1.1
      · exact h2.1
      · exact h3.1
    · simp only [base64, List.map_cons, List.map_nil, h1.2, h2.2, h3.2]
      rfl
  | case4 a b c r ih =>
    have ha := a.toNat_lt
    have hb := b.toNat_lt
    have hc := c.toNat_lt
    have h1 := hA (a.toNat / 4) (by omega)
    have h2 := hA (a.toNat % 4 * 16 + b.toNat / 16) (by omega)
    have h3 := hA (b.toNat % 16 * 4 + c.toNat / 64) (by omega)
    have h4 := hA (c.toNat % 64) (by omega)
    have hl : (base64 A (a :: b :: c :: r)).length % 4 = (base64 A r).length % 4 := by
      simp only [base64, List.length_cons]; omega
    refine ⟨?_, ?_, by rw [hl]; exact ih.2.2⟩
    · simp only [base64, List.mem_cons]
      rintro x (rfl | rfl | rfl | rfl | hx)
      · exact h1.1
      · exact h2.1
      · exact h3.1
      · exact h4.1
      · exact ih.1 x hx
    · rw [hl]
      simp only [base64, List.map_cons, List.cons_append, h1.2, h2.2, h3.2, h4.2, ih.2.1]

theorem utf8Encode_ascii' {s : PyStr} (h : ∀ c ∈ s, c < 128) :
    utf8Encode s = .ok (s.map UInt8.ofNat) := by
  have := utf8Encode_ascii (s.map UInt8.ofNat) (by
    intro c hc
    obtain ⟨x, hx, rfl⟩ := List.mem_map.1 hc
    have := h x hx
    rw [UInt8.toNat_ofNat']
    omega)
  rw [← this, List.map_map]
  congr 1
  rw [List.map_congr_left (g := id)]
  · simp
  · intro x hx
    have := h x hx
    simp only [Function.comp, UInt8.toNat_ofNat', id]
    omega

theorem padding_length {A : PyStr} (_hA : Readable A) (b : Bytes) :
    padding b.length = List.replicate ((4 - (base64 A b).length % 4) % 4) 61 := by
  fun_induction b64encode b with
  | case1 => simp [base64, padding]
  | case2 a => simp [base64, padding]
  | case3 a b => simp [base64, padding]
  | case4 a b c r ih =>
    have hl : (base64 A (a :: b :: c :: r)).length % 4 = (base64 A r).length % 4 := by
      simp only [base64, List.length_cons]; omega
    have : (a :: b :: c :: r).length % 3 = r.length % 3 := by simp only [List.length_cons]; omega
    rw [hl, ← ih]
    simp only [padding, this]

theorem convertBytes_base64 {A pad : PyStr} (hA : Readable A) {b : Bytes}
    (hp : pad = padding b.length ∨ pad = []) :
    convertBytes (.str (base64 A b ++ pad) : JVal F) = .ok b := by
  obtain ⟨h1, h2, h3⟩ := base64_readable hA b
  -- the text is ASCII
  have hpad : ∃ k, pad = List.replicate k 61 ∧ (k = (4 - (base64 A b).length % 4) % 4 ∨ k = 0) := by
    rcases hp with rfl | rfl
    · exact ⟨_, padding_length hA b, .inl rfl⟩
    · exact ⟨0, rfl, .inr rfl⟩
  obtain ⟨k, rfl, hk⟩ := hpad
  have ha : ∀ c ∈ base64 A b ++ List.replicate k 61, c < 128 := by
    intro c hc
    rcases List.mem_append.1 hc with h | h
    · exact h1 c h
    · rw [List.eq_of_mem_replicate h]; omega
  simp only [convertBytes, utf8Encode_ascii' ha]
  show urlsafeB64decode _ = _
  unfold urlsafeB64decode
  -- with the added padding, it is the encoding with some more padding
  have key : ∃ j, List.map stdChar (List.map UInt8.ofNat (base64 A b ++ List.replicate k 61) ++
      List.replicate (4 - (List.map UInt8.ofNat (base64 A b ++ List.replicate k 61)).length % 4) 61) =
      b64encode b ++ List.replicate j 61 := by
    rw [← h2]
    have e : List.map stdChar (List.map UInt8.ofNat (base64 A b ++ List.replicate k 61) ++
        List.replicate (4 - (List.map UInt8.ofNat (base64 A b ++ List.replicate k 61)).length % 4) 61) =
        (base64 A b).map (fun c => stdChar (UInt8.ofNat c)) ++
          List.replicate (k + (4 - ((base64 A b).length + k) % 4)) 61 := by
      simp only [List.map_append, List.map_map, List.map_replicate, List.append_assoc,
        List.length_append, List.length_map, List.length_replicate]
      congr 1
      rw [← List.replicate_append_replicate]
      rfl
    rw [e]
    generalize (base64 A b).length = n at hk h3 ⊢
    refine ⟨k + (4 - (n + k) % 4) - (4 - n % 4) % 4, ?_⟩
    rw [List.append_assoc, List.replicate_append_replicate]
    congr 2
    rcases hk with rfl | rfl <;> omega
  obtain ⟨j, hj⟩ := key
  rw [hj]
  exact b64decode_encode_pads b j

theorem read_bytes {b : Bytes} {x : JVal F} (h : IsBytes b x) :
    convertScalar convertBytes [] x = .ok b := by
  rcases h with ⟨A, pad, hA, hp, rfl⟩ | ⟨rfl, rfl⟩
  · rw [convertScalar_some (by simp)]
    refine convertBytes_base64 ?_ hp
    rcases hA with rfl | rfl
    · exact readable_standard
    · exact readable_urlSafe
  · rfl

/-! ## Messages -/

/-- Is there a member of one of the names. -/
def hasMember (f : FieldId) (d : List (PyStr × JVal F)) : Bool := d.any fun p => named f.json f.name p.1

/-- The member of a list of fields. -/
def MemberOf (fs : List (JsonField F)) (p : PyStr × JVal F) : Prop :=
  ∃ f ∈ fs, (p.1 = f.id.json ∨ p.1 = f.id.name) ∧ f.value p.2

theorem convertPairs_cons {M : Type} {f : M → PyStr → JVal F → Py M} {m m' : M} {k : PyStr} {v : JVal F}
    {r : List (PyStr × JVal F)} (h : f m k v = .ok m') :
    convertPairs f m ((k, v) :: r) = convertPairs f m' r := by
  rw [convertPairs, h]; rfl

theorem hasMember_cons (f : FieldId) (k : PyStr) (v : JVal F) (r : List (PyStr × JVal F)) :
    hasMember f ((k, v) :: r) = (named f.json f.name k || hasMember f r) := rfl

/-- A field is left as it is, or set to the value described. -/
theorem omitted_or {α : Type} {fs : List (JsonField F)} {d : List (PyStr × JVal F)} (h : Describes fs d)
    {f : JsonField F} (hf : f ∈ fs) {a b : α} (ho : f.omitted → b = a) :
    (if hasMember f.id d then a else b) = a := by
  cases hh : hasMember f.id d with
  | true => rfl
  | false =>
    rcases h.2.2 f hf with h | ⟨p, hp, hn⟩
    · simp [ho h]
    · exfalso
      have : hasMember f.id d = true := by
        unfold hasMember
        rw [List.any_eq_true]
        refine ⟨p, hp, ?_⟩
        unfold named
        simp only [Bool.or_eq_true, beq_iff_eq]
        exact hn
      rw [hh] at this
      cases this

theorem pairs_keyData (E : JsonFormatEnv F) (t : KeyData) (d : List (PyStr × JVal F)) :
    ∀ m : KeyData, (∀ p ∈ d, MemberOf (keyDataMessage (anyJson E.intOfStr) t) p) →
    convertPairs (keyDataField E) m d = .ok {
      typeUrl := if hasMember ⟨1, py! "type_url", py! "typeUrl"⟩ d then t.typeUrl else m.typeUrl
      value := if hasMember ⟨2, py! "value", py! "value"⟩ d then t.value else m.value
      keyMaterialType := if hasMember ⟨3, py! "key_material_type", py! "keyMaterialType"⟩ d
        then t.keyMaterialType else m.keyMaterialType } := by
  induction d with
  | nil => intro m _; rfl
  | cons p d ih =>
    intro m h
    obtain ⟨k, v⟩ := p
    have ih' := fun m => ih m fun p hp => h p (List.mem_cons_of_mem _ hp)
    obtain ⟨f, hf, hn, hv⟩ := h (k, v) (List.mem_cons_self ..)
    simp only [keyDataMessage, anyJson, List.cons_append, List.nil_append, List.mem_cons,
      List.not_mem_nil, or_false] at hf
    rcases hf with rfl | rfl | rfl
    · have hk : named (py! "typeUrl") (py! "type_url") k = true := by
        rcases hn with rfl | rfl <;> rfl
      have hs : keyDataField E m k v = .ok { m with typeUrl := t.typeUrl } := by
        unfold keyDataField
        rw [if_pos hk, read_text hv]
        rfl
      rw [convertPairs_cons hs, ih']
      rcases hn with rfl | rfl <;> simp [hasMember_cons, named]
    · have hs : keyDataField E m k v = .ok { m with value := t.value } := by
        unfold keyDataField
        rw [ite_neg (by rcases hn with rfl | rfl <;> rfl),
          if_pos (by rcases hn with rfl | rfl <;> rfl), read_bytes hv]
        rfl
      rw [convertPairs_cons hs, ih']
      rcases hn with rfl | rfl <;> simp [hasMember_cons, named]
    · have hs : keyDataField E m k v = .ok { m with keyMaterialType := t.keyMaterialType } := by
        unfold keyDataField
        rw [ite_neg (by rcases hn with rfl | rfl <;> rfl),
          ite_neg (by rcases hn with rfl | rfl <;> rfl),
          if_pos (by rcases hn with rfl | rfl <;> rfl),
          read_enum E sameNames_material distinct_material hv]
        rfl
      rw [convertPairs_cons hs, ih']
      rcases hn with rfl | rfl <;> simp [hasMember_cons, named]

theorem describes_keyData (E : JsonFormatEnv F) {t : KeyData} {d : List (PyStr × JVal F)}
    (h : Describes (keyDataMessage (anyJson E.intOfStr) t) d) {m : KeyData} (hm : m = {} ∨ m = t) :
    convertMessage (keyDataField E) m (.dict d) = .ok t := by
  show convertPairs _ _ _ = _
  rw [pairs_keyData E t d m h.2.1]
  rcases hm with rfl | rfl
  · have e : ∀ x y : KeyData, x.typeUrl = y.typeUrl → x.value = y.value → x.keyMaterialType = y.keyMaterialType → x = y := by
      intro x y h0 h1 h2
      cases x; cases y; simp_all
    congr 1
    apply e
    · exact omitted_or h (.head _) Eq.symm
    · exact omitted_or h (.tail _ (.head _)) Eq.symm
    · exact omitted_or h (.tail _ (.tail _ (.head _))) Eq.symm
  · simp

theorem omitNone {α β : Type} {f : α → β} {o : Option α} (h : o.map f = none) : none = o := by
  cases o with
  | none => rfl
  | some a => cases h

theorem omitNil {α β : Type} {f : α → β} {l : List α} (h : l.map f = []) : [] = l := by
  cases l with
  | nil => rfl
  | cons a l => cases h

/-- A message field. -/
theorem read_optional {M : Type} {f : M → PyStr → JVal F → Py M}
    {g : M → List (JsonField F)} {empty : M} {o old : Option M} {x : JVal F}
    (hd : ∀ {t : M} {d : List (PyStr × JVal F)}, Describes (g t) d → ∀ {m : M}, (m = empty ∨ m = t) →
      convertMessage f m (.dict d) = .ok t)
    (ho : old = none ∨ old = o) (hv : IsOptional (o.map g) x) :
    convertSub f empty old x = .ok o := by
  cases o with
  | none => cases (show x = .null from hv); rfl
  | some t =>
    obtain ⟨d, rfl, hdesc⟩ := hv
    show (convertMessage f (old.getD empty) (.dict d) >>= fun m => pure (some m)) = _
    rw [hd hdesc (by rcases ho with rfl | rfl <;> simp)]
    rfl

/-- A repeated field. -/
theorem read_repeated {M : Type} {f : M → PyStr → JVal F → Py M} {g : M → List (JsonField F)}
    {empty : M} {ts : List M} {x : JVal F}
    (hd : ∀ (t : M) (d : List (PyStr × JVal F)), Describes (g t) d →
      convertMessage f empty (.dict d) = .ok t)
    (hv : IsRepeated (ts.map g) x) : convertRepeated f empty x = .ok ts := by
  rcases hv with ⟨l, rfl, hp⟩ | ⟨rfl, hn⟩
  · show convertItems f empty l = _
    induction ts generalizing l with
    | nil =>
      cases l with
      | nil => rfl
      | cons _ _ => cases hp
    | cons t ts ih =>
      cases l with
      | nil => cases hp
      | cons y l =>
        obtain ⟨⟨d, rfl, hdesc⟩, hr⟩ := hp
        simp only [convertItems, hd t d hdesc, ih l hr]
  · rw [← omitNil hn]; rfl

theorem pairs_key (E : JsonFormatEnv F) (t : Key) (d : List (PyStr × JVal F)) :
    ∀ m : Key, (m.keyData = none ∨ m.keyData = t.keyData) → (∀ p ∈ d, MemberOf (keyMessage (anyJson E.intOfStr) t) p) →
    convertPairs (keyField E) m d = .ok {
      keyData := if hasMember ⟨1, py! "key_data", py! "keyData"⟩ d then t.keyData else m.keyData
      status := if hasMember ⟨2, py! "status", py! "status"⟩ d then t.status else m.status
      keyId := if hasMember ⟨3, py! "key_id", py! "keyId"⟩ d then t.keyId else m.keyId
      outputPrefixType := if hasMember ⟨4, py! "output_prefix_type", py! "outputPrefixType"⟩ d then t.outputPrefixType else m.outputPrefixType } := by
  induction d with
  | nil => intro m _ _; rfl
  | cons p d ih =>
    intro m hm h
    obtain ⟨k, v⟩ := p
    have ih' := fun m hm => ih m hm fun p hp => h p (List.mem_cons_of_mem _ hp)
    obtain ⟨f, hf, hn, hv⟩ := h (k, v) (List.mem_cons_self ..)
    simp only [keyMessage, anyJson, List.cons_append, List.nil_append, List.mem_cons,
      List.not_mem_nil, or_false] at hf
    rcases hf with rfl | rfl | rfl | rfl
    · have hs : keyField E m k v = .ok { m with keyData := t.keyData } := by
        unfold keyField
        rw [if_pos (by rcases hn with rfl | rfl <;> rfl), read_optional (describes_keyData E) hm hv]
        rfl
      rw [convertPairs_cons hs, ih' _ (by first | exact hm | exact .inr rfl)]
      rcases hn with rfl | rfl <;> simp [hasMember_cons, named]
    · have hs : keyField E m k v = .ok { m with status := t.status } := by
        unfold keyField
        rw [ite_neg (by rcases hn with rfl | rfl <;> rfl),
          if_pos (by rcases hn with rfl | rfl <;> rfl), read_enum E sameNames_status distinct_status hv]
        rfl
      rw [convertPairs_cons hs, ih' _ (by first | exact hm | exact .inr rfl)]
      rcases hn with rfl | rfl <;> simp [hasMember_cons, named]
    · have hs : keyField E m k v = .ok { m with keyId := t.keyId } := by
        unfold keyField
        rw [ite_neg (by rcases hn with rfl | rfl <;> rfl),
          ite_neg (by rcases hn with rfl | rfl <;> rfl),
          if_pos (by rcases hn with rfl | rfl <;> rfl), read_number E hv]
        rfl
      rw [convertPairs_cons hs, ih' _ (by first | exact hm | exact .inr rfl)]
      rcases hn with rfl | rfl <;> simp [hasMember_cons, named]
    · have hs : keyField E m k v = .ok { m with outputPrefixType := t.outputPrefixType } := by
        unfold keyField
        rw [ite_neg (by rcases hn with rfl | rfl <;> rfl),
          ite_neg (by rcases hn with rfl | rfl <;> rfl),
          ite_neg (by rcases hn with rfl | rfl <;> rfl),
          if_pos (by rcases hn with rfl | rfl <;> rfl), read_enum E sameNames_prefix distinct_prefix hv]
        rfl
      rw [convertPairs_cons hs, ih' _ (by first | exact hm | exact .inr rfl)]
      rcases hn with rfl | rfl <;> simp [hasMember_cons, named]

theorem describes_key (E : JsonFormatEnv F) {t : Key} {d : List (PyStr × JVal F)}
    (h : Describes (keyMessage (anyJson E.intOfStr) t) d) {m : Key} (hm : m = {} ∨ m = t) :
    convertMessage (keyField E) m (.dict d) = .ok t := by
  show convertPairs _ _ _ = _
  rw [pairs_key E t d m (by rcases hm with rfl | rfl <;> simp) h.2.1]
  rcases hm with rfl | rfl
  · have e : ∀ x y : Key, x.keyData = y.keyData → x.status = y.status → x.keyId = y.keyId → x.outputPrefixType = y.outputPrefixType → x = y := by
      intro x y h0 h1 h2 h3
      cases x; cases y; simp_all
    congr 1
    apply e
    · exact omitted_or h (.head _) omitNone
    · exact omitted_or h (.tail _ (.head _)) Eq.symm
    · exact omitted_or h (.tail _ (.tail _ (.head _))) Eq.symm
    · exact omitted_or h (.tail _ (.tail _ (.tail _ (.head _)))) Eq.symm
  · simp

theorem pairs_keyset (E : JsonFormatEnv F) (t : Keyset) (d : List (PyStr × JVal F)) :
    ∀ m : Keyset, (∀ p ∈ d, MemberOf (keysetMessage (anyJson E.intOfStr) t) p) →
    convertPairs (keysetField E) m d = .ok {
      primaryKeyId := if hasMember ⟨1, py! "primary_key_id", py! "primaryKeyId"⟩ d then t.primaryKeyId else m.primaryKeyId
      key := if hasMember ⟨2, py! "key", py! "key"⟩ d then t.key else m.key } := by
  induction d with
  | nil => intro m _; rfl
  | cons p d ih =>
    intro m h
    obtain ⟨k, v⟩ := p
    have ih' := fun m => ih m fun p hp => h p (List.mem_cons_of_mem _ hp)
    obtain ⟨f, hf, hn, hv⟩ := h (k, v) (List.mem_cons_self ..)
    simp only [keysetMessage, anyJson, List.cons_append, List.nil_append, List.mem_cons,
      List.not_mem_nil, or_false] at hf
    rcases hf with rfl | rfl
    · have hs : keysetField E m k v = .ok { m with primaryKeyId := t.primaryKeyId } := by
        unfold keysetField
        rw [if_pos (by rcases hn with rfl | rfl <;> rfl), read_number E hv]
        rfl
      rw [convertPairs_cons hs, ih']
      rcases hn with rfl | rfl <;> simp [hasMember_cons, named]
    · have hs : keysetField E m k v = .ok { m with key := t.key } := by
        unfold keysetField
        rw [ite_neg (by rcases hn with rfl | rfl <;> rfl),
          if_pos (by rcases hn with rfl | rfl <;> rfl), read_repeated (fun _ _ h => describes_key E h (.inl rfl)) hv]
        rfl
      rw [convertPairs_cons hs, ih']
      rcases hn with rfl | rfl <;> simp [hasMember_cons, named]

theorem describes_keyset (E : JsonFormatEnv F) {t : Keyset} {d : List (PyStr × JVal F)}
    (h : Describes (keysetMessage (anyJson E.intOfStr) t) d) {m : Keyset} (hm : m = {} ∨ m = t) :
    convertMessage (keysetField E) m (.dict d) = .ok t := by
  show convertPairs _ _ _ = _
  rw [pairs_keyset E t d m h.2.1]
  rcases hm with rfl | rfl
  · have e : ∀ x y : Keyset, x.primaryKeyId = y.primaryKeyId → x.key = y.key → x = y := by
      intro x y h0 h1
      cases x; cases y; simp_all
    congr 1
    apply e
    · exact omitted_or h (.head _) Eq.symm
    · exact omitted_or h (.tail _ (.head _)) omitNil
  · simp

theorem pairs_keyInfo (E : JsonFormatEnv F) (t : KeyInfo) (d : List (PyStr × JVal F)) :
    ∀ m : KeyInfo, (∀ p ∈ d, MemberOf (keyInfoMessage (anyJson E.intOfStr) t) p) →
    convertPairs (keyInfoField E) m d = .ok {
      typeUrl := if hasMember ⟨1, py! "type_url", py! "typeUrl"⟩ d then t.typeUrl else m.typeUrl
      status := if hasMember ⟨2, py! "status", py! "status"⟩ d then t.status else m.status
      keyId := if hasMember ⟨3, py! "key_id", py! "keyId"⟩ d then t.keyId else m.keyId
      outputPrefixType := if hasMember ⟨4, py! "output_prefix_type", py! "outputPrefixType"⟩ d then t.outputPrefixType else m.outputPrefixType } := by
  induction d with
  | nil => intro m _; rfl
  | cons p d ih =>
    intro m h
    obtain ⟨k, v⟩ := p
    have ih' := fun m => ih m fun p hp => h p (List.mem_cons_of_mem _ hp)
    obtain ⟨f, hf, hn, hv⟩ := h (k, v) (List.mem_cons_self ..)
    simp only [keyInfoMessage, anyJson, List.cons_append, List.nil_append, List.mem_cons,
      List.not_mem_nil, or_false] at hf
    rcases hf with rfl | rfl | rfl | rfl
    · have hs : keyInfoField E m k v = .ok { m with typeUrl := t.typeUrl } := by
        unfold keyInfoField
        rw [if_pos (by rcases hn with rfl | rfl <;> rfl), read_text hv]
        rfl
      rw [convertPairs_cons hs, ih']
      rcases hn with rfl | rfl <;> simp [hasMember_cons, named]
    · have hs : keyInfoField E m k v = .ok { m with status := t.status } := by
        unfold keyInfoField
        rw [ite_neg (by rcases hn with rfl | rfl <;> rfl),
          if_pos (by rcases hn with rfl | rfl <;> rfl), read_enum E sameNames_status distinct_status hv]
        rfl
      rw [convertPairs_cons hs, ih']
      rcases hn with rfl | rfl <;> simp [hasMember_cons, named]
    · have hs : keyInfoField E m k v = .ok { m with keyId := t.keyId } := by
        unfold keyInfoField
        rw [ite_neg (by rcases hn with rfl | rfl <;> rfl),
          ite_neg (by rcases hn with rfl | rfl <;> rfl),
          if_pos (by rcases hn with rfl | rfl <;> rfl), read_number E hv]
        rfl
      rw [convertPairs_cons hs, ih']
      rcases hn with rfl | rfl <;> simp [hasMember_cons, named]
    · have hs : keyInfoField E m k v = .ok { m with outputPrefixType := t.outputPrefixType } := by
        unfold keyInfoField
        rw [ite_neg (by rcases hn with rfl | rfl <;> rfl),
          ite_neg (by rcases hn with rfl | rfl <;> rfl),
          ite_neg (by rcases hn with rfl | rfl <;> rfl),
          if_pos (by rcases hn with rfl | rfl <;> rfl), read_enum E sameNames_prefix distinct_prefix hv]
        rfl
      rw [convertPairs_cons hs, ih']
      rcases hn with rfl | rfl <;> simp [hasMember_cons, named]

theorem describes_keyInfo (E : JsonFormatEnv F) {t : KeyInfo} {d : List (PyStr × JVal F)}
    (h : Describes (keyInfoMessage (anyJson E.intOfStr) t) d) {m : KeyInfo} (hm : m = {} ∨ m = t) :
    convertMessage (keyInfoField E) m (.dict d) = .ok t := by
  show convertPairs _ _ _ = _
  rw [pairs_keyInfo E t d m h.2.1]
  rcases hm with rfl | rfl
  · have e : ∀ x y : KeyInfo, x.typeUrl = y.typeUrl → x.status = y.status → x.keyId = y.keyId → x.outputPrefixType = y.outputPrefixType → x = y := by
      intro x y h0 h1 h2 h3
      cases x; cases y; simp_all
    congr 1
    apply e
    · exact omitted_or h (.head _) Eq.symm
    · exact omitted_or h (.tail _ (.head _)) Eq.symm
    · exact omitted_or h (.tail _ (.tail _ (.head _))) Eq.symm
    · exact omitted_or h (.tail _ (.tail _ (.tail _ (.head _)))) Eq.symm
  · simp

theorem pairs_keysetInfo (E : JsonFormatEnv F) (t : KeysetInfo) (d : List (PyStr × JVal F)) :
    ∀ m : KeysetInfo, (∀ p ∈ d, MemberOf (keysetInfoMessage (anyJson E.intOfStr) t) p) →
    convertPairs (keysetInfoField E) m d = .ok {
      primaryKeyId := if hasMember ⟨1, py! "primary_key_id", py! "primaryKeyId"⟩ d then t.primaryKeyId else m.primaryKeyId
      keyInfo := if hasMember ⟨2, py! "key_info", py! "keyInfo"⟩ d then t.keyInfo else m.keyInfo } := by
  induction d with
  | nil => intro m _; rfl
  | cons p d ih =>
    intro m h
    obtain ⟨k, v⟩ := p
    have ih' := fun m => ih m fun p hp => h p (List.mem_cons_of_mem _ hp)
    obtain ⟨f, hf, hn, hv⟩ := h (k, v) (List.mem_cons_self ..)
    simp only [keysetInfoMessage, anyJson, List.cons_append, List.nil_append, List.mem_cons,
      List.not_mem_nil, or_false] at hf
    rcases hf with rfl | rfl
    · have hs : keysetInfoField E m k v = .ok { m with primaryKeyId := t.primaryKeyId } := by
        unfold keysetInfoField
        rw [if_pos (by rcases hn with rfl | rfl <;> rfl), read_number E hv]
        rfl
      rw [convertPairs_cons hs, ih']
      rcases hn with rfl | rfl <;> simp [hasMember_cons, named]
    · have hs : keysetInfoField E m k v = .ok { m with keyInfo := t.keyInfo } := by
        unfold keysetInfoField
        rw [ite_neg (by rcases hn with rfl | rfl <;> rfl),
          if_pos (by rcases hn with rfl | rfl <;> rfl), read_repeated (fun _ _ h => describes_keyInfo E h (.inl rfl)) hv]
        rfl
      rw [convertPairs_cons hs, ih']
      rcases hn with rfl | rfl <;> simp [hasMember_cons, named]

theorem describes_keysetInfo (E : JsonFormatEnv F) {t : KeysetInfo} {d : List (PyStr × JVal F)}
    (h : Describes (keysetInfoMessage (anyJson E.intOfStr) t) d) {m : KeysetInfo} (hm : m = {} ∨ m = t) :
    convertMessage (keysetInfoField E) m (.dict d) = .ok t := by
  show convertPairs _ _ _ = _
  rw [pairs_keysetInfo E t d m h.2.1]
  rcases hm with rfl | rfl
  · have e : ∀ x y : KeysetInfo, x.primaryKeyId = y.primaryKeyId → x.keyInfo = y.keyInfo → x = y := by
      intro x y h0 h1
      cases x; cases y; simp_all
    congr 1
    apply e
    · exact omitted_or h (.head _) Eq.symm
    · exact omitted_or h (.tail _ (.head _)) omitNil
  · simp

theorem pairs_encryptedKeyset (E : JsonFormatEnv F) (t : EncryptedKeyset) (d : List (PyStr × JVal F)) :
    ∀ m : EncryptedKeyset, (m.keysetInfo = none ∨ m.keysetInfo = t.keysetInfo) → (∀ p ∈ d, MemberOf (encryptedKeysetMessage (anyJson E.intOfStr) t) p) →
    convertPairs (encryptedKeysetField E) m d = .ok {
      encryptedKeyset := if hasMember ⟨2, py! "encrypted_keyset", py! "encryptedKeyset"⟩ d then t.encryptedKeyset else m.encryptedKeyset
      keysetInfo := if hasMember ⟨3, py! "keyset_info", py! "keysetInfo"⟩ d then t.keysetInfo else m.keysetInfo } := by
  induction d with
  | nil => intro m _ _; rfl
  | cons p d ih =>
    intro m hm h
    obtain ⟨k, v⟩ := p
    have ih' := fun m hm => ih m hm fun p hp => h p (List.mem_cons_of_mem _ hp)
    obtain ⟨f, hf, hn, hv⟩ := h (k, v) (List.mem_cons_self ..)
    simp only [encryptedKeysetMessage, anyJson, List.cons_append, List.nil_append, List.mem_cons,
      List.not_mem_nil, or_false] at hf
    rcases hf with rfl | rfl
    · have hs : encryptedKeysetField E m k v = .ok { m with encryptedKeyset := t.encryptedKeyset } := by
        unfold encryptedKeysetField
        rw [if_pos (by rcases hn with rfl | rfl <;> rfl), read_bytes hv]
        rfl
      rw [convertPairs_cons hs, ih' _ (by first | exact hm | exact .inr rfl)]
      rcases hn with rfl | rfl <;> simp [hasMember_cons, named]
    · have hs : encryptedKeysetField E m k v = .ok { m with keysetInfo := t.keysetInfo } := by
        unfold encryptedKeysetField
        rw [ite_neg (by rcases hn with rfl | rfl <;> rfl),
          if_pos (by rcases hn with rfl | rfl <;> rfl), read_optional (describes_keysetInfo E) hm hv]
        rfl
      rw [convertPairs_cons hs, ih' _ (by first | exact hm | exact .inr rfl)]
      rcases hn with rfl | rfl <;> simp [hasMember_cons, named]

theorem describes_encryptedKeyset (E : JsonFormatEnv F) {t : EncryptedKeyset} {d : List (PyStr × JVal F)}
    (h : Describes (encryptedKeysetMessage (anyJson E.intOfStr) t) d) {m : EncryptedKeyset} (hm : m = {} ∨ m = t) :
    convertMessage (encryptedKeysetField E) m (.dict d) = .ok t := by
  show convertPairs _ _ _ = _
  rw [pairs_encryptedKeyset E t d m (by rcases hm with rfl | rfl <;> simp) h.2.1]
  rcases hm with rfl | rfl
  · have e : ∀ x y : EncryptedKeyset, x.encryptedKeyset = y.encryptedKeyset → x.keysetInfo = y.keysetInfo → x = y := by
      intro x y h0 h1
      cases x; cases y; simp_all
    congr 1
    apply e
    · exact omitted_or h (.head _) Eq.symm
    · exact omitted_or h (.tail _ (.head _)) omitNone
  · simp

/-! ## No member is repeated -/

/-- No object in the value repeats a member. -/
def NoRepeat (v : JVal F) : Prop := ∀ d, Within (.dict d) v → (d.map Prod.fst).Nodup

theorem noRepeat_int {n : Int} : NoRepeat (.int n : JVal F) := by intro d h; cases h
theorem noRepeat_str {s : PyStr} : NoRepeat (.str s : JVal F) := by intro d h; cases h
theorem noRepeat_null : NoRepeat (.null : JVal F) := by intro d h; cases h

theorem noRepeat_number {g : PyStr → Option Int} {v : UInt32} {x : JVal F} (h : IsNumber g v x) :
    NoRepeat x := by
  rcases h with rfl | ⟨_, rfl, _⟩ | ⟨rfl, _⟩
  · exact noRepeat_int
  · exact noRepeat_str
  · exact noRepeat_null

theorem noRepeat_text {s : PStr} {x : JVal F} (h : IsText s x) : NoRepeat x := by
  rcases h with rfl | ⟨rfl, _⟩
  · exact noRepeat_str
  · exact noRepeat_null

theorem noRepeat_bytes {b : Bytes} {x : JVal F} (h : IsBytes b x) : NoRepeat x := by
  rcases h with ⟨_, _, _, _, rfl⟩ | ⟨rfl, _⟩
  · exact noRepeat_str
  · exact noRepeat_null

theorem noRepeat_enum {names : List (PyStr × Nat)} {v : UInt32} {x : JVal F} (h : IsEnum names v x) :
    NoRepeat x := by
  rcases h with ⟨_, _, rfl⟩ | rfl | ⟨rfl, _⟩
  · exact noRepeat_str
  · exact noRepeat_int
  · exact noRepeat_null

/-- All values that may stand for the fields of a message are without repetition. -/
def NoRepeats (fs : List (JsonField F)) : Prop := ∀ f ∈ fs, ∀ x, f.value x → NoRepeat x

theorem noRepeat_message {fs : List (JsonField F)} (hf : NoRepeats fs) {x : JVal F}
    (h : IsMessage fs x) : NoRepeat x := by
  obtain ⟨d, rfl, hd⟩ := h
  intro d' hw
  cases hw with
  | here => exact hd.1
  | @value k y _ hm hw =>
    obtain ⟨f, hff, _, hv⟩ := hd.2.1 (k, y) hm
    exact hf f hff y hv d' hw

theorem noRepeat_optional {M : Type} {g : M → List (JsonField F)} (hg : ∀ t, NoRepeats (g t))
    {o : Option M} {x : JVal F} (h : IsOptional (o.map g) x) : NoRepeat x := by
  cases o with
  | none => cases (show x = .null from h); exact noRepeat_null
  | some t => exact noRepeat_message (hg t) h

theorem noRepeat_repeated {M : Type} {g : M → List (JsonField F)} (hg : ∀ t, NoRepeats (g t))
    {ts : List M} {x : JVal F} (h : IsRepeated (ts.map g) x) : NoRepeat x := by
  rcases h with ⟨l, rfl, hp⟩ | ⟨rfl, _⟩
  · intro d hw
    cases hw with
    | @item y _ hy hw =>
      suffices h : ∀ y ∈ l, NoRepeat y from h y hy d hw
      clear hy hw
      induction ts generalizing l with
      | nil => cases l with
        | nil => simp
        | cons _ _ => cases hp
      | cons t ts ih => cases l with
        | nil => cases hp
        | cons z l =>
          intro y hy
          rcases List.mem_cons.1 hy with rfl | hy
          · exact noRepeat_message (hg t) hp.1
          · exact ih l hp.2 y hy
  · exact noRepeat_null

theorem noRepeats_keyData (g : PyStr → Option Int) (t : KeyData) :
    NoRepeats (keyDataMessage (anyJson (F := F) g) t) := by
  intro f hf x hx
  simp only [keyDataMessage, anyJson, List.cons_append, List.nil_append, List.mem_cons,
    List.not_mem_nil, or_false] at hf
  rcases hf with rfl | rfl | rfl
  · exact noRepeat_text hx
  · exact noRepeat_bytes hx
  · exact noRepeat_enum hx

theorem noRepeats_key (g : PyStr → Option Int) (t : Key) :
    NoRepeats (keyMessage (anyJson (F := F) g) t) := by
  intro f hf x hx
  simp only [keyMessage, anyJson, List.cons_append, List.nil_append, List.mem_cons,
    List.not_mem_nil, or_false] at hf
  rcases hf with rfl | rfl | rfl | rfl
  · exact noRepeat_optional (noRepeats_keyData g) hx
  · exact noRepeat_enum hx
  · exact noRepeat_number hx
  · exact noRepeat_enum hx

theorem noRepeats_keyset (g : PyStr → Option Int) (t : Keyset) :
    NoRepeats (keysetMessage (anyJson (F := F) g) t) := by
  intro f hf x hx
  simp only [keysetMessage, anyJson, List.cons_append, List.nil_append, List.mem_cons,
    List.not_mem_nil, or_false] at hf
  rcases hf with rfl | rfl
  · exact noRepeat_number hx
  · exact noRepeat_repeated (noRepeats_key g) hx

theorem noRepeats_keyInfo (g : PyStr → Option Int) (t : KeyInfo) :
    NoRepeats (keyInfoMessage (anyJson (F := F) g) t) := by
  intro f hf x hx
  simp only [keyInfoMessage, anyJson, List.cons_append, List.nil_append, List.mem_cons,
    List.not_mem_nil, or_false] at hf
  rcases hf with rfl | rfl | rfl | rfl
  · exact noRepeat_text hx
  · exact noRepeat_enum hx
  · exact noRepeat_number hx
  · exact noRepeat_enum hx

theorem noRepeats_keysetInfo (g : PyStr → Option Int) (t : KeysetInfo) :
    NoRepeats (keysetInfoMessage (anyJson (F := F) g) t) := by
  intro f hf x hx
  simp only [keysetInfoMessage, anyJson, List.cons_append, List.nil_append, List.mem_cons,
    List.not_mem_nil, or_false] at hf
  rcases hf with rfl | rfl
  · exact noRepeat_number hx
  · exact noRepeat_repeated (noRepeats_keyInfo g) hx

theorem noRepeats_encryptedKeyset (g : PyStr → Option Int) (t : EncryptedKeyset) :
    NoRepeats (encryptedKeysetMessage (anyJson (F := F) g) t) := by
  intro f hf x hx
  simp only [encryptedKeysetMessage, anyJson, List.cons_append, List.nil_append, List.mem_cons,
    List.not_mem_nil, or_false] at hf
  rcases hf with rfl | rfl
  · exact noRepeat_bytes hx
  · exact noRepeat_optional (noRepeats_keysetInfo g) hx

/-- A text that says what describes a message is read as the message. -/
theorem parse_describes (E : JsonFormatEnv F) {M : Type} {f : M → PyStr → JVal F → Py M} {empty t : M}
    {fs : List (JsonField F)} (hf : NoRepeats fs) {text : PyStr} {v : JVal F}
    (ht : parseTree E.json text = .ok v) (hv : IsMessage fs v)
    (hd : ∀ d, Describes fs d → convertMessage f empty (.dict d) = .ok t) :
    JsonFormat.parse E f empty text = .ok t := by
  have hn := noRepeat_message hf hv
  unfold JsonFormat.parse
  rw [Json.loadsHook_agree ht (hook := duplicateChecker) (fun d hw => by
    unfold duplicateChecker
    rw [if_pos (hn d hw)])]
  obtain ⟨d, rfl, hdesc⟩ := hv
  show parseDictError _ (convertMessage f empty (.dict d)) = _
  rw [hd d hdesc]
  rfl

end Tink
