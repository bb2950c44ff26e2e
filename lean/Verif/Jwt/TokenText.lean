import Verif.Json.Grammar
import Verif.Spec.TokenText
import Verif.Jwt.EncodeLemmas
import Verif.Jwt.DecodeLemmas
import Verif.Keyset.FormatLemmas
import Verif.Props.Json

/-!
# Tokens as text: lemmas for C82
-/

namespace Tink
namespace Jwt
open Spec Json JsonUtil

variable {F P C : Type}

/-! ## Base64url -/

theorem octetBits_injective : ∀ {a b : Bytes}, octetBits a = octetBits b → a = b := by
  have byte : ∀ x y : UInt8, bits 8 x.toNat = bits 8 y.toNat → x = y := by
    intro x y h
    apply UInt8.toNat_inj.1
    simp only [bits, List.cons.injEq, and_true] at h
    apply Nat.eq_of_testBit_eq
    intro i
    by_cases hi : i < 8
    · obtain ⟨h7, h6, h5, h4, h3, h2, h1, h0⟩ := h
      match i, hi with
      | 0, _ => exact h0
      | 1, _ => exact h1
      | 2, _ => exact h2
      | 3, _ => exact h3
      | 4, _ => exact h4
      | 5, _ => exact h5
      | 6, _ => exact h6
      | 7, _ => exact h7
    · have hx : x.toNat < 2 ^ i := Nat.lt_of_lt_of_le x.toNat_lt (Nat.pow_le_pow_right (by omega) (by omega))
      have hy : y.toNat < 2 ^ i := Nat.lt_of_lt_of_le y.toNat_lt (Nat.pow_le_pow_right (by omega) (by omega))
      rw [Nat.testBit_lt_two_pow hx, Nat.testBit_lt_two_pow hy]
  intro a
  induction a with
  | nil =>
    intro b h
    cases b with
    | nil => rfl
    | cons y b => simp [octetBits, bits] at h
  | cons x a ih =>
    intro b h
    cases b with
    | nil => simp [octetBits, bits] at h
    | cons y b =>
      simp only [octetBits, List.flatMap_cons] at h
      obtain ⟨h1, h2⟩ := List.append_inj h rfl
      rw [byte x y h1, ih h2]

theorem base64Url_iff (s b : Bytes) : base64Decode s = .ok b ↔ Base64Url s b := by
  unfold Base64Url
  rcases base64Decode_cases s with ⟨h1, h2⟩ | ⟨h1, h2, b', h3, h4⟩
  · rw [h1]
    exact ⟨fun h => (by cases h), fun h => absurd ⟨h.1, h.2.1⟩ h2⟩
  · rw [h3]
    constructor
    · intro h; cases h; exact ⟨h1, h2, h4⟩
    · rintro ⟨-, -, h⟩
      rw [octetBits_injective (h4.trans h.symm)]

theorem fill2 {x : Nat} (h : x < 4) : (bits 6 (x * 16)).drop 2 = List.replicate 4 false := by
  have : ∀ x < 4, (bits 6 (x * 16)).drop 2 = List.replicate 4 false := by decide +kernel
  exact this x h

theorem fill4 {x : Nat} (h : x < 16) : (bits 6 (x * 4)).drop 4 = List.replicate 2 false := by
  have : ∀ x < 16, (bits 6 (x * 4)).drop 4 = List.replicate 2 false := by decide +kernel
  exact this x h

theorem form_bits : ∀ (b : Bytes), ∃ n, n < 6 ∧
    sextetBits (base64Encode b) = octetBits b ++ List.replicate n false := by
  intro b
  match b with
  | [] => exact ⟨0, by omega, rfl⟩
  | [a] =>
    have ha := a.toNat_lt
    have h1 := value_table (a.toNat / 4) (by omega)
    have h2 := value_table (a.toNat % 4 * 16) (by omega)
    refine ⟨4, by omega, ?_⟩
    rw [base64Encode_1]
    simp only [octetBits, sextetBits, List.flatMap_cons, List.flatMap_nil, List.append_nil, h1.2.2.2, h2.2.2.2]
    have e : a.toNat = a.toNat / 4 * 4 + a.toNat % 4 * 16 / 16 := by omega
    rw [show bits 8 a.toNat = bits 8 (a.toNat / 4 * 4 + a.toNat % 4 * 16 / 16) from by rw [← e],
      ← two_sextets (by omega) (by omega), List.append_assoc, ← fill2 (x := a.toNat % 4) (by omega),
      List.take_append_drop]
  | [a, b] =>
    have ha := a.toNat_lt
    have hb := b.toNat_lt
    have h1 := value_table (a.toNat / 4) (by omega)
    have h2 := value_table (a.toNat % 4 * 16 + b.toNat / 16) (by omega)
    have h3 := value_table (b.toNat % 16 * 4) (by omega)
    refine ⟨2, by omega, ?_⟩
    rw [base64Encode_2]
    simp only [octetBits, sextetBits, List.flatMap_cons, List.flatMap_nil, List.append_nil, h1.2.2.2, h2.2.2.2,
      h3.2.2.2]
    have e1 : bits 8 a.toNat = bits 8 (a.toNat / 4 * 4 + (a.toNat % 4 * 16 + b.toNat / 16) / 16) :=
      congrArg _ (by omega)
    have e2 : bits 8 b.toNat = bits 8 ((a.toNat % 4 * 16 + b.toNat / 16) % 16 * 16 + b.toNat % 16 * 4 / 4) :=
      congrArg _ (by omega)
    rw [e1, e2, ← two_sextets (by omega) (by omega), ← mid_sextets (by omega) (by omega),
      ← fill4 (x := b.toNat % 16) (by omega)]
    simp [bits]
  | a :: b :: c :: r =>
    have ha := a.toNat_lt
    have hb := b.toNat_lt
    have hc := c.toNat_lt
    have h1 := value_table (a.toNat / 4) (by omega)
    have h2 := value_table (a.toNat % 4 * 16 + b.toNat / 16) (by omega)
    have h3 := value_table (b.toNat % 16 * 4 + c.toNat / 64) (by omega)
    have h4 := value_table (c.toNat % 64) (by omega)
    obtain ⟨n, hn, ih⟩ := form_bits r
    refine ⟨n, hn, ?_⟩
    rw [base64Encode_3]
    simp only [sextetBits] at ih
    simp only [octetBits, sextetBits, List.flatMap_cons, h1.2.2.2, h2.2.2.2, h3.2.2.2, h4.2.2.2]
    have e1 : bits 8 a.toNat = bits 8 (a.toNat / 4 * 4 + (a.toNat % 4 * 16 + b.toNat / 16) / 16) :=
      congrArg _ (by omega)
    have e2 : bits 8 b.toNat =
        bits 8 ((a.toNat % 4 * 16 + b.toNat / 16) % 16 * 16 + (b.toNat % 16 * 4 + c.toNat / 64) / 4) :=
      congrArg _ (by omega)
    have e3 : bits 8 c.toNat = bits 8 ((b.toNat % 16 * 4 + c.toNat / 64) % 4 * 64 + c.toNat % 64) :=
      congrArg _ (by omega)
    rw [e1, e2, e3, ← two_sextets (by omega) (by omega), ← mid_sextets (by omega) (by omega),
      ← last_sextets (by omega) (by omega), ih]
    simp only [bits, List.take_succ_cons, List.take_zero, List.drop_succ_cons, List.drop_zero, List.cons_append,
      List.nil_append, octetBits, List.append_assoc]

theorem form_encode (b : Bytes) : Base64UrlForm (base64Encode b) b := ⟨(encode_spec b).1, form_bits b⟩

theorem sextetBits_length (s : Bytes) : (sextetBits s).length = 6 * s.length := by
  induction s with
  | nil => rfl
  | cons c s ih =>
    have : sextetBits (c :: s) = bits 6 (urlValue c) ++ sextetBits s := rfl
    rw [this, List.length_append, ih, List.length_cons]
    simp only [bits, List.length_cons, List.length_nil]
    omega

theorem octetBits_length (b : Bytes) : (octetBits b).length = 8 * b.length := by
  induction b with
  | nil => rfl
  | cons c b ih =>
    have : octetBits (c :: b) = bits 8 c.toNat ++ octetBits b := rfl
    rw [this, List.length_append, ih, List.length_cons]
    simp only [bits, List.length_cons, List.length_nil]
    omega

theorem urlValue_injective {c d : UInt8} (hc : UrlChar c) (hd : UrlChar d) (h : urlValue c = urlValue d) :
    c = d := by
  apply UInt8.toNat_inj.1
  unfold UrlChar at hc hd
  unfold urlValue at h
  repeat' split at h
  all_goals omega

theorem bits6_injective : ∀ u < 64, ∀ v < 64, bits 6 u = bits 6 v → u = v := by decide +kernel

theorem sextetBits_injective : ∀ {s t : Bytes}, (∀ c ∈ s, UrlChar c) → (∀ c ∈ t, UrlChar c) →
    sextetBits s = sextetBits t → s = t := by
  intro s
  induction s with
  | nil =>
    intro t _ _ h
    cases t with
    | nil => rfl
    | cons d t => have := congrArg List.length h; simp [sextetBits, bits] at this
  | cons c s ih =>
    intro t hs ht h
    cases t with
    | nil => have := congrArg List.length h; simp [sextetBits, bits] at this
    | cons d t =>
      have h' : bits 6 (urlValue c) ++ sextetBits s = bits 6 (urlValue d) ++ sextetBits t := h
      obtain ⟨h1, h2⟩ := List.append_inj h' rfl
      have hc := hs c (by simp)
      have hd := ht d (by simp)
      rw [urlValue_injective hc hd (bits6_injective _ ((char_facts c).2 hc).2.2 _ ((char_facts d).2 hd).2.2 h1),
        ih (fun x hx => hs x (by simp [hx])) (fun x hx => ht x (by simp [hx])) h2]

theorem form_length {s b : Bytes} {n : Nat} (h : sextetBits s = octetBits b ++ List.replicate n false) :
    6 * s.length = 8 * b.length + n := by
  have := congrArg List.length h
  rwa [sextetBits_length, List.length_append, octetBits_length, List.length_replicate] at this

/-! ## UTF-8 -/

theorem pstr_scalar (s : PStr) : (s.map Char.toNat).all isScalar = true := by
  rw [List.all_eq_true]
  intro c hc
  obtain ⟨x, -, rfl⟩ := List.mem_map.1 hc
  have := x.valid
  unfold isScalar
  simp only [Bool.or_eq_true, Bool.and_eq_true, decide_eq_true_eq]
  simp only [UInt32.isValidChar, Nat.isValidChar] at this
  show x.val.toNat < _ ∨ _ ≤ x.val.toNat ∧ x.val.toNat < _
  omega

theorem utf8Text_iff (b : Bytes) (text : PyStr) : utf8Decode b = .ok text ↔ Utf8Text b text := by
  unfold Utf8Text
  constructor
  · intro h
    have h1 := utf8Encode_decode b text h
    unfold utf8Encode at h1
    by_cases hs : text.all isScalar = true
    · rw [if_pos hs] at h1
      cases h1
      refine ⟨text.map Char.ofNat, ?_, ?_⟩
      · rw [List.map_map]
        conv => lhs; rw [← List.map_id text]
        apply List.map_congr_left
        intro c hc
        exact (toNat_ofNat_scalar _ (List.all_eq_true.1 hs c hc)).symm
      · rw [utf8_eq]
        unfold pstrEncode
        rw [List.flatMap_map]
        rw [List.flatMap_def, List.flatMap_def]
        congr 1
        apply List.map_congr_left
        intro c hc
        rw [toNat_ofNat_scalar _ (List.all_eq_true.1 hs c hc)]
    · rw [if_neg hs] at h1; cases h1
  · rintro ⟨s, rfl, rfl⟩
    apply utf8Decode_encode
    unfold utf8Encode
    rw [if_pos (pstr_scalar s), utf8_eq]
    unfold pstrEncode
    rw [List.flatMap_map]

/-! ## Parts -/

theorem holds_iff (env : JsonEnv F) (part : Bytes) (v : JVal F) :
    Holds env part v ↔ PartText env part v ∧ ¬ RepeatsKey v ∧ ValidObjects v := by
  unfold Holds PartText
  simp only [Props.C49_accepts, base64Url_iff, utf8Text_iff, parseTree_iff]
  constructor
  · rintro ⟨b, text, h1, h2, h3, h4⟩; exact ⟨⟨b, text, h1, h2, h3⟩, h4⟩
  · rintro ⟨⟨b, text, h1, h2, h3⟩, h4⟩; exact ⟨b, text, h1, h2, h3, h4⟩

theorem holds_dict_unique {env : JsonEnv F} {part : Bytes} {v : JVal F} (h : Holds env part v) :
    ∃ text, decodeText part = .ok text ∧ jsonLoads env text = .ok v := by
  obtain ⟨b, text, h1, h2, h3⟩ := h
  exact ⟨text, by unfold decodeText; simp only [h1, h2], h3⟩

/-- The text of a value, as a part of a token. -/
theorem partForm_encode {env : JsonEnv F} (hl : LawfulFloats env.floats) {v : JVal F} {text : PyStr}
    (ht : jsonDumps env v = .ok text) (hj : AllTextJoined v) {part : Bytes} (hp : encodeText text = .ok part) :
    PartForm env part v := by
  unfold encodeText at hp
  cases hu : utf8Encode text with
  | error x => rw [hu] at hp; cases hp
  | ok b =>
    rw [hu] at hp
    cases hp
    refine ⟨b, text, form_encode b, (utf8Text_iff ..).1 (utf8Decode_encode _ _ hu), (parseTree_iff ..).1 ?_⟩
    exact loadsHook_dumpsDepth env hl _ [] (by simp) v text ht hj fun _ _ => rfl

/-! ## Claims -/

theorem claims_iff (fl : Floats F) (p : List (PyStr × JVal F)) : ValidPayload fl p ↔ ClaimsTyped fl p := by
  have range : ∀ x : PyFloat F, outOfRange fl x = false ↔
      x = .nan ∨ ∃ y, x = .fin y ∧ fl.lt y 0 = false ∧ fl.gt y 253402300799 = false := by
    intro x
    cases x with
    | nan => simp [outOfRange]
    | inf => simp [outOfRange]
    | ninf => simp [outOfRange]
    | fin y =>
      simp only [outOfRange, maxTimestamp, Bool.or_eq_false_iff]
      constructor
      · rintro ⟨h1, h2⟩; exact .inr ⟨y, rfl, h2, h1⟩
      · rintro (h | ⟨z, h, h1, h2⟩)
        · cases h
        · cases h; exact ⟨h2, h1⟩
  constructor
  · intro h
    refine ⟨h.iss, h.sub, h.jti, ?_, h.aud⟩
    intro n hn v hv
    simp only [List.mem_cons, List.not_mem_nil, or_false] at hn
    rcases h.times n v hn hv with h | h | ⟨x, rfl, hx⟩
    · exact .inl h
    · exact .inr (.inl h)
    · rcases (range x).1 hx with rfl | ⟨y, rfl, hy⟩
      · exact .inr (.inr (.inl rfl))
      · exact .inr (.inr (.inr ⟨y, rfl, hy⟩))
  · intro h
    refine ⟨h.iss, h.sub, h.jti, ?_, h.aud⟩
    intro n v hn hv
    rcases h.times n (by simpa using hn) v hv with h | h | rfl | ⟨y, rfl, hy⟩
    · exact .inl h
    · exact .inr (.inl h)
    · exact .inr (.inr ⟨_, rfl, rfl⟩)
    · exact .inr (.inr ⟨_, rfl, (range _).2 (.inr ⟨y, rfl, hy⟩)⟩)

/-! ## Reading -/

theorem validateHeader_of {env : JwtEnv F} {d : List (PyStr × JVal F)} {alg : PyStr} {kid customKid : Option PyStr}
    (ha : alg ∈ validAlgorithms) (hm : HeaderMatches env.upper d alg kid customKid)
    (hk : kid = none ∨ customKid = none) : validateHeader env (.dict d) alg kid customKid = .ok () := by
  obtain ⟨⟨s, h1, h2⟩, h3, h4, h5⟩ := hm
  unfold validateHeader validateAlgorithm checkAlg
  rw [if_pos ha]
  simp only [bind, Except.bind]
  rw [h1, h3]
  simp only [Option.getD_some, if_pos h2, Option.isSome_none]
  rw [if_neg (by simp)]
  unfold checkKid
  cases kid with
  | none =>
    cases customKid with
    | none => rfl
    | some ck =>
      simp only
      rcases h5 ck rfl with h | h
      · rw [h]
      · rw [h]; simp [kidIs]
  | some k =>
    cases customKid with
    | some ck => rcases hk with h | h <;> cases h
    | none =>
      simp only
      rw [h4 k rfl]
      simp [kidIs]

/-- Every token that is right is accepted by a key. -/
theorem decode_of {env : JwtEnv F} {alg : PyStr} (halg : alg ∈ validAlgorithms) {customKid kid : Option PyStr}
    {check : Bytes → Bytes → Py Unit} {clock : Int} {compact : PyStr} {v : JwtValidator}
    {header payload signature sig : Bytes} {d p : List (PyStr × JVal F)}
    (hc : Compact compact header payload signature) (hs : base64Decode signature = .ok sig)
    (hcheck : check sig (header ++ 46 :: payload) = .ok ()) (hh : Holds env.json header (.dict d))
    (hm : HeaderMatches env.upper d alg kid customKid) (hk : kid = none ∨ customKid = none)
    (hp : Holds env.json payload (.dict p)) (hv : ValidPayload env.json.floats p)
    (hval : validate env.json.floats clock v ⟨(PyDict.get? d (py! "typ")).bind optional, p⟩ = .ok ()) :
    decodeWithKid env alg customKid check clock compact v kid =
      .ok ⟨⟨(PyDict.get? d (py! "typ")).bind optional, p⟩⟩ := by
  obtain ⟨t1, h1, h2⟩ := holds_dict_unique hh
  obtain ⟨t2, h3, h4⟩ := holds_dict_unique hp
  unfold decodeWithKid
  rw [split_of hc hs h1 h3]
  simp only [bind, Except.bind]
  rw [hcheck]
  simp only
  rw [h2]
  simp only
  rw [validateHeader_of halg hm hk]
  simp only
  unfold RawJwt.fromJson
  rw [h4]
  simp only
  rw [show getTypeHeader (.dict d) = (PyDict.get? d (py! "typ")).bind optional from rfl, init_of hv]
  simp only
  rw [hval]
  rfl

theorem decode_iff {env : JwtEnv F} (hu : LawfulUpper env.upper) {alg : PyStr} (halg : alg ∈ validAlgorithms)
    {customKid kid : Option PyStr} {check : Bytes → Bytes → Py Unit} {clock : Int} {compact : PyStr}
    {v : JwtValidator} {a : VerifiedJwt F} :
    decodeWithKid env alg customKid check clock compact v kid = .ok a ↔
      RightToken env alg kid customKid check clock v compact a := by
  constructor
  · intro h
    obtain ⟨header, payload, signature, sig, d, h1, h2, h3, h4, h5, h6, h7, h8, h9⟩ := decode_ok hu h
    obtain ⟨p1, p2⟩ := (holds_iff ..).1 h4
    obtain ⟨q1, q2⟩ := (holds_iff ..).1 h6
    refine ⟨header, payload, signature, sig, d, h1, ⟨(base64Url_iff ..).1 h2, h3⟩, ⟨p1, p2, h5, h9⟩,
      ⟨q1, q2, (claims_iff ..).1 ?_⟩, h7, h8⟩
    unfold decodeWithKid at h
    obtain ⟨parts, hs, h⟩ := bind_ok h
    obtain ⟨_, hc, h⟩ := bind_ok h
    obtain ⟨_, hj, h⟩ := bind_ok h
    obtain ⟨_, hv, h⟩ := bind_ok h
    obtain ⟨raw, hr, h⟩ := bind_ok h
    obtain ⟨_, hval, h⟩ := bind_ok h
    cases h
    unfold RawJwt.fromJson at hr
    cases hp : jsonLoads env.json parts.payload with
    | error e => rw [hp] at hr; cases hr
    | ok w =>
      rw [hp] at hr
      exact (init_ok hr).2.2
  · rintro ⟨header, payload, signature, sig, d, h1, ⟨h2, h3⟩, ⟨p1, p2, h5, h9⟩, ⟨q1, q2, q3⟩, h7, h8⟩
    obtain ⟨⟨th, pl⟩⟩ := a
    cases h7
    exact decode_of halg h1 ((base64Url_iff ..).2 h2) h3 ((holds_iff ..).2 ⟨p1, p2⟩) h5 h9
      ((holds_iff ..).2 ⟨q1, q2⟩) ((claims_iff ..).2 q3) h8

/-! ## Writing -/

theorem nonempty_eq (o : Option PyStr) : unlessEmpty o = nonempty o := by
  match o with
  | none => rfl
  | some [] => rfl
  | some (c :: s) => rfl

theorem headerKid_written {k : Key} {customKid hk : Option PyStr} (hv : ∀ s, keyKid k = some s → s ≠ [])
    (h : headerKid customKid (keyKid k) = .ok hk) : nonempty hk = writtenKid k customKid := by
  unfold writtenKid
  cases hkk : keyKid k with
  | none =>
    rw [hkk] at h
    cases customKid with
    | none => cases h; rfl
    | some c => cases h; rfl
  | some s =>
    rw [hkk] at h
    cases customKid with
    | none =>
      cases h
      cases s with
      | nil => exact absurd rfl (hv [] hkk)
      | cons c s => rfl
    | some c => cases h

theorem header_for (fl : Floats F) (alg : PyStr) (th kid : Option PyStr) :
    HeaderFor (headerOf (F := F) fl alg (th.map .str) kid) alg (nonempty kid) (nonempty th) := by
  obtain ⟨e1, -, e3, e4⟩ := header_gets (F := F) fl alg th kid
  rw [nonempty_eq] at e3 e4
  refine ⟨e1, e3, e4, ?_, ?_⟩
  · rw [headerOf_str]
    intro n x hx
    cases unlessEmpty kid <;> cases unlessEmpty th <;> simp at hx <;> simp <;> grind
  · rw [headerOf_str]
    cases unlessEmpty kid <;> cases unlessEmpty th <;> simp

/-- What a token looks like. -/
theorem encode_form {env : JwtEnv F} (hl : LawfulFloats env.json.floats) {alg : PyStr} {customKid : Option PyStr}
    {k : Key} {sign : Bytes → Py Bytes} {t : RawJwt F} {compact : PyStr}
    (h : encodeWithKid env alg customKid sign t (keyKid k) = .ok compact)
    (hkid : ∀ s, keyKid k = some s → ValidText s ∧ s ≠ []) (hckid : ∀ s, customKid = some s → ValidText s)
    {th : Option PyStr} (hth : t.typeHeader = th.map .str) (htv : ∀ s, th = some s → ValidText s)
    (hc : Clean (.dict t.payload)) :
    ∃ header payload signature sig d, Compact compact header payload signature ∧
      PartForm env.json header (.dict d) ∧ HeaderFor d alg (writtenKid k customKid) (nonempty th) ∧
      PartForm env.json payload (.dict t.payload) ∧
      sign (header ++ 46 :: payload) = .ok sig ∧ Base64UrlForm signature sig := by
  unfold encodeWithKid at h
  obtain ⟨hk, hhk, h⟩ := bind_ok h
  obtain ⟨unsigned, hun, h⟩ := bind_ok h
  obtain ⟨signature, hsig, h⟩ := bind_ok h
  unfold createUnsignedCompact createHeader at hun
  obtain ⟨header, hh, hun⟩ := bind_ok hun
  obtain ⟨_, halg, hh⟩ := bind_ok hh
  obtain ⟨htext, hht, hh⟩ := bind_ok hh
  obtain ⟨ptext, hpt, hun⟩ := bind_ok hun
  obtain ⟨payload, hpl, hun⟩ := bind_ok hun
  cases hun
  have hvalid : alg ∈ validAlgorithms := by
    unfold validateAlgorithm at halg
    by_cases hm : alg ∈ validAlgorithms
    · exact hm
    · rw [if_neg hm] at halg; cases halg
  obtain ⟨hascii, -⟩ := alg_facts hvalid
  obtain ⟨c1, -⟩ := encodeText_ok hh
  obtain ⟨c2, -⟩ := encodeText_ok hpl
  have c3 := (encode_spec signature).1
  have hk' : ∀ s, hk = some s → ValidText s := by
    intro s hs
    subst hs
    unfold headerKid at hhk
    cases customKid with
    | none => exact (hkid s (Except.ok.inj hhk)).1
    | some c =>
      cases hkk : keyKid k with
      | none => rw [hkk] at hhk; cases hhk; exact hckid s rfl
      | some k' => rw [hkk] at hhk; cases hhk
  have hcompact : Compact compact header payload (base64Encode signature) := by
    refine ⟨?_, c1, c2, c3⟩
    unfold createSignedCompact at h
    have hascii : ∀ c ∈ header ++ 46 :: payload ++ 46 :: base64Encode signature, c.toNat < 128 := by
      intro c hm
      simp only [List.append_assoc, List.mem_append, List.mem_cons, List.cons_append] at hm
      rcases hm with hm | rfl | hm | rfl | hm
      · exact UrlChar.ascii (c1 c hm)
      · decide
      · exact UrlChar.ascii (c2 c hm)
      · decide
      · exact UrlChar.ascii (c3 c hm)
    rw [utf8Decode_ascii _ hascii] at h
    exact (Except.ok.inj h).symm
  rw [hth] at hht
  obtain ⟨-, g2⟩ := header_good env.json.floats alg th hk (ascii_valid hascii) htv hk'
  have hf := header_for env.json.floats alg th hk
  rw [headerKid_written (fun s hs => (hkid s hs).2) hhk] at hf
  exact ⟨header, payload, base64Encode signature, signature, _, hcompact,
    partForm_encode hl hht (Props.valid_enough g2).2 hh, hf, partForm_encode hl hpt hc.2 hpl, hsig,
    form_encode signature⟩

theorem _root_.Tink.Spec.VerifyKey.alg_valid {kd : KeyData} {alg : PyStr} {kid : Option PyStr}
    (h : VerifyKey kd alg kid) : alg ∈ validAlgorithms := by
  rcases h with ⟨_, _, _, h, _⟩ | ⟨_, _, _, h, _⟩ | ⟨_, _, _, h, _⟩ <;>
  · simp only [List.mem_cons, Prod.mk.injEq, List.not_mem_nil, or_false] at h
    rcases h with ⟨_, rfl⟩ | ⟨_, rfl⟩ | ⟨_, rfl⟩ <;> decide

end Jwt
end Tink
