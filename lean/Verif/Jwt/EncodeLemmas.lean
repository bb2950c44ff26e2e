import Verif.Jwt.DecodeLemmas
import Verif.Jwt.RawText
import Verif.Props.JwtJson

/-!
# Lemmas about writing a token and reading it back
-/

namespace Tink
namespace Jwt
open Spec Json JsonUtil Props

variable {F : Type}

theorem encodeText_ok {text : PyStr} {e : Bytes} (h : encodeText text = .ok e) :
    (∀ c ∈ e, UrlChar c) ∧ decodeText e = .ok text := by
  unfold encodeText at h
  cases hu : utf8Encode text with
  | error x => rw [hu] at h; cases h
  | ok b =>
    rw [hu] at h
    cases h
    refine ⟨(encode_spec b).1, ?_⟩
    unfold decodeText
    rw [base64Decode_encode]
    simp only [utf8Decode_encode _ _ hu]

theorem truth_str (fl : Floats F) (s : PyStr) : truth fl (.str s) = !s.isEmpty := rfl

/-- The header of a token whose type header is a string. -/
theorem headerOf_str (fl : Floats F) (alg : PyStr) (th kid : Option PyStr) :
    headerOf (F := F) fl alg (th.map .str) kid =
      (match unlessEmpty kid with | some k => [(py! "kid", .str k)] | none => []) ++
      (py! "alg", .str alg) ::
      (match unlessEmpty th with | some s => [(py! "typ", .str s)] | none => []) := by
  unfold headerOf
  congr 1
  · match kid with
    | none => rfl
    | some [] => rfl
    | some (c :: s) => simp [kidEntry, unlessEmpty]
  · congr 1
    match th with
    | none => rfl
    | some [] => rfl
    | some (c :: s) => simp [typEntry, unlessEmpty, truth]

theorem unlessEmpty_nil : unlessEmpty (some []) = none := rfl

theorem unlessEmpty_some {s : PyStr} (h : s ≠ []) : unlessEmpty (some s) = some s := if_neg h

theorem unlessEmpty_valid {o : Option PyStr} (h : ∀ s, o = some s → ValidText s) :
    ∀ s, unlessEmpty o = some s → ValidText s := by
  intro s hs
  cases o with
  | none => cases hs
  | some x =>
    by_cases hx : x = []
    · rw [hx, unlessEmpty_nil] at hs; cases hs
    · rw [unlessEmpty_some hx] at hs; cases hs; exact h _ rfl

theorem dict_strings {d : List (PyStr × JVal F)} (hn : (d.map Prod.fst).Nodup)
    (h : ∀ p ∈ d, ValidText p.1 ∧ ∃ s, p.2 = .str s ∧ ValidText s) :
    ¬ RepeatsKey (.dict d) ∧ AllTextValid (.dict d) := by
  have within : ∀ w, Within w (.dict d) → w = .dict d ∨ ∃ s, w = .str s ∧ ValidText s := by
    intro w hw
    cases hw with
    | here => exact .inl rfl
    | value hm hw =>
      obtain ⟨s, hs, hv⟩ := (h _ hm).2
      simp only at hs
      subst hs
      cases hw
      exact .inr ⟨s, rfl, hv⟩
  refine ⟨?_, ?_, ?_⟩
  · rintro ⟨e, he, hd⟩
    rcases within _ he with h' | ⟨s, h', _⟩
    · cases h'; exact hd hn
    · cases h'
  · intro s hs
    rcases within _ hs with h' | ⟨s', h', hv⟩
    · cases h'
    · cases h'; exact hv
  · intro e he k x hm
    rcases within _ he with h' | ⟨s, h', _⟩
    · cases h'; exact (h _ hm).1
    · cases h'

theorem valid_lit {s : PyStr} (h : (s.all fun c => decide (c < 128)) = true) : ValidText s :=
  ascii_valid fun x hx => by simpa using List.all_eq_true.1 h x hx

theorem header_good (fl : Floats F) (alg : PyStr) (th kid : Option PyStr) (ha : ValidText alg)
    (ht : ∀ s, th = some s → ValidText s) (hk : ∀ s, kid = some s → ValidText s) :
    ¬ RepeatsKey (.dict (headerOf (F := F) fl alg (th.map .str) kid)) ∧
      AllTextValid (.dict (headerOf (F := F) fl alg (th.map .str) kid)) := by
  rw [headerOf_str]
  have v1 : ValidText (py! "kid") := valid_lit (by decide)
  have v2 : ValidText (py! "alg") := valid_lit (by decide)
  have v3 : ValidText (py! "typ") := valid_lit (by decide)
  have h1 := unlessEmpty_valid hk
  have h2 := unlessEmpty_valid ht
  cases hk' : unlessEmpty kid <;> cases ht' : unlessEmpty th
  · refine dict_strings (by simp) ?_
    intro p hp
    simp only [List.nil_append, List.mem_cons, List.not_mem_nil, or_false] at hp
    subst hp
    exact ⟨v2, _, rfl, ha⟩
  · refine dict_strings (by simp) ?_
    intro p hp
    simp only [List.nil_append, List.mem_cons, List.not_mem_nil, or_false] at hp
    rcases hp with rfl | rfl
    · exact ⟨v2, _, rfl, ha⟩
    · exact ⟨v3, _, rfl, h2 _ ht'⟩
  · refine dict_strings (by simp) ?_
    intro p hp
    simp only [List.cons_append, List.nil_append, List.mem_cons, List.not_mem_nil, or_false] at hp
    rcases hp with rfl | rfl
    · exact ⟨v1, _, rfl, h1 _ hk'⟩
    · exact ⟨v2, _, rfl, ha⟩
  · refine dict_strings (by simp) ?_
    intro p hp
    simp only [List.cons_append, List.nil_append, List.mem_cons, List.not_mem_nil, or_false] at hp
    rcases hp with rfl | rfl | rfl
    · exact ⟨v1, _, rfl, h1 _ hk'⟩
    · exact ⟨v2, _, rfl, ha⟩
    · exact ⟨v3, _, rfl, h2 _ ht'⟩

theorem header_gets (fl : Floats F) (alg : PyStr) (th kid : Option PyStr) :
    PyDict.get? (headerOf (F := F) fl alg (th.map .str) kid) (py! "alg") = some (.str alg) ∧
    PyDict.get? (headerOf (F := F) fl alg (th.map .str) kid) (py! "crit") = none ∧
    PyDict.get? (headerOf (F := F) fl alg (th.map .str) kid) (py! "kid") = (unlessEmpty kid).map .str ∧
    PyDict.get? (headerOf (F := F) fl alg (th.map .str) kid) (py! "typ") = (unlessEmpty th).map .str := by
  rw [headerOf_str]
  cases unlessEmpty kid <;> cases unlessEmpty th <;> simp [PyDict.get?]

theorem alg_facts {alg : PyStr} (h : alg ∈ validAlgorithms) :
    (∀ c ∈ alg, c < 128) ∧ alg.map asciiUpper = alg := by
  have : ∀ a ∈ validAlgorithms, (∀ c ∈ a, c < 128) ∧ a.map asciiUpper = a := by decide
  exact this alg h

theorem writtenType_str (fl : Floats F) (th : Option PyStr) :
    writtenType fl (th.map .str) = (unlessEmpty th).map .str := by
  match th with
  | none => rfl
  | some [] => rfl
  | some (c :: s) => rfl

/-- What one key writes, another with the same secret reads back. -/
theorem encode_decode {env : JwtEnv F} (hl : LawfulFloats env.json.floats) (hu : LawfulUpper env.upper)
    {alg : PyStr} {customKid customKid' kid : Option PyStr} {sign : Bytes → Py Bytes}
    {check : Bytes → Bytes → Py Unit} {t : RawJwt F} {compact : PyStr}
    (h : encodeWithKid env alg customKid sign t kid = .ok compact)
    (hcheck : ∀ data sig, sign data = .ok sig → check sig data = .ok ())
    (hcustom : customKid' = customKid ∨ customKid' = none)
    (hkid : ∀ s, kid = some s → ValidText s ∧ s ≠ [])
    (hckid : ∀ s, customKid = some s → ValidText s)
    {th : Option PyStr} (hth : t.typeHeader = th.map .str) (htv : ∀ s, th = some s → ValidText s)
    (hv : ValidObjects (.dict t.payload)) (hc : Clean (.dict t.payload))
    (hp : ValidPayload env.json.floats t.payload) (clock : Int) (v : JwtValidator) :
    decodeWithKid env alg customKid' check clock compact v kid =
      (do validate env.json.floats clock v
            { t with typeHeader := writtenType env.json.floats t.typeHeader }
          return { raw := { t with typeHeader := writtenType env.json.floats t.typeHeader } }) := by
  unfold encodeWithKid at h
  obtain ⟨hk, hhk, h⟩ := bind_ok h
  obtain ⟨unsigned, hun, h⟩ := bind_ok h
  obtain ⟨signature, hsig, h⟩ := bind_ok h
  unfold createUnsignedCompact createHeader at hun
  obtain ⟨header, hh, hun⟩ := bind_ok hun
  obtain ⟨_, halg, hh⟩ := bind_ok hh
  obtain ⟨htext, hht, hh⟩ := bind_ok hh
  obtain ⟨ptext, hpt, hun⟩ := bind_ok hun
  obtain ⟨payload, hpl, hun⟩ := bind_ok hun
  cases hun
  have hvalid : alg ∈ validAlgorithms := by
    unfold validateAlgorithm at halg
    by_cases hm : alg ∈ validAlgorithms
    · exact hm
    · rw [if_neg hm] at halg; cases halg
  obtain ⟨hascii, hupper⟩ := alg_facts hvalid
  obtain ⟨c1, d1⟩ := encodeText_ok hh
  obtain ⟨c2, d2⟩ := encodeText_ok hpl
  have c3 := (encode_spec signature).1
  -- the kid in the header
  have hk' : ∀ s, hk = some s → ValidText s := by
    intro s hs
    subst hs
    unfold headerKid at hhk
    cases customKid with
    | none => cases hhk; exact (hkid s rfl).1
    | some k =>
      cases kid with
      | none => cases hhk; exact hckid s rfl
      | some k' => cases hhk
  -- the compact form
  have hcompact : Compact compact header payload (base64Encode signature) := by
    refine ⟨?_, c1, c2, c3⟩
    unfold createSignedCompact at h
    have hascii : ∀ c ∈ header ++ 46 :: payload ++ 46 :: base64Encode signature, c.toNat < 128 := by
      intro c hm
      simp only [List.append_assoc, List.mem_append, List.mem_cons, List.cons_append] at hm
      rcases hm with hm | rfl | hm | rfl | hm
      · exact UrlChar.ascii (c1 c hm)
      · decide
      · exact UrlChar.ascii (c2 c hm)
      · decide
      · exact UrlChar.ascii (c3 c hm)
    rw [utf8Decode_ascii _ hascii] at h
    exact (Except.ok.inj h).symm
  unfold decodeWithKid
  rw [split_of hcompact (base64Decode_encode signature) d1 d2]
  simp only [bind, Except.bind]
  rw [hcheck _ _ hsig]
  simp only
  -- the header
  rw [hth] at hht
  obtain ⟨g1, g2⟩ := header_good env.json.floats alg th hk (ascii_valid hascii) htv hk'
  rw [C49_round_trip_valid env.json hl _ htext hht g1 g2]
  simp only
  obtain ⟨e1, e2, e3, e4⟩ := header_gets (F := F) env.json.floats alg th hk
  have hval : validateHeader env (.dict (headerOf env.json.floats alg (th.map .str) hk)) alg kid
      customKid' = .ok () := by
    unfold validateHeader
    rw [halg]
    simp only [bind, Except.bind]
    have : checkAlg env (headerOf env.json.floats alg (th.map .str) hk) alg = .ok () := by
      unfold checkAlg
      rw [e1]
      simp only [Option.getD_some]
      rw [if_pos (by rw [hu.ascii alg hascii, hupper])]
    rw [this]
    simp only
    rw [e2, if_neg (by simp)]
    unfold headerKid at hhk
    unfold checkKid
    cases customKid with
    | none =>
      have : customKid' = none := by rcases hcustom with h | h <;> exact h
      subst this
      cases hhk
      cases kid with
      | none => rfl
      | some k =>
        simp only
        rw [e3]
        rw [unlessEmpty_some (hkid k rfl).2]
        simp [kidIs]
    | some ck =>
      cases kid with
      | some k => cases hhk
      | none =>
        cases hhk
        rcases hcustom with rfl | rfl
        · simp only
          rw [e3]
          by_cases hx : ck = []
          · rw [hx, unlessEmpty_nil]; rfl
          · rw [unlessEmpty_some hx]; simp [kidIs]
        · rfl
  rw [hval]
  simp only
  have htyp : getTypeHeader (.dict (headerOf env.json.floats alg (th.map .str) hk)) =
      writtenType env.json.floats t.typeHeader := by
    show (PyDict.get? _ _).bind optional = _
    rw [e4, hth, writtenType_str]
    cases unlessEmpty th <;> rfl
  rw [htyp]
  have hfrom := fromJson_jsonPayload (env := env.json) hl
    (t := { t with typeHeader := writtenType env.json.floats t.typeHeader }) (text := ptext) hpt hv hc hp
  simp only at hfrom
  rw [hfrom]

theorem encodeText_of {text : PyStr} (h : ValidText text) : ∃ e, encodeText text = .ok e := by
  unfold encodeText utf8Encode
  rw [if_pos (List.all_eq_true.2 h)]
  exact ⟨_, rfl⟩

theorem mapPy_of {α β : Type} {f : α → Py β} {l : List α} (h : ∀ a ∈ l, ∃ b, f a = .ok b) :
    ∃ bs, mapPy f l = .ok bs := by
  induction l with
  | nil => exact ⟨[], rfl⟩
  | cons a l ih =>
    obtain ⟨b, hb⟩ := h a (by simp)
    obtain ⟨bs, hbs⟩ := ih fun x hx => h x (by simp [hx])
    exact ⟨b :: bs, by simp only [mapPy, hb, hbs]⟩

/-- Objects with strings in them can be written, if objects can. -/
theorem dumps_strings {env : JsonEnv F} {d e : List (PyStr × JVal F)} {text : PyStr}
    (h : jsonDumps env (.dict e) = .ok text) (hd : ∀ p ∈ d, ∃ s, p.2 = .str s) :
    ∃ text', jsonDumps env (.dict d) = .ok text' := by
  unfold jsonDumps dumpsCompact at h ⊢
  cases hdep : env.depth with
  | zero => rw [hdep] at h; cases h
  | succ n =>
    obtain ⟨ts, hts⟩ := mapPy_of (f := encodePair [] (dumpsDepth env [] n)) (l := d) (by
      intro p hp
      obtain ⟨s, hs⟩ := hd p hp
      unfold encodePair
      rw [hs]
      have : dumpsDepth env [] n (.str s) = .ok (encodeString s) := by cases n <;> rfl
      rw [this]
      exact ⟨_, rfl⟩)
    show ∃ text', bracket [] 123 125 (mapPy (encodePair [] (dumpsDepth env [] n)) d) = .ok text'
    rw [hts]
    exact ⟨_, rfl⟩

theorem header_strings (fl : Floats F) (alg : PyStr) (th kid : Option PyStr) :
    ∀ p ∈ headerOf (F := F) fl alg (th.map .str) kid, ∃ s, p.2 = .str s := by
  rw [headerOf_str]
  cases unlessEmpty kid <;> cases unlessEmpty th <;> simp

/-- A token whose payload has a text can be written. -/
theorem encode_succeeds {env : JwtEnv F} (hl : LawfulFloats env.json.floats) {alg : PyStr}
    (halg : alg ∈ validAlgorithms) {customKid kid : Option PyStr} (hk : kid = none ∨ customKid = none)
    {sign : Bytes → Py Bytes} (hsign : ∀ data, ∃ sig, sign data = .ok sig) {t : RawJwt F}
    {th : Option PyStr} (hth : t.typeHeader = th.map .str) {text : PyStr}
    (hp : t.jsonPayload env.json = .ok text) :
    ∃ compact, encodeWithKid env alg customKid sign t kid = .ok compact := by
  have hkid : ∃ hk', headerKid customKid kid = .ok hk' := by
    rcases hk with rfl | rfl
    · cases customKid with
      | none => exact ⟨_, rfl⟩
      | some k => exact ⟨_, rfl⟩
    · exact ⟨_, rfl⟩
  obtain ⟨hkd, hk'⟩ := hkid
  have ascii : ∀ v (x : PyStr), jsonDumps env.json v = .ok x → ValidText x := fun v x hx =>
    ascii_valid (dumpsDepth_ascii env.json hl (by simp) _ v x hx)
  obtain ⟨ht, hht⟩ := dumps_strings hp (header_strings env.json.floats alg th hkd)
  obtain ⟨he, hhe⟩ := encodeText_of (ascii _ _ hht)
  obtain ⟨pe, hpe⟩ := encodeText_of (ascii _ _ hp)
  obtain ⟨sig, hsig⟩ := hsign (he ++ 46 :: pe)
  unfold encodeWithKid createUnsignedCompact createHeader validateAlgorithm
  rw [hk', if_pos halg, hth]
  simp only [bind, Except.bind, hht, hhe, hp, hpe, hsig, pure, Except.pure]
  unfold createSignedCompact
  rw [utf8Decode_ascii]
  · exact ⟨_, rfl⟩
  · intro c hm
    have c1 := (encodeText_ok hhe).1
    have c2 := (encodeText_ok hpe).1
    have c3 := (encode_spec sig).1
    simp only [List.append_assoc, List.mem_append, List.mem_cons, List.cons_append] at hm
    rcases hm with hm | rfl | hm | rfl | hm
    · exact UrlChar.ascii (c1 c hm)
    · decide
    · exact UrlChar.ascii (c2 c hm)
    · decide
    · exact UrlChar.ascii (c3 c hm)

/-! ## Key data says what the key is -/

theorem table_unique {V : Type} {l : List (EnumVal × V)} (hn : (l.map Prod.fst).Nodup) {a : EnumVal}
    {x y : V} (hx : (a, x) ∈ l) (hy : (a, y) ∈ l) : x = y := by
  have h1 := PyDict.mem_get? l hn a x hx
  rw [PyDict.mem_get? l hn a y hy] at h1
  exact (Option.some.inj h1).symm

theorem _root_.Tink.Spec.TokenMacKey.unique {kd : KeyData} {alg alg' : PyStr} {kid kid' : Option PyStr}
    (h : TokenMacKey kd alg kid) (h' : TokenMacKey kd alg' kid') : alg = alg' ∧ kid = kid' := by
  obtain ⟨k, h1, h2, h3⟩ := h.key
  obtain ⟨k', g1, g2, g3⟩ := h'.key
  rw [h1] at g1
  cases g1
  exact ⟨table_unique (by decide) h2 g2, h3.trans g3.symm⟩

theorem _root_.Tink.Spec.VerifyKey.unique {kd : KeyData} {alg alg' : PyStr} {kid kid' : Option PyStr}
    (h : VerifyKey kd alg kid) (h' : VerifyKey kd alg' kid') : alg = alg' ∧ kid = kid' := by
  rcases h with ⟨k, u, h1, h2, h3⟩ | ⟨k, u, h1, h2, h3⟩ | ⟨k, u, h1, h2, h3⟩ <;>
  rcases h' with ⟨k', u', g1, g2, g3⟩ | ⟨k', u', g1, g2, g3⟩ | ⟨k', u', g1, g2, g3⟩
  all_goals first
    | exact absurd (u.symm.trans u') (by decide)
    | (rw [h1] at g1; cases g1; exact ⟨table_unique (by decide) h2 g2, h3.trans g3.symm⟩)

theorem _root_.Tink.Spec.SignKey.unique {kd : KeyData} {alg alg' : PyStr} {kid kid' : Option PyStr}
    (h : SignKey kd alg kid) (h' : SignKey kd alg' kid') : alg = alg' ∧ kid = kid' := by
  rcases h with ⟨k, u, h1, h2, h3⟩ | ⟨k, u, h1, h2, h3⟩ | ⟨k, u, h1, h2, h3⟩ <;>
  rcases h' with ⟨k', u', g1, g2, g3⟩ | ⟨k', u', g1, g2, g3⟩ | ⟨k', u', g1, g2, g3⟩
  all_goals first
    | exact absurd (u.symm.trans u') (by decide)
    | (rw [h1] at g1; cases g1; exact ⟨table_unique (by decide) h2 g2, h3.trans g3.symm⟩)

theorem toPy_valid (s : PStr) : ValidText s.toPy := List.all_eq_true.1 (toPy_scalar s)

theorem _root_.Tink.Spec.TokenMacKey.kid_valid {kd : KeyData} {alg : PyStr} {kid : Option PyStr}
    (h : TokenMacKey kd alg kid) : ∀ s, kid = some s → ValidText s := by
  obtain ⟨k, _, _, h3⟩ := h.key
  intro s hs
  rw [h3, Option.map_eq_some_iff] at hs
  obtain ⟨c, _, rfl⟩ := hs
  exact toPy_valid _

theorem _root_.Tink.Spec.SignKey.kid_valid {kd : KeyData} {alg : PyStr} {kid : Option PyStr}
    (h : SignKey kd alg kid) : ∀ s, kid = some s → ValidText s := by
  rcases h with ⟨_, _, _, _, h3⟩ | ⟨_, _, _, _, h3⟩ | ⟨_, _, _, _, h3⟩ <;>
  · intro s hs
    rw [h3, Option.map_eq_some_iff] at hs
    obtain ⟨c, _, rfl⟩ := hs
    exact toPy_valid _

theorem _root_.Tink.Spec.TokenMacKey.alg_valid {kd : KeyData} {alg : PyStr} {kid : Option PyStr}
    (h : TokenMacKey kd alg kid) : alg ∈ validAlgorithms := by
  obtain ⟨k, _, h2, _⟩ := h.key
  simp only [List.mem_cons, Prod.mk.injEq, List.not_mem_nil, or_false] at h2
  rcases h2 with h | h | h <;> simp [h.2, validAlgorithms]

theorem _root_.Tink.Spec.SignKey.alg_valid {kd : KeyData} {alg : PyStr} {kid : Option PyStr}
    (h : SignKey kd alg kid) : alg ∈ validAlgorithms := by
  rcases h with ⟨_, _, _, h2, _⟩ | ⟨_, _, _, h2, _⟩ | ⟨_, _, _, h2, _⟩ <;>
  · simp only [List.mem_cons, Prod.mk.injEq, List.not_mem_nil, or_false] at h2
    rcases h2 with h | h | h <;> simp [h.2, validAlgorithms]

theorem keyKid_valid (k : Key) : ∀ s, keyKid k = some s → ValidText s ∧ s ≠ [] := by
  intro s hs
  unfold keyKid at hs
  by_cases ht : k.outputPrefixType = OutputPrefixType.TINK
  · rw [if_pos ht] at hs
    cases hs
    constructor
    · refine ascii_valid fun x hx => ?_
      obtain ⟨c, hc, rfl⟩ := List.mem_map.1 hx
      exact UrlChar.ascii ((encode_spec _).1 c hc)
    · intro h
      have h1 := congrArg List.length h
      rw [List.length_map, (encode_spec _).2.1] at h1
      simp [be32] at h1
  · rw [if_neg ht] at hs; cases hs

theorem keyKid_eq {k k' : Key} (h1 : k'.keyId = k.keyId)
    (h2 : k'.outputPrefixType = k.outputPrefixType) : keyKid k' = keyKid k := by
  unfold keyKid; rw [h1, h2]

end Jwt
end Tink
