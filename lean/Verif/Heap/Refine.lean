import Verif.Heap.Separation

/-!
# The model with objects, and the model with values
-/

namespace Tink
namespace Heap
open Spec Jwt Json JsonUtil

variable {F : Type}

/-- `Is`, by cases. -/
inductive Reads (h : Store F) : Val F → JVal F → Prop where
  | null : Reads h .null .null
  | bool (b : Bool) : Reads h (.bool b) (.bool b)
  | int (n : Int) : Reads h (.int n) (.int n)
  | float (x : PyFloat F) : Reads h (.float x) (.float x)
  | str (s : PyStr) : Reads h (.str s) (.str s)
  | list (l : Nat) (items : List (Val F)) (k : List (JVal F)) (hl : h[l]? = some (.list items))
      (hk : ItemsAre h items k) : Reads h (.ref l) (.list k)
  | dict (l : Nat) (d : List (PyStr × Val F)) (p : List (PyStr × JVal F)) (hl : h[l]? = some (.dict d))
      (hk : EntriesAre h d p) : Reads h (.ref l) (.dict p)

theorem reads {h : Store F} {v : Val F} {j : JVal F} (hi : Is h v j) : Reads h v j := by
  cases v with
  | ref l =>
    cases hl : h[l]? with
    | none => exact (is_none hl hi).elim
    | some o =>
      cases o with
      | list items => obtain ⟨k, rfl, hk⟩ := (is_list hl).1 hi; exact .list l items k hl hk
      | dict d => obtain ⟨k, rfl, hk⟩ := (is_dict hl).1 hi; exact .dict l d k hl hk
  | null => rw [is_plain rfl] at hi; cases hi; exact .null
  | bool b => rw [is_plain rfl] at hi; cases hi; exact .bool b
  | int b => rw [is_plain rfl] at hi; cases hi; exact .int b
  | float b => rw [is_plain rfl] at hi; cases hi; exact .float b
  | str b => rw [is_plain rfl] at hi; cases hi; exact .str b

/-- An entry of the dict, in both models. -/
theorem EntriesAre.get {h : Store F} {n : PyStr} :
    ∀ {d : List (PyStr × Val F)} {p : List (PyStr × JVal F)}, EntriesAre h d p →
    (PyDict.get? d n = none ∧ PyDict.get? p n = none) ∨
    ∃ v j, PyDict.get? d n = some v ∧ PyDict.get? p n = some j ∧ Reads h v j
  | [], [], _ => Or.inl ⟨rfl, rfl⟩
  | (k, v) :: d, (k', j) :: p, hi => by
    obtain ⟨h1, h2, h3⟩ := hi
    cases h1
    rw [PyDict.get?_cons, PyDict.get?_cons]
    by_cases hk : k = n
    · rw [if_pos hk, if_pos hk]
      exact Or.inr ⟨v, j, rfl, rfl, reads h2⟩
    · rw [if_neg hk, if_neg hk]
      exact EntriesAre.get h3

theorem EntriesAre.set {h : Store F} {n : PyStr} {v : Val F} {j : JVal F} (hv : Is h v j) :
    ∀ {d : List (PyStr × Val F)} {p : List (PyStr × JVal F)}, EntriesAre h d p →
    EntriesAre h (PyDict.set d n v) (PyDict.set p n j)
  | [], [], _ => ⟨rfl, hv, trivial⟩
  | (k, x) :: d, (k', y) :: p, hi => by
    obtain ⟨h1, h2, h3⟩ := hi
    cases h1
    rw [PyDict.set, PyDict.set]
    by_cases hk : k = n
    · rw [if_pos hk, if_pos hk]
      exact ⟨rfl, hv, h3⟩
    · rw [if_neg hk, if_neg hk]
      exact ⟨rfl, h2, EntriesAre.set hv h3⟩

/-- Two optional values. -/
def OptIs (h : Store F) : Option (Val F) → Option (JVal F) → Prop
  | none, none => True
  | some v, some j => Is h v j
  | _, _ => False

theorem EntriesAre.put {h : Store F} {n : PyStr} {d : List (PyStr × Val F)} {p : List (PyStr × JVal F)}
    (hd : EntriesAre h d p) {v : Option (Val F)} {j : Option (JVal F)} (hv : OptIs h v j) :
    EntriesAre h (Heap.put d n v) (putOpt p n j) := by
  cases v with
  | none =>
    cases j with
    | none => exact hd
    | some j => exact hv.elim
  | some v =>
    cases j with
    | none => exact hv.elim
    | some j => exact hd.set hv

/-! ## Checks -/

theorem stringClaim_eq {h : Store F} {d : List (PyStr × Val F)} {p : List (PyStr × JVal F)}
    (hd : EntriesAre h d p) (n : PyStr) : stringClaim d n = validateStringClaim p n := by
  unfold stringClaim validateStringClaim
  rcases hd.get (n := n) with ⟨h1, h2⟩ | ⟨v, j, h1, h2, hr⟩
  · rw [h1, h2]
  · rw [h1, h2]
    cases hr <;> rfl

theorem timestampClaim_eq {h : Store F} (fl : Floats F) {d : List (PyStr × Val F)}
    {p : List (PyStr × JVal F)} (hd : EntriesAre h d p) (n : PyStr) :
    timestampClaim fl d n = validateTimestampClaim fl p n := by
  unfold timestampClaim validateTimestampClaim
  rcases hd.get (n := n) with ⟨h1, h2⟩ | ⟨v, j, h1, h2, hr⟩
  · rw [h1, h2]
  · rw [h1, h2]
    cases hr <;> rfl

theorem isStr_eq {h : Store F} {v : Val F} {j : JVal F} (hi : Is h v j) : isStr v = Jwt.isStr j := by
  cases reads hi <;> rfl

theorem items_eq {h : Store F} : ∀ {l : List (Val F)} {k : List (JVal F)}, ItemsAre h l k →
    l.isEmpty = k.isEmpty ∧ l.all isStr = k.all Jwt.isStr
  | [], [], _ => ⟨rfl, rfl⟩
  | v :: l, j :: k, hi => by
    refine ⟨rfl, ?_⟩
    rw [List.all_cons, List.all_cons, isStr_eq hi.1, (items_eq hi.2).2]

theorem audienceClaim_eq {h : Store F} {d : List (PyStr × Val F)} {p : List (PyStr × JVal F)}
    (hd : EntriesAre h d p) : audienceClaim h d = validateAudienceClaim p := by
  unfold audienceClaim validateAudienceClaim
  rcases hd.get (n := py! "aud") with ⟨h1, h2⟩ | ⟨v, j, h1, h2, hr⟩
  · rw [h1, h2]
  · rw [h1, h2]
    cases hr with
    | list l items k hl hk => simp only [hl, (items_eq hk).1, (items_eq hk).2]
    | dict l d p hl hk => simp only [hl]
    | _ => rfl

theorem checkPayload_eq {h : Store F} (fl : Floats F) {d : List (PyStr × Val F)}
    {p : List (PyStr × JVal F)} (hd : EntriesAre h d p) : checkPayload fl h d = validatePayload fl p := by
  unfold checkPayload validatePayload
  rw [stringClaim_eq hd, stringClaim_eq hd, stringClaim_eq hd, timestampClaim_eq fl hd,
    timestampClaim_eq fl hd, timestampClaim_eq fl hd, audienceClaim_eq hd]

/-! ## Creation -/

theorem same_bind {α β α' β' : Type} {R : α → β → Prop} {S : α' → β' → Prop} {x : Py α} {y : Py β}
    {f : α → Py α'} {g : β → Py β'} (h : Same R x y) (hf : ∀ a b, R a b → Same S (f a) (g b)) :
    Same S (x >>= f) (y >>= g) := by
  cases x with
  | error e =>
    cases y with
    | error e' => exact h
    | ok b => exact h.elim
  | ok a =>
    cases y with
    | error e' => exact h.elim
    | ok b => exact hf a b h

theorem initToken_same (fl : Floats F) {h : Store F} {th : Option (Val F)} {th' : Option (JVal F)}
    {v : Val F} {j : JVal F} (hth : OptIs h th th') (hv : Is h v j) :
    Same (fun r c => r.2 = h ∧ TokenIs h r.1 c) (initToken fl h th v) (RawJwt.init fl th' j) := by
  unfold initToken
  cases reads hv with
  | dict l d p hl hk =>
    simp only [hl, RawJwt.init, checkPayload_eq fl hk]
    cases validatePayload fl p with
    | error e => rfl
    | ok u =>
      refine ⟨rfl, ?_, hv⟩
      cases th with
      | none =>
        cases th' with
        | none => exact Or.inl ⟨rfl, rfl⟩
        | some j => exact hth.elim
      | some v =>
        cases th' with
        | none => exact hth.elim
        | some j => exact Or.inr ⟨v, j, rfl, rfl, hth⟩
  | list l items k hl hk => simp only [hl, RawJwt.init]; rfl
  | _ => rfl

theorem storedVal_same (env : JsonEnv F) {h : Store F} {v : Val F} {j : JVal F} (hv : Is h v j) :
    Same (fun r k => (∃ m, r.2 = h ++ m) ∧ Is r.2 r.1 k) (storedVal env h v) (storedClaim env j) := by
  have key : ∀ l, v = .ref l → Same (fun r k => (∃ m, r.2 = h ++ m) ∧ Is r.2 r.1 k) (storedVal env h v)
      (storedClaim.copyOf env j) := by
    rintro l rfl
    unfold storedVal storedClaim.copyOf
    simp only [readAll_iff.2 hv]
    cases dumps env j with
    | error e => rfl
    | ok text =>
      simp only
      cases loads env text with
      | error e => rfl
      | ok k => exact ⟨(alloc_spec h k).1.toExt.app, (alloc_spec h k).2⟩
  cases reads hv with
  | list l items k hl hk => exact key l rfl
  | dict l d p hl hk => exact key l rfl
  | _ => exact ⟨⟨[], by simp⟩, hv⟩

theorem claimsAre_append {h : Store F} (m : Store F) :
    ∀ {l : List (ClaimName × Option (Val F))} {l' : List (ClaimName × ClaimValue F)},
    ClaimsAre h l l' → ClaimsAre (h ++ m) l l'
  | [], [], _ => trivial
  | (_, none) :: _, (_, .other) :: _, hc => ⟨hc.1, claimsAre_append m hc.2⟩
  | (_, some _) :: _, (_, .json _) :: _, hc => ⟨hc.1, is_append hc.2.1 m, claimsAre_append m hc.2.2⟩

theorem addCustom_same (env : JsonEnv F) :
    ∀ {l : List (ClaimName × Option (Val F))} {l' : List (ClaimName × ClaimValue F)} {h : Store F}
      {d : List (PyStr × Val F)} {p : List (PyStr × JVal F)}, ClaimsAre h l l' → EntriesAre h d p →
    Same (fun r q => (∃ m, r.2 = h ++ m) ∧ EntriesAre r.2 r.1 q) (addCustom env h d l)
      (addCustomClaims env p l')
  | [], [], h, d, p, _, hd => ⟨⟨[], by simp⟩, hd⟩
  | (n, none) :: l, (n', .other) :: l', h, d, p, hc, hd => by
    cases hc.1
    cases n with
    | other => rfl
    | str name =>
      simp only [addCustom, addCustomClaims]
      by_cases hn : name ∈ registeredNames
      · rw [if_pos hn, if_pos hn]; rfl
      · rw [if_neg hn, if_neg hn]; rfl
  | (n, some v) :: l, (n', .json j) :: l', h, d, p, hc, hd => by
    obtain ⟨h1, h2, h3⟩ := hc
    cases h1
    cases n with
    | other => rfl
    | str name =>
      simp only [addCustom, addCustomClaims]
      by_cases hn : name ∈ registeredNames
      · rw [if_pos hn, if_pos hn]; rfl
      · rw [if_neg hn, if_neg hn]
        have hs := storedVal_same env h2
        cases hx : storedVal env h v with
        | error e =>
          rw [hx] at hs
          cases hy : storedClaim env j with
          | error e' => rw [hy] at hs; exact hs
          | ok k => rw [hy] at hs; exact hs.elim
        | ok r =>
          obtain ⟨w, h'⟩ := r
          rw [hx] at hs
          cases hy : storedClaim env j with
          | error e' => rw [hy] at hs; exact hs.elim
          | ok k =>
            rw [hy] at hs
            obtain ⟨⟨m, hm⟩, hi⟩ := hs
            simp only at hm hi ⊢
            subst hm
            have := addCustom_same env (claimsAre_append m h3) ((hd.append m).set (n := name) hi)
            cases hx' : addCustom env (h ++ m) (PyDict.set d name w) l with
            | error e =>
              rw [hx'] at this
              cases hy' : addCustomClaims env (PyDict.set p name k) l' with
              | error e' => rw [hy'] at this; exact this
              | ok k => rw [hy'] at this; exact this.elim
            | ok r =>
              rw [hx'] at this
              cases hy' : addCustomClaims env (PyDict.set p name k) l' with
              | error e' => rw [hy'] at this; exact this.elim
              | ok q =>
                rw [hy'] at this
                obtain ⟨⟨m', hm'⟩, hq⟩ := this
                exact ⟨⟨m ++ m', by rw [hm', List.append_assoc]⟩, hq⟩

theorem timeVal_same (h : Store F) (o : Option DateTime) :
    Same (OptIs h) (timeVal o) (timeClaim o) := by
  unfold timeVal timeClaim
  cases o with
  | none => trivial
  | some t =>
    simp only
    cases fromDatetime t with
    | error e => rfl
    | ok n => exact ⟨0, rfl⟩

theorem optIs_text (h : Store F) (o : Option PyStr) : OptIs h (o.map .str) (o.map .str) := by
  cases o with
  | none => trivial
  | some s => exact ⟨0, rfl⟩

theorem optIs_nonEmpty (h : Store F) (o : Option PyStr) : OptIs h (nonEmptyText o) (nonEmpty o) := by
  match o with
  | none => trivial
  | some [] => trivial
  | some (_ :: _) => exact ⟨0, rfl⟩

theorem copyAudiences_same {h : Store F} {a : Args F} {b : RawJwtArgs F} (ha : ArgsAre h a b) :
    (∃ m, (copyAudiences h a.audiences).2 = h ++ m) ∧
    OptIs (copyAudiences h a.audiences).2 (copyAudiences h a.audiences).1 (b.audiences.map .list) := by
  rcases ha.audiences with ⟨h1, h2⟩ | ⟨l, items, h1, h2, hi⟩
  · rw [h1, h2]; exact ⟨⟨[], by simp [copyAudiences]⟩, trivial⟩
  · rw [h1, h2]
    cases hl : h[l]? with
    | none => exact (is_none hl hi).elim
    | some o =>
      have hc : copyAudiences h (some (.ref l)) = (some (.ref h.length), h ++ [o]) := by
        simp only [copyAudiences, copyShallow, hl]
      rw [hc]
      refine ⟨⟨[o], rfl⟩, ?_⟩
      have hlen : (h ++ [o])[h.length]? = some o := List.getElem?_concat_length
      show Is (h ++ [o]) (.ref h.length) (.list items)
      cases o with
      | list vs =>
        obtain ⟨k, hk, hvs⟩ := (is_list hl).1 hi
        cases hk
        exact (is_list hlen).2 ⟨items, rfl, hvs.append _⟩
      | dict d =>
        obtain ⟨k, hk, -⟩ := (is_dict hl).1 hi
        cases hk

theorem baseEntries_same {h h' : Store F} {a : Args F} {b : RawJwtArgs F} (ha : ArgsAre h a b)
    {aud : Option (Val F)} (haud : OptIs h' aud (b.audiences.map .list)) :
    EntriesAre h' (baseEntries a aud) (basePayload b) := by
  unfold baseEntries basePayload
  rw [ha.issuer, ha.subject, ha.jwtId, ha.audience]
  exact ((((EntriesAre.put (n := py! "iss") (d := []) (p := []) trivial (optIs_nonEmpty h' _)).put
    (optIs_nonEmpty h' _)).put (optIs_text h' _)).put (optIs_text h' _)).put haud

theorem same_imp {α β : Type} {R S : α → β → Prop} {x : Py α} {y : Py β} (h : Same R x y)
    (hRS : ∀ a b, R a b → S a b) : Same S x y := by
  cases x <;> cases y
  · exact h
  · exact h.elim
  · exact h.elim
  · exact hRS _ _ h

theorem create_same (env : JsonEnv F) {h : Store F} {a : Args F} {b : RawJwtArgs F} (ha : ArgsAre h a b) :
    Same (fun r c => (∃ m, r.2 = h ++ m) ∧ TokenIs r.2 r.1 c) (create env h a) (newRawJwt env b) := by
  unfold create newRawJwt
  have haud : a.audiences.isSome = b.audiences.isSome := by
    rcases ha.audiences with ⟨h1, h2⟩ | ⟨l, items, h1, h2, hi⟩
    · rw [h1, h2]; rfl
    · rw [h1, h2]; rfl
  rw [ha.expiration, ha.withoutExpiration, ha.audience, haud, ha.notBefore, ha.issuedAt]
  split
  · rfl
  split
  · rfl
  split
  · rfl
  obtain ⟨⟨m, hm⟩, hc⟩ := copyAudiences_same ha
  refine same_bind (timeVal_same (h ++ m) _) fun exp exp' hexp => ?_
  refine same_bind (timeVal_same (h ++ m) _) fun nbf nbf' hnbf => ?_
  refine same_bind (timeVal_same (h ++ m) _) fun iat iat' hiat => ?_
  rw [hm] at hc ⊢
  have hbase := (((baseEntries_same ha hc).put (n := py! "exp") hexp).put (n := py! "nbf") hnbf).put
    (n := py! "iat") hiat
  refine same_bind (addCustom_same env (claimsAre_append m ha.customClaims) hbase) fun r q hr => ?_
  obtain ⟨⟨m', hm'⟩, hq⟩ := hr
  have hd : Is (r.2 ++ [.dict r.1]) (.ref r.2.length) (.dict q) :=
    (is_dict List.getElem?_concat_length).2 ⟨q, rfl, hq.append _⟩
  refine same_imp (initToken_same env.floats ?_ hd) fun x c hx => ⟨⟨m ++ (m' ++ [.dict r.1]), ?_⟩, ?_⟩
  · rw [ha.typeHeader]; exact optIs_text _ _
  · rw [hx.1, hm']; simp
  · rw [hx.1]; exact hx.2

theorem fromJson_same (env : JsonEnv F) (h : Store F) (th : Option (JVal F)) (s : PyStr) :
    Same (fun r c => (∃ m, r.2 = h ++ m) ∧ TokenIs r.2 r.1 c) (fromJson env h th s)
      (RawJwt.fromJson env th s) := by
  unfold fromJson RawJwt.fromJson
  cases jsonLoads env s with
  | error e => rfl
  | ok v =>
    simp only
    have h1 : (∃ m, (allocHeader h th).2 = h ++ m) ∧ OptIs (allocHeader h th).2 (allocHeader h th).1 th := by
      cases th with
      | none => exact ⟨⟨[], by simp [allocHeader]⟩, trivial⟩
      | some j => exact ⟨(alloc_spec h j).1.toExt.app, (alloc_spec h j).2⟩
    obtain ⟨⟨m, hm⟩, hth⟩ := h1
    have h2 := alloc_spec (allocHeader h th).2 v
    obtain ⟨m', hm'⟩ := h2.1.toExt.app
    refine same_imp (initToken_same env.floats ?_ h2.2) fun x c hx => ⟨⟨m ++ m', ?_⟩, ?_⟩
    · cases hv : (allocHeader h th).1 with
      | none =>
        rw [hv] at hth
        cases th with
        | none => trivial
        | some j => exact hth.elim
      | some w =>
        rw [hv] at hth
        cases th with
        | none => exact hth.elim
        | some j => exact h2.1.toExt.is hth
    · rw [hx.1, hm', hm]; simp
    · rw [hx.1]; exact hx.2

/-! ## Methods -/

theorem claimOf_same {h : Store F} {t : Token F} {c : RawJwt F} (ht : TokenIs h t c) (n : PyStr) :
    Same (Is h) (claimOf h t n) (c.claim n) := by
  unfold claimOf RawJwt.claim Token.entries
  cases reads ht.payload with
  | dict l d p hl hk =>
    rw [hl]
    simp only
    rcases hk.get (n := n) with ⟨h1, h2⟩ | ⟨v, j, h1, h2, hr⟩
    · rw [h1, h2]; rfl
    · rw [h1, h2]
      show Is h v j
      cases hr with
      | list l items k hl hk => exact (is_list hl).2 ⟨k, rfl, hk⟩
      | dict l d p hl hk => exact (is_dict hl).2 ⟨p, rfl, hk⟩
      | _ => exact ⟨0, rfl⟩

theorem typeHeaderOf_same {h : Store F} {t : Token F} {c : RawJwt F} (ht : TokenIs h t c) :
    Same (Is h) (typeHeaderOf t) c.getTypeHeader := by
  unfold typeHeaderOf RawJwt.getTypeHeader
  rcases ht.typeHeader with ⟨h1, h2⟩ | ⟨v, j, h1, h2, hi⟩
  · rw [h1, h2]; rfl
  · rw [h1, h2]; exact hi

theorem audiencesOf_same {h : Store F} {t : Token F} {c : RawJwt F} (ht : TokenIs h t c) :
    Same (fun r k => r.1 = .ref h.length ∧ (∃ m, r.2 = h ++ m) ∧ Is r.2 r.1 (.list k)) (audiencesOf h t)
      c.audiences := by
  unfold audiencesOf RawJwt.audiences
  have hs := claimOf_same ht (py! "aud")
  cases hx : claimOf h t (py! "aud") with
  | error e =>
    rw [hx] at hs
    cases hy : c.claim (py! "aud") with
    | error e' => rw [hy] at hs; exact hs
    | ok j => rw [hy] at hs; exact hs.elim
  | ok v =>
    rw [hx] at hs
    cases hy : c.claim (py! "aud") with
    | error e' => rw [hy] at hs; exact hs.elim
    | ok j =>
      rw [hy] at hs
      cases reads hs with
      | str s =>
        refine ⟨rfl, ⟨_, rfl⟩, (is_list List.getElem?_concat_length).2 ⟨_, rfl, ⟨0, rfl⟩, trivial⟩⟩
      | list l items k hl hk =>
        simp only [hl]
        exact ⟨rfl, ⟨_, rfl⟩, (is_list List.getElem?_concat_length).2 ⟨_, rfl, hk.append _⟩⟩
      | dict l d p hl hk =>
        simp only [hl]; rfl
      | _ => rfl

theorem customClaimOf_same {h : Store F} {t : Token F} {c : RawJwt F} (ht : TokenIs h t c) (n : PyStr) :
    Same (fun r j => (∃ m, r.2 = h ++ m) ∧ Is r.2 r.1 j) (customClaimOf h t n) (c.customClaim n) := by
  unfold customClaimOf RawJwt.customClaim
  by_cases hn : n ∈ registeredNames
  · rw [if_pos hn, if_pos hn]; rfl
  · rw [if_neg hn, if_neg hn]
    have hs := claimOf_same ht n
    cases hx : claimOf h t n with
    | error e =>
      rw [hx] at hs
      cases hy : c.claim n with
      | error e' => rw [hy] at hs; exact hs
      | ok j => rw [hy] at hs; exact hs.elim
    | ok v =>
      rw [hx] at hs
      cases hy : c.claim n with
      | error e' => rw [hy] at hs; exact hs.elim
      | ok j =>
        rw [hy] at hs
        have hi : Is h v j := hs
        cases v with
        | ref l =>
          simp only [deepcopy, readAll_iff.2 hi]
          exact ⟨(alloc_spec h j).1.toExt.app, (alloc_spec h j).2⟩
        | _ => exact ⟨⟨[], by simp⟩, hi⟩

end Heap
end Tink
