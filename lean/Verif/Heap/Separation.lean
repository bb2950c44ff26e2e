import Verif.Heap.Lemmas
import Verif.Jwt.RawLemmas

/-!
# What a program and its tokens share

The objects are of two kinds: those that belong to tokens, and those that the program can get hold of.
-/

namespace Tink
namespace Heap
open Spec Jwt Json JsonUtil

variable {F : Type}

/-! ## Dicts -/

theorem addrs_set {d : List (PyStr × Val F)} {n : PyStr} {v : Val F} {r : Nat}
    (hr : r ∈ addrs ((PyDict.set d n v).map Prod.snd)) : r ∈ addrs [v] ∨ r ∈ addrs (d.map Prod.snd) := by
  induction d with
  | nil => exact Or.inl hr
  | cons p d ih =>
    obtain ⟨k, x⟩ := p
    rw [PyDict.set] at hr
    rw [List.map_cons, addrs_cons (x : Val F), List.mem_append]
    by_cases hk : k = n
    · rw [if_pos hk, List.map_cons, addrs_cons, List.mem_append] at hr
      rcases hr with hr | hr
      · exact Or.inl hr
      · exact Or.inr (Or.inr hr)
    · rw [if_neg hk, List.map_cons, addrs_cons, List.mem_append] at hr
      rcases hr with hr | hr
      · exact Or.inr (Or.inl hr)
      · rcases ih hr with hr | hr
        · exact Or.inl hr
        · exact Or.inr (Or.inr hr)

theorem addrs_put {d : List (PyStr × Val F)} {n : PyStr} {o : Option (Val F)} {r : Nat}
    (hr : r ∈ addrs ((put d n o).map Prod.snd)) : r ∈ addrs o.toList ∨ r ∈ addrs (d.map Prod.snd) := by
  cases o with
  | none => exact Or.inr hr
  | some v => exact addrs_set hr

theorem addrs_get {d : List (PyStr × Val F)} {n : PyStr} {l : Nat}
    (h : PyDict.get? d n = some (.ref l)) : l ∈ addrs (d.map Prod.snd) := by
  have := PyDict.get?_mem _ _ _ h
  simp only [addrs, List.mem_filterMap, List.mem_map]
  exact ⟨.ref l, ⟨_, this, rfl⟩, rfl⟩

theorem get_put (d : List (PyStr × Val F)) (n k : PyStr) (o : Option (Val F)) :
    PyDict.get? (put d n o) k = if n = k then o.or (PyDict.get? d k) else PyDict.get? d k := by
  cases o with
  | none => simp [put]
  | some v => simp [put, PyDict.get?_set]

/-! ## Making tokens -/

/-- A token that passed the checks. -/
structure TokenOk (h : Store F) (t : Token F) : Prop where
  payload : ∃ p, h[t.payload]? = some (.dict p) ∧
    (∀ n v, n = py! "iss" ∨ n = py! "sub" ∨ n = py! "jti" → PyDict.get? p n = some v → v.addr? = none) ∧
    ∀ l, PyDict.get? p (py! "aud") = some (.ref l) →
      ∃ items, h[l]? = some (.list items) ∧ ∀ x ∈ items, isStr x = true

theorem stringClaim_plain {p : List (PyStr × Val F)} {n : PyStr} (h : stringClaim p n = .ok ()) {v : Val F}
    (hv : PyDict.get? p n = some v) : v.addr? = none := by
  unfold stringClaim at h
  rw [hv] at h
  cases v <;> first | rfl | cases h

theorem checkPayload_ok {fl : Floats F} {h : Store F} {p : List (PyStr × Val F)}
    (hc : checkPayload fl h p = .ok ()) :
    stringClaim p (py! "iss") = .ok () ∧ stringClaim p (py! "sub") = .ok () ∧
    stringClaim p (py! "jti") = .ok () ∧ audienceClaim h p = .ok () := by
  unfold checkPayload at hc
  obtain ⟨_, h1, hc⟩ := Jwt.bind_ok hc
  obtain ⟨_, h2, hc⟩ := Jwt.bind_ok hc
  obtain ⟨_, h3, hc⟩ := Jwt.bind_ok hc
  obtain ⟨_, h4, hc⟩ := Jwt.bind_ok hc
  obtain ⟨_, h5, hc⟩ := Jwt.bind_ok hc
  obtain ⟨_, h6, hc⟩ := Jwt.bind_ok hc
  exact ⟨h1, h2, h3, hc⟩

theorem initToken_ok {fl : Floats F} {h h' : Store F} {th : Option (Val F)} {v : Val F} {t : Token F}
    (hi : initToken fl h th v = .ok (t, h')) :
    ∃ l, v = .ref l ∧ h' = h ∧ t = ⟨th, l⟩ ∧ TokenOk h t := by
  unfold initToken at hi
  cases v with
  | ref l =>
    simp only at hi
    cases hl : h[l]? with
    | none => rw [hl] at hi; cases hi
    | some o =>
      rw [hl] at hi
      cases o with
      | list items => cases hi
      | dict p =>
        simp only at hi
        cases hc : checkPayload fl h p with
        | error e => rw [hc] at hi; cases hi
        | ok u =>
          rw [hc] at hi
          cases hi
          obtain ⟨h1, h2, h3, h4⟩ := checkPayload_ok hc
          refine ⟨l, rfl, rfl, rfl, ⟨p, hl, ?_, ?_⟩⟩
          · rintro n v (rfl | rfl | rfl) hv
            · exact stringClaim_plain h1 hv
            · exact stringClaim_plain h2 hv
            · exact stringClaim_plain h3 hv
          · intro a ha
            unfold audienceClaim at h4
            rw [ha] at h4
            simp only at h4
            cases hla : h[a]? with
            | none => rw [hla] at h4; cases h4
            | some o =>
              rw [hla] at h4
              cases o with
              | dict _ => cases h4
              | list items =>
                simp only at h4
                by_cases he : items.isEmpty
                · rw [if_pos he] at h4; cases h4
                · rw [if_neg he] at h4
                  by_cases hs : items.all isStr
                  · exact ⟨items, rfl, List.all_eq_true.1 hs⟩
                  · rw [if_neg hs] at h4; cases h4
  | _ => cases hi

theorem storedVal_spec {env : JsonEnv F} {h h' : Store F} {v w : Val F}
    (hs : storedVal env h v = .ok (w, h')) : Made h.length h h' [w] := by
  unfold storedVal at hs
  cases v with
  | ref l =>
    simp only at hs
    cases hr : readAll h (.ref l) with
    | none => rw [hr] at hs; cases hs
    | some j =>
      rw [hr] at hs
      simp only at hs
      cases hd : dumps env j with
      | error e => rw [hd] at hs; cases hs
      | ok text =>
        rw [hd] at hs
        simp only at hs
        cases hl : loads env text with
        | error e => rw [hl] at hs; cases hs
        | ok k =>
          rw [hl] at hs
          simp only at hs
          have := (alloc_spec h k).1
          rw [Except.ok.inj hs] at this
          exact this
  | _ => cases hs; exact ⟨Ext.refl _ _, fun r hr => by cases hr⟩

theorem addCustom_spec {env : JsonEnv F} {b : Nat} {l : List (ClaimName × Option (Val F))} :
    ∀ {h h' : Store F} {d d' : List (PyStr × Val F)}, b ≤ h.length →
    (∀ r ∈ addrs (d.map Prod.snd), b ≤ r ∧ r < h.length) → addCustom env h d l = .ok (d', h') →
    Made b h h' (d'.map Prod.snd) ∧ ∀ n ∈ registeredNames, PyDict.get? d' n = PyDict.get? d n := by
  induction l with
  | nil =>
    intro h h' d d' hb hd ha
    cases ha
    exact ⟨⟨Ext.refl _ _, hd⟩, fun _ _ => rfl⟩
  | cons p l ih =>
    intro h h' d d' hb hd ha
    obtain ⟨n, value⟩ := p
    unfold addCustom at ha
    cases n with
    | other => cases ha
    | str name =>
      simp only at ha
      by_cases hn : name ∈ registeredNames
      · rw [if_pos hn] at ha; cases ha
      · rw [if_neg hn] at ha
        cases value with
        | none => cases ha
        | some v =>
          simp only at ha
          cases hs : storedVal env h v with
          | error e => rw [hs] at ha; cases ha
          | ok r =>
            obtain ⟨w, h1⟩ := r
            rw [hs] at ha
            simp only at ha
            have hm := storedVal_spec hs
            have hlen := hm.toExt.len
            obtain ⟨i1, i2⟩ := ih (Nat.le_trans hb hlen) (d := PyDict.set d name w) (fun r hr => by
              rcases addrs_set hr with hr | hr
              · have := hm.addrs r hr; omega
              · have := hd r hr; omega) ha
            refine ⟨⟨(hm.toExt.weaken hb).trans i1.toExt, i1.addrs⟩, fun m hmr => ?_⟩
            rw [i2 m hmr, PyDict.get?_set, if_neg]
            rintro rfl
            exact hn hmr

/-- What `create` has made. -/
structure NewToken (h h' : Store F) (t : Token F) : Prop where
  ext : Ext h.length h h'
  payload : h.length ≤ t.payload ∧ t.payload < h'.length
  ok : TokenOk h' t
  header : ∀ v, t.typeHeader = some v → v.addr? = none

theorem timeVal_plain {o : Option DateTime} {x : Option (Val F)} (h : timeVal o = .ok x) :
    addrs x.toList = [] := by
  unfold timeVal at h
  cases o with
  | none => cases h; rfl
  | some d =>
    simp only at h
    cases hd : fromDatetime d with
    | error e => rw [hd] at h; cases h
    | ok n => rw [hd] at h; cases h; rfl

theorem nonEmptyText_plain (o : Option PyStr) : addrs (nonEmptyText (F := F) o).toList = [] := by
  match o with
  | none => rfl
  | some [] => rfl
  | some (_ :: _) => rfl

theorem textVal_plain (o : Option PyStr) : addrs ((o.map Val.str : Option (Val F))).toList = [] := by
  cases o <;> rfl

/-- The entries before the custom claims. -/
theorem timed_addrs {a : Args F} {aud exp nbf iat : Option (Val F)} (h1 : addrs exp.toList = [])
    (h2 : addrs nbf.toList = []) (h3 : addrs iat.toList = []) {r : Nat}
    (hr : r ∈ addrs ((put (put (put (baseEntries a aud) (py! "exp") exp) (py! "nbf") nbf)
        (py! "iat") iat).map Prod.snd)) : r ∈ addrs aud.toList := by
  rcases addrs_put hr with hr | hr
  · rw [h3] at hr; cases hr
  rcases addrs_put hr with hr | hr
  · rw [h2] at hr; cases hr
  rcases addrs_put hr with hr | hr
  · rw [h1] at hr; cases hr
  unfold baseEntries at hr
  rcases addrs_put hr with hr | hr
  · exact hr
  rcases addrs_put hr with hr | hr
  · rw [textVal_plain] at hr; cases hr
  rcases addrs_put hr with hr | hr
  · rw [textVal_plain] at hr; cases hr
  rcases addrs_put hr with hr | hr
  · rw [nonEmptyText_plain] at hr; cases hr
  rcases addrs_put hr with hr | hr
  · rw [nonEmptyText_plain] at hr; cases hr
  cases hr

theorem timed_aud (a : Args F) (v : Val F) (exp nbf iat : Option (Val F)) :
    PyDict.get? (put (put (put (baseEntries a (some v)) (py! "exp") exp) (py! "nbf") nbf)
        (py! "iat") iat) (py! "aud") = some v := by
  rw [get_put, if_neg (by decide), get_put, if_neg (by decide), get_put, if_neg (by decide)]
  unfold baseEntries
  rw [get_put, if_pos rfl]
  rfl

theorem copyAudiences_cases (h : Store F) (o : Option (Val F)) :
    (addrs (copyAudiences h o).1.toList = [] ∧ (copyAudiences h o).2 = h) ∨
    (∃ l x, o = some (.ref l) ∧ h[l]? = some x ∧ copyAudiences h o = (some (.ref h.length), h ++ [x])) := by
  cases o with
  | none => exact Or.inl ⟨rfl, rfl⟩
  | some v =>
    cases v with
    | ref l =>
      simp only [copyAudiences, copyShallow]
      cases hl : h[l]? with
      | none => exact Or.inl ⟨rfl, rfl⟩
      | some x => exact Or.inr ⟨l, x, rfl, hl, rfl⟩
    | _ => exact Or.inl ⟨rfl, rfl⟩

theorem create_spec {env : JsonEnv F} {h h' : Store F} {a : Args F} {t : Token F}
    (hc : create env h a = .ok (t, h')) : NewToken h h' t := by
  unfold create at hc
  split at hc
  · cases hc
  split at hc
  · cases hc
  split at hc
  · cases hc
  obtain ⟨exp, h1, hc⟩ := Jwt.bind_ok hc
  obtain ⟨nbf, h2, hc⟩ := Jwt.bind_ok hc
  obtain ⟨iat, h3, hc⟩ := Jwt.bind_ok hc
  obtain ⟨⟨d, k⟩, h4, hc⟩ := Jwt.bind_ok hc
  obtain ⟨p, hp, rfl, rfl, hok⟩ := initToken_ok hc
  cases hp
  simp only at *
  have hth : ∀ v, (a.typeHeader.map Val.str : Option (Val F)) = some v → v.addr? = none := by
    intro v hv
    cases ha : a.typeHeader with
    | none => rw [ha] at hv; cases hv
    | some s => rw [ha] at hv; cases hv; rfl
  have ht := fun r hr => timed_addrs (a := a) (aud := (copyAudiences h a.audiences).1) (r := r)
    (timeVal_plain h1) (timeVal_plain h2) (timeVal_plain h3) hr
  obtain ⟨q, hq, _, haud⟩ := hok.payload
  simp only at hq
  rw [List.getElem?_concat_length] at hq
  cases hq
  rcases copyAudiences_cases h a.audiences with ⟨c1, c2⟩ | ⟨l, x, c1, c2, c3⟩
  · rw [c2] at h4
    have := addCustom_spec (b := h.length) (Nat.le_refl _) (fun r hr => by
      have := ht r hr; rw [c1] at this; cases this) h4
    refine ⟨this.1.toExt.snoc _ this.1.addrs, ?_, hok, hth⟩
    have := this.1.toExt.len
    simp only [List.length_append, List.length_singleton]
    omega
  · rw [c3] at h4
    simp only at h4
    have := addCustom_spec (b := h.length) (by simp) (fun r hr => by
      rw [c3] at ht
      have := ht r hr
      simp only [Option.toList, addrs_ref, List.mem_singleton] at this
      subst this
      simp) h4
    have hx := haud h.length (by
      rw [this.2 (py! "aud") (by decide)]
      exact timed_aud a _ exp nbf iat)
    obtain ⟨items, hx, hs⟩ := hx
    have hlen := this.1.toExt.len
    simp only [List.length_append, List.length_singleton] at hlen
    have hxe : x = .list items := by
      rw [List.getElem?_append_left (by omega), this.1.toExt.get (by simp), List.getElem?_concat_length] at hx
      exact Option.some.inj hx
    have hplain : addrs x.vals = [] := by
      subst hxe
      refine List.eq_nil_iff_forall_not_mem.2 fun r hr => ?_
      simp only [addrs, Obj.vals, List.mem_filterMap] at hr
      obtain ⟨v, hv, hr⟩ := hr
      have := hs v hv
      cases v with
      | ref l => cases this
      | _ => cases hr
    refine ⟨((Ext.refl _ _).snoc x (fun r hr => ?_)).trans (this.1.toExt.snoc _ this.1.addrs), ?_, hok, hth⟩
    · rw [hplain] at hr; cases hr
    · simp only [List.length_append, List.length_singleton]
      omega

theorem alloc_plain (h : Store F) {j : JVal F} (hj : Plain j) :
    (alloc h j).2 = h ∧ (alloc h j).1.addr? = none := by
  cases j with
  | list l => exact hj.elim
  | dict d => exact hj.elim
  | _ => exact ⟨rfl, rfl⟩

theorem fromJson_spec {env : JsonEnv F} {h h' : Store F} {th : Option (JVal F)} {s : PyStr} {t : Token F}
    (hth : ∀ j, th = some j → Plain j) (hc : fromJson env h th s = .ok (t, h')) : NewToken h h' t := by
  unfold fromJson at hc
  cases hl : jsonLoads env s with
  | error e => rw [hl] at hc; cases hc
  | ok v =>
    rw [hl] at hc
    simp only at hc
    have hh : (allocHeader h th).2 = h ∧ ∀ v, (allocHeader h th).1 = some v → v.addr? = none := by
      cases th with
      | none => exact ⟨rfl, fun v hv => by cases hv⟩
      | some j =>
        refine ⟨(alloc_plain h (hth j rfl)).1, fun v hv => ?_⟩
        cases hv
        exact (alloc_plain h (hth j rfl)).2
    rw [hh.1] at hc
    obtain ⟨l, hv, rfl, rfl, hok⟩ := initToken_ok hc
    have ha := (alloc_spec h v).1
    rw [hv] at ha
    exact ⟨ha.toExt, ha.addrs l (by simp [addrs_ref]), hok, hh.2⟩

/-! ## The two kinds of objects -/

/-- The addresses with `P` belong to tokens, the others to the program. -/
structure Sep (w : World F) (P : Nat → Prop) : Prop where
  bound : ∀ l, P l → l < w.store.length
  inside : ∀ l o, P l → w.store[l]? = some o → ∀ r ∈ addrs o.vals, P r ∧ r < l
  outside : ∀ l o, ¬P l → w.store[l]? = some o → ∀ r ∈ addrs o.vals, ¬P r ∧ r < w.store.length
  known : ∀ l ∈ w.known, ¬P l ∧ l < w.store.length
  tokens : ∀ t ∈ w.tokens, P t.payload ∧ TokenOk w.store t ∧ ∀ v, t.typeHeader = some v → v.addr? = none

theorem Sep.start : Sep ({} : World F) fun _ => False where
  bound := fun _ h => h.elim
  inside := fun _ _ h => h.elim
  outside := fun l o _ h => by simp at h
  known := fun l h => by cases h
  tokens := fun t h => by cases h

/-- What a step keeps. -/
structure Keeps (w w' : World F) (P P' : Nat → Prop) : Prop where
  sep : Sep w' P'
  mono : ∀ l, P l → P' l
  store : ∀ l, P l → w'.store[l]? = w.store[l]?
  tokens : ∃ more, w'.tokens = w.tokens ++ more

theorem Keeps.refl {w : World F} {P : Nat → Prop} (h : Sep w P) : Keeps w w P P :=
  ⟨h, fun _ h => h, fun _ _ => rfl, [], by simp⟩

theorem TokenOk.keep {h h' : Store F} {P : Nat → Prop} {t : Token F} (ht : TokenOk h t) (hp : P t.payload)
    (hin : ∀ l o, P l → h[l]? = some o → ∀ r ∈ addrs o.vals, P r)
    (hs : ∀ l, P l → h'[l]? = h[l]?) : TokenOk h' t := by
  obtain ⟨p, h1, h2, h3⟩ := ht.payload
  refine ⟨p, by rw [hs _ hp]; exact h1, h2, fun l hl => ?_⟩
  have := hin _ _ hp h1 l (addrs_get hl)
  rw [hs l this]
  exact h3 l hl

theorem Sep.make {w : World F} {P : Nat → Prop} (hs : Sep w P) {h' : Store F} {t : Token F}
    (hn : NewToken w.store h' t) :
    Keeps w (w.make (.ok (t, h'))) P fun l => P l ∨ (w.store.length ≤ l ∧ l < h'.length) := by
  have hget : ∀ l, l < w.store.length → h'[l]? = w.store[l]? := fun l hl => hn.ext.get hl
  have hlen := hn.ext.len
  refine ⟨⟨?_, ?_, ?_, ?_, ?_⟩, fun l h => Or.inl h, fun l h => hget l (hs.bound l h), [t], rfl⟩
  · rintro l (h | h)
    · exact Nat.lt_of_lt_of_le (hs.bound l h) hlen
    · exact h.2
  · rintro l o (h | h) ho r hr
    · have hl := hs.bound l h
      rw [show (w.make (.ok (t, h'))).store = h' from rfl, hget l hl] at ho
      have := hs.inside l o h ho r hr
      exact ⟨Or.inl this.1, this.2⟩
    · have := hn.ext.fresh l o h.1 ho r hr
      exact ⟨Or.inr ⟨this.1, by omega⟩, this.2⟩
  · intro l o h ho r hr
    have hl : l < h'.length := (List.getElem?_eq_some_iff.1 ho).1
    have hl' : l < w.store.length := by
      apply Decidable.byContradiction
      intro hc
      exact h (Or.inr ⟨by omega, hl⟩)
    rw [show (w.make (.ok (t, h'))).store = h' from rfl, hget l hl'] at ho
    have := hs.outside l o (fun hp => h (Or.inl hp)) ho r hr
    refine ⟨?_, Nat.lt_of_lt_of_le this.2 hlen⟩
    rintro (hp | hp)
    · exact this.1 hp
    · omega
  · intro l h
    have := hs.known l h
    refine ⟨?_, Nat.lt_of_lt_of_le this.2 hlen⟩
    rintro (hp | hp)
    · exact this.1 hp
    · omega
  · intro t' ht'
    rcases List.mem_append.1 ht' with ht' | ht'
    · have := hs.tokens t' ht'
      exact ⟨Or.inl this.1, this.2.1.keep this.1 (fun l o hl ho r hr => (hs.inside l o hl ho r hr).1)
        (fun l hl => hget l (hs.bound l hl)), this.2.2⟩
    · rw [List.mem_singleton] at ht'
      subst ht'
      exact ⟨Or.inr hn.payload, hn.ok, hn.header⟩

/-- The program gets a value, which is made of new objects. -/
theorem Sep.grow {w : World F} {P : Nat → Prop} (hs : Sep w P) {h' : Store F} {v : Val F}
    (hm : Made w.store.length w.store h' [v]) : Keeps w ({ w with store := h' }.learn v) P P := by
  have hget : ∀ l, l < w.store.length → h'[l]? = w.store[l]? := fun l hl => hm.toExt.get hl
  have hlen := hm.toExt.len
  refine ⟨⟨?_, ?_, ?_, ?_, ?_⟩, fun l h => h, fun l h => hget l (hs.bound l h), [], by simp [World.learn]⟩
  · intro l h
    exact Nat.lt_of_lt_of_le (hs.bound l h) hlen
  · intro l o h ho
    rw [show (({ w with store := h' } : World F).learn v).store = h' from rfl, hget l (hs.bound l h)] at ho
    exact hs.inside l o h ho
  · intro l o h ho r hr
    rw [show (({ w with store := h' } : World F).learn v).store = h' from rfl] at ho ⊢
    have hl : l < h'.length := (List.getElem?_eq_some_iff.1 ho).1
    by_cases hl' : l < w.store.length
    · rw [hget l hl'] at ho
      have := hs.outside l o h ho r hr
      exact ⟨this.1, Nat.lt_of_lt_of_le this.2 hlen⟩
    · have := hm.toExt.fresh l o (by omega) ho r hr
      refine ⟨fun hp => ?_, by omega⟩
      have := hs.bound r hp
      omega
  · intro l h
    rw [show (({ w with store := h' } : World F).learn v).known = addrs [v] ++ w.known from rfl] at h
    rw [show (({ w with store := h' } : World F).learn v).store = h' from rfl]
    rcases List.mem_append.1 h with h | h
    · have := hm.addrs l h
      refine ⟨fun hp => ?_, this.2⟩
      have := hs.bound l hp
      omega
    · have := hs.known l h
      exact ⟨this.1, Nat.lt_of_lt_of_le this.2 hlen⟩
  · intro t ht
    have := hs.tokens t ht
    exact ⟨this.1, this.2.1.keep this.1 (fun l o hl ho r hr => (hs.inside l o hl ho r hr).1)
      (fun l hl => hget l (hs.bound l hl)), this.2.2⟩

/-- The program gets a value that is not an object. -/
theorem Sep.plain {w : World F} {P : Nat → Prop} (hs : Sep w P) {v : Val F} (hv : v.addr? = none) :
    Keeps w ({ w with store := w.store }.learn v) P P := by
  refine hs.grow ⟨Ext.refl _ _, fun r hr => ?_⟩
  simp only [addrs, List.filterMap_cons, hv, List.filterMap_nil] at hr
  cases hr

theorem Sep.claim {w : World F} {P : Nat → Prop} (hs : Sep w P) {i : Nat} {n : PyStr}
    (hn : n = py! "iss" ∨ n = py! "sub" ∨ n = py! "jti") :
    Keeps w (w.get i fun t => part w.store (claimOf w.store t n)) P P := by
  unfold World.get
  cases ht : w.tokens[i]? with
  | none => exact Keeps.refl hs
  | some t =>
    simp only
    obtain ⟨p, h1, h2, -⟩ := (hs.tokens t (List.mem_of_getElem? ht)).2.1.payload
    unfold claimOf Token.entries
    rw [h1]
    simp only
    cases hv : PyDict.get? p n with
    | none => exact Keeps.refl hs
    | some v => exact hs.plain (h2 n v hn hv)

theorem step_keeps (env : JsonEnv F) {w : World F} {P : Nat → Prop} (hs : Sep w P) {op : Op F}
    (hop : PlainHeader op) : ∃ P', Keeps w (step env w op) P P' := by
  cases op with
  | new o =>
    refine ⟨P, ?_⟩
    simp only [step]
    by_cases ho : addrs o.vals ⊆ w.known
    · rw [if_pos ho]
      have hget : ∀ l, l < w.store.length → (w.store ++ [o])[l]? = w.store[l]? :=
        fun l hl => List.getElem?_append_left hl
      refine ⟨⟨?_, ?_, ?_, ?_, ?_⟩, fun l h => h, fun l h => hget l (hs.bound l h), [], by simp⟩
      · intro l h
        have := hs.bound l h
        simp only [List.length_append, List.length_singleton]
        omega
      · intro l o' h ho'
        simp only [hget l (hs.bound l h)] at ho'
        exact hs.inside l o' h ho'
      · intro l o' h ho' r hr
        simp only [List.length_append, List.length_singleton]
        by_cases hl : l < w.store.length
        · simp only [hget l hl] at ho'
          have := hs.outside l o' h ho' r hr
          exact ⟨this.1, by omega⟩
        · have hlt := (List.getElem?_eq_some_iff.1 ho').1
          simp only [List.length_append, List.length_singleton] at hlt
          have : l = w.store.length := by omega
          subst this
          simp only [List.getElem?_concat_length] at ho'
          cases ho'
          have := hs.known r (ho hr)
          exact ⟨this.1, by omega⟩
      · intro l h
        simp only [List.length_append, List.length_singleton]
        rcases List.mem_cons.1 h with rfl | h
        · exact ⟨fun hp => Nat.lt_irrefl _ (hs.bound _ hp), by omega⟩
        · have := hs.known l h
          exact ⟨this.1, by omega⟩
      · intro t ht
        have := hs.tokens t ht
        exact ⟨this.1, this.2.1.keep this.1 (fun l o hl ho r hr => (hs.inside l o hl ho r hr).1)
          (fun l hl => hget l (hs.bound l hl)), this.2.2⟩
    · rw [if_neg ho]; exact Keeps.refl hs
  | set l o =>
    refine ⟨P, ?_⟩
    simp only [step]
    by_cases ho : l ∈ w.known ∧ addrs o.vals ⊆ w.known
    · rw [if_pos ho]
      have hl := hs.known l ho.1
      have hget : ∀ x, P x → (w.store.set l o)[x]? = w.store[x]? := by
        intro x hx
        rw [List.getElem?_set_ne]
        rintro rfl
        exact hl.1 hx
      refine ⟨⟨?_, ?_, ?_, ?_, ?_⟩, fun l h => h, hget, [], by simp⟩
      · intro x hx
        simp only [List.length_set]
        exact hs.bound x hx
      · intro x o' hx ho'
        simp only [hget x hx] at ho'
        exact hs.inside x o' hx ho'
      · intro x o' hx ho' r hr
        simp only [List.length_set]
        by_cases hxl : l = x
        · subst hxl
          simp only [List.getElem?_set_self hl.2] at ho'
          cases ho'
          exact hs.known r (ho.2 hr)
        · simp only [List.getElem?_set_ne hxl] at ho'
          exact hs.outside x o' hx ho' r hr
      · intro x hx
        simp only [List.length_set]
        exact hs.known x hx
      · intro t ht
        have := hs.tokens t ht
        exact ⟨this.1, this.2.1.keep this.1 (fun l o hl ho r hr => (hs.inside l o hl ho r hr).1) hget,
          this.2.2⟩
    · rw [if_neg ho]; exact Keeps.refl hs
  | look l =>
    refine ⟨P, ?_⟩
    simp only [step]
    by_cases hl : l ∈ w.known
    · rw [if_pos hl]
      cases ho : w.store[l]? with
      | none => exact Keeps.refl hs
      | some o =>
        refine ⟨⟨hs.bound, hs.inside, hs.outside, ?_, hs.tokens⟩, fun l h => h, fun l h => rfl, [], by simp⟩
        intro x hx
        rcases List.mem_append.1 hx with hx | hx
        · exact hs.outside l o (hs.known l hl).1 ho x hx
        · exact hs.known x hx
    · rw [if_neg hl]; exact Keeps.refl hs
  | create a =>
    simp only [step]
    by_cases ha : a.addrs ⊆ w.known
    · rw [if_pos ha]
      cases hc : create env w.store a with
      | error e => exact ⟨P, Keeps.refl hs⟩
      | ok r =>
        obtain ⟨t, h'⟩ := r
        exact ⟨_, hs.make (create_spec hc)⟩
    · rw [if_neg ha]; exact ⟨P, Keeps.refl hs⟩
  | fromJson th s =>
    simp only [step]
    cases hc : fromJson env w.store th s with
    | error e => exact ⟨P, Keeps.refl hs⟩
    | ok r =>
      obtain ⟨t, h'⟩ := r
      refine ⟨_, hs.make (fromJson_spec ?_ hc)⟩
      rintro j rfl
      exact hop
  | typeHeader i =>
    refine ⟨P, ?_⟩
    simp only [step]
    unfold World.get
    cases ht : w.tokens[i]? with
    | none => exact Keeps.refl hs
    | some t =>
      simp only
      unfold typeHeaderOf
      cases hv : t.typeHeader with
      | none => exact Keeps.refl hs
      | some v => exact hs.plain ((hs.tokens t (List.mem_of_getElem? ht)).2.2 v hv)
  | issuer i => exact ⟨P, hs.claim (Or.inl rfl)⟩
  | subject i => exact ⟨P, hs.claim (Or.inr (Or.inl rfl))⟩
  | jwtId i => exact ⟨P, hs.claim (Or.inr (Or.inr rfl))⟩
  | audiences i =>
    refine ⟨P, ?_⟩
    simp only [step]
    unfold World.get
    cases ht : w.tokens[i]? with
    | none => exact Keeps.refl hs
    | some t =>
      simp only
      obtain ⟨p, h1, -, h2⟩ := (hs.tokens t (List.mem_of_getElem? ht)).2.1.payload
      have hnew : ∀ o : Obj F, addrs o.vals = [] →
          Made w.store.length w.store (w.store ++ [o]) [.ref w.store.length] := by
        intro o ho
        refine ⟨(Ext.refl _ _).snoc o (fun r hr => by rw [ho] at hr; cases hr), fun r hr => ?_⟩
        simp only [addrs_ref, List.mem_singleton] at hr
        subst hr
        simp
      unfold audiencesOf claimOf Token.entries
      rw [h1]
      simp only
      cases hv : PyDict.get? p (py! "aud") with
      | none => exact Keeps.refl hs
      | some v =>
        cases v with
        | str s => exact hs.grow (hnew _ rfl)
        | ref l =>
          obtain ⟨items, hi, hstr⟩ := h2 l hv
          simp only [hi]
          refine hs.grow (hnew _ ?_)
          refine List.eq_nil_iff_forall_not_mem.2 fun r hr => ?_
          simp only [addrs, Obj.vals, List.mem_filterMap] at hr
          obtain ⟨v, hv, hr⟩ := hr
          have := hstr v hv
          cases v with
          | ref l => cases this
          | _ => cases hr
        | _ => exact Keeps.refl hs
  | customClaim i n =>
    refine ⟨P, ?_⟩
    simp only [step]
    unfold World.get
    cases ht : w.tokens[i]? with
    | none => exact Keeps.refl hs
    | some t =>
      simp only
      unfold customClaimOf
      by_cases hn : n ∈ registeredNames
      · rw [if_pos hn]; exact Keeps.refl hs
      · rw [if_neg hn]
        cases hc : claimOf w.store t n with
        | error e => exact Keeps.refl hs
        | ok v =>
          cases v with
          | ref l =>
            simp only [deepcopy]
            cases hr : readAll w.store (.ref l) with
            | none => exact Keeps.refl hs
            | some j => exact hs.grow (alloc_spec w.store j).1
          | _ => exact hs.plain rfl

theorem run_keeps (env : JsonEnv F) : ∀ (ops : List (Op F)) {w : World F} {P : Nat → Prop}, Sep w P →
    (∀ op ∈ ops, PlainHeader op) → ∃ P', Keeps w (run env w ops) P P'
  | [], w, P, hs, _ => ⟨P, Keeps.refl hs⟩
  | op :: ops, w, P, hs, h => by
    obtain ⟨P1, h1⟩ := step_keeps env hs (h op List.mem_cons_self)
    obtain ⟨P2, h2⟩ := run_keeps env ops h1.sep (fun o ho => h o (List.mem_cons_of_mem _ ho))
    refine ⟨P2, h2.sep, fun l hl => h2.mono l (h1.mono l hl), fun l hl => ?_, ?_⟩
    · have := h2.store l (h1.mono l hl)
      rw [h1.store l hl] at this
      exact this
    · obtain ⟨m1, e1⟩ := h1.tokens
      obtain ⟨m2, e2⟩ := h2.tokens
      refine ⟨m1 ++ m2, ?_⟩
      rw [show run env w (op :: ops) = run env (step env w op) ops from rfl, e2, e1, List.append_assoc]

theorem run_append (env : JsonEnv F) (w : World F) (ops ops' : List (Op F)) :
    run env w (ops ++ ops') = run env (run env w ops) ops' := by
  unfold run; rw [List.foldl_append]

/-- What belongs to a token stays what it is. -/
theorem Keeps.is {w w' : World F} {P P' : Nat → Prop} (hs : Sep w P) (hk : Keeps w w' P P') {v : Val F}
    (hv : ∀ r ∈ addrs [v], P r) {j : JVal F} (hi : Is w.store v j) : Is w'.store v j := by
  obtain ⟨n, hn⟩ := hi
  refine ⟨n, readWith_closed (P := P) (fun l o hl ho => ⟨?_, fun r hr => (hs.inside l o hl ho r hr).1⟩) hv hn⟩
  rw [hk.store l hl]
  exact ho

/-- What belongs to a token is a JSON value. -/
theorem Sep.reads {w : World F} {P : Nat → Prop} (hs : Sep w P) : ∀ (n : Nat) (v : Val F),
    (∀ r ∈ addrs [v], P r ∧ r < n) → ∃ j, Is w.store v j := by
  have aux : ∀ (m : Nat) (vs : List (Val F)),
      (∀ v : Val F, (∀ r ∈ addrs [v], P r ∧ r < m) → ∃ j, Is w.store v j) →
      (∀ r ∈ addrs vs, P r ∧ r < m) → ∃ k, ItemsAre w.store vs k := by
    intro m vs ih
    induction vs with
    | nil => intro _; exact ⟨[], trivial⟩
    | cons v vs ihv =>
      intro h
      rw [addrs_cons] at h
      obtain ⟨j, hj⟩ := ih v (fun r hr => h r (List.mem_append_left _ hr))
      obtain ⟨k, hk⟩ := ihv (fun r hr => h r (List.mem_append_right _ hr))
      exact ⟨j :: k, hj, hk⟩
  have aux' : ∀ (d : List (PyStr × Val F)) (k : List (JVal F)), ItemsAre w.store (d.map Prod.snd) k →
      ∃ p, EntriesAre w.store d p := by
    intro d
    induction d with
    | nil => intro _ _; exact ⟨[], trivial⟩
    | cons e d ihd =>
      intro k hk
      cases k with
      | nil => exact hk.elim
      | cons j k =>
        obtain ⟨p, hp⟩ := ihd k hk.2
        exact ⟨(e.1, j) :: p, rfl, hk.1, hp⟩
  intro n
  induction n with
  | zero =>
    intro v hv
    cases v with
    | ref l => exact absurd (hv l (by simp [addrs_ref])).2 (Nat.not_lt_zero _)
    | null => exact ⟨_, 0, rfl⟩
    | bool b => exact ⟨_, 0, rfl⟩
    | int b => exact ⟨_, 0, rfl⟩
    | float b => exact ⟨_, 0, rfl⟩
    | str b => exact ⟨_, 0, rfl⟩
  | succ n ih =>
    intro v hv
    cases v with
    | ref l =>
      have hl := hv l (by simp [addrs_ref])
      obtain ⟨o, ho⟩ : ∃ o, w.store[l]? = some o := ⟨_, List.getElem?_eq_getElem (hs.bound l hl.1)⟩
      obtain ⟨k, hk⟩ := aux n o.vals ih (fun r hr => by
        have := hs.inside l o hl.1 ho r hr
        exact ⟨this.1, by omega⟩)
      cases o with
      | list items => exact ⟨_, (is_list ho).2 ⟨k, rfl, hk⟩⟩
      | dict d =>
        obtain ⟨p, hp⟩ := aux' d k hk
        exact ⟨_, (is_dict ho).2 ⟨p, rfl, hp⟩⟩
    | null => exact ⟨_, 0, rfl⟩
    | bool b => exact ⟨_, 0, rfl⟩
    | int b => exact ⟨_, 0, rfl⟩
    | float b => exact ⟨_, 0, rfl⟩
    | str b => exact ⟨_, 0, rfl⟩

end Heap
end Tink
