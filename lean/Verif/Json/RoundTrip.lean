import Verif.Json.Lemmas

namespace Tink
namespace Json
open Spec

variable {F : Type}

/-- A text begins like a value. -/
def Begins (t : PyStr) : Prop := ∃ c r, t = c :: r ∧ isWs c = false ∧ c ≠ 93 ∧ c ≠ 125

theorem Begins.append {t : PyStr} (h : Begins t) (r : PyStr) : Begins (t ++ r) := by
  obtain ⟨c, u, rfl, h⟩ := h
  exact ⟨c, u ++ r, rfl, h⟩

theorem Begins.skipWs {t : PyStr} (h : Begins t) : skipWs t = t := by
  obtain ⟨c, u, rfl, h, _⟩ := h
  unfold Json.skipWs
  rw [List.dropWhile_cons, h]; rfl

theorem digit_notWs {c : Nat} (h : 48 ≤ c ∧ c ≤ 57) : isWs c = false := by
  unfold isWs
  simp only [Bool.or_eq_false_iff, decide_eq_false_iff_not]
  omega

theorem begins_intPart {i : PyStr} (h : IntPart i) : Begins i := by
  obtain ⟨c, r, rfl, h1, h2⟩ := h.cons
  exact ⟨c, r, rfl, digit_notWs ⟨h1, h2⟩, by omega, by omega⟩

/-- A text begins like a number or a constant. -/
def Plain (t : PyStr) : Prop := ∃ c r, t = c :: r ∧ c ≠ 34 ∧ c ≠ 91 ∧ c ≠ 123

theorem scanValue_plain (env : JsonEnv F) (hook : List (PyStr × JVal F) → Py (JVal F)) (depth : Nat)
    {t : PyStr} (h : Plain t) : scanValue env hook depth t = scanScalar env t := by
  obtain ⟨c, r, rfl, h1, h2, h3⟩ := h
  cases depth with
  | zero =>
    unfold scanValue
    rw [if_neg h1, if_neg (by omega)]
  | succ n =>
    unfold scanValue
    rw [if_neg h1, if_neg h2, if_neg h3]

theorem intPart_plain {i : PyStr} (h : IntPart i) (r : PyStr) : Plain (i ++ r) := by
  obtain ⟨c, t, rfl, h1, h2⟩ := h.cons
  exact ⟨c, t ++ r, rfl, by omega, by omega, by omega⟩

theorem signed_begins {sg i : PyStr} (hs : sg = [] ∨ sg = [45]) (hi : IntPart i) :
    Begins (sg ++ i) ∧ ∀ r, Plain (sg ++ i ++ r) := by
  rcases hs with rfl | rfl
  · exact ⟨begins_intPart hi, fun r => intPart_plain hi r⟩
  · exact ⟨⟨45, i, rfl, rfl, by omega, by omega⟩, fun r => ⟨45, i ++ r, rfl, by omega, by omega, by omega⟩⟩

theorem encodeInt_begins {env : JsonEnv F} {n : Int} {t : PyStr} (h : encodeInt env n = .ok t) :
    Begins t ∧ ∀ r, Plain (t ++ r) := by
  unfold encodeInt at h
  cases hd : env.digitsOk (decimal n.natAbs).length with
  | false => rw [hd] at h; simp at h
  | true =>
    rw [hd, if_pos rfl, Except.ok.injEq] at h
    by_cases hn : n < 0
    · rw [if_pos hn] at h; subst h
      exact signed_begins (.inr rfl) (decimal_intPart _)
    · rw [if_neg hn] at h; subst h
      exact signed_begins (.inl rfl) (decimal_intPart _)

theorem encodeFloat_begins {env : JsonEnv F} (hl : LawfulFloats env.floats) (x : PyFloat F) :
    Begins (encodeFloat env x) ∧ ∀ r, Plain (encodeFloat env x ++ r) := by
  cases x with
  | nan => exact ⟨⟨78, _, rfl, rfl, by omega, by omega⟩, fun r => ⟨78, _, rfl, by omega, by omega, by omega⟩⟩
  | inf => exact ⟨⟨73, _, rfl, rfl, by omega, by omega⟩, fun r => ⟨73, _, rfl, by omega, by omega, by omega⟩⟩
  | ninf => exact ⟨⟨45, _, rfl, rfl, by omega, by omega⟩, fun r => ⟨45, _, rfl, by omega, by omega, by omega⟩⟩
  | fin x =>
    obtain ⟨sg, i, f, e, he, hs, hi, -⟩ := hl.numeral x
    unfold encodeFloat
    simp only
    rw [he]
    have := signed_begins hs hi
    refine ⟨(this.1.append f).append e, fun r => ?_⟩
    have := this.2 (f ++ (e ++ r))
    simpa only [List.append_assoc] using this

theorem dumps_begins {env : JsonEnv F} (hl : LawfulFloats env.floats) {pad : PyStr} {depth : Nat}
    {v : JVal F} {t : PyStr} (h : dumpsDepth env pad depth v = .ok t) : Begins t := by
  have str : ∀ s, Begins (encodeString s) := fun s => ⟨34, _, rfl, rfl, by omega, by omega⟩
  have br : ∀ (a b : Nat) (m : Py (List PyStr)), isWs a = false → a ≠ 93 → a ≠ 125 →
      bracket pad a b m = .ok t → Begins t := by
    intro a b m h1 h2 h3 hb
    unfold bracket at hb
    cases m with
    | error e => simp at hb
    | ok ts => simp only [Except.ok.injEq] at hb; subst hb; exact ⟨a, _, rfl, h1, h2, h3⟩
  cases v with
  | null =>
    cases depth <;> (unfold dumpsDepth at h; cases h; exact ⟨110, _, rfl, rfl, by omega, by omega⟩)
  | bool b =>
    cases b
    · cases depth <;> (unfold dumpsDepth at h; cases h; exact ⟨102, _, rfl, rfl, by omega, by omega⟩)
    · cases depth <;> (unfold dumpsDepth at h; cases h; exact ⟨116, _, rfl, rfl, by omega, by omega⟩)
  | int n => cases depth <;> (unfold dumpsDepth at h; exact (encodeInt_begins h).1)
  | float x => cases depth <;> (unfold dumpsDepth at h; cases h; exact (encodeFloat_begins hl x).1)
  | str s => cases depth <;> (unfold dumpsDepth at h; cases h; exact str s)
  | list l =>
    cases depth with
    | zero => unfold dumpsDepth at h; cases h
    | succ n => unfold dumpsDepth at h; exact br _ _ _ rfl (by omega) (by omega) h
  | dict d =>
    cases depth with
    | zero => unfold dumpsDepth at h; cases h
    | succ n => unfold dumpsDepth at h; exact br _ _ _ rfl (by omega) (by omega) h

theorem mapPy_cons {α β : Type} {f : α → Py β} {a : α} {as : List α} {ys : List β}
    (h : mapPy f (a :: as) = .ok ys) : ∃ b bs, f a = .ok b ∧ mapPy f as = .ok bs ∧ ys = b :: bs := by
  unfold mapPy at h
  cases h1 : f a with
  | error e => rw [h1] at h; simp at h
  | ok b =>
    cases h2 : mapPy f as with
    | error e => rw [h1, h2] at h; simp at h
    | ok bs =>
      rw [h1, h2] at h
      simp only [Except.ok.injEq] at h
      exact ⟨b, bs, rfl, rfl, h.symm⟩

theorem mapPy_nil {α β : Type} {f : α → Py β} {ys : List β} (h : mapPy f [] = .ok ys) : ys = [] := by
  unfold mapPy at h
  simp only [Except.ok.injEq] at h
  exact h.symm

theorem commas_cons (pad t u : PyStr) (ts : List PyStr) : commas pad (t :: u :: ts) = t ++ 44 :: (pad ++ commas pad (u :: ts)) := rfl

theorem commas_begins {pad t : PyStr} {ts : List PyStr} (h : Begins t) : Begins (commas pad (t :: ts)) := by
  cases ts with
  | nil => exact h
  | cons u us => rw [commas_cons]; exact h.append _

theorem commas_length (pad : PyStr) (ts : List PyStr) (h : ∀ t ∈ ts, 1 ≤ t.length) : ts.length ≤ (commas pad ts).length := by
  induction ts with
  | nil => exact Nat.le_refl _
  | cons t ts ih =>
    have h1 := h t (by simp)
    have h2 := ih (fun u hu => h u (by simp [hu]))
    cases ts with
    | nil => exact h1
    | cons u us =>
      rw [commas_cons]
      simp only [List.length_append, List.length_cons] at h2 ⊢
      omega

theorem follows_cons {c : Nat} {r : PyStr}
    (h : c = 44 ∨ c = 93 ∨ c = 125 ∨ c = 10 ∨ c = 32 ∨ c = 9 ∨ c = 13) : Follows (c :: r) := by
  intro x hx
  simp only [List.head?_cons, Option.mem_def, Option.some.injEq] at hx
  subst hx; exact h

theorem skipWs_cons {c : Nat} {r : PyStr} (h : isWs c = false) : skipWs (c :: r) = c :: r := by
  unfold skipWs
  rw [List.dropWhile_cons, h]; rfl

theorem skipWs_pad {pad : PyStr} (hpad : ∀ c ∈ pad, isWs c = true) (t : PyStr) :
    skipWs (pad ++ t) = skipWs t := by
  induction pad with
  | nil => rfl
  | cons c pad ih =>
    have h1 := hpad c (by simp)
    have h2 := ih (fun x hx => hpad x (by simp [hx]))
    unfold skipWs at h2 ⊢
    rw [List.cons_append, List.dropWhile_cons, h1, if_pos rfl, h2]

theorem scanItems_commas {pad : PyStr} (hpad : ∀ c ∈ pad, isWs c = true) {scan : PyStr → Py (JVal F × PyStr)} {f : JVal F → Py PyStr}
    (hb : ∀ v t, f v = .ok t → Begins t) (l : List (JVal F))
    (hscan : ∀ v ∈ l, ∀ t, f v = .ok t → ∀ r, Follows r → scan (t ++ r) = .ok (v, r))
    (ts : List PyStr) (hts : mapPy f l = .ok ts) (hne : l ≠ []) (n : Nat) (hn : l.length ≤ n)
    (r : PyStr) : scanItems scan n (commas pad ts ++ 93 :: r) = .ok (l, r) := by
  induction l generalizing ts n with
  | nil => exact absurd rfl hne
  | cons v l ih =>
    obtain ⟨t, us, h1, h2, rfl⟩ := mapPy_cons hts
    cases n with
    | zero => simp at hn
    | succ n =>
      rw [scanItems.eq_def]
      simp only
      cases l with
      | nil =>
        rw [mapPy_nil h2]
        show (match scan (t ++ 93 :: r) with | .error e => _ | .ok (v, r) => _) = _
        rw [hscan v (by simp) t h1 _ (follows_cons (by omega))]
        simp only [skipWs_cons (show isWs 93 = false from rfl), if_true]
      | cons w l =>
        obtain ⟨u, vs, h3, h4, rfl⟩ := mapPy_cons h2
        rw [commas_cons, List.append_assoc, List.cons_append, List.append_assoc,
          hscan v (by simp) t h1 _ (follows_cons (by omega))]
        simp only [skipWs_cons (show isWs 44 = false from rfl)]
        rw [if_neg (by omega), if_pos trivial, skipWs_pad hpad, ((commas_begins (hb w u h3)).append _).skipWs,
          ih (fun x hx => hscan x (by simp [hx])) (u :: vs) h2 (by simp) n (by simpa using hn)]
        rfl

theorem scanKey_encode {pad : PyStr} (hpad : ∀ c ∈ pad, isWs c = true) (k : PyStr) (hk : Joined k)
    (t : PyStr) (ht : Begins t) : scanKey (encodeString k ++ 58 :: (pad ++ t)) = .ok (k, t) := by
  unfold encodeString scanKey
  simp only [List.cons_append, List.append_assoc, List.nil_append]
  rw [if_pos trivial, scanString_encode k hk]
  simp only [skipWs_cons (show isWs 58 = false from rfl), skipWs_pad hpad, ht.skipWs, if_true]

theorem encodePair_ok {pad : PyStr} {f : JVal F → Py PyStr} {p : PyStr × JVal F} {t : PyStr}
    (h : encodePair pad f p = .ok t) : ∃ u, f p.2 = .ok u ∧ t = encodeString p.1 ++ 58 :: (pad ++ u) := by
  unfold encodePair at h
  cases hf : f p.2 with
  | error e => rw [hf] at h; simp at h
  | ok u => rw [hf] at h; simp only [Except.ok.injEq] at h; exact ⟨u, rfl, h.symm⟩

theorem scanPairs_commas {pad : PyStr} (hpad : ∀ c ∈ pad, isWs c = true) {scan : PyStr → Py (JVal F × PyStr)} {f : JVal F → Py PyStr}
    (hb : ∀ v t, f v = .ok t → Begins t) (d : List (PyStr × JVal F))
    (hscan : ∀ k v, (k, v) ∈ d → ∀ t, f v = .ok t → ∀ r, Follows r → scan (t ++ r) = .ok (v, r))
    (hk : ∀ k v, (k, v) ∈ d → Joined k) (ts : List PyStr) (hts : mapPy (encodePair pad f) d = .ok ts)
    (hne : d ≠ []) (n : Nat) (hn : d.length ≤ n) (r : PyStr) :
    scanPairs scan n (commas pad ts ++ 125 :: r) = .ok (d, r) := by
  induction d generalizing ts n with
  | nil => exact absurd rfl hne
  | cons p d ih =>
    obtain ⟨k, v⟩ := p
    obtain ⟨t, us, h0, h2, rfl⟩ := mapPy_cons hts
    obtain ⟨t, h1, rfl⟩ := encodePair_ok h0
    have hkv := hk k v (by simp)
    cases n with
    | zero => simp at hn
    | succ n =>
      rw [scanPairs.eq_def]
      simp only
      cases d with
      | nil =>
        rw [mapPy_nil h2]
        simp only [commas, List.append_assoc, List.cons_append]
        rw [scanKey_encode hpad k hkv _ ((hb v t h1).append _)]
        simp only
        rw [hscan k v (by simp) t h1 _ (follows_cons (by omega))]
        simp only [skipWs_cons (show isWs 125 = false from rfl), if_true]
      | cons q d =>
        obtain ⟨k', w⟩ := q
        obtain ⟨u, vs, h3, h4, rfl⟩ := mapPy_cons h2
        have hu : Begins u := by
          obtain ⟨x, _, rfl⟩ := encodePair_ok h3
          exact ⟨34, _, rfl, rfl, by omega, by omega⟩
        rw [commas_cons]
        simp only [List.append_assoc, List.cons_append]
        rw [scanKey_encode hpad k hkv _ ((hb v t h1).append _)]
        simp only
        rw [hscan k v (by simp) t h1 _ (follows_cons (by omega))]
        simp only [skipWs_cons (show isWs 44 = false from rfl)]
        rw [if_neg (by omega), if_pos trivial, skipWs_pad hpad, ((commas_begins hu).append _).skipWs,
          ih (fun k x hx => hscan k x (by simp [hx])) (fun k x hx => hk k x (by simp [hx])) (u :: vs) h2
            (by simp) n (by simpa using hn)]
        rfl

theorem mapPy_length {α β : Type} {f : α → Py β} {l : List α} {ys : List β}
    (h : mapPy f l = .ok ys) : ys.length = l.length ∧ ∀ y ∈ ys, ∃ a ∈ l, f a = .ok y := by
  induction l generalizing ys with
  | nil => rw [mapPy_nil h]; exact ⟨rfl, by simp⟩
  | cons a l ih =>
    obtain ⟨b, bs, h1, h2, rfl⟩ := mapPy_cons h
    have := ih h2
    refine ⟨by simp [this.1], ?_⟩
    intro y hy
    rcases List.mem_cons.1 hy with rfl | hy
    · exact ⟨a, by simp, h1⟩
    · obtain ⟨x, hx, hf⟩ := this.2 y hy
      exact ⟨x, by simp [hx], hf⟩

theorem Begins.length {t : PyStr} (h : Begins t) : 1 ≤ t.length := by
  obtain ⟨c, r, rfl, _⟩ := h
  simp

/-- What `json.dumps` wrote is read back. -/
theorem scanValue_dumps (env : JsonEnv F) (hl : LawfulFloats env.floats)
    (hook : List (PyStr × JVal F) → Py (JVal F)) (pad : PyStr) (hpad : ∀ c ∈ pad, isWs c = true) (depth : Nat) (v : JVal F) (t : PyStr)
    (h : dumpsDepth env pad depth v = .ok t) (hv : AllTextJoined v)
    (hh : ∀ d, Within (.dict d) v → hook d = .ok (.dict d)) (r : PyStr) (hr : Follows r) :
    scanValue env hook depth (t ++ r) = .ok (v, r) := by
  induction depth generalizing v t r with
  | zero =>
    cases v with
    | null => unfold dumpsDepth at h; cases h; rfl
    | bool b => cases b <;> (unfold dumpsDepth at h; cases h; rfl)
    | int n =>
      unfold dumpsDepth at h
      rw [scanValue_plain env hook 0 ((encodeInt_begins h).2 r), scanScalar_int env n h hr]
    | float x =>
      unfold dumpsDepth at h; cases h
      rw [scanValue_plain env hook 0 ((encodeFloat_begins hl x).2 r), scanScalar_float env hl x r hr]
    | str s =>
      unfold dumpsDepth at h; cases h
      unfold encodeString
      simp only [List.cons_append, List.append_assoc, List.nil_append]
      unfold scanValue
      rw [if_pos rfl, scanString_encode s (hv.1 s .here)]
    | list l => unfold dumpsDepth at h; cases h
    | dict d => unfold dumpsDepth at h; cases h
  | succ depth ih =>
    cases v with
    | null => unfold dumpsDepth at h; cases h; rfl
    | bool b => cases b <;> (unfold dumpsDepth at h; cases h; rfl)
    | int n =>
      unfold dumpsDepth at h
      rw [scanValue_plain env hook _ ((encodeInt_begins h).2 r), scanScalar_int env n h hr]
    | float x =>
      unfold dumpsDepth at h; cases h
      rw [scanValue_plain env hook _ ((encodeFloat_begins hl x).2 r), scanScalar_float env hl x r hr]
    | str s =>
      unfold dumpsDepth at h; cases h
      unfold encodeString
      simp only [List.cons_append, List.append_assoc, List.nil_append]
      unfold scanValue
      rw [if_pos rfl, scanString_encode s (hv.1 s .here)]
    | list l =>
      unfold dumpsDepth at h
      cases hm : mapPy (dumpsDepth env pad depth) l with
      | error e => rw [hm] at h; cases h
      | ok ts =>
        rw [hm] at h
        cases h
        simp only [List.cons_append, List.append_assoc, List.nil_append]
        unfold scanValue
        rw [if_neg (by omega), if_pos rfl]
        unfold scanArray
        cases l with
        | nil =>
          rw [mapPy_nil hm]
          simp only [commas, List.nil_append, skipWs_cons (show isWs 93 = false from rfl), if_true]
        | cons w l =>
          have hlen := mapPy_length hm
          have hb : ∀ v t, dumpsDepth env pad depth v = .ok t → Begins t := fun v t => dumps_begins hl
          have hcl := commas_length pad ts (by
            intro y hy
            obtain ⟨a, _, ha⟩ := hlen.2 y hy
            exact (hb a y ha).length)
          obtain ⟨u, us, h1, h2, rfl⟩ := mapPy_cons hm
          have hbeg := (commas_begins (pad := pad) (ts := us) (hb w u h1)).append (93 :: r)
          rw [hbeg.skipWs]
          obtain ⟨c, x, hx, _, h93, _⟩ := hbeg
          rw [hx]
          simp only
          rw [if_neg h93, ← hx, scanItems_commas hpad hb (w :: l) _ _ hm (by simp)]
          · rfl
          · have := congrArg List.length hx
            simp only [List.length_append, List.length_cons] at this hlen hcl ⊢
            omega
          · intro y hy t ht r' hr'
            refine ih y t ht ⟨fun s hs => hv.1 s (.item hy hs), fun d hd => hv.2 d (.item hy hd)⟩
              (fun d hd => hh d (.item hy hd)) r' hr'
    | dict d =>
      unfold dumpsDepth at h
      cases hm : mapPy (encodePair pad (dumpsDepth env pad depth)) d with
      | error e => rw [hm] at h; cases h
      | ok ts =>
        rw [hm] at h
        cases h
        simp only [List.cons_append, List.append_assoc, List.nil_append]
        unfold scanValue
        rw [if_neg (by omega), if_neg (by omega), if_pos rfl]
        unfold scanObject
        cases d with
        | nil =>
          rw [mapPy_nil hm]
          simp only [commas, List.nil_append, skipWs_cons (show isWs 125 = false from rfl), if_true]
          unfold hooked
          simp only [hh [] .here]
        | cons p d =>
          have hlen := mapPy_length hm
          have hb : ∀ v t, dumpsDepth env pad depth v = .ok t → Begins t := fun v t => dumps_begins hl
          have hbp : ∀ p t, encodePair pad (dumpsDepth env pad depth) p = .ok t → Begins t := by
            intro p t ht
            obtain ⟨u, _, rfl⟩ := encodePair_ok ht
            exact ⟨34, _, rfl, rfl, by omega, by omega⟩
          have hcl := commas_length pad ts (by
            intro y hy
            obtain ⟨a, _, ha⟩ := hlen.2 y hy
            exact (hbp a y ha).length)
          obtain ⟨u, us, h1, h2, rfl⟩ := mapPy_cons hm
          have hbeg := (commas_begins (pad := pad) (ts := us) (hbp p u h1)).append (125 :: r)
          rw [hbeg.skipWs]
          obtain ⟨c, x, hx, _, _, h125⟩ := hbeg
          rw [hx]
          simp only
          rw [if_neg h125, ← hx, scanPairs_commas hpad hb (p :: d) _ _ _ hm (by simp)]
          · unfold hooked
            simp only [hh _ .here]
          · have := congrArg List.length hx
            simp only [List.length_append, List.length_cons] at this hlen hcl ⊢
            omega
          · intro k y hy t ht r' hr'
            refine ih y t ht ⟨fun s hs => hv.1 s (.value hy hs), fun d hd => hv.2 d (.value hy hd)⟩
              (fun d hd => hh d (.value hy hd)) r' hr'
          · exact fun k y hy => hv.2 _ .here k y hy

theorem loadsHook_dumpsDepth (env : JsonEnv F) (hl : LawfulFloats env.floats)
    (hook : List (PyStr × JVal F) → Py (JVal F)) (pad : PyStr) (hpad : ∀ c ∈ pad, isWs c = true)
    (v : JVal F) (t : PyStr) (h : dumpsDepth env pad env.depth v = .ok t) (hv : AllTextJoined v)
    (hh : ∀ d, Within (.dict d) v → hook d = .ok (.dict d)) : loadsHook env hook t = .ok v := by
  have h1 := scanValue_dumps env hl hook pad hpad env.depth v t h hv hh [] (by intro c hc; simp at hc)
  have h2 := (dumps_begins hl h).skipWs
  rw [List.append_nil] at h1
  unfold loadsHook
  rw [h2, h1]
  rfl

theorem dictOf_aux (ps d : List (PyStr × JVal F)) (h : ((d ++ ps).map Prod.fst).Nodup) :
    ps.foldl (fun d p => PyDict.set d p.1 p.2) d = d ++ ps := by
  induction ps generalizing d with
  | nil => simp
  | cons p ps ih =>
    have hset : PyDict.set d p.1 p.2 = d ++ [p] := by
      have hp : p.1 ∉ d.map Prod.fst := by
        intro hmem
        rw [List.map_append, List.map_cons, List.nodup_append] at h
        exact h.2.2 p.1 hmem p.1 (by simp) rfl
      clear ih h
      induction d with
      | nil => rfl
      | cons q d ihd =>
        simp only [List.map_cons, List.mem_cons, not_or] at hp
        unfold PyDict.set
        rw [if_neg (fun e => hp.1 e.symm), ihd hp.2]
        rfl
    rw [List.foldl_cons, hset, ih]
    · simp
    · simpa using h

theorem dictOf_nodup {ps : List (PyStr × JVal F)} (h : (ps.map Prod.fst).Nodup) : dictOf ps = ps := by
  unfold dictOf
  rw [dictOf_aux ps [] (by simpa using h)]
  rfl

/-- Keys set one after the other stay distinct. -/
theorem set_keys (d : List (PyStr × JVal F)) (k : PyStr) (v : JVal F) :
    (PyDict.set d k v).map Prod.fst =
      if k ∈ d.map Prod.fst then d.map Prod.fst else d.map Prod.fst ++ [k] := by
  induction d with
  | nil => rfl
  | cons p d ih =>
    obtain ⟨k', v'⟩ := p
    unfold PyDict.set
    by_cases h : k' = k
    · rw [if_pos h, if_pos (by simp [h])]; rfl
    · rw [if_neg h, List.map_cons, ih]
      simp only [List.map_cons, List.mem_cons, Ne.symm h, false_or]
      split <;> rfl

theorem set_nodup {d : List (PyStr × JVal F)} {k : PyStr} {v : JVal F}
    (h : (d.map Prod.fst).Nodup) : ((PyDict.set d k v).map Prod.fst).Nodup := by
  rw [set_keys]
  split
  · exact h
  · rename_i hk
    rw [List.nodup_append]
    refine ⟨h, by simp, ?_⟩
    intro a ha b hb
    simp only [List.mem_singleton] at hb
    subst hb
    rintro rfl; exact hk ha

theorem set_mem {d : List (PyStr × JVal F)} {k : PyStr} {v : JVal F} {p : PyStr × JVal F}
    (h : p ∈ PyDict.set d k v) : p ∈ d ∨ (p.1 = k ∧ p.2 = v) := by
  induction d with
  | nil => simp only [PyDict.set, List.mem_singleton] at h; subst h; exact .inr ⟨rfl, rfl⟩
  | cons q d ih =>
    obtain ⟨k', v'⟩ := q
    unfold PyDict.set at h
    split at h
    · rename_i hk
      rcases List.mem_cons.1 h with rfl | h
      · exact .inr ⟨hk, rfl⟩
      · exact .inl (by simp [h])
    · rcases List.mem_cons.1 h with rfl | h
      · exact .inl (by simp)
      · rcases ih h with h | h
        · exact .inl (by simp [h])
        · exact .inr h

theorem dictOf_inv (ps d : List (PyStr × JVal F)) (h : (d.map Prod.fst).Nodup) :
    ((ps.foldl (fun d p => PyDict.set d p.1 p.2) d).map Prod.fst).Nodup ∧
      ∀ p ∈ ps.foldl (fun d p => PyDict.set d p.1 p.2) d, p ∈ d ∨ p ∈ ps := by
  induction ps generalizing d with
  | nil => exact ⟨h, fun p hp => .inl hp⟩
  | cons q ps ih =>
    have := ih (PyDict.set d q.1 q.2) (set_nodup h)
    refine ⟨this.1, fun p hp => ?_⟩
    rcases this.2 p hp with hp | hp
    · rcases set_mem hp with hp | ⟨h1, h2⟩
      · exact .inl hp
      · exact .inr (by rw [show p = q from Prod.ext h1 h2]; simp)
    · exact .inr (by simp [hp])

theorem dictOf_distinct (ps : List (PyStr × JVal F)) :
    ((dictOf ps).map Prod.fst).Nodup ∧ ∀ p ∈ dictOf ps, p ∈ ps := by
  have := dictOf_inv ps [] (by simp)
  exact ⟨this.1, fun p hp => (this.2 p hp).resolve_left (by simp)⟩

/-! ## What holds of all parsed values -/

section
variable {env : JsonEnv F} {hook : List (PyStr × JVal F) → Py (JVal F)} {P : JVal F → Prop}

theorem scanItems_inv {scan : PyStr → Py (JVal F × PyStr)}
    (hs : ∀ s v r, scan s = .ok (v, r) → P v) (n : Nat) (s : PyStr) (l : List (JVal F)) (r : PyStr)
    (h : scanItems scan n s = .ok (l, r)) : ∀ x ∈ l, P x := by
  induction n generalizing s l r with
  | zero => cases h
  | succ n ih =>
    unfold scanItems at h
    cases h1 : scan s with
    | error e => rw [h1] at h; cases h
    | ok p =>
      have hp := hs s p.1 p.2 h1
      rw [h1] at h
      simp only at h
      repeat' split at h
      all_goals try (cases h; done)
      · cases h; simpa using hp
      · rename_i r1 _ _ _
        cases h2 : scanItems scan n (skipWs r1) with
        | error e => rw [h2] at h; cases h
        | ok q =>
          rw [h2] at h; cases h
          intro x hx
          rcases List.mem_cons.1 hx with rfl | hx
          · exact hp
          · exact ih _ _ _ h2 x hx

theorem scanPairs_inv {scan : PyStr → Py (JVal F × PyStr)}
    (hs : ∀ s v r, scan s = .ok (v, r) → P v) (n : Nat) (s : PyStr) (l : List (PyStr × JVal F))
    (r : PyStr) (h : scanPairs scan n s = .ok (l, r)) : ∀ p ∈ l, P p.2 := by
  induction n generalizing s l r with
  | zero => cases h
  | succ n ih =>
    unfold scanPairs at h
    cases h0 : scanKey s with
    | error e => rw [h0] at h; cases h
    | ok q =>
      rw [h0] at h
      simp only at h
      cases h1 : scan q.2 with
      | error e => rw [h1] at h; cases h
      | ok p =>
        have hp := hs q.2 p.1 p.2 h1
        rw [h1] at h
        simp only at h
        repeat' split at h
        all_goals try (cases h; done)
        · cases h; simpa using hp
        · rename_i r1 _ _ _
          cases h2 : scanPairs scan n (skipWs r1) with
          | error e => rw [h2] at h; cases h
          | ok q =>
            rw [h2] at h; cases h
            intro x hx
            rcases List.mem_cons.1 hx with rfl | hx
            · exact hp
            · exact ih _ _ _ h2 x hx

theorem scanValue_inv (hscalar : ∀ s v r, scanScalar env s = .ok (v, r) → P v)
    (hstr : ∀ s, P (.str s)) (hlist : ∀ l, (∀ x ∈ l, P x) → P (.list l))
    (hhook : ∀ ps v, hook ps = .ok v → (∀ p ∈ ps, P p.2) → P v) (depth : Nat) (s : PyStr) (v : JVal F)
    (r : PyStr) (h : scanValue env hook depth s = .ok (v, r)) : P v := by
  have str : ∀ (t : PyStr) (v : JVal F) (r : PyStr), (match scanString t with
      | .ok (s, r1) => (.ok (.str s, r1) : Py (JVal F × PyStr)) | .error e => .error e) = .ok (v, r) →
      P v := by
    intro t v r h
    cases hs : scanString t with
    | error e' => rw [hs] at h; cases h
    | ok p => rw [hs] at h; cases h; exact hstr _
  have hk : ∀ (m : Py (List (PyStr × JVal F) × PyStr)) (v : JVal F) (r : PyStr),
      (∀ l r', m = .ok (l, r') → ∀ p ∈ l, P p.2) → hooked hook m = .ok (v, r) → P v := by
    intro m v r hm h
    unfold hooked at h
    cases m with
    | error e => cases h
    | ok q =>
      simp only at h
      cases h1 : hook q.1 with
      | error e => rw [h1] at h; cases h
      | ok w => rw [h1] at h; cases h; exact hhook _ _ h1 (hm _ _ rfl)
  induction depth generalizing s v r with
  | zero =>
    cases s with
    | nil => cases h
    | cons c t =>
      unfold scanValue at h
      by_cases h1 : c = 34
      · rw [if_pos h1] at h; exact str t _ _ h
      rw [if_neg h1] at h
      by_cases h2 : c = 91 ∨ c = 123
      · rw [if_pos h2] at h; cases h
      rw [if_neg h2] at h
      exact hscalar _ _ _ h
  | succ depth ih =>
    cases s with
    | nil => cases h
    | cons c t =>
      unfold scanValue at h
      by_cases h1 : c = 34
      · rw [if_pos h1] at h; exact str t _ _ h
      rw [if_neg h1] at h
      by_cases h2 : c = 91
      · rw [if_pos h2] at h
        unfold scanArray at h
        cases h3 : skipWs t with
        | nil => rw [h3] at h; cases h
        | cons c' r1 =>
          rw [h3] at h
          simp only at h
          by_cases h4 : c' = 93
          · rw [if_pos h4] at h; cases h; exact hlist _ (by simp)
          · rw [if_neg h4] at h
            cases h5 : scanItems (scanValue env hook depth) (r1.length + 1) (c' :: r1) with
            | error e' => rw [h5] at h; cases h
            | ok p => rw [h5] at h; cases h; exact hlist _ (scanItems_inv ih _ _ _ _ h5)
      rw [if_neg h2] at h
      by_cases h2 : c = 123
      · rw [if_pos h2] at h
        unfold scanObject at h
        cases h3 : skipWs t with
        | nil => rw [h3] at h; cases h
        | cons c' r1 =>
          rw [h3] at h
          simp only at h
          by_cases h4 : c' = 125
          · rw [if_pos h4] at h
            refine hk _ _ _ ?_ h
            intro l r' e p hp; cases e; simp at hp
          · rw [if_neg h4] at h
            exact hk _ _ _ (fun l r' e => scanPairs_inv ih _ _ _ _ e) h
      rw [if_neg h2] at h
      exact hscalar _ _ _ h

theorem loadsHook_inv (hscalar : ∀ s v r, scanScalar env s = .ok (v, r) → P v)
    (hstr : ∀ s, P (.str s)) (hlist : ∀ l, (∀ x ∈ l, P x) → P (.list l))
    (hhook : ∀ ps v, hook ps = .ok v → (∀ p ∈ ps, P p.2) → P v) (text : PyStr) (v : JVal F)
    (h : loadsHook env hook text = .ok v) : P v := by
  unfold loadsHook at h
  cases h1 : scanValue env hook env.depth (skipWs text) with
  | error e => rw [h1] at h; cases h
  | ok p =>
    rw [h1] at h
    simp only at h
    split at h
    · cases h; exact scanValue_inv hscalar hstr hlist hhook _ _ _ _ h1
    · cases h

end

end Json
end Tink
