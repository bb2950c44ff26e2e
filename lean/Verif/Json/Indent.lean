import Verif.Json.RoundTrip

/-!
# `json.dumps(v, indent=2)`

With an indentation `json.dumps` uses the encoder written in Python, `_make_iterencode` in
`Lib/json/encoder.py` of CPython.  Its text is read back by `json.loads`.
-/

namespace Tink
namespace Json
open Spec

variable {F : Type}

/-- `newline_indent`: a line feed and two spaces for every level. -/
def newline (level : Nat) : PyStr := 10 :: List.replicate (2 * level) 32

/-- Puts brackets around the texts, each on a line of its own; `[]` and `{}` stay together. -/
def bracketIndent (level l r : Nat) : Py (List PyStr) → Py PyStr
  | .error e => .error e
  | .ok [] => .ok [l, r]
  | .ok (t :: ts) =>
    .ok (l :: (newline (level + 1) ++ (commas (newline (level + 1)) (t :: ts) ++
      (newline level ++ [r]))))

/-- `_iterencode`, with a depth of recursion that is left and the level of indentation. -/
def dumpsIndentDepth (env : JsonEnv F) : Nat → Nat → JVal F → Py PyStr
  | _, _, .null => .ok (py! "null")
  | _, _, .bool true => .ok (py! "true")
  | _, _, .bool false => .ok (py! "false")
  | _, _, .int n => encodeInt env n
  | _, _, .float x => .ok (encodeFloat env x)
  | _, _, .str s => .ok (encodeString s)
  | 0, _, .list _ => .error .recursionError
  | 0, _, .dict _ => .error .recursionError
  | depth + 1, level, .list l =>
    bracketIndent level 91 93 (mapPy (dumpsIndentDepth env depth (level + 1)) l)
  | depth + 1, level, .dict d =>
    bracketIndent level 123 125 (mapPy (encodePair [32] (dumpsIndentDepth env depth (level + 1))) d)

/-- `json.dumps(v, indent=2)`. -/
def dumpsIndent (env : JsonEnv F) (v : JVal F) : Py PyStr := dumpsIndentDepth env env.depth 0 v

/-! ## Reading it back -/

theorem newline_ws (n : Nat) : ∀ c ∈ newline n, isWs c = true := by
  intro c hc
  unfold newline at hc
  rcases List.mem_cons.1 hc with rfl | hc
  · rfl
  · rw [List.eq_of_mem_replicate hc]; rfl

theorem newline_follows (n : Nat) (r : PyStr) : Follows (newline n ++ r) :=
  follows_cons (by omega)

theorem dumpsIndent_begins {env : JsonEnv F} (hl : LawfulFloats env.floats) {depth level : Nat}
    {v : JVal F} {t : PyStr} (h : dumpsIndentDepth env depth level v = .ok t) : Begins t := by
  have str : ∀ s, Begins (encodeString s) := fun s => ⟨34, _, rfl, rfl, by omega, by omega⟩
  have br : ∀ (a b : Nat) (m : Py (List PyStr)), isWs a = false → a ≠ 93 → a ≠ 125 →
      bracketIndent level a b m = .ok t → Begins t := by
    intro a b m h1 h2 h3 hb
    cases m with
    | error e => cases hb
    | ok ts => cases ts <;> (cases hb; exact ⟨a, _, rfl, h1, h2, h3⟩)
  cases v with
  | null =>
    cases depth <;> (unfold dumpsIndentDepth at h; cases h; exact ⟨110, _, rfl, rfl, by omega, by omega⟩)
  | bool b =>
    cases b
    · cases depth <;> (unfold dumpsIndentDepth at h; cases h; exact ⟨102, _, rfl, rfl, by omega, by omega⟩)
    · cases depth <;> (unfold dumpsIndentDepth at h; cases h; exact ⟨116, _, rfl, rfl, by omega, by omega⟩)
  | int n => cases depth <;> (unfold dumpsIndentDepth at h; exact (encodeInt_begins h).1)
  | float x => cases depth <;> (unfold dumpsIndentDepth at h; cases h; exact (encodeFloat_begins hl x).1)
  | str s => cases depth <;> (unfold dumpsIndentDepth at h; cases h; exact str s)
  | list l =>
    cases depth with
    | zero => unfold dumpsIndentDepth at h; cases h
    | succ n => unfold dumpsIndentDepth at h; exact br _ _ _ rfl (by omega) (by omega) h
  | dict d =>
    cases depth with
    | zero => unfold dumpsIndentDepth at h; cases h
    | succ n => unfold dumpsIndentDepth at h; exact br _ _ _ rfl (by omega) (by omega) h

theorem scanItems_newlines {pad : PyStr} (hpad : ∀ c ∈ pad, isWs c = true) (level : Nat)
    {scan : PyStr → Py (JVal F × PyStr)} {f : JVal F → Py PyStr}
    (hb : ∀ v t, f v = .ok t → Begins t) (l : List (JVal F))
    (hscan : ∀ v ∈ l, ∀ t, f v = .ok t → ∀ r, Follows r → scan (t ++ r) = .ok (v, r))
    (ts : List PyStr) (hts : mapPy f l = .ok ts) (hne : l ≠ []) (n : Nat) (hn : l.length ≤ n)
    (r : PyStr) :
    scanItems scan n (commas pad ts ++ (newline level ++ 93 :: r)) = .ok (l, r) := by
  induction l generalizing ts n with
  | nil => exact absurd rfl hne
  | cons v l ih =>
    obtain ⟨t, us, h1, h2, rfl⟩ := mapPy_cons hts
    cases n with
    | zero => simp at hn
    | succ n =>
      rw [scanItems.eq_def]
      simp only
      cases l with
      | nil =>
        rw [mapPy_nil h2]
        show (match scan (t ++ (newline level ++ 93 :: r)) with | .error e => _ | .ok (v, r) => _) = _
        rw [hscan v (by simp) t h1 _ (newline_follows _ _)]
        simp only [skipWs_pad (newline_ws level), skipWs_cons (show isWs 93 = false from rfl), if_true]
      | cons w l =>
        obtain ⟨u, vs, h3, h4, rfl⟩ := mapPy_cons h2
        rw [commas_cons, List.append_assoc, List.cons_append, List.append_assoc,
          hscan v (by simp) t h1 _ (follows_cons (by omega))]
        simp only [skipWs_cons (show isWs 44 = false from rfl)]
        rw [if_neg (by omega), if_pos trivial, skipWs_pad hpad, ((commas_begins (hb w u h3)).append _).skipWs,
          ih (fun x hx => hscan x (by simp [hx])) (u :: vs) h2 (by simp) n (by simpa using hn)]
        rfl

theorem scanPairs_newlines {pad colon : PyStr} (hpad : ∀ c ∈ pad, isWs c = true)
    (hcolon : ∀ c ∈ colon, isWs c = true) (level : Nat)
    {scan : PyStr → Py (JVal F × PyStr)} {f : JVal F → Py PyStr}
    (hb : ∀ v t, f v = .ok t → Begins t) (d : List (PyStr × JVal F))
    (hscan : ∀ k v, (k, v) ∈ d → ∀ t, f v = .ok t → ∀ r, Follows r → scan (t ++ r) = .ok (v, r))
    (hk : ∀ k v, (k, v) ∈ d → Joined k) (ts : List PyStr)
    (hts : mapPy (encodePair colon f) d = .ok ts)
    (hne : d ≠ []) (n : Nat) (hn : d.length ≤ n) (r : PyStr) :
    scanPairs scan n (commas pad ts ++ (newline level ++ 125 :: r)) = .ok (d, r) := by
  induction d generalizing ts n with
  | nil => exact absurd rfl hne
  | cons p d ih =>
    obtain ⟨k, v⟩ := p
    obtain ⟨t, us, h0, h2, rfl⟩ := mapPy_cons hts
    obtain ⟨t, h1, rfl⟩ := encodePair_ok h0
    have hkv := hk k v (by simp)
    cases n with
    | zero => simp at hn
    | succ n =>
      rw [scanPairs.eq_def]
      simp only
      cases d with
      | nil =>
        rw [mapPy_nil h2]
        simp only [commas, List.append_assoc, List.cons_append]
        rw [scanKey_encode hcolon k hkv _ ((hb v t h1).append _)]
        simp only
        rw [hscan k v (by simp) t h1 _ (newline_follows _ _)]
        simp only [skipWs_pad (newline_ws level), skipWs_cons (show isWs 125 = false from rfl), if_true]
      | cons q d =>
        obtain ⟨k', w⟩ := q
        obtain ⟨u, vs, h3, h4, rfl⟩ := mapPy_cons h2
        have hu : Begins u := by
          obtain ⟨x, _, rfl⟩ := encodePair_ok h3
          exact ⟨34, _, rfl, rfl, by omega, by omega⟩
        rw [commas_cons]
        simp only [List.append_assoc, List.cons_append]
        rw [scanKey_encode hcolon k hkv _ ((hb v t h1).append _)]
        simp only
        rw [hscan k v (by simp) t h1 _ (follows_cons (by omega))]
        simp only [skipWs_cons (show isWs 44 = false from rfl)]
        rw [if_neg (by omega), if_pos trivial, skipWs_pad hpad, ((commas_begins hu).append _).skipWs,
          ih (fun k x hx => hscan k x (by simp [hx])) (fun k x hx => hk k x (by simp [hx])) (u :: vs) h2
            (by simp) n (by simpa using hn)]
        rfl

theorem pad_ws : ∀ c ∈ ([32] : PyStr), isWs c = true := by
  intro c hc; simp only [List.mem_singleton] at hc; subst hc; rfl

/-- What `json.dumps(v, indent=2)` wrote is read back. -/
theorem scanValue_dumpsIndent (env : JsonEnv F) (hl : LawfulFloats env.floats)
    (hook : List (PyStr × JVal F) → Py (JVal F)) (depth level : Nat) (v : JVal F) (t : PyStr)
    (h : dumpsIndentDepth env depth level v = .ok t) (hv : AllTextJoined v)
    (hh : ∀ d, Within (.dict d) v → hook d = .ok (.dict d)) (r : PyStr) (hr : Follows r) :
    scanValue env hook depth (t ++ r) = .ok (v, r) := by
  induction depth generalizing v t r level with
  | zero =>
    cases v with
    | null => unfold dumpsIndentDepth at h; cases h; rfl
    | bool b => cases b <;> (unfold dumpsIndentDepth at h; cases h; rfl)
    | int n =>
      unfold dumpsIndentDepth at h
      rw [scanValue_plain env hook 0 ((encodeInt_begins h).2 r), scanScalar_int env n h hr]
    | float x =>
      unfold dumpsIndentDepth at h; cases h
      rw [scanValue_plain env hook 0 ((encodeFloat_begins hl x).2 r), scanScalar_float env hl x r hr]
    | str s =>
      unfold dumpsIndentDepth at h; cases h
      unfold encodeString
      simp only [List.cons_append, List.append_assoc, List.nil_append]
      unfold scanValue
      rw [if_pos rfl, scanString_encode s (hv.1 s .here)]
    | list l => unfold dumpsIndentDepth at h; cases h
    | dict d => unfold dumpsIndentDepth at h; cases h
  | succ depth ih =>
    cases v with
    | null => unfold dumpsIndentDepth at h; cases h; rfl
    | bool b => cases b <;> (unfold dumpsIndentDepth at h; cases h; rfl)
    | int n =>
      unfold dumpsIndentDepth at h
      rw [scanValue_plain env hook _ ((encodeInt_begins h).2 r), scanScalar_int env n h hr]
    | float x =>
      unfold dumpsIndentDepth at h; cases h
      rw [scanValue_plain env hook _ ((encodeFloat_begins hl x).2 r), scanScalar_float env hl x r hr]
    | str s =>
      unfold dumpsIndentDepth at h; cases h
      unfold encodeString
      simp only [List.cons_append, List.append_assoc, List.nil_append]
      unfold scanValue
      rw [if_pos rfl, scanString_encode s (hv.1 s .here)]
    | list l =>
      unfold dumpsIndentDepth at h
      cases hm : mapPy (dumpsIndentDepth env depth (level + 1)) l with
      | error e => rw [hm] at h; cases h
      | ok ts =>
        rw [hm] at h
        cases l with
        | nil =>
          rw [mapPy_nil hm] at h
          cases h
          rfl
        | cons w l =>
          have hlen := mapPy_length hm
          have hb : ∀ v t, dumpsIndentDepth env depth (level + 1) v = .ok t → Begins t :=
            fun v t => dumpsIndent_begins hl
          have hcl := commas_length (newline (level + 1)) ts (by
            intro y hy
            obtain ⟨a, _, ha⟩ := hlen.2 y hy
            exact (hb a y ha).length)
          obtain ⟨u, us, h1, h2, rfl⟩ := mapPy_cons hm
          cases h
          simp only [List.cons_append, List.append_assoc, List.nil_append]
          unfold scanValue
          rw [if_neg (by omega), if_pos rfl]
          unfold scanArray
          have hbeg := (commas_begins (pad := newline (level + 1)) (ts := us) (hb w u h1)).append
            (newline level ++ 93 :: r)
          rw [skipWs_pad (newline_ws _), hbeg.skipWs]
          obtain ⟨c, x, hx, _, h93, _⟩ := hbeg
          rw [hx]
          simp only
          rw [if_neg h93, ← hx, scanItems_newlines (newline_ws _) level hb (w :: l) _ _ hm (by simp)]
          · rfl
          · have := congrArg List.length hx
            simp only [List.length_append, List.length_cons] at this hlen hcl ⊢
            omega
          · intro y hy t ht r' hr'
            refine ih (level + 1) y t ht ⟨fun s hs => hv.1 s (.item hy hs), fun d hd => hv.2 d (.item hy hd)⟩
              (fun d hd => hh d (.item hy hd)) r' hr'
    | dict d =>
      unfold dumpsIndentDepth at h
      cases hm : mapPy (encodePair [32] (dumpsIndentDepth env depth (level + 1))) d with
      | error e => rw [hm] at h; cases h
      | ok ts =>
        rw [hm] at h
        cases d with
        | nil =>
          rw [mapPy_nil hm] at h
          cases h
          show (match hook [] with | .error e => _ | .ok v => _) = _
          rw [hh [] .here]
          rfl
        | cons p d =>
          have hlen := mapPy_length hm
          have hb : ∀ v t, dumpsIndentDepth env depth (level + 1) v = .ok t → Begins t :=
            fun v t => dumpsIndent_begins hl
          have hbp : ∀ p t, encodePair [32] (dumpsIndentDepth env depth (level + 1)) p = .ok t →
              Begins t := by
            intro p t ht
            obtain ⟨u, _, rfl⟩ := encodePair_ok ht
            exact ⟨34, _, rfl, rfl, by omega, by omega⟩
          have hcl := commas_length (newline (level + 1)) ts (by
            intro y hy
            obtain ⟨a, _, ha⟩ := hlen.2 y hy
            exact (hbp a y ha).length)
          obtain ⟨u, us, h1, h2, rfl⟩ := mapPy_cons hm
          cases h
          simp only [List.cons_append, List.append_assoc, List.nil_append]
          unfold scanValue
          rw [if_neg (by omega), if_neg (by omega), if_pos rfl]
          unfold scanObject
          have hbeg := (commas_begins (pad := newline (level + 1)) (ts := us) (hbp p u h1)).append
            (newline level ++ 125 :: r)
          rw [skipWs_pad (newline_ws _), hbeg.skipWs]
          obtain ⟨c, x, hx, _, _, h125⟩ := hbeg
          rw [hx]
          simp only
          rw [if_neg h125, ← hx,
            scanPairs_newlines (newline_ws _) pad_ws level hb (p :: d) _ _ _ hm (by simp)]
          · unfold hooked
            simp only [hh _ .here]
          · have := congrArg List.length hx
            simp only [List.length_append, List.length_cons] at this hlen hcl ⊢
            omega
          · intro k y hy t ht r' hr'
            refine ih (level + 1) y t ht ⟨fun s hs => hv.1 s (.value hy hs), fun d hd => hv.2 d (.value hy hd)⟩
              (fun d hd => hh d (.value hy hd)) r' hr'
          · exact fun k y hy => hv.2 _ .here k y hy

theorem loadsHook_dumpsIndent (env : JsonEnv F) (hl : LawfulFloats env.floats)
    (hook : List (PyStr × JVal F) → Py (JVal F)) (v : JVal F) (t : PyStr)
    (h : dumpsIndent env v = .ok t) (hv : AllTextJoined v)
    (hh : ∀ d, Within (.dict d) v → hook d = .ok (.dict d)) : loadsHook env hook t = .ok v := by
  have h1 := scanValue_dumpsIndent env hl hook env.depth 0 v t h hv hh [] (by intro c hc; simp at hc)
  have h2 := (dumpsIndent_begins hl h).skipWs
  rw [List.append_nil] at h1
  unfold loadsHook
  rw [h2, h1]
  rfl

end Json
end Tink
