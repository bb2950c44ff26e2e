import Verif.Spec.Stream

/-!
# A toy streaming AEAD

For the examples.  A ciphertext is the key byte followed by the plaintext.  The decrypting stream
reads one byte first and raises `TinkError`, from then on, if it is not the key byte or if the source
raises anything.
-/

namespace Tink.ToyStream
open Spec

/-- The stream of key byte `k`: whether the first byte was read, or was wrong. -/
inductive St where
  | idle (started : Bool)
  | dead

/-- How many bytes are asked for. -/
def amount (size : Int) : Nat := if size < 0 then 100 else size.toNat

/-- What becomes of the answer to a later read. -/
def gotBody : ReadResult → ReadResult
  | .data b => .data b
  | .none => .none
  | .blocking => .none
  | .raised _ => .raised .tinkError

def body (size : Int) : Prog (St × ReadResult) :=
  .ask (amount size) fun r => .ret (.idle true, gotBody r)

/-- What becomes of the answer to the read of the first byte. -/
def gotHeader (k : UInt8) (size : Int) : ReadResult → Prog (St × ReadResult)
  | .data [] => .ret (.dead, .raised .tinkError)
  | .data (b :: _) => if b = k then body size else .ret (.dead, .raised .tinkError)
  | .none => .ret (.idle false, .none)
  | .blocking => .ret (.idle false, .none)
  | .raised _ => .ret (.dead, .raised .tinkError)

def stream (k : UInt8) : RawStream St where
  read _ t size := match t with
    | .idle false => .ask 1 (gotHeader k size)
    | .idle true => body size
    | .dead => .ret (.dead, .raised .tinkError)

/-- The key with byte `k`.  It can open streams only if `opens`.  "Encrypting" appends to a list. -/
def key (k : UInt8) (opens : Bool := true) : RawStreamingAead Bytes Bytes St where
  newRawEncryptingStream _ dest _ := .ok (dest ++ [k])
  newRawDecryptingStream _ := if opens then .ok (.idle false) else .error .tinkError
  stream := stream k

/-- Reading the body. -/
theorem run_body {σ : Type} {src : Source σ} {size : Int} {s : σ}
    {t' : St} {s' : σ} {r : ReadResult} (h : (body size).run src s = some (s', t', r)) :
    t' = .idle true ∧ s' = (src.read s (amount size)).1 ∧
      gotBody (src.read s (amount size)).2 = r := by
  cases h
  exact ⟨rfl, rfl, rfl⟩

/-- Reading the first byte, and then the body. -/
theorem run_header {σ : Type} (k : UInt8) (src : Source σ) (size : Int) (s : σ)
    {t' : St} {s' : σ} {r : ReadResult}
    (h : (gotHeader k size (src.read s 1).2).run src (src.read s 1).1 = some (s', t', r)) :
    (t' = .idle false ∧ s' = (src.read s 1).1 ∧ r = .none ∧
      ((src.read s 1).2 = .none ∨ (src.read s 1).2 = .blocking)) ∨
    (t' = .dead ∧ s' = (src.read s 1).1 ∧ r = .raised .tinkError ∧
      ((∃ e, (src.read s 1).2 = .raised e) ∨ (src.read s 1).2 = .data [] ∨
        ∃ b bs, (src.read s 1).2 = .data (b :: bs) ∧ b ≠ k)) ∨
    (∃ b, (src.read s 1).2 = .data (k :: b) ∧
      (body size).run src (src.read s 1).1 = some (s', t', r)) := by
  cases hr : (src.read s 1).2 with
  | none => rw [hr] at h; cases h; exact .inl ⟨rfl, rfl, rfl, .inl rfl⟩
  | blocking => rw [hr] at h; cases h; exact .inl ⟨rfl, rfl, rfl, .inr rfl⟩
  | raised e => rw [hr] at h; cases h; exact .inr (.inl ⟨rfl, rfl, rfl, .inl ⟨_, rfl⟩⟩)
  | data b =>
    rw [hr] at h
    cases b with
    | nil => cases h; exact .inr (.inl ⟨rfl, rfl, rfl, .inr (.inl rfl)⟩)
    | cons b bs =>
      simp only [gotHeader] at h
      by_cases hb : b = k
      · rw [if_pos hb] at h
        subst hb
        exact .inr (.inr ⟨bs, rfl, h⟩)
      · rw [if_neg hb] at h
        cases h
        exact .inr (.inl ⟨rfl, rfl, rfl, .inr (.inr ⟨b, bs, rfl, hb⟩)⟩)

/-- Runs of the toy stream. -/
theorem run_stream {σ : Type} {k : UInt8} {src : Source σ} {fuel : Nat} {t : St} {size : Int} {s : σ}
    {t' : St} {s' : σ} {r : ReadResult} (h : (stream k).run src fuel t size s = some (t', s', r)) :
    ((stream k).read fuel t size).run src s = some (s', t', r) := by
  unfold RawStream.run at h
  cases hq : ((stream k).read fuel t size).run src s with
  | none => rw [hq] at h; cases h
  | some q => rw [hq] at h; cases h; rfl

/-- The toy keys meet the contract of a key that decrypts. -/
theorem decrypts (k : UInt8) (ad P : Bytes) : DecryptsTo (key k) ad (k :: P) P := by
  refine ⟨⟨_, rfl⟩, ?_⟩
  intro σ src rest hf hs s hrest t ht calls t' s' H
  cases ht
  suffices h : ((t' = .idle false ∧ Calls.bytes calls = [] ∧ rest s' = k :: P) ∨
      (t' = .idle true ∧ Calls.bytes calls ++ rest s' = P)) ∧
      (∀ c ∈ calls, ∀ e, c.2 ≠ .raised e) ∧
      ((∃ c ∈ calls, c.1 ≠ 0 ∧ c.2 = .data []) → t' = .idle true ∧ rest s' = []) by
    obtain ⟨h1, h2, h3⟩ := h
    refine ⟨?_, h2, ?_⟩
    · rcases h1 with ⟨_, h1, _⟩ | ⟨_, h1⟩
      · rw [h1]; exact List.nil_prefix
      · exact ⟨_, h1⟩
    · intro hc
      obtain ⟨h4, h5⟩ := h3 hc
      rcases h1 with ⟨h1, _⟩ | ⟨_, h1⟩
      · rw [h1] at h4; cases h4
      · rw [h5, List.append_nil] at h1; exact h1
  induction H with
  | start => exact ⟨.inl ⟨rfl, rfl, hrest⟩, by simp, by simp⟩
  | @read calls t1 s1 t2 s2 size r fuel _ _ hrun ih =>
    obtain ⟨h1, h2, h3⟩ := ih
    -- what a read of the body does
    have hbody : ∀ {s1}, Calls.bytes calls ++ rest s1 = P →
        ((∃ c ∈ calls, c.1 ≠ 0 ∧ c.2 = .data []) → rest s1 = []) →
        (body size).run src s1 = some (s2, t2, r) →
        ((t2 = .idle false ∧ Calls.bytes (calls ++ [(size, r)]) = [] ∧ rest s2 = k :: P) ∨
          (t2 = .idle true ∧ Calls.bytes (calls ++ [(size, r)]) ++ rest s2 = P)) ∧
        (∀ c ∈ calls ++ [(size, r)], ∀ e, c.2 ≠ .raised e) ∧
        ((∃ c ∈ calls ++ [(size, r)], c.1 ≠ 0 ∧ c.2 = .data []) →
          t2 = .idle true ∧ rest s2 = []) := by
      intro s1 hb hend hrun
      obtain ⟨rfl, rfl, hg⟩ := run_body hrun
      have noBytes : r.bytes = [] → rest (src.read s1 (amount size)).1 = rest s1 →
          (∀ b, r ≠ .data b) → (∀ e, r ≠ .raised e) → _ := fun x1 x2 x3 x4 =>
        (⟨.inr ⟨rfl, by simp [Calls.bytes, x1, x2] at hb ⊢; exact hb⟩, by
          intro c hc
          rw [List.mem_append, List.mem_singleton] at hc
          rcases hc with hc | rfl
          · exact h2 c hc
          · exact x4, by
          rintro ⟨c, hc, hz, hd⟩
          rw [List.mem_append, List.mem_singleton] at hc
          rcases hc with hc | rfl
          · exact ⟨rfl, by rw [x2]; exact hend ⟨c, hc, hz, hd⟩⟩
          · exact absurd hd (x3 [])⟩ :
          ((St.idle true = .idle false ∧ Calls.bytes (calls ++ [(size, r)]) = [] ∧
              rest (src.read s1 (amount size)).1 = k :: P) ∨
            (St.idle true = .idle true ∧ Calls.bytes (calls ++ [(size, r)]) ++
              rest (src.read s1 (amount size)).1 = P)) ∧
          (∀ c ∈ calls ++ [(size, r)], ∀ e, c.2 ≠ .raised e) ∧
          ((∃ c ∈ calls ++ [(size, r)], c.1 ≠ 0 ∧ c.2 = .data []) →
            St.idle true = .idle true ∧ rest (src.read s1 (amount size)).1 = []))
      cases hr : (src.read s1 (amount size)).2 with
      | raised e => exact absurd hr (hs _ _ e)
      | none =>
        rw [hr] at hg
        simp only [gotBody] at hg
        subst hg
        exact noBytes rfl (hf.noData _ _ (by simp [hr])) (by simp) (by simp)
      | blocking =>
        rw [hr] at hg
        simp only [gotBody] at hg
        subst hg
        exact noBytes rfl (hf.noData _ _ (by simp [hr])) (by simp) (by simp)
      | data b =>
        rw [hr] at hg
        simp only [gotBody] at hg
        subst hg
        obtain ⟨d1, d2, d3⟩ := hf.data _ _ _ hr
        refine ⟨.inr ⟨rfl, ?_⟩, ?_, ?_⟩
        · rw [d1] at hb
          simpa [Calls.bytes, ReadResult.bytes] using hb
        · intro c hc
          rw [List.mem_append, List.mem_singleton] at hc
          rcases hc with hc | rfl
          · exact h2 c hc
          · simp
        · rintro ⟨c, hc, hz, hd⟩
          refine ⟨rfl, ?_⟩
          rw [List.mem_append, List.mem_singleton] at hc
          have hnil : rest s1 = [] := by
            rcases hc with hc | rfl
            · exact hend ⟨c, hc, hz, hd⟩
            · simp only [ReadResult.data.injEq] at hd
              rcases d3 hd with h0 | h0
              · unfold amount at h0
                simp only at hz
                split at h0 <;> omega
              · exact h0
          rw [hnil] at d1
          exact (List.append_eq_nil_iff.mp d1.symm).2
    have hrun' := run_stream hrun
    rcases h1 with ⟨rfl, hb, hr⟩ | ⟨rfl, hb⟩
    · have hno : ¬ ∃ c ∈ calls, c.1 ≠ 0 ∧ c.2 = .data [] := fun h => by cases (h3 h).1
      rcases run_header k src size s1 hrun' with
        ⟨rfl, rfl, rfl, hg⟩ | ⟨rfl, rfl, rfl, hg⟩ | ⟨b, hd, hrun''⟩
      · have hsame : rest (src.read s1 1).1 = rest s1 :=
          hf.noData _ _ (by rcases hg with hg | hg <;> simp [hg])
        refine ⟨.inl ⟨rfl, by simpa [Calls.bytes, ReadResult.bytes] using hb, hsame.trans hr⟩, ?_, ?_⟩
        · intro c hc
          rw [List.mem_append, List.mem_singleton] at hc
          rcases hc with hc | rfl
          · exact h2 c hc
          · simp
        · rintro ⟨c, hc, hz, hd⟩
          rw [List.mem_append, List.mem_singleton] at hc
          rcases hc with hc | rfl
          · exact absurd ⟨c, hc, hz, hd⟩ hno
          · cases hd
      · exfalso
        rcases hg with ⟨e, hx⟩ | hx | ⟨b, bs, hx, hne⟩
        · exact hs _ _ e hx
        · obtain ⟨d1, d2, d3⟩ := hf.data _ _ _ hx
          rcases d3 rfl with h0 | h0
          · cases h0
          · rw [h0] at hr; cases hr
        · obtain ⟨d1, d2, d3⟩ := hf.data _ _ _ hx
          rw [d1] at hr
          simp only [List.cons_append, List.cons.injEq] at hr
          exact hne hr.1
      · obtain ⟨d1, d2, d3⟩ := hf.data _ _ _ hd
        have hbn : b = [] := by
          cases b with
          | nil => rfl
          | cons x xs => simp at d2
        subst hbn
        rw [d1] at hr
        simp only [List.singleton_append, List.cons.injEq, true_and] at hr
        exact hbody (by rw [hb, hr]; rfl) (fun h => absurd h hno) hrun''
    · exact hbody hb (fun h => (h3 h).2) hrun'

/-- ... and of a key that refuses. -/
theorem refuses (k : UInt8) (ad C : Bytes) (h : C.head? ≠ some k) :
    RefusesContent (key k) ad C := by
  refine ⟨⟨_, rfl⟩, ?_⟩
  intro σ src rest hf hs s hrest t ht calls t' s' H
  cases ht
  suffices h : (t' = .dead ∨ (t' = .idle false ∧ rest s' = C)) ∧ NoData calls ∧
      ∀ c ∈ calls, ∀ e, c.2 = .raised e → e.isTink = true from h.2
  have ext : ∀ {calls : Calls} {size r}, (NoData calls ∧
      ∀ c ∈ calls, ∀ e, c.2 = .raised e → e.isTink = true) → (r = .none ∨ r = .raised .tinkError) →
      (NoData (calls ++ [(size, r)]) ∧
        ∀ c ∈ calls ++ [(size, r)], ∀ e, c.2 = .raised e → e.isTink = true) := by
    intro calls size r ⟨h1, h2⟩ hr
    constructor <;> intro c hc <;> rw [List.mem_append, List.mem_singleton] at hc <;>
      rcases hc with hc | rfl
    · exact h1 c hc
    · rcases hr with rfl | rfl <;> simp
    · exact h2 c hc
    · rcases hr with rfl | rfl <;> simp [Exc.isTink]
  induction H with
  | start => exact ⟨.inr ⟨rfl, hrest⟩, (by intro c hc; cases hc), (by intro c hc; cases hc)⟩
  | @read calls t1 s1 t2 s2 size r fuel _ _ hrun ih =>
    obtain ⟨h1, h2⟩ := ih
    have hrun' := run_stream hrun
    rcases h1 with rfl | ⟨rfl, hc⟩
    · cases hrun'
      exact ⟨.inl rfl, ext h2 (.inr rfl)⟩
    · rcases run_header k src size s1 hrun' with
        ⟨rfl, rfl, rfl, hg⟩ | ⟨rfl, rfl, rfl, hg⟩ | ⟨b, hd, hrun''⟩
      · have hsame : rest (src.read s1 1).1 = rest s1 :=
          hf.noData _ _ (by rcases hg with hg | hg <;> simp [hg])
        exact ⟨.inr ⟨rfl, hsame.trans hc⟩, ext h2 (.inl rfl)⟩
      · exact ⟨.inl rfl, ext h2 (.inr rfl)⟩
      · exfalso
        obtain ⟨d1, _, _⟩ := hf.data _ _ _ hd
        rw [hc] at d1
        rw [d1] at h
        simp at h

/-- The ciphertext comes two bytes at a time, with pauses. -/
def src : Source (Bytes × Bool) where
  read s n := if s.2 then ((s.1, false), .none)
    else ((s.1.drop (min n 2), true), .data (s.1.take (min n 2)))

theorem src_faithful : Faithful src (·.1) := by
  constructor
  · intro s n b h
    obtain ⟨c, f⟩ := s
    cases f
    · simp only [src, Bool.false_eq_true, if_false, ReadResult.data.injEq] at h ⊢
      subst h
      refine ⟨(List.take_append_drop _ _).symm, by simp only [List.length_take]; omega, ?_⟩
      intro h0
      rw [List.take_eq_nil_iff] at h0
      rcases h0 with h0 | h0
      · left; omega
      · right; exact h0
    · simp [src] at h
  · intro s n h
    obtain ⟨c, f⟩ := s
    cases f
    · exact absurd rfl (h (c.take (min n 2)))
    · rfl

theorem src_steady : Steady src := by
  intro s n e
  obtain ⟨c, f⟩ := s
  cases f <;> simp [src]

/-- As `src`, but the first read raises `OSError`. -/
def flaky : Source (Bytes × Bool) where
  read s n := if s.2 then ((s.1, false), .raised .osError)
    else ((s.1.drop n, false), .data (s.1.take n))

/-- All results of some `read` calls. -/
def results {σ δ ε τ : Type} (src : Source σ) (fuel : Nat) :
    DecryptingStreamWrapper σ δ ε τ → List Int → List (Option ReadResult)
  | _, [] => []
  | w, n :: ns =>
    match w.read src fuel n with
    | none => [none]
    | some (w', r) => some r :: results src fuel w' ns

/-- The same, starting with a new stream. -/
def decrypt {σ : Type} (src : Source σ) (ps : List (RawStreamingAead Bytes Bytes St)) (s : σ)
    (sizes : List Int) : List (Option ReadResult) :=
  match DecryptingStreamWrapper.new ps s true [] with
  | .error e => [some (.raised e)]
  | .ok w => results src 10 w sizes

end Tink.ToyStream
