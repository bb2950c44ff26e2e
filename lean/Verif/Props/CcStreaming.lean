import Verif.Spec.CcStreaming
import Verif.Props.Segments
import Verif.Props.CppInput
import Verif.Props.RawDecrypting
import Verif.Props.RawEncrypting
import Verif.Props.StreamingKeyset

/-!
# C67, C68: the streaming AEAD of a key
-/

namespace Tink.Props
open Spec NonceBased

variable {κ ν σ : Type} {sd : SegmentDecrypter ν} {text : Exc → Bool} {src : Source σ}

/-! ## Reading -/

theorem calls_bytes_append (calls : Calls) (c : Int × ReadResult) :
    Calls.bytes (calls ++ [c]) = Calls.bytes calls ++ c.2.bytes := by
  simp [Calls.bytes]

/-- One read. -/
theorem rawStream_read {fuel : Nat} {t t' : CcDecrypting ν} {size : Int} {s s' : σ}
    {r : ReadResult} (hx : (rawStream text).run src fuel t size s = some (t', s', r)) :
    ∃ x, (t.raw.read (cppStream text fuel t.decrypter) fuel (some size)).run src s =
      some (s', t'.raw, x) ∧ t'.decrypter = t.decrypter ∧ r = result x := by
  unfold RawStream.run rawStream at hx
  simp only [Prog.run_map, Option.map_map] at hx
  cases hq : (t.raw.read (cppStream text fuel t.decrypter) fuel (some size)).run src s with
  | none => rw [hq] at hx; cases hx
  | some q =>
    obtain ⟨s1, r1, x⟩ := q
    rw [hq] at hx
    simp only [Option.map_some, Function.comp, Option.some.injEq, Prod.mk.injEq] at hx
    obtain ⟨rfl, rfl, rfl⟩ := hx
    exact ⟨x, rfl, rfl, rfl⟩

/-- A read of any size, over a stream that meets its contract. -/
theorem read_any {ι : Type} {st : CInputStream ι} {inv : ι → σ → Bytes → Prop}
    (h : Lawful st src inv) {r : RawDecryptingStream ι} {s : σ} {R : Bytes}
    (hi : inv r.adapter s R) (hc : r.closed = false) {size : Int} (hmax : size < 2 ^ 63) {fuel : Nat}
    {r' : RawDecryptingStream ι} {s' : σ} {x : Py Bytes}
    (hx : (r.read st fuel (some size)).run src s = some (s', r', x)) :
    r'.closed = false ∧
      match x with
      | .ok b => ∃ R', R = b ++ R' ∧ inv r'.adapter s' R' ∧ (b = [] → R' = [])
      | .error e => e = .tinkError ∧ Failed st src inv r'.adapter s' := by
  by_cases hs : 0 ≤ size
  · obtain ⟨a1, a2⟩ := C57_read h hi hc hs hmax hx
    refine ⟨a1, ?_⟩
    cases x with
    | ok b =>
      obtain ⟨R', b1, b2, -, b4⟩ := a2
      exact ⟨R', b1, b2, fun h0 => by have := b4 h0; rw [b1] at this; simp_all⟩
    | error e => exact ⟨a2.1, a2.2.2⟩
  · obtain ⟨a1, a2⟩ := C57_readall (size := some size) h hi hc
      (fun n hn => by cases hn; omega) hx
    refine ⟨a1, ?_⟩
    cases x with
    | ok b => exact ⟨[], by rw [a2.1]; simp, a2.2, fun _ => rfl⟩
    | error e => exact a2

/-- A session over a stream whose only failure is the end. -/
theorem session_clean {inv : DecryptingStream ν (PythonInputStream Unit) → σ → Bytes → Prop}
    (h : ∀ fuel, Lawful (cppStream text fuel sd) src inv ∧ Clean (cppStream text fuel sd) src inv)
    {t t' : CcDecrypting ν} {s s' : σ} {P : Bytes} {calls : Calls} (ht : t.decrypter = sd)
    (hc : t.raw.closed = false) (hi : inv t.raw.adapter s P)
    (H : Session (rawStream text) src t s calls t' s') :
    t'.decrypter = sd ∧ t'.raw.closed = false ∧ ∃ R, inv t'.raw.adapter s' R ∧
      P = Calls.bytes calls ++ R ∧ (∀ c ∈ calls, ∀ e, c.2 ≠ .raised e) ∧
      ((∃ c ∈ calls, c.1 ≠ 0 ∧ c.2 = .data []) → R = []) := by
  induction H with
  | start => exact ⟨ht, hc, P, hi, by simp [Calls.bytes], by simp, by simp⟩
  | @read calls t1 s1 t2 s2 size r fuel _ hmax hrun ih =>
    obtain ⟨i1, i2, R, i3, i4, i5, i6⟩ := ih
    obtain ⟨x, hx, hd, rfl⟩ := rawStream_read hrun
    rw [i1] at hx
    obtain ⟨a1, a2⟩ := read_any (h fuel).1 i3 i2 hmax hx
    refine ⟨by rw [hd, i1], a1, ?_⟩
    cases x with
    | error e =>
      obtain ⟨-, i, s0, R0, e0, b1, b2, b3⟩ := a2
      exact absurd ((h fuel).2 _ _ _ _ _ _ b1 b2) b3
    | ok b =>
      obtain ⟨R', b1, b2, b3⟩ := a2
      refine ⟨R', b2, ?_, ?_, ?_⟩
      · rw [calls_bytes_append, i4, b1]
        simp [result, ReadResult.bytes]
      · intro c hc e he
        rw [List.mem_append, List.mem_singleton] at hc
        rcases hc with hc | rfl
        · exact i5 c hc e he
        · cases he
      · rintro ⟨c, hc, hz, hd⟩
        rw [List.mem_append, List.mem_singleton] at hc
        rcases hc with hc | rfl
        · have := i6 ⟨c, hc, hz, hd⟩
          rw [this] at b1
          exact (List.append_eq_nil_iff.mp b1.symm).2
        · simp only [result, ReadResult.data.injEq] at hd
          exact b3 hd

/-- The stream of one key is opened. -/
theorem open_ok {p : NonceBased κ ν} {buffer ad : Bytes} {t : CcDecrypting ν}
    (ht : p.newRawDecryptingStream buffer ad = .ok t) :
    ∃ v, p.newSegmentDecrypter ad = .ok (t.decrypter, v) ∧ t.raw.closed = false ∧
      DecryptingStream.new t.decrypter v (PythonInputStream.new () buffer) = .ok t.raw.adapter := by
  unfold NonceBased.newRawDecryptingStream NonceBased.newDecryptingStream at ht
  cases hq : p.newSegmentDecrypter ad with
  | error e => rw [hq] at ht; cases ht
  | ok q =>
    obtain ⟨sd, v⟩ := q
    rw [hq] at ht
    cases hn : DecryptingStream.new sd v (PythonInputStream.new () buffer) with
    | error e => simp only [bind, Except.bind, hn] at ht; cases ht
    | ok d =>
      simp only [bind, Except.bind, hn] at ht
      cases ht
      exact ⟨v, rfl, rfl, hn⟩

theorem open_some {p : NonceBased κ ν} {buffer ad : Bytes} {v : ν}
    (hd : p.newSegmentDecrypter ad = .ok (sd, v)) (hf : 0 < DecryptingStream.firstSegmentSize sd) :
    ∃ t, p.newRawDecryptingStream buffer ad = .ok t := by
  unfold NonceBased.newRawDecryptingStream NonceBased.newDecryptingStream DecryptingStream.new
  simp only [bind, Except.bind, hd, if_neg (show ¬ DecryptingStream.firstSegmentSize sd ≤ 0 by omega)]
  exact ⟨_, rfl⟩

section
variable {σd : Type}

theorem decryptsTo_trailing {p : NonceBased κ ν} {ad P C X buffer : Bytes}
    {se : SegmentEncrypter κ} {k : κ} {v : ν} (hb : buffer ≠ [])
    (hd : p.newSegmentDecrypter ad = .ok (sd, v)) (hm : Matching se k sd v)
    (ho : 0 ≤ se.ciphertextOffset) (hf : 0 < EncryptingStream.firstSegmentSize se)
    (hC : EncryptionOf se k P C)
    (hX : X ≠ [] → ∃ m, P.length = (EncryptingStream.firstSegmentSize se).toNat +
      m * se.plaintextSegmentSize.toNat) :
    DecryptsTo (p.toRaw (σ := σd) text buffer) ad (C ++ X) P := by
  obtain ⟨n, -, t2, -⟩ := Decrypting.matching_sizes hm
  refine ⟨open_some hd (by omega), ?_⟩
  intro σ src rest hsrc hst s hs t ht calls t' s' hses
  obtain ⟨v', a1, a2, a3⟩ := open_ok ht
  rw [hd] at a1
  simp only [Except.ok.injEq, Prod.mk.injEq] at a1
  obtain ⟨rfl, rfl⟩ := a1
  obtain ⟨hl, hc⟩ := C55_steady (text := text) hsrc hst rfl
  obtain ⟨dinv, b1, b2⟩ := decrypting_trailing hm ho hf hC hX hl hc
  have hi := b2 _ s _ ⟨(by
    have := new_ok rest s hb
    rw [hs] at this
    exact this), (by intro st h; cases h)⟩ a3
  obtain ⟨-, -, R, -, c1, c2, c3⟩ := session_clean b1 rfl a2 hi hses
  refine ⟨⟨R, c1.symm⟩, c2, ?_⟩
  intro he
  rw [c1, c3 he, List.append_nil]

/-- C67.  A key decrypts an encryption of `P`, made by an encrypter to which its decrypter belongs, to
`P`. -/
theorem C67_decrypts_to {p : NonceBased κ ν} {ad P C buffer : Bytes}
    {se : SegmentEncrypter κ} {k : κ} {v : ν} (hb : buffer ≠ [])
    (hd : p.newSegmentDecrypter ad = .ok (sd, v)) (hm : Matching se k sd v)
    (ho : 0 ≤ se.ciphertextOffset) (hf : 0 < EncryptingStream.firstSegmentSize se)
    (hC : EncryptionOf se k P C) :
    DecryptsTo (p.toRaw (σ := σd) text buffer) ad C P := by
  have := decryptsTo_trailing (σd := σd) (text := text) (X := []) hb hd hm ho hf hC
    (fun h => absurd rfl h)
  rwa [List.append_nil] at this

/-- C68, violation.  If the plaintext fills its segments exactly, bytes that were appended to the
ciphertext go unnoticed. -/
theorem C68_appended_bytes_accepted {p : NonceBased κ ν} {ad P C buffer : Bytes}
    {se : SegmentEncrypter κ} {k : κ} {v : ν} (hb : buffer ≠ [])
    (hd : p.newSegmentDecrypter ad = .ok (sd, v)) (hm : Matching se k sd v)
    (ho : 0 ≤ se.ciphertextOffset) (hf : 0 < EncryptingStream.firstSegmentSize se)
    (hC : EncryptionOf se k P C) {m : Nat}
    (hfull : P.length = (EncryptingStream.firstSegmentSize se).toNat +
      m * se.plaintextSegmentSize.toNat) (X : Bytes) :
    DecryptsTo (p.toRaw (σ := σd) text buffer) ad (C ++ X) P :=
  decryptsTo_trailing hb hd hm ho hf hC (fun _ => ⟨m, hfull⟩)

/-- A session of a stream that refuses its ciphertext. -/
theorem session_refused {v : ν} {C : Bytes}
    {inv : PythonInputStream Unit → σ → Bytes → Prop}
    (h : ∀ fuel, Lawful (cppStream text fuel sd) src (Decrypting.RefInv sd v inv C))
    {t t' : CcDecrypting ν} {s s' : σ} {calls : Calls} (ht : t.decrypter = sd)
    (hc : t.raw.closed = false) (hi : ∀ R, Decrypting.RefInv sd v inv C t.raw.adapter s R)
    (H : Session (rawStream text) src t s calls t' s') :
    t'.decrypter = sd ∧ t'.raw.closed = false ∧
      (∀ R, Decrypting.RefInv sd v inv C t'.raw.adapter s' R) ∧
      NoData calls ∧ ∀ c ∈ calls, ∀ e, c.2 = .raised e → e.isTink = true := by
  induction H with
  | start => exact ⟨ht, hc, hi, by simp [NoData], by simp⟩
  | @read calls t1 s1 t2 s2 size r fuel _ hmax hrun ih =>
    obtain ⟨i1, i2, i3, i4, i5⟩ := ih
    obtain ⟨x, hx, hd, rfl⟩ := rawStream_read hrun
    rw [i1] at hx
    have key := fun R => read_any (h fuel) (i3 R) i2 hmax hx
    obtain ⟨a1, a2⟩ := key [0]
    cases x with
    | ok b =>
      exfalso
      obtain ⟨-, a3⟩ := key [1]
      obtain ⟨R', b1, -, b3⟩ := a2
      obtain ⟨R'', c1, -, c3⟩ := a3
      cases b with
      | nil => rw [b3 rfl] at b1; cases b1
      | cons y b =>
        simp only [List.cons_append, List.cons.injEq] at b1 c1
        exact absurd (b1.1.trans c1.1.symm) (by decide)
    | error e =>
      refine ⟨by rw [hd, i1], a1, ?_, ?_, ?_⟩
      · obtain ⟨-, i, s0, R0, e0, b1, b2, b3⟩ := a2
        intro R
        exact ((h fuel).failed _ _ R _ _ _ b1 b2).1
      · intro c hc b hb
        rw [List.mem_append, List.mem_singleton] at hc
        rcases hc with hc | rfl
        · exact i4 c hc b hb
        · cases hb
      · intro c hc e' he
        rw [List.mem_append, List.mem_singleton] at hc
        rcases hc with hc | rfl
        · exact i5 c hc e' he
        · obtain ⟨rfl, -⟩ := a2
          cases he; rfl

/-- C67.  A key refuses a ciphertext if its decrypter refuses the header or the first segment. -/
theorem C67_refuses {p : NonceBased κ ν} {ad C buffer : Bytes} {v : ν} (hb : buffer ≠ [])
    (hd : p.newSegmentDecrypter ad = .ok (sd, v)) (hs : Sober sd) (hh : 0 < sd.headerSize)
    (hf : 0 < DecryptingStream.firstSegmentSize sd) (href : RefusesStart sd v C) :
    RefusesContent (p.toRaw (σ := σd) text buffer) ad C := by
  refine ⟨open_some hd hf, ?_⟩
  intro σ src rest hsrc hst s hsC t ht calls t' s' hses
  obtain ⟨v', a1, a2, a3⟩ := open_ok ht
  rw [hd] at a1
  simp only [Except.ok.injEq, Prod.mk.injEq] at a1
  obtain ⟨rfl, rfl⟩ := a1
  obtain ⟨hl, hc⟩ := C55_steady (text := text) hsrc hst rfl
  have hlaw := Decrypting.refused_lawful hs hl hc hh hf href
  have hi : ∀ R, Decrypting.RefInv t.decrypter v
      (fun p s R => (InputOk rest (p.over s) ∧ toCome rest (p.over s) = R) ∧ StatusClean p) C
      t.raw.adapter s R := by
    intro R
    have hfresh := (Decrypting.new_fresh (sd := t.decrypter) (v := v) (bs := [])
      (V := fun _ => True) (Q := fun _ _ _ => True) (D := False) (s := s)
      (Q0 := fun p s => (InputOk rest (p.over s) ∧ toCome rest (p.over s) = C) ∧ StatusClean p)
      (i := PythonInputStream.new () buffer) ⟨(by
        have := new_ok rest s hb
        rw [hsC] at this
        exact this), (by intro st h; cases h)⟩ a3).2
    rcases hfresh with ⟨h1, -⟩ | ⟨h1, -⟩ | ⟨x, h1, -⟩ | ⟨h1, -⟩
    · exact .inl h1
    · exact absurd h1.bound (Nat.not_lt_zero _)
    · unfold DecryptingStream.new at a3
      rw [if_neg (by omega)] at a3
      simp only [Except.ok.injEq] at a3
      rw [← a3] at h1
      cases h1
    · exact h1.elim
  obtain ⟨-, -, -, b1, b2⟩ := session_refused hlaw rfl a2 hi hses
  exact ⟨b1, b2⟩

/-- A session of a stream that accepts only the segments of one ciphertext. -/
theorem session_authentic {v : ν} {bs : List Bytes} {Q0 : PythonInputStream Unit → σ → Prop}
    {V : ν → Prop} {Q : Nat → PythonInputStream Unit → σ → Prop}
    (h : Decrypting.Parts sd (PythonInputStream.stream text) src v bs Q0 V Q True)
    {t t' : CcDecrypting ν} {s s' : σ} {calls : Calls} (ht : t.decrypter = sd)
    (hc : t.raw.closed = false) {P : Bytes}
    (hi : Decrypting.DecInv sd v bs Q0 V Q True t.raw.adapter s P)
    (H : Session (rawStream text) src t s calls t' s') :
    t'.decrypter = sd ∧ t'.raw.closed = false ∧ ∃ R,
      Decrypting.DecInv sd v bs Q0 V Q True t'.raw.adapter s' R ∧ P = Calls.bytes calls ++ R ∧
      (∀ c ∈ calls, ∀ e, c.2 = .raised e → e.isTink = true) ∧
      ((∃ c ∈ calls, c.1 ≠ 0 ∧ c.2 = .data []) → R = []) := by
  have hlaw := fun fuel => Decrypting.lawful h fuel
  induction H with
  | start => exact ⟨ht, hc, P, hi, by simp [Calls.bytes], by simp, by simp⟩
  | @read calls t1 s1 t2 s2 size r fuel _ hmax hrun ih =>
    obtain ⟨i1, i2, R, i3, i4, i5, i6⟩ := ih
    obtain ⟨x, hx, hd, rfl⟩ := rawStream_read hrun
    rw [i1] at hx
    obtain ⟨a1, a2⟩ := read_any (hlaw fuel) i3 i2 hmax hx
    refine ⟨by rw [hd, i1], a1, ?_⟩
    have hends : ∀ {y : ReadResult} {R' : Bytes}, (R = [] → R' = []) → (y = .data [] → R' = []) →
        (∃ c ∈ calls ++ [(size, y)], c.1 ≠ 0 ∧ c.2 = .data []) → R' = [] := by
      rintro y R' h1 h2 ⟨c, hc, hz, hd⟩
      rw [List.mem_append, List.mem_singleton] at hc
      rcases hc with hc | rfl
      · exact h1 (i6 ⟨c, hc, hz, hd⟩)
      · exact h2 hd
    cases x with
    | error e =>
      obtain ⟨rfl, i, s0, R0, e0, b1, b2, b3⟩ := a2
      have hdead : Decrypting.DecInv sd v bs Q0 V Q True t2.raw.adapter s2 R := by
        rcases Decrypting.next_spec h b1 b2 with ⟨_, c1, -⟩ | ⟨_, c1, -, c3, -⟩ | ⟨-, x, c1, c2, c3⟩
        · cases c1
        · cases c1; exact absurd c3 b3
        · exact .inr (.inr (.inr ⟨trivial, x, c2, c3⟩))
      refine ⟨R, hdead, ?_, ?_, hends id (by intro h0; cases h0)⟩
      · rw [calls_bytes_append, i4]; simp [result, ReadResult.bytes]
      · intro c hc e he
        rw [List.mem_append, List.mem_singleton] at hc
        rcases hc with hc | rfl
        · exact i5 c hc e he
        · cases he; rfl
    | ok b =>
      obtain ⟨R', b1, b2, b3⟩ := a2
      refine ⟨R', b2, ?_, ?_, hends (fun h0 => (List.append_eq_nil_iff.mp (b1.symm.trans h0)).2) ?_⟩
      · rw [calls_bytes_append, i4, b1]; simp [result, ReadResult.bytes]
      · intro c hc e he
        rw [List.mem_append, List.mem_singleton] at hc
        rcases hc with hc | rfl
        · exact i5 c hc e he
        · cases he
      · intro h0
        simp only [result, ReadResult.data.injEq] at h0
        exact b3 h0

/-- C68.  Whatever the source delivers, a key whose decrypter accepts only the segments of one
ciphertext, each in its place, delivers nothing but its plaintext. -/
theorem C68_delivers_only {p : NonceBased κ ν} {ad buffer : Bytes} {v : ν}
    (hd : p.newSegmentDecrypter ad = .ok (sd, v)) (hs : Sober sd) {bs : List Bytes}
    (hbs : bs ≠ []) (ha : Authentic sd v bs) :
    DeliversOnly (p.toRaw (σ := σd) text buffer) ad bs.flatten := by
  intro σ src s t ht calls t' s' hses
  obtain ⟨v', a1, a2, a3⟩ := open_ok ht
  rw [hd] at a1
  simp only [Except.ok.injEq, Prod.mk.injEq] at a1
  obtain ⟨rfl, rfl⟩ := a1
  have hp := Decrypting.parts_authentic (st := PythonInputStream.stream text) (src := src) hs
    (List.length_pos_iff.mpr hbs) ha
  obtain ⟨-, -, R, -, b1, b2, b3⟩ := session_authentic hp rfl a2
    ((Decrypting.new_fresh (Q0 := fun _ _ => True) (s := s) trivial a3).2) hses
  exact ⟨⟨R, b1.symm⟩, b2, fun he => by rw [b1, b3 he, List.append_nil]⟩

/-! ### Many messages -/

/-- What `ReadFromStream` does does not depend on the bound. -/
theorem readLoop_more {ι : Type} {st : CInputStream ι} :
    ∀ {fuel : Nat} {i : ι} {s : σ} {wanted surplus : Nat} {out : Bytes} {q},
      (readLoop st fuel i wanted out surplus).run src s = some q → ∀ m, fuel ≤ m →
      (readLoop st m i wanted out surplus).run src s = some q := by
  intro fuel
  induction fuel with
  | zero => intro i s wanted surplus out q hx; cases hx
  | succ fuel ih =>
    intro i s wanted surplus out q hx m hm
    obtain ⟨m, rfl⟩ : ∃ m', m = m' + 1 := ⟨m - 1, by omega⟩
    unfold readLoop at hx ⊢
    by_cases hp : 0 < wanted
    · rw [if_pos hp] at hx ⊢
      rw [Prog.run_bind] at hx ⊢
      cases hn : (st.next i).run src s with
      | none => rw [hn] at hx; cases hx
      | some r =>
        obtain ⟨s1, i1, x⟩ := r
        rw [hn] at hx
        cases x with
        | error e => exact hx
        | ok data => exact ih hx m (by omega)
    · rw [if_neg hp] at hx ⊢
      exact hx

theorem readFromStream_same {ι : Type} {st : CInputStream ι} {a b : Nat} {i : ι} {s : σ} {n : Int}
    {q q'} (h1 : (readFromStream st a i n).run src s = some q)
    (h2 : (readFromStream st b i n).run src s = some q') : q = q' := by
  unfold readFromStream at h1 h2
  by_cases hn : n ≤ 0
  · rw [if_pos hn] at h1 h2
    exact Option.some.inj (h1.symm.trans h2)
  · rw [if_neg hn] at h1 h2
    have e1 := readLoop_more h1 (max a b) (by omega)
    have e2 := readLoop_more h2 (max a b) (by omega)
    exact Option.some.inj (e1.symm.trans e2)

/-- The header that will be read makes the decrypter accept `bs` only. -/
def Fated {ι : Type} (sd : SegmentDecrypter ν) (v : ν) (st : CInputStream ι) (src : Source σ)
    (bs : List Bytes) (i : ι) (s : σ) : Prop :=
  ∀ fuel s' i' out, (readFromStream st fuel i sd.headerSize).run src s = some (s', i', out, .ok ()) →
    ∀ v', sd.init v out = (v', .ok ()) → AcceptsOnly sd v' bs

theorem parts_fated {ι : Type} {st : CInputStream ι} {v : ν} (hs : Sober sd) {bs : List Bytes}
    (hbs : bs ≠ []) :
    Decrypting.Parts sd st src v bs (Fated sd v st src bs) (fun v' => AcceptsOnly sd v' bs)
      (fun _ _ _ => True) True := by
  refine ⟨List.length_pos_iff.mpr hbs, ?_, ?_⟩
  · intro fuel d s d' s' hst hdec hq hx
    rcases Decrypting.readHeader_cases hs hx with ⟨hd, a1, a2⟩ | a
    · refine .inl ⟨?_, trivial, a2⟩
      unfold DecryptingStream.readHeader at hx
      rw [Prog.run_map] at hx
      cases hh : (readFromStream st fuel d.source sd.headerSize).run src s with
      | none => rw [hh] at hx; cases hx
      | some q =>
        obtain ⟨s1, i1, out, r⟩ := q
        rw [hh] at hx
        have hst' : d'.status = none := by rw [a2]; exact hst
        cases r with
        | error e =>
          simp only [Option.map_some, Option.some.injEq, Prod.mk.injEq] at hx
          obtain ⟨-, hx⟩ := hx
          by_cases hc : e.code = .outOfRange
          · rw [if_pos hc] at hx; rw [← hx] at hst'; cases hst'
          · rw [if_neg hc] at hx; rw [← hx] at hst'; cases hst'
        | ok u =>
          simp only [Option.map_some, Option.some.injEq, Prod.mk.injEq] at hx
          obtain ⟨-, hx⟩ := hx
          cases hi : sd.init d.decrypter out with
          | mk v' y =>
            rw [hi] at hx
            cases y with
            | error e => rw [← hx] at hst'; cases hst'
            | ok u =>
              rw [← hx]
              exact hq _ _ _ _ hh v' (by rw [← hdec]; exact hi)
    · exact .inr ⟨trivial, a⟩
  · intro fuel d s d' s' r hj hv _ _ hx
    rcases Decrypting.nextSegment_cases hs hx with ⟨i, c, b, l, a1, a2, a3⟩ | a
    · obtain ⟨hj', b1, b2⟩ := hv _ _ _ _ a1
      subst b1
      refine .inl ⟨a2, fun _ => trivial, ?_⟩
      rw [a3]
      have : l = decide (d.segmentNumber + 1 = bs.length) := by
        by_cases hl : d.segmentNumber + 1 = bs.length
        · rw [decide_eq_true hl]; exact b2.mpr hl
        · rw [decide_eq_false hl]
          cases l with
          | false => rfl
          | true => exact absurd (b2.mp rfl) hl
      rw [this]
    · exact .inr ⟨trivial, a⟩

/-- The first calls of a session are a session. -/
theorem session_prefix {τ σ : Type} {st : RawStream τ} {src : Source σ} {t t' : τ} {s s' : σ}
    {pre post : Calls} (h : Session st src t s (pre ++ post) t' s') :
    ∃ t1 s1, Session st src t s pre t1 s1 := by
  generalize hc : pre ++ post = calls at h
  induction h generalizing post with
  | start =>
    obtain ⟨rfl, -⟩ := List.append_eq_nil_iff.mp hc
    exact ⟨_, _, .start⟩
  | @read calls t1 s1 t2 s2 size r fuel h1 h2 h3 ih =>
    rcases List.eq_nil_or_concat post with rfl | ⟨post', x, rfl⟩
    · rw [List.append_nil] at hc
      subst hc
      exact ⟨_, _, .read fuel h1 h2 h3⟩
    · rw [List.concat_eq_append, ← List.append_assoc] at hc
      exact ih (List.append_inj' hc rfl).1

/-- C68.  Whatever the source delivers, a key whose decrypter accepts only what was encrypted delivers
nothing but the messages that were encrypted: not parts of different ones, none that is cut short, and
none with segments left out, repeated or moved. -/
theorem C68_delivers_one_of {p : NonceBased κ ν} {ad buffer : Bytes} {v : ν}
    (hd : p.newSegmentDecrypter ad = .ok (sd, v)) (hs : Sober sd) {msgs : List Bytes → Prop}
    (hmsgs : ∀ bs, msgs bs → bs ≠ []) (ha : AuthenticAmong sd v msgs) :
    DeliversOneOf (p.toRaw (σ := σd) text buffer) ad (fun P => ∃ bs, msgs bs ∧ P = bs.flatten) := by
  intro σ src s t ht calls t' s' hses
  obtain ⟨v', a1, a2, a3⟩ := open_ok ht
  rw [hd] at a1
  simp only [Except.ok.injEq, Prod.mk.injEq] at a1
  obtain ⟨rfl, rfl⟩ := a1
  have key' : ∀ bs, bs ≠ [] → Fated t.decrypter v (PythonInputStream.stream text) src bs
      (PythonInputStream.new () buffer) s → ∀ {calls t' s'},
      Session (p.toRaw (σ := σd) text buffer).stream src t s calls t' s' →
      Calls.bytes calls <+: bs.flatten ∧
      (∀ c ∈ calls, ∀ e, c.2 = .raised e → e.isTink = true) ∧
      ((∃ c ∈ calls, c.1 ≠ 0 ∧ c.2 = .data []) → Calls.bytes calls = bs.flatten) := by
    intro bs hbs hf calls t' s' hses
    obtain ⟨-, -, R, -, b1, b2, b3⟩ := session_authentic (parts_fated hs hbs) rfl a2
      ((Decrypting.new_fresh hf a3).2) hses
    exact ⟨⟨R, b1.symm⟩, b2, fun he => by rw [b1, b3 he, List.append_nil]⟩
  have key := fun bs hbs hf => key' bs hbs hf hses
  have nothing : (∀ bs, Fated t.decrypter v (PythonInputStream.stream text) src bs
      (PythonInputStream.new () buffer) s) →
      FromOneOf (fun P => ∃ bs, msgs bs ∧ P = bs.flatten) calls := by
    intro hall
    obtain ⟨c1, c2, c3⟩ := key [[0]] (by simp) (hall _)
    obtain ⟨d1, -, d3⟩ := key [[1]] (by simp) (hall _)
    refine ⟨c2, .inl ⟨?_, ?_⟩⟩
    · obtain ⟨x, hx⟩ := c1
      obtain ⟨y, hy⟩ := d1
      cases hb : Calls.bytes calls with
      | nil => rfl
      | cons z l =>
        rw [hb] at hx hy
        have e1 := (List.cons.inj hx).1
        have e2 := (List.cons.inj hy).1
        exact absurd (e1.symm.trans e2) (by decide)
    · intro he
      have := (c3 he).symm.trans (d3 he)
      exact absurd this (by decide)
  by_cases hex : ∃ fuel s' i' out v', (readFromStream (PythonInputStream.stream text) fuel
      (PythonInputStream.new () buffer) t.decrypter.headerSize).run src s =
        some (s', i', out, .ok ()) ∧ t.decrypter.init v out = (v', .ok ())
  · obtain ⟨fuel, s1, i1, out, v1, h1, h2⟩ := hex
    have fated : ∀ bs, AcceptsOnly t.decrypter v1 bs → Fated t.decrypter v
        (PythonInputStream.stream text) src bs (PythonInputStream.new () buffer) s := by
      intro bs hacc fuel' s2 i2 out2 hx v2 hv
      have := readFromStream_same h1 hx
      simp only [Prod.mk.injEq] at this
      obtain ⟨-, -, rfl, -⟩ := this
      rw [h2] at hv
      cases hv
      exact hacc
    rcases ha out v1 h2 with ⟨bs, hm, hacc⟩ | hno
    · obtain ⟨c1, c2, c3⟩ := key bs (hmsgs bs hm) (fated bs hacc)
      refine ⟨c2, .inr ⟨_, ⟨bs, hm, rfl⟩, c1, ?_⟩⟩
      intro pre c post hcalls hz hd
      rw [hcalls, List.append_cons] at hses
      obtain ⟨t2, s2, hses2⟩ := session_prefix hses
      obtain ⟨-, -, e3⟩ := key' bs (hmsgs bs hm) (fated bs hacc) hses2
      rw [← e3 ⟨c, by simp, hz, hd⟩, calls_bytes_append]
      simp [hd, ReadResult.bytes]
    · exact nothing fun bs => fated bs fun c j l b hb => absurd hb (hno c j l b)
  · exact nothing fun bs fuel s' i' out hx v' hv => absurd ⟨fuel, s', i', out, v', hx, hv⟩ hex

/-! ## Writing -/

/-- C67.  If all writes and the closing of an encrypting stream succeed, the destination has accepted an
encryption of what was written. -/
theorem C67_written {p : NonceBased κ ν} (hp : SoundStreaming p) {snk : CSink σd} (hk : Honest snk)
    {seed : Seed} {s0 : σd} {buffer ad P : Bytes}
    {t t1 t2 : CcEncrypting κ (σd × Bytes)}
    (ht : p.newRawEncryptingStream seed ⟨true, (s0, []), buffer⟩ ad = .ok t)
    (hw : Written (recordedSink snk) t P t1) {fuel : Nat}
    (hc : t1.close (recordedSink snk) fuel = some (t2, .ok ())) :
    ∃ se k, p.newSegmentEncrypter seed ad = .ok (se, k) ∧ EncryptionOf se k P t2.object.2 ∧
      0 < EncryptingStream.firstSegmentSize se := by
  unfold NonceBased.newRawEncryptingStream NonceBased.newEncryptingStream at ht
  simp only [if_true] at ht
  cases hq : p.newSegmentEncrypter seed ad with
  | error e => rw [hq] at ht; cases ht
  | ok q =>
    obtain ⟨se, k⟩ := q
    rw [hq] at ht
    cases hn : EncryptingStream.new se k (PythonOutputStream.new (s0, ([] : Bytes)) buffer) with
    | error e => simp only [bind, Except.bind, hn] at ht; cases ht
    | ok e =>
      simp only [bind, Except.bind, hn] at ht
      cases ht
      obtain ⟨hoff, -⟩ := hp _ _ _ _ hq
      obtain ⟨hf, hinv⟩ := Encrypting.new_inv
        (inv := fun (p : PythonOutputStream (σd × Bytes)) P => OutputOk p ∧ committedOf p = P)
        (by
          refine ⟨?_, rfl⟩
          intro _
          exact ⟨0, open_new s0 buffer⟩) hn
      refine ⟨se, k, rfl, ?_, hf⟩
      have hlaw := fun fuel => C67_encrypting_stream (C56_lawful hk fuel) (se := se) k hf hoff fuel
      have key : t1.encrypter = se ∧ t1.raw.closed = false ∧ ∃ bs cs, Encrypting.EncInv se k
          (fun p P => OutputOk p ∧ committedOf p = P) bs cs t1.raw.adapter P := by
        clear hc
        induction hw with
        | start => exact ⟨rfl, rfl, _, _, hinv⟩
        | @write P t1 b t2 n fuel _ hmax hwr ih =>
          obtain ⟨i1, i2, i3⟩ := ih
          unfold CcEncrypting.write CcEncrypting.stream at hwr
          rw [i1] at hwr
          cases hx : t1.raw.write (EncryptingStream.stream se
              (PythonOutputStream.stream (recordedSink snk) fuel) fuel) fuel (.bytesLike b) with
          | none => rw [hx] at hwr; cases hwr
          | some q =>
            obtain ⟨r, x⟩ := q
            rw [hx] at hwr
            simp only [Option.map_some, Option.some.injEq, Prod.mk.injEq] at hwr
            obtain ⟨rfl, rfl⟩ := hwr
            obtain ⟨a1, a2⟩ := C56_raw_write (hlaw fuel) i3 i2 hmax hx
            obtain ⟨rfl, a3⟩ := a2
            refine ⟨rfl, a1, ?_⟩
            rw [List.take_length]
            exact a3
      obtain ⟨i1, i2, i3⟩ := key
      unfold CcEncrypting.close CcEncrypting.stream at hc
      rw [i1] at hc
      cases hx : t1.raw.close (EncryptingStream.stream se
          (PythonOutputStream.stream (recordedSink snk) fuel) fuel) with
      | none => rw [hx] at hc; cases hc
      | some q =>
        obtain ⟨r, x⟩ := q
        rw [hx] at hc
        simp only [Option.map_some, Option.some.injEq, Prod.mk.injEq] at hc
        obtain ⟨rfl, rfl⟩ := hc
        rcases C56_raw_close (hlaw fuel) i3 i2 hx with ⟨-, -, C, a1, a2⟩ | ⟨a1, -⟩
        · have h2 : r.adapter.dest.adapter.2 = C := a2
          show EncryptionOf se k P r.adapter.dest.adapter.2
          rw [h2]; exact a1
        · cases a1

/-- C67.  Round trip: what was written to an encrypting stream of a key, in any pieces, to a destination
that takes any number of bytes at a time, is what the key decrypts the ciphertext to, with the same
associated data. -/
theorem C67_round_trip {p : NonceBased κ ν} (hp : SoundStreaming p) {snk : CSink σd} (hk : Honest snk)
    {seed : Seed} {s0 : σd} {buffer ad P : Bytes}
    {t t1 t2 : CcEncrypting κ (σd × Bytes)}
    (ht : p.newRawEncryptingStream seed ⟨true, (s0, []), buffer⟩ ad = .ok t)
    (hw : Written (recordedSink snk) t P t1) {fuel : Nat}
    (hc : t1.close (recordedSink snk) fuel = some (t2, .ok ()))
    {buffer' : Bytes} (hb' : buffer' ≠ []) {σe : Type} :
    DecryptsTo (p.toRaw (σ := σe) text buffer') ad t2.object.2 P := by
  obtain ⟨se, k, h1, h2, h3⟩ := C67_written hp hk ht hw hc
  obtain ⟨h4, sd, v, h5, h6⟩ := hp _ _ _ _ h1
  exact C67_decrypts_to hb' h5 h6 h4 h3 h2

/-! ## Keysets -/

section Keyset
variable {δ ε τ : Type}

/-- C68, for a list of keys. -/
theorem deliversOneOf_keys {src : Source σ} {s : σ} {readable : Bool} {ad : Bytes}
    {msgs : Bytes → Prop} {ps : List (RawStreamingAead δ ε τ)}
    {w0 w : DecryptingStreamWrapper σ δ ε τ} {calls : Calls}
    (hopen : ∀ p ∈ ps, ∃ t, p.newRawDecryptingStream ad = .ok t)
    (hp : ∀ p ∈ ps, DeliversOneOf p ad msgs)
    (hnew : DecryptingStreamWrapper.new ps s readable ad = .ok w0)
    (H : StreamHistory src w0 calls w) : FromOneOf msgs calls := by
  obtain ⟨pre, p, post, old, now, alone, e1, e2, -, e4, e4', e6, e7⟩ := C54_single_key hopen hnew H
  have from_alone : ∀ {q}, q ∈ ps → ∀ {cs}, Alone q ad src s cs → FromOneOf msgs cs := by
    rintro q hq cs ⟨t, d, s', t', s'', f1, -, f3⟩
    exact hp q hq _ _ _ _ f1 _ _ _ f3
  have hbytes : Calls.bytes calls = Calls.bytes alone := by
    rw [← same_bytes e7, e2]
    simp only [Calls.bytes, List.flatMap_append]
    have := noData_bytes e4.1
    unfold Calls.bytes at this
    rw [this]; rfl
  have corr : ∀ c ∈ now, ∃ c' ∈ alone, c.1 = c'.1 ∧ uptoTink c.2 = uptoTink c'.2 := by
    intro c hc
    have : (c.1, uptoTink c.2) ∈ alone.map (fun c => (c.1, uptoTink c.2)) := by
      rw [← e7]; exact List.mem_map.mpr ⟨c, hc, rfl⟩
    obtain ⟨c', hc', he⟩ := List.mem_map.mp this
    exact ⟨c', hc', (Prod.mk.inj he).1.symm, (Prod.mk.inj he).2.symm⟩
  have back : (∃ c ∈ calls, c.1 ≠ 0 ∧ c.2 = .data []) → ∃ c ∈ alone, c.1 ≠ 0 ∧ c.2 = .data [] := by
    rintro ⟨c, hc, hz, hd⟩
    rw [e2, List.mem_append] at hc
    rcases hc with hc | hc
    · exact absurd hd (e4.1 c hc [])
    · obtain ⟨c', hc', h1, hu⟩ := corr c hc
      rw [hd] at hu
      exact ⟨c', hc', by rw [← h1]; exact hz, uptoTink_data hu.symm⟩
  have back' : ∀ pre c post, calls = pre ++ c :: post → c.2 = .data [] →
      ∃ pre' c' post', alone = pre' ++ c' :: post' ∧ c'.1 = c.1 ∧ c'.2 = .data [] ∧
        Calls.bytes pre = Calls.bytes pre' := by
    intro pre c post hsplit hd
    have : ∃ pre2, pre = old ++ pre2 ∧ now = pre2 ++ c :: post := by
      rw [e2] at hsplit
      rcases List.append_eq_append_iff.mp hsplit with ⟨x, h1, h2⟩ | ⟨x, h1, h2⟩
      · exact ⟨x, h1, h2⟩
      · cases x with
        | nil => exact ⟨[], by simpa using h1.symm, by simpa using h2.symm⟩
        | cons y x =>
          obtain ⟨rfl, -⟩ := List.cons.inj h2
          exact absurd hd (e4.1 c (by rw [h1]; simp) [])
    obtain ⟨pre2, rfl, hnow⟩ := this
    rw [hnow, List.map_append, List.map_cons] at e7
    obtain ⟨pre', l, h1, h2, h3⟩ := List.append_eq_map_iff.mp e7
    obtain ⟨c', post', h4, h5, h6⟩ := List.map_eq_cons_iff.mp h3
    have h5' := Prod.mk.inj h5
    refine ⟨pre', c', post', by rw [h1, h4], h5'.1, ?_, ?_⟩
    · rw [hd] at h5'
      exact uptoTink_data h5'.2
    · rw [← same_bytes h2.symm]
      simp only [Calls.bytes, List.flatMap_append]
      have := noData_bytes e4.1
      unfold Calls.bytes at this
      rw [this]; rfl
  have tink : ∀ {r r' : ReadResult} {e : Exc}, uptoTink r' = uptoTink r → r = .raised e →
      (∀ e', r' = .raised e' → e'.isTink = true) → e.isTink = true := by
    intro r r' e hu hr hall
    subst hr
    by_cases ht : e.isTink = true
    · exact ht
    · have : uptoTink (.raised e) = .raised e := by simp only [uptoTink, if_neg ht]
      rw [this] at hu
      obtain ⟨e', he'⟩ := uptoTink_raised hu
      have h1 := hall e' he'
      rw [he'] at hu
      simp only [uptoTink, if_pos h1] at hu
      cases hu
      exact absurd rfl ht
  have hpm : p ∈ ps := by rw [e1]; simp
  obtain ⟨g1, g2⟩ := from_alone hpm e6
  refine ⟨?_, ?_⟩
  · intro c hc e he
    rw [e2, List.mem_append] at hc
    rcases hc with hc | hc
    · obtain ⟨q, hqm, cs, hal, c', hc', -, hu⟩ := e4' c hc
      exact tink hu he ((from_alone (by rw [e1]; simp [hqm]) hal).1 c' hc')
    · obtain ⟨c', hc', -, hu⟩ := corr c hc
      exact tink hu.symm he (g1 c' hc')
  · rw [hbytes]
    rcases g2 with ⟨h1, h2⟩ | ⟨P, h1, h2, h3⟩
    · exact .inl ⟨h1, fun he => h2 (back he)⟩
    · refine .inr ⟨P, h1, h2, ?_⟩
      intro pre c post hsplit hz hd
      obtain ⟨pre', c', post', f1, f2, f3, f4⟩ := back' pre c post hsplit hd
      rw [f4]
      exact h3 pre' c' post' f1 (by rw [f2]; exact hz) f3

variable {P C : Type} [DecidableEq C] {isInst : P → C → Bool} {t : Nat} {ci c : C}
  {V : View P (RawStreamingAead δ ε τ)} {W : View P (StreamingAead σ δ ε τ)}

/-- C68, for a keyset: if the enabled keys deliver nothing but certain messages, so does the keyset,
from any source and through any history of reads. -/
theorem C68_keyset {r : Registry P C} {h : KeysetHandle} {kps : List (Key × P)} {prim : P}
    (H : Obtained isInst (streamingAeadWrapper V W t ci c) r h c kps prim)
    {src : Source σ} {s : σ} {readable : Bool} {ad : Bytes} {msgs : Bytes → Prop}
    {w0 w : DecryptingStreamWrapper σ δ ε τ} {calls : Calls}
    (hq : ∀ q ∈ kps, (∃ t, (V.view q.2).newRawDecryptingStream ad = .ok t) ∧
      DeliversOneOf (V.view q.2) ad msgs)
    (hnew : (W.view prim).newDecryptingStream s readable ad = .ok w0)
    (hist : StreamHistory src w0 calls w) : FromOneOf msgs calls := by
  have hk := H.prop.2
  rw [(C54_keyset H).2] at hnew
  refine deliversOneOf_keys ?_ ?_ hnew hist
  · intro x hx
    obtain ⟨q, hqm, rfl⟩ := List.mem_map.mp hx
    exact (hq q ((mem_groupOrder hk).mp hqm)).1
  · intro x hx
    obtain ⟨q, hqm, rfl⟩ := List.mem_map.mp hx
    exact (hq q ((mem_groupOrder hk).mp hqm)).2
end Keyset

/-- C67, for keysets.  A stream is encrypted with one keyset, whose primary key is `o`: it is written in
any pieces, to a destination that takes any number of bytes at a time, and closed.  It is decrypted, with
the same associated data, with a keyset in which `o` is enabled, and in which all other enabled keys
refuse the ciphertext (or decrypt it to the same).  Then, whatever reads are made, from a source with
short reads and pauses: none raises, the bytes returned are the first of those written, and once `b''`
was returned they are all of them. -/
theorem C67_keyset_round_trip {P C : Type} [DecidableEq C] {isInst : P → C → Bool} {t : Nat} {ci c : C}
    {V : View P (RawStreamingAead (Dest (σd × Bytes)) (CcEncrypting κ (σd × Bytes)) (CcDecrypting ν))}
    {W : View P (StreamingAead σ (Dest (σd × Bytes)) (CcEncrypting κ (σd × Bytes)) (CcDecrypting ν))}
    {r1 r2 : Registry P C} {h1 h2 : KeysetHandle} {kps1 kps2 : List (Key × P)} {prim1 prim2 : P}
    (H1 : Obtained isInst (streamingAeadWrapper V W t ci c) r1 h1 c kps1 prim1)
    (H2 : Obtained isInst (streamingAeadWrapper V W t ci c) r2 h2 c kps2 prim2)
    {p : NonceBased κ ν} (hp : SoundStreaming p) {inBuffer : Bytes} (hb : inBuffer ≠ []) {o : P}
    (ho : V.view o = p.toRaw text inBuffer) {k : Key} (hprim : IsPrimary h1.keyset kps1 (k, o))
    -- encryption
    {snk : CSink σd} (hk : Honest snk) {seed : Seed} {s0 : σd} {outBuffer ad pt : Bytes}
    {e e1 e2 : CcEncrypting κ (σd × Bytes)}
    (he : (W.view prim1).newEncryptingStream seed ⟨true, (s0, []), outBuffer⟩ ad = .ok e)
    (hw : Written (recordedSink snk) e pt e1) {fuel : Nat}
    (hc : e1.close (recordedSink snk) fuel = some (e2, .ok ()))
    -- decryption
    {rest : σ → Bytes} (hsrc : Faithful src rest) (hst : Steady src) {s : σ}
    (hs : rest s = e2.object.2)
    (hmem : ∃ q ∈ kps2, q.2 = o)
    (hothers : ∀ q ∈ kps2, q.2 = o ∨ DecryptsTo (V.view q.2) ad (rest s) pt ∨
      RefusesContent (V.view q.2) ad (rest s))
    {readable : Bool}
    {w0 w : DecryptingStreamWrapper σ (Dest (σd × Bytes)) (CcEncrypting κ (σd × Bytes))
      (CcDecrypting ν)} {calls : Calls}
    (hnew : (W.view prim2).newDecryptingStream s readable ad = .ok w0)
    (hist : StreamHistory src w0 calls w) :
    Calls.bytes calls <+: pt ∧ (∀ c ∈ calls, ∀ e, c.2 ≠ .raised e) ∧
      ((∃ c ∈ calls, c.2 = .data []) → Calls.bytes calls = pt) := by
  rw [(C54_keyset H1).1 k o hprim, ho] at he
  have hdec : DecryptsTo (V.view o) ad (rest s) pt := by
    rw [ho, hs]
    exact C67_round_trip hp hk he hw hc hb
  refine C54_keyset_plaintext H2 hsrc hst ?_ ?_ hnew hist
  · obtain ⟨q, hq, rfl⟩ := hmem
    exact ⟨q, hq, hdec⟩
  · intro q hq
    rcases hothers q hq with rfl | h
    · exact .inl hdec
    · exact h

end
end Tink.Props
