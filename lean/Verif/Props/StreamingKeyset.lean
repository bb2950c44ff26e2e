import Verif.Props.StreamingAead
import Verif.Examples.ToyStream

/-!
# C54, continued: plaintexts, keysets, and what goes wrong
-/

namespace Tink.Props
open Spec DecryptingStreamWrapper

variable {σ τ δ ε : Type}

theorem prepended_faithful {src : Source σ} {rest : σ → Bytes} (h : Faithful src rest) :
    Faithful (prepended src) (fun s => s.1 ++ rest s.2) := by
  constructor
  · intro s n b hb
    obtain ⟨d, s⟩ := s
    by_cases hd : d = []
    · subst hd
      simp only [prepended, if_true, List.nil_append] at hb ⊢
      cases hr : (src.read s n).2 with
      | data b' =>
        rw [hr] at hb
        simp only [unblocked, ReadResult.data.injEq] at hb
        subst hb
        exact h.data s n b' hr
      | none => rw [hr] at hb; cases hb
      | blocking => rw [hr] at hb; cases hb
      | raised e => rw [hr] at hb; cases hb
    · simp only [prepended, if_neg hd, ReadResult.data.injEq] at hb ⊢
      subst hb
      refine ⟨by rw [← List.append_assoc, List.take_append_drop], ?_, ?_⟩
      · simp only [List.length_take]; omega
      · intro h0
        rw [List.take_eq_nil_iff] at h0
        rcases h0 with h0 | h0
        · exact .inl h0
        · exact absurd h0 hd
  · intro s n hb
    obtain ⟨d, s⟩ := s
    by_cases hd : d = []
    · subst hd
      simp only [prepended, if_true, List.nil_append] at hb ⊢
      refine h.noData s n ?_
      intro b hr
      exact hb b (by rw [hr]; rfl)
    · simp only [prepended, if_neg hd] at hb
      exact absurd rfl (hb _)

theorem prepended_steady {src : Source σ} (h : Steady src) : Steady (prepended src) := by
  intro s n e
  obtain ⟨d, s⟩ := s
  by_cases hd : d = []
  · subst hd
    simp only [prepended, if_true]
    intro hr
    cases hx : (src.read s n).2 with
    | raised e' => exact h s n e' hx
    | data b => rw [hx] at hr; cases hr
    | none => rw [hx] at hr; cases hr
    | blocking => rw [hx] at hr; cases hr
  · simp only [prepended, if_neg hd]
    intro hr
    cases hr

theorem delivers_faithful {src : Source σ} {rest : σ → Bytes} (h : Faithful src rest) {s s' : σ}
    {d : Bytes} (hd : Delivers src s d s') : d ++ rest s' = rest s := by
  induction hd with
  | start => rfl
  | @read d s' n _ ih =>
    rw [← ih]
    cases hr : (src.read s' n).2 with
    | data b => rw [(h.data s' n b hr).1]; simp [ReadResult.bytes]
    | none => rw [h.noData s' n (by simp [hr])]; simp [ReadResult.bytes]
    | blocking => rw [h.noData s' n (by simp [hr])]; simp [ReadResult.bytes]
    | raised e => rw [h.noData s' n (by simp [hr])]; simp [ReadResult.bytes]

theorem uptoTink_data {r : ReadResult} {b : Bytes} (h : uptoTink r = .data b) : r = .data b := by
  cases r with
  | data b' => exact h
  | none => cases h
  | blocking => cases h
  | raised e => simp only [uptoTink] at h; split at h <;> cases h

theorem uptoTink_bytes (r : ReadResult) : (uptoTink r).bytes = r.bytes := by
  cases r with
  | raised e => simp only [uptoTink]; split <;> rfl
  | _ => rfl

theorem uptoTink_raised {r : ReadResult} {e : Exc} (h : uptoTink r = .raised e) :
    ∃ e', r = .raised e' := by
  cases r with
  | raised e' => exact ⟨e', rfl⟩
  | _ => cases h

theorem same_bytes {a b : Calls}
    (h : a.map (fun c => (c.1, uptoTink c.2)) = b.map (fun c => (c.1, uptoTink c.2))) :
    Calls.bytes a = Calls.bytes b := by
  have : ∀ x : Calls, Calls.bytes x = (x.map (fun c => (c.1, uptoTink c.2))).flatMap (·.2.bytes) := by
    intro x
    simp [Calls.bytes, List.flatMap_map, uptoTink_bytes]
  rw [this, this, h]

theorem noData_bytes {a : Calls} (h : NoData a) : Calls.bytes a = [] := by
  simp only [Calls.bytes, List.flatMap_eq_nil_iff]
  intro c hc
  cases hr : c.2 with
  | data b => exact absurd hr (h c hc b)
  | _ => rfl

/-- C54.  The ciphertext `C` arrives from a source with short reads and pauses, some key decrypts it
to `P`, all others do the same or refuse it.  Then, whatever reads are made: none raises, the bytes
returned are the first bytes of `P`, and once `b''` was returned they are all of `P`. -/
theorem C54_plaintext {src : Source σ} {rest : σ → Bytes} {s : σ} {readable : Bool} {ad P : Bytes}
    {ps : List (RawStreamingAead δ ε τ)} {w0 w : DecryptingStreamWrapper σ δ ε τ} {calls : Calls}
    (hsrc : Faithful src rest) (hst : Steady src)
    (hp : ∃ p ∈ ps, DecryptsTo p ad (rest s) P)
    (hq : ∀ q ∈ ps, DecryptsTo q ad (rest s) P ∨ RefusesContent q ad (rest s))
    (hnew : DecryptingStreamWrapper.new ps s readable ad = .ok w0)
    (H : StreamHistory src w0 calls w) :
    Calls.bytes calls <+: P ∧ (∀ c ∈ calls, ∀ e, c.2 ≠ .raised e) ∧
      ((∃ c ∈ calls, c.2 = .data []) → Calls.bytes calls = P) := by
  obtain ⟨p, hpm, hp⟩ := hp
  have hmem := hq
  have hopen : ∀ q ∈ ps, ∃ t, q.newRawDecryptingStream ad = .ok t := by
    intro q hm
    rcases hmem q hm with h | h
    · exact h.1
    · exact h.1
  have alone_p : ∀ {p : RawStreamingAead δ ε τ}, DecryptsTo p ad (rest s) P → ∀ {cs},
      Alone p ad src s cs → Calls.bytes cs <+: P ∧
      (∀ c ∈ cs, ∀ e, c.2 ≠ .raised e) ∧
      ((∃ c ∈ cs, c.1 ≠ 0 ∧ c.2 = .data []) → Calls.bytes cs = P) := by
    rintro p hp cs ⟨t, d, s', t', s'', ht, hd, hses⟩
    exact hp.2 _ _ _ (prepended_faithful hsrc) (prepended_steady hst) (d, s')
      (delivers_faithful hsrc hd) t ht cs t' s'' hses
  have alone_q : ∀ {q : RawStreamingAead δ ε τ}, RefusesContent q ad (rest s) → ∀ {cs}, Alone q ad src s cs → NoData cs ∧
      ∀ c ∈ cs, ∀ e, c.2 = .raised e → e.isTink = true := by
    rintro q hq cs ⟨t, d, s', t', s'', ht, hd, hses⟩
    exact hq.2 _ _ _ (prepended_faithful hsrc) (prepended_steady hst) (d, s')
      (delivers_faithful hsrc hd) t ht cs t' s'' hses
  have hsizes : ∀ {cs w}, StreamHistory src w0 cs w → ∀ c ∈ cs, c.1 ≠ 0 := by
    intro cs w H
    induction H with
    | start => intro c hc; cases hc
    | read fuel _ hsz _ _ ih =>
      intro c hc
      rw [List.mem_append, List.mem_singleton] at hc
      rcases hc with hc | rfl
      · exact ih c hc
      · exact hsz
  have hsz := hsizes H
  obtain ⟨pre', p', post', old, now, alone, e1, e2, e3, e4, e4', e5, e6⟩ := C54_single_key hopen hnew H
  have hbytes : Calls.bytes calls = Calls.bytes alone := by
    rw [← same_bytes e6, e2]
    simp only [Calls.bytes, List.flatMap_append]
    have := noData_bytes e4.1
    unfold Calls.bytes at this
    rw [this]; rfl
  -- the calls made before are without exceptions: no `TinkError`, and only such are raised
  have corr : ∀ c ∈ now, ∃ c' ∈ alone, c.1 = c'.1 ∧ uptoTink c.2 = uptoTink c'.2 := by
    intro c hc
    have : (c.1, uptoTink c.2) ∈ alone.map (fun c => (c.1, uptoTink c.2)) := by
      rw [← e6]; exact List.mem_map.mpr ⟨c, hc, rfl⟩
    obtain ⟨c', hc', he⟩ := List.mem_map.mp this
    exact ⟨c', hc', (Prod.mk.inj he).1.symm, (Prod.mk.inj he).2.symm⟩
  have hnp : ∀ c ∈ calls, ∀ e, c.2 = .raised e → e.isTink = true := by
    have key : ∀ q ∈ pre' ++ [p'], ∀ cs, Alone q ad src s cs → ∀ c' ∈ cs, ∀ e,
        c'.2 = .raised e → e.isTink = true := by
      intro q hqm cs hal c' hc' e he
      have : q ∈ ps := by
        rw [e1]
        simp only [List.mem_append, List.mem_cons, List.not_mem_nil, or_false] at hqm ⊢
        rcases hqm with h | h
        · exact .inl h
        · exact .inr (.inl h)
      rcases hmem q this with hr | hr
      · exact absurd he ((alone_p hr hal).2.1 c' hc' e)
      · exact (alone_q hr hal).2 c' hc' e he
    have tink : ∀ {r r' : ReadResult} {e : Exc}, uptoTink r' = uptoTink r → r = .raised e →
        (∀ e', r' = .raised e' → e'.isTink = true) → e.isTink = true := by
      intro r r' e hu hr hall
      subst hr
      by_cases ht : e.isTink = true
      · exact ht
      · have : uptoTink (.raised e) = .raised e := by simp only [uptoTink, if_neg ht]
        rw [this] at hu
        obtain ⟨e', he'⟩ := uptoTink_raised hu
        have h1 := hall e' he'
        rw [he'] at hu
        simp only [uptoTink, if_pos h1] at hu
        cases hu
        exact absurd rfl ht
    intro c hc e he
    rw [e2, List.mem_append] at hc
    rcases hc with hc | hc
    · obtain ⟨q, hqm, cs, hal, c', hc', -, hu⟩ := e4' c hc
      exact tink hu he (key q (by simp [hqm]) cs hal c' hc')
    · obtain ⟨c', hc', -, hu⟩ := corr c hc
      exact tink hu.symm he (key p' (by simp) alone e5 c' hc')
  have hrefp : ¬ RefusesStream p ad src s := by
    rintro ⟨cs, hal, -, c, hc, e, he, -⟩
    exact (alone_p hp hal).2.1 c hc e he
  have hold : ∀ c ∈ old, ∀ e, c.2 ≠ .raised e := by
    intro c hc e he
    exact e4.2 ⟨c, hc, e, he, hnp c (by rw [e2]; simp [hc]) e he⟩
  rcases hmem p' (by rw [e1]; simp) with hr | hr
  · obtain ⟨a1, a2, a3⟩ := alone_p hr e5
    refine ⟨by rw [hbytes]; exact a1, ?_, ?_⟩
    · intro c hc e he
      rw [e2, List.mem_append] at hc
      rcases hc with hc | hc
      · exact hold c hc e he
      · obtain ⟨c', hc', -, hu⟩ := corr c hc
        rw [he] at hu
        have : ∃ e', uptoTink c'.2 = .raised e' := by
          rw [← hu]
          simp only [uptoTink]
          split <;> exact ⟨_, rfl⟩
        obtain ⟨e', he'⟩ := this
        obtain ⟨e'', he''⟩ := uptoTink_raised he'
        exact a2 c' hc' e'' he''
    · rintro ⟨c, hc, hd⟩
      rw [hbytes]
      have hz := hsz c hc
      rw [e2, List.mem_append] at hc
      rcases hc with hc | hc
      · exact absurd hd (e4.1 c hc [])
      · obtain ⟨c', hc', h1, hu⟩ := corr c hc
        rw [hd] at hu
        exact a3 ⟨c', hc', by rw [← h1]; exact hz, uptoTink_data hu.symm⟩
  · have hnd := (alone_q hr e5).1
    have hnn : NoData calls := by
      intro c hc b hb
      rw [e2, List.mem_append] at hc
      rcases hc with hc | hc
      · exact e4.1 c hc b hb
      · obtain ⟨c', hc', -, hu⟩ := corr c hc
        rw [hb] at hu
        exact hnd c' hc' b (uptoTink_data hu.symm)
    refine ⟨by rw [hbytes, noData_bytes hnd]; exact List.nil_prefix, ?_, ?_⟩
    · intro c hc e he
      exact hrefp (C54_all_refuse hopen hnew H hnn ⟨c, hc, e, he, hnp c hc e he⟩ p hpm)
    · rintro ⟨c, hc, hd⟩
      exact absurd hd (hnn c hc [])

/-! ## Keysets -/

section Keyset
variable {P C : Type} [DecidableEq C]

variable {isInst : P → C → Bool} {r : Registry P C} {h : KeysetHandle} {kps : List (Key × P)}
  {p : P} {t : Nat} {ci c : C} {V : View P (RawStreamingAead δ ε τ)}
  {W : View P (StreamingAead σ δ ε τ)}

/-- C54.  The streaming AEAD of a keyset encrypts with the primary key, and decrypts by trying all
enabled keys, grouped by output prefix. -/
theorem C54_keyset (H : Obtained isInst (streamingAeadWrapper V W t ci c) r h c kps p) :
    (∀ k o, IsPrimary h.keyset kps (k, o) → ∀ r dest ad,
      (W.view p).newEncryptingStream r dest ad = (V.view o).newRawEncryptingStream r dest ad) ∧
    (∀ s readable ad, (W.view p).newDecryptingStream s readable ad =
      DecryptingStreamWrapper.new ((groupOrder kps).map (fun q => V.view q.2)) s readable ad) := by
  obtain ⟨hw, hk⟩ := H.prop
  simp only [streamingAeadWrapper, Except.ok.injEq] at hw
  subst hw
  rw [W.view_inj]
  constructor
  · intro k o hp r dest ad
    show WrappedStreamingAead.newEncryptingStream _ _ _ _ = _
    unfold WrappedStreamingAead.newEncryptingStream
    rw [primary_map, primary_psetOf_some hp]
    rfl
  · intro s readable ad
    show WrappedStreamingAead.newDecryptingStream _ _ _ _ = _
    unfold WrappedStreamingAead.newDecryptingStream
    rw [all_map, ← List.map_flatten, all_psetOf _ _ _ hk, List.map_map, List.map_map]
    rfl

/-- C54.  Decryption over a keyset: some enabled key decrypts the ciphertext `C` to `P`, every
enabled key does so or refuses it.  Then, whatever reads are made: none raises, the bytes returned
are the first bytes of `P`, and once `b''` was returned they are all of `P`. -/
theorem C54_keyset_plaintext (H : Obtained isInst (streamingAeadWrapper V W t ci c) r h c kps p)
    {src : Source σ} {rest : σ → Bytes} {s : σ} {readable : Bool} {ad pt : Bytes}
    {w0 w : DecryptingStreamWrapper σ δ ε τ} {calls : Calls}
    (hsrc : Faithful src rest) (hst : Steady src)
    (hp : ∃ q ∈ kps, DecryptsTo (V.view q.2) ad (rest s) pt)
    (hq : ∀ q ∈ kps, DecryptsTo (V.view q.2) ad (rest s) pt ∨
      RefusesContent (V.view q.2) ad (rest s))
    (hnew : (W.view p).newDecryptingStream s readable ad = .ok w0)
    (hist : StreamHistory src w0 calls w) :
    Calls.bytes calls <+: pt ∧ (∀ c ∈ calls, ∀ e, c.2 ≠ .raised e) ∧
      ((∃ c ∈ calls, c.2 = .data []) → Calls.bytes calls = pt) := by
  have hk := H.prop.2
  rw [(C54_keyset H).2] at hnew
  refine C54_plaintext hsrc hst ?_ ?_ hnew hist
  · obtain ⟨q, hqm, hd⟩ := hp
    exact ⟨_, List.mem_map.mpr ⟨q, (mem_groupOrder hk).mpr hqm, rfl⟩, hd⟩
  · intro x hx
    obtain ⟨q, hqm, rfl⟩ := List.mem_map.mp hx
    exact hq q ((mem_groupOrder hk).mp hqm)
end Keyset

/-! ## Examples and counterexamples -/

section Examples
open ToyStream

/-- Three keys, the last of which is the right one; the ciphertext comes in small pieces. -/
example : decrypt src [key 1, key 2, key 3] ([3, 10, 11, 12], false) [-1, 2, 2, 2, 2, 2, 2, 2] =
    [some .none, some (.data [10, 11]), some .none, some (.data [12]), some .none,
      some (.data []), some .none, some (.data [])] := by
  decide +kernel

/-- The hypotheses of `C54_plaintext` hold for these keys. -/
example : (∃ p ∈ [key 1, key 2, key 3], DecryptsTo p [] [3, 10, 11, 12] [10, 11, 12]) ∧
    ∀ q ∈ [key 1, key 2, key 3], DecryptsTo q [] [3, 10, 11, 12] [10, 11, 12] ∨
      RefusesContent q [] [3, 10, 11, 12] := by
  refine ⟨⟨key 3, by simp, decrypts _ _ _⟩, ?_⟩
  intro q hq
  simp only [List.mem_cons, List.not_mem_nil, or_false] at hq
  rcases hq with rfl | rfl | rfl
  · exact .inr (refuses _ _ _ (by decide))
  · exact .inr (refuses _ _ _ (by decide))
  · exact .inl (decrypts _ _ _)

/-- No key fits. -/
example : decrypt src [key 1, key 2] ([3, 10, 11, 12], false) [-1, -1] =
    [some (.raised .tinkError), some (.raised .tinkError)] := by
  decide +kernel

/-- C54, violation.  If a key's stream cannot be opened, the `TinkError` leaves `read` although a
later key decrypts the ciphertext. -/
theorem C54_open_failure_hides_key :
    (∃ p ∈ [key 1, key 2 (opens := false), key 3], DecryptsTo p [] [3, 10] [10]) ∧
    decrypt src [key 1, key 2 (opens := false), key 3] ([3, 10], false) [-1] =
      [some (.raised .tinkError)] :=
  ⟨⟨key 3, by simp, decrypts _ _ _⟩, by decide +kernel⟩

/-- C54, violation.  An I/O error of the source while the right key is tried makes the stream give
the key up: the ciphertext is refused although the source would deliver it at the second attempt.
(As `RawDecryptingStream` does, the toy streams turn errors of the source into `TinkError`.) -/
theorem C54_io_error_hides_key :
    (∃ p ∈ [key 3, key 1], DecryptsTo p [] [3, 10] [10]) ∧
    decrypt flaky [key 3, key 1] ([3, 10], true) [-1, -1, -1] =
      [some (.raised .tinkError), some (.raised .tinkError), some (.raised .tinkError)] := by
  exact ⟨⟨key 3, by simp, decrypts _ _ _⟩, by decide +kernel⟩

/-! A keyset of three toy streaming keys. -/
namespace StreamKeyset

/-- Primitive objects: raw streaming AEADs and streaming AEADs. -/
abbrev Prim := Sum (RawStreamingAead Bytes Bytes St) (StreamingAead (Bytes × Bool) Bytes Bytes St)

def rawView : View Prim (RawStreamingAead Bytes Bytes St) where
  inj := .inl
  view | .inl a => a | .inr _ => ToyStream.key 0
  view_inj _ := rfl
def streamView : View Prim (StreamingAead (Bytes × Bool) Bytes Bytes St) where
  inj := .inr
  view | .inr a => a | .inl _ => ⟨fun _ _ _ => .error .tinkError, fun _ _ _ => .error .tinkError⟩
  view_inj _ := rfl

def manager : KeyManager Prim Bool where
  pyType := 1
  primitiveClass := false
  keyType := ['s']
  doesSupport u := u = ['s']
  primitive kd := .ok (.inl (ToyStream.key (kd.value.headD 0)))
  newKeyData _ _ := .error .tinkError

def wrapper : PrimitiveWrapper Prim Bool := streamingAeadWrapper rawView streamView 2 false true

def registry : Registry Prim Bool where
  keyManagers := [(['s'], (manager, true))]
  wrappers := [(true, wrapper)]

def isInst : Prim → Bool → Bool
  | .inl _, c => c = false
  | .inr _, c => c = true

def mkKey (v : UInt8) (id : UInt32) (pre : EnumVal) : Key :=
  { keyData := some { typeUrl := ['s'], value := [v],
                      keyMaterialType := KeyMaterialType.SYMMETRIC }
    status := KeyStatusType.ENABLED, keyId := id, outputPrefixType := pre }

def ks : Keyset :=
  { primaryKeyId := 9
    key := [mkKey 1 7 OutputPrefixType.RAW, mkKey 2 8 OutputPrefixType.TINK,
            mkKey 3 9 OutputPrefixType.RAW] }
def kps : List (Key × Prim) :=
  [(mkKey 1 7 OutputPrefixType.RAW, .inl (ToyStream.key 1)),
   (mkKey 2 8 OutputPrefixType.TINK, .inl (ToyStream.key 2)),
   (mkKey 3 9 OutputPrefixType.RAW, .inl (ToyStream.key 3))]
def prim : Prim :=
  .inr (WrappedStreamingAead.wrap ((psetOf false 9 kps).map rawView.view))

/-- The hypotheses of `C54_keyset` hold here. -/
theorem obtained : Obtained isInst wrapper registry ⟨ks⟩ true kps prim :=
  ⟨rfl, rfl, rfl, by
    intro q hq
    simp only [kps, List.mem_cons, List.not_mem_nil, or_false] at hq
    rcases hq with rfl | rfl | rfl <;> rfl⟩

/-- The RAW keys are tried first, since the first key is one. -/
example : (groupOrder kps).map (fun q => q.1.keyId) = [7, 9, 8] := by decide +kernel

/-- The hypotheses of `C54_keyset_plaintext` on the keys hold for this ciphertext. -/
example : (∃ q ∈ kps, DecryptsTo (rawView.view q.2) [] [3, 10, 11, 12] [10, 11, 12]) ∧
    ∀ q ∈ kps, DecryptsTo (rawView.view q.2) [] [3, 10, 11, 12] [10, 11, 12] ∨
      RefusesContent (rawView.view q.2) [] [3, 10, 11, 12] := by
  refine ⟨⟨(mkKey 3 9 OutputPrefixType.RAW, .inl (ToyStream.key 3)), by simp [kps],
    decrypts _ _ _⟩, ?_⟩
  intro q hq
  simp only [kps, List.mem_cons, List.not_mem_nil, or_false] at hq
  rcases hq with rfl | rfl | rfl
  · exact .inr (refuses _ _ _ (by decide))
  · exact .inr (refuses _ _ _ (by decide))
  · exact .inl (decrypts _ _ _)

/-- ... and reading gives the plaintext. -/
example : (match (streamView.view prim).newDecryptingStream ([3, 10, 11, 12], false) true [] with
    | .ok w => results src 10 w [2, 2, 2, 2, 2, 2]
    | .error _ => []) =
    [some .none, some (.data [10, 11]), some .none, some (.data [12]), some .none,
      some (.data [])] := by
  decide +kernel

end StreamKeyset
end Examples

end Tink.Props
