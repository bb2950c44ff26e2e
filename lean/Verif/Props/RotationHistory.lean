import Verif.Spec.Rotation
import Verif.Props.KeysetIO

/-!
# C109: what a rotation makes of the keys of a keyset
-/

namespace Tink.Props
open Spec

variable {P C : Type} {r : Registry P C} {h h' : KeysetHandle} {ops : List BuilderOp}

theorem rotated_iff_run (H : Rotated r h ops h') : runBuilder r ops h.keyset = some h'.keyset ∧ Valid h'.keyset := by
  obtain ⟨b, b', h1, h2, h3⟩ := H
  obtain ⟨e, hv⟩ := C59_keyset_handle h3
  have : b = h.keyset := by
    unfold KeysetBuilder.fromKeysetHandle KeysetBuilder.fromKeyset at h1
    obtain ⟨x, hx, h4⟩ := bind_ok_iff.1 h1
    unfold ProtoKeysetFormat.serialize at hx
    obtain ⟨ks, hks, h5⟩ := bind_ok_iff.1 hx
    cases (show .ok h.keyset = Except.ok ks from hks)
    unfold binaryKeysetWriter at h5
    dsimp only at h5
    cases hb : h.keyset.serializeToString with
    | error e => rw [hb] at h5; cases h5
    | ok y =>
      rw [hb] at h5
      cases h5
      have := Keyset.fromString_serializeToString hb
      rw [List.nil_append] at h4
      rw [this] at h4
      cases h4
      rfl
  rw [e, ← this]
  exact ⟨h2, C20_validate_iff _ |>.1 hv⟩

/-! ## One call -/

/-- What a call does to the list of keys. -/
inductive KeyStep (r : Registry P C) : BuilderOp → List Key → List Key → Prop
  | same {op ks} : KeyStep r op ks ks
  | added {seed draws t ks kd id} : r.newKeyData seed t = .ok kd → id ∈ draws → id ≠ 0 → (∀ k ∈ ks, k.keyId ≠ id) →
      KeyStep r (.addNewKey seed draws t) ks (ks ++ [⟨some kd, KeyStatusType.ENABLED, id, t.outputPrefixType⟩])
  | blank {seed draws t ks} : KeyStep r (.addNewKey seed draws t) ks (ks ++ [({} : Key)])
  | enabled {id pre k post} : FirstWithId id (pre ++ k :: post) pre k post →
      KeyStep r (.enableKey id) (pre ++ k :: post)
        (pre ++ ⟨k.keyData, KeyStatusType.ENABLED, k.keyId, k.outputPrefixType⟩ :: post)
  | disabled {id pre k post} : FirstWithId id (pre ++ k :: post) pre k post →
      KeyStep r (.disableKey id) (pre ++ k :: post)
        (pre ++ ⟨k.keyData, KeyStatusType.DISABLED, k.keyId, k.outputPrefixType⟩ :: post)
  | deleted {id pre k post} : FirstWithId id (pre ++ k :: post) pre k post →
      KeyStep r (.deleteKey id) (pre ++ k :: post) (pre ++ post)

theorem keyStep {op : BuilderOp} {ks ks' : Keyset} {e : Option Exc} (H : op.call r ks = some (ks', e)) :
    KeyStep r op ks.key ks'.key := by
  cases op with
  | addNewKey seed draws template =>
    simp only [BuilderOp.call, Option.map_eq_some_iff] at H
    obtain ⟨⟨ks1, res⟩, h1, h2⟩ := H
    simp only [Prod.mk.injEq] at h2
    obtain ⟨rfl, _⟩ := h2
    cases hr : r.newKeyData seed template with
    | error x =>
      rw [C59_add_new_key_failure hr] at h1
      simp only [Option.some.injEq, Prod.mk.injEq] at h1
      rw [← h1.1]
      exact .blank
    | ok kd =>
      cases res with
      | error x =>
        have hcall : (BuilderOp.addNewKey seed draws template).call r ks =
            some (ks1, some x) := by simp [BuilderOp.call, h1, raised]
        rw [C59_failure_changes_nothing (r := r) (op := .addNewKey seed draws template) ⟨kd, hr⟩ hcall]
        exact .same
      | ok id =>
        obtain ⟨kd', g1, g2, g3, g4, rfl⟩ := C59_add_new_key h1
        exact .added g1 g2 g3 g4
  | setPrimaryKey id =>
    rcases C59_set_primary_key id ks with ⟨_, h1⟩ | ⟨_, h1⟩ <;>
    · simp only [BuilderOp.call, BuilderOp.call.out, h1, Option.some.injEq, Prod.mk.injEq] at H
      rw [← H.1]; exact .same
  | enableKey id =>
    rcases C59_enable_key id ks with ⟨pre, k0, post, hf, h1⟩ | ⟨_, h1⟩
    · simp only [BuilderOp.call, BuilderOp.call.out, h1, Option.some.injEq, Prod.mk.injEq] at H
      rw [← H.1, hf.1]
      exact .enabled (hf.1 ▸ hf)
    · simp only [BuilderOp.call, BuilderOp.call.out, h1, Option.some.injEq, Prod.mk.injEq] at H
      rw [← H.1]; exact .same
  | disableKey id =>
    rcases C59_disable_key id ks with ⟨pre, k0, post, hf, h1⟩ | ⟨_, h1⟩
    · simp only [BuilderOp.call, BuilderOp.call.out, h1, Option.some.injEq, Prod.mk.injEq] at H
      rw [← H.1, hf.1]
      exact .disabled (hf.1 ▸ hf)
    · simp only [BuilderOp.call, BuilderOp.call.out, h1, Option.some.injEq, Prod.mk.injEq] at H
      rw [← H.1]; exact .same
  | deleteKey id =>
    rcases C59_delete_key id ks with ⟨pre, k0, post, hf, h1⟩ | ⟨_, h1⟩
    · simp only [BuilderOp.call, BuilderOp.call.out, h1, Option.some.injEq, Prod.mk.injEq] at H
      rw [← H.1, hf.1]
      exact .deleted (hf.1 ▸ hf)
    · simp only [BuilderOp.call, BuilderOp.call.out, h1, Option.some.injEq, Prod.mk.injEq] at H
      rw [← H.1]; exact .same

/-- A property of the list of keys that each call keeps. -/
theorem keyStep_invariant {I : List Key → Prop} (hI : ∀ op ∈ ops, ∀ ks ks', KeyStep r op ks ks' → I ks → I ks')
    {ks ks' : Keyset} (H : runBuilder r ops ks = some ks') (h0 : I ks.key) : I ks'.key := by
  induction ops generalizing ks with
  | nil => cases H; exact h0
  | cons op ops ih =>
    unfold runBuilder at H
    obtain ⟨⟨ks1, e⟩, h1, h2⟩ := Option.bind_eq_some_iff.1 H
    exact ih (fun op hop => hI op (List.mem_cons_of_mem _ hop)) h2 (hI op (by simp) _ _ (keyStep h1) h0)

theorem run_append {ops1 ops2 : List BuilderOp} {ks ks' : Keyset}
    (H : runBuilder r (ops1 ++ ops2) ks = some ks') :
    ∃ mid, runBuilder r ops1 ks = some mid ∧ runBuilder r ops2 mid = some ks' := by
  induction ops1 generalizing ks with
  | nil => exact ⟨ks, rfl, H⟩
  | cons op ops ih =>
    rw [List.cons_append] at H
    unfold runBuilder at H
    obtain ⟨⟨ks1, e⟩, h1, h2⟩ := Option.bind_eq_some_iff.1 H
    obtain ⟨mid, h3, h4⟩ := ih h2
    exact ⟨mid, by unfold runBuilder; rw [h1]; exact h3, h4⟩

/-! ## Histories -/

/-- C109.  Where the keys of a rotated keyset come from: each was in the keyset before, possibly with another status, or
was made of a template by one of the calls. -/
theorem C109_origin (H : Rotated r h ops h') {k' : Key} (hk : k' ∈ h'.keyset.key) :
    (∃ k ∈ h.keyset.key, SameButStatus k k') ∨ AddedBy r ops k' := by
  obtain ⟨h1, h2⟩ := rotated_iff_run H
  have := keyStep_invariant (I := fun ks => ∀ k' ∈ ks, (∃ k ∈ h.keyset.key, SameButStatus k k') ∨ AddedBy r ops k' ∨
      k'.keyData = none ∧ k'.status ≠ KeyStatusType.DESTROYED) ?_ h1
    (fun k hk => .inl ⟨k, hk, rfl, rfl, rfl⟩) k' hk
  · rcases this with h | h | ⟨h, hs⟩
    · exact .inl h
    · exact .inr h
    · exact absurd h (h2.complete k' hk hs).1
  · intro op hop ks ks' hst hI k' hk'
    cases hst with
    | same => exact hI k' hk'
    | added g1 g2 g3 g4 =>
      rw [List.mem_append, List.mem_singleton] at hk'
      rcases hk' with hk' | rfl
      · exact hI k' hk'
      · exact .inr (.inl ⟨_, _, _, _, hop, g1, rfl, g2, rfl⟩)
    | blank =>
      rw [List.mem_append, List.mem_singleton] at hk'
      rcases hk' with hk' | rfl
      · exact hI k' hk'
      · exact .inr (.inr ⟨rfl, by decide⟩)
    | @enabled id pre k post _ =>
      simp only [List.mem_append, List.mem_cons] at hk' hI
      rcases hk' with hk' | rfl | hk'
      · exact hI k' (.inl hk')
      · rcases hI k (.inr (.inl rfl)) with ⟨k0, g, e1, e2, e3⟩ | ⟨s, d, t, kd, e⟩ | ⟨e, _⟩
        · exact .inl ⟨k0, g, e1, e2, e3⟩
        · exact .inr (.inl ⟨s, d, t, kd, e⟩)
        · exact .inr (.inr ⟨e, by dsimp only; decide⟩)
      · exact hI k' (.inr (.inr hk'))
    | @disabled id pre k post _ =>
      simp only [List.mem_append, List.mem_cons] at hk' hI
      rcases hk' with hk' | rfl | hk'
      · exact hI k' (.inl hk')
      · rcases hI k (.inr (.inl rfl)) with ⟨k0, g, e1, e2, e3⟩ | ⟨s, d, t, kd, e⟩ | ⟨e, _⟩
        · exact .inl ⟨k0, g, e1, e2, e3⟩
        · exact .inr (.inl ⟨s, d, t, kd, e⟩)
        · exact .inr (.inr ⟨e, by dsimp only; decide⟩)
      · exact hI k' (.inr (.inr hk'))
    | @deleted id pre k post _ =>
      simp only [List.mem_append, List.mem_cons] at hk' hI
      rcases hk' with hk' | hk'
      · exact hI k' (.inl hk')
      · exact hI k' (.inr (.inr hk'))

/-- C109.  An enabled key that no call disables or deletes is there afterwards, unchanged, and still the only one with
its id. -/
theorem C109_stays (H : Rotated r h ops h') {k : Key} (hk : OnlyWithId h.keyset k) (he : Enabled k) (h0 : k.keyId ≠ 0)
    (hs : ∀ op ∈ ops, Spares k.keyId op) : OnlyWithId h'.keyset k := by
  obtain ⟨h1, -⟩ := rotated_iff_run H
  refine keyStep_invariant (I := fun ks => k ∈ ks ∧ ∀ k' ∈ ks, k'.keyId = k.keyId → k' = k) ?_ h1 hk
  rintro op hop ks ks' hst ⟨hmem, hI⟩
  have hs := hs _ hop
  refine ⟨?_, fun k' hk' hid => ?_⟩
  · cases hst with
    | same => exact hmem
    | added => exact List.mem_append_left _ hmem
    | blank => exact List.mem_append_left _ hmem
    | @enabled id pre k1 post _ =>
      simp only [List.mem_append, List.mem_cons] at hmem ⊢
      rcases hmem with hk | rfl | hk
      · exact .inl hk
      · right; left
        unfold Enabled at he
        rw [← he]
      · exact .inr (.inr hk)
    | @disabled id pre k1 post hf =>
      simp only [List.mem_append, List.mem_cons] at hmem ⊢
      rcases hmem with hk | rfl | hk
      · exact .inl hk
      · exact absurd hf.2.1.symm hs
      · exact .inr (.inr hk)
    | @deleted id pre k1 post hf =>
      simp only [List.mem_append, List.mem_cons] at hmem ⊢
      rcases hmem with hk | rfl | hk
      · exact .inl hk
      · exact absurd hf.2.1.symm hs
      · exact .inr hk
  cases hst with
  | same => exact hI k' hk' hid
  | added g1 g2 g3 g4 =>
    rw [List.mem_append, List.mem_singleton] at hk'
    rcases hk' with hk' | rfl
    · exact hI k' hk' hid
    · exact absurd hid.symm (g4 k hmem)
  | blank =>
    rw [List.mem_append, List.mem_singleton] at hk'
    rcases hk' with hk' | rfl
    · exact hI k' hk' hid
    · exact absurd hid.symm h0
  | @enabled id pre k1 post _ =>
    simp only [List.mem_append, List.mem_cons] at hk' hI
    rcases hk' with hk' | rfl | hk'
    · exact hI k' (.inl hk') hid
    · have := hI k1 (.inr (.inl rfl)) hid
      subst this
      unfold Enabled at he
      rw [← he]
    · exact hI k' (.inr (.inr hk')) hid
  | @disabled id pre k1 post hf =>
    simp only [List.mem_append, List.mem_cons] at hk' hI
    rcases hk' with hk' | rfl | hk'
    · exact hI k' (.inl hk') hid
    · exact absurd (hf.2.1.symm.trans hid) hs
    · exact hI k' (.inr (.inr hk')) hid
  | deleted _ =>
    simp only [List.mem_append, List.mem_cons] at hk' hI
    rcases hk' with hk' | hk'
    · exact hI k' (.inl hk') hid
    · exact hI k' (.inr (.inr hk')) hid

theorem atMostOne_split {id : UInt32} {pre post : List Key} {k : Key} (hid : k.keyId = id)
    (h : ((pre ++ k :: post).filter fun k => k.keyId = id).length ≤ 1) :
    ∀ k', k' ∈ pre ∨ k' ∈ post → k'.keyId ≠ id := by
  rw [List.filter_append, List.filter_cons_of_pos (by simpa using hid), List.length_append, List.length_cons] at h
  rintro k' (hk | hk) e
  · have : 0 < (pre.filter fun k => k.keyId = id).length :=
      List.length_pos_iff.2 (List.ne_nil_of_mem (List.mem_filter.2 ⟨hk, by simpa using e⟩))
    omega
  · have : 0 < (post.filter fun k => k.keyId = id).length :=
      List.length_pos_iff.2 (List.ne_nil_of_mem (List.mem_filter.2 ⟨hk, by simpa using e⟩))
    omega

/-- C109.  Once a key has been disabled or deleted, and as long as no key with its id is enabled and its id is not drawn
for a new key, no enabled key has its id. -/
theorem C109_gone {before after : List BuilderOp} {op : BuilderOp} (H : Rotated r h (before ++ op :: after) h')
    {id : UInt32} (h0 : id ≠ 0) (hone : AtMostOne id h.keyset) (hop : Revokes id op)
    (ha : ∀ op ∈ after, KeepsOut id op) : ∀ k ∈ h'.keyset.key, Enabled k → k.keyId ≠ id := by
  obtain ⟨h1, -⟩ := rotated_iff_run H
  obtain ⟨ks1, h2, h3⟩ := run_append h1
  have hone1 : AtMostOne id ks1 := by
    refine keyStep_invariant (I := fun ks => (ks.filter fun k => k.keyId = id).length ≤ 1) ?_ h2 hone
    intro op _ ks ks' hst hI
    cases hst with
    | same => exact hI
    | @added _ _ t _ kd i g1 g2 g3 g4 =>
      rw [List.filter_append, List.length_append]
      by_cases e : i = id
      · have : (ks.filter fun k => k.keyId = id) = [] := by
          rw [List.filter_eq_nil_iff]
          intro k hk
          simpa using e ▸ g4 k hk
        rw [this]
        have := List.length_filter_le (fun k : Key => decide (k.keyId = id))
          [⟨some kd, KeyStatusType.ENABLED, i, t.outputPrefixType⟩]
        simpa using this
      · rw [List.filter_cons_of_neg (by simpa using e)]
        exact hI
    | blank =>
      rw [List.filter_append, List.filter_cons_of_neg (by simpa using h0.symm), List.filter_nil, List.append_nil]
      exact hI
    | enabled _ => simpa [List.filter_append, List.filter_cons, apply_ite List.length] using hI
    | disabled _ => simpa [List.filter_append, List.filter_cons, apply_ite List.length] using hI
    | @deleted _ pre k post _ =>
      rw [List.filter_append, List.length_append] at hI ⊢
      have : (post.filter fun k => k.keyId = id).length ≤ ((k :: post).filter fun k => k.keyId = id).length := by
        rw [List.filter_cons]
        split
        · rw [List.length_cons]; omega
        · exact Nat.le_refl _
      omega
  unfold runBuilder at h3
  obtain ⟨⟨ks2, e⟩, h4, h5⟩ := Option.bind_eq_some_iff.1 h3
  refine keyStep_invariant (I := fun ks => ∀ k ∈ ks, Enabled k → k.keyId ≠ id) ?_ h5 ?_
  · intro op hop ks ks' hst hI k hk he
    have ha := ha op hop
    cases hst with
    | same => exact hI k hk he
    | added g1 g2 g3 g4 =>
      rw [List.mem_append, List.mem_singleton] at hk
      rcases hk with hk | rfl
      · exact hI k hk he
      · rintro rfl; exact ha g2
    | blank =>
      rw [List.mem_append, List.mem_singleton] at hk
      rcases hk with hk | rfl
      · exact hI k hk he
      · exact h0.symm
    | @enabled i pre k1 post hf =>
      simp only [List.mem_append, List.mem_cons] at hk hI
      rcases hk with hk | rfl | hk
      · exact hI k (.inl hk) he
      · exact fun e => ha (hf.2.1.symm.trans e)
      · exact hI k (.inr (.inr hk)) he
    | @disabled i pre k1 post hf =>
      simp only [List.mem_append, List.mem_cons] at hk hI
      rcases hk with hk | rfl | hk
      · exact hI k (.inl hk) he
      · exact absurd (show KeyStatusType.DISABLED = KeyStatusType.ENABLED from he) (by decide)
      · exact hI k (.inr (.inr hk)) he
    | @deleted i pre k1 post hf =>
      simp only [List.mem_append, List.mem_cons] at hk hI
      rcases hk with hk | hk
      · exact hI k (.inl hk) he
      · exact hI k (.inr (.inr hk)) he
  · intro k hk he
    cases op with
    | addNewKey => exact hop.elim
    | setPrimaryKey => exact hop.elim
    | enableKey => exact hop.elim
    | disableKey i =>
      cases hop
      rcases C59_disable_key id ks1 with ⟨pre, k0, post, hf, g1⟩ | ⟨hn, g1⟩
      · simp only [BuilderOp.call, BuilderOp.call.out, g1, Option.some.injEq, Prod.mk.injEq] at h4
        rw [← h4.1] at hk
        have hone2 : ((pre ++ k0 :: post).filter fun k => k.keyId = id).length ≤ 1 := hf.1 ▸ hone1
        simp only [List.mem_append, List.mem_cons] at hk
        rcases hk with hk | rfl | hk
        · exact atMostOne_split hf.2.1 hone2 k (.inl hk)
        · exact absurd (show KeyStatusType.DISABLED = KeyStatusType.ENABLED from he) (by decide)
        · exact atMostOne_split hf.2.1 hone2 k (.inr hk)
      · simp only [BuilderOp.call, BuilderOp.call.out, g1, Option.some.injEq, Prod.mk.injEq] at h4
        rw [← h4.1] at hk
        exact hn k hk
    | deleteKey i =>
      cases hop
      rcases C59_delete_key id ks1 with ⟨pre, k0, post, hf, g1⟩ | ⟨hn, g1⟩
      · simp only [BuilderOp.call, BuilderOp.call.out, g1, Option.some.injEq, Prod.mk.injEq] at h4
        rw [← h4.1] at hk
        have hone2 : ((pre ++ k0 :: post).filter fun k => k.keyId = id).length ≤ 1 := hf.1 ▸ hone1
        simp only [List.mem_append] at hk
        exact atMostOne_split hf.2.1 hone2 k hk
      · simp only [BuilderOp.call, BuilderOp.call.out, g1, Option.some.injEq, Prod.mk.injEq] at h4
        rw [← h4.1] at hk
        exact hn k hk

/-- C109.  The bytes that `public_keyset()` of a builder returns hold no secret, and parse to the public keyset of the
keyset in the builder. -/
theorem C109_public_keyset {ks : Keyset} {b : Bytes} (h : KeysetBuilder.publicKeyset r ks = .ok b) :
    ∃ pub, (KeysetHandle.mk ks).publicKeysetHandle r = .ok pub ∧ NoSecret pub.keyset ∧
      ProtoKeysetFormat.parseWithoutSecret b = .ok pub := by
  unfold KeysetBuilder.publicKeyset at h
  obtain ⟨h0, h1, h⟩ := bind_ok_iff.1 h
  obtain ⟨pub, h2, h3⟩ := bind_ok_iff.1 h
  obtain ⟨e, -⟩ := C59_keyset_handle h1
  cases h0
  cases e
  obtain ⟨kds, -, -, -, hv⟩ := C27_public_keyset h2
  exact ⟨pub, h2, (C22_serialize_without_secret h3).1, C22_round_trip hv h3⟩

end Tink.Props
