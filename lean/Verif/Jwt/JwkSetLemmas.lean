import Verif.Jwt.JwkExportLemmas

/-!
# Lemmas about JWK sets
-/

namespace Tink
namespace Spec

theorem Corresponding.length {α β : Type} {R : α → β → Prop} {l : List α} {m : List β}
    (h : Corresponding R l m) : l.length = m.length := by
  induction h with
  | nil => rfl
  | cons _ _ ih => simp [ih]

theorem Corresponding.mono {α β : Type} {R S : α → β → Prop} {l : List α} {m : List β}
    (h : Corresponding R l m) (hrs : ∀ a b, R a b → S a b) : Corresponding S l m := by
  induction h with
  | nil => exact .nil
  | cons h _ ih => exact .cons (hrs _ _ h) ih

theorem Corresponding.left {α β : Type} {R : α → β → Prop} {l : List α} {m : List β}
    (h : Corresponding R l m) : ∀ a ∈ l, ∃ b ∈ m, R a b := by
  induction h with
  | nil => intro a ha; cases ha
  | cons h _ ih =>
    intro x hx
    rcases List.mem_cons.1 hx with rfl | hx
    · exact ⟨_, List.mem_cons_self, h⟩
    · obtain ⟨b, hb, hr⟩ := ih x hx
      exact ⟨b, List.mem_cons_of_mem _ hb, hr⟩

theorem Corresponding.right {α β : Type} {R : α → β → Prop} {l : List α} {m : List β}
    (h : Corresponding R l m) : ∀ b ∈ m, ∃ a ∈ l, R a b := by
  induction h with
  | nil => intro a ha; cases ha
  | cons h _ ih =>
    intro x hx
    rcases List.mem_cons.1 hx with rfl | hx
    · exact ⟨_, List.mem_cons_self, h⟩
    · obtain ⟨b, hb, hr⟩ := ih x hx
      exact ⟨b, List.mem_cons_of_mem _ hb, hr⟩

/-- Two correspondences with a common list in the middle. -/
theorem Corresponding.trans {α β γ : Type} {R : α → β → Prop} {S : β → γ → Prop} {l : List α} {m : List β}
    {n : List γ} (h : Corresponding R l m) (h' : Corresponding S m n) :
    Corresponding (fun a c => ∃ b, R a b ∧ S b c) l n := by
  induction h generalizing n with
  | nil => cases h'; exact .nil
  | cons h _ ih =>
    cases h' with
    | cons h2 h3 => exact .cons ⟨_, h, h2⟩ (ih h3)

end Spec

namespace Jwk
open Json Jwt Spec

variable {F : Type}

theorem exportKeys_ok {keys : List Key} {vs : List (JVal F)} (h : exportKeys keys = .ok vs) :
    Corresponding (fun k v => exportKey k = .ok v) (keys.filter fun k => Enabled k) vs := by
  induction keys generalizing vs with
  | nil => cases h; exact .nil
  | cons k keys ih =>
    unfold exportKeys at h
    by_cases hk : k.status = KeyStatusType.ENABLED
    · rw [if_neg (by simpa using hk)] at h
      rw [List.filter_cons_of_pos (by rw [decide_eq_true_eq]; exact hk)]
      cases h1 : exportKey (F := F) k with
      | error e => rw [h1] at h; cases h
      | ok v =>
        rw [h1] at h
        cases h2 : exportKeys (F := F) keys with
        | error e => rw [h2] at h; cases h
        | ok vs' => rw [h2] at h; cases h; exact .cons h1 (ih h2)
    · rw [if_pos hk] at h
      rw [List.filter_cons_of_neg (by rw [decide_eq_true_eq]; exact hk)]
      exact ih h

theorem exportKeys_of {keys : List Key} (h : ∀ k ∈ keys, Enabled k → ∃ v : JVal F, exportKey k = .ok v) :
    ∃ vs : List (JVal F), exportKeys keys = .ok vs := by
  induction keys with
  | nil => exact ⟨[], rfl⟩
  | cons k keys ih =>
    obtain ⟨vs, hvs⟩ := ih fun k hk => h k (List.mem_cons_of_mem _ hk)
    unfold exportKeys
    by_cases hk : k.status = KeyStatusType.ENABLED
    · obtain ⟨v, hv⟩ := h k List.mem_cons_self hk
      rw [if_neg (by simpa using hk), hv, hvs]
      exact ⟨_, rfl⟩
    · rw [if_pos hk]; exact ⟨vs, hvs⟩

/-- What occurs in an exported JWK set. -/
theorem within_set {vs : List (JVal F)} (h : ∀ v ∈ vs, ∃ d, v = .dict d ∧ PlainJwk d) {w : JVal F}
    (hw : Within w (.dict [(py! "keys", .list vs)])) :
    w = .dict [(py! "keys", .list vs)] ∨ w = .list vs ∨ (∃ d, w = .dict d ∧ PlainJwk d) ∨
      (∃ s, w = .str s ∧ ValidText s) ∨ w = .list [.str (py! "verify")] := by
  cases hw with
  | here => exact .inl rfl
  | value hm hw =>
    simp only [List.mem_singleton, Prod.mk.injEq] at hm
    obtain ⟨rfl, rfl⟩ := hm
    cases hw with
    | here => exact .inr (.inl rfl)
    | item hx hw =>
      obtain ⟨d, rfl, hd⟩ := h _ hx
      cases hw with
      | here => exact .inr (.inr (.inl ⟨d, rfl, hd⟩))
      | value hp hw =>
        rcases (hd.members _ hp).2 with ⟨s, hs, hv⟩ | hs
        · simp only at hs
          subst hs
          cases hw
          exact .inr (.inr (.inr (.inl ⟨s, rfl, hv⟩)))
        · simp only at hs
          subst hs
          cases hw with
          | here => exact .inr (.inr (.inr (.inr rfl)))
          | item hi hw =>
            simp only [List.mem_singleton] at hi
            subst hi
            cases hw
            exact .inr (.inr (.inr (.inl ⟨_, rfl, valid_lit (by rfl)⟩)))

/-- A JWK set that was written is read back. -/
theorem loads_set {env : JsonEnv F} (hl : LawfulFloats env.floats) {vs : List (JVal F)} {text : PyStr}
    (h : ∀ v ∈ vs, ∃ d, v = .dict d ∧ PlainJwk d)
    (ht : dumpsCompact env (.dict [(py! "keys", .list vs)]) = .ok text) :
    loads env text = .ok (.dict [(py! "keys", .list vs)]) := by
  refine loadsHook_dumpsDepth env hl _ [] (by simp) _ text ht ⟨?_, ?_⟩ ?_
  · intro s hs
    rcases within_set h hs with h1 | h1 | ⟨d, h1, _⟩ | ⟨s', h1, hv⟩ | h1 <;> cases h1
    exact hv.joined
  · intro d hd k x hkx
    rcases within_set h hd with h1 | h1 | ⟨d', h1, hp⟩ | ⟨s', h1, hv⟩ | h1 <;> cases h1
    · simp only [List.mem_singleton, Prod.mk.injEq] at hkx
      rw [hkx.1]
      exact Spec.ValidText.joined (valid_lit (by rfl))
    · exact (hp.members _ hkx).1.joined
  · intro d hd
    rcases within_set h hd with h1 | h1 | ⟨d', h1, hp⟩ | ⟨s', h1, hv⟩ | h1 <;> cases h1
    · rfl
    · rw [dictOf_nodup hp.nodup]

theorem generate_ok {draws rest : List UInt32} {ks : Keyset} {id : UInt32}
    (h : generateUnusedKeyId draws ks = some (id, rest)) :
    id ∉ ks.key.map Key.keyId ∧ ∃ skipped, draws = skipped ++ id :: rest ∧
      ∀ x ∈ skipped, x ∈ ks.key.map Key.keyId := by
  induction draws with
  | nil => cases h
  | cons d draws ih =>
    unfold generateUnusedKeyId at h
    by_cases hd : d ∉ ks.key.map Key.keyId
    · rw [if_pos hd] at h; cases h
      exact ⟨hd, [], rfl, by simp⟩
    · rw [if_neg hd] at h
      obtain ⟨h1, sk, h2, h3⟩ := ih h
      refine ⟨h1, d :: sk, by rw [h2]; rfl, ?_⟩
      intro x hx
      rcases List.mem_cons.1 hx with rfl | hx
      · exact Decidable.not_not.1 hd
      · exact h3 x hx

theorem generate_none {draws : List UInt32} {ks : Keyset} (h : generateUnusedKeyId draws ks = none) :
    ∀ x ∈ draws, x ∈ ks.key.map Key.keyId := by
  induction draws with
  | nil => intro x hx; cases hx
  | cons d draws ih =>
    unfold generateUnusedKeyId at h
    by_cases hd : d ∉ ks.key.map Key.keyId
    · rw [if_pos hd] at h; cases h
    · rw [if_neg hd] at h
      intro x hx
      rcases List.mem_cons.1 hx with rfl | hx
      · exact Decidable.not_not.1 hd
      · exact ih h x hx

/-- The keys that the loop adds. -/
theorem importKeys_ok {vs : List (JVal F)} {draws : List UInt32} {ks ks' : Keyset}
    (h : importKeys vs draws ks = some (.ok ks')) (hn : (ks.key.map Key.keyId).Nodup) :
    ∃ new, ks'.key = ks.key ++ new ∧
      Corresponding (fun v k => ∃ k₀, importKey v = .ok k₀ ∧ k = { k₀ with keyId := k.keyId }) vs new ∧
      (ks'.key.map Key.keyId).Nodup ∧ (∀ k ∈ new, k.keyId ∈ draws) ∧
      ks'.primaryKeyId = (new.getLast?.map Key.keyId).getD ks.primaryKeyId := by
  induction vs generalizing draws ks with
  | nil =>
    unfold importKeys at h; cases h
    exact ⟨[], by simp, .nil, hn, by simp, rfl⟩
  | cons v vs ih =>
    unfold importKeys at h
    cases h1 : importKey v with
    | error e => rw [h1] at h; cases h
    | ok k₀ =>
      rw [h1] at h
      simp only at h
      cases h2 : generateUnusedKeyId draws ks with
      | none => rw [h2] at h; cases h
      | some q =>
        obtain ⟨id, rest⟩ := q
        rw [h2] at h
        simp only at h
        obtain ⟨h3, sk, h4, _⟩ := generate_ok h2
        have hn' : ((ks.key ++ [{ k₀ with keyId := id }]).map Key.keyId).Nodup := by
          rw [List.map_append, List.nodup_append]
          refine ⟨hn, by simp, ?_⟩
          intro a ha b hb
          simp only [List.map_cons, List.map_nil, List.mem_singleton] at hb
          subst hb
          rintro rfl; exact h3 ha
        obtain ⟨new, e1, e2, e3, e4, e5⟩ := ih h hn'
        refine ⟨{ k₀ with keyId := id } :: new, by rw [e1]; simp, .cons ⟨k₀, h1, rfl⟩ e2, e3, ?_, ?_⟩
        · intro k hk
          rw [h4]
          rcases List.mem_cons.1 hk with rfl | hk
          · simp
          · simp [e4 k hk]
        · rw [e5]
          cases new with
          | nil => rfl
          | cons x xs =>
            rw [List.getLast?_cons_cons]
            cases hx : (x :: xs).getLast? with
            | none => simp at hx
            | some y => rfl

theorem importKeys_error {vs : List (JVal F)} {draws : List UInt32} {ks : Keyset} {e : Exc}
    (h : importKeys vs draws ks = some (.error e)) : ∃ v ∈ vs, importKey v = .error e := by
  induction vs generalizing draws ks with
  | nil => unfold importKeys at h; cases h
  | cons v vs ih =>
    unfold importKeys at h
    cases h1 : importKey v with
    | error e' => rw [h1] at h; cases h; exact ⟨v, List.mem_cons_self, h1⟩
    | ok k₀ =>
      rw [h1] at h
      simp only at h
      cases h2 : generateUnusedKeyId draws ks with
      | none => rw [h2] at h; cases h
      | some q =>
        rw [h2] at h
        obtain ⟨w, hw, he⟩ := ih h
        exact ⟨w, List.mem_cons_of_mem _ hw, he⟩

/-- When the loop has not ended, the numbers drawn so far are fewer than the keys. -/
theorem importKeys_none {vs : List (JVal F)} {draws : List UInt32} {ks : Keyset}
    (h : importKeys vs draws ks = none) :
    ∃ ids : List UInt32, ids.length < ks.key.length + vs.length ∧ (∀ x ∈ draws, x ∈ ids) ∧
      ∀ x ∈ ks.key.map Key.keyId, x ∈ ids := by
  induction vs generalizing draws ks with
  | nil => unfold importKeys at h; cases h
  | cons v vs ih =>
    unfold importKeys at h
    cases h1 : importKey v with
    | error e' => rw [h1] at h; cases h
    | ok k₀ =>
      rw [h1] at h
      simp only at h
      cases h2 : generateUnusedKeyId draws ks with
      | none => exact ⟨ks.key.map Key.keyId, by simp, generate_none h2, fun x hx => hx⟩
      | some q =>
        obtain ⟨id, rest⟩ := q
        rw [h2] at h
        simp only at h
        obtain ⟨_, sk, h4, h5⟩ := generate_ok h2
        obtain ⟨ids, h6, h7, h8⟩ := ih h
        have h9 : ∀ x ∈ ks.key.map Key.keyId, x ∈ ids := fun x hx =>
          h8 x (by rw [List.map_append]; exact List.mem_append_left _ hx)
        refine ⟨ids, by simp at h6 ⊢; omega, ?_, h9⟩
        intro x hx
        rw [h4] at hx
        rcases List.mem_append.1 hx with hx | hx
        · exact h9 x (h5 x hx)
        · rcases List.mem_cons.1 hx with rfl | hx
          · exact h8 x (by simp)
          · exact h7 x hx

theorem nodup_length_le {ids l : List UInt32} (hn : ids.Nodup) (h : ∀ x ∈ ids, x ∈ l) :
    ids.length ≤ l.length := by
  induction ids generalizing l with
  | nil => simp
  | cons a ids ih =>
    rw [List.nodup_cons] at hn
    have ha : a ∈ l := h a List.mem_cons_self
    have := ih (l := l.erase a) hn.2 fun x hx =>
      (List.mem_erase_of_ne (by rintro rfl; exact hn.1 hx)).2 (h x (List.mem_cons_of_mem _ hx))
    rw [List.length_erase_of_mem ha] at this
    have := List.length_pos_of_mem ha
    simp only [List.length_cons]
    omega

end Jwk
end Tink
