import Verif.Core.RegistryThreads
import Verif.Py.DictLemmas

/-!
# Rely and guarantee

If each call does only what it guarantees, as long as the others do only what it relies on, then all do so together.
-/

namespace Tink.Threads

/-- From the state `s` on, if the others change it only as in `rely`, each step is as in `guar`, and the outcome and
the state from then on as in `post`. -/
def Act.Keeps {S α : Type} (rely guar : S → S → Prop) (post : α → S → Prop) : Act S α → S → Prop
  | .done r, s0 => ∀ s, rely s0 s → post r s
  | .step upd next, s0 => ∀ s, rely s0 s → guar s (upd s) ∧ (next s).Keeps rely guar post (upd s)

theorem Act.Keeps.later {S α : Type} {rely guar : S → S → Prop} {post : α → S → Prop}
    (htrans : ∀ a b c, rely a b → rely b c → rely a c) {act : Act S α} {s s' : S}
    (h : act.Keeps rely guar post s) (hs : rely s s') : act.Keeps rely guar post s' := by
  cases act with
  | done r => exact fun t ht => h t (htrans _ _ _ hs ht)
  | step upd next => exact fun t ht => h t (htrans _ _ _ hs ht)

theorem Act.Keeps.weaken {S α : Type} {rely guar rely' guar' : S → S → Prop} {post post' : α → S → Prop}
    (hr : ∀ a b, rely' a b → rely a b) (hg : ∀ a b, guar a b → guar' a b) (hp : ∀ r s, post r s → post' r s)
    {act : Act S α} {s : S} (h : act.Keeps rely guar post s) : act.Keeps rely' guar' post' s := by
  induction act generalizing s with
  | done r => exact fun t ht => hp r t (h t (hr _ _ ht))
  | step upd next ih => exact fun t ht => ⟨hg _ _ (h t (hr _ _ ht)).1, ih t (h t (hr _ _ ht)).2⟩

variable {P C : Type} [DecidableEq C] {isInst : P → C → Bool}

/-- All calls keep to it. -/
def Good (rely : Shared P C → Shared P C → Prop) (guar : Call P C → Shared P C → Shared P C → Prop)
    (post : Nat → Call P C → Py (Answer P C) → Shared P C → Prop) (cfg : Config P C) : Prop :=
  ∀ (i : Nat) (c : Call P C) (a : Code P C), cfg.calls[i]? = some (c, a) →
    a.Keeps rely (guar c) (post i c) cfg.shared

theorem next_length (cfg : Config P C) (e : Event P C) : cfg.calls.length ≤ (cfg.next isInst e).calls.length := by
  cases e with
  | start c => simp [Config.next]
  | step i =>
    unfold Config.next
    dsimp only
    split
    · simp
    · exact Nat.le_refl _

theorem next_good {rely : Shared P C → Shared P C → Prop} {guar : Call P C → Shared P C → Shared P C → Prop}
    {post : Nat → Call P C → Py (Answer P C) → Shared P C → Prop} (hrefl : ∀ s, rely s s)
    (htrans : ∀ a b c, rely a b → rely b c → rely a c) (hguar : ∀ c a b, guar c a b → rely a b)
    {cfg : Config P C} (h : Good rely guar post cfg) {e : Event P C}
    (hstart : ∀ c, e = .start c → (code isInst c).Keeps rely (guar c) (post cfg.calls.length c) cfg.shared) :
    Good rely guar post (cfg.next isInst e) ∧ rely cfg.shared (cfg.next isInst e).shared := by
  cases e with
  | start c =>
    refine ⟨?_, hrefl _⟩
    intro i c' a hi
    simp only [Config.next] at hi ⊢
    rw [List.getElem?_append] at hi
    split at hi
    · exact h i c' a hi
    · rename_i hlt
      rw [List.getElem?_singleton] at hi
      split at hi
      · rename_i h0
        cases hi
        have : i = cfg.calls.length := by omega
        subst this
        exact hstart c rfl
      · cases hi
  | step i =>
    unfold Config.next
    dsimp only
    split
    · rename_i c upd next hi
      have h1 := h i c _ hi cfg.shared (hrefl _)
      have hr := hguar _ _ _ h1.1
      refine ⟨?_, hr⟩
      intro j c' a hj
      rw [List.getElem?_set] at hj
      split at hj
      · rename_i hij
        subst hij
        split at hj
        · cases hj; exact h1.2
        · cases hj
      · exact (h j c' a hj).later htrans hr
    · exact ⟨h, hrefl _⟩

/-- In a schedule all calls keep to it. -/
theorem run_good {rely : Shared P C → Shared P C → Prop} {guar : Call P C → Shared P C → Shared P C → Prop}
    {post : Nat → Call P C → Py (Answer P C) → Shared P C → Prop} (hrefl : ∀ s, rely s s)
    (htrans : ∀ a b c, rely a b → rely b c → rely a c) (hguar : ∀ c a b, guar c a b → rely a b)
    {cfg : Config P C} (h : Good rely guar post cfg) {schedule : List (Event P C)}
    (hstart : ∀ c, .start c ∈ schedule → ∀ i s, cfg.calls.length ≤ i → rely cfg.shared s →
      (code isInst c).Keeps rely (guar c) (post i c) s) :
    Good rely guar post (cfg.run isInst schedule) ∧ rely cfg.shared (cfg.run isInst schedule).shared := by
  induction schedule generalizing cfg with
  | nil => exact ⟨h, hrefl _⟩
  | cons e es ih =>
    obtain ⟨h1, h2⟩ := next_good (isInst := isInst) hrefl htrans hguar h (e := e) (fun c hc =>
      hstart c (by simp [hc]) _ _ (Nat.le_refl _) (hrefl _))
    obtain ⟨h3, h4⟩ := ih h1 (fun c hc i s hi hs =>
      hstart c (List.mem_cons_of_mem _ hc) i s (Nat.le_trans (next_length cfg e) hi) (htrans _ _ _ h2 hs))
    exact ⟨h3, htrans _ _ _ h2 h4⟩

omit [DecidableEq C] in
/-- What is registered in the dictionary after `dict[typeUrl] = entry`. -/
theorem get_setManager (a : Nat) (u : PStr) (x : KeyManager P C × Bool) (s : Shared P C) (a' : Nat) (u' : PStr) :
    PyDict.get? ((s.setManager a u x).keyManagers a') u' =
      if a' = a ∧ u = u' then some x else PyDict.get? (s.keyManagers a') u' := by
  unfold Shared.setManager
  dsimp only
  by_cases h : a' = a
  · subst h
    rw [if_pos rfl, PyDict.get?_set]
    simp
  · simp [h]

theorem get_setWrapper (a : Nat) (w : PrimitiveWrapper P C) (s : Shared P C) (a' : Nat) (c : C) :
    PyDict.get? ((s.setWrapper a w).wrappers a') c =
      if a' = a ∧ w.primitiveClass = c then some w else PyDict.get? (s.wrappers a') c := by
  unfold Shared.setWrapper
  dsimp only
  by_cases h : a' = a
  · subst h
    rw [if_pos rfl, PyDict.get?_set]
    simp
  · simp [h]

/-! ## What all calls keep -/

/-- Nothing is lost: as without `reset()`. -/
def NoLoss (s s' : Shared P C) : Prop :=
  s'.kmNow = s.kmNow ∧ s'.wrNow = s.wrNow ∧
  (∀ a u, PyDict.get? (s.keyManagers a) u ≠ none → PyDict.get? (s'.keyManagers a) u ≠ none) ∧
  ∀ a c, PyDict.get? (s.wrappers a) c ≠ none → PyDict.get? (s'.wrappers a) c ≠ none

/-- All that is registered is as in `K` and `W`. -/
def Inv (K : PStr → KeyManager P C → Bool → Prop) (W : C → PrimitiveWrapper P C → Prop) (s : Shared P C) : Prop :=
  (∀ a u m b, PyDict.get? (s.keyManagers a) u = some (m, b) → K u m b) ∧
  ∀ a c w, PyDict.get? (s.wrappers a) c = some w → W c w

def Rely (K : PStr → KeyManager P C → Bool → Prop) (W : C → PrimitiveWrapper P C → Prop) (keep : Prop)
    (s s' : Shared P C) : Prop :=
  (Inv K W s → Inv K W s') ∧ (keep → NoLoss s s')

variable {K : PStr → KeyManager P C → Bool → Prop} {W : C → PrimitiveWrapper P C → Prop} {keep : Prop}

theorem Rely.refl (s : Shared P C) : Rely K W keep s s :=
  ⟨id, fun _ => ⟨rfl, rfl, fun _ _ => id, fun _ _ => id⟩⟩

theorem Rely.trans (a b c : Shared P C) (h : Rely K W keep a b) (h' : Rely K W keep b c) : Rely K W keep a c :=
  ⟨fun h1 => h'.1 (h.1 h1), fun hk => by
    obtain ⟨h1, h2, h3, h4⟩ := h.2 hk
    obtain ⟨g1, g2, g3, g4⟩ := h'.2 hk
    exact ⟨g1.trans h1, g2.trans h2, fun x u hx => g3 x u (h3 x u hx), fun x u hx => g4 x u (h4 x u hx)⟩⟩

theorem Rely.setManager {a : Nat} {u : PStr} {m : KeyManager P C} {b : Bool} (h : K u m b) (s : Shared P C) :
    Rely K W keep s (s.setManager a u (m, b)) := by
  refine ⟨fun hi => ⟨fun a' u' m' b' hg => ?_, hi.2⟩, fun _ => ⟨rfl, rfl, fun a' u' hg => ?_, fun _ _ => id⟩⟩
  · rw [get_setManager] at hg
    split at hg
    · rename_i hx
      cases hg
      exact hx.2 ▸ h
    · exact hi.1 a' u' m' b' hg
  · rw [get_setManager]
    split
    · simp
    · exact hg

theorem Rely.setWrapper {a : Nat} {w : PrimitiveWrapper P C} (h : W w.primitiveClass w) (s : Shared P C) :
    Rely K W keep s (s.setWrapper a w) := by
  refine ⟨fun hi => ⟨hi.1, fun a' c' w' hg => ?_⟩, fun _ => ⟨rfl, rfl, fun _ _ => id, fun a' u' hg => ?_⟩⟩
  · rw [get_setWrapper] at hg
    split at hg
    · rename_i hx
      cases hg
      exact hx.2 ▸ h
    · exact hi.2 a' c' w' hg
  · rw [get_setWrapper]
    split
    · simp
    · exact hg

/-- What is known of the outcome of a call that started in the state `s0`, and of the states `s` afterwards. -/
def Outcome (isInst : P → C → Bool) (K : PStr → KeyManager P C → Bool → Prop) (W : C → PrimitiveWrapper P C → Prop)
    (keep : Prop) (s0 : Shared P C) : Call P C → Py (Answer P C) → Shared P C → Prop
  | .registerKeyManager m b, r, s =>
    (r = .ok .unit ∧ (keep → PyDict.get? (s.keyManagers s.kmNow) m.keyType ≠ none)) ∨
    (r = .error .tinkError ∧ (m.doesSupport m.keyType = false ∨
      ∃ m' b', K m.keyType m' b' ∧
        ((m'.pyType ≠ m.pyType ∨ m'.primitiveClass ≠ m.primitiveClass) ∨ (b' = false ∧ b = true)))) ∨
    (r = .error .keyError ∧ ¬ keep)
  | .registerPrimitiveWrapper w, r, s =>
    (r = .ok .unit ∧ (keep → PyDict.get? (s.wrappers s.wrNow) w.primitiveClass ≠ none)) ∨
    (r = .error .tinkError ∧ ∃ w', W w.primitiveClass w' ∧ w'.pyType ≠ w.pyType) ∨
    (r = .error .keyError ∧ ¬ keep) ∨
    ((∃ e, r = .error e) ∧ ¬ ∃ p, w.wrap { primitiveClass := w.inputPrimitiveClass } = .ok p ∧
      isInst p w.primitiveClass = true)
  | .lookup u, r, _ =>
    (∃ m b, r = .ok (.manager m b) ∧ K u m b) ∨
    (r = .error .tinkError ∧ (keep → PyDict.get? (s0.keyManagers s0.kmNow) u = none)) ∨
    (r = .error .keyError ∧ ¬ keep)
  | .wrapperFor c, r, _ =>
    (∃ w, r = .ok (.wrapper w) ∧ W c w) ∨
    (r = .error .tinkError ∧ (keep → PyDict.get? (s0.wrappers s0.wrNow) c = none)) ∨
    (r = .error .keyError ∧ ¬ keep)
  | .reset, r, _ => r = .ok .unit

/-- The calls may be made. -/
def Allowed (isInst : P → C → Bool) (K : PStr → KeyManager P C → Bool → Prop) (W : C → PrimitiveWrapper P C → Prop)
    (keep : Prop) : Call P C → Prop
  | .registerKeyManager m b => (m.doesSupport m.keyType = true → K m.keyType m b) ∧
      ∀ m' b', K m.keyType m' b' → m'.pyType = m.pyType → m'.primitiveClass = m.primitiveClass → K m.keyType m' b
  | .registerPrimitiveWrapper w => (∃ p, w.wrap { primitiveClass := w.inputPrimitiveClass } = .ok p ∧
      isInst p w.primitiveClass = true) → W w.primitiveClass w
  | .reset => ¬ keep
  | _ => True

theorem registerKeyManager_keeps {m : KeyManager P C} {b : Bool}
    (h : Allowed isInst K W keep (.registerKeyManager m b)) {s0 : Shared P C} (hi : Inv K W s0) :
    (registerKeyManager m b).Keeps (Rely K W keep) (Rely K W keep)
      (Outcome isInst K W keep s0 (.registerKeyManager m b)) s0 := by
  unfold registerKeyManager
  intro s1 h1
  refine ⟨Rely.refl _, ?_⟩
  dsimp only [id]
  split
  · rename_i hs
    exact fun _ _ => .inr (.inl ⟨rfl, .inl (by simpa using hs)⟩)
  rename_i hs
  intro s2 h2
  refine ⟨Rely.refl _, ?_⟩
  dsimp only [id]
  have hi1 := h1.1 hi
  have hi2 := h2.1 hi1
  split
  · intro s3 h3
    refine ⟨Rely.setManager (h.1 (by simpa using hs)) _, fun s4 h4 => .inl ⟨rfl, fun hk => ?_⟩⟩
    have e2 := (h2.2 hk).1
    have e3 := (h3.2 hk).1
    obtain ⟨e4, -, g, -⟩ := h4.2 hk
    rw [e4]
    refine g _ _ ?_
    rw [get_setManager, if_pos ⟨e3.trans e2, rfl⟩]
    simp
  · rename_i x hx
    intro s3 h3
    refine ⟨Rely.refl _, ?_⟩
    dsimp only [id]
    have hi3 := h3.1 hi2
    split
    · rename_i hn
      refine fun _ _ => .inr (.inr ⟨rfl, fun hk => ?_⟩)
      exact (h3.2 hk).2.2.1 _ _ (by rw [hx]; simp) hn
    · rename_i ex eb hg
      have hK := hi3.1 _ _ _ _ hg
      split
      · rename_i hne
        exact fun _ _ => .inr (.inl ⟨rfl, .inr ⟨ex, eb, hK, .inl hne⟩⟩)
      · rename_i hne
        simp only [ne_eq, not_or, Decidable.not_not] at hne
        split
        · rename_i hf
          refine fun _ _ => .inr (.inl ⟨rfl, .inr ⟨ex, eb, hK, .inr ?_⟩⟩)
          simpa using hf
        · intro s4 h4
          refine ⟨Rely.setManager (h.2 _ _ hK hne.1 hne.2) _, fun s5 h5 => .inl ⟨rfl, fun hk => ?_⟩⟩
          have e2 := (h2.2 hk).1
          have e3 := (h3.2 hk).1
          have e4 := (h4.2 hk).1
          obtain ⟨e5, -, g, -⟩ := h5.2 hk
          rw [e5]
          refine g _ _ ?_
          rw [get_setManager, if_pos ⟨e4.trans (e3.trans e2), rfl⟩]
          simp

theorem checkWrapper_keeps {w : PrimitiveWrapper P C}
    (h : Allowed isInst K W keep (.registerPrimitiveWrapper w)) {s0 s : Shared P C} :
    (checkWrapper isInst w).Keeps (Rely K W keep) (Rely K W keep)
      (Outcome isInst K W keep s0 (.registerPrimitiveWrapper w)) s := by
  unfold checkWrapper
  split
  · rename_i e he
    exact fun _ _ => .inr (.inr (.inr ⟨⟨e, rfl⟩, fun ⟨p, hp, _⟩ => by rw [he] at hp; cases hp⟩))
  · rename_i p hp
    split
    · rename_i hn
      exact fun _ _ => .inr (.inr (.inr ⟨⟨_, rfl⟩, fun ⟨p', hp', hy⟩ => by
        rw [hp] at hp'; cases hp'; rw [hy] at hn; cases hn⟩))
    · rename_i hy
      have hy' : isInst p w.primitiveClass = true := by simpa using hy
      intro s1 h1
      refine ⟨Rely.refl _, ?_⟩
      dsimp only [id]
      intro s2 h2
      refine ⟨Rely.setWrapper (h ⟨p, hp, hy'⟩) _, fun s3 h3 => .inl ⟨rfl, fun hk => ?_⟩⟩
      have e2 := (h2.2 hk).2.1
      obtain ⟨-, e3, -, g⟩ := h3.2 hk
      rw [e3]
      refine g _ _ ?_
      rw [get_setWrapper, if_pos ⟨e2, rfl⟩]
      simp

theorem registerPrimitiveWrapper_keeps {w : PrimitiveWrapper P C}
    (h : Allowed isInst K W keep (.registerPrimitiveWrapper w)) {s0 : Shared P C} (hi : Inv K W s0) :
    (registerPrimitiveWrapper isInst w).Keeps (Rely K W keep) (Rely K W keep)
      (Outcome isInst K W keep s0 (.registerPrimitiveWrapper w)) s0 := by
  unfold registerPrimitiveWrapper
  intro s1 h1
  refine ⟨Rely.refl _, ?_⟩
  dsimp only [id]
  intro s2 h2
  refine ⟨Rely.refl _, ?_⟩
  dsimp only [id]
  split
  · exact checkWrapper_keeps h
  · rename_i x hx
    intro s3 h3
    refine ⟨Rely.refl _, ?_⟩
    dsimp only [id]
    intro s4 h4
    refine ⟨Rely.refl _, ?_⟩
    dsimp only [id]
    have hi4 := h4.1 (h3.1 (h2.1 (h1.1 hi)))
    split
    · rename_i hn
      refine fun _ _ => .inr (.inr (.inl ⟨rfl, fun hk => ?_⟩))
      have e2 := (h2.2 hk).2.1
      have e3 := (h3.2 hk).2.1
      refine (h4.2 hk).2.2.2 _ _ ((h3.2 hk).2.2.2 _ _ ?_) hn
      rw [e3, e2, hx]
      simp
    · rename_i w' hg
      split
      · rename_i hne
        exact fun _ _ => .inr (.inl ⟨rfl, w', hi4.2 _ _ _ hg, hne⟩)
      · exact checkWrapper_keeps h

theorem lookup_keeps {u : PStr} {s0 : Shared P C} (hi : Inv K W s0) :
    (lookup u).Keeps (Rely K W keep) (Rely K W keep) (Outcome isInst K W keep s0 (.lookup u)) s0 := by
  unfold lookup
  intro s1 h1
  refine ⟨Rely.refl _, ?_⟩
  dsimp only [id]
  intro s2 h2
  refine ⟨Rely.refl _, ?_⟩
  dsimp only [id]
  split
  · rename_i hn
    refine fun _ _ => .inr (.inl ⟨rfl, fun hk => ?_⟩)
    have e1 := (h1.2 hk).1
    refine Decidable.byContradiction fun hne => ?_
    exact (h2.2 hk).2.2.1 _ _ ((h1.2 hk).2.2.1 _ _ (e1 ▸ hne)) hn
  · rename_i x hx
    intro s3 h3
    refine ⟨Rely.refl _, ?_⟩
    dsimp only [id]
    intro s4 h4
    refine ⟨Rely.refl _, ?_⟩
    dsimp only [id]
    have hi4 := h4.1 (h3.1 (h2.1 (h1.1 hi)))
    split
    · rename_i hn
      refine fun _ _ => .inr (.inr ⟨rfl, fun hk => ?_⟩)
      have e2 := (h2.2 hk).1
      have e3 := (h3.2 hk).1
      refine (h4.2 hk).2.2.1 _ _ ((h3.2 hk).2.2.1 _ _ ?_) hn
      rw [e3, e2, hx]
      simp
    · rename_i m b hg
      exact fun _ _ => .inl ⟨m, b, rfl, hi4.1 _ _ _ _ hg⟩

theorem wrapperFor_keeps {c : C} {s0 : Shared P C} (hi : Inv K W s0) :
    (wrapperFor c).Keeps (Rely K W keep) (Rely K W keep) (Outcome isInst K W keep s0 (.wrapperFor c)) s0 := by
  unfold wrapperFor
  intro s1 h1
  refine ⟨Rely.refl _, ?_⟩
  dsimp only [id]
  intro s2 h2
  refine ⟨Rely.refl _, ?_⟩
  dsimp only [id]
  split
  · rename_i hn
    refine fun _ _ => .inr (.inl ⟨rfl, fun hk => ?_⟩)
    have e1 := (h1.2 hk).2.1
    refine Decidable.byContradiction fun hne => ?_
    exact (h2.2 hk).2.2.2 _ _ ((h1.2 hk).2.2.2 _ _ (e1 ▸ hne)) hn
  · rename_i x hx
    intro s3 h3
    refine ⟨Rely.refl _, ?_⟩
    dsimp only [id]
    intro s4 h4
    refine ⟨Rely.refl _, ?_⟩
    dsimp only [id]
    have hi4 := h4.1 (h3.1 (h2.1 (h1.1 hi)))
    split
    · rename_i hn
      refine fun _ _ => .inr (.inr ⟨rfl, fun hk => ?_⟩)
      have e2 := (h2.2 hk).2.1
      have e3 := (h3.2 hk).2.1
      refine (h4.2 hk).2.2.2 _ _ ((h3.2 hk).2.2.2 _ _ ?_) hn
      rw [e3, e2, hx]
      simp
    · rename_i w hg
      exact fun _ _ => .inl ⟨w, rfl, hi4.2 _ _ _ hg⟩

theorem reset_keeps (hk : ¬ keep) {s0 s : Shared P C} :
    (reset : Code P C).Keeps (Rely K W keep) (Rely K W keep) (Outcome isInst K W keep s0 .reset) s := by
  unfold reset
  intro s1 _
  refine ⟨⟨fun hi => ⟨fun a u m b hg => ?_, hi.2⟩, fun h => absurd h hk⟩, ?_⟩
  · unfold Shared.newManagers at hg
    dsimp only at hg
    split at hg
    · cases hg
    · exact hi.1 _ _ _ _ hg
  intro s2 _
  refine ⟨⟨fun hi => ⟨hi.1, fun a c w hg => ?_⟩, fun h => absurd h hk⟩, fun _ _ => rfl⟩
  unfold Shared.newWrappers at hg
  dsimp only at hg
  split at hg
  · cases hg
  · exact hi.2 _ _ _ hg

theorem code_keeps {c : Call P C} (h : Allowed isInst K W keep c) {s0 : Shared P C} (hi : Inv K W s0) :
    (code isInst c).Keeps (Rely K W keep) (Rely K W keep) (Outcome isInst K W keep s0 c) s0 := by
  cases c with
  | registerKeyManager m b => exact registerKeyManager_keeps h hi
  | registerPrimitiveWrapper w => exact registerPrimitiveWrapper_keeps h hi
  | lookup u => exact lookup_keeps hi
  | wrapperFor c => exact wrapperFor_keeps hi
  | reset => exact reset_keeps h

end Tink.Threads
