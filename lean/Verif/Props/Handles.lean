import Verif.Spec.Handles
import Verif.Keyset.HandleLemmas
import Verif.Examples.Toy

/-!
# C78: handles, builders and the messages of a program
-/

namespace Tink
namespace Props
open Spec Heap.Keysets

variable {P C : Type}

/-- The addresses that are in use exist. -/
structure InRange (w : World) : Prop where
  known : ∀ l ∈ w.known, l < w.store.length
  handles : ∀ l ∈ w.handles, l < w.store.length
  builders : ∀ l ∈ w.builders, l < w.store.length

/-- What is made: the handle or builder of a new message, or of one of the program's. -/
structure MadeOf (known : List Nat) (s s' : Store) (x : Nat) : Prop where
  app : ∃ m, s' = s ++ m
  lt : x < s'.length
  new : s.length ≤ x ∨ x ∈ known

theorem place_made {s s' : Store} {r : Py Keyset} {x : Nat} (h : place s r = .ok (x, s')) :
    MadeOf [] s s' x := by
  cases r with
  | error e => cases h
  | ok ks => cases h; exact ⟨⟨_, rfl⟩, by simp, Or.inl (Nat.le_refl _)⟩

theorem create_same {s s' : Store} {l x : Nat} (h : create s l = .ok (x, s')) :
    x = l ∧ s' = s ∧ l < s.length := by
  unfold create at h
  cases hl : s[l]? with
  | none => rw [hl] at h; cases h
  | some ks =>
    rw [hl] at h
    simp only at h
    cases hc : KeysetHandle.create ks with
    | error e => rw [hc] at h; cases h
    | ok _ => rw [hc] at h; cases h; exact ⟨rfl, rfl, (List.getElem?_eq_some_iff.1 hl).1⟩

/-- The message of the program that a reader returns. -/
def sharedOf : Source → List Nat
  | .fresh _ => []
  | .shared l => [l]

theorem read_made {w : World} {src : Source} (hs : src.Ok w) {s' : Store} {x : Nat}
    (hr : InRange w) (h : src.read w.store = .ok (x, s')) :
    MadeOf (sharedOf src) w.store s' x := by
  cases src with
  | fresh r => exact place_made h
  | shared l => cases h; exact ⟨⟨[], by simp⟩, hr.known _ hs, Or.inr List.mem_cons_self⟩

/-- The message at `x` belongs to the `i`-th handle alone. -/
structure Own (w : World) (i x : Nat) : Prop where
  range : InRange w
  handle : w.handles[i]? = some x
  known : x ∉ w.known
  builders : x ∉ w.builders
  others : ∀ j, w.handles[j]? = some x → j = i

theorem InRange.make {w : World} (hr : InRange w) {k : List Nat} {r : Py (Nat × Store)}
    (h : ∀ x s, r = .ok (x, s) → MadeOf k w.store s x) : InRange (w.make r) := by
  cases r with
  | error e => exact hr
  | ok r =>
    obtain ⟨x, s⟩ := r
    have := h x s rfl
    obtain ⟨m, rfl⟩ := this.app
    refine ⟨fun l hl => ?_, fun l hl => ?_, fun l hl => ?_⟩
    · exact Nat.lt_of_lt_of_le (hr.known l hl) (by simp [World.make])
    · rcases List.mem_append.1 hl with hl | hl
      · exact Nat.lt_of_lt_of_le (hr.handles l hl) (by simp [World.make])
      · rw [List.mem_singleton] at hl; subst hl; exact this.lt
    · exact Nat.lt_of_lt_of_le (hr.builders l hl) (by simp [World.make])

theorem InRange.build {w : World} (hr : InRange w) {k : List Nat} {r : Py (Nat × Store)}
    (h : ∀ x s, r = .ok (x, s) → MadeOf k w.store s x) : InRange (w.build r) := by
  cases r with
  | error e => exact hr
  | ok r =>
    obtain ⟨x, s⟩ := r
    have := h x s rfl
    obtain ⟨m, rfl⟩ := this.app
    refine ⟨fun l hl => ?_, fun l hl => ?_, fun l hl => ?_⟩
    · exact Nat.lt_of_lt_of_le (hr.known l hl) (by simp [World.build])
    · exact Nat.lt_of_lt_of_le (hr.handles l hl) (by simp [World.build])
    · rcases List.mem_append.1 hl with hl | hl
      · exact Nat.lt_of_lt_of_le (hr.builders l hl) (by simp [World.build])
      · rw [List.mem_singleton] at hl; subst hl; exact this.lt

theorem InRange.expose {w : World} (hr : InRange w) (i : Nat) (keeps : Bool) : InRange (w.expose i keeps) := by
  unfold World.expose
  cases hx : w.handles[i]? with
  | none => exact hr
  | some x =>
    simp only
    cases keeps with
    | false => exact hr
    | true =>
      refine ⟨fun l hl => ?_, hr.handles, hr.builders⟩
      rcases List.mem_cons.1 hl with rfl | hl
      · exact hr.handles _ (List.mem_of_getElem? hx)
      · exact hr.known l hl

/-! ## What the functions make -/

theorem cleartextRead_made {w : World} (hr : InRange w) {src : Source} (hs : src.Ok w) {x : Nat} {s : Store}
    (h : cleartextRead w.store src = .ok (x, s)) :
    MadeOf (sharedOf src) w.store s x := by
  unfold cleartextRead at h
  obtain ⟨⟨y, s1⟩, h1, h⟩ := bind_ok_iff.1 h
  obtain ⟨rfl, rfl, -⟩ := create_same h
  exact read_made hs hr h1

theorem readNoSecret_made {w : World} (hr : InRange w) {src : Source} (hs : src.Ok w) {x : Nat} {s : Store}
    (h : readNoSecret w.store src = .ok (x, s)) :
    MadeOf (sharedOf src) w.store s x := by
  unfold readNoSecret at h
  obtain ⟨⟨y, s1⟩, h1, h⟩ := bind_ok_iff.1 h
  simp only at h
  cases hl : s1[y]? with
  | none => rw [hl] at h; cases h
  | some ks =>
    rw [hl] at h
    obtain ⟨_, _, h⟩ := bind_ok_iff.1 h
    obtain ⟨rfl, rfl, -⟩ := create_same h
    exact read_made hs hr h1

theorem readEncrypted_made {s s' : Store} {reader : KeysetReader} {aead : Aead} {ad : Bytes} {x : Nat}
    (h : readEncrypted s reader aead ad = .ok (x, s')) : MadeOf [] s s' x := by
  unfold readEncrypted at h
  obtain ⟨_, _, h⟩ := bind_ok_iff.1 h
  obtain ⟨_, _, h⟩ := bind_ok_iff.1 h
  obtain ⟨⟨y, s1⟩, h1, h⟩ := bind_ok_iff.1 h
  obtain ⟨rfl, rfl, -⟩ := create_same h
  exact place_made h1

theorem fromProtoKeyset_same {s s' : Store} {l x : Nat} {token : Token}
    (h : Heap.Keysets.fromProtoKeyset s l token = .ok (x, s')) : x = l ∧ s' = s ∧ l < s.length := by
  unfold Heap.Keysets.fromProtoKeyset at h
  split at h
  · cases h
  · exact create_same h

theorem parse_made {s s' : Store} {b : Bytes} {token : Token} {x : Nat}
    (h : parse s b token = .ok (x, s')) : MadeOf [] s s' x := by
  unfold parse at h
  obtain ⟨⟨y, s1⟩, h1, h⟩ := bind_ok_iff.1 h
  obtain ⟨rfl, rfl, -⟩ := fromProtoKeyset_same h
  exact place_made h1

theorem created_made {s s' : Store} {ks : Keyset} {x : Nat}
    (h : create (s ++ [ks]) s.length = .ok (x, s')) : MadeOf [] s s' x := by
  obtain ⟨rfl, rfl, -⟩ := create_same h
  exact ⟨⟨_, rfl⟩, by simp, Or.inl (Nat.le_refl _)⟩

theorem generateNew_made {s : Store} {r : Registry P C} {seed : Seed} {draws : List UInt32}
    {template : KeyTemplate} {y : Py (Nat × Store)} (h : generateNew s r seed draws template = some y) :
    ∀ x s', y = .ok (x, s') → MadeOf [] s s' x := by
  intro x s' hy
  unfold generateNew at h
  cases hk : r.newKeyData seed template with
  | error e => rw [hk] at h; cases h; cases hy
  | ok kd =>
    rw [hk] at h
    simp only at h
    cases hd : generateUnusedKeyId draws {} with
    | none => rw [hd] at h; cases h
    | some id =>
      rw [hd] at h
      cases h
      exact created_made hy

theorem publicKeysetHandle_made {s s' : Store} {r : Registry P C} {y x : Nat}
    (h : publicKeysetHandle s r y = .ok (x, s')) : MadeOf [] s s' x := by
  unfold publicKeysetHandle at h
  split at h
  · cases h
  · split at h
    · cases h
    · exact created_made h

theorem builderHandle_made {s s' : Store} {y x : Nat} (h : builderHandle s y = .ok (x, s')) :
    MadeOf [] s s' x := by
  unfold builderHandle at h
  split at h
  · cases h
  · split at h
    · cases h
    · exact parse_made h

theorem builderFromHandle_made {s s' : Store} {y x : Nat} (h : builderFromHandle s y = .ok (x, s')) :
    MadeOf [] s s' x := by
  unfold builderFromHandle at h
  split at h
  · cases h
  · exact place_made h

/-- Every step of a program is one of these. -/
inductive Shape (w : World) (op : Op) : World → Prop where
  | same : Shape w op w
  | new (ks : Keyset) : Shape w op { w with store := w.store ++ [ks], known := w.store.length :: w.known }
  | set (l : Nat) (ks : Keyset) (hl : l ∈ w.known ∨ l ∈ w.builders) :
      Shape w op { w with store := w.store.set l ks }
  | make (x : Nat) (s : Store) (k : List Nat) (hm : MadeOf k w.store s x) (hk : k ⊆ w.known)
      (ha : k = [] ∨ Adopts op) : Shape w op { w with store := s, handles := w.handles ++ [x] }
  | build (x : Nat) (s : Store) (k : List Nat) (hm : MadeOf k w.store s x) (hk : k ⊆ w.known) :
      Shape w op { w with store := s, builders := w.builders ++ [x] }
  | expose (i x : Nat) (hi : w.handles[i]? = some x) (ho : HandsOut i op) :
      Shape w op { w with known := x :: w.known }
  | both (i y x : Nat) (s : Store) (hi : w.handles[i]? = some y) (ho : HandsOut i op)
      (hm : MadeOf [] w.store s x) :
      Shape w op { w with known := y :: w.known, store := s, handles := w.handles ++ [x] }

theorem shape_make {w : World} {op : Op} {y : Py (Nat × Store)} {k : List Nat}
    (h : ∀ x s, y = .ok (x, s) → MadeOf k w.store s x) (hk : k ⊆ w.known) (ha : k = [] ∨ Adopts op) :
    Shape w op (w.make y) := by
  cases y with
  | error e => exact .same
  | ok y => exact .make y.1 y.2 k (h _ _ rfl) hk ha

theorem shape_build {w : World} {op : Op} {y : Py (Nat × Store)} {k : List Nat}
    (h : ∀ x s, y = .ok (x, s) → MadeOf k w.store s x) (hk : k ⊆ w.known) : Shape w op (w.build y) := by
  cases y with
  | error e => exact .same
  | ok y => exact .build y.1 y.2 k (h _ _ rfl) hk

theorem shape_expose {w : World} {op : Op} {i : Nat} {keeps : Bool} (h : keeps = true → HandsOut i op) :
    Shape w op (w.expose i keeps) := by
  unfold World.expose
  cases hx : w.handles[i]? with
  | none => exact .same
  | some x =>
    cases keeps with
    | false => exact .same
    | true => exact .expose i x hx (h rfl)

theorem step_shape (r : Registry P C) {w : World} (hr : InRange w) (op : Op) : Shape w op (step r w op) := by
  have nil : ([] : List Nat) ⊆ w.known := fun _ h => by cases h
  have one : ∀ {l : Nat}, l ∈ w.known → [l] ⊆ w.known := fun h x hx => by
    rw [List.mem_singleton] at hx; subst hx; exact h
  cases op with
  | new ks => exact .new ks
  | set l ks =>
    simp only [step]
    split
    · exact .set l ks (Or.inl ‹_›)
    · exact .same
  | generateNew seed draws template =>
    simp only [step]
    cases hg : generateNew w.store r seed draws template with
    | none => exact .same
    | some y => exact shape_make (generateNew_made hg) nil (Or.inl rfl)
  | fromKeyset l =>
    simp only [step]
    split
    · refine shape_make (k := [l]) (fun x s h => ?_) (one ‹_›) (Or.inr trivial)
      obtain ⟨rfl, rfl, hl⟩ := create_same h
      exact ⟨⟨[], by simp⟩, hl, Or.inr (by simp)⟩
    · exact .same
  | fromProtoKeyset l token =>
    simp only [step]
    split
    · refine shape_make (k := [l]) (fun x s h => ?_) (one ‹_›) (Or.inr trivial)
      obtain ⟨rfl, rfl, hl⟩ := fromProtoKeyset_same h
      exact ⟨⟨[], by simp⟩, hl, Or.inr (by simp)⟩
    · exact .same
  | cleartextRead src =>
    simp only [step]
    split
    · rename_i hs
      refine shape_make (fun x s h => cleartextRead_made hr hs h) ?_ ?_
      · cases src with
        | fresh _ => exact nil
        | shared l => exact one hs
      · cases src with
        | fresh _ => exact Or.inl rfl
        | shared l => exact Or.inr trivial
    · exact .same
  | readNoSecret src =>
    simp only [step]
    split
    · rename_i hs
      refine shape_make (fun x s h => readNoSecret_made hr hs h) ?_ ?_
      · cases src with
        | fresh _ => exact nil
        | shared l => exact one hs
      · cases src with
        | fresh _ => exact Or.inl rfl
        | shared l => exact Or.inr trivial
    · exact .same
  | readEncrypted reader aead ad => exact shape_make (fun x s h => readEncrypted_made h) nil (Or.inl rfl)
  | parse b token => exact shape_make (fun x s h => parse_made h) nil (Or.inl rfl)
  | toProtoKeyset i token =>
    simp only [step]
    cases hx : w.handles[i]? with
    | none => exact .same
    | some x =>
      simp only [Heap.Keysets.toProtoKeyset]
      cases token with
      | secretKeyAccess => exact .expose i x hx rfl
      | publicKeyAccess => exact .same
      | other n => exact .same
  | write i keeps => exact shape_expose (fun h => by subst h; exact rfl)
  | writeNoSecret i keeps => exact shape_expose (fun h => by subst h; exact rfl)
  | primitive i keeps => exact shape_expose (fun h => by subst h; exact rfl)
  | publicKeysetHandle i keeps =>
    simp only [step]
    cases hi : w.handles[i]? with
    | none =>
      have he : w.expose i keeps = w := by simp only [World.expose, hi]
      rw [he, hi]
      exact .same
    | some y =>
      cases keeps with
      | false =>
        have he : w.expose i false = w := by simp only [World.expose, hi]; rfl
        rw [he, hi]
        exact shape_make (fun x s h => publicKeysetHandle_made h) nil (Or.inl rfl)
      | true =>
        have he : w.expose i true = { w with known := y :: w.known } := by
          simp only [World.expose, hi]; rfl
        rw [he]
        simp only [hi]
        cases hp : publicKeysetHandle w.store r y with
        | error e => exact .expose i y hi rfl
        | ok q => exact .both i y q.1 q.2 hi rfl (publicKeysetHandle_made hp)
  | newBuilder => simp only [step]; exact shape_build (fun x s h => place_made h) nil
  | builder l =>
    simp only [step]
    split
    · rename_i hl
      refine shape_build (k := [l]) (fun x s h => ?_) (one hl)
      cases h
      exact ⟨⟨[], by simp⟩, hr.known _ hl, Or.inr (by simp)⟩
    · exact .same
  | builderFromKeyset b => exact shape_build (fun x s h => place_made h) nil
  | builderFromHandle i =>
    simp only [step]
    cases hx : w.handles[i]? with
    | none => exact .same
    | some x => exact shape_build (fun x s h => builderFromHandle_made h) nil
  | edit b e =>
    simp only [step]
    cases hx : w.builders[b]? with
    | none => exact .same
    | some x =>
      simp only [edit]
      cases hl : w.store[x]? with
      | none => exact .same
      | some ks => exact .set x _ (Or.inr (List.mem_of_getElem? hx))
  | builderHandle b =>
    simp only [step]
    cases hx : w.builders[b]? with
    | none => exact .same
    | some x => exact shape_make (fun x s h => builderHandle_made h) nil (Or.inl rfl)

theorem Shape.range {w w' : World} {op : Op} (hs : Shape w op w') (hr : InRange w) : InRange w' := by
  cases hs with
  | same => exact hr
  | new ks =>
    refine ⟨fun l hl => ?_, fun l hl => ?_, fun l hl => ?_⟩
    · simp only [List.length_append, List.length_singleton]
      rcases List.mem_cons.1 hl with rfl | hl
      · omega
      · have := hr.known l hl; omega
    · have := hr.handles l hl; simp only [List.length_append, List.length_singleton]; omega
    · have := hr.builders l hl; simp only [List.length_append, List.length_singleton]; omega
  | set l ks hl =>
    refine ⟨fun l hl => ?_, fun l hl => ?_, fun l hl => ?_⟩
    · simp only [List.length_set]; exact hr.known l hl
    · simp only [List.length_set]; exact hr.handles l hl
    · simp only [List.length_set]; exact hr.builders l hl
  | make x s k hm hk ha =>
    exact hr.make (r := .ok (x, s)) (k := k) (fun x' s' h => by cases h; exact hm)
  | build x s k hm hk =>
    exact hr.build (r := .ok (x, s)) (k := k) (fun x' s' h => by cases h; exact hm)
  | expose i x hi ho =>
    have := hr.expose i true
    simp only [World.expose, hi] at this
    exact this
  | both i y x s hi ho hm =>
    have := hr.expose i true
    simp only [World.expose, hi] at this
    exact InRange.make this (r := .ok (x, s)) (k := []) (fun x' s' h => by cases h; exact hm)

theorem Shape.own {w w' : World} {op : Op} (hs : Shape w op w') {i x : Nat} (ho : Own w i x)
    (hop : ¬HandsOut i op) : Own w' i x ∧ w'.store[x]? = w.store[x]? := by
  have hx := ho.range.handles x (List.mem_of_getElem? ho.handle)
  have hi := (List.getElem?_eq_some_iff.1 ho.handle).1
  have hrange := hs.range ho.range
  have hpush : ∀ z, z ≠ x → (w.handles ++ [z])[i]? = some x ∧
      ∀ j, (w.handles ++ [z])[j]? = some x → j = i := by
    intro z hz
    refine ⟨by rw [List.getElem?_append_left hi]; exact ho.handle, fun j hj => ?_⟩
    by_cases hlt : j < w.handles.length
    · rw [List.getElem?_append_left hlt] at hj
      exact ho.others j hj
    · have hlt' := (List.getElem?_eq_some_iff.1 hj).1
      simp only [List.length_append, List.length_singleton] at hlt'
      have : j = w.handles.length := by omega
      subst this
      rw [List.getElem?_concat_length] at hj
      cases hj
      exact absurd rfl hz
  have hne : ∀ {k : List Nat} {s : Store} {z : Nat}, MadeOf k w.store s z → k ⊆ w.known → z ≠ x := by
    intro k s z hm hk hz
    subst hz
    rcases hm.new with h | h
    · omega
    · exact ho.known (hk h)
  have hget : ∀ {k : List Nat} {s : Store} {z : Nat}, MadeOf k w.store s z → s[x]? = w.store[x]? := by
    intro k s z hm
    obtain ⟨m, rfl⟩ := hm.app
    exact List.getElem?_append_left hx
  cases hs with
  | same => exact ⟨ho, rfl⟩
  | new ks =>
    refine ⟨⟨hrange, ho.handle, ?_, ho.builders, ho.others⟩, List.getElem?_append_left hx⟩
    intro h
    rcases List.mem_cons.1 h with h | h
    · omega
    · exact ho.known h
  | set l ks hl =>
    refine ⟨⟨hrange, ho.handle, ho.known, ho.builders, ho.others⟩, ?_⟩
    simp only
    rw [List.getElem?_set_ne]
    rintro rfl
    rcases hl with hl | hl
    · exact ho.known hl
    · exact ho.builders hl
  | make z s k hm hk ha =>
    have := hpush z (hne hm hk)
    exact ⟨⟨hrange, this.1, ho.known, ho.builders, this.2⟩, hget hm⟩
  | build z s k hm hk =>
    refine ⟨⟨hrange, ho.handle, ho.known, ?_, ho.others⟩, hget hm⟩
    intro h
    rcases List.mem_append.1 h with h | h
    · exact ho.builders h
    · rw [List.mem_singleton] at h
      exact hne hm hk h.symm
  | expose j z hj hout =>
    refine ⟨⟨hrange, ho.handle, ?_, ho.builders, ho.others⟩, rfl⟩
    intro h
    rcases List.mem_cons.1 h with h | h
    · subst h
      exact hop ((ho.others j hj) ▸ hout)
    · exact ho.known h
  | both j y z s hj hout hm =>
    have := hpush z (hne hm (fun _ h => by cases h))
    refine ⟨⟨hrange, this.1, ?_, ho.builders, this.2⟩, hget hm⟩
    intro h
    rcases List.mem_cons.1 h with h | h
    · subst h
      exact hop ((ho.others j hj) ▸ hout)
    · exact ho.known h

/-- A handle that is made of a new message has it alone. -/
theorem Shape.made {w w' : World} {op : Op} (hs : Shape w op w') (hr : InRange w) (hop : ¬Adopts op) {i x : Nat}
    (hold : w.handles[i]? = none) (hnew : w'.handles[i]? = some x) : Own w' i x := by
  have hrange := hs.range hr
  have hlen : w.handles.length ≤ i := List.getElem?_eq_none_iff.1 hold
  have hpush : ∀ z, (w.handles ++ [z])[i]? = some x → i = w.handles.length ∧ z = x := by
    intro z hz
    have := (List.getElem?_eq_some_iff.1 hz).1
    simp only [List.length_append, List.length_singleton] at this
    have hi : i = w.handles.length := by omega
    subst hi
    rw [List.getElem?_concat_length] at hz
    cases hz
    exact ⟨rfl, rfl⟩
  have hothers : ∀ {z}, w.store.length ≤ z → ∀ j, (w.handles ++ [z])[j]? = some z → j = w.handles.length := by
    intro z hz j hj
    by_cases hlt : j < w.handles.length
    · rw [List.getElem?_append_left hlt] at hj
      have := hr.handles z (List.mem_of_getElem? hj)
      omega
    · have := (List.getElem?_eq_some_iff.1 hj).1
      simp only [List.length_append, List.length_singleton] at this
      omega
  have hfar : ∀ {z}, w.store.length ≤ z → z ∉ w.known ∧ z ∉ w.builders := by
    intro z hz
    exact ⟨fun h => by have := hr.known z h; omega, fun h => by have := hr.builders z h; omega⟩
  cases hs with
  | same => rw [hold] at hnew; cases hnew
  | new ks => rw [show w.handles[i]? = some x from hnew] at hold; cases hold
  | set l ks hl => rw [show w.handles[i]? = some x from hnew] at hold; cases hold
  | build z s k hm hk => rw [show w.handles[i]? = some x from hnew] at hold; cases hold
  | expose j z hj ho => rw [show w.handles[i]? = some x from hnew] at hold; cases hold
  | make z s k hm hk ha =>
    obtain ⟨rfl, rfl⟩ := hpush z hnew
    have hz : w.store.length ≤ z := by
      rcases ha with rfl | ha
      · rcases hm.new with h | h
        · exact h
        · cases h
      · exact (hop ha).elim
    exact ⟨hrange, hnew, (hfar hz).1, (hfar hz).2, hothers hz⟩
  | both j y z s hj ho hm =>
    obtain ⟨rfl, rfl⟩ := hpush z hnew
    have hz : w.store.length ≤ z := by
      rcases hm.new with h | h
      · exact h
      · cases h
    refine ⟨hrange, hnew, ?_, (hfar hz).2, hothers hz⟩
    intro h
    rcases List.mem_cons.1 h with h | h
    · subst h
      have := hr.handles _ (List.mem_of_getElem? hj)
      omega
    · exact (hfar hz).1 h

theorem run_range (r : Registry P C) : ∀ (ops : List Op) {w : World}, InRange w → InRange (run r w ops)
  | [], _, h => h
  | op :: ops, _, h => run_range r ops ((step_shape r h op).range h)

theorem run_own (r : Registry P C) : ∀ (ops : List Op) {w : World} {i x : Nat}, Own w i x →
    (∀ op ∈ ops, ¬HandsOut i op) → Own (run r w ops) i x ∧ (run r w ops).store[x]? = w.store[x]?
  | [], _, _, _, h, _ => ⟨h, rfl⟩
  | op :: ops, w, i, x, h, hops => by
    have h1 := (step_shape r h.range op).own h (hops op List.mem_cons_self)
    have h2 := run_own r ops h1.1 (fun o ho => hops o (List.mem_cons_of_mem _ ho))
    exact ⟨h2.1, h2.2.trans h1.2⟩

theorem start_range : InRange {} := by
  constructor <;> exact fun l h => by cases h

/-- A handle keeps its keyset for ever: unless it was made of a message of the program, or the program got
hold of its message. -/
theorem C78_handles (r : Registry P C) (before after : List Op) (op : Op) (i : Nat) (ks : Keyset)
    (hold : ∀ ks, ¬HandleIs (run r {} before) i ks) (hnew : HandleIs (run r {} (before ++ [op])) i ks)
    (hop : ¬Adopts op) (hafter : ∀ o ∈ after, ¬HandsOut i o) :
    HandleIs (run r {} (before ++ op :: after)) i ks := by
  have hr := run_range r before start_range
  have hs := step_shape r hr op
  have e1 : run r {} (before ++ [op]) = step r (run r {} before) op := by
    unfold run; rw [List.foldl_append]; rfl
  have e2 : run r {} (before ++ op :: after) = run r (step r (run r {} before) op) after := by
    unfold run; rw [List.foldl_append]; rfl
  rw [e1] at hnew
  rw [e2]
  obtain ⟨x, hx, hks⟩ := hnew
  have hnone : (run r {} before).handles[i]? = none := by
    cases hh : (run r {} before).handles[i]? with
    | none => rfl
    | some y =>
      have := hr.handles y (List.mem_of_getElem? hh)
      exact (hold _ ⟨y, hh, List.getElem?_eq_getElem this⟩).elim
  have hown := hs.made hr hop hnone hx
  have := run_own r after hown hafter
  exact ⟨x, this.1.handle, this.2.trans hks⟩

/-! ## The functions, with messages as objects and as values -/

theorem create_agrees (s : Store) (l : Nat) (ks : Keyset) (hl : s[l]? = some ks) :
    Same HandleOf (create s l) (KeysetHandle.create ks) := by
  unfold create
  rw [hl]
  simp only
  cases hc : KeysetHandle.create ks with
  | error e => rfl
  | ok h =>
    show s[l]? = some h.keyset
    unfold KeysetHandle.create at hc
    obtain ⟨_, _, hc⟩ := bind_ok_iff.1 hc
    cases hc
    exact hl

theorem fromProto_agrees (s : Store) (l : Nat) (ks : Keyset) (hl : s[l]? = some ks) (token : Token) :
    Same HandleOf (Heap.Keysets.fromProtoKeyset s l token) (Tink.fromProtoKeyset ks token) := by
  unfold Heap.Keysets.fromProtoKeyset Tink.fromProtoKeyset
  cases hasSecretKeyAccess token with
  | false => rfl
  | true => exact create_agrees s l ks hl

theorem parse_agrees (s : Store) (b : Bytes) (token : Token) :
    Same HandleOf (parse s b token) (ProtoKeysetFormat.parse b token) := by
  unfold parse ProtoKeysetFormat.parse
  cases (binaryKeysetReader b).read with
  | error e => rfl
  | ok ks => exact fromProto_agrees (s ++ [ks]) s.length ks List.getElem?_concat_length token

/-- The functions that make handles make the handles of the model with values, or raise the same. -/
theorem C78_functions (r : Registry P C) (s : Store) :
    (∀ l ks, s[l]? = some ks → Same HandleOf (fromKeyset s l) (CleartextKeysetHandle.fromKeyset ks)) ∧
    (∀ l ks token, s[l]? = some ks →
      Same HandleOf (Heap.Keysets.fromProtoKeyset s l token) (Tink.fromProtoKeyset ks token)) ∧
    (∀ reader, Same HandleOf (cleartextRead s (.fresh reader.read)) (CleartextKeysetHandle.read reader)) ∧
    (∀ reader, Same HandleOf (readNoSecret s (.fresh reader.read)) (KeysetHandle.readNoSecret reader)) ∧
    (∀ reader aead ad, Same HandleOf (readEncrypted s reader aead ad)
      (KeysetHandle.readWithAssociatedData reader aead ad)) ∧
    (∀ b token, Same HandleOf (parse s b token) (ProtoKeysetFormat.parse b token)) ∧
    (∀ x ks, s[x]? = some ks →
      Same HandleOf (publicKeysetHandle s r x) (KeysetHandle.publicKeysetHandle r ⟨ks⟩)) ∧
    (∀ x ks, s[x]? = some ks → Same HandleOf (builderHandle s x) (KeysetBuilder.keysetHandle ks)) ∧
    (∀ seed draws template, KeysetHandle.generateNew r seed draws template = none ↔
      generateNew s r seed draws template = none) ∧
    ∀ seed draws template x y, generateNew s r seed draws template = some x →
      KeysetHandle.generateNew r seed draws template = some y → Same HandleOf x y := by
  refine ⟨create_agrees s, fun l ks token hl => fromProto_agrees s l ks hl token, fun reader => ?_,
    fun reader => ?_, fun reader aead ad => ?_, parse_agrees s, fun x ks hx => ?_, fun x ks hx => ?_,
    fun seed draws template => ?_, fun seed draws template x y h1 h2 => ?_⟩
  · unfold cleartextRead CleartextKeysetHandle.read Source.read
    cases reader.read with
    | error e => rfl
    | ok ks => exact create_agrees (s ++ [ks]) s.length ks List.getElem?_concat_length
  · unfold readNoSecret KeysetHandle.readNoSecret Source.read
    cases reader.read with
    | error e => rfl
    | ok ks =>
      simp only [place, bind, Except.bind, List.getElem?_concat_length]
      cases assertNoSecretKeyMaterial ks with
      | error e => rfl
      | ok _ => exact create_agrees (s ++ [ks]) s.length ks List.getElem?_concat_length
  · unfold readEncrypted KeysetHandle.readWithAssociatedData
    cases reader.readEncrypted with
    | error e => rfl
    | ok e =>
      simp only [bind, Except.bind]
      cases assertEnoughEncryptedKeyMaterial e with
      | error e => rfl
      | ok _ =>
        simp only
        cases decryptKeyset e aead ad with
        | error e => rfl
        | ok ks => exact create_agrees (s ++ [ks]) s.length ks List.getElem?_concat_length
  · unfold publicKeysetHandle
    rw [hx]
    simp only
    cases hp : KeysetHandle.publicKeysetHandle r ⟨ks⟩ with
    | error e => rfl
    | ok h =>
      simp only
      have hc : KeysetHandle.create h.keyset = .ok h := by
        unfold KeysetHandle.publicKeysetHandle at hp
        obtain ⟨keys, _, hp⟩ := bind_ok_iff.1 hp
        have hp' := hp
        unfold KeysetHandle.create at hp'
        obtain ⟨_, _, hp'⟩ := bind_ok_iff.1 hp'
        cases hp'
        exact hp
      have := create_agrees (s ++ [h.keyset]) s.length h.keyset List.getElem?_concat_length
      rw [hc] at this
      exact this
  · unfold builderHandle KeysetBuilder.keysetHandle
    rw [hx]
    simp only
    cases ks.serializeToString with
    | error e => rfl
    | ok b => exact parse_agrees s b .secretKeyAccess
  · unfold KeysetHandle.generateNew generateNew
    cases r.newKeyData seed template with
    | error e => simp
    | ok kd =>
      simp only
      cases generateUnusedKeyId draws {} with
      | none => simp
      | some id => simp
  · unfold KeysetHandle.generateNew at h2
    unfold generateNew at h1
    cases hk : r.newKeyData seed template with
    | error e => rw [hk] at h1 h2; cases h1; cases h2; rfl
    | ok kd =>
      rw [hk] at h1 h2
      simp only at h1 h2
      cases hd : generateUnusedKeyId draws {} with
      | none => rw [hd] at h1; cases h1
      | some id =>
        rw [hd] at h1 h2
        cases h1
        cases h2
        exact create_agrees _ s.length _ List.getElem?_concat_length

/-! ## Where it fails -/

/-- A keyset with one key. -/
def oneKey : Keyset :=
  { primaryKeyId := 7,
    key := [{ keyData := some { typeUrl := ['t'], value := [1], keyMaterialType := KeyMaterialType.SYMMETRIC },
              status := KeyStatusType.ENABLED, keyId := 7, outputPrefixType := OutputPrefixType.TINK }] }

/-- `from_keyset` keeps the message of the program: it can change the handle, even to a keyset that no
handle may have. -/
theorem C78_from_keyset_violated (r : Registry P C) : ∃ (ops : List Op) (later : Op) (ks ks' : Keyset),
    HandleIs (run r {} ops) 0 ks ∧ HandleIs (run r {} (ops ++ [later])) 0 ks' ∧ (∀ i, ¬HandsOut i later) ∧
    KeysetHandle.create ks = .ok ⟨ks⟩ ∧ KeysetHandle.create ks' = .error .tinkError := by
  refine ⟨[.new oneKey, .fromKeyset 0], .set 0 {}, oneKey, {}, ⟨0, rfl, rfl⟩, ⟨0, rfl, rfl⟩,
    fun i h => h, by decide +kernel, by decide +kernel⟩

/-- `to_proto_keyset` returns the message of the handle: the program can change the handle. -/
theorem C78_to_proto_violated (r : Registry P C) : ∃ (ops : List Op) (later : Op) (ks ks' : Keyset),
    (∀ op ∈ ops, ¬Adopts op) ∧
    HandleIs (run r {} ops) 0 ks ∧ HandleIs (run r {} (ops ++ [later])) 0 ks' ∧ (∀ i, ¬HandsOut i later) ∧
    KeysetHandle.create ks = .ok ⟨ks⟩ ∧ KeysetHandle.create ks' = .error .tinkError := by
  refine ⟨[.cleartextRead (.fresh (.ok oneKey)), .toProtoKeyset 0 .secretKeyAccess], .set 0 {}, oneKey, {},
    ?_, ⟨0, rfl, rfl⟩, ⟨0, rfl, rfl⟩, fun i h => h, by decide +kernel, by decide +kernel⟩
  intro op hop
  simp only [List.mem_cons, List.not_mem_nil, or_false] at hop
  rcases hop with rfl | rfl <;> exact fun h => h

/-! ## Example -/

/-- A handle is read; a builder is made of it and changes its keyset; a second handle is made of the builder,
its message is handed out and changed. -/
def laterOps : List Op :=
  [.builderFromHandle 0, .edit 0 (.disableKey 7), .edit 0 (.deleteKey 7), .new oneKey, .builder 2,
   .builderHandle 1, .toProtoKeyset 1 .secretKeyAccess, .set 3 {}, .write 0 false]

example (r : Registry P C) :
    HandleIs (run r {} ([] ++ Op.cleartextRead (.fresh (.ok oneKey)) :: laterOps)) 0 oneKey := by
  refine C78_handles r [] laterOps _ 0 oneKey ?_ ⟨0, rfl, rfl⟩ (fun h => h) ?_
  · rintro ks ⟨x, h, _⟩
    cases h
  · intro op hop
    simp only [laterOps, List.mem_cons, List.not_mem_nil, or_false] at hop
    rcases hop with rfl | rfl | rfl | rfl | rfl | rfl | rfl | rfl | rfl <;> intro h <;> cases h

/-- The second handle did change. -/
example : HandleIs (run Toy.registry {} (Op.cleartextRead (.fresh (.ok oneKey)) :: laterOps)) 1 {} :=
  ⟨3, by decide +kernel, by decide +kernel⟩

end Props
end Tink
