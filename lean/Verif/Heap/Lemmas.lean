import Verif.Spec.Aliasing
import Verif.Py.DictLemmas

/-!
# Lemmas about objects
-/

namespace Tink
namespace Heap
open Spec

variable {F : Type}

theorem mapM_imp {α β : Type} {f g : α → Option β} : ∀ {l : List α} {r : List β},
    (∀ x ∈ l, ∀ y, f x = some y → g x = some y) → l.mapM f = some r → l.mapM g = some r
  | [], r, _, h => by simpa using h
  | x :: l, r, hfg, h => by
    simp only [List.mapM_cons] at h ⊢
    cases hx : f x with
    | none => rw [hx] at h; cases h
    | some y =>
      rw [hx] at h
      rw [hfg x List.mem_cons_self y hx]
      cases hl : l.mapM f with
      | none => rw [hl] at h; cases h
      | some ys =>
        rw [hl] at h
        rw [mapM_imp (fun x hm => hfg x (List.mem_cons_of_mem _ hm)) hl]
        exact h

/-- The contents of an object read the same way, if its parts do. -/
theorem readWith_ref {g g' : Nat → Option (Obj F)} {n m : Nat} {l : Nat} {j : JVal F}
    (hg : ∀ o, g l = some o → g' l = some o)
    (hr : ∀ o, g l = some o → ∀ v ∈ o.vals, ∀ k, readWith g n v = some k → readWith g' m v = some k)
    (h : readWith g (n + 1) (.ref l) = some j) : readWith g' (m + 1) (.ref l) = some j := by
  unfold readWith at h ⊢
  cases ho : g l with
  | none => rw [ho] at h; cases h
  | some o =>
    rw [ho] at h
    rw [hg o ho]
    cases o with
    | list items =>
      simp only at h ⊢
      cases hm : items.mapM (readWith g n) with
      | none => rw [hm] at h; cases h
      | some r =>
        rw [hm] at h
        rw [mapM_imp (l := items) (fun v hv => hr _ ho v hv) hm]
        exact h
    | dict entries =>
      simp only at h ⊢
      cases hm : entries.mapM (fun e => (readWith g n e.2).map fun v => (e.1, v)) with
      | none => rw [hm] at h; cases h
      | some r =>
        rw [hm] at h
        rw [mapM_imp (g := fun e => (readWith g' m e.2).map fun v => (e.1, v)) (fun e he y hy => by
          cases hv : readWith g n e.2 with
          | none => rw [hv] at hy; cases hy
          | some k =>
            rw [hv] at hy
            rw [hr _ ho e.2 (List.mem_map.2 ⟨e, he, rfl⟩) k hv]
            exact hy) hm]
        exact h

theorem readWith_plain {g g' : Nat → Option (Obj F)} {n m : Nat} {v : Val F} (hv : v.addr? = none) :
    readWith g n v = readWith g' m v := by
  cases v with
  | ref l => cases hv
  | _ => cases n <;> cases m <;> rfl

theorem readWith_mono {g : Nat → Option (Obj F)} {n m : Nat} (hnm : n ≤ m) {v : Val F} {j : JVal F}
    (h : readWith g n v = some j) : readWith g m v = some j := by
  induction n generalizing m v j with
  | zero =>
    cases v with
    | ref l => cases h
    | _ => rw [← h]; exact readWith_plain rfl
  | succ n ih =>
    cases v with
    | ref l =>
      obtain ⟨m, rfl⟩ : ∃ m', m = m' + 1 := ⟨m - 1, by omega⟩
      exact readWith_ref (fun o ho => ho) (fun o _ v _ k hk => ih (by omega) hk) h
    | _ => rw [← h]; exact readWith_plain rfl

/-- A value keeps what it is, if the objects of a closed set that it is in do. -/
theorem readWith_closed {g g' : Nat → Option (Obj F)} {P : Nat → Prop}
    (hP : ∀ l o, P l → g l = some o → g' l = some o ∧ ∀ r ∈ addrs o.vals, P r) {n : Nat} {v : Val F}
    {j : JVal F} (hv : ∀ r ∈ addrs [v], P r) (h : readWith g n v = some j) : readWith g' n v = some j := by
  induction n generalizing v j with
  | zero =>
    cases v with
    | ref l => cases h
    | _ => rw [← h]; exact readWith_plain rfl
  | succ n ih =>
    cases v with
    | ref l =>
      have hl : P l := hv l (by simp [addrs, Val.addr?])
      refine readWith_ref (fun o ho => (hP l o hl ho).1) (fun o ho v hm k hk => ih ?_ hk) h
      intro r hr
      refine (hP l o hl ho).2 r ?_
      simp only [addrs, List.mem_filterMap, List.mem_singleton] at hr ⊢
      obtain ⟨v', rfl, hr⟩ := hr
      exact ⟨v', hm, hr⟩
    | _ => rw [← h]; exact readWith_plain rfl

theorem readWith_sub {g g' : Nat → Option (Obj F)} (hg : ∀ l o, g l = some o → g' l = some o) {n : Nat}
    {v : Val F} {j : JVal F} (h : readWith g n v = some j) : readWith g' n v = some j :=
  readWith_closed (P := fun _ => True) (fun l o _ ho => ⟨hg l o ho, fun _ _ => trivial⟩)
    (fun _ _ => trivial) h

/-! ## No more objects than there are -/

/-- A store without the object at `l`. -/
def without (g : Nat → Option (Obj F)) (l : Nat) : Nat → Option (Obj F) :=
  fun x => if x = l then none else g x

theorem readWith_without {g : Nat → Option (Obj F)} {l k : Nat} (hl : readWith g k (.ref l) = none)
    {n : Nat} (hn : n ≤ k) {v : Val F} {j : JVal F} (h : readWith g n v = some j) :
    readWith (without g l) n v = some j := by
  induction n generalizing v j with
  | zero =>
    cases v with
    | ref l => cases h
    | _ => rw [← h]; exact readWith_plain rfl
  | succ n ih =>
    cases v with
    | ref x =>
      have hx : x ≠ l := by
        rintro rfl
        rw [readWith_mono hn h] at hl
        cases hl
      exact readWith_ref (fun o ho => by unfold without; rw [if_neg hx]; exact ho)
        (fun o _ v _ k hk => ih (by omega) hk) h
    | _ => rw [← h]; exact readWith_plain rfl

/-- What can be read can be read by looking as deep as there are objects. -/
theorem readWith_bound : ∀ (m : Nat) (A : List Nat), A.length ≤ m → ∀ (g : Nat → Option (Obj F)),
    (∀ l o, g l = some o → l ∈ A) → ∀ (n : Nat) (v : Val F) (j : JVal F), readWith g n v = some j →
    readWith g m v = some j := by
  intro m
  induction m with
  | zero =>
    intro A hA g hg n v j h
    cases v with
    | ref l =>
      cases n with
      | zero => cases h
      | succ n =>
        unfold readWith at h
        cases ho : g l with
        | none => rw [ho] at h; cases h
        | some o =>
          have := hg l o ho
          rw [List.length_eq_zero_iff.1 (Nat.le_zero.1 hA)] at this
          cases this
    | _ => rw [← h]; exact readWith_plain rfl
  | succ m ihm =>
    intro A hA g hg n
    induction n with
    | zero =>
      intro v j h
      cases v with
      | ref l => cases h
      | _ => rw [← h]; exact readWith_plain rfl
    | succ n ihn =>
      intro v j h
      cases v with
      | ref l =>
        cases hn : readWith g n (.ref l) with
        | some k =>
          have := readWith_mono (Nat.le_succ n) hn
          rw [h] at this
          cases this
          exact ihn _ _ hn
        | none =>
          refine readWith_ref (fun o ho => ho) (fun o ho v hv k hk => ?_) h
          have h1 := readWith_without hn (Nat.le_refl n) hk
          have hA' : (A.erase l).length ≤ m := by
            rw [List.length_erase_of_mem (hg l o ho)]; omega
          have h2 := ihm (A.erase l) hA' (without g l) (fun x o hx => by
            unfold without at hx
            by_cases hxl : x = l
            · rw [if_pos hxl] at hx; cases hx
            · rw [if_neg hxl] at hx
              exact (List.mem_erase_of_ne hxl).2 (hg x o hx)) n v k h1
          exact readWith_sub (fun x o hx => by
            unfold without at hx
            by_cases hxl : x = l
            · rw [if_pos hxl] at hx; cases hx
            · rw [if_neg hxl] at hx; exact hx) h2
      | _ => rw [← h]; exact readWith_plain rfl

theorem readAll_iff {h : Store F} {v : Val F} {j : JVal F} : readAll h v = some j ↔ Is h v j := by
  constructor
  · intro hr; exact ⟨_, hr⟩
  · rintro ⟨n, hn⟩
    refine readWith_mono (Nat.le_succ _) (readWith_bound h.length (List.range h.length) (by simp) _ ?_ n v j hn)
    intro l o ho
    rw [List.mem_range]
    exact (List.getElem?_eq_some_iff.1 ho).1

theorem is_unique {h : Store F} {v : Val F} {j k : JVal F} (h1 : Is h v j) (h2 : Is h v k) : j = k := by
  rw [← readAll_iff] at h1 h2
  rw [h1] at h2
  exact Option.some.inj h2

/-! ## Contents, one by one -/

/-- Values and what they are. -/
def ItemsAre (h : Store F) : List (Val F) → List (JVal F) → Prop
  | [], [] => True
  | v :: l, j :: k => Is h v j ∧ ItemsAre h l k
  | _, _ => False

/-- The entries of a dict and what they are. -/
def EntriesAre (h : Store F) : List (PyStr × Val F) → List (PyStr × JVal F) → Prop
  | [], [] => True
  | e :: l, f :: k => e.1 = f.1 ∧ Is h e.2 f.2 ∧ EntriesAre h l k
  | _, _ => False

theorem itemsAre_iff {h : Store F} : ∀ {l : List (Val F)} {k : List (JVal F)},
    ItemsAre h l k ↔ l.mapM (readAll h) = some k
  | [], [] => by simp [ItemsAre]
  | [], _ :: _ => by simp [ItemsAre]
  | v :: l, [] => by
    simp only [ItemsAre, List.mapM_cons, false_iff]
    cases readAll h v with
    | none => exact fun h => by cases h
    | some x =>
      cases l.mapM (readAll h) with
      | none => exact fun h => by cases h
      | some y => exact fun h => by cases h
  | v :: l, j :: k => by
    simp only [ItemsAre, List.mapM_cons, itemsAre_iff, ← readAll_iff]
    cases readAll h v with
    | none => exact ⟨fun h => (by cases h.1), fun h => (by cases h)⟩
    | some x =>
      cases l.mapM (readAll h) with
      | none => exact ⟨fun h => (by cases h.2), fun h => (by cases h)⟩
      | some y =>
        constructor
        · rintro ⟨h1, h2⟩; cases h1; cases h2; rfl
        · intro h; cases h; exact ⟨rfl, rfl⟩

theorem entriesAre_iff {h : Store F} : ∀ {l : List (PyStr × Val F)} {k : List (PyStr × JVal F)},
    EntriesAre h l k ↔ l.mapM (fun e => (readAll h e.2).map fun v => (e.1, v)) = some k
  | [], [] => by simp [EntriesAre]
  | [], _ :: _ => by simp [EntriesAre]
  | e :: l, [] => by
    simp only [EntriesAre, List.mapM_cons, false_iff]
    cases readAll h e.2 with
    | none => exact fun h => by cases h
    | some x =>
      cases l.mapM (fun e => (readAll h e.2).map fun v => (e.1, v)) with
      | none => exact fun h => by cases h
      | some y => exact fun h => by cases h
  | e :: l, f :: k => by
    simp only [EntriesAre, List.mapM_cons, entriesAre_iff, ← readAll_iff]
    cases readAll h e.2 with
    | none => exact ⟨fun h => (by cases h.2.1), fun h => (by cases h)⟩
    | some x =>
      cases l.mapM (fun e => (readAll h e.2).map fun v => (e.1, v)) with
      | none => exact ⟨fun h => (by cases h.2.2), fun h => (by cases h)⟩
      | some y =>
        constructor
        · rintro ⟨h1, h2, h3⟩; cases h2; cases h3; cases f; cases h1; rfl
        · intro h; cases h; exact ⟨rfl, rfl, rfl⟩

theorem is_plain {h : Store F} {v : Val F} {j : JVal F} (hv : v.addr? = none) :
    Is h v j ↔ readWith (fun _ => none) 0 v = some j := by
  constructor
  · rintro ⟨n, hn⟩; rw [← hn]; exact readWith_plain hv
  · intro hn; exact ⟨0, by rw [← hn]; exact readWith_plain hv⟩

theorem is_list {h : Store F} {l : Nat} {items : List (Val F)} (hl : h[l]? = some (.list items))
    {j : JVal F} : Is h (.ref l) j ↔ ∃ k, j = .list k ∧ ItemsAre h items k := by
  constructor
  · rintro ⟨n, hn⟩
    cases n with
    | zero => cases hn
    | succ n =>
      simp only [read, readWith, hl] at hn
      cases hm : items.mapM (readWith (fun l => h[l]?) n) with
      | none => rw [hm] at hn; cases hn
      | some k =>
        rw [hm] at hn
        cases hn
        exact ⟨k, rfl, itemsAre_iff.2 (mapM_imp (fun v _ y hy => readAll_iff.2 ⟨n, hy⟩) hm)⟩
  · rintro ⟨k, rfl, hk⟩
    refine ⟨h.length + 2, ?_⟩
    simp only [read, readWith, hl]
    have := itemsAre_iff.1 hk
    rw [show items.mapM (readWith (fun l => h[l]?) (h.length + 1)) = some k from this]
    rfl

theorem is_dict {h : Store F} {l : Nat} {entries : List (PyStr × Val F)} (hl : h[l]? = some (.dict entries))
    {j : JVal F} : Is h (.ref l) j ↔ ∃ k, j = .dict k ∧ EntriesAre h entries k := by
  constructor
  · rintro ⟨n, hn⟩
    cases n with
    | zero => cases hn
    | succ n =>
      simp only [read, readWith, hl] at hn
      cases hm : entries.mapM (fun e => (readWith (fun l => h[l]?) n e.2).map fun v => (e.1, v)) with
      | none => rw [hm] at hn; cases hn
      | some k =>
        rw [hm] at hn
        cases hn
        refine ⟨k, rfl, entriesAre_iff.2 (mapM_imp (fun e _ y hy => ?_) hm)⟩
        cases hv : readWith (fun l => h[l]?) n e.2 with
        | none => rw [hv] at hy; cases hy
        | some j => rw [hv] at hy; rw [readAll_iff.2 ⟨n, hv⟩]; exact hy
  · rintro ⟨k, rfl, hk⟩
    refine ⟨h.length + 2, ?_⟩
    simp only [read, readWith, hl]
    have := entriesAre_iff.1 hk
    rw [show entries.mapM (fun e => (readWith (fun l => h[l]?) (h.length + 1) e.2).map fun v => (e.1, v))
      = some k from this]
    rfl

theorem is_none {h : Store F} {l : Nat} (hl : h[l]? = none) {j : JVal F} : ¬Is h (.ref l) j := by
  rintro ⟨n, hn⟩
  cases n with
  | zero => cases hn
  | succ n => simp only [read, readWith, hl] at hn; cases hn

theorem is_append {h : Store F} {v : Val F} {j : JVal F} (hi : Is h v j) (k : Store F) :
    Is (h ++ k) v j := by
  obtain ⟨n, hn⟩ := hi
  refine ⟨n, readWith_sub (fun l o ho => ?_) hn⟩
  have := (List.getElem?_eq_some_iff.1 ho).1
  rw [List.getElem?_append_left this]
  exact ho

theorem ItemsAre.append {h : Store F} (k : Store F) : ∀ {l : List (Val F)} {r : List (JVal F)},
    ItemsAre h l r → ItemsAre (h ++ k) l r
  | [], [], _ => trivial
  | _ :: _, _ :: _, hi => ⟨is_append hi.1 k, ItemsAre.append k hi.2⟩

theorem EntriesAre.append {h : Store F} (k : Store F) :
    ∀ {l : List (PyStr × Val F)} {r : List (PyStr × JVal F)}, EntriesAre h l r → EntriesAre (h ++ k) l r
  | [], [], _ => trivial
  | _ :: _, _ :: _, hi => ⟨hi.1, is_append hi.2.1 k, EntriesAre.append k hi.2.2⟩

/-! ## New objects -/

/-- `h'` is `h` with further objects, which point only to objects from address `b` on that were there before
them. -/
structure Ext (b : Nat) (h h' : Store F) : Prop where
  app : ∃ k, h' = h ++ k
  fresh : ∀ i o, h.length ≤ i → h'[i]? = some o → ∀ r ∈ addrs o.vals, b ≤ r ∧ r < i

theorem Ext.refl (b : Nat) (h : Store F) : Ext b h h :=
  ⟨⟨[], by simp⟩, fun i o hi ho => absurd (List.getElem?_eq_some_iff.1 ho).1 (by omega)⟩

theorem Ext.len {b : Nat} {h h' : Store F} (he : Ext b h h') : h.length ≤ h'.length := by
  obtain ⟨k, rfl⟩ := he.app; simp

theorem Ext.get {b : Nat} {h h' : Store F} (he : Ext b h h') {i : Nat} (hi : i < h.length) :
    h'[i]? = h[i]? := by
  obtain ⟨k, rfl⟩ := he.app
  exact List.getElem?_append_left hi

theorem Ext.is {b : Nat} {h h' : Store F} (he : Ext b h h') {v : Val F} {j : JVal F} (hi : Is h v j) :
    Is h' v j := by
  obtain ⟨k, rfl⟩ := he.app
  exact is_append hi k

theorem Ext.items {b : Nat} {h h' : Store F} (he : Ext b h h') {v : List (Val F)} {j : List (JVal F)}
    (hi : ItemsAre h v j) : ItemsAre h' v j := by
  obtain ⟨k, rfl⟩ := he.app
  exact hi.append k

theorem Ext.entries {b : Nat} {h h' : Store F} (he : Ext b h h') {v : List (PyStr × Val F)}
    {j : List (PyStr × JVal F)} (hi : EntriesAre h v j) : EntriesAre h' v j := by
  obtain ⟨k, rfl⟩ := he.app
  exact hi.append k

theorem Ext.weaken {b c : Nat} {h h' : Store F} (he : Ext b h h') (hbc : c ≤ b) : Ext c h h' :=
  ⟨he.app, fun i o hi ho r hr => ⟨Nat.le_trans hbc (he.fresh i o hi ho r hr).1, (he.fresh i o hi ho r hr).2⟩⟩

theorem Ext.trans {b : Nat} {h h' h'' : Store F} (he : Ext b h h') (he' : Ext b h' h'') : Ext b h h'' := by
  constructor
  · obtain ⟨k, rfl⟩ := he.app
    obtain ⟨k', rfl⟩ := he'.app
    exact ⟨k ++ k', by simp⟩
  · intro i o hi ho
    by_cases hlt : i < h'.length
    · rw [he'.get hlt] at ho
      exact he.fresh i o hi ho
    · exact he'.fresh i o (by omega) ho

theorem Ext.snoc {b : Nat} {h h' : Store F} (he : Ext b h h') (o : Obj F)
    (ho : ∀ r ∈ addrs o.vals, b ≤ r ∧ r < h'.length) : Ext b h (h' ++ [o]) := by
  refine he.trans ⟨⟨[o], rfl⟩, fun i o' hi ho' => ?_⟩
  have hlt := (List.getElem?_eq_some_iff.1 ho').1
  rw [List.length_append, List.length_singleton] at hlt
  have : i = h'.length := by omega
  subst this
  rw [List.getElem?_concat_length] at ho'
  cases ho'
  exact ho

theorem addrs_cons (v : Val F) (l : List (Val F)) : addrs (v :: l) = addrs [v] ++ addrs l := by
  unfold addrs
  rw [show v :: l = [v] ++ l from rfl, List.filterMap_append]

theorem addrs_ref (l : Nat) : addrs [(.ref l : Val F)] = [l] := rfl

/-- `Ext`, for what is made and the addresses in it. -/
structure Made (b : Nat) (h h' : Store F) (vs : List (Val F)) : Prop extends Ext b h h' where
  addrs : ∀ r ∈ addrs vs, b ≤ r ∧ r < h'.length

mutual
theorem alloc_spec (h : Store F) : ∀ j : JVal F,
    Made h.length h (alloc h j).2 [(alloc h j).1] ∧ Is (alloc h j).2 (alloc h j).1 j
  | .null => ⟨⟨Ext.refl _ _, fun r hr => by cases hr⟩, ⟨0, rfl⟩⟩
  | .bool _ => ⟨⟨Ext.refl _ _, fun r hr => by cases hr⟩, ⟨0, rfl⟩⟩
  | .int _ => ⟨⟨Ext.refl _ _, fun r hr => by cases hr⟩, ⟨0, rfl⟩⟩
  | .float _ => ⟨⟨Ext.refl _ _, fun r hr => by cases hr⟩, ⟨0, rfl⟩⟩
  | .str _ => ⟨⟨Ext.refl _ _, fun r hr => by cases hr⟩, ⟨0, rfl⟩⟩
  | .list l => by
    have ih := allocItems_spec h l
    have he := ih.1.toExt.snoc (.list (allocItems h l).1) ih.1.addrs
    refine ⟨⟨he, fun r hr => ?_⟩, ?_⟩
    · simp only [alloc, addrs_ref, List.mem_singleton] at hr
      subst hr
      have := ih.1.toExt.len
      simp only [alloc, List.length_append, List.length_singleton]
      omega
    · refine (is_list (items := (allocItems h l).1) ?_).2 ⟨l, rfl, ih.2.append _⟩
      exact List.getElem?_concat_length
  | .dict d => by
    have ih := allocEntries_spec h d
    have he := ih.1.toExt.snoc (.dict (allocEntries h d).1) ih.1.addrs
    refine ⟨⟨he, fun r hr => ?_⟩, ?_⟩
    · simp only [alloc, addrs_ref, List.mem_singleton] at hr
      subst hr
      have := ih.1.toExt.len
      simp only [alloc, List.length_append, List.length_singleton]
      omega
    · refine (is_dict (entries := (allocEntries h d).1) ?_).2 ⟨d, rfl, ih.2.append _⟩
      exact List.getElem?_concat_length

theorem allocItems_spec (h : Store F) : ∀ l : List (JVal F),
    Made h.length h (allocItems h l).2 (allocItems h l).1 ∧ ItemsAre (allocItems h l).2 (allocItems h l).1 l
  | [] => ⟨⟨Ext.refl _ _, fun r hr => by cases hr⟩, trivial⟩
  | v :: l => by
    have h1 := alloc_spec h v
    have h2 := allocItems_spec (alloc h v).2 l
    have l1 := h1.1.toExt.len
    have l2 := h2.1.toExt.len
    refine ⟨⟨h1.1.toExt.trans (h2.1.toExt.weaken l1), fun r hr => ?_⟩, h2.1.toExt.is h1.2, h2.2⟩
    simp only [allocItems] at hr ⊢
    rw [addrs_cons, List.mem_append] at hr
    rcases hr with hr | hr
    · have := h1.1.addrs r hr; omega
    · have := h2.1.addrs r hr; omega

theorem allocEntries_spec (h : Store F) : ∀ l : List (PyStr × JVal F),
    Made h.length h (allocEntries h l).2 ((allocEntries h l).1.map Prod.snd) ∧
      EntriesAre (allocEntries h l).2 (allocEntries h l).1 l
  | [] => ⟨⟨Ext.refl _ _, fun r hr => by cases hr⟩, trivial⟩
  | p :: l => by
    have h1 := allocEntry_spec h p
    have h2 := allocEntries_spec (allocEntry h p).2 l
    have l1 := h1.1.toExt.len
    have l2 := h2.1.toExt.len
    refine ⟨⟨h1.1.toExt.trans (h2.1.toExt.weaken l1), fun r hr => ?_⟩, h1.2.1, h2.1.toExt.is h1.2.2, h2.2⟩
    simp only [allocEntries, List.map_cons] at hr ⊢
    rw [addrs_cons, List.mem_append] at hr
    rcases hr with hr | hr
    · have := h1.1.addrs r hr; omega
    · have := h2.1.addrs r hr; omega

theorem allocEntry_spec (h : Store F) : ∀ p : PyStr × JVal F,
    Made h.length h (allocEntry h p).2 [(allocEntry h p).1.2] ∧ (allocEntry h p).1.1 = p.1 ∧
      Is (allocEntry h p).2 (allocEntry h p).1.2 p.2
  | (k, v) => by
    have h1 := alloc_spec h v
    exact ⟨h1.1, rfl, h1.2⟩
end

end Heap
end Tink
