import Verif.Heap.Refine
import Verif.Examples.ToyJson

/-!
# C77: tokens and the lists and dicts of a program
-/

namespace Tink
namespace Props
open Spec Heap Jwt Json JsonUtil

variable {F : Type}

/-- A token says for ever what it said when it was made: whatever a program does with the lists and dicts that
it passed or was given. -/
theorem C77_tokens (env : JsonEnv F) (ops : List (Op F)) (hops : ∀ op ∈ ops, PlainHeader op) (i : Nat)
    (t : Token F) (ht : (run env {} ops).tokens[i]? = some t) :
    ∃ c, TokenIs (run env {} ops).store t c ∧ ∀ later : List (Op F), (∀ op ∈ later, PlainHeader op) →
      (run env {} (ops ++ later)).tokens[i]? = some t ∧
      TokenIs (run env {} (ops ++ later)).store t c := by
  obtain ⟨P, hk⟩ := run_keeps env ops Sep.start hops
  have hs := hk.sep
  have htok := hs.tokens t (List.mem_of_getElem? ht)
  have hpay : ∀ r ∈ addrs [(.ref t.payload : Val F)], P r := by
    intro r hr
    rw [addrs_ref, List.mem_singleton] at hr
    subst hr
    exact htok.1
  obtain ⟨j, hj⟩ := hs.reads (t.payload + 1) (.ref t.payload) (fun r hr => by
    refine ⟨hpay r hr, ?_⟩
    rw [addrs_ref, List.mem_singleton] at hr
    omega)
  obtain ⟨d, hd, -⟩ := htok.2.1.payload
  obtain ⟨p, rfl, -⟩ := (is_dict hd).1 hj
  have hhead : ∃ th : Option (JVal F), ∀ h : Store F, (t.typeHeader = none ∧ th = none) ∨
      ∃ v j, t.typeHeader = some v ∧ th = some j ∧ Is h v j := by
    cases hv : t.typeHeader with
    | none => exact ⟨none, fun _ => Or.inl ⟨rfl, rfl⟩⟩
    | some v =>
      obtain ⟨j, hj⟩ := hs.reads 0 v (fun r hr => by
        simp only [addrs, List.filterMap_cons, htok.2.2 v hv, List.filterMap_nil] at hr
        cases hr)
      refine ⟨some j, fun h => Or.inr ⟨v, j, rfl, rfl, ?_⟩⟩
      rw [is_plain (htok.2.2 v hv)] at hj ⊢
      exact hj
  obtain ⟨th, hth⟩ := hhead
  refine ⟨⟨th, p⟩, ⟨hth _, hj⟩, fun later hl => ?_⟩
  obtain ⟨P', hk'⟩ := run_keeps env later hs hl
  rw [run_append]
  refine ⟨?_, ⟨hth _, hk'.is hs hpay hj⟩⟩
  obtain ⟨more, hm⟩ := hk'.tokens
  rw [hm, List.getElem?_append_left (List.getElem?_eq_some_iff.1 ht).1]
  exact ht

/-- Without a change by the program, no list or dict of the program changes: not by making tokens from them,
and not by any method of a token. -/
theorem C77_arguments (env : JsonEnv F) (w : World F) (op : Op F) (hop : ∀ l o, op ≠ .set l o) :
    Unchanged w.store (step env w op).store := by
  have app : ∀ (h : Store F) m, Unchanged h (h ++ m) := by
    intro h m l o ho
    rw [List.getElem?_append_left (List.getElem?_eq_some_iff.1 ho).1]
    exact ho
  have made : ∀ r : Py (Token F × Store F), (∀ t h, r = .ok (t, h) → ∃ m, h = w.store ++ m) →
      Unchanged w.store (w.make r).store := by
    intro r hr
    cases r with
    | error e => exact fun l o ho => ho
    | ok r =>
      obtain ⟨m, hm⟩ := hr r.1 r.2 rfl
      show Unchanged w.store r.2
      rw [hm]
      exact app _ m
  have got : ∀ i (f : Token F → Py (Val F × Store F)), (∀ t v h, f t = .ok (v, h) → ∃ m, h = w.store ++ m) →
      Unchanged w.store (w.get i f).store := by
    intro i f hf
    unfold World.get
    cases w.tokens[i]? with
    | none => exact fun l o ho => ho
    | some t =>
      simp only
      cases hr : f t with
      | error e => exact fun l o ho => ho
      | ok r =>
        obtain ⟨m, hm⟩ := hf t r.1 r.2 hr
        show Unchanged w.store r.2
        rw [hm]
        exact app _ m
  have parted : ∀ (x : Py (Val F)) v h, part w.store x = .ok (v, h) → ∃ m, h = w.store ++ m := by
    intro x v h hx
    cases x with
    | error e => cases hx
    | ok y => cases hx; exact ⟨[], by simp⟩
  cases op with
  | new o =>
    simp only [step]
    split
    · exact app _ _
    · exact fun l o ho => ho
  | set l o => exact absurd rfl (hop l o)
  | look l =>
    simp only [step]
    split
    · cases w.store[l]? <;> exact fun l o ho => ho
    · exact fun l o ho => ho
  | create a =>
    simp only [step]
    split
    · exact made _ fun t h hc => (create_spec hc).ext.app
    · exact fun l o ho => ho
  | fromJson th s =>
    refine made _ fun t h hc => ?_
    have := fromJson_same env w.store th s
    rw [hc] at this
    cases hx : RawJwt.fromJson env th s with
    | error e => rw [hx] at this; exact this.elim
    | ok c => rw [hx] at this; exact this.1
  | typeHeader i => exact got _ _ fun t v h => parted _ v h
  | issuer i => exact got _ _ fun t v h => parted _ v h
  | subject i => exact got _ _ fun t v h => parted _ v h
  | jwtId i => exact got _ _ fun t v h => parted _ v h
  | audiences i =>
    refine got _ _ fun t v h hr => ?_
    unfold audiencesOf at hr
    split at hr
    · cases hr
    · cases hr; exact ⟨_, rfl⟩
    · split at hr
      · cases hr; exact ⟨_, rfl⟩
      · cases hr
    · cases hr
  | customClaim i n =>
    refine got _ _ fun t v h hr => ?_
    unfold customClaimOf at hr
    split at hr
    · cases hr
    split at hr
    · cases hr
    · unfold deepcopy at hr
      split at hr
      · rename_i j _
        have := (alloc_spec w.store j).1.toExt.app
        rw [Except.ok.inj hr] at this
        exact this
      · cases hr
    · cases hr; exact ⟨[], by simp⟩

/-- `new_raw_jwt` makes a token that says what the arguments say when it is called, or raises, as if they had
been values. -/
theorem C77_create (env : JsonEnv F) (h : Store F) (a : Args F) (b : RawJwtArgs F) (ha : ArgsAre h a b) :
    Same (fun r c => TokenIs r.2 r.1 c) (create env h a) (newRawJwt env b) :=
  same_imp (create_same env ha) fun _ _ hr => hr.2

/-- A token that is read from JSON says what the text says. -/
theorem C77_from_json (env : JsonEnv F) (h : Store F) (typeHeader : Option (JVal F)) (payload : PyStr) :
    Same (fun r c => TokenIs r.2 r.1 c) (fromJson env h typeHeader payload)
      (RawJwt.fromJson env typeHeader payload) :=
  same_imp (fromJson_same env h typeHeader payload) fun _ _ hr => hr.2

/-- The methods return what the token says. -/
theorem C77_methods (h : Store F) (t : Token F) (c : RawJwt F) (ht : TokenIs h t c) :
    Same (Is h) (typeHeaderOf t) c.getTypeHeader ∧
    (∀ name, Same (Is h) (claimOf h t name) (c.claim name)) ∧
    Same (fun r l => Is r.2 r.1 (.list l)) (audiencesOf h t) c.audiences ∧
    ∀ name, Same (fun r j => Is r.2 r.1 j) (customClaimOf h t name) (c.customClaim name) :=
  ⟨typeHeaderOf_same ht, claimOf_same ht, same_imp (audiencesOf_same ht) fun _ _ hr => hr.2.2,
    fun name => same_imp (customClaimOf_same ht name) fun _ _ hr => hr.2⟩

/-- A type header that is a list is not copied: the program can change the token. -/
theorem C77_header_violated : ∃ (ops : List (Op Int)) (op : Op Int) (t : Token Int) (c : RawJwt Int),
    (run ToyJson.env {} ops).tokens[0]? = some t ∧ TokenIs (run ToyJson.env {} ops).store t c ∧
    (run ToyJson.env {} (ops ++ [op])).tokens[0]? = some t ∧
    ¬TokenIs (run ToyJson.env {} (ops ++ [op])).store t c := by
  refine ⟨[.fromJson (some (.list [])) (py! "{\"iss\":\"me\"}"), .typeHeader 0], .set 0 (.list [.int 1]),
    ⟨some (.ref 0), 1⟩, ⟨some (.list []), [(py! "iss", .str (py! "me"))]⟩, rfl, ?_, rfl, ?_⟩
  · exact ⟨Or.inr ⟨_, _, rfl, rfl, ⟨1, rfl⟩⟩, ⟨1, rfl⟩⟩
  · intro h
    rcases h.typeHeader with ⟨h, _⟩ | ⟨v, j, h1, h2, hi⟩
    · cases h
    · cases h1
      cases h2
      have h' : Is (run ToyJson.env {} [.fromJson (some (.list [])) (py! "{\"iss\":\"me\"}"), .typeHeader 0,
        .set 0 (.list [.int 1])]).store (.ref 0) (.list [.int 1]) := ⟨1, rfl⟩
      have := is_unique hi h'
      cases this

/-! ## Examples -/

/-- A program makes a list of audiences and a dict with a list in it, makes a token with them, gets the
audiences and the custom claim of the token, and changes all of them. -/
def aliasOps : List (Op Int) :=
  [.new (.list [.str (py! "a"), .str (py! "b")]), .new (.list [.int 1]),
   .new (.dict [(py! "k", .ref 1)]),
   .create { audiences := some (.ref 0), withoutExpiration := true,
             customClaims := [(.str (py! "c"), some (.ref 2))] },
   .set 0 (.list []), .set 1 (.list []), .set 2 (.dict []),
   .audiences 0, .customClaim 0 (py! "c")]

def aliasLater : List (Op Int) := [.set 7 (.list []), .look 9, .set 8 (.list [.int 5]), .set 9 (.dict [])]

/-- What the token says after all. -/
def aliasContent : RawJwt Int :=
  ⟨none, [(py! "aud", .list [.str (py! "a"), .str (py! "b")]),
    (py! "c", .dict [(py! "k", .list [.int 1])])]⟩

example : (run ToyJson.env {} (aliasOps ++ aliasLater)).tokens[0]? = some ⟨none, 6⟩ ∧
    TokenIs (run ToyJson.env {} (aliasOps ++ aliasLater)).store ⟨none, 6⟩ aliasContent := by
  have hp : ∀ op ∈ aliasOps ++ aliasLater, PlainHeader op := by
    intro op hop
    simp only [aliasOps, aliasLater, List.cons_append, List.nil_append, List.mem_cons, List.not_mem_nil,
      or_false] at hop
    rcases hop with rfl | rfl | rfl | rfl | rfl | rfl | rfl | rfl | rfl | rfl | rfl | rfl | rfl <;> trivial
  obtain ⟨c, h1, h2⟩ := C77_tokens ToyJson.env aliasOps (fun op ho => hp op (List.mem_append_left _ ho)) 0
    ⟨none, 6⟩ (by rfl)
  have hc : TokenIs (run ToyJson.env {} aliasOps).store ⟨none, 6⟩ aliasContent :=
    ⟨Or.inl ⟨rfl, rfl⟩, ⟨4, by rfl⟩⟩
  have hp' := is_unique h1.payload hc.payload
  have hh : c.typeHeader = none := by
    rcases h1.typeHeader with ⟨_, h⟩ | ⟨v, j, h, _⟩
    · exact h
    · cases h
  obtain ⟨th, p⟩ := c
  cases hh
  cases hp'
  exact h2 aliasLater (fun op ho => hp op (List.mem_append_right _ ho))

/-- The program did change what it had. -/
example : (run ToyJson.env {} (aliasOps ++ aliasLater)).store[0]? = some (.list []) ∧
    (run ToyJson.env {} (aliasOps ++ aliasLater)).store[7]? = some (.list []) ∧
    (run ToyJson.env {} (aliasOps ++ aliasLater)).store[8]? = some (.list [.int 5]) := by
  refine ⟨?_, ?_, ?_⟩ <;> rfl

example : ArgsAre [.list [.str (py! "a")], .list [.int 1]]
    { audiences := some (.ref 0), withoutExpiration := true, customClaims := [(.str (py! "c"), some (.ref 1))] }
    ({ audiences := some [.str (py! "a")], withoutExpiration := true,
       customClaims := [(.str (py! "c"), .json (.list [.int 1]))] } : RawJwtArgs Int) :=
  ⟨rfl, rfl, rfl, rfl, rfl, rfl, rfl, rfl, rfl, Or.inr ⟨0, _, rfl, rfl, 1, rfl⟩, rfl, ⟨1, rfl⟩, trivial⟩

/-- A dict that contains itself cannot be a claim. -/
example : create ToyJson.env [.dict [(py! "self", .ref 0)]]
    { withoutExpiration := true, customClaims := [(.str (py! "c"), some (.ref 0))] } = .error .valueError := by
  rfl

end Props
end Tink
