import Verif.Stream.Source

/-!
# Code that reads from a Python object

The C++ streams call `read` of the Python object that they are given, and their loops go on for as long
as it has no data.  Such code is represented by the tree of what it does, so that it can be run
against any source, all at once or step by step.
-/

namespace Tink

/-- What a piece of code does: it returns, or calls `read(n)` and goes on depending on the result.
`out` stands for what it does after more turns of its loops than were allowed. -/
inductive Prog (α : Type) where
  | ret (a : α)
  | ask (n : Nat) (k : ReadResult → Prog α)
  | out

namespace Prog
variable {α β σ : Type}

/-- One piece of code after the other. -/
def bind : Prog α → (α → Prog β) → Prog β
  | .ret a, f => f a
  | .ask n k, f => .ask n fun r => (k r).bind f
  | .out, _ => .out

/-- The result, changed. -/
def map (f : α → β) (p : Prog α) : Prog β := p.bind fun a => .ret (f a)

/-- The code run against a source; `none` if it comes to `out`. -/
def run (src : Source σ) : Prog α → σ → Option (σ × α)
  | .ret a, s => some (s, a)
  | .ask n k, s => run src (k (src.read s n).2) (src.read s n).1
  | .out, _ => none

theorem run_bind (src : Source σ) (p : Prog α) (f : α → Prog β) :
    ∀ s, (p.bind f).run src s = (p.run src s).bind fun q => (f q.2).run src q.1 := by
  induction p with
  | ret a => intro s; rfl
  | ask n k ih => intro s; exact ih _ _
  | out => intro s; rfl

theorem run_map (src : Source σ) (p : Prog α) (f : α → β) (s : σ) :
    (p.map f).run src s = (p.run src s).map fun q => (q.1, f q.2) := by
  unfold map
  rw [run_bind]
  cases p.run src s <;> rfl

/-- The second piece of code does what the first does, as far as the first goes. -/
inductive Le : Prog α → Prog α → Prop
  | ret (a : α) : Le (.ret a) (.ret a)
  | ask (n : Nat) {k k' : ReadResult → Prog α} : (∀ r, Le (k r) (k' r)) → Le (.ask n k) (.ask n k')
  | out (q : Prog α) : Le .out q

theorem Le.refl (p : Prog α) : Le p p := by
  induction p with
  | ret a => exact .ret a
  | ask n k ih => exact .ask n ih
  | out => exact .out _

theorem Le.trans {p q r : Prog α} (h : Le p q) (h' : Le q r) : Le p r := by
  induction h generalizing r with
  | ret a => exact h'
  | ask n _ ih =>
    cases h' with
    | ask _ h2 => exact .ask n fun x => ih x (h2 x)
  | out q => exact .out _

theorem Le.bind {p p' : Prog α} {f f' : α → Prog β} (h : Le p p') (hf : ∀ a, Le (f a) (f' a)) :
    Le (p.bind f) (p'.bind f') := by
  induction h with
  | ret a => exact hf a
  | ask n _ ih => exact .ask n ih
  | out q => exact .out _

theorem Le.map {p p' : Prog α} (f : α → β) (h : Le p p') : Le (p.map f) (p'.map f) :=
  h.bind fun _ => .refl _

theorem Le.run {p p' : Prog α} (h : Le p p') {src : Source σ} {s : σ} {q} (hr : p.run src s = some q) :
    p'.run src s = some q := by
  induction h generalizing s with
  | ret a => exact hr
  | ask n _ ih => exact ih _ hr
  | out q => cases hr

end Prog
end Tink
