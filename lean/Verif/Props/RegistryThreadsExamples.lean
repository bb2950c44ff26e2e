import Verif.Props.RegistryThreadsFailed
import Verif.Examples.Toy

/-!
# C112: what goes wrong when registrations are interleaved, and examples
-/

namespace Tink.Props
namespace RegistryThreadsExample
open Spec Threads Toy
open Toy hiding registry

/-- Call `i` proceeds by `n` steps. -/
def steps (i n : Nat) : List (Event Prim Cls) := List.replicate n (.step i)

abbrev first : KeyManager Prim Cls := manager .aead
/-- A manager for the AEAD type URL with another Python type. -/
abbrev other : KeyManager Prim Cls := { manager .aead with pyType := 2 }
abbrev wrapper1 : PrimitiveWrapper Prim Cls := aeadWrapper aeadView 10 .aead
/-- A wrapper for the same class with another Python type. -/
abbrev wrapper2 : PrimitiveWrapper Prim Cls := aeadWrapper aeadView 20 .aead

/-- Two threads find the type URL free; then both register. -/
def race : List (Event Prim Cls) :=
  .start (.registerKeyManager first true) :: .start (.registerKeyManager other true) ::
    (steps 0 2 ++ steps 1 2 ++ steps 0 1)

def race_end : List (Event Prim Cls) := steps 1 1

/-- New keys were allowed.  While a thread is about to allow them again, another forbids them. -/
def permission : List (Event Prim Cls) :=
  .start (.registerKeyManager first true) :: (steps 0 3 ++
    .start (.registerKeyManager first true) :: (steps 1 3 ++
      .start (.registerKeyManager first false) :: steps 2 4))

def permission_end : List (Event Prim Cls) := steps 1 1

/-- The registry is reset while a thread looks up a manager. -/
def resetting : List (Event Prim Cls) :=
  .start (.registerKeyManager first true) :: (steps 0 3 ++
    .start (.lookup (url .aead)) :: (steps 1 2 ++ .start .reset :: (steps 2 2 ++ steps 1 2)))

/-- As `race`, for wrappers. -/
def wrapperRace : List (Event Prim Cls) :=
  .start (.registerPrimitiveWrapper wrapper1) :: .start (.registerPrimitiveWrapper wrapper2) ::
    (steps 0 2 ++ steps 1 2 ++ steps 0 2)

def wrapperRace_end : List (Event Prim Cls) := steps 1 2

end RegistryThreadsExample

open RegistryThreadsExample Spec Threads
open Toy hiding registry

/-- Violation of C15 with threads: both registrations of managers of different types succeed, and the manager that was
registered first, and was found by lookups, is replaced. -/
theorem C112_replaced_violated :
    let cfg1 := (Config.of {}).run isInst race
    let cfg2 := cfg1.run isInst race_end
    NeverReset (race ++ race_end) ∧
    Finished cfg1 0 (.registerKeyManager first true) (.ok .unit) ∧ ManagerRegistered cfg1 (url .aead) first true ∧
    Finished cfg2 1 (.registerKeyManager other true) (.ok .unit) ∧ ManagerRegistered cfg2 (url .aead) other true ∧
    other.pyType ≠ first.pyType :=
  ⟨by simp [NeverReset, race, race_end, steps], rfl, rfl, rfl, rfl, by decide⟩

/-- Violation of C16 with threads: a thread has forbidden new keys, and this was in effect; afterwards they are allowed
although nobody has reset the registry nor started to register. -/
theorem C112_permission_violated :
    let cfg1 := (Config.of {}).run isInst permission
    let cfg2 := cfg1.run isInst permission_end
    NeverReset (permission ++ permission_end) ∧
    Finished cfg1 2 (.registerKeyManager first false) (.ok .unit) ∧ ManagerRegistered cfg1 (url .aead) first false ∧
    Finished cfg2 1 (.registerKeyManager first true) (.ok .unit) ∧ ManagerRegistered cfg2 (url .aead) first true :=
  ⟨by simp [NeverReset, permission, permission_end, steps], rfl, rfl, rfl, rfl⟩

/-- When the registry is reset at the same time, a lookup can raise `KeyError`, which is not a `TinkError`. -/
theorem C112_key_error_violated :
    Finished ((Config.of {}).run isInst resetting) 1 (.lookup (url .aead)) (.error .keyError) := rfl

/-- Violation of `C17_wrapper_type_stays` with threads: both registrations of wrappers of different types succeed, and the wrapper that was
registered first is replaced by one of another type. -/
theorem C112_wrapper_replaced_violated :
    let cfg1 := (Config.of {}).run isInst wrapperRace
    let cfg2 := cfg1.run isInst wrapperRace_end
    NeverReset (wrapperRace ++ wrapperRace_end) ∧
    Finished cfg1 0 (.registerPrimitiveWrapper wrapper1) (.ok .unit) ∧ WrapperRegistered cfg1 .aead wrapper1 ∧
    Finished cfg2 1 (.registerPrimitiveWrapper wrapper2) (.ok .unit) ∧ WrapperRegistered cfg2 .aead wrapper2 ∧
    wrapper2.pyType ≠ wrapper1.pyType :=
  ⟨by simp [NeverReset, wrapperRace, wrapperRace_end, steps], rfl, rfl, rfl, rfl, by decide⟩

namespace RegistryThreadsExample
open Spec Threads Toy
open Toy hiding registry

/-- Two threads set up AEAD at the same time, a third looks up the manager and the wrapper meanwhile. -/
def setup : List (Event Prim Cls) :=
  .start (.registerKeyManager first true) :: .start (.registerKeyManager first true) ::
    .start (.registerPrimitiveWrapper wrapper1) :: .start (.registerPrimitiveWrapper wrapper1) ::
    .start (.lookup (url .aead)) :: .start (.wrapperFor Cls.aead) ::
    (steps 0 2 ++ steps 2 3 ++ steps 1 1 ++ steps 4 1 ++ steps 0 1 ++ steps 5 1 ++ steps 2 1 ++ steps 3 4 ++ steps 4 3
      ++ steps 1 3 ++ steps 5 3 ++ steps 3 2)

/-- `C112_lookup`, `C112_wrapper`, `C112_agreeing` and `C112_agreeing_wrappers`. -/
example : Finished ((Config.of {}).run isInst setup) 4 (.lookup (url .aead)) (.ok (.manager first true)) := rfl
example : Finished ((Config.of {}).run isInst setup) 5 (.wrapperFor Cls.aead) (.ok (.wrapper wrapper1)) := rfl
example : Finished ((Config.of {}).run isInst setup) 1 (.registerKeyManager first true) (.ok .unit) := rfl
example : Finished ((Config.of {}).run isInst setup) 3 (.registerPrimitiveWrapper wrapper1) (.ok .unit) := rfl
example : NeverReset setup := by simp [NeverReset, setup, steps]
example : ∀ m b, .start (.registerKeyManager m b) ∈ setup → m.keyType = url .aead →
    m.pyType = 1 ∧ m.primitiveClass = .aead ∧ b = true ∧ m.doesSupport (url .aead) = true := by
  intro m b h _
  simp only [setup, steps, List.mem_cons, List.mem_append, List.mem_replicate, Event.start.injEq, reduceCtorEq,
    and_false, or_false, Call.registerKeyManager.injEq, or_self] at h
  obtain ⟨rfl, rfl⟩ := h
  exact ⟨rfl, rfl, rfl, by simp [manager]⟩
example : ∀ w, .start (.registerPrimitiveWrapper w) ∈ setup → w.primitiveClass = Cls.aead →
    w.pyType = 10 ∧ WrapsNothing isInst w := by
  intro w h _
  simp only [setup, steps, List.mem_cons, List.mem_append, List.mem_replicate, Event.start.injEq, reduceCtorEq,
    and_false, or_false, Call.registerPrimitiveWrapper.injEq, or_self, false_or] at h
  subst h
  exact ⟨rfl, _, rfl, rfl⟩

/-- `C112_lookup` and `C112_wrapper` where the registry is reset between other calls. -/
example : Finished ((Config.of Toy.registry).run isInst (.start (.lookup (url .mac)) :: (steps 0 1 ++
    .start .reset :: (steps 0 1 ++ .start (.registerKeyManager (manager .mac) false) :: (steps 1 1 ++ steps 2 3 ++
      steps 0 2))))) 0 (.lookup (url .mac)) (.ok (.manager (manager .mac) false)) := rfl

/-- `C112_stays_registered`, also while a thread is about to replace the manager. -/
example : NeverReset (race ++ (.start (.lookup (url .aead)) :: (steps 2 3 ++ steps 1 1 ++ steps 2 1))) := by
  simp [NeverReset, race, steps]
example :
    let cfg1 := (Config.of {}).run isInst race
    Finished cfg1 0 (.registerKeyManager first true) (.ok .unit) ∧
    Finished (cfg1.run isInst (.start (.lookup (url .aead)) :: (steps 2 3 ++ steps 1 1 ++ steps 2 1))) 2
      (.lookup (url .aead)) (.ok (.manager other true)) := ⟨rfl, rfl⟩
/-- `C112_wrapper_stays_registered`. -/
example : NeverReset (wrapperRace ++ (.start (.wrapperFor Cls.aead) :: (steps 2 3 ++ steps 1 2 ++ steps 2 1))) := by
  simp [NeverReset, wrapperRace, steps]
example :
    let cfg1 := (Config.of {}).run isInst wrapperRace
    Finished cfg1 0 (.registerPrimitiveWrapper wrapper1) (.ok .unit) ∧
    Finished (cfg1.run isInst (.start (.wrapperFor Cls.aead) :: (steps 2 3 ++ steps 1 2 ++ steps 2 1))) 2
      (.wrapperFor Cls.aead) (.ok (.wrapper wrapper2)) := ⟨rfl, rfl⟩

/-- `C112_settled`: new keys are forbidden while nobody else registers; two threads that try to register later fail. -/
def settled : List (Event Prim Cls) :=
  .start (.registerKeyManager first true) :: .start (.lookup (url .aead)) :: (steps 0 3 ++
    .start (.registerKeyManager first false) :: (steps 2 4 ++ steps 1 1))
def settled_end : List (Event Prim Cls) :=
  .start (.registerKeyManager first true) :: .start (.registerKeyManager other false) ::
    (steps 3 2 ++ steps 4 2 ++ steps 1 3 ++ steps 3 2 ++ steps 4 2)

example : NeverReset (settled ++ settled_end) := by simp [NeverReset, settled, settled_end, steps]
example : ManagerRegistered ((Config.of {}).run isInst settled) (url .aead) first false := rfl
example : ∀ c, RegistersFor (url .aead) c → ¬ UnderWay ((Config.of {}).run isInst settled) c := by
  rintro c hc ⟨i, a, hi, ha⟩
  match i with
  | 0 => cases hi; exact ha _ rfl
  | 1 => cases hi; exact hc
  | 2 => cases hi; exact ha _ rfl
  | i + 3 => cases hi
example :
    let cfg := ((Config.of {}).run isInst settled).run isInst settled_end
    Finished cfg 3 (.registerKeyManager first true) (.error .tinkError) ∧
    Finished cfg 4 (.registerKeyManager other false) (.error .tinkError) ∧
    Finished cfg 1 (.lookup (url .aead)) (.ok (.manager first false)) := ⟨rfl, rfl, rfl⟩

/-- `C112_failed` for call 3 there, and `C112_lookups` for call 1. -/
example : Finished ((Config.of {}).run isInst (settled ++ settled_end)) 3 (.registerKeyManager first true)
    (.error .tinkError) := rfl
example : Finished ((Config.of {}).run isInst (settled ++ settled_end)) 1 (.lookup (url .aead))
    (.ok (.manager first false)) := rfl

end RegistryThreadsExample
end Tink.Props
