import Verif.Heap.Keyset
import Verif.Spec.Same

/-!
# Vocabulary for the messages of handles
-/

namespace Tink
namespace Spec
open Heap.Keysets

/-- The keyset of the `i`-th handle at the moment. -/
def HandleIs (w : World) (i : Nat) (ks : Keyset) : Prop :=
  ∃ x, w.handles[i]? = some x ∧ w.store[x]? = some ks

/-- A step that makes a handle of a message that the program has. -/
def Adopts : Op → Prop
  | .fromKeyset _ => True
  | .fromProtoKeyset _ _ => True
  | .cleartextRead (.shared _) => True
  | .readNoSecret (.shared _) => True
  | _ => False

/-- A step in which the program gets hold of the message of the `i`-th handle: with secret access, or as what
a writer or a key manager of the program is given. -/
def HandsOut (i : Nat) : Op → Prop
  | .toProtoKeyset j .secretKeyAccess => j = i
  | .write j true => j = i
  | .writeNoSecret j true => j = i
  | .primitive j true => j = i
  | .publicKeysetHandle j true => j = i
  | _ => False

/-- What a function returns: a handle of a keyset, in both models. -/
def HandleOf (r : Nat × Store) (h : KeysetHandle) : Prop := r.2[r.1]? = some h.keyset

end Spec
end Tink
