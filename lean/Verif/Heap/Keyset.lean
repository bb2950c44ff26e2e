import Verif.Keyset.Builder

/-!
# Keyset handles and builders, with messages as objects

`Keyset/Handle.lean`, `Keyset/Formats.lean` and `Keyset/Builder.lean` again, with `Keyset` messages as objects
at addresses: a handle and a builder keep the address of a message.  Only the functions that make or pass on
such objects are here; the others (`keyset_info`, `write` with encryption, the serializing functions) look at
the message and return bytes or new messages.

A call that raises leaves no object behind that anybody could see; such objects are left out.
-/

namespace Tink
namespace Heap
namespace Keysets

/-- All `Keyset` messages; an address is the position in the list. -/
abbrev Store := List Keyset

/-- A function that makes a message and keeps its address: the message is at a new address. -/
def place (s : Store) : Py Keyset → Py (Nat × Store)
  | .error e => .error e
  | .ok ks => .ok (s.length, s ++ [ks])

/-- `_create` and `__init__` (python/tink/_keyset_handle.py 56-58, 129-133): the handle keeps the message that
it is given. -/
def create (s : Store) (l : Nat) : Py (Nat × Store) :=
  match s[l]? with
  | none => .error .attributeError
  | some ks =>
    match KeysetHandle.create ks with
    | .error e => .error e
    | .ok _ => .ok (l, s)

/-- A message that a reader returns: a new one, as the library's readers do
(python/tink/_keyset_reader.py 49-53, 71-77), or one that the program has. -/
inductive Source where
  | fresh (r : Py Keyset)
  | shared (l : Nat)

/-- Calls `read` of the reader. -/
def Source.read (s : Store) : Source → Py (Nat × Store)
  | .fresh r => place s r
  | .shared l => .ok (l, s)

/-- `cleartext_keyset_handle.from_keyset` (python/tink/cleartext_keyset_handle.py 27-29). -/
def fromKeyset (s : Store) (l : Nat) : Py (Nat × Store) := create s l

/-- `from_proto_keyset` (python/tink/_insecure_keyset_handle.py 22-27). -/
def fromProtoKeyset (s : Store) (l : Nat) (token : Token) : Py (Nat × Store) :=
  if !hasSecretKeyAccess token then .error .tinkError else create s l

/-- `to_proto_keyset` (python/tink/_insecure_keyset_handle.py 30-35): the message of the handle. -/
def toProtoKeyset (x : Nat) (token : Token) : Py Nat :=
  if !hasSecretKeyAccess token then .error .tinkError else .ok x

/-- `cleartext_keyset_handle.read` (python/tink/cleartext_keyset_handle.py 32-35). -/
def cleartextRead (s : Store) (src : Source) : Py (Nat × Store) := do
  let r ← src.read s
  create r.2 r.1

/-- `read_no_secret` (python/tink/_keyset_handle.py 112-127). -/
def readNoSecret (s : Store) (src : Source) : Py (Nat × Store) := do
  let r ← src.read s
  match r.2[r.1]? with
  | none => .error .attributeError
  | some ks =>
    assertNoSecretKeyMaterial ks
    create r.2 r.1

/-- `read_with_associated_data` (python/tink/_keyset_handle.py 102-110): `_decrypt` makes a message
(python/tink/_keyset_handle.py 258-270). -/
def readEncrypted (s : Store) (reader : KeysetReader) (aead : Aead) (ad : Bytes) : Py (Nat × Store) := do
  let encrypted ← reader.readEncrypted
  assertEnoughEncryptedKeyMaterial encrypted
  let r ← place s (decryptKeyset encrypted aead ad)
  create r.2 r.1

/-- `parse` (python/tink/_proto_keyset_format.py 26-31); `json_proto_keyset_format.parse` is the same with a
`JsonKeysetReader`. -/
def parse (s : Store) (serialized : Bytes) (token : Token) : Py (Nat × Store) := do
  let r ← place s (binaryKeysetReader serialized).read
  fromProtoKeyset r.2 r.1 token

section
variable {P C : Type}

/-- `generate_new` (python/tink/_keyset_handle.py 73-94): a new message. -/
def generateNew (s : Store) (r : Registry P C) (seed : Seed) (draws : List UInt32) (template : KeyTemplate) :
    Option (Py (Nat × Store)) :=
  match r.newKeyData seed template with
  | .error e => some (.error e)
  | .ok keyData =>
    match generateUnusedKeyId draws {} with
    | none => none
    | some keyId =>
      let key : Key :=
        { keyData := some keyData, status := KeyStatusType.ENABLED, keyId := keyId,
          outputPrefixType := template.outputPrefixType }
      some (create (s ++ [{ primaryKeyId := keyId, key := [key] }]) s.length)

/-- `public_keyset_handle` (python/tink/_keyset_handle.py 168-177): a new message. -/
def publicKeysetHandle (s : Store) (r : Registry P C) (x : Nat) : Py (Nat × Store) :=
  match s[x]? with
  | none => .error .attributeError
  | some ks =>
    match KeysetHandle.publicKeysetHandle r ⟨ks⟩ with
    | .error e => .error e
    | .ok h => create (s ++ [h.keyset]) s.length

/-- A method of a builder that changes its message
(python/tink/testing/keyset_builder.py 71-111). -/
inductive Edit where
  | addNewKey (seed : Seed) (draws : List UInt32) (template : KeyTemplate)
  | setPrimaryKey (keyId : UInt32)
  | enableKey (keyId : UInt32)
  | disableKey (keyId : UInt32)
  | deleteKey (keyId : UInt32)

/-- The message afterwards. -/
def Edit.result (r : Registry P C) (ks : Keyset) : Edit → Keyset
  | .addNewKey seed draws template =>
    match KeysetBuilder.addNewKey r seed draws template ks with
    | some x => x.1
    | none => ks
  | .setPrimaryKey id => (KeysetBuilder.setPrimaryKey id ks).1
  | .enableKey id => (KeysetBuilder.enableKey id ks).1
  | .disableKey id => (KeysetBuilder.disableKey id ks).1
  | .deleteKey id => (KeysetBuilder.deleteKey id ks).1

/-- The builder changes its message. -/
def edit (s : Store) (r : Registry P C) (b : Nat) (e : Edit) : Store :=
  match s[b]? with
  | none => s
  | some ks => s.set b (e.result r ks)

/-- `keyset_handle` (python/tink/testing/keyset_builder.py 59-62): the message is serialized, and parsed to a
new one. -/
def builderHandle (s : Store) (b : Nat) : Py (Nat × Store) :=
  match s[b]? with
  | none => .error .attributeError
  | some ks =>
    match ks.serializeToString with
    | .error e => .error e
    | .ok bytes => parse s bytes .secretKeyAccess

/-- `from_keyset_handle` (python/tink/testing/keyset_builder.py 114-125): the message of the handle is
serialized, and parsed to a new one. -/
def builderFromHandle (s : Store) (x : Nat) : Py (Nat × Store) :=
  match s[x]? with
  | none => .error .attributeError
  | some ks => place s (KeysetBuilder.fromKeysetHandle ⟨ks⟩)

/-! ## A program that uses handles -/

/-- The messages; those that the program has got hold of; the message of each handle, and of each builder. -/
structure World where
  store : Store := []
  known : List Nat := []
  handles : List Nat := []
  builders : List Nat := []

/-- What a program can do. -/
inductive Op where
  /-- The program makes a `Keyset` message. -/
  | new (ks : Keyset)
  /-- The program changes a message in any way. -/
  | set (l : Nat) (ks : Keyset)
  | generateNew (seed : Seed) (draws : List UInt32) (template : KeyTemplate)
  | fromKeyset (l : Nat)
  | fromProtoKeyset (l : Nat) (token : Token)
  | cleartextRead (src : Source)
  | readNoSecret (src : Source)
  | readEncrypted (reader : KeysetReader) (aead : Aead) (ad : Bytes)
  | parse (serialized : Bytes) (token : Token)
  | toProtoKeyset (i : Nat) (token : Token)
  /-- `cleartext_keyset_handle.write`; a writer of the program can keep the message that it is given. -/
  | write (i : Nat) (keeps : Bool)
  /-- `write_no_secret`, likewise. -/
  | writeNoSecret (i : Nat) (keeps : Bool)
  /-- `primitive`; a key manager of the program is given parts of the message
  (python/tink/_keyset_handle.py 201), and can keep them. -/
  | primitive (i : Nat) (keeps : Bool)
  /-- `public_keyset_handle`, likewise (python/tink/_keyset_handle.py 174). -/
  | publicKeysetHandle (i : Nat) (keeps : Bool)
  /-- `new_keyset_builder` (python/tink/testing/keyset_builder.py 128-129). -/
  | newBuilder
  /-- `KeysetBuilder(message)` (python/tink/testing/keyset_builder.py 56-57). -/
  | builder (l : Nat)
  /-- `from_keyset` (python/tink/testing/keyset_builder.py 114-117). -/
  | builderFromKeyset (serialized : Bytes)
  | builderFromHandle (i : Nat)
  | edit (b : Nat) (e : Edit)
  | builderHandle (b : Nat)

/-- A handle is made. -/
def World.make (w : World) : Py (Nat × Store) → World
  | .error _ => w
  | .ok (x, s) => { w with store := s, handles := w.handles ++ [x] }

/-- A builder is made. -/
def World.build (w : World) : Py (Nat × Store) → World
  | .error _ => w
  | .ok (x, s) => { w with store := s, builders := w.builders ++ [x] }

/-- The program gets hold of the message of a handle. -/
def World.expose (w : World) (i : Nat) (keeps : Bool) : World :=
  match w.handles[i]? with
  | none => w
  | some x => if keeps then { w with known := x :: w.known } else w

/-- Is this a reader that the program can have. -/
def Source.Ok (w : World) : Source → Prop
  | .fresh _ => True
  | .shared l => l ∈ w.known

instance (w : World) : (src : Source) → Decidable (src.Ok w)
  | .fresh _ => inferInstanceAs (Decidable True)
  | .shared l => inferInstanceAs (Decidable (l ∈ w.known))

/-- One step of a program.  A program cannot make up addresses. -/
def step (r : Registry P C) (w : World) : Op → World
  | .new ks => { w with store := w.store ++ [ks], known := w.store.length :: w.known }
  | .set l ks => if l ∈ w.known then { w with store := w.store.set l ks } else w
  | .generateNew seed draws template =>
    match generateNew w.store r seed draws template with
    | none => w
    | some x => w.make x
  | .fromKeyset l => if l ∈ w.known then w.make (fromKeyset w.store l) else w
  | .fromProtoKeyset l token => if l ∈ w.known then w.make (fromProtoKeyset w.store l token) else w
  | .cleartextRead src => if src.Ok w then w.make (cleartextRead w.store src) else w
  | .readNoSecret src => if src.Ok w then w.make (readNoSecret w.store src) else w
  | .readEncrypted reader aead ad => w.make (readEncrypted w.store reader aead ad)
  | .parse serialized token => w.make (parse w.store serialized token)
  | .toProtoKeyset i token =>
    match w.handles[i]? with
    | none => w
    | some x =>
      match toProtoKeyset x token with
      | .error _ => w
      | .ok x => { w with known := x :: w.known }
  | .write i keeps => w.expose i keeps
  | .writeNoSecret i keeps => w.expose i keeps
  | .primitive i keeps => w.expose i keeps
  | .publicKeysetHandle i keeps =>
    match (w.expose i keeps).handles[i]? with
    | none => w
    | some x => (w.expose i keeps).make (publicKeysetHandle w.store r x)
  | .newBuilder => w.build (place w.store (.ok {}))
  | .builder l => if l ∈ w.known then w.build (.ok (l, w.store)) else w
  | .builderFromKeyset serialized => w.build (place w.store (KeysetBuilder.fromKeyset serialized))
  | .builderFromHandle i =>
    match w.handles[i]? with
    | none => w
    | some x => w.build (builderFromHandle w.store x)
  | .edit b e =>
    match w.builders[b]? with
    | none => w
    | some x => { w with store := edit w.store r x e }
  | .builderHandle b =>
    match w.builders[b]? with
    | none => w
    | some x => w.make (builderHandle w.store x)

/-- A run of a program. -/
def run (r : Registry P C) (w : World) (ops : List Op) : World := ops.foldl (step r) w

end

end Keysets
end Heap
end Tink
