#!/usr/bin/env python3
"""Translates the .proto files of /repo into Lean: messages as structures, their wire format in the
vocabulary of Verif/Keyset/Wire.lean, and the proof that parsing inverts serializing.
Writes lean/Verif/Proto/Gen.lean and lean/Verif/Proto/GenLemmas.lean, and the same for GenSignature,
which has the messages that only signature keys need, and GenHybrid, for the keys of hybrid encryption."""
import re, os, sys
SRC = '/repo/python/tink/proto/'
OUT = os.path.join(os.path.dirname(os.path.abspath(__file__)), '../lean/Verif/Proto/')
ROOTS = [
  'KmsAeadKeyFormat', 'KmsAeadKey', 'KmsEnvelopeAeadKeyFormat', 'KmsEnvelopeAeadKey',
  'AesEaxKeyFormat', 'AesGcmKeyFormat', 'AesGcmSivKeyFormat', 'AesCtrHmacAeadKeyFormat',
  'AesSivKeyFormat', 'AesCmacKeyFormat', 'HmacKeyFormat', 'EciesAeadHkdfKeyFormat', 'HpkeKeyFormat',
  'EcdsaKeyFormat', 'RsaSsaPkcs1KeyFormat', 'RsaSsaPssKeyFormat', 'AesCmacPrfKeyFormat',
  'HmacPrfKeyFormat', 'HkdfPrfKeyFormat', 'AesGcmHkdfStreamingKeyFormat', 'AesGcmHkdfStreamingKey',
  'AesCtrHmacStreamingKeyFormat', 'AesCtrHmacStreamingKey', 'JwtHmacKey', 'JwtHmacKeyFormat', 'JwtEcdsaPublicKey', 'JwtEcdsaPrivateKey',
  'JwtEcdsaKeyFormat', 'JwtRsaSsaPkcs1PublicKey', 'JwtRsaSsaPkcs1PrivateKey', 'JwtRsaSsaPkcs1KeyFormat',
  'JwtRsaSsaPssPublicKey', 'JwtRsaSsaPssPrivateKey', 'JwtRsaSsaPssKeyFormat',
  'AesGcmKey', 'AesGcmSivKey', 'AesEaxKey', 'XChaCha20Poly1305KeyFormat', 'XChaCha20Poly1305Key', 'AesCtrHmacAeadKey',
  'AesSivKey', 'AesCmacKey', 'HmacKey', 'AesCmacPrfKey', 'HmacPrfKey', 'HkdfPrfKey']
SIGNATURE_ROOTS = [
  'EcdsaPublicKey', 'EcdsaPrivateKey', 'Ed25519KeyFormat', 'Ed25519PublicKey', 'Ed25519PrivateKey',
  'RsaSsaPkcs1PublicKey', 'RsaSsaPkcs1PrivateKey', 'RsaSsaPssPublicKey', 'RsaSsaPssPrivateKey']
HYBRID_ROOTS = ['EciesAeadHkdfPublicKey', 'EciesAeadHkdfPrivateKey', 'HpkePublicKey', 'HpkePrivateKey']
KNOWN = {'KeyTemplate'}           # modelled by hand in Core/Proto.lean
msgs, enums = {}, {}              # qualified name -> (file, first line, last line, fields/values)

def camel(s):
    p = s.split('_')
    return p[0] + ''.join(x.capitalize() for x in p[1:])

def parse(f):
    stack = []
    for ln, line in enumerate(open(SRC + f), 1):
        line = re.sub(r'//.*', '', line).strip()
        m = re.match(r'(message|enum)\s+(\w+)\s*\{(\s*\})?', line)
        if m:
            q = '.'.join([n for k, n in stack if k == 'message'] + [m.group(2)])
            (msgs if m.group(1) == 'message' else enums)[q] = [f, ln, ln, []]
            if not m.group(3): stack.append((m.group(1), m.group(2)))
            continue
        if line.startswith('}'):
            if stack:
                k, n = stack[-1]
                q = '.'.join([n for kk, n in stack[:-1] if kk == 'message'] + [n])
                (msgs if k == 'message' else enums)[q][2] = ln
                stack.pop()
            continue
        if not stack: continue
        k, n = stack[-1]
        q = '.'.join([n for kk, n in stack[:-1] if kk == 'message'] + [n])
        if k == 'message':
            m = re.match(r'(repeated\s+)?([\w.]+)\s+(\w+)\s*=\s*(\d+)\s*(\[.*\])?;', line)
            if m:
                assert not m.group(1) or f == 'tink.proto' or f == 'config.proto', (f, line)
                msgs[q][3].append((m.group(2), m.group(3), int(m.group(4))))
        else:
            m = re.match(r'(\w+)\s*=\s*(\d+)\s*;', line)
            if m: enums[q][3].append((m.group(1), int(m.group(2))))

for f in sorted(os.listdir(SRC)):
    if f.endswith('.proto'): parse(f)

def resolve(q, t):
    t = t.split('google.crypto.tink.')[-1]
    scope = q.split('.')
    for i in range(len(scope), -1, -1):
        c = '.'.join(scope[:i] + [t])
        if c in msgs: return 'msg', c
        if c in enums: return 'enum', c
    raise Exception((q, t))

PRIM = {'uint32': ('UInt32', '0', 'uint32'), 'string': ('PStr', '[]', 'str'), 'bytes': ('Bytes', '[]', 'bytes'),
        'int32': ('EnumVal', '0', 'enum')}   # the 32-bit pattern; same wire format as an enum
order, used_enums = [], []
def visit(q):
    if q in order or q in KNOWN: return
    for t, n, k in msgs[q][3]:
        if t in PRIM: continue
        kind, r = resolve(q, t)
        if kind == 'msg': visit(r)
        elif r not in used_enums: used_enums.append(r)
    order.append(q)
HEAD = '''import %s

/-!
# %s

Generated by `/verif/tools/protogen.py` from the `.proto` files in `/repo/python/tink/proto`; each
definition cites the lines it comes from.  The conventions are those of `Keyset/Wire.lean`.
-/

namespace Tink
'''
LEMMA_HEAD = '''import Verif.Proto.%s
import %s

/-!
# Parsing inverts serializing, for the messages of `Proto/%s.lean`

Generated by `/verif/tools/protogen.py`.
-/

namespace Tink
'''
MSG_FIELD = '''theorem foldlM_msgField {β γ : Type} (f : β → Field → Option β) (b : β) (n : Nat) (o : Option γ)
    (flds : γ → List Field) (mrg : Bytes → Option γ) (g : Option γ → β)
    (h : ∀ y, f b ⟨n, .len y⟩ = (mrg y).map fun x => g (some x)) (h0 : g none = b)
    (hm : ∀ x, o = some x → mrg (encodeFields (flds x)) = some x) :
    (msgField n (o.map flds)).foldlM f b = some (g o) := by
  cases o with
  | none => simp [msgField, h0]
  | some x => simp [msgField, h, hm x rfl]
'''

def generate(name, title, roots, imp, lemma_imp, extra):
    first, first_enum = len(order), len(used_enums)
    for r in roots: visit(r)
    o, l = [HEAD % (imp, title)], [LEMMA_HEAD % (name, lemma_imp, name)]
    if extra: l.append(extra)
    for e in used_enums[first_enum:]:
        f, a, b, vs = enums[e]
        o.append(f'/-! `enum {e}`, `{f}:{a}-{b}`. -/\nnamespace {e}')
        for n, v in vs: o.append(f'def {n} : EnumVal := {v}')
        o.append(f'end {e}\n')
    for q in order[first:]:
        f, a, b, fs = msgs[q]
        fs = sorted(fs, key=lambda x: x[2])
        o.append(f'/-- `message {q}`, `{f}:{a}-{b}`. -/\nstructure {q} where')
        info = []
        for t, n, k in fs:
            if t in PRIM: ty, d, kind = PRIM[t]; sub = None
            else:
                kd, r = resolve(q, t)
                if kd == 'enum': ty, d, kind, sub = 'EnumVal', '0', 'enum', None
                else: ty, d, kind, sub = f'Option {r}', 'none', 'msg', r
            info.append((camel(n), ty, d, kind, sub, k))
            o.append(f'  {camel(n)} : {ty} := {d}')
        o.append('  deriving DecidableEq, Repr, Inhabited\n')
        for n, ty, d, kind, sub, k in info:
            if kind == 'msg':
                o.append(f'/-- Reading `{n}` when it is absent yields the default message. -/\ndef {q}.get{n[0].upper()+n[1:]} (m : {q}) : {sub} := m.{n}.getD {{}}\n')
        parts = []
        for n, ty, d, kind, sub, k in info:
            parts.append(f'msgField {k} (m.{n}.map {sub}.fields)' if kind == 'msg' else f'{kind}Field {k} m.{n}')
        o.append(f'/-- Fields of `{q}` in wire order. -/\ndef {q}.fields ({"m" if info else "_"} : {q}) : List Field :=\n  ' + (' ++\n  '.join(parts) or '[]') + '\n')
        o.append(f'/-- Merging one field into a `{q}`. -/\ndef {q}.mergeField (m : {q}) (f : Field) : Option {q} :=\n  match f.num, f.val with' if info else f'/-- Merging one field into a `{q}`. -/\ndef {q}.mergeField (m : {q}) (_ : Field) : Option {q} := some m')
        for n, ty, d, kind, sub, k in info:
            if kind == 'msg': o.append(f'  | {k}, .len b => ({sub}.merge m.get{n[0].upper()+n[1:]} b).map fun x => {{ m with {n} := some x }}')
            elif kind == 'str': o.append(f'  | {k}, .len b => (pstrDecode? b).map fun x => {{ m with {n} := x }}')
            elif kind == 'bytes': o.append(f'  | {k}, .len b => some {{ m with {n} := b }}')
            else: o.append(f'  | {k}, .varint v => some {{ m with {n} := UInt32.ofNat v }}')
        if info: o.append('  | _, _ => some m\n')
        else: o.append('')
        o.append(f'''/-- Merging serialized bytes into a `{q}`. -/
def {q}.merge (m : {q}) (b : Bytes) : Option {q} :=
  match parseFields b with
  | none => none
  | some fs => fs.foldlM {q}.mergeField m

def {q}.serializeToString (m : {q}) : Py Bytes := serializeFields m.fields
def {q}.fromString (b : Bytes) : Py {q} := ofMerge ({q}.merge {{}} b)
''')
        # lemmas
        if not info:
            l.append(f'theorem {q}.shape (m : {q}) : ∀ f ∈ m.fields, f.Shape := by simp [{q}.fields]\n')
            l.append(f'''theorem {q}.merge_fields (m : {q}) (_ : (encodeFields m.fields).length < 2147483648) :
    {q}.merge {{}} (encodeFields m.fields) = some m := by cases m; rfl
''')
        else:
            sh = ''
            for i, (n, ty, d, kind, sub, k) in enumerate(info):
                t = f'shape_{kind}Field _ (by decide)'
                sh = t if i == 0 else f'shape_append ({sh}) ({t})'
            l.append(f'theorem {q}.shape (m : {q}) : ∀ f ∈ m.fields, f.Shape :=\n  {sh}\n')
            l.append(f'''theorem {q}.merge_fields (m : {q}) (h : (encodeFields m.fields).length < 2147483648) :
    {q}.merge {{}} (encodeFields m.fields) = some m := by
  rw [{q}.merge, parseFields_encode _ (wf_of_shape m.shape (by omega))]
  simp only [{q}.fields, foldlM_append']''')
            for i, (n, ty, d, kind, sub, k) in enumerate(info):
                rec = ''.join(f'{x[0]} := m.{x[0]}, ' for x in info[:i])
                g = f'fun s => {{ {rec}{n} := s }}'
                b = '{}' if i == 0 else '_'
                if kind == 'msg':
                    call = f'''foldlM_msgField {q}.mergeField {b} {k} m.{n} {sub}.fields ({sub}.merge {{}}) ({g})
      (fun _ => rfl) rfl (fun x hx => {sub}.merge_fields x (by
        refine Nat.lt_of_le_of_lt (len_le_encodeFields (num := {k}) ?_) h
        simp [{q}.fields, hx, msgField]))'''
                else:
                    call = f'foldlM_{kind}Field {q}.mergeField {b} {k} m.{n} ({g})\n      (fun _ => rfl) rfl'
                if i < len(info) - 1: l.append(f'  rw [{call}, Option.bind_some]')
                else: l.append(f'  exact {call}\n')
        l.append(f'''theorem {q}.fromString_serializeToString {{m : {q}}} {{b : Bytes}}
    (h : m.serializeToString = .ok b) : {q}.fromString b = .ok m := by
  obtain ⟨h2, h1⟩ := serializeFields_ok h
  subst h2
  unfold {q}.fromString
  rw [{q}.merge_fields m h1]
  rfl
''')
    o.append('end Tink'); l.append('end Tink')
    open(OUT + name + '.lean', 'w').write('\n'.join(o) + '\n')
    open(OUT + name + 'Lemmas.lean', 'w').write('\n'.join(l) + '\n')
    print(len(order) - first, 'messages', len(used_enums) - first_enum, 'enums')

generate('Gen', 'Key format and key messages', ROOTS, 'Verif.Keyset.Wire', 'Verif.Keyset.WireLemmas', MSG_FIELD)
generate('GenSignature', 'Messages for signature keys', SIGNATURE_ROOTS, 'Verif.Proto.Gen', 'Verif.Proto.GenLemmas', None)
generate('GenHybrid', 'Messages for the keys of hybrid encryption', HYBRID_ROOTS, 'Verif.Proto.Gen', 'Verif.Proto.GenLemmas', None)
