#!/usr/bin/env python3
"""Port the project's own tests (/repo/tests) to Lean: writes lean/Verif/Tests/*.lean.

Each test function becomes one `#guard` that runs the model on the literals of the test and checks what the
test asserts.  The shapes of the assertions are written out here by hand, the literals are copied."""
import json, re, sys
R = '/repo/tests/'
OUT = '/verif/lean/Verif/Tests/'
LIT = re.compile(r'concat!\((?:\s*"(?:[^"\\]|\\.)*",?)+\s*\)|r#"(?:.*?)"#|include_(?:str|bytes)!\(\s*"[^"]*"\s*\)|"(?:[^"\\]|\\.)*"', re.S)
def unescape(s):
    s = re.sub(r'\\\n\s*', '', s)
    return s.replace('\\"', '"').replace('\\n', '\n').replace('\\\\', '\\')
def value(l):
    if l.startswith('concat!'):
        return ''.join(unescape(x) for x in re.findall(r'"((?:[^"\\]|\\.)*)"', l))
    if l.startswith('r#"'): return l[3:-2]
    if l.startswith('include_'): return open(R + re.search(r'"([^"]*)"', l).group(1)).read()
    return unescape(l[1:-1])
def lits(body): return [value(m.group(0)) for m in LIT.finditer(body)]
def functions(f):
    t = open(R + f).read()
    t = re.sub(r'^\s*//.*$', '', t, flags=re.M)
    return {m.group(1): m.group(2) for m in re.finditer(r'#\[test\]\s*(?:#\[cfg\([^\n]*\)\]\s*)?(?:pub )?fn (\w+)\(\) \{\n(.*?)\n\}', t, re.S)}
def consts(f):
    t = open(R + f).read()
    return {m.group(1): lits(m.group(2))[0] for m in re.finditer(r'const (\w+): &str =\s*(.*?);', t, re.S)}
def array(f, name):
    t = open(R + f).read()
    return [int(x, 0) for x in re.search(r'const %s: \[u8; \d+\] = \[(.*?)\]' % name, t, re.S).group(1).replace('\n', ' ').split(',') if x.strip()]
def q(s): return '"' + s.replace('\\', '\\\\').replace('"', '\\"').replace('\n', '\\n').replace('\r', '\\r') + '"'
def ch(s): return q(s) + '.toList'
def by(l): return '[' + ', '.join(str(x) for x in l) + ']'
def hexb(s): return by(bytes.fromhex(s))
FP = re.compile(r'fingerprint\(\)\.hash,\s*"([^"]*)"')
count = 0
class Out:
    def __init__(self, name, imports, doc):
        self.name, self.parts = name, [''.join(f'import {i}\n' for i in imports) + f'\n/-! # {doc} -/\n\nnamespace Ssh.Tests\nopen Ssh.Concrete\n']
    def test(self, f, name, body):
        global count
        count += 1
        self.parts.append(f'-- tests/{f}: {name}\n#guard {body}\n')
    def raw(self, s): self.parts.append(s)
    def done(self):
        open(OUT + self.name + '.lean', 'w').write('\n'.join(self.parts) + '\nend Ssh.Tests\n')

SUP = ['Verif.Tests.Support']
# ---------------------------------------------------------------- support
o = Out('Support', ['Verif.Concrete.Crypto', 'Verif.Model.SshSig', 'Verif.Model.ErrorText', 'Verif.Model.Files'], '''The project's tests (/repo/tests), run on the model with real cryptography: what the tests share

Nothing proved depends on these modules.  They check, with the evaluator, that the model does on the project's own
test vectors what the tests say the code does.''')
o.raw('/-- Keys and initialization vectors derived by bcrypt_pbkdf from the passphrases of tests/privkey_encrypted.rs\n(computed by tools/bcrypt_pbkdf.py). -/\ndef table : List ((String × Bytes × UInt32) × (Bytes × Bytes)) := [\n' + ',\n'.join(f'  (({q(a)}, {hexb(b)}, {c}),\n    ({hexb(d[:64])}, {hexb(d[64:])}))' for a, b, c, d in json.load(open('/verif/tools/bcrypt.json'))) + ']\n')
o.raw('''def C : Crypto := realCrypto table
def F : Features := ⟨true, true, .none⟩
def D : FidoDev := ⟨fun _ _ _ _ _ => none, fun _ _ _ _ => .ok none⟩

def isOk {α : Type} : Res α → Bool | .ok _ => true | _ => false
def isErr {α : Type} : Res α → Bool | .err _ => true | _ => false
def holds {α : Type} (r : Res α) (p : α → Bool) : Bool := match r with | .ok a => p a | _ => false
def failsWith {α : Type} (r : Res α) (p : Err → Bool) : Bool := match r with | .err e => p e | _ => false
def fails {α : Type} (r : Res α) (t : String) : Bool := failsWith r fun e => e.text ⟨[], [], [], .pinRequired⟩ == t.toList
def isDuplicate : Err → Bool | .invalidAllowedSigner (.duplicateOptions _) => true | _ => false
def fp (k : PublicKey) (hash : String) : Bool := holds (k.fingerprintWith C .sha256) fun f => f.hash == hash.toList
def shows (k : PublicKey) (text : String) : Bool := holds (k.fingerprintWith C .sha256) fun f => f.display == text.toList
def ecdsaKey (k : PrivateKey) : Option Bytes := match k.kind with | .ecdsa _ key => some key | _ => none
def isEcdsa (k : PrivateKey) : Bool := (ecdsaKey k).isSome
def isRsa (k : PrivateKey) : Bool := match k.kind with | .rsa _ => true | _ => false
def ownKey (s : List Char) : Res PublicKey := do
  let k ← PrivateKey.fromString F C s
  return k.pubkey

/-- Issuing a certificate with a private key given as text. -/
def issue (user : Res PublicKey) (ca : List Char) (f : Certificate → Certificate) : Res Certificate := do
  let user ← user
  let ca ← PrivateKey.fromString F C ca
  let c ← Certificate.builder (some (Vector.replicate 32 7)) (some (Vector.replicate 8 9)) user .user ca.pubkey
  (f c).sign C (ca.sign F C D)

/-- tests/cert-creation.rs `test_ecdsa256_signer`, `test_ecdsa384_signer`: the signer is a function using the secret. -/
def issueWith (curve : EcAlg) (secret : Bytes) (user ca : List Char) (f : Certificate → Certificate) : Res Certificate := do
  let user ← PublicKey.fromString user
  let ca ← PublicKey.fromString ca
  let c ← Certificate.builder (some (Vector.replicate 32 7)) (some (Vector.replicate 8 9)) user .user ca
  (f c).sign C fun buf => match ca.kind with
    | .ecdsa _ point _ => match C.ecdsaSign curve secret point buf with
      | some sig => formatSignatureForSsh ca sig
      | none => .ok none
    | _ => .ok none

def verifies (sig key : List Char) (msg : Bytes) (ns : String) : Res VerifiedSshSignature := do
  let s ← SshSignature.fromArmoredString sig
  let k ← PrivateKey.fromString F C key
  VerifiedSshSignature.fromSshSignature C msg s ns (some k.pubkey)

def signMessage (key : List Char) (msg : Bytes) (ns : String) : Res VerifiedSshSignature := do
  let k ← PrivateKey.fromString F C key
  VerifiedSshSignature.newWithPrivateKey F C D msg ns k none

/-- Signing, printing, reading back and verifying. -/
def signAndVerify (key : List Char) (msg : Bytes) (ns : String) : Res VerifiedSshSignature := do
  let k ← PrivateKey.fromString F C key
  let v ← VerifiedSshSignature.newWithPrivateKey F C D msg ns k none
  let text ← v.signature.display
  let s ← SshSignature.fromArmoredString text
  VerifiedSshSignature.fromSshSignature C msg s ns (some k.pubkey)
''')
o.done()
# ---------------------------------------------------------------- certificates
o = Out('Certs', SUP, 'The tests of reading certificates')
def fpchecks(body, var):
    out = []
    for m in re.finditer(r'%s\.(\w+)\.fingerprint\(\)\.hash,\s*"([^"]*)"' % var, body):
        out.append(f'fp c.{ {"key": "key", "signature_key": "signatureKey"}[m.group(1)] } {q(m.group(2))}')
    return out
for f in ['cert-ed25519.rs', 'cert-ecdsa.rs', 'cert-rsa.rs', 'cert-offensive.rs', 'cert-options.rs', 'cert-sk-ecdsa.rs', 'cert-sk-ed25519.rs', 'cert-conformance.rs']:
    for n, b in functions(f).items():
        L = lits(b)
        s = ch(L[0])
        if 'is_err()' in b:
            if 'Data is improperly signed' in b:
                o.test(f, n, f'fails (Certificate.fromString C {s}) "Data is improperly signed"')
            else:
                o.test(f, n, f'isErr (Certificate.fromString C {s})')
        else:
            assert 'is_ok()' in b
            cs = fpchecks(b, 'cert')
            for m in re.finditer(r'assert_eq!\(cert\.(critical_options|extensions)\.len\(\), (\d+)\)', b):
                cs.append(f'c.{ {"critical_options": "criticalOptions", "extensions": "extensions"}[m.group(1)] }.length == {m.group(2)}')
            for m in re.finditer(r'assert_eq!\(cert\.(critical_options|extensions)\["([^"]*)"\], "([^"]*)"\)', b):
                cs.append(f'mapGet c.{ {"critical_options": "criticalOptions", "extensions": "extensions"}[m.group(1)] } {q(m.group(2))} == some {q(m.group(3))}')
            if 'user_pubkey' in b:
                assert 'format!("{}", cert.key), user_pubkey' in b
                cs.append(f'c.key.display == .ok {ch(L[1])}')
            n_asserts = len(re.findall(r'assert', b))
            assert n_asserts == 1 + len(cs), (f, n, n_asserts, cs)
            o.test(f, n, f'holds (Certificate.fromString C {s}) fun {"c" if cs else "_"} => ' + (' && '.join(cs) or 'true'))
o.done()
# ---------------------------------------------------------------- public and private keys
o = Out('Keys', SUP, 'The tests of reading and writing keys')
for f in ['pubkey.rs', 'sk-pubkey.rs']:
    for n, b in functions(f).items():
        L = lits(b)
        fp = re.search(r'fingerprint\(\)\.hash,\s*"([^"]*)"', b).group(1)
        cs = [f'fp k {q(fp)}']
        src = L[0]
        if 'from_path' in b:
            txt = open('/repo/' + L[0]).read()
            call = f'PublicKey.fromPath (fun p => if p = {q(L[0])} then some (strBytes {q(txt)}) else none) {q(L[0])}'
            src = txt
        else:
            if '.trim()' in b: src = src.strip()
            call = f'PublicKey.fromString {ch(src)}'
        if re.search(r'assert_eq!\(.*out_data\)', b): cs.append(f'k.display == .ok {ch(src)}')
        assert len(re.findall('assert', b)) == 1 + len(cs), (f, n)
        o.test(f, n, f'holds ({call}) fun k => ' + ' && '.join(cs))
for f in ['privkey.rs', 'sk-privkey.rs']:
    for n, b in functions(f).items():
        L = lits(b)
        cs = ['fp k.pubkey ' + q(FP.search(b).group(1))]
        m = re.search(r'PrivateKeyKind::(\w+)\(key\) => key', b)
        if m and m.group(1) in ('Ecdsa', 'Ed25519'):
            h = re.search(r'hex::encode\(&key\.key\),\s*"([0-9a-f]*)"', b).group(1)
            cs.append(f'ecdsaKey k == some {hexb(h)}' if m.group(1) == 'Ecdsa' else f'k.kind == .ed25519 {hexb(h)}')
        if m and m.group(1) == 'Rsa':
            g = {x: y for x, y in re.findall(r'hex::encode\((?:&key\.)?(?:key\.)?(\w+)(?:\.as_ref\(\)\.unwrap\(\))?\),\s*"([0-9a-f]*)"', b)}
            assert set(g) == {'n', 'e', 'd', 'coefficient', 'p', 'q', 'exp', 'exq'}, g
            cs.append('k.kind == .rsa { ' + ', '.join(f'{x} := ' + (f'some {hexb(y)}' if x in ('exp', 'exq') else hexb(y)) for x, y in g.items()) + ' }')
        assert 'privkey.write(&mut buf)' in b
        cs.append(f'k.write == .ok {ch(L[0])}')
        o.test(f, n, f'holds (PrivateKey.fromString F C {ch(L[0])}) fun k => ' + ' && '.join(cs))
f = 'privkey_encrypted.rs'
for n, b in functions(f).items():
    L = lits(b)
    pw = re.search(r'Some\(format!\("(\w+)"\)\)', b).group(1)
    call = f'PrivateKey.fromStringWithPassphrase F C {ch(L[0])} (some {q(pw)})'
    if 'assert!(privkey.is_err())' in b: o.test(f, n, f'isErr ({call})'); continue
    cs = ['fp k.pubkey ' + q(FP.search(b).group(1))]
    m = re.search(r'PrivateKeyKind::(\w+)\(key\) => key', b).group(1)
    h = re.search(r'hex::decode\("([0-9A-F]*)"\)', b)
    cs.append(f'k.kind == .ed25519 {hexb(h.group(1))}' if h else {'Ecdsa': 'isEcdsa', 'Rsa': 'isRsa'}[m] + ' k')
    o.test(f, n, f'holds ({call}) fun k => ' + ' && '.join(cs))
o.done()
# ---------------------------------------------------------------- certificate creation
o = Out('Create', SUP, 'The tests of creating certificates')
def builder(b, prefix):
    chain = re.search(r'Certificate::builder\(.*?\)\s*\.unwrap\(\)(.*?);', b, re.S).group(1)
    e = prefix
    for m in re.finditer(r'\.(\w+)\(((?:[^()]|\([^()]*\))*)\)', chain):
        x, a = m.group(1), m.group(2).strip()
        if x == 'sign': continue
        e += {'serial': lambda: f'.setSerial {a}', 'key_id': lambda: f'.setKeyId {a}', 'principal': lambda: f'.addPrincipal {a}',
              'valid_after': lambda: f'.setValidAfter {a}', 'valid_before': lambda: f'.setValidBefore {a}',
              'set_critical_options': lambda: '.setCriticalOptions []',
              'critical_option': lambda: '.addCriticalOption ' + ' '.join(y.strip() for y in a.split(',')),
              'set_extensions': lambda: '.setExtensions Certificate.standardExtensions',
              'extension': lambda: '.addExtension ' + ' '.join(y.strip() for y in a.split(','))}[x]().replace('.', ' |>.', 1)
    return e
for f in ['cert-creation.rs', 'cert-creation-parse.rs', 'cert-creation-parse-rsa.rs']:
    K = consts(f)
    def key_of(h):
        d = bytes.fromhex(h)
        n = 32 if len(d) < 160 else 48
        i = d.index(b'\x02\x01\x01\x04' + bytes([n])) + 5
        return d[i:i + n]
    for n, b in functions(f).items():
        cs = [x for x in fpchecks(b, 'user_cert')]
        for m in re.finditer(r'assert_eq!\(\s*user_cert\.(\w+)(?:\.(\w+)\(([^)]*)\)(?:\.unwrap\(\))?)?,\s*(.*?)\s*\);', b, re.S):
            fld, meth, arg, val = m.groups()
            lf = {'critical_options': 'criticalOptions', 'extensions': 'extensions', 'principals': 'principals', 'serial': 'serial', 'valid_after': 'validAfter', 'valid_before': 'validBefore', 'key_id': 'keyId', 'signature_key': None, 'key': None}[fld]
            if lf is None: continue
            s = re.search(r'"([^"]*)"', val)
            if meth == 'len': cs.append(f'c.{lf}.length == {val}')
            elif meth == 'get': cs.append(f'mapGet c.{lf} {arg} == some {q(s.group(1))}')
            elif fld == 'principals': cs.append(f'c.principals == [' + ', '.join(re.findall(r'"[^"]*"', val)) + ']')
            elif fld == 'critical_options': assert 'HashMap::new' in val; cs.append('c.criticalOptions == []')
            elif fld == 'key_id': cs.append(f'c.keyId == {q(s.group(1))}')
            else: cs.append(f'c.{lf} == {val}')
        if 'Certificate::from_string(&cert)' in b: cs.append('isOk (Certificate.fromString C c.display)')
        exp = len(re.findall(r'assert_eq!', b)) + ('Certificate::from_string(&cert)' in b)
        assert len(cs) == exp, (f, n, len(cs), exp)
        for k in K: b = re.sub(r'\b%s\b' % k, lambda _: q(K[k]).replace('\\n', '\n'), b)
        L = [x for x in lits(b) if x.startswith('-----BEGIN')]
        P = [x for x in lits(b) if re.match(r'(ssh-|ecdsa-|rsa-)\S* AAAA', x)]
        if 'from_signer' in b or 'static_function' in n or '_signer(&' in b:
            ca = [x for x in P if x != P[0]][0] if len(P) > 1 else P[0]
            curve = '256' if 'ecdsa256_signer' in b else '384'
            secret = key_of(K[f'ECDSA{curve}_CA_PRIVATE_KEY'])
            ca = K[f'ECDSA{curve}_SSH_PUBLIC_KEY']
            body = builder(b, 'built')
            o.test(f, n, f'holds (issueWith .p{curve} {by(secret)} {ch(P[0])} {ch(ca)} fun built => {body}) fun c => ' + ' && '.join(cs))
        else:
            body = builder(b, 'built')
            user = f'(PublicKey.fromString {ch(P[0])})' if P else '(ownKey ' + ch(L[0]) + ')'
            o.test(f, n, f'holds (issue {user} {ch(L[0])} fun built => {body}) fun c => ' + ' && '.join(cs))
o.done()
# ---------------------------------------------------------------- signatures
o = Out('Signatures', SUP, 'The tests of signatures of messages')
for f in ['signature.rs', 'signature-bad.rs', 'signature-creation.rs', 'signature-creation-rsa.rs']:
    for n, b in functions(f).items():
        L = lits(b)
        S = [x for x in L if x.startswith('-----BEGIN SSH SIGNATURE')]
        K = [x for x in L if x.startswith('-----BEGIN OPENSSH')]
        msg = by(open(R + 'messages/Test', 'rb').read())
        if 'from_ssh_signature' in b and 'new_with_private_key' not in b:
            for s, k in zip(S, K):
                e = f'verifies {ch(s)} {ch(k)} {msg} "file"'
                o.test(f, n, f'isErr ({e})' if 'is_err' in b else f'isOk ({e})')
        elif 'new_with_private_key' in b:
            o.test(f, n, f'isOk ({"signAndVerify" if "fl_vss" in b else "signMessage"} {ch(K[0])} {msg} "file")')
        else:
            for s in S:
                e = f'SshSignature.fromArmoredString {ch(s)}'
                o.test(f, n, f'isErr ({e})' if 'is_err' in b else f'isOk ({e})')
o.done()
# ---------------------------------------------------------------- allowed signers
o = Out('AllowedSigners', SUP + ['Verif.Props.Calendar'], 'The tests of allowed signers')
o.raw('/-- The calendar, in a time zone that is UTC. -/\ndef T : Chrono := plainChrono 0\n')
def vec(s): return '[' + ', '.join(x + '.toList' for x in re.findall(r'"[^"]*"', s)) + ']'
def aschecks(b, var):
    cs = []
    for m in re.finditer(r'assert_eq!\(\s*%s\.(.*?)\s*,?\s*\);' % re.escape(var), b, re.S):
        x = m.group(1)
        v = re.match(r'key\.fingerprint\(\)\.to_string\(\),\s*"([^"]*)"', x)
        if v: cs.append(f'shows a.key {q(v.group(1))}'); continue
        v = re.match(r'principals,\s*vec!\[(.*)\]', x, re.S)
        if v: cs.append(f'a.principals == {vec(v.group(1))}'); continue
        v = re.match(r'namespaces,\s*Some\(vec!\[(.*)\]\)', x, re.S)
        if v: cs.append(f'a.namespaces == some {vec(v.group(1))}'); continue
        v = re.match(r'valid_(after|before),\s*Some\((\d+)(?:i64)?\)', x)
        if v: cs.append(f'a.valid{v.group(1).capitalize()} == some {v.group(2)}'); continue
        raise Exception(x)
    for m in re.finditer(r'assert!\((!?)%s\.(\w+?)(\.is_none\(\))?\);' % re.escape(var), b):
        lf = {'cert_authority': 'certAuthority', 'namespaces': 'namespaces', 'valid_after': 'validAfter', 'valid_before': 'validBefore', 'is_ok': None}.get(m.group(2))
        if m.group(3): cs.append(f'a.{lf} == none')
        elif lf: cs.append(f'{"!" if m.group(1) else ""}a.{lf}')
    return cs
f = 'allowed-signer.rs'
for n, b in functions(f).items():
    L = [x for x in lits(b) if 'mitchell@' in x and ' ' in x]
    if 'is_err' in b:
        errs = re.findall(r'AllowedSignerParsingError::(\w+)(\(_\))?', b)
        for i, s in enumerate(L):
            call = f'AllowedSigner.fromString T {ch(s)}'
            if errs:
                e, arg = errs[i]
                e = e[0].lower() + e[1:]
                o.test(f, n, f'failsWith ({call}) fun e => ' + (f'isDuplicate e' if arg else f'e == .invalidAllowedSigner .{e}'))
            else: o.test(f, n, f'isErr ({call})')
    else:
        cs = aschecks(b, 'allowed_signer')
        assert len(cs) == len(re.findall('assert', b)) - 1, (n, cs)
        o.test(f, n, f'holds (AllowedSigner.fromString T {ch(L[0])}) fun a => ' + ' && '.join(cs))
f = 'allowed-signers.rs'
for n, b in functions(f).items():
    path = lits(b)[0]
    txt = open('/repo/' + path).read()
    all_ = []
    for i in range(3):
        cs = aschecks(b, f'allowed_signers[{i}]')
        all_.append('(' + ' && '.join(c.replace('a.', f'(l.getD {i} noSigner).') for c in cs) + ')')
    o.raw('def noSigner : AllowedSigner := ⟨[], false, none, none, none, ⟨⟨"", "", "", false, false, .rsa⟩, .rsa [] [], none⟩⟩\n')
    o.test(f, n, f'holds (allowedSignersFromPath T (fun p => if p = {q(path)} then some (strBytes {q(txt)}) else none) {q(path)}) fun l => l.length == 3 && ' + ' && '.join(all_))
o.done()
# ---------------------------------------------------------------- reader and writer
o = Out('Wire', SUP, 'The tests of the reader and the writer')
f = 'reader.rs'
def arr(s): return by([int(x, 0) for x in s.replace('\n', ' ').split(',') if x.strip()])
for n, b in functions(f).items():
    v = arr(re.search(r'test_vector = \[(.*?)\];', b, re.S).group(1))
    if 'Err(Error::InvalidFormat) => ()' in b: o.test(f, n, f'(Reader.readPositiveMpint (Reader.new {v})).1 == .err .invalidFormat')
    elif 'num.unwrap().len(), 0' in b: o.test(f, n, f'holds (Reader.readPositiveMpint (Reader.new {v})).1 fun x => x.length == 0')
    elif n == 'read_raw_too_many': o.test(f, n, f'isErr (Reader.readRawBytes 40 (Reader.new {v})).1')
    elif n == 'read_raw_wrap':
        # in Rust `2 ^ 64 - 1` is the exclusive or of 2 and 63
        o.test(f, n, f'isOk (Reader.readRawBytes 4 (Reader.new {v})).1 && isErr (Reader.readRawBytes {2 ^ 63} (Reader.readRawBytes 4 (Reader.new {v})).2).1')
    else:
        w = arr(re.search(r'num\.unwrap\(\),\s*vec!\[(.*?)\]', b, re.S).group(1))
        fn = 'Reader.readRawBytes 10' if 'read_raw_bytes(10)' in b else 'Reader.readPositiveMpint'
        o.test(f, n, f'({fn} (Reader.new {v})).1 == .ok {w}')
f = 'writer.rs'
for n, b in functions(f).items():
    v = arr(re.search(r'test_vector = \[(.*?)\];', b, re.S).group(1))
    w = arr(re.search(r'assert_eq!\(result, &vec!\[(.*?)\]', b, re.S).group(1))
    o.test(f, n, f'(Writer.new.writeMpint {v}).inner == {w}')
o.done()
# ---------------------------------------------------------------- attestations
o = Out('Attestation', SUP + ['Verif.Concrete.X509'], 'The tests of attestations')
def root(path, name): return re.search(name + r': &str =\s*"(.*?)"', open(path).read(), re.S).group(1)
o.raw('/-- src/fido/verification.rs `YUBICO_U2F_ROOT_CA`. -/\ndef u2fRoot : String := ' + q(root('/repo/src/fido/verification.rs', 'YUBICO_U2F_ROOT_CA')) + '\n')
o.raw('/-- src/yubikey/verification.rs `YUBICO_PIV_ROOT_CA`. -/\ndef pivRoot : String := ' + q(root('/repo/src/yubikey/verification.rs', 'YUBICO_PIV_ROOT_CA')) + '\n')
f = 'fido-lite.rs'
T = {'USB': '.usb', 'NFC': '.nfc'}
for n, b in functions(f).items():
    p = 'YUBIKEY_BIO' if 'YUBIKEY_BIO' in b else 'YUBIKEY_5C_NFC'
    a = {x: by(array(f, f'{p}_{x}')) for x in ['AUTH_DATA_ED25519', 'AUTH_SIG_ED25519', 'CHALLENGE_ED25519', 'INTERMEDIATE']}
    tr = '[' + ', '.join(T[x] for x in re.findall(r'Transport::(\w+)', b)) + ']'
    hx = re.findall(r'hex::decode\("([0-9a-f]*)"\)', b)
    cs = [f'v.transports == some {tr}', f'v.aaguid == some {hexb(hx[0])}', f'some v.authData.aaguid == v.aaguid', f'v.authData.rpidHash == {hexb(hx[1])}']
    m = re.search(r'firmware, Some\(format!\("([^"]*)"\)\)', b)
    if m: cs.append(f'v.firmware == some {ch(m.group(1))}')
    assert len(cs) == len(re.findall('assert', b)), n
    call = f'verifyAuthData realX509 C u2fRoot {a["AUTH_DATA_ED25519"]} {a["AUTH_SIG_ED25519"]} (C.sha256 {a["CHALLENGE_ED25519"]}) (-7) {a["INTERMEDIATE"]} none'
    o.test(f, n, f'holds ({call}) fun v => ' + ' && '.join(cs))
f = 'yubikey-lite.rs'
for n, b in functions(f).items():
    call = f'verifyCertificateChain realX509 pivRoot {by(array(f, "YUBIKEY_5CI_ATTESTATION"))} {by(array(f, "YUBIKEY_5CI_INTERMEDIATE"))} none'
    g = dict(re.findall(r'attested_key_data\.(\w+), "?([\d.]+)"?\)', b))
    assert len(g) == len(re.findall('assert', b)) == 4
    o.test(f, n, f'holds ({call}) fun v => v.serial == {g["serial"]} && v.firmware == {ch(g["firmware"])} && v.touchPolicy == {g["touch_policy"]} && v.pinPolicy == {g["pin_policy"]}')
o.done()
print(count, 'tests;', sum(len(re.findall(r'#\[test\]', open(R + x).read())) for x in __import__('os').listdir(R) if x.endswith('.rs')), 'test functions in the project')
