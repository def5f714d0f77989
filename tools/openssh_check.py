"""Runs the Lean model on keys, certificates and encrypted key files made by ssh-keygen.

Usage: python3 tools/openssh_check.py [workdir]; needs ssh-keygen, openssl and a built lean/ directory.
The model's cryptographic parameters are given as tables computed here (bcrypt_pbkdf and ChaCha20/Poly1305 in plain
Python, AES with openssl).  Every line printed by Lean should be `true`.
"""
import base64, hashlib, os, re, struct, subprocess, sys
W = sys.argv[1] if len(sys.argv) > 1 else '/tmp/openssh_check'
HERE = os.path.dirname(os.path.abspath(__file__))
os.makedirs(W, exist_ok=True)

def run(*a, **k):
    return subprocess.run(a, check=True, capture_output=True, **k).stdout

# ---- bcrypt_pbkdf -------------------------------------------------------------------------------------------------
def pi_words(n):
    bits = 32 * n + 64
    one = 1 << bits
    def arctan_inv(x):
        s = t = one // x; k = 1; sgn = -1
        while t:
            t //= x * x; k += 2
            s += sgn * (t // k); sgn = -sgn
        return s
    frac = 4 * (4 * arctan_inv(5) - arctan_inv(239)) - 3 * one
    return [(frac >> (bits - 32 * (i + 1))) & 0xffffffff for i in range(n)]
PI = pi_words(18 + 1024)
assert PI[0] == 0x243f6a88 and PI[-1] == 0x3ac372e6

class Blowfish:
    def __init__(self):
        self.P = PI[:18]; self.S = [PI[18 + 256 * i: 18 + 256 * (i + 1)] for i in range(4)]
    def enc(self, l, r):
        P = self.P; S0, S1, S2, S3 = self.S
        for i in range(16):
            l ^= P[i]
            r ^= (((S0[l >> 24] + S1[l >> 16 & 255]) ^ S2[l >> 8 & 255]) + S3[l & 255]) & 0xffffffff
            l, r = r, l
        return r ^ P[17], l ^ P[16]
    def expand(self, data, key):
        kw = struct.unpack('>16I', key)
        for i in range(18): self.P[i] ^= kw[i % 16]
        dw = struct.unpack('>16I', data) if data else [0] * 16
        l = r = 0; j = 0
        def step():
            nonlocal l, r, j
            l ^= dw[j % 16]; r ^= dw[(j + 1) % 16]; j += 2
            l, r = self.enc(l, r)
        for i in range(0, 18, 2):
            step(); self.P[i], self.P[i + 1] = l, r
        for s in self.S:
            for i in range(0, 256, 2):
                step(); s[i], s[i + 1] = l, r

def bcrypt_hash(p, s):
    b = Blowfish(); b.expand(s, p)
    for _ in range(64):
        b.expand(None, s); b.expand(None, p)
    w = list(struct.unpack('>8I', b'OxychromaticBlowfishSwatDynamite'))
    for _ in range(64):
        for i in range(0, 8, 2): w[i], w[i + 1] = b.enc(w[i], w[i + 1])
    return struct.pack('<8I', *w)

def bcrypt_pbkdf(password, salt, n, rounds):
    sp = hashlib.sha512(password).digest()
    stride = (n + 31) // 32; amt = (n + stride - 1) // stride
    out = bytearray(n); left = n; count = 1
    while left > 0:
        t = bcrypt_hash(sp, hashlib.sha512(salt + struct.pack('>I', count)).digest()); acc = bytearray(t)
        for _ in range(1, rounds):
            t = bcrypt_hash(sp, hashlib.sha512(t).digest())
            for i in range(32): acc[i] ^= t[i]
        amt = min(amt, left); done = 0
        for i in range(amt):
            d = i * stride + count - 1
            if d >= n: break
            out[d] = acc[i]; done += 1
        left -= done; count += 1
    return bytes(out)

# ---- ChaCha20, Poly1305 -------------------------------------------------------------------------------------------
def chacha_stream(key, nonce16, n):
    out = b''
    base = list(struct.unpack('<4I', b'expand 32-byte k') + struct.unpack('<8I', key) + struct.unpack('<4I', nonce16))
    rot = lambda x, k: ((x << k) | (x >> (32 - k))) & 0xffffffff
    while len(out) < n:
        x = base[:]
        def qr(a, b, c, d):
            for p, q, r, k in ((a, b, d, 16), (c, d, b, 12), (a, b, d, 8), (c, d, b, 7)):
                x[p] = (x[p] + x[q]) & 0xffffffff; x[r] = rot(x[r] ^ x[p], k)
        for _ in range(10):
            qr(0, 4, 8, 12); qr(1, 5, 9, 13); qr(2, 6, 10, 14); qr(3, 7, 11, 15)
            qr(0, 5, 10, 15); qr(1, 6, 11, 12); qr(2, 7, 8, 13); qr(3, 4, 9, 14)
        out += struct.pack('<16I', *((a + b) & 0xffffffff for a, b in zip(x, base)))
        base[12] = (base[12] + 1) & 0xffffffff
        if base[12] == 0: base[13] += 1
    return out[:n]

def poly1305(key, msg):
    r = int.from_bytes(key[:16], 'little') & 0x0ffffffc0ffffffc0ffffffc0fffffff
    s = int.from_bytes(key[16:], 'little'); a = 0
    for i in range(0, len(msg), 16):
        a = (a + int.from_bytes(msg[i:i + 16] + b'\1', 'little')) * r % (2**130 - 5)
    return ((a + s) % 2**128).to_bytes(16, 'little')

# ---- files --------------------------------------------------------------------------------------------------------
def fresh(name):
    for f in (name, name + '.pub', name + '-cert.pub'):
        if os.path.exists(os.path.join(W, f)): os.remove(os.path.join(W, f))
    return os.path.join(W, name)

def B(b): return '[' + ','.join(map(str, b)) + ']'
def S(s): return '(("' + s.replace('\\', '\\\\').replace('"', '\\"').replace('\n', '\\n') + '" : String).toList.map Char.toNat)'

lean = ['''import Verif.Model.Cli
import Verif.Model.Cert
open OSK
set_option maxRecDepth 100000
def ext : Ext := ⟨fun _ _ => true, fun _ => []⟩
def noCr : Crypto := ⟨fun _ _ _ _ => .error .typeError, fun _ _ _ _ _ => .error .typeError, fun _ _ _ _ _ => .error .typeError,
  fun _ _ _ => .error .typeError, fun _ _ _ => .error .typeError, fun _ _ => .error .typeError, fun _ _ => []⟩
def inp (n : Nat) : Inputs := ⟨.error .typeError, n, fun _ => []⟩
def firstParams (r : Eff KeyList) : Option (Key × Key) := match r.res with | .ok l => (match l.pairs with | [p] => some (p.pub, p.priv) | _ => none) | _ => none
def retext (cr : Crypto) (i : Inputs) (r : Eff KeyList) (p : Option Str) : Option Str :=
  match r.res with | .ok l => (packListString cr i l p none false true).res.toOption | _ => none
def keyOf (r : Eff Key) : Option Key := r.res.toOption
def chk (n : String) (b : Bool) : IO Unit := IO.println s!"{b} {n}"
def intOf (d : VDict) (k : Str) : Option Int := match dget d k with | some (.int i) => some i | _ => none
''']

def parse_file(path):
    t = open(path).read()
    b = base64.b64decode(''.join(t.splitlines()[1:-1]))
    pos = 15
    def s():
        nonlocal pos
        n = struct.unpack_from('>I', b, pos)[0]; v = b[pos + 4:pos + 4 + n]; pos += 4 + n
        return v
    cipher, kdf, opts = s(), s(), s(); n = struct.unpack_from('>I', b, pos)[0]; pos += 4
    pubs = [s() for _ in range(n)]; blob = s()
    return t, cipher, kdf, opts, pubs, blob, b[pos:]

KINDS = [('rsa', ['-b', '2048']), ('dsa', []), ('ecdsa', ['-b', '256']), ('ecdsa', ['-b', '384']), ('ecdsa', ['-b', '521']), ('ed25519', [])]
idx = 0
def list_checks(name, path, crName, check, passTerm, comment):
    t = open(path).read(); pub = open(path + '.pub').read()
    lean.append(f'''
def f_{name} : Str := {S(t)}
def p_{name} : Str := {S(pub)}
def r_{name} := listFromString ext {crName} (inp {check}) f_{name} {passTerm}
#eval chk "{name} parses without warning" (r_{name}.log == [] && (firstParams r_{name}).isSome)
#eval chk "{name} public key in list = .pub line" (match firstParams r_{name}, keyOf (fromString ext .pub p_{name}) with
  | some (a, _), some b => (fromString ext .pub p_{name}).log == [] && decide (a.params = b.params) && decide (a.header = b.header) | _, _ => false)
#eval chk "{name} comment" (match firstParams r_{name} with | some (_, b) => decide (dget b.footer (py! "comment") = some (.str {S(comment)})) | _ => false)
#eval chk "{name} repacks to the same text" (decide (retext {crName} (inp {check}) r_{name} {passTerm} = some f_{name}))
#eval chk "{name} private key gives the same public bytes" (match firstParams r_{name} with
  | some (a, b) => decide ((packPublicBytes a).toOption = (packPublicBytes b).toOption ∧ (packPublicBytes a).toOption.isSome) | _ => false)
''')
cas = {}
for typ, extra in KINDS:
    name = typ + ''.join(extra[1:])
    path = fresh(name)
    comment = 'user@host ' + name
    run('ssh-keygen', '-q', '-t', typ, *extra, '-N', '', '-C', comment, '-f', path)
    t, cipher, kdf, opts, pubs, blob, rest = parse_file(path)
    check = struct.unpack_from('>I', blob)[0]
    list_checks(name, path, 'noCr', check, 'none', comment)
    if typ == 'rsa':
        pem = path + '.pem'
        open(pem, 'w').write(t); os.chmod(pem, 0o600)
        run('ssh-keygen', '-q', '-p', '-m', 'PEM', '-N', '', '-P', '', '-f', pem)
        txt = run('openssl', 'rsa', '-in', pem, '-noout', '-text').decode()
        def num(label):
            m = re.search(label + r':\s*\n((?:\s+[0-9a-f:]+\n)+)', txt)
            return int(re.sub(r'[\s:]', '', m[1]), 16)
        for k, label in (('n', 'modulus'), ('d', 'privateExponent'), ('p', 'prime1'), ('q', 'prime2'), ('iqmp', 'coefficient')):
            lean.append(f'#eval chk "{name} {k} as shown by openssl" (match firstParams r_{name} with | some (_, b) => decide (intOf b.params.data (py! "{k}") = some {num(label)}) | _ => false)')
    cas[name] = path

# ---- certificates -------------------------------------------------------------------------------------------------
ca = cas['ed25519']
for name, path in cas.items():
    for kind in ('user', 'host'):
        args = ['-n', 'alice,bob'] if kind == 'user' else ['-h', '-n', 'h1,h2.example']
        if kind == 'user': args += ['-O', 'force-command=ls', '-O', 'source-address=10.0.0.0/8', '-O', 'no-pty']
        cp = path + '-cert.pub'
        if os.path.exists(cp): os.remove(cp)
        run('ssh-keygen', '-q', '-s', ca, '-I', 'id ' + name, '-z', '7', '-V', '20200101:20301231', *args, path + '.pub')
        line = open(cp).read(); nm = f'{name}_{kind}'
        raw = base64.b64decode(line.split()[1])
        prin = ['alice', 'bob'] if kind == 'user' else ['h1', 'h2.example']
        names = ['permit-X11-forwarding', 'permit-agent-forwarding', 'permit-port-forwarding', 'permit-user-rc'] if kind == 'user' else []
        lean.append(f'''
def l_{nm} : Str := {S(line)}
def c_{nm} := fromString ext .pub l_{nm}
def d_{nm} : VDict := ((keyOf c_{nm}).map (fun k => k.params.data)).getD []
#eval chk "{nm} certificate parses without warning" (c_{nm}.log == [] && (keyOf c_{nm}).isSome)
#eval chk "{nm} certificate repacks" (match keyOf c_{nm} with | some k => decide (((packPublicString ext k false false).toOption.map (fun s => s.dropLast)) = some (l_{nm}.take (({S(line.split()[0])}).length + 1 + {len(line.split()[1])}))) | _ => false)
#eval chk "{nm} principals" (decide ((getValidPrincipals d_{nm}).toOption = some [{', '.join('Val.str ' + S(p) for p in prin)}]))
#eval chk "{nm} type" (decide ((getType d_{nm}).toOption = some .{kind}))
#eval chk "{nm} serial" (decide (intOf d_{nm} (py! "serial") = some 7))
#eval chk "{nm} extensions" (decide ((getOptionValues d_{nm} (py! "extensions")).res.toOption.map (fun m => m.map (·.1)) = some [{', '.join(S(n) for n in names)}]))
#eval chk "{nm} critical options" (decide ((getOptionValues d_{nm} (py! "critical_options")).res.toOption.map (fun m => m.map (·.1)) = some [{', '.join(S(n) for n in (['force-command', 'source-address'] if kind == 'user' else []))}]))
#eval chk "{nm} authority key" (match (getSignatureKeyWith (caFromBytes ext) d_{nm}).res.toOption, keyOf (fromString ext .pub p_ed25519) with
  | some a, some b => decide (a.params = b.params) | _, _ => false)
#eval chk "{nm} signed bytes = certificate without type and signature" (match keyOf c_{nm} with
  | some k => decide ((packSignedBytes k.params.cls k.params.data).toOption = some ({B(raw[4 + len(line.split()[0]):-87])} : Bytes)) | _ => false)
''')
        # what was signed: the type string followed by the signed bytes
        if kind == 'user':
            assert struct.unpack('>I', raw[-87:-83])[0] == 83
            sig = raw[-64:]
            pubraw = base64.b64decode(open(ca + '.pub').read().split()[1])[-32:]
            der = bytes.fromhex('302a300506032b6570032100') + pubraw
            open(W + '/ca.der', 'wb').write(der); open(W + '/sig', 'wb').write(sig)
            res = {}
            for lab, data in (('with type', raw[:-87]), ('without type', raw[4 + len(line.split()[0]):-87])):
                open(W + '/data', 'wb').write(data)
                p = subprocess.run(['openssl', 'pkeyutl', '-verify', '-rawin', '-pubin', '-inkey', W + '/ca.der', '-keyform', 'DER', '-sigfile', W + '/sig', '-in', W + '/data'], capture_output=True)
                res[lab] = p.returncode == 0
            print(nm, 'signature verifies over', res)

# ---- encrypted files ----------------------------------------------------------------------------------------------
SPECS = {'3des-cbc': (24, 8), 'aes128-ctr': (16, 16), 'aes192-ctr': (24, 16), 'aes256-ctr': (32, 16), 'aes128-cbc': (16, 16), 'aes192-cbc': (24, 16),
         'aes256-cbc': (32, 16), 'aes128-gcm@openssh.com': (16, 12), 'aes256-gcm@openssh.com': (32, 12), 'chacha20-poly1305@openssh.com': (64, 0)}
for cname, (kl, il) in SPECS.items():
    name = 'enc_' + re.sub(r'\W', '_', cname); path = fresh(name)
    comment = 'c ' + cname; pw = 'påss wörd'
    run('ssh-keygen', '-q', '-t', 'ed25519', '-a', '2', '-Z', cname, '-N', pw, '-C', comment, '-f', path)
    t, cipher, kdf, opts, pubs, blob, tag = parse_file(path)
    assert cipher.decode() == cname and kdf == b'bcrypt'
    sl = struct.unpack_from('>I', opts)[0]; salt = opts[4:4 + sl]; rounds = struct.unpack_from('>I', opts, 4 + sl)[0]
    dk = bcrypt_pbkdf(pw.encode(), salt, kl + il, rounds)
    key, iv = dk[:kl], dk[kl:]
    f = {k: 'fun _ _ _ _ => .error .typeError' for k in ('kdf',)}
    sym = 'fun _ _ _ _ _ => .error .typeError'; syme = sym; gcm = gcme = 'fun _ _ _ => .error .typeError'; cc = 'fun _ _ => .error .typeError'; poly = 'fun _ _ => []'
    if 'chacha' in cname:
        ks = chacha_stream(key[:32], bytes(16), 64 + len(blob)); plain = bytes(a ^ b for a, b in zip(ks[64:], blob))
        cc = f'fun k n => if k = {B(key[:32])} ∧ n = {B(bytes(16))} then (.ok (fun i => (({B(ks)} : Bytes).getD i 0))) else .error .typeError'
        poly = f'fun k d => if k = {B(ks[:32])} ∧ d = {B(blob)} then {B(poly1305(ks[:32], blob))} else []'
        assert poly1305(ks[:32], blob) == tag
    else:
        if 'gcm' in cname:
            c0 = subprocess.run(['openssl', 'enc', '-d', f'-aes-{kl*8}-ctr', '-K', key.hex(), '-iv', (iv + b'\0\0\0\2').hex(), '-nopad'], input=blob, capture_output=True, check=True).stdout
            plain = c0
            gcm = f'fun k i d => if k = {B(key)} ∧ i = {B(iv)} ∧ d = {B(blob + tag)} then .ok {B(plain)} else .error .invalidTag'
            gcme = f'fun k i d => if k = {B(key)} ∧ i = {B(iv)} ∧ d = {B(plain)} then .ok {B(blob + tag)} else .error .typeError'
        else:
            alg = '-des-ede3-cbc' if cname.startswith('3des') else '-' + cname.replace('aes', 'aes-')
            plain = subprocess.run(['openssl', 'enc', '-d', alg, '-K', key.hex(), '-iv', iv.hex(), '-nopad'], input=blob, capture_output=True, check=True).stdout
            a = '.tripleDes' if cname.startswith('3des') else '.aes'; m = '.' + cname[-3:]
            sym = f'fun a m k i d => if a = {a} ∧ m = {m} ∧ k = {B(key)} ∧ i = {B(iv)} ∧ d = {B(blob)} then .ok {B(plain)} else .error .typeError'
            syme = f'fun a m k i d => if a = {a} ∧ m = {m} ∧ k = {B(key)} ∧ i = {B(iv)} ∧ d = {B(plain)} then .ok {B(blob)} else .error .typeError'
    check, check2 = struct.unpack_from('>II', plain)
    assert check == check2, cname
    lean.append(f'''
def cr_{name} : Crypto := ⟨fun p s n r => if p = {B(pw.encode())} ∧ s = {B(salt)} ∧ n = {kl + il} ∧ r = {rounds} then .ok {B(dk)} else .error .typeError,
  {syme}, {sym}, {gcme}, {gcm}, {cc}, {poly}⟩''')
    list_checks(name, path, f'cr_{name}', check, f'(some {S(pw)})', comment)

# ---- the command line on a file of public keys ---------------------------------------------------------------------
allpub = ''.join(open(p + '.pub').read() for p in cas.values())
lean.append(f'''
def cliIn : Str := {S(allpub)}
#eval chk "command line on public keys" (match (cliParse ext noCr (inp 0) cliIn none).res with | .ok (.publicKeys ks) => ks.length == {len(cas)} && (cliParse ext noCr (inp 0) cliIn none).log == [] | _ => false)
''')
open(W + '/Ssh.lean', 'w').write('\n'.join(lean))
out = subprocess.run(['lake', 'env', 'lean', W + '/Ssh.lean'], cwd=HERE + '/../lean', capture_output=True, text=True)
o = out.stdout + out.stderr
bad = [l for l in o.splitlines() if not l.startswith('true ')]
print(sum(l.startswith('true ') for l in o.splitlines()), 'checks true;', len(bad), 'other lines')
print('\n'.join(bad[:40]))
