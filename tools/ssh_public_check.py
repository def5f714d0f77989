"""Which public keys, certificates and lines ssh-keygen reads, compared with the relations SshPublic and SshLine of
lean/Verif/Spec/OpenSSHPublic.lean: `reads` below is written after these relations.  Run with no arguments; needs
ssh-keygen and openssl (which signs the certificates, so that a signature is never the reason of a failure)."""
import base64
import os
import random
import struct
import subprocess
import tempfile

random.seed(1)
os.chdir(tempfile.mkdtemp())
failed = total = agreed_yes = 0


def s(b):
    return struct.pack('>I', len(b)) + b


def S(l):
    return b''.join(map(s, l))


def run(*a):
    return subprocess.run(a, capture_output=True, check=True).stdout


CERT = b'-cert-v01@openssh.com'
BLANKS, SPACES = b' \t', b' \t\n\v\f\r'
SHORT = {b'ssh-rsa': b'rsa', b'ssh-dss': b'dsa', b'ssh-ed25519': b'ed25519', b'sk-ssh-ed25519@openssh.com': b'ed25519-sk'}
SIGNATURES = {b'ssh-rsa': [b'rsa-sha2-256', b'rsa-sha2-512'],
              b'ssh-rsa' + CERT: [b'rsa-sha2-256' + CERT, b'rsa-sha2-512' + CERT]}
CURVES = {b'ecdsa-sha2-nistp256': b'nistp256', b'ecdsa-sha2-nistp384': b'nistp384', b'ecdsa-sha2-nistp521': b'nistp521'}
CURVES.update({k + CERT: v for k, v in list(CURVES.items())})
ED = [b'ssh-ed25519', b'ssh-ed25519' + CERT]
PLAIN = {b'ssh-rsa': 'mm', b'ssh-ed25519': 'b', b'ssh-dss': 'mmmm', **{k: 'tb' for k in CURVES if not k.endswith(CERT)}}
FIELDS = dict(PLAIN)
FIELDS.update({k + CERT: 'b' + v + 'QItbQQbbbbb' for k, v in PLAIN.items()})


def ctext(b):
    return b'\0' not in b[:-1]


def names(t, name):
    n = name[:-1] if name.endswith(b'\0') else name
    return b'\0' not in n and (n == t or n in SIGNATURES.get(t, []) or n.lower() == SHORT.get(t))


class Cut(Exception):
    pass


def get(b, i):
    if len(b) < i + 4:
        raise Cut
    n = struct.unpack('>I', b[i:i + 4])[0]
    if len(b) < i + 4 + n:
        raise Cut
    return b[i + 4:i + 4 + n], i + 4 + n


def records(b, width):
    i, out = 0, []
    while i < len(b):
        r = []
        for _ in range(width):
            x, i = get(b, i)
            r.append(x)
        out.append(r)
    return out


def values(b):
    """SshValues: the type and the values, or None."""
    try:
        name, i = get(b, 0)
        for t in FIELDS:
            if names(t, name):
                break
        else:
            return None
        d = []
        for f in FIELDS[t]:
            if f in 'QI':
                n = struct.calcsize('>' + f)
                if len(b) < i + n:
                    return None
                d.append(int.from_bytes(b[i:i + n], 'big'))
                i += n
            else:
                x, i = get(b, i)
                if f == 't' and not ctext(x) or f == 'm' and x[:1] >= b'\x80':
                    return None
                d.append(x)
        if i != len(b):
            return None
        own = d[1:] if t.endswith(CERT) else d
        if t in CURVES and own[0] not in (CURVES[t], CURVES[t] + b'\0') or t in ED and len(own[0]) != 32:
            return None
        return t, d
    except Cut:
        return None


def blob_reads(b):
    """SshPublic: the type, or None."""
    v = values(b)
    if v is None:
        return None
    t, d = v
    if t.endswith(CERT):
        typ, _, princ, _, _, crit, ext, _, ca, _ = d[-10:]
        try:
            pr = records(princ, 1)
            records(crit, 2), records(ext, 2)
        except Cut:
            return None
        a = values(ca)
        if typ not in (1, 2) or len(pr) > 256 or not all(ctext(x) for x, in pr) or a is None or a[0].endswith(CERT):
            return None
    return t


def line_reads(line):
    """SshLine (with `limits` satisfied)."""
    if b'\0' in line or b'\n' in line[:-1]:
        return False
    x = line.lstrip(BLANKS)
    i = next((i for i, c in enumerate(x) if c in BLANKS), None)
    if i is None:
        return False
    a, rest = x[:i], x[i:].lstrip(BLANKS)
    j = next((j for j, c in enumerate(rest) if c in BLANKS), len(rest))
    w = bytes(c for c in rest[:j] if c not in SPACES)
    try:
        b = base64.b64decode(w, validate=True)
    except ValueError:
        return False
    if base64.b64encode(b) != w:
        return False
    t = blob_reads(b)
    return t is not None and (a == t or a in SIGNATURES.get(t, []))


def check(line, note):
    global failed, total, agreed_yes
    total += 1
    with open('x.pub', 'wb') as f:
        f.write(line)
    got = subprocess.run(['ssh-keygen', '-l', '-f', 'x.pub'], capture_output=True).returncode == 0
    if got != line_reads(line):
        failed += 1
        print('unexpected:', note, 'ssh-keygen', got, line)
    elif got:
        agreed_yes += 1


run('openssl', 'genpkey', '-algorithm', 'ed25519', '-out', 'ca.pem')
CAPK = run('openssl', 'pkey', '-in', 'ca.pem', '-pubout', '-outform', 'DER')[-32:]
CA = S([b'ssh-ed25519', CAPK])


def sign(m):
    with open('m', 'wb') as f:
        f.write(m)
    return S([b'ssh-ed25519', run('openssl', 'pkeyutl', '-sign', '-inkey', 'ca.pem', '-rawin', '-in', 'm')])


KEYS = {}
for kind, bits in (('rsa', 2048), ('ed25519', 0), ('ecdsa', 256), ('ecdsa', 384), ('ecdsa', 521)):
    f = kind + str(bits)
    run('ssh-keygen', '-q', '-t', kind, *(['-b', str(bits)] if bits else []), '-N', '', '-f', f)
    t, w = open(f + '.pub', 'rb').read().split()[:2]
    b = base64.b64decode(w)
    KEYS[t] = b[4 + len(t):]


def pick(usual, *others):
    return usual if random.random() < 0.85 else random.choice(others)


def other_name(t):
    base = t[:-len(CERT)] if t.endswith(CERT) else t
    return random.choice([t + b'\0', t + b'\0\0', t.upper(), base, base + CERT, SHORT.get(base, b'x'), SHORT.get(base, b'x').upper(),
                          SHORT.get(base, b'x') + b'\0', SHORT.get(base, b'x') + b'-cert', b'RSA-CERT', b'', b'ssh-rsa',
                          *SIGNATURES.get(t, []), *SIGNATURES.get(base, [])])


def material(t):
    v = KEYS[t]
    if random.random() < 0.1:
        if t in CURVES:
            first, i = get(v, 0)
            return s(random.choice([first + b'\0', first + b'\0\0', b'nistp256', first[:3] + b'\0' + first[4:], b''])) + v[i:]
        if t == b'ssh-ed25519':
            return s(random.choice([v[4:35], v[4:] + b'x', b'']))
        if t == b'ssh-rsa':
            e, i = get(v, 0)
            n, _ = get(v, i)
            return random.choice([S([b'\0' + e, n]), S([e, b'\0\0' + n]), S([e, n[1:] if n[1] & 128 else b'\x80' + n]), S([e])])
    return v


def cut(b):
    return b[:random.randrange(len(b))] if b else b


def plist():
    n = random.choice([0, 1, 2, 3])
    l = S([random.choice([b'u', b'root', b'', b'\xff', pick(b'a', b'a\0', b'a\0b')]) for _ in range(n)])
    return pick(l, cut(l), S([b'u'] * 256), S([b'u'] * 257), l + b'\0')


def olist():
    n = random.choice([0, 1, 2, 3])
    l = b''.join(S([random.choice([b'permit-pty', b'force-command', b'foo', b'', b'\xff', b'a\0b']), random.choice([b'', b'x', S([b'ls'])])])
                 for _ in range(n))
    return pick(l, cut(l), l + S([b'foo']), l + b'\0')


def blob():
    base = random.choice(list(KEYS))
    if random.random() < 0.4:
        b = s(pick(base, other_name(base))) + material(base)
        t = base
    else:
        t = base + CERT
        ca = pick(CA, S([b'ed25519', CAPK]), S([b'ssh-ed25519\0', CAPK]), CA + b'x', cut(CA), S([b'ssh-rsa', CAPK]), CERTIFICATE or CA)
        key_id = pick(b'id', b'', b'\xff', b'a\0', b'a\0b', b'a\0\0')
        b = (s(pick(t, other_name(t))) + s(pick(b'n' * 32, b'')) + material(base) +
             struct.pack('>QI', random.choice([0, 5, 2 ** 64 - 1]), pick(random.choice([1, 2]), 0, 3, 2 ** 32 - 1)) +
             S([key_id, plist()]) + struct.pack('>QQ', *random.choice([(0, 2 ** 64 - 1), (10, 5), (0, 0)])) +
             S([olist(), olist(), pick(b'', b'abc'), ca]))
        b += s(sign(b))
    return t, pick(b, b + b'\0', cut(b))


CERTIFICATE = None
b = S([ED[1], b'n', CAPK]) + struct.pack('>QI', 5, 1) + S([b'id', b'']) + struct.pack('>QQ', 0, 5) + S([b'', b'', b'', CA])
CERTIFICATE = b + s(sign(b))

for i in range(1500):
    t, b = blob()
    w = base64.b64encode(b)
    w = pick(w, w[:20] + b'\v\f\r' + w[20:], w.rstrip(b'='), w + b'\r', w[:11] + b'%' + w[11:])
    line = (pick(b'', b' ', b'\t', b' \t ') + pick(t, other_name(t)) + pick(b' ', b'\t', b'  ', b' \t', b'\v') + w +
            pick(b' c\n', b'', b'\n', b' ', b'\tc\n', b' c d', b' \xff\n', b'\r\n', b' c\r\n'))
    check(line, i)
print(total, 'checks,', agreed_yes, 'of them read;', failed, 'unexpected')
