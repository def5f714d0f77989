#!/usr/bin/env python3
"""Check lean/Verif/Std/Datetime.lean and the laws in lean/Verif/Spec/Datetime.lean against the datetime module
of this Python and the time zones of this machine.

1. Every zone of /usr/share/zoneinfo satisfies ZoneLaws: in its table of changes the clocks are never more than
   a day off UTC, changes are at least three days apart and of at most a day (okTable).
2. For the moments around the changes, and for what the clocks show around them, fromtimestamp and timestamp are
   what the model computes.  The tests are written to a Lean file that is run with `lake env lean`.

Run from /verif: python3 tools/zone_check.py
"""
import datetime, os, random, struct, subprocess, tempfile, time, zoneinfo

D = datetime.datetime
UTC = datetime.timezone.utc
EPOCH = D(1970, 1, 1)


def table(name):
    data = open(os.path.join('/usr/share/zoneinfo', name), 'rb').read()
    def header(at):
        return struct.unpack('>6L', data[at + 20:at + 44])
    isut, isstd, leap, timecnt, typecnt, charcnt = header(0)
    at = 44 + timecnt * 5 + typecnt * 6 + charcnt + leap * 8 + isstd + isut
    isut, isstd, leap, timecnt, typecnt, charcnt = header(at)
    at += 44
    times = struct.unpack('>%dq' % timecnt, data[at:at + 8 * timecnt])
    at += 8 * timecnt
    kinds = data[at:at + timecnt]
    at += timecnt
    offsets = [struct.unpack('>l', data[at + 6 * i:at + 6 * i + 4])[0] for i in range(typecnt)]
    first, changes, last = offsets[0], [], offsets[0]
    for t, k in zip(times, kinds):
        if offsets[k] != last:
            changes.append((t, offsets[k]))
            last = offsets[k]
    return first, changes


def lawful(first, changes):
    last, before = first, None
    for t, o in changes:
        if abs(o) > 86400 or abs(o - last) > 86400 or (before is not None and t < before + 259200):
            return False
        last, before = o, t
    return abs(first) <= 86400


def outcome(f):
    try:
        return f()
    except (ValueError, OverflowError):
        return None


def secs(d):
    return (d.replace(fold=0) - EPOCH) // datetime.timedelta(seconds=1)


def main():
    random.seed(1)
    names = sorted(zoneinfo.available_timezones())
    bad = [n for n in names if not lawful(*table(n))]
    print(len(names), 'zones;', 'not lawful:', bad)
    lines = []
    total = 0
    for name in names:
        first, changes = table(name)
        # changes of the far past are left out of the tests of the model: year 1 is tested separately
        os.environ['TZ'] = name
        time.tzset()
        lo = -2 ** 33
        picked = [c for c in changes if lo < c[0] < 2 ** 31 - 10 * 86400]
        picked = random.sample(picked, min(4, len(picked)))
        reads, stamps = [], []
        for t, o in picked:
            for _ in range(12):
                i = t + random.choice([random.randint(-200000, 200000), random.randint(-90000, 90000),
                                       random.randint(-5000, 5000), random.randint(-2, 2)])
                d = D.fromtimestamp(i)
                reads.append((i, secs(d), d.fold))
                w = i + random.choice([0, random.randint(-90000, 90000), random.randint(-5000, 5000)])
                fold = random.randint(0, 1)
                us = random.choice([0, 0, 500000, 999999, random.randint(0, 999999)])
                x = (EPOCH + datetime.timedelta(seconds=w, microseconds=us)).replace(fold=fold).timestamp()
                stamps.append((w, us, fold, x.as_integer_ratio()))
        if not picked:
            continue
        total += len(reads) + len(stamps)
        b = ['false', 'true']
        lines.append('#eval check (.ofTable (%d) [%s])\n  [%s]\n  [%s]' % (
            first, ', '.join('(%d, %d)' % c for c in changes),
            ', '.join('(%d, %d, %s)' % (i, w, b[f]) for i, w, f in reads),
            ', '.join('(%d, %d, %s, (%d : Rat) / %d)' % (w, us, b[f], *r) for w, us, f, r in stamps)))
    # the ends of the calendar, in UTC
    os.environ['TZ'] = 'UTC'
    time.tzset()
    ends = []
    for base in (-62135596800, -62135596800 + 86400, 253402300800, 253402300800 - 86400, 2 ** 63, -2 ** 63):
        for k in range(-3, 4):
            d = outcome(lambda: D.fromtimestamp(base + k)) if abs(base) < 2 ** 60 else None
            ends.append('(%d, %s)' % (base + k, 'none' if d is None else 'some (%d)' % secs(d)))
    lines.append('#eval (([%s] : List (Int × Option Int)).filter fun (i, r) => (match (Zone.ofTable 0 []).fromSeconds i with'
                 ' | .ok (.naive w 0 false) => some w | _ => none) != r).length' % ', '.join(ends))
    # dates with time zones
    aware = []
    for _ in range(60):
        w = random.choice([random.randint(0, 2 ** 32), random.randint(2 ** 34, 253402200000), random.randint(-62135500000, 0)])
        us = random.randint(0, 999999)
        o = random.randint(-86399000000, 86399000000)
        x = (EPOCH + datetime.timedelta(seconds=w, microseconds=us)).replace(
            tzinfo=datetime.timezone(datetime.timedelta(microseconds=o))).timestamp()
        aware.append('(%d, %d, %d, (%d : Rat) / %d)' % (w, us, o, *x.as_integer_ratio()))
    lines.append('#eval (([%s] : List (Int × Nat × Int × Rat)).filter fun (w, us, o, x) => (match '
                 '(Zone.ofTable 0 []).stamp (.aware w us o) with | .ok y => y != x | _ => true)).length' % ', '.join(aware))
    text = '''import Verif.Std.Datetime
open OSK OSK.Std
set_option maxRecDepth 100000
def check (z : Zone) (reads : List (Int × Int × Bool)) (stamps : List (Int × Nat × Bool × Rat)) : Nat :=
  (reads.filter fun (i, w, f) => (match z.fromSeconds i with
    | .ok d => d != .naive w 0 f
    | _ => true)).length +
  (stamps.filter fun (w, us, f, x) => (match z.stamp (.naive w us f) with
    | .ok y => y != x
    | _ => true)).length
''' + '\n'.join(lines) + '\n'
    with tempfile.NamedTemporaryFile('w', suffix='.lean', delete=False) as f:
        f.write(text)
    out = subprocess.run(['lake', 'env', 'lean', f.name], cwd='lean', capture_output=True, text=True)
    numbers = out.stdout.split('\n')
    wrong = [l for l in numbers if l.strip() not in ('0', '')]
    print(total, 'tests in', len(lines) - 2, 'zones,', len(ends), 'at the ends,', len(aware), 'with time zones;',
          'evaluations:', len([l for l in numbers if l.strip() == '0']), 'of', len(lines), 'without a difference')
    for l in wrong[:20]:
        print(l)


main()
