#!/usr/bin/env python3
"""Write or check lean/Verif/Model/Filtered.lean.

The model under a warning filter is the model with another `warnings.warn`: every definition that
calls `Eff.warn`, directly or through another definition, is repeated word for word in a namespace
in which `Eff.warn` is the one of the filter.

    python3 tools/filtered_model.py          check that the file is what this writes
    python3 tools/filtered_model.py --write  write it
"""
import os
import re
import sys

HERE = os.path.join(os.path.dirname(os.path.abspath(__file__)), '..', 'lean', 'Verif', 'Model')
FILES = ['Stream', 'Cert', 'Key', 'Cipher', 'KeyList', 'Convert', 'Generate', 'Cli', 'Json']
HEAD = '''import Verif.Model.Cli
import Verif.Model.Generate
import Verif.Model.Json
/-
The model under a warning filter.  Python's warning filter decides for each call of `warnings.warn`
whether it raises the warning as an exception (action `error`, e.g. `python -W error`) or goes on
(every other action).  The definitions below are those of the other model files that can warn,
repeated word for word (tools/filtered_model.py writes and checks this file); here `Eff.warn` is
`OSK.Filtered.Eff.warn`.
-/
namespace OSK

/-- The warning filter: the warnings whose action is `error`. -/
class Filter where
  raises : Warning → Bool

namespace Filtered
variable [Filter]

/-- `warnings.warn(w)` (CPython Lib/warnings.py: `if action == "error": raise message`). -/
def Eff.warn (w : Warning) : Eff Unit :=
  if Filter.raises w then Eff.throw (.userWarning w) else OSK.Eff.warn w
'''
TAIL = '''
end Filtered
end OSK
'''


def blocks(text):
    """(name, text with doc comment) of each definition."""
    lines = text.split('\n')
    out = []
    i = 0
    while i < len(lines):
        start = i
        if lines[i].startswith('/--'):
            while not lines[i].rstrip().endswith('-/'):
                i += 1
            i += 1
        m = re.match(r'def (\S+)', lines[i]) if i < len(lines) else None
        if not m:
            i = max(i, start + 1)
            continue
        i += 1
        while i < len(lines) and (lines[i].startswith(' ') or lines[i] == '' and
                                  i + 1 < len(lines) and lines[i + 1].startswith(' ')):
            i += 1
        out.append((m.group(1), '\n'.join(lines[start:i])))
    return out


def code(text):
    return re.sub(r'--.*', '', re.sub(r'/-.*?-/', '', text, flags=re.S))


def produce():
    warns = {'Eff.warn'}
    out = HEAD
    for f in FILES:
        with open(os.path.join(HERE, f + '.lean')) as h:
            here = []
            for name, text in blocks(h.read()):
                words = set(re.findall(r"[A-Za-z_][\w.']*", code(text)))
                if words & warns:
                    warns.add(name)
                    here.append(text)
        if here:
            out += '\n/-! ### From Model/%s.lean -/\n\n' % f + '\n\n'.join(here) + '\n'
    return out + TAIL


path = os.path.join(HERE, 'Filtered.lean')
if sys.argv[1:] == ['--write']:
    with open(path, 'w') as h:
        h.write(produce())
else:
    with open(path) as h:
        same = h.read() == produce()
    print('same' if same else 'different')
    sys.exit(0 if same else 1)
