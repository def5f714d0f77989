"""Lists the functions in /repo/openssh_key whose lines no comment in lean/Verif cites."""
import ast, glob, os, re
ROOT = '/repo/openssh_key/'
cites = {}
for f in glob.glob(os.path.join(os.path.dirname(__file__), '../lean/Verif/**/*.lean'), recursive=True):
    s = open(f).read()
    for m in re.finditer(r'([A-Za-z0-9_]+\.py):((?:\s*\d+(?:-\d+)?,?(?:\s+and\s+)?)+)', s):
        for r in re.finditer(r'(\d+)(?:-(\d+))?', m[2]):
            cites.setdefault(m[1], []).append((int(r[1]), int(r[2] or r[1])))
for p in sorted(glob.glob(ROOT + '**/*.py', recursive=True)):
    name = os.path.basename(p)
    tree = ast.parse(open(p).read())
    miss = []; n = 0
    def walk(node, prefix):
        global n
        for c in ast.iter_child_nodes(node):
            if isinstance(c, (ast.FunctionDef, ast.ClassDef)):
                q = prefix + c.name
                if isinstance(c, ast.FunctionDef):
                    n += 1
                    body = [x for x in c.body if not (isinstance(x, ast.Expr) and isinstance(x.value, ast.Constant))]
                    lo, hi = (body or c.body)[0].lineno, c.end_lineno
                    if not any(a <= hi and lo <= b or (a <= c.lineno <= b) for a, b in cites.get(name, [])):
                        miss.append(f'{q}:{c.lineno}')
                walk(c, q + '.')
    walk(tree, '')
    if n: print(os.path.relpath(p, ROOT), f'{n - len(miss)}/{n}', miss)
