"""Which functions of the code are cited by definitions of the model (by line ranges), and which are not."""
import re, glob, ast, collections
cites = collections.defaultdict(set)
for f in glob.glob('/verif/lean/Verif/Model/*.lean') + glob.glob('/verif/lean/Verif/Basic/*.lean'):
    s = open(f).read()
    for doc in re.findall(r'/--.*?-/', s, re.S):
        cur = None
        for m in re.finditer(r'(?:bathygrid/)?([a-z_]+)\.py:?|(?<![\w./])(\d+)(?:-(\d+))?', doc):
            if m.group(1): cur = m.group(1)
            elif cur and m.group(2):
                a = int(m.group(2)); b = int(m.group(3) or a)
                if b >= a and b - a < 400: cites[cur] |= set(range(a, b + 1))
rows = []
for py in sorted(glob.glob('/repo/bathygrid/*.py')):
    name = py.split('/')[-1][:-3]
    tree = ast.parse(open(py).read())
    def walk(node, pre):
        for n in node.body:
            if isinstance(n, ast.ClassDef): walk(n, n.name + '.')
            elif isinstance(n, (ast.FunctionDef,)):
                start = n.body[0].lineno
                if isinstance(n.body[0], ast.Expr) and isinstance(getattr(n.body[0], 'value', None), ast.Constant) and len(n.body) > 1: start = n.body[1].lineno
                body = set(range(start, n.end_lineno + 1))
                rows.append((name, pre + n.name, n.lineno, n.end_lineno, len(body & cites[name]), len(body)))
    walk(tree, '')
cov = [r for r in rows if r[4]]
print('cited', len(cov), 'of', len(rows))
for r in rows:
    if not r[4]: print('not cited: %s.py:%d-%d %s' % (r[0], r[2], r[3], r[1]))
for r in cov:
    if r[4] < 0.6 * r[5]: print('partly: %s.py:%d-%d %s %d/%d' % (r[0], r[2], r[3], r[1], r[4], r[5]))
