"""List the functions of /repo/resync that no definition of the model cites (by file and line range)."""
import ast, glob, os, re, sys
cites = {}
for f in glob.glob(os.path.join(os.path.dirname(__file__), '../lean/Verif/Model/*.lean')):
    text = open(f).read()
    current = None
    for m in re.finditer(r'([a-z_0-9]+\.py)|(?<![\w.])(\d+)(?:-(\d+))?(?![\w.%])', text):
        if m.group(1):
            current = m.group(1)
            pos = m.end()
        elif current and m.start() - pos < 60:
            a = int(m.group(2)); b = int(m.group(3) or a)
            cites.setdefault(current, []).append((a, b))
            pos = m.end()
for f in sorted(glob.glob('/repo/resync/*.py')):
    name = os.path.basename(f)
    for node in ast.walk(ast.parse(open(f).read())):
        if isinstance(node, ast.FunctionDef):
            body = node.body[1:] if isinstance(node.body[0], ast.Expr) and len(node.body) > 1 else node.body
            a, b = body[0].lineno, node.end_lineno
            if not any(x <= b and a <= y for x, y in cites.get(name, [])):
                print(name, node.name, '%d-%d' % (node.lineno, b))
