"""Lists the functions of /repo/src/pypsrp that no line citation in lean/Verif/Model touches."""
import ast, glob, re
cited = {}
for f in glob.glob('lean/Verif/Model/*.lean'):
    for m in re.finditer(r'(\w+\.(?:py|ps1))[`:, ]*(?:lines? )?((?:\d+(?:\s*[-–]\s*\d+)?(?:,\s*|\s+and\s+)?)+)', open(f).read()):
        for a, b in re.findall(r'(\d+)(?:\s*[-–]\s*(\d+))?', m.group(2)):
            cited.setdefault(m.group(1), set()).update(range(int(a), int(b or a) + 1))
for p in sorted(glob.glob('/repo/src/pypsrp/*.py')):
    n = p.split('/')[-1]; got, miss = [], []
    def walk(node, pre):
        for c in ast.iter_child_nodes(node):
            if isinstance(c, ast.ClassDef): walk(c, pre + c.name + '.')
            elif isinstance(c, (ast.FunctionDef, ast.AsyncFunctionDef)):
                hit = cited.get(n, set()) & set(range(c.lineno, c.end_lineno + 1))
                (got if hit else miss).append(pre + c.name)
    walk(ast.parse(open(p).read()), '')
    print(f'{n}: {len(got)} cited, {len(miss)} not'); print('   not:', ', '.join(miss))
