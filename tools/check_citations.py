"""List citations `name` — file:a-b whose lines do not contain the definition of `name`."""
import ast, glob, re
R = "/repo/discorpy/"
ext = {}
for f in glob.glob(R + "**/*.py", recursive=True):
    for n in ast.walk(ast.parse(open(f).read())):
        if isinstance(n, ast.FunctionDef):
            ext.setdefault((f[len(R):], n.name), []).append((n.lineno, n.end_lineno))
for f in sorted(glob.glob("/verif/lean/Verif/**/*.lean", recursive=True)):
    s = open(f).read()
    for m in re.finditer(r"`(\w+)`[^`—]{0,80}[—(]\s*(?:discorpy/)?(\w+/\w+\.py):(\d+)-(\d+)", s):
        k = (m.group(2), m.group(1))
        if k in ext:
            a, b = ext[k][0]
            if (int(m.group(3)), int(m.group(4))) != (a, b):
                print(f.split("/")[-1], m.group(1), m.group(3), m.group(4), "actual", a, b)
        else:
            print(f.split("/")[-1], "no def", k, m.group(3), m.group(4))
