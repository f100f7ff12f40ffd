"""List the functions of /repo/rt1 with the share of lines cited in the model."""
import ast
import glob
import re

cited = {}
for f in glob.glob("/verif/lean/Verif/Model/*.lean"):
    text = open(f).read()
    for block in re.findall(r"/-[-!]?.*?-/", text, re.S):
        cur = None
        for m in re.finditer(r"`?(?:rt1/)?(\w+\.py)`?|(?:[Ll]ines? )?(\d{1,4})\s*[-–]\s*(\d{1,4})\b|[Ll]ines? (\d{1,4})", block):
            if m.group(1):
                cur = m.group(1)
            elif cur is None:
                # blocks without a file name refer to the files named in the header of the module
                head = re.findall(r"(\w+\.py)", text[:1500])
                for h in set(head):
                    a, b = (m.group(2), m.group(3)) if m.group(2) else (m.group(4), m.group(4))
                    cited.setdefault(h, set()).update(range(int(a), int(b) + 1))
            else:
                a, b = (m.group(2), m.group(3)) if m.group(2) else (m.group(4), m.group(4))
                cited.setdefault(cur, set()).update(range(int(a), int(b) + 1))

for f in sorted(glob.glob("/repo/rt1/*.py")):
    name = f.split("/")[-1]
    c = cited.get(name, set())
    tree = ast.parse(open(f).read())

    def walk(node, prefix):
        for n in node.body:
            if isinstance(n, ast.ClassDef):
                walk(n, prefix + n.name + ".")
            elif isinstance(n, ast.FunctionDef):
                r = range(n.body[0].lineno, n.end_lineno + 1)
                k = sum(1 for i in r if i in c)
                print(f"{name:26s} {prefix + n.name:50s} {n.lineno}-{n.end_lineno} {100 * k // max(1, len(r))}%")

    walk(tree, "")
