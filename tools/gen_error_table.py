"""Writes lean/Verif/Model/ErrorTable.lean from /repo/brel: the registry of errors and the calls that make reports, read as text."""
import ast, glob, os, re

REPO = "/repo/brel"
OUT = os.path.join(os.path.dirname(os.path.abspath(__file__)), "../lean/Verif/Model/ErrorTable.lean")
os.chdir(REPO)


def lit(s):
    return '"' + s.replace("\\", "\\\\").replace('"', '\\"').replace("\n", "\\n") + '"'


def camel(s):
    p = s.lower().split("_")
    return p[0] + "".join(x.capitalize() for x in p[1:])


def const(n):
    return eval(compile(ast.Expression(n), "x", "eval"), {})


rows = []
for n in ast.walk(ast.parse(open("errors/error_factory_registry.py").read())):
    if isinstance(n, ast.Dict):
        for k, v in zip(n.keys, n.values):
            if isinstance(k, ast.Attribute) and isinstance(v, ast.Lambda):
                a = v.body.args
                x = [const(b) for b in a[5].args[1:]] if len(a) > 5 else None
                rows.append((k.attr, camel(a[0].attr), camel(a[1].attr), const(a[2]), const(a[3]), x, k.lineno))

sites = []
for f in sorted(glob.glob("**/*.py", recursive=True)):
    s = re.sub(r"(def|class) (\w+)\[.*?\](?=[(:])", lambda m: m.group(1) + " " + m.group(2) + "", open(f).read(), flags=re.S)
    for n in ast.walk(ast.parse(s)):
        if isinstance(n, ast.Call) and isinstance(n.func, ast.Attribute) and n.func.attr in ("insert", "create"):
            a = [x for x in n.args if isinstance(x, ast.Attribute) and isinstance(x.value, ast.Name) and x.value.id == "ErrorCode"]
            if a:
                orig = open(f).read().split("\n")
                line = next(i for i in range(n.lineno, len(orig) + 1) if a[0].attr in orig[i - 1]) if a[0].attr not in orig[a[0].lineno - 1] else a[0].lineno
                sites.append((f, line, a[0].attr, [k.arg for k in n.keywords if k.arg != "error_context"]))
sites.sort()

with open(OUT, "w") as o:
    o.write("import Verif.Model.Errors\nimport Verif.Model.Regex\n\n/-! Generated by tools/gen_error_table.py from brel/errors/error_factory_registry.py and the calls of `insert` and `create` in brel. -/\n\nnamespace Brel\n\n")
    out = []
    for code, sev, area, num, msg, x, line in rows:
        q = "none" if x is None else f'(some ⟨"http://xbrl.org/2016/taxonomy-package/errors", {lit(x[0])}, {lit(x[1])}⟩)'
        out.append((f"  -- line {line}\n  ({lit(code)}, ⟨.{sev}, .{area}, {lit(num)}, chars! {lit(msg)}, {q}⟩)", line))
    parts = [out[i : i + 16] for i in range(0, len(out), 16)]
    for i, p in enumerate(parts):
        o.write(f"set_option maxRecDepth 8000 in\n/-- brel/errors/error_factory_registry.py {p[0][1]}-{p[-1][1]}, one part of the dictionary. -/\n")
        o.write(f"def registryPart{i} : List (String × ErrEntry) := [\n" + ",\n".join(x for x, _ in p) + "]\n\n")
    o.write("/-- brel/errors/error_factory_registry.py 12-897: the entries of the dictionary, in the order they are written. -/\n")
    o.write("def registryEntries : List (String × ErrEntry) :=\n  " + " ++ ".join(f"registryPart{i}" for i in range(len(parts))) + "\n\n")
    o.write("/-- The calls that make a report: file, line of the code, code, names of the arguments for the message. -/\ndef reportSites : List Site := [\n")
    o.write(",\n".join(f"  ⟨{lit('brel/' + f)}, {l}, {lit(c)}, [{', '.join(lit(k) for k in ks)}]⟩" for f, l, c, ks in sites) + "]\n\nend Brel\n")
