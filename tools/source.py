#!/usr/bin/env python3
"""Write the text of the source files of the package to ../lean/Verif/GoSource.lean, that of the grammar to
../lean/Verif/RlSource.lean and that of the tools to ../lean/Verif/ToolSource.lean (or compare them, with --check)."""
import os, sys
REPO = "/repo"
OUT = os.path.join(os.path.dirname(os.path.abspath(__file__)), "../lean/Verif/")
FILES = [("kind", "kind.go"), ("parsingMode", "parsing_mode.go"), ("options", "options.go"), ("schemaType", "scim/schema/type.go"),
         ("scim", "scim.go"), ("urn", "urn.go"), ("urn8141", "urn8141.go"), ("machine", "machine.go")]
def lean(s): return '"' + s.replace("\\", "\\\\").replace('"', '\\"').replace("\t", "\\t") + '"'
RL = [("rl", "machine.go.rl")]
TOOLS = [("removecomments", "tools/removecomments/removecomments.go"), ("snake2camel", "tools/snake2camel/snake2camel.go")]
def text(space, title, files, suffix):
    o = ["/-!", "GENERATED by tools/source.py from the files in /repo - do not edit by hand.", "", title, "-/", f"namespace {space}", ""]
    for name, f in files:
        t = open(os.path.join(REPO, f)).read()
        assert t.isascii()
        L = t.removesuffix("\n").split("\n")
        CH = 200
        parts = [L[k:k+CH] for k in range(0, len(L), CH)]
        names = []
        for k, p in enumerate(parts):
            nm = f"{name}{suffix}" + (f"{k}" if len(parts) > 1 else "")
            names.append(nm)
            o.append(f"/-- {f}:{k*CH+1}-{k*CH+len(p)} -/")
            o.append(f"def {nm} : List String := [")
            o.append(",\n".join("  " + lean(l) for l in p) + "]\n")
        if len(parts) > 1:
            o.append(f"/-- {f} -/")
            o.append(f"def {name}{suffix} : List (List String) :=\n  [" + ", ".join(names) + "]\n")
    o.append(f"end {space}\n")
    return "\n".join(o)
ok = True
for name, t in [("GoSource", text("Urn.GoSource", "# The text of the source files of the package, line by line", FILES, "Go")),
                ("RlSource", text("Urn.RlSource", "# The text of machine.go.rl, line by line", RL, "Text")),
                ("ToolSource", text("Urn.ToolSource", "# The text of the tools, line by line", TOOLS, "Go"))]:
    if "--check" in sys.argv:
        same = open(OUT + name + ".lean").read() == t
        print(name + ".lean is", "up to date" if same else "DIFFERENT"); ok = ok and same
    else: open(OUT + name + ".lean", "w").write(t)
sys.exit(0 if ok else 1)
