#!/usr/bin/env python3
"""Extract the project's own test tables (/repo/tables_test.go) into Lean data.

Writes Verif/Conformance.lean: every row of the four tables, to be compared with
what the model computes.  These are tests of the fidelity of the model, not proofs."""
import re, os
S = open("/repo/tables_test.go").read()
OUT = os.path.join(os.path.dirname(os.path.abspath(__file__)), "../lean/Verif/Conformance.lean")
tmpl = {m[1]: eval(m[2]) for m in re.finditer(r'^\t(err\w+)\s+= (".*")$', open("/repo/machine.go").read(), re.M)}
pos = 0
def tok(s):
    i = 0
    while i < len(s):
        c = s[i]
        if c in " \t\n,": i += 1
        elif s.startswith("//", i): i = s.index("\n", i)
        elif c == '"':
            j = i+1
            while s[j] != '"': j += 2 if s[j] == "\\" else 1
            yield ("str", eval(s[i:j+1])); i = j+1
        elif c == "`":
            j = s.index("`", i+1); yield ("str", s[i+1:j]); i = j+1
        else:
            m = re.match(r"[\w.]+|.", s[i:]); yield ("w", m[0]); i += len(m[0])
def lstr(b):
    return "[" + ", ".join(str(x) for x in b) + "]"
def table(name):
    a = S.index(f"var {name} = []testCase{{"); e = S.index("\n}\n", a) if "\n}\n" in S[a:] else len(S)
    body = S[S.index("{", S.index("testCase{", a))+1:e]
    t = list(tok(body)); i = 0; rows = []
    def eat(w):
        nonlocal i
        assert t[i] == ("w", w), (t[i-3:i+5], w); i += 1
    def string():
        nonlocal i
        if t[i][0] == "str": v = t[i][1]; i += 1; return v
        eat("fmt.Sprintf"); eat("(")
        f = tmpl[t[i][1]] if t[i][0] == "w" else t[i][1]; i += 1
        n = t[i][1]; i += 1
        if t[i] == ("w", "+"): i += 1; n = int(n) + int(t[i][1]); i += 1
        eat(")"); return (f % int(n))
    while i < len(t):
        eat("{"); eat("["); eat("]"); eat("byte"); eat("("); s = string(); eat(")")
        ok = t[i][1]; i += 1
        obj = {}
        if t[i] == ("w", "nil"): i += 1; obj = None
        else:
            eat("&"); eat("URN"); eat("{")
            def struct():
                nonlocal i
                d = {}
                while t[i] != ("w", "}"):
                    k = t[i][1]; i += 1; eat(":")
                    if k == "scim":
                        eat("&"); eat("SCIM"); eat("{"); d[k] = struct()
                    elif t[i][0] == "str": d[k] = t[i][1]; i += 1
                    else: d[k] = t[i][1]; i += 1
                i += 1
                return d
            obj = struct()
        st = string(); nm = string(); es = string(); sc = t[i][1]; i += 1
        eat("}")
        rows.append((s, ok, obj, st, nm, es, sc))
    return rows
def q(x): return '"' + x.replace("\\", "\\\\").replace('"', '\\"').replace("\t", "\\t").replace("\n", "\\n").replace("\r", "\\r") + '"'
def by(x): return lstr(x.encode("utf-8"))
o = ["import Verif.Urn", "/-!", "GENERATED by tools/conformance.py from /repo/tables_test.go.", "",
 "The project's own test tables, run on the model: *tests* of its fidelity to the code (what the",
 "Go tests assert in machine_test.go:19-47), not proofs of any property.", "-/", "namespace Urn.Conformance", "",
 "/-- One row of /repo/tables_test.go. -/", "structure Row where", "  input : Bytes", "  ok : Bool", "  pre : Bytes", "  id : Bytes", "  ss : Bytes",
 "  r : Bytes", "  str : Bytes", "  norm : Bytes", "  estr : String", "  scim : Bool", "",
 "/-- machine_test.go:19-47 -/",
 "def check (mode : ParsingMode) (t : Row) : Bool :=",
 "  match newMachine [withParsingMode mode] with",
 "  | .ok m => match m.parse t.input with",
 "    | .ok r => match r.err with",
 "      | some e => !t.ok && r.urn == none && e.text == t.estr && r.m.error == some e && r.m.data == t.input",
 "      | none => match r.urn with",
 "        | none => false",
 "        | some u => t.ok && u.prefix == t.pre && u.ID == t.id && u.SS == t.ss && u.string == t.str",
 "            && (u.normalize id).string == t.norm && r.m.data == t.input",
 "            && (mode != RFC8141Only || (u.rComponent == t.r && u.rfc == .RFC8141))",
 "            && (mode != RFC7643Only || t.scim == u.isSCIM)",
 "    | _ => false",
 "  | _ => false", ""]
tot = 0
for nm, mode in [("urnlexTestCases", "RFC2141Only"), ("scimOnlyTestCases", "RFC7643Only"), ("urn2141OnlyTestCases", "RFC2141Only"), ("rfc8141TestCases", "RFC8141Only")]:
    rows = table(nm); tot += len(rows)
    o.append(f"/-- /repo/tables_test.go `{nm}` -/\ndef {nm} : List Row := [")
    for k, (s, ok, ob, st, n, es, sc) in enumerate(rows):
        ob = ob or {}
        g = lambda f: by(ob.get(f, ""))
        o.append(f"  ⟨{by(s)}, {ok}, {g('prefix')}, {g('ID')}, {g('SS')}, {g('rComponent')}, {by(st)}, {by(n)}, {q(es)}, {sc}⟩" + ("," if k < len(rows)-1 else "]"))
    o.append("")
    for k in range(0, len(rows), 12):
        o.append(f"example : (({nm}.drop {k}).take 12).all (check {mode}) = true := by decide +kernel")
    o.append(f"example : {nm}.length = {len(rows)} := by decide\n")
o.append("end Urn.Conformance")
open(OUT, "w").write("\n".join(o) + "\n"); print(tot, "rows")
