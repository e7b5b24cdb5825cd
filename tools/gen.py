#!/usr/bin/env python3
"""Translate the generated automaton in /repo/machine.go into Lean tables.

Usage: gen.py [--check]     (reads /repo/machine.go as text, writes or compares
                             ../lean/Verif/Tables.lean)

The translation is purely syntactic:
  * `case N:` blocks of `switch m.cs`      -> `def stN (c : UInt8) : Nat`
     (the number of the `tr` label jumped to, nested switches become if/else)
  * `trN:` blocks                          -> rows (target state, f label)
  * `fN:` blocks and `_eofActions` cases   -> lists of `Act`, by matching the
     statement text against the text of each Ragel action (dictionary ACTS)
  * the two byte tables                    -> lists of Nat
Anything it does not recognise makes it stop with an error.
"""
import re, sys, os
SRC = "/repo/machine.go"
OUT = os.path.join(os.path.dirname(os.path.abspath(__file__)), "../lean/Verif/Tables.lean")
L = open(SRC).read().split("\n")
C = "(m.data)[(m.p)]"

def fail(i, msg): sys.exit(f"{SRC}:{i+1}: {msg}: {L[i]!r}")
def find(pred, start=0):
    for i in range(start, len(L)):
        if pred(L[i]): return i
    sys.exit("not found")

# ---------------------------------------------------------------- byte tables
def table(name):
    i = find(lambda l: l.startswith(f"var {name} []byte"))
    j = find(lambda l: l == "}", i)
    return i, j, [int(x) for x in re.findall(r"\d+", " ".join(L[i+1:j]))]
toS = table("_toStateActions"); eofS = table("_eofActions")
consts = {}
for i, l in enumerate(L):
    m = re.match(r"const (\w+) int = (\d+)$", l)
    if m: consts[m.group(1)] = (int(m.group(2)), i+1)

# ---------------------------------------------------------------- state switch
beg = find(lambda l: l.strip() == "switch m.cs {")
end = find(lambda l: l == "\t\t}", beg)
cond_atom = [
  (re.compile(r"^%s == (\d+)$" % re.escape(C)), lambda m: f"c == {m[1]}"),
  (re.compile(r"^%s < (\d+)$" % re.escape(C)), lambda m: f"c < {m[1]}"),
  (re.compile(r"^%s > (\d+)$" % re.escape(C)), lambda m: f"c > {m[1]}"),
  (re.compile(r"^%s >= (\d+)$" % re.escape(C)), lambda m: f"c ≥ {m[1]}"),
  (re.compile(r"^(\d+) <= %s && %s <= (\d+)$" % (re.escape(C), re.escape(C))), lambda m: f"({m[1]} ≤ c && c ≤ {m[2]})"),
]
def cond(s, i):
    for r, f in cond_atom:
        m = r.match(s)
        if m: return f(m)
    fail(i, "unknown condition")

# statements: ('goto', n) | ('if', cond, body) | ('switch', [(cond|None, body)])
def stmts(i, stop):
    res = []
    while i < stop:
        l = L[i].strip()
        m = re.match(r"^goto tr(\d+)$", l)
        if m: res.append(("goto", int(m[1]))); i += 1; continue
        if l == "goto _out": res.append(("out",)); i += 1; continue
        ind = L[i][:len(L[i]) - len(L[i].lstrip("\t"))]
        m = re.match(r"^if (.*) \{$", l)
        if m:
            j = find(lambda x: x == ind + "}", i)
            res.append(("if", cond(m[1], i), stmts(i+1, j))); i = j+1; continue
        m = re.match(r"^switch (%s )?\{$" % re.escape(C), l)
        if m:
            j = find(lambda x: x == ind + "}", i)
            heads = [k for k in range(i+1, j) if L[k].startswith(ind + "case ") or L[k] == ind + "default:"]
            if heads[0] != i+1: fail(i, "switch")
            cases = []
            for a, k in enumerate(heads):
                e = heads[a+1] if a+1 < len(heads) else j
                h = L[k].strip()
                if h == "default:": cnd = None
                else:
                    h = h[len("case "):-1]
                    cnd = f"c == {int(h)}" if m[1] else cond(h, k)
                cases.append((cnd, stmts(k+1, e)))
            if any(c is None for c, _ in cases[:-1]): fail(i, "default not last")
            res.append(("switch", cases)); i = j+1; continue
        fail(i, "unknown statement")
    return res
def trans(ss, k):
    """expression for statement list ss followed by continuation text k (None = cannot fall through)"""
    if not ss:
        if k is None: sys.exit("fall through")
        return k
    s, rest = ss[0], ss[1:]
    if s[0] == "goto":
        if rest: sys.exit("dead code")
        return str(s[1])
    kk = trans(rest, k) if rest else k
    if s[0] == "if":
        return f"if {s[1]} then {trans(s[2], kk)} else {kk}"
    if s[0] == "switch":
        out, tail = [], kk
        for c, b in s[1]:
            if c is None: tail = trans(b, kk)
            else: out.append(f"if {c} then {par(trans(b, kk))} else")
        return " ".join(out + [tail])
    sys.exit("bad stmt")
def par(e): return e if e.isdigit() else f"({e})"
heads = [i for i in range(beg+1, end) if re.match(r"^\t\tcase \d+:$", L[i])]
states = {}
for a, k in enumerate(heads):
    e = heads[a+1] if a+1 < len(heads) else end
    n = int(re.findall(r"\d+", L[k])[0])
    ss = stmts(k+1, e)
    states[n] = (k+1, e, ss)

# ---------------------------------------------------------------- tr labels
i = end + 1
while L[i].strip() == "": i += 1
first_tr = int(re.match(r"^\ttr(\d+):$", L[i])[1])   # reached by falling out of the switch
trs = {}
while True:
    m = re.match(r"^\ttr(\d+):$", L[i])
    if not m: break
    m1 = re.match(r"^\t\tm\.cs = (\d+)$", L[i+1]); m2 = re.match(r"^\t\tgoto (_again|f(\d+))$", L[i+2])
    if not m1 or not m2: fail(i, "tr")
    trs[int(m[1])] = (int(m1[1]), None if m2[2] is None else int(m2[2]), i+1)
    i += 3
while L[i].strip() == "": i += 1

# ---------------------------------------------------------------- actions
def err(var, col="m.p"): return [f"m.err = fmt.Errorf({var}, {col})", "(m.p)--", "m.cs = 193", "goto _again"]
nss = ["output.SS = string(m.text())", "// Iterate upper letters lowering them",
  "for _, i := range output.tolower {", "m.data[m.pb+i] = m.data[m.pb+i] + 32", "}",
  "output.norm = string(m.text())", "// Revert the buffer to the original",
  "for _, i := range output.tolower {", "m.data[m.pb+i] = m.data[m.pb+i] - 32", "}"]
ACTS = {
 "mark": ["m.pb = m.p"],
 "tolower": ["// List of positions in the buffer to later lowercase", "output.tolower = append(output.tolower, m.p-m.pb)"],
 "setPre": ["output.prefix = string(m.text())"],
 "throwPreUrnErr": ["if m.parsingMode != RFC8141Only {", "// Throw an error when:",
    "// - we are entering here matching the the prefix in the namespace identifier part",
    "// - looking ahead (3 chars) we find a colon",
    'if pos := m.p + 3; pos < m.pe && m.data[pos] == 58 && output.prefix != "" {',
    "m.err = fmt.Errorf(errNoUrnWithinID, pos)", "(m.p)--", "m.cs = 193", "goto _again", "}", "}"],
 "setNid": ["output.ID = string(m.text())"],
 "setNss": nss,
 "errPre": err("errPrefix"), "errNid": err("errIdentifier"), "errNss": err("errSpecificString"),
 "errUrn": err("errNoUrnWithinID"),
 "errHex": ["if m.parsingMode == RFC2141Only || m.parsingMode == RFC8141Only {"] + err("errHex") + ["}"],
 "baseType": ["output.kind = RFC2141"],
 "errScimNid": err("errSCIMNamespace"), "errScimType": err("errSCIMType"), "errScimName": err("errSCIMName"),
 "errScimOther": ["if m.p == m.pe {", "m.err = fmt.Errorf(errSCIMOtherIncomplete, m.p-1)", "} else {",
    "m.err = fmt.Errorf(errSCIMOther, m.p)", "}", "(m.p)--", "m.cs = 193", "goto _again"],
 "scimType": ["output.kind = RFC7643"], "createScim": ["output.scim = &SCIM{}"],
 "setScimType": ["output.scim.Type = scimschema.TypeFromString(string(m.text()))"],
 "markScim": ["output.scim.pos = m.p"],
 "setScimName": ["output.scim.Name = string(m.data[output.scim.pos:m.p])"],
 "setScimOther": ["output.scim.Other = string(m.data[output.scim.pos:m.p])"],
 "errNss8141": err("err8141SpecificString"), "errNid8141": err("err8141Identifier"),
 "rfc8141Type": ["output.kind = RFC8141"],
 "setRComponent": ["output.rComponent = string(m.text())"],
 "setQComponent": ["output.qComponent = string(m.text())"],
 "setFComponent": ["output.fComponent = string(m.text())"],
 "informalNidMatch": ["(m.p)--", "m.err = fmt.Errorf(err8141InformalID, m.p)", "m.cs = 193", "goto _again"],
 "markRStart": ["if output.rStart {"] + err("err8141RComponentStart") + ["}", "output.rStart = true"],
 "markQStart": ["if output.qStart {"] + err("err8141QComponentStart") + ["}", "output.qStart = true"],
 "errMalformedR": err("err8141MalformedRComp"), "errMalformedQ": err("err8141MalformedQComp"),
}
# every error action ends by decrementing p and entering state 193 (en_fail)
assert consts["enFail"][0] == 193
def acts(a, b, drop_again):
    body = [x.strip() for x in L[a:b] if x.strip()]
    if drop_again:
        if body[-1] != "goto _again": fail(b-1, "f block")
        body = body[:-1]
    out = []
    while body:
        for n, t in ACTS.items():
            if body[:len(t)] == t:
                out.append(n); body = body[len(t):]; break
        else: sys.exit(f"{SRC}:{a+1}: unknown action text {body[:3]}")
    return out
fs = {}
heads = []
while L[i] != "\t_again:":
    m = re.match(r"^\tf(\d+):$", L[i])
    if m: heads.append((int(m[1]), i))
    i += 1
again = i
for a, (n, k) in enumerate(heads):
    e = heads[a+1][1] if a+1 < len(heads) else again
    fs[n] = (acts(k+1, e, True), k+1, e)
# ---------------------------------------------------------------- _again
want = ["_again:", "switch _toStateActions[m.cs] {", "case 33:"] + ACTS["informalNidMatch"] + ["}", "if m.cs == 0 {", "goto _out", "}",
  "if (m.p)++; (m.p) != (m.pe) {", "goto _resume", "}", "_testEof:", "{", "}", "if (m.p) == (m.eof) {", "switch _eofActions[m.cs] {"]
j = find(lambda l: "switch _eofActions" in l)
got = [x.strip() for x in L[again:j+1] if x.strip()]
assert got == want, (got, want)
# ---------------------------------------------------------------- eof cases
ind = "\t\t\t"
e_end = find(lambda l: l == ind + "}", j)
heads = [k for k in range(j+1, e_end) if re.match(r"^\t\t\tcase \d+:$", L[k])]
eofs = {}
for a, k in enumerate(heads):
    e = heads[a+1] if a+1 < len(heads) else e_end
    eofs[int(re.findall(r"\d+", L[k])[0])] = (acts(k+1, e, False), k+1, e)

# ---------------------------------------------------------------- sanity
NS = max(states) + 1
assert sorted(states) == list(range(NS)) and NS == len(toS[2]) == len(eofS[2]), NS
assert states[0][2] == [("out",)]
for n, (t, f, _) in trs.items():
    assert t < NS and (f is None or f in fs)
def gotos(ss):
    for s in ss:
        if s[0] == "goto": yield s[1]
        elif s[0] == "if": yield from gotos(s[2])
        elif s[0] == "switch":
            for _, b in s[1]: yield from gotos(b)
for n, (_, _, ss) in states.items():
    for g in gotos(ss): assert g in trs
for v in eofS[2]: assert v == 0 or v in eofs
assert set(toS[2]) == {0, 33}

# ---------------------------------------------------------------- output
o = []
w = o.append
w("/-!\nGENERATED by tools/gen.py from /repo/machine.go - do not edit by hand.\n")
w("The tables of the Ragel generated automaton.  Every definition cites the lines of\n/repo/machine.go it was translated from.\n-/")
w("namespace Urn.Tables\n")
w("/-- The Ragel actions (machine.go.rl) whose text makes up the `f` blocks and the EOF cases\nof machine.go.  `mark_scim_name` and `mark_scim_other` have the same text and are both\n`markScim`.  Their meaning is given in `Verif/Machine.lean` (`execAct`). -/")
w("inductive Act where")
for n in ACTS: w(f"  | {n}")
w("  deriving DecidableEq, Repr\n")
for nm in ["start", "firstFinal", "enScimOnly", "enRfc8141Only", "enFail", "enMain"]:
    w(f"/-- machine.go:{consts[nm][1]} -/\nabbrev {nm} : Nat := {consts[nm][0]}\n")
def lst(xs):
    rows = [", ".join(map(str, xs[k:k+16])) for k in range(0, len(xs), 16)]
    return "[" + ",\n   ".join(rows) + "]"
w(f"/-- machine.go:{toS[0]+1}-{toS[1]+1} -/\ndef toStateActions : List Nat :=\n  {lst(toS[2])}\n")
w(f"/-- machine.go:{eofS[0]+1}-{eofS[1]+1} -/\ndef eofActions : List Nat :=\n  {lst(eofS[2])}\n")
for n in range(1, NS):
    a, b, ss = states[n]
    w(f"/-- machine.go:{a}-{b} -/\ndef st{n} (c : UInt8) : Nat :=\n  {trans(ss, None)}\n")
w("/-- Where `switch m.cs` (machine.go:%d-%d) jumps to. -/" % (beg+1, end+1))
w("inductive Jump where\n  | tr (n : Nat)\n  | out\n  deriving DecidableEq, Repr\n")
w(f"/-- `switch m.cs` (machine.go:{beg+1}-{end+1}): state (other than 0) and byte to `tr` label.\nThe switch has no default: an unknown state falls through to the first label after it, `tr{first_tr}`. -/")
w("def trOf (cs : Nat) (c : UInt8) : Nat :=\n  match cs with")
for n in range(1, NS): w(f"  | {n} => st{n} c")
w(f"  | _ => {first_tr}\n")
w("/-- The whole `switch m.cs`: state 0 goes to `_out`. -/")
w("def dispatch (cs : Nat) (c : UInt8) : Jump :=\n  if cs = 0 then .out else .tr (trOf cs c)\n")
lo = min(t[2] for t in trs.values()); hi = max(t[2] for t in trs.values()) + 2
w(f"/-- The `tr` labels (machine.go:{lo}-{hi}): target state and `f` label (`none` = `goto _again`). -/")
w("def trRow (n : Nat) : Nat × Option Nat :=\n  match n with")
for n in sorted(trs):
    t, f, ln = trs[n]
    w(f"  | {n} => ({t}, {'none' if f is None else f'some {f}'})  -- machine.go:{ln}")
w("  | _ => (0, none)\n")
w("/-- The `f` labels: the actions they run before `goto _again`. -/")
w("def fActs (n : Nat) : List Act :=\n  match n with")
for n in sorted(fs):
    w(f"  | {n} => [{', '.join('.'+x for x in fs[n][0])}]  -- machine.go:{fs[n][1]}-{fs[n][2]}")
w("  | _ => []\n")
w("/-- The cases of `switch _eofActions[m.cs]`. -/")
w("def eofActs (n : Nat) : List Act :=\n  match n with")
for n in sorted(eofs):
    w(f"  | {n} => [{', '.join('.'+x for x in eofs[n][0])}]  -- machine.go:{eofs[n][1]}-{eofs[n][2]}")
w("  | _ => []\n")
w("end Urn.Tables")
txt = "\n".join(o) + "\n"
if "--check" in sys.argv:
    ok = open(OUT).read() == txt
    print("Tables.lean is", "up to date" if ok else "DIFFERENT"); sys.exit(0 if ok else 1)
os.makedirs(os.path.dirname(OUT), exist_ok=True)
open(OUT, "w").write(txt)
print("states", NS, "tr", len(trs), "f", len(fs), "eof", len(eofs))
