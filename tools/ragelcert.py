#!/usr/bin/env python3
"""Writes lean/Verif/RagelCert.lean: the expressions of Grammar.lean evaluated, and the states of the automaton of the
grammar next to those of the tables.  Runs Lean for that (Verif.Grammar and Verif.Sim must be built).  The result is
checked in RagelCheck*.lean, so nothing here is trusted."""
import collections, os, subprocess, tempfile
LEAN = r'''
import Verif.Grammar
import Verif.Sim
open Urn Urn.Grammar Urn.Ragel Urn.Tables
def nat8 (r : Ranges) : String := "[" ++ String.intercalate ", " (r.map fun x => s!"({x.1}, {x.2})") ++ "]"
def actS (a : Act) : String := "." ++ ((toString (repr a)).splitOn ".").getLast!
def embS (e : Embed) : String := "." ++ ((toString (repr e)).splitOn ".").getLast!
def prS (e : Prio) : String := "." ++ ((toString (repr e)).splitOn ".").getLast!
partial def expS : Exp → String
  | .cls r => s!"(.cls {nat8 r})" | .eps => ".eps" | .cat a b => s!"(.cat {expS a} {expS b})" | .alt a b => s!"(.alt {expS a} {expS b})"
  | .diff a b => s!"(.diff {expS a} {expS b})" | .star a => s!"(.star {expS a})" | .upTo n a => s!"(.upTo {n} {expS a})"
  | .act e n x a => s!"(.act {embS e} {n} {actS x} {expS a})" | .prio w n v a => s!"(.prio {prS w} {n} {v} {expS a})"
partial def plS : Place → String
  | .here => ".here" | .left x => s!"(.left {plS x})" | .right x => s!"(.right {plS x})" | .copy k x => s!"(.copy {k} {plS x})"
  | .both x y => s!"(.both {plS x} {plS y})" | .only x => s!"(.only {plS x})"
def opS : Option Place → String | none => "none" | some x => s!"some {plS x}"
def cfS (c : Config) : String := "[" ++ String.intercalate ", " (c.map opS) ++ "]"
partial def bfs (e : Exp) (todo : List (Config × Nat)) (seen : List (Config × Nat)) : List (Config × Nat) :=
  match todo with
  | [] => seen
  | (x, n) :: todo =>
    let new := (List.range 256).filterMap fun c => (move e x (UInt8.ofNat c)).map fun y => (y.1, (tab n (UInt8.ofNat c)).1)
    let (todo, seen) := new.foldl (fun (t, s) y => if s.contains y then (t, s) else (y :: t, y :: s)) (todo, seen)
    bfs e todo seen
def main : IO Unit := do
  for (nm, i, st) in [("main", Inst.main, 1), ("scimOnly", Inst.scimOnly, 44), ("rfc8141Only", Inst.rfc8141Only, 83), ("fail", Inst.fail, 193)] do
    IO.println s!"EXP {nm} {expS i.exp}"
    for (x, n) in (bfs i.exp [([none], st)] [([none], st)]).reverse do
      IO.println s!"CERT {nm} {n} {cfS x}"
'''
here = os.path.dirname(os.path.abspath(__file__))
project = os.path.join(here, '..', 'lean')
with tempfile.TemporaryDirectory() as d:
    f = os.path.join(d, 'cert.lean')
    open(f, 'w').write(LEAN)
    text = subprocess.run(['lake', 'env', 'lean', '--run', f], cwd=project, check=True, capture_output=True, text=True).stdout
exps={};cert=collections.OrderedDict()
for l in text.splitlines():
    k,nm,r=l.rstrip('\n').split(' ',2)
    if k=='EXP': exps[nm]=r
    else:
        n,c=r.split(' ',1); cert.setdefault(nm,{}).setdefault(int(n),[]).append(c)
def wrap(s,ind,w=118):
    out=[];line=' '*ind
    for t in s.split(' '):
        if len(line)+1+len(t)>w and line.strip(): out.append(line.rstrip()); line=' '*ind
        line+=t+' '
    out.append(line.rstrip()); return '\n'.join(out)
o=[]
o.append('''import Verif.Grammar
/-!
# The states of the grammar and of the generated code side by side

Written by `tools/ragelcert.py`.  For each instantiation of the grammar: its expression, evaluated, and, for each number
of a state in machine.go, the states of the deterministic automaton of `Ragel.lean` that it stands for.  Nothing here
is trusted: `RagelAux.lean` checks it.
-/
set_option autoImplicit false
namespace Urn.Grammar
open Ragel
''')
for nm in ['main','scimOnly','rfc8141Only','fail']:
    o.append(f"/-- machine.go.rl: the expression of `{nm}` -/\ndef {nm}Exp : Exp :=\n{wrap(exps[nm],2)}\n")
    def row(n): return f"  ({n}, [\n"+",\n".join(wrap(c,4) for c in cert[nm][n])+"])"
    chunks=[];cur=[];k=0
    for n in sorted(cert[nm]):
        if cur and k+len(cert[nm][n])>36: chunks.append(cur);cur=[];k=0
        cur.append(n);k+=len(cert[nm][n])
    chunks.append(cur)
    if nm!='rfc8141Only': chunks=[sorted(cert[nm])]
    if len(chunks)==1:
        o.append(f"/-- The states of `{nm}` for each number of a state -/\ndef {nm}Pairs : List (Nat × List Config) := [")
        o.append(",\n".join(map(row,chunks[0]))+"]\n")
    else:
        for j,c in enumerate(chunks,1):
            o.append(f"/-- The states of `{nm}` for each number of a state, part {j} -/\ndef {nm}Pairs{j} : List (Nat × List Config) := [")
            o.append(",\n".join(map(row,c))+"]\n")
        o.append(f"/-- The states of `{nm}` for each number of a state -/\ndef {nm}Pairs : List (Nat × List Config) :=\n  "+" ++ ".join(f"{nm}Pairs{j}" for j in range(1,len(chunks)+1))+"\n")
o.append("end Urn.Grammar")
open(os.path.join(project, 'Verif', 'RagelCert.lean'), 'w').write('\n'.join(o)+'\n')
