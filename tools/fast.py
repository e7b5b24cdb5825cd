#!/usr/bin/env python3
"""Generate lean/Verif/Fast.lean from lean/Verif/Tables.lean.

The transition functions of Tables.lean are long `match`es, which the kernel evaluates one case at
a time.  Fast.lean has the same functions as binary decision trees, with a proof that they are
equal, to make the table lemmas quick to check.  Nothing but the proofs depends on it.
"""
import os, re
HERE = os.path.dirname(os.path.abspath(__file__))
src = open(os.path.join(HERE, "../lean/Verif/Tables.lean")).read()
def body(name):
    i = src.index("def " + name)
    return src[i:src.index("\n\n", i)]
rows = dict((int(a), b) for a, b in re.findall(r"\| (\d+) => (\(\d+, (?:none|some \d+)\))", body("trRow")))
sts = dict((int(a), b) for a, b in re.findall(r"\| (\d+) => (st\d+ c)", body("trOf")))
facts = dict((int(a), b) for a, b in re.findall(r"\| (\d+) => (\[.*?\])", body("fActs")))
def tree(d, lo, hi, var):
    if hi - lo == 1: return d[lo]
    m = (lo + hi) // 2
    return f"(bif Nat.blt {var} {m} then {tree(d, lo, m, var)} else {tree(d, m, hi, var)})"
NT, NS, NF = max(rows) + 1, max(sts) + 1, max(facts) + 1
for n in range(NT): rows.setdefault(n, "(0, none)")
sts[0] = re.search(r"\| _ => (\d+)", body("trOf")).group(1)
for n in range(NF): facts.setdefault(n, "[]")
o = []
w = o.append
w("import Verif.Tables\n/-!\nGENERATED by tools/fast.py from Tables.lean - do not edit by hand.\n")
w("The transition functions as binary decision trees, and the proof that they are the functions of\nTables.lean.  Only used to speed up the proofs of the table lemmas.\n-/")
w("namespace Urn.Tables\n")
w(f"/-- `trRow` as a tree. -/\ndef trRowF (n : Nat) : Nat × Option Nat :=\n  bif Nat.blt n {NT} then {tree(rows, 0, NT, 'n')} else trRow n\n")
w(f"/-- `fActs` as a tree. -/\ndef fActsF (n : Nat) : List Act :=\n  bif Nat.blt n {NF} then {tree(facts, 0, NF, 'n')} else fActs n\n")
w(f"/-- `trOf` as a tree. -/\ndef trOfF (cs : Nat) (c : UInt8) : Nat :=\n  bif Nat.blt cs {NS} then {tree(sts, 0, NS, 'cs')} else trOf cs c\n")
for (f, g, n) in [("trRowF", "trRow", NT), ("fActsF", "fActs", NF)]:
    w(f"""theorem {f}_eq (n : Nat) : {g} n = {f} n := by
  have h : ∀ i : Fin {n}, {g} i = {f} i := by decide +kernel
  by_cases hn : n < {n}
  · exact h ⟨n, hn⟩
  · have : Nat.blt n {n} = false := by
      cases hb : Nat.blt n {n} with
      | false => rfl
      | true => exact absurd (Nat.le_of_ble_eq_true hb) hn
    simp only [{f}, this, cond_false]
""")
w(f"""theorem trOfF_eq (cs : Nat) (c : UInt8) : trOf cs c = trOfF cs c := by
  by_cases hn : cs < {NS}
  · exact aux cs hn
  · have : Nat.blt cs {NS} = false := by
      cases hb : Nat.blt cs {NS} with
      | false => rfl
      | true => exact absurd (Nat.le_of_ble_eq_true hb) hn
    simp only [trOfF, this, cond_false]
where
  aux : ∀ cs < {NS}, trOf cs c = trOfF cs c""")
for n in range(NS): w(f"    | {n}, _ => rfl")
w(f"    | n + {NS}, h => absurd h (by omega)\n")
w("end Urn.Tables")
open(os.path.join(HERE, "../lean/Verif/Fast.lean"), "w").write("\n".join(o) + "\n")
