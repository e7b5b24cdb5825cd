import Verif.GoSpecAux
import Verif.PropsJson
/-!
# The text of the package

C63-C66 of `properties.jsonl`: what the files in /repo say, read as Go, is what the model says.  The theorems are about any
program `P` with `IsProgram files P`; there is exactly one.  `X` has the functions of other packages: `strings.ToLower` on
texts that are not ASCII, and `encoding/json` on strings; and `X.bits` is the size of an `int`, 32 or 64: sums and differences
wrap around.  `X.Fits s` says that the length of `s` is an `int`, as it always is in Go.
-/
set_option autoImplicit false
set_option linter.unusedSimpArgs false
namespace Urn.GoLang
open Spec

/-! ## C63: machines -/

/-- The files have a meaning. -/
theorem C63_program : ∃ P, IsProgram files P ∧ ∀ Q, IsProgram files Q → Q = P :=
  ⟨prog, isProgram_prog, fun _ h => program_eq h⟩

/-- `NewMachine` with the options `WithParsingMode(x)`. -/
theorem C63_new {P : Prog} (hP : IsProgram files P) (X : Ext) (h : Heap) (xs : List ParsingMode) :
    ∃ m h', newMachine (xs.map withParsingMode) = .ok m ∧ Does (fun n => callNew P X n xs h) ([.ptr "machine" (some h.length)], h') ∧
      MachineAt h' h.length m ∧ ∀ c, c < h.length → h'[c]? = h[c]? := by
  cases program_eq hP
  obtain ⟨m, h1, h2⟩ := does_new (X := X) (h := h) xs
  exact ⟨m, _, h1, h2, ⟨reachable_new h1, .nil, 0, by simp⟩, fun c hc => List.getElem?_append_left hc⟩

/-- For the examples: a heap with the bytes of a text at 0 and a machine at 1. -/
theorem Cases.machineAt {P : Prog} (hP : IsProgram files P) (X : Ext) : ∃ h m, MachineAt h 1 m ∧ Buf.has h (.part 0 [] [] 7) (lit "urn:a:B") := by
  obtain ⟨m, h', -, -, h1, h2⟩ := C63_new hP X [.arr (lit "urn:a:B")] [RFC2141Only]
  exact ⟨h', m, h1, by rw [Buf.has, h2 0 (by decide)]; exact ⟨rfl, by decide, by decide⟩⟩

/-- `Parse` of a machine with any slice: the results, the machine afterwards, and nothing else has changed (not the input
either). -/
theorem C63_parse {P : Prog} (hP : IsProgram files P) (X : Ext) (h : Heap) (a : Nat) (m : Machine) (hm : MachineAt h a m)
    (b : Buf) (s : Bytes) (hb : b.has h s) (hf : X.Fits s) :
    ∃ r p h', m.parse s = .ok r ∧ Does (fun n => runMethod P X n (.ptr "machine" (some a)) "Parse" [b.val s.length] h)
        ([.ptr "URN" p, errVal r.err], h') ∧ UrnPtr h' p r.urn ∧ (∀ c, p = some c → h.length ≤ c) ∧ MachineAt h' a r.m ∧
      ∀ c, c < h.length → c ≠ a → h'[c]? = h[c]? := by
  cases program_eq hP
  obtain ⟨hr, b0, n0, hm⟩ := hm
  obtain ⟨m', hp, hd, -⟩ := parse_ref m s hr.start
  obtain ⟨h', ao, e, h1, h2, h3, h4, h5⟩ := parse_call (X := X) hm hb (start_lt hr.start) ((parseBits_start hr.start hf).trans hp) (Nat.le_refl _)
  simp only [hd] at h2
  have hr' : Reachable m' := hr.execAll (ops := [.parse s]) 
    (outs := [.parsed (refFrom m.startParsingAt m.parsingMode s).1 (refFrom m.startParsingAt m.parsingMode s).2])
    (by simp only [Machine.execAll, Machine.exec, hp, Run.ok_bind, Run.pure_eq])
  refine ⟨_, _, h', hp, does_method find_parse e, ?_, ?_, ⟨hr', b, s.length, h1⟩, ?_⟩
  · dsimp only at h4 ⊢
    cases hu : (refFrom m.startParsingAt m.parsingMode s).1 with
    | none => rfl
    | some u => exact (h4 u hu).ptr
  · intro c hc
    dsimp only at h4 hc
    cases hu : (refFrom m.startParsingAt m.parsingMode s).1 with
    | none => rw [hu] at hc; cases hc
    | some u => rw [hu] at hc; cases hc; exact (h4 u hu).1
  · intro c hc hca
    cases b with
    | nil => exact h5 c hc hca trivial
    | part d pre post cap =>
        by_cases hcd : c = d
        · subst hcd
          rw [hb.1, h2.1]
        · exact h5 c hc hca hcd

example {P : Prog} (hP : IsProgram files P) (X : Ext) : ∃ h h' p e,
    Does (fun n => runMethod P X n (.ptr "machine" (some 1)) "Parse" [.bytes 0 0 7 7] h) ([.ptr "URN" p, e], h') := by
  obtain ⟨h, m, hm, hb⟩ := Cases.machineAt hP X
  obtain ⟨r, p, h', -, hd, -⟩ := C63_parse hP X h 1 m hm _ _ hb (X.fits_of (by decide))
  exact ⟨h, h', p, _, hd⟩

/-- `Parse` is done within a bound on the depth of calls and the number of jumps that is linear in the length of the slice:
the generated code jumps at most `9 * len(input) + 70` times (compare C02). -/
theorem C63_linear {P : Prog} (hP : IsProgram files P) (X : Ext) (h : Heap) (a : Nat) (m : Machine) (hm : MachineAt h a m)
    (b : Buf) (s : Bytes) (hb : b.has h s) (hf : X.Fits s) :
    ∃ vs h', runMethod P X (9 * s.length + 70) (.ptr "machine" (some a)) "Parse" [b.val s.length] h = .ok (vs, h') := by
  cases program_eq hP
  obtain ⟨hr, b0, n0, hm⟩ := hm
  obtain ⟨m', hp, -⟩ := parse_ref m s hr.start
  obtain ⟨h', ao, e, -⟩ := parse_text (X := X) hm hb (start_lt hr.start) ((parseBits_start hr.start hf).trans hp) _ (Nat.le_refl _)
  exact ⟨_, h', e⟩

example {P : Prog} (hP : IsProgram files P) (X : Ext) : ∃ n h vs h', n = 133 ∧
    runMethod P X n (.ptr "machine" (some 1)) "Parse" [.bytes 0 0 7 7] h = .ok (vs, h') := by
  obtain ⟨h, m, hm, hb⟩ := Cases.machineAt hP X
  obtain ⟨vs, h', hd⟩ := C63_linear hP X h 1 m hm _ _ hb (X.fits_of (by decide))
  exact ⟨9 * (lit "urn:a:B").length + 70, h, vs, h', by decide, hd⟩

/-- `WithParsingMode` and `Error` of a machine. -/
theorem C63_methods {P : Prog} (hP : IsProgram files P) (X : Ext) (h : Heap) (a : Nat) (m : Machine) (hm : MachineAt h a m) :
    (∀ x, ∃ h', Does (fun n => runMethod P X n (.ptr "machine" (some a)) "WithParsingMode" [.int "ParsingMode" x] h) ([], h') ∧
      MachineAt h' a (m.withParsingMode x) ∧ ∀ c, c < h.length → c ≠ a → h'[c]? = h[c]?) ∧
    Does (fun n => runMethod P X n (.ptr "machine" (some a)) "Error" [] h) ([errVal m.error], h) := by
  cases program_eq hP
  obtain ⟨hr, b0, n0, hm⟩ := hm
  refine ⟨fun x => ⟨_, does_method find_setMode (setMode_call (n := 0) hm), ⟨?_, b0, n0, ?_⟩, ?_⟩, does_method find_error (error_call (n := 0) hm)⟩
  · exact hr.execAll (ops := [.withParsingMode x]) (outs := [.unit]) rfl
  · exact List.getElem?_set_self (List.getElem?_eq_some_iff.1 hm).1
  · intro c _ hca
    exact List.getElem?_set_ne (Ne.symm hca)

example {P : Prog} (hP : IsProgram files P) (X : Ext) : ∃ h h',
    Does (fun n => runMethod P X n (.ptr "machine" (some 1)) "WithParsingMode" [.int "ParsingMode" RFC8141Only] h) ([], h') := by
  obtain ⟨h, m, hm, -⟩ := Cases.machineAt hP X
  obtain ⟨h', hd, -⟩ := (C63_methods hP X h 1 m hm).1 RFC8141Only
  exact ⟨h, h', hd⟩

theorem op_text {X : Ext} {a : Nat} (op : Urn.Op) (hf : OpFits X op) (h : Heap) (m : Machine) (hm : MachineAt h a m) :
    ∃ m' out v h', m.exec op = .ok (m', out) ∧ Does (fun n => callOp prog X n (.ptr "machine" (some a)) op h) (v, h') ∧
      OutIs h' out v ∧ MachineAt h' a m' ∧ ∀ c, c < h.length → c ≠ a → h'[c]? = h[c]? := by
  cases op with
  | parse s =>
      have hm' : MachineAt (h ++ [.arr s]) a m := by
        obtain ⟨hr, b0, n0, hm⟩ := hm
        exact ⟨hr, b0, n0, by rw [List.getElem?_append_left (List.getElem?_eq_some_iff.1 hm).1]; exact hm⟩
      obtain ⟨r, p, h', h1, h2, h3, -, h4, h5⟩ := C63_parse isProgram_prog X (h ++ [.arr s]) a m hm' (.part h.length [] [] s.length) s ⟨by simp, Nat.le_refl _, by simp⟩ hf
      refine ⟨r.m, .parsed r.urn r.err, _, h', by simp only [Machine.exec, h1, Run.ok_bind, Run.pure_eq], h2, ⟨p, rfl, h3⟩, h4, ?_⟩
      intro c hc hca
      rw [h5 c (by simp; omega) hca, List.getElem?_append_left hc]
  | withParsingMode x =>
      obtain ⟨h', h1, h2, h3⟩ := (C63_methods isProgram_prog X h a m hm).1 x
      exact ⟨_, _, _, h', rfl, h1, rfl, h2, h3⟩
  | error => exact ⟨_, _, _, h, rfl, (C63_methods isProgram_prog X h a m hm).2, rfl, hm, fun _ _ _ => rfl⟩

theorem length_le {h h' : Heap} {a : Nat} {m : Machine} (hm : MachineAt h' a m) (hk : ∀ c, c < h.length → c ≠ a → h'[c]? = h[c]?) :
    h.length ≤ h'.length := by
  obtain ⟨-, b, n, hm⟩ := hm
  have ha := (List.getElem?_eq_some_iff.1 hm).1
  cases hl : h.length with
  | zero => omega
  | succ k =>
      by_cases hk' : k = a
      · omega
      · have := hk k (by omega) hk'
        rw [List.getElem?_eq_getElem (by omega : k < h.length)] at this
        have := (List.getElem?_eq_some_iff.1 this).1
        omega

theorem ops_text {X : Ext} {a : Nat} (ops : List Urn.Op) : (∀ op ∈ ops, OpFits X op) → ∀ (h : Heap) (m : Machine), MachineAt h a m →
    ∃ m' outs vs h', m.execAll ops = .ok (m', outs) ∧ Does (fun n => callOps prog X n (.ptr "machine" (some a)) ops h) (vs, h') ∧
      OutsAre h' outs vs ∧ MachineAt h' a m' ∧ ∀ c, c < h.length → c ≠ a → h'[c]? = h[c]? := by
  induction ops with
  | nil => exact fun _ h m hm => ⟨m, [], [], h, rfl, Does.pure, trivial, hm, fun _ _ _ => rfl⟩
  | cons op ops ih =>
      intro hf h m hm
      obtain ⟨m1, out, v, h1, e1, d1, o1, hm1, k1⟩ := op_text (X := X) op (hf _ (List.mem_cons_self ..)) h m hm
      obtain ⟨m2, outs, vs, h2, e2, d2, o2, hm2, k2⟩ := ih (fun o ho => hf o (List.mem_cons_of_mem _ ho)) h1 m1 hm1
      have hl := length_le hm1 k1
      refine ⟨m2, out :: outs, v :: vs, h2, by simp only [Machine.execAll, e1, e2, Run.ok_bind, Run.pure_eq], ?_, ⟨?_, o2⟩, hm2, ?_⟩
      · exact Does.bind (g := fun n (r : List Val × Heap) => callOps prog X n (.ptr "machine" (some a)) ops r.2 >>= fun y => .ok (r.1 :: y.1, y.2)) d1
          (Does.bind (g := fun n (y : List (List Val) × Heap) => .ok (v :: y.1, y.2)) d2 Does.pure)
      · cases out with
        | parsed u e =>
            obtain ⟨p, rfl, hu⟩ := o1
            refine ⟨p, rfl, hu.except ?_ k2⟩
            obtain ⟨-, b, n, hm1⟩ := hm1
            exact ⟨_, _, hm1⟩
        | unit => exact o1
        | err e => exact o1
      · intro c hc hca
        rw [k2 c (by omega) hca, k1 c hc hca]

/-- A client that makes a machine and calls its methods in any order: at the end the results are still those of the model, and
what was in memory before is still there. -/
theorem C63_history {P : Prog} (hP : IsProgram files P) (X : Ext) (h : Heap) (xs : List ParsingMode) (ops : List Urn.Op)
    (hf : ∀ op ∈ ops, OpFits X op) :
    ∃ m m' outs vs h', newMachine (xs.map withParsingMode) = .ok m ∧ m.execAll ops = .ok (m', outs) ∧
      Does (fun n => client P X n xs ops h) (vs, h') ∧ OutsAre h' outs vs ∧ ∀ c, c < h.length → h'[c]? = h[c]? := by
  obtain ⟨m, h1, e1, d1, hm, k1⟩ := C63_new hP X h xs
  cases program_eq hP
  obtain ⟨m', outs, vs, h2, e2, d2, o2, -, k2⟩ := ops_text (X := X) ops hf h1 m hm
  have hl : h.length < h1.length := by
    obtain ⟨-, b, n, hm⟩ := hm
    exact (List.getElem?_eq_some_iff.1 hm).1
  refine ⟨m, m', outs, vs, h2, e1, e2, ?_, o2, ?_⟩
  · exact Does.bind (g := fun n (r : List Val × Heap) => one r.1 >>= fun m => callOps prog X n m ops r.2) d1
      (Does.bind (f := fun _ => .ok (Val.ptr "machine" (some h.length))) (g := fun n m => callOps prog X n m ops h1) Does.pure d2)
  · intro c hc
    rw [k2 c (by omega) (by omega), k1 c hc]

/-- Two inputs on one machine, in an empty memory. -/
example (P : Prog) (hP : IsProgram files P) (X : Ext) : ∃ p h',
    Does (fun n => client P X n [RFC2141Only] [.parse (lit "urn:a:B"), .parse (lit "urn"), .error] [])
      ([[.ptr "URN" (some p), .nil], [.ptr "URN" none, .err (lit "expecting the prefix to be the \"urn\" string (whatever case) [col 3]")], [.err (lit "expecting the prefix to be the \"urn\" string (whatever case) [col 3]")]], h') ∧
    UrnPtr h' (some p) (some (urn2141 (lit "urn") (lit "a") (lit "B"))) := by
  obtain ⟨m, m', outs, vs, h', h1, h2, h3, h4, -⟩ := C63_history hP X [] [RFC2141Only] [.parse (lit "urn:a:B"), .parse (lit "urn"), .error] (by
    simp only [List.mem_cons, List.not_mem_nil, or_false, forall_eq_or_imp, forall_eq]
    exact ⟨X.fits_of (by decide), X.fits_of (by decide), trivial⟩)
  have hx : (newMachine [withParsingMode RFC2141Only] >>= fun m => m.execAll [.parse (lit "urn:a:B"), .parse (lit "urn"), .error] >>=
      fun r => .ok r.2) = .ok [.parsed (some (urn2141 (lit "urn") (lit "a") (lit "B"))) none, .parsed none (some ⟨.pfx, 3⟩), .err (some ⟨.pfx, 3⟩)] := by
    decide +kernel
  simp only [List.map_cons, List.map_nil] at h1
  rw [h1, Run.ok_bind, h2, Run.ok_bind] at hx
  cases hx
  match vs, h4 with
  | [_, _, _], ⟨⟨p, rfl, q1⟩, ⟨⟨_, rfl, rfl⟩, rfl, _⟩⟩ =>
    have ⟨c, _, hc, _⟩ := q1
    subst hc
    exact ⟨c, h', h3, q1⟩

/-! ## C64: the function `Parse` -/

/-- `Parse` with any slice and any options `WithParsingMode(x)`: it returns what the model says, and nothing that was in memory
before is changed. -/
theorem C64_parse {P : Prog} (hP : IsProgram files P) (X : Ext) (h : Heap) (b : Buf) (s : Bytes) (hb : b.has h s) (hf : X.Fits s)
    (xs : List ParsingMode) :
    ∃ r p h', parse s (xs.map withParsingMode) = .ok r ∧
      Does (fun n => callParse P X n (b.val s.length) xs h) ([.ptr "URN" p, .bool r.ok], h') ∧ UrnPtr h' p r.urn ∧
      (∀ c, p = some c → h.length ≤ c) ∧ ∀ c, c < h.length → h'[c]? = h[c]? := by
  cases program_eq hP
  obtain ⟨r, hr⟩ := C01_parse_returns s (xs.map withParsingMode)
  obtain ⟨h', p, e, h1, h2, h3, h4⟩ := pkgParse_call (X := X) xs hb hf hr (Nat.le_refl _)
  rw [C03_buffer_restored _ _ _ hr] at h2
  refine ⟨r, p, h', hr, ?_, h1.ptr, ?_, has_same hb h2 h4⟩
  · exact Does.bind (g := fun n (r : List Val × Heap) => runFn prog X n "Parse" (b.val s.length :: r.1) false r.2) (does_options xs)
      (does_fn find_pkgParse e)
  · intro c hc
    cases hu : r.urn with
    | none => rw [hu] at h1; rw [h1] at hc; cases hc
    | some u =>
        rw [hu] at h1
        obtain ⟨a, rfl, ha⟩ := h1
        cases hc
        exact ha.1

example {P : Prog} (hP : IsProgram files P) (X : Ext) :=
  C64_parse hP X [.arr (lit "URN:a:B")] (.part 0 [] [] 7) (lit "URN:a:B") ⟨rfl, by decide, by decide⟩ (X.fits_of (by decide)) [RFC2141Only]

/-- `Parse` of the text accepts `s` in this mode: it returns a pointer that is not nil. -/
def TextAccepts (P : Prog) (X : Ext) (mode : ParsingMode) (s : Bytes) : Prop :=
  ∀ h b, Buf.has h b s → ∃ c ok h', Does (fun n => callParse P X n (b.val s.length) [mode] h) ([.ptr "URN" (some c), .bool ok], h')

/-- `Parse` of the text rejects `s` in this mode: it returns nil. -/
def TextRejects (P : Prog) (X : Ext) (mode : ParsingMode) (s : Bytes) : Prop :=
  ∀ h b, Buf.has h b s → ∃ ok h', Does (fun n => callParse P X n (b.val s.length) [mode] h) ([.ptr "URN" none, .bool ok], h')

theorem accepts_text {P : Prog} (hP : IsProgram files P) (X : Ext) (mode : ParsingMode) (s : Bytes) (hf : X.Fits s) :
    (TextAccepts P X mode s ↔ Accepts mode s) ∧ (TextRejects P X mode s ↔ ¬ Accepts mode s) := by
  have hb : Buf.has [.arr s] (.part 0 [] [] s.length) s := ⟨by simp, Nat.le_refl _, by simp⟩
  have key : ∀ h b, Buf.has h b s → (Accepts mode s → ∃ c ok h', Does (fun n => callParse P X n (b.val s.length) [mode] h) ([.ptr "URN" (some c), .bool ok], h')) ∧
      (¬ Accepts mode s → ∃ ok h', Does (fun n => callParse P X n (b.val s.length) [mode] h) ([.ptr "URN" none, .bool ok], h')) := by
    intro h b hb
    obtain ⟨r, p, h', h1, h2, h3, -⟩ := C64_parse hP X h b s hb hf [mode]
    constructor
    · rintro ⟨u, r', h4, h5⟩
      simp only [List.map_cons, List.map_nil] at h1
      rw [h1] at h4
      cases h4
      rw [h5] at h3
      obtain ⟨c, _, rfl, _⟩ := h3
      exact ⟨c, r.ok, h', h2⟩
    · intro hn
      cases hu : r.urn with
      | none => rw [hu] at h3; cases h3; exact ⟨r.ok, h', h2⟩
      | some u => exact absurd ⟨u, r, h1, hu⟩ hn
  refine ⟨⟨fun ht => ?_, fun ha h b hb => (key h b hb).1 ha⟩, ⟨fun ht ha => ?_, fun ha h b hb => (key h b hb).2 ha⟩⟩
  · refine Classical.byContradiction fun hn => ?_
    obtain ⟨c, ok, h1, d1⟩ := ht _ _ hb
    obtain ⟨ok', h2, d2⟩ := (key _ _ hb).2 hn
    cases d1.unique d2
  · obtain ⟨ok, h1, d1⟩ := ht _ _ hb
    obtain ⟨c, ok', h2, d2⟩ := (key _ _ hb).1 ha
    cases d1.unique d2

/-- The language of the text of `Parse` in RFC 2141 mode (compare C05). -/
theorem C64_exact_2141 {P : Prog} (hP : IsProgram files P) (X : Ext) (s : Bytes) (hf : X.Fits s) :
    (TextAccepts P X RFC2141Only s ↔ (∃ pre nid nss, Urn2141 s pre nid nss) ∧ ¬ ((s[4]? = some 117 ∨ s[4]? = some 85) ∧ s[7]? = some 58)) ∧
    (TextRejects P X RFC2141Only s ↔ ¬ TextAccepts P X RFC2141Only s) := by
  rw [(accepts_text hP X _ s hf).2, (accepts_text hP X _ s hf).1]
  exact ⟨C05_exact s, Iff.rfl⟩

/-- The language of the text of `Parse` in RFC 7643 mode (compare C09). -/
theorem C64_exact_7643 {P : Prog} (hP : IsProgram files P) (X : Ext) (s : Bytes) (hf : X.Fits s) :
    (TextAccepts P X RFC7643Only s ↔ ∃ pre kw ty name tail other, UrnScim s pre kw ty name tail other) ∧
    (TextRejects P X RFC7643Only s ↔ ¬ TextAccepts P X RFC7643Only s) := by
  rw [(accepts_text hP X _ s hf).2, (accepts_text hP X _ s hf).1]
  exact ⟨C09_exact s, Iff.rfl⟩

/-- The language of the text of `Parse` in RFC 8141 mode (compare C12). -/
theorem C64_exact_8141 {P : Prog} (hP : IsProgram files P) (X : Ext) (s : Bytes) (hf : X.Fits s) :
    (TextAccepts P X RFC8141Only s ↔ ∃ pre nid nss r q f, Urn8141 s pre nid nss r q f) ∧
    (TextRejects P X RFC8141Only s ↔ ¬ TextAccepts P X RFC8141Only s) := by
  rw [(accepts_text hP X _ s hf).2, (accepts_text hP X _ s hf).1]
  exact ⟨C12_exact s, Iff.rfl⟩

example {P : Prog} (hP : IsProgram files P) (X : Ext) : TextAccepts P X RFC2141Only Cases.s2141 ∧ TextAccepts P X RFC7643Only Cases.s7643 ∧
    TextAccepts P X RFC8141Only Cases.s8141 :=
  ⟨(C64_exact_2141 hP X _ (X.fits_of (by decide))).1.mpr ⟨⟨_, _, _, Cases.w2141⟩, by decide⟩, (C64_exact_7643 hP X _ (X.fits_of (by decide))).1.mpr ⟨_, _, _, _, _, _, Cases.w7643⟩,
    (C64_exact_8141 hP X _ (X.fits_of (by decide))).1.mpr ⟨_, _, _, _, _, _, Cases.w8141⟩⟩

example (P : Prog) (hP : IsProgram files P) (X : Ext) : TextAccepts P X RFC2141Only (lit "urn:a:b") ∧ TextRejects P X RFC8141Only (lit "urn:a:b") :=
  ⟨(accepts_text hP X _ _ (X.fits_of (by decide))).1.mpr ⟨_, parsesTo_of (u := urn2141 (lit "urn") (lit "a") (lit "b")) (by decide)⟩,
   (accepts_text hP X _ _ (X.fits_of (by decide))).2.mpr (not_accepts_of (by decide))⟩

/-! ## C65: the methods of URNs, SCIM structs and types -/

/-- The methods that only read. -/
theorem C65_reads {P : Prog} (hP : IsProgram files P) (X : Ext) (h : Heap) (a : Nat) (u : URN) (hu : UrnPtr h (some a) (some u)) :
    Does (fun n => runMethod P X n (.ptr "URN" (some a)) "String" [] h) ([.str u.string], h) ∧
    Does (fun n => runMethod P X n (.ptr "URN" (some a)) "RFC" [] h) ([.int "Kind" (kindNum u.rfc)], h) ∧
    Does (fun n => runMethod P X n (.ptr "URN" (some a)) "IsSCIM" [] h) ([.bool u.isSCIM], h) ∧
    Does (fun n => runMethod P X n (.ptr "URN" (some a)) "RComponent" [] h) ([.str u.getR], h) ∧
    Does (fun n => runMethod P X n (.ptr "URN" (some a)) "QComponent" [] h) ([.str u.getQ], h) ∧
    Does (fun n => runMethod P X n (.ptr "URN" (some a)) "FComponent" [] h) ([.str u.getF], h) ∧
    ∃ p, Does (fun n => runMethod P X n (.ptr "URN" (some a)) "SCIM" [] h) ([.ptr "SCIM" p], h) ∧ ScimAt h p u.getSCIM := by
  cases program_eq hP
  have m := @runMethod_mono prog X (.ptr "URN" (some a))
  obtain ⟨p, hp, hs⟩ := scim_text (X := X) (n := 0) hu
  exact ⟨does_method find_string (string_call (n := 0) hu), .of (m _ _ _) (rfc_text (n := 0) hu), .of (m _ _ _) (isScim_text (n := 0) hu),
    .of (m _ _ _) (r_text (n := 0) hu), .of (m _ _ _) (q_text (n := 0) hu), .of (m _ _ _) (f_text (n := 0) hu), p, .of (m _ _ _) hp, hs⟩

/-- For the examples: a heap with a URN, the one that a parse of a SCIM URN makes. -/
theorem Cases.urnAt {P : Prog} (hP : IsProgram files P) (X : Ext) : ∃ h a, UrnPtr h (some a) (some Cases.u7643) := by
  obtain ⟨r, p, h', h1, -, h2, -⟩ := C64_parse hP X [.arr Cases.s7643] (.part 0 [] [] 44) Cases.s7643 ⟨rfl, by decide, by decide⟩ (X.fits_of (by decide)) [RFC7643Only]
  obtain ⟨r', h3, h4⟩ := Cases.p7643
  simp only [List.map_cons, List.map_nil] at h1
  rw [h1] at h3; cases h3
  rw [h4] at h2
  have ⟨c, _, hc, _⟩ := h2
  subst hc
  exact ⟨h', c, h2⟩

example {P : Prog} (hP : IsProgram files P) (X : Ext) : ∃ h a,
    Does (fun n => runMethod P X n (.ptr "URN" (some a)) "IsSCIM" [] h) ([.bool true], h) := by
  obtain ⟨h, a, hu⟩ := Cases.urnAt hP X
  exact ⟨h, a, (C65_reads hP X h a _ hu).2.2.1⟩

/-- `Normalize` makes a new URN. -/
theorem C65_normalize {P : Prog} (hP : IsProgram files P) (X : Ext) (h : Heap) (a : Nat) (u : URN) (hu : UrnPtr h (some a) (some u)) :
    ∃ h', Does (fun n => runMethod P X n (.ptr "URN" (some a)) "Normalize" [] h) ([.ptr "URN" (some h.length)], h') ∧
      UrnPtr h' (some h.length) (some (u.normalize X.uni)) ∧ ∀ c, c < h.length → h'[c]? = h[c]? := by
  cases program_eq hP
  refine ⟨_, does_method find_normalize (normalize_call (n := 0) hu), normalize_ptr (X := X) (u := u) (by simp), ?_⟩
  exact fun c hc => List.getElem?_append_left hc

example {P : Prog} (hP : IsProgram files P) (X : Ext) : ∃ h a h',
    Does (fun n => runMethod P X n (.ptr "URN" (some a)) "Normalize" [] h) ([.ptr "URN" (some h.length)], h') := by
  obtain ⟨h, a, hu⟩ := Cases.urnAt hP X
  obtain ⟨h', hd, -⟩ := C65_normalize hP X h a _ hu
  exact ⟨h, a, h', hd⟩

/-- `Equal` with any pointer, also nil. -/
theorem C65_equal {P : Prog} (hP : IsProgram files P) (X : Ext) (h : Heap) (a : Nat) (u : URN) (hu : UrnPtr h (some a) (some u))
    (p : Option Nat) (x : Option URN) (hx : UrnPtr h p x) :
    ∃ h', Does (fun n => runMethod P X n (.ptr "URN" (some a)) "Equal" [.ptr "URN" p] h) ([.bool (u.equal X.uni x)], h') ∧
      ∀ c, c < h.length → h'[c]? = h[c]? := by
  cases program_eq hP
  obtain ⟨e, he⟩ := equal_call (X := X) (n := 0) hu hx
  exact ⟨_, does_method find_equal he, fun c hc => List.getElem?_append_left hc⟩

example {P : Prog} (hP : IsProgram files P) (X : Ext) : ∃ h a h',
    Does (fun n => runMethod P X n (.ptr "URN" (some a)) "Equal" [.ptr "URN" (some a)] h) ([.bool true], h') := by
  obtain ⟨h, a, hu⟩ := Cases.urnAt hP X
  obtain ⟨h', hd, -⟩ := C65_equal hP X h a _ hu _ _ hu
  exact ⟨h, a, h', by simpa [URN.equal] using hd⟩

/-- `String` of SCIM structs and types, and `TypeFromString`. -/
theorem C65_scim {P : Prog} (hP : IsProgram files P) (X : Ext) (h : Heap) :
    (∀ a s, h[a]? = some (.obj (scimVal s)) → Does (fun n => runMethod P X n (.ptr "SCIM" (some a)) "String" [] h) ([.str s.string], h)) ∧
    (∀ t : Int, Does (fun n => runMethod P X n (.int "Type" t) "String" [] h) ([.str (SchemaType.toStr t)], h)) ∧
    (∀ t : Bytes, Does (fun n => runFn P X n "TypeFromString" [.str t] false h) ([.int "Type" (SchemaType.fromString t)], h)) := by
  cases program_eq hP
  refine ⟨fun a s ha => does_method find_scimString (scimString_call (n := 0) ha), fun t => ?_, fun t => does_fn find_type (callFn_type (c := 0) t false)⟩
  refine .of (runMethod_mono _ _ _ _ _ _) (N := 1) ?_
  simp only [runMethod, method, find_typeString, Res.some!_some, Res.ok_bind, Res.pure_eq, typeString_call]

/-- What `Parse` of the text returns in RFC 2141 mode prints as the input (compare C07), and is equal to itself. -/
theorem C65_round_trip {P : Prog} (hP : IsProgram files P) (X : Ext) (s : Bytes) (hf : X.Fits s) (hs : TextAccepts P X RFC2141Only s) (h : Heap) (b : Buf)
    (hb : b.has h s) : ∃ c h', Does (fun n => callParse P X n (b.val s.length) [RFC2141Only] h) ([.ptr "URN" (some c), .bool true], h') ∧
      Does (fun n => runMethod P X n (.ptr "URN" (some c)) "String" [] h') ([.str s], h') := by
  obtain ⟨r, p, h', h1, h2, h3, -⟩ := C64_parse hP X h b s hb hf [RFC2141Only]
  obtain ⟨u, r', h4, h5⟩ := (accepts_text hP X _ s hf).1.mp hs
  simp only [List.map_cons, List.map_nil] at h1
  rw [h1] at h4
  cases h4
  rw [C22_urn_ok _ _ _ h1 (by rw [h5]; simp)] at h2
  rw [h5] at h3
  have ⟨c, _, hc, _⟩ := h3
  subst hc
  have := (C65_reads hP X h' c u h3).1
  rw [C07_round_trip s u ⟨r, h1, h5⟩] at this
  exact ⟨c, h', h2, this⟩

/-- C65 on a concrete input: it is accepted, and there is a memory with it. -/
example (P : Prog) (hP : IsProgram files P) (X : Ext) : ∃ c h',
    Does (fun n => callParse P X n (.bytes 0 0 7 7) [RFC2141Only] [.arr (lit "URN:a:B")]) ([.ptr "URN" (some c), .bool true], h') ∧
    Does (fun n => runMethod P X n (.ptr "URN" (some c)) "String" [] h') ([.str (lit "URN:a:B")], h') :=
  C65_round_trip hP X (lit "URN:a:B") (X.fits_of (by decide))
    ((accepts_text hP X _ _ (X.fits_of (by decide))).1.mpr ⟨_, parsesTo_of (u := urn2141 (lit "URN") (lit "a") (lit "B")) (by decide)⟩) _ (.part 0 [] [] 7)
    ⟨rfl, by decide, by decide⟩

/-! ## C66: JSON -/

/-- A slice of bytes, in memory. -/
def IsBytes (h : Heap) (v : Val) (d : Bytes) : Prop := ∃ b, Buf.has h b d ∧ v = b.val d.length

/-- `MarshalJSON` of URNs, SCIM structs and `URN8141`, called on pointers (the receivers are values). -/
theorem C66_marshal {P : Prog} (hP : IsProgram files P) (X : Ext) (h : Heap) (a : Nat) :
    (∀ u, UrnPtr h (some a) (some u) → ∃ v h', Does (fun n => runMethod P X n (.ptr "URN" (some a)) "MarshalJSON" [] h) ([v, .nil], h') ∧
      IsBytes h' v (u.marshalJSON X.json) ∧ ∀ c, c < h.length → h'[c]? = h[c]?) ∧
    (∀ s, h[a]? = some (.obj (scimVal s)) → ∃ v h', Does (fun n => runMethod P X n (.ptr "SCIM" (some a)) "MarshalJSON" [] h) ([v, .nil], h') ∧
      IsBytes h' v (s.marshalJSON X.json) ∧ ∀ c, c < h.length → h'[c]? = h[c]?) ∧
    (∀ u t, Ptr8141 h a u → u.marshalJSON X.json = .ok t → ∃ v h', Does (fun n => runMethod P X n (.ptr "URN8141" (some a)) "MarshalJSON" [] h) ([v, .nil], h') ∧
      IsBytes h' v t ∧ ∀ c, c < h.length → h'[c]? = h[c]?) ∧
    (∀ u, Ptr8141 h a u → u.marshalJSON X.json = .panic .nilDeref →
      Panics (fun n => runMethod P X n (.ptr "URN8141" (some a)) "MarshalJSON" [] h) .nilDeref) := by
  cases program_eq hP
  refine ⟨?_, ?_, ?_, ?_⟩
  · rintro u ⟨_, v, ha, hv, hu⟩
    cases ha
    refine ⟨_, h ++ [.obj v, .arr (u.marshalJSON X.json)], .of (runMethod_mono _ _ _ _ _ _) (N := 2) ?_, ⟨.part (h.length + 1) [] [] (u.marshalJSON X.json).length, ⟨?_, Nat.le_refl _, by simp⟩, rfl⟩,
      fun c hc => List.getElem?_append_left hc⟩
    · simp only [runMethod, method, find_marshal, find_marshal_ptr, loadObj, hv, Res.ok_bind, Res.pure_eq, marshal_call (n := 0) hu]
      rfl
    · simp
  · intro s hs
    refine ⟨_, h ++ [.obj (scimVal s), .arr (s.marshalJSON X.json)], .of (runMethod_mono _ _ _ _ _ _) (N := 3) ?_, ⟨.part (h.length + 1) [] [] (s.marshalJSON X.json).length, ⟨?_, Nat.le_refl _, by simp⟩, rfl⟩,
      fun c hc => List.getElem?_append_left hc⟩
    · simp only [runMethod, method, find_scimMarshal, find_scimMarshal_ptr, loadObj, hs, Res.ok_bind, Res.pure_eq, scimMarshal_call (n := 0)]
      rfl
    · simp
  · rintro u t ⟨p, hp, hu⟩ ht
    refine ⟨_, h ++ [.arr t], .of (runMethod_mono _ _ _ _ _ _) (N := 2) ?_, ⟨.part h.length [] [] t.length, ⟨?_, Nat.le_refl _, by simp⟩, rfl⟩,
      fun c hc => List.getElem?_append_left hc⟩
    · simp only [runMethod, method, find_marshal8141, find_marshal8141_ptr, loadObj, hp, Res.ok_bind, Res.pure_eq, marshal8141_call (n := 0) hu ht]
      rfl
    · simp
  · rintro ⟨u⟩ ⟨p, hp, hu⟩ ht
    cases u with
    | some u => cases ht
    | none =>
    cases hu
    refine ⟨2, fun n hn => ?_⟩
    obtain ⟨n, rfl⟩ : ∃ k, n = k + 2 := ⟨n - 2, by omega⟩
    simp only [runMethod, method, find_marshal8141, find_marshal8141_ptr, loadObj, hp, Res.ok_bind, Res.pure_eq, marshal8141_nil]

example {P : Prog} (hP : IsProgram files P) (X : Ext) : ∃ h a v h',
    Does (fun n => runMethod P X n (.ptr "URN" (some a)) "MarshalJSON" [] h) ([v, .nil], h') := by
  obtain ⟨h, a, hu⟩ := Cases.urnAt hP X
  obtain ⟨v, h', hd, -⟩ := (C66_marshal hP X h a).1 _ hu
  exact ⟨h, a, v, h', hd⟩

/-- `UnmarshalJSON` of URNs: the error, the URN afterwards, and nothing else has changed. -/
theorem C66_unmarshal {P : Prog} (hP : IsProgram files P) (X : Ext) (h : Heap) (a : Nat) (u : URN) (hu : UrnPtr h (some a) (some u))
    (v : Val) (d : Bytes) (hv : IsBytes h v d) (hf : X.FitsJson d) :
    ∃ u' e h', u.unmarshalJSON X.json d = .ok (u', e) ∧ Does (fun n => runMethod P X n (.ptr "URN" (some a)) "UnmarshalJSON" [v] h) ([jerrVal X d e], h') ∧
      UrnPtr h' (some a) (some u') ∧ ∀ c, c < h.length → c ≠ a → h'[c]? = h[c]? := by
  cases program_eq hP
  obtain ⟨b, hb, rfl⟩ := hv
  obtain ⟨u', e, hr, -⟩ := C28_urn X.json u d
  obtain ⟨N, hN⟩ := unmarshal_call (X := X) hu hb hf hr
  obtain ⟨h', h1, h2, h3⟩ := hN N (Nat.le_refl _)
  exact ⟨u', e, h', hr, does_method find_unmarshal h1, h2, h3⟩

/-- `UnmarshalJSON` of SCIM structs. -/
theorem C66_unmarshal_scim {P : Prog} (hP : IsProgram files P) (X : Ext) (h : Heap) (a : Nat) (s : SCIM) (hs : h[a]? = some (.obj (scimVal s)))
    (v : Val) (d : Bytes) (hv : IsBytes h v d) (hf : X.FitsJson d) :
    ∃ s' e h', s.unmarshalJSON X.json d = .ok (s', e) ∧ Does (fun n => runMethod P X n (.ptr "SCIM" (some a)) "UnmarshalJSON" [v] h) ([jerrVal X d e], h') ∧
      h'[a]? = some (.obj (scimVal s')) ∧ ∀ c, c < h.length → c ≠ a → h'[c]? = h[c]? := by
  cases program_eq hP
  obtain ⟨b, hb, rfl⟩ := hv
  obtain ⟨s', e, hr, -⟩ := C28_scim X.json s d
  obtain ⟨N, hN⟩ := scimUnmarshal_call (X := X) hs hb hf hr
  obtain ⟨h', h1, h2, h3⟩ := hN N (Nat.le_refl _)
  exact ⟨s', e, h', hr, does_method find_scimUnmarshal h1, h2, h3⟩

/-- `UnmarshalJSON` of `URN8141`: the struct gets a pointer to a new URN. -/
theorem C66_unmarshal_8141 {P : Prog} (hP : IsProgram files P) (X : Ext) (h : Heap) (a : Nat) (u : URN8141) (hu : Ptr8141 h a u)
    (v : Val) (d : Bytes) (hv : IsBytes h v d) (hf : X.FitsJson d) :
    ∃ u' e h', u.unmarshalJSON X.json d = .ok (u', e) ∧ Does (fun n => runMethod P X n (.ptr "URN8141" (some a)) "UnmarshalJSON" [v] h) ([jerrVal X d e], h') ∧
      Ptr8141 h' a u' ∧ ∀ c, c < h.length → c ≠ a → h'[c]? = h[c]? := by
  cases program_eq hP
  obtain ⟨b, hb, rfl⟩ := hv
  obtain ⟨u', e, hr, -⟩ := C30_unmarshal X.json u d
  obtain ⟨N, hN⟩ := unmarshal8141_call (X := X) hu hb hf hr
  obtain ⟨h', h1, h2, h3⟩ := hN N (Nat.le_refl _)
  exact ⟨u', e, h', hr, does_method find_unmarshal8141 h1, h2, h3⟩

/-- For the examples: the codec of `Json.lean`, and a JSON text. -/
def Cases.withJson (X : Ext) : Ext := { X with json := Json.codec }
def Cases.text : Bytes := lit "\"urn:ab:c\""

theorem Cases.text_fits (X : Ext) : (Cases.withJson X).FitsJson Cases.text := by
  intro s hs
  have : Json.codec.unmarshal Cases.text = some (lit "urn:ab:c") := by decide
  cases hs.symm.trans this
  exact (Cases.withJson X).fits_of (by decide)

example {P : Prog} (hP : IsProgram files P) (X : Ext) : ∃ u' e h',
    Does (fun n => runMethod P (Cases.withJson X) n (.ptr "URN" (some 0)) "UnmarshalJSON" [.bytes 1 0 10 10] [.obj (urnValW none .nil {}), .arr Cases.text])
      ([jerrVal (Cases.withJson X) Cases.text e], h') ∧ UrnPtr h' (some 0) (some u') := by
  obtain ⟨u', e, h', -, h1, h2, -⟩ := C66_unmarshal hP (Cases.withJson X) [.obj (urnValW none .nil {}), .arr Cases.text] 0 {}
    ⟨0, _, rfl, rfl, none, .nil, rfl, .inr ⟨rfl, rfl⟩, rfl⟩ (.bytes 1 0 10 10) Cases.text ⟨.part 1 [] [] 10, ⟨rfl, by decide, by decide⟩, rfl⟩ (Cases.text_fits X)
  exact ⟨u', e, h', h1, h2⟩

example {P : Prog} (hP : IsProgram files P) (X : Ext) :=
  C66_unmarshal_scim hP (Cases.withJson X) [.obj (scimVal {}), .arr Cases.text] 0 {} rfl (.bytes 1 0 10 10) Cases.text
    ⟨.part 1 [] [] 10, ⟨rfl, by decide, by decide⟩, rfl⟩ (Cases.text_fits X)

example {P : Prog} (hP : IsProgram files P) (X : Ext) :=
  C66_unmarshal_8141 hP (Cases.withJson X) [.obj (val8141 none), .arr Cases.text] 0 ⟨none⟩ ⟨none, rfl, rfl⟩ (.bytes 1 0 10 10) Cases.text
    ⟨.part 1 [] [] 10, ⟨rfl, by decide, by decide⟩, rfl⟩ (Cases.text_fits X)

/-- Hypotheses that are met: a zero `URN`, a zero `SCIM` and a zero `URN8141`. -/
example : UrnPtr [.obj (urnValW none .nil {})] (some 0) (some {}) ∧ ([Cell.obj (scimVal {})] : Heap)[0]? = some (.obj (scimVal {})) ∧
    Ptr8141 [.obj (val8141 none)] 0 ⟨none⟩ ∧ IsBytes [.arr (lit "{}")] (.bytes 0 0 2 2) (lit "{}") :=
  ⟨⟨0, _, rfl, rfl, none, .nil, rfl, .inr ⟨rfl, rfl⟩, rfl⟩, rfl, ⟨none, rfl, rfl⟩, .part 0 [] [] 2, ⟨rfl, by decide, by decide⟩, rfl⟩

end Urn.GoLang
