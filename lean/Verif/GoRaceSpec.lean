import Verif.GoRace
import Verif.Json
/-!
# What is claimed about goroutines
-/
set_option autoImplicit false
namespace Urn.GoLang

/-- Under every schedule there is no race; each goroutine is done after some number of its own steps, whatever the others do; and when
goroutine `i` is done, what it returned, with the memory that it sees then, is as `Q i` says. -/
def Always {α : Type} (h : Heap) (ts : List (Io α)) (Q : Nat → Res (α × Heap) → Prop) : Prop :=
  (∀ sched : List Nat, ((World.start h ts).run sched).raced = false) ∧
  ∀ i, i < ts.length → (∃ k, ∀ sched : List Nat, k ≤ sched.count i → (((World.start h ts).run sched).result i).isSome) ∧
    ∀ (sched : List Nat) (r : Res (α × Heap)), ((World.start h ts).run sched).result i = some r → Q i r

/-- Some schedule has a race. -/
def Races {α : Type} (h : Heap) (ts : List (Io α)) : Prop := ∃ sched : List Nat, ((World.start h ts).run sched).raced = true

/-- A goroutine that was started in the memory `M`, with objects at the addresses `f` and `g`, returned what the model says: `f'` and
`g'` are these addresses and those of the objects that it made. -/
def Returned (X : Ext) (f g : Option Nat → Option Nat) (M : Urn.Heap.Mem) (ss : List Step) (m : Run (List Urn.Heap.Got × Regs × Urn.Heap.Mem))
    (r : Res ((List (List Val) × Regs) × Heap)) : Prop :=
  match m with
  | .ok (gs, R1, M1) => ∃ f' g' R' h', r = .ok ((valsAll X f' g' ss gs, R'), h') ∧ gs.length = ss.length ∧
      R'.urns = R1.urns.map f' ∧ R'.scims = R1.scims.map g' ∧ Inj f' M1.urns.length ∧ Inj g' M1.scims.length ∧
      (∀ k, k < M.urns.length → f' (some k) = f (some k)) ∧ ∀ k, k < M.scims.length → g' (some k) = g (some k)
  | .panic p => r = .panic p
  | .diverge => False

/-- The calls that do not change a URN or SCIM struct that is there: all but `UnmarshalJSON` and what the client assigns. -/
def Step.reads : Step → Bool
  | .unmarshalJSON _ _ | .scimUnmarshalJSON _ _ | .setID _ _ | .setSS _ _ | .copyURN _ _ | .setType _ _ | .setName _ _ | .setOther _ _
  | .copySCIM _ _ => false
  | _ => true

/-- The array of a slice. -/
def Buf.cells : Buf → List Nat
  | .nil => []
  | .part a _ _ _ => [a]

/-- The access is to bytes of the slice, which has this length. -/
def Buf.Owns : Buf → (len : Nat) → Access → Prop
  | .nil, _, _ => False
  | .part a pre _ _, len, x => x.cell = a ∧ ∃ i n, x.part = .bytes i n ∧ pre.length ≤ i ∧ i + n ≤ pre.length + len

/-- The access is to the byte of the slice with index `j`, maybe also to others. -/
def Buf.At : Buf → (j : Nat) → Access → Prop
  | .nil, _, _ => False
  | .part a pre _ _, j, x => x.cell = a ∧ x.part.Meets (.bytes (pre.length + j) 1)

/-- The two slices, which have these lengths, have bytes in common. -/
def Buf.Overlap : Buf → (len : Nat) → Buf → (len' : Nat) → Prop
  | .part a pre _ _, len, .part a' pre' _ _, len' =>
      a = a' ∧ 0 < len ∧ 0 < len' ∧ pre.length < pre'.length + len' ∧ pre'.length < pre.length + len
  | _, _, _, _ => False

/-- A goroutine that reads this slice gets `s`. -/
def Buf.Reads (h : Heap) : Buf → Bytes → Prop
  | .nil, s => s = []
  | .part a pre _ _, s => h.at a (.bytes pre.length s.length) = some (.arr s)

/-- Calls of the checks of `GoCheck.lean`, and the slices that they are given. -/
inductive Check (X : Ext) (h : Heap) : String → List Val → List Buf → Prop
  | unchanged (b : Buf) (s : Bytes) (hb : b.has h s) (hf : X.Fits s) (mode : ParsingMode) : Check X h "unchanged" [b.val s.length, .int "ParsingMode" mode] [b]
  | independent (b : Buf) (s : Bytes) (hb : b.has h s) (hf : X.Fits s) (mode : ParsingMode) (i : Int) (hi : 0 ≤ i ∧ i < s.length) (c : UInt8) :
      Check X h "independent" [b.val s.length, .int "ParsingMode" mode, .int "int" i, .int "byte" c.toNat] [b]
  | reports (b : Buf) (s : Bytes) (hb : b.has h s) (hf : X.Fits s) (mode : ParsingMode) (hm : mode = RFC2141Only ∨ mode = RFC7643Only) :
      Check X h "reports" [b.val s.length, .int "ParsingMode" mode] [b]
  | exclusive (b : Buf) (s : Bytes) (hb : b.has h s) (hf : X.Fits s) (mode : ParsingMode) : Check X h "exclusive" [b.val s.length, .int "ParsingMode" mode] [b]
  | roundTrip (b : Buf) (s : Bytes) (hb : b.has h s) (hf : X.Fits s) : Check X h "roundTrip" [b.val s.length] [b]
  | pieces (b : Buf) (s : Bytes) (hb : b.has h s) (hf : X.Fits s) : Check X h "pieces" [b.val s.length] [b]
  | pieces8141 (b : Buf) (s : Bytes) (hb : b.has h s) (hf : X.Fits s) : Check X h "pieces8141" [b.val s.length] [b]
  | scim (b : Buf) (s : Bytes) (hb : b.has h s) (hf : X.Fits s) : Check X h "scim" [b.val s.length] [b]
  | agree (b : Buf) (s : Bytes) (hb : b.has h s) (hf : X.Fits s) : Check X h "agree" [b.val s.length] [b]
  | stable (b : Buf) (s : Bytes) (hb : b.has h s) (hf : X.Fits s) (mode : ParsingMode) (hm : KnownMode mode) :
      Check X h "stable" [b.val s.length, .int "ParsingMode" mode] [b]
  | equivalence (a b c : Buf) (s t w : Bytes) (ha : a.has h s) (hfs : X.Fits s) (hb : b.has h t) (hft : X.Fits t) (hc : c.has h w) (hfw : X.Fits w) (x y z : ParsingMode) :
      Check X h "equivalence" [a.val s.length, b.val t.length, c.val w.length, .int "ParsingMode" x, .int "ParsingMode" y, .int "ParsingMode" z] [a, b, c]
  | normal (b : Buf) (s : Bytes) (hb : b.has h s) (hf : X.Fits s) (mode : ParsingMode) (hm : KnownMode mode) :
      Check X h "normal" [b.val s.length, .int "ParsingMode" mode] [b]
  | canonical (a b : Buf) (s t : Bytes) (ha : a.has h s) (hfs : X.Fits s) (hb : b.has h t) (hft : X.Fits t) (mode : ParsingMode) (hm : KnownMode mode) :
      Check X h "canonical" [a.val s.length, b.val t.length, .int "ParsingMode" mode] [a, b]
  | reuse (a b : Buf) (s t : Bytes) (ha : a.has h s) (hfs : X.Fits s) (hb : b.has h t) (hft : X.Fits t) (mode : ParsingMode) :
      Check X h "reuse" [a.val s.length, b.val t.length, .int "ParsingMode" mode] [a, b]
  | last (b : Buf) (s : Bytes) (hb : b.has h s) (hf : X.Fits s) (x mode : ParsingMode) (hm : KnownMode mode) :
      Check X h "last" [b.val s.length, .int "ParsingMode" x, .int "ParsingMode" mode] [b]
  | json (hj : JsonOk X.json) (b : Buf) (s : Bytes) (hb : b.has h s) (hf : X.Fits s) : Check X h "jsonRoundTrip" [b.val s.length] [b]
  | unmarshal (b d : Buf) (s t : Bytes) (hb : b.has h s) (hfs : X.Fits s) (hd : d.has h t) (hft : X.FitsJson t) :
      Check X h "unmarshalKeeps" [b.val s.length, d.val t.length] [b, d]
  | built (id ss : Bytes) : Check X h "built" [.str id, .str ss] []
  | names (s : Bytes) : Check X h "names" [.str s] []

end Urn.GoLang
