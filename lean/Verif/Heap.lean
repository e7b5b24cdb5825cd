import Verif.Urn
/-!
# Pointers

`Urn.lean` treats a `*URN` as the value that it points to.  Here URNs and SCIM structs are objects with addresses, so that
a client can keep several pointers to one object, write to the exported fields, and copy structs (which copies the
pointer to the SCIM struct).  The functions themselves are those of `Urn.lean`.
-/
set_option autoImplicit false
namespace Urn.Heap

/-- A Go pointer: nil, or the address of an object. -/
abbrev Ptr := Option Nat

/-- urn.go:18-31 `type URN struct`: the field `scim` is a pointer, the other ones are in `fields` (whose own `scim` is not
used).  Copies of a URN also share the array of `tolower` (urn.go:30); nothing writes to it once `Parse` has returned,
so it is part of the value. -/
structure Obj where
  fields : URN := {}
  scim : Ptr := none
  deriving DecidableEq, Repr

/-- All objects there are.  An address is a position. -/
structure Mem where
  urns : List Obj := []
  scims : List SCIM := []
  deriving DecidableEq, Repr

/-- Follow a `*URN`.  (Go has no pointers to objects that are not there.) -/
def Mem.obj (h : Mem) : Ptr → Run Obj
  | none => .panic .nilDeref
  | some a => match h.urns[a]? with
      | none => .panic .nilDeref
      | some x => .ok x

/-- Follow a `*SCIM`. -/
def Mem.scim (h : Mem) : Ptr → Run SCIM
  | none => .panic .nilDeref
  | some a => match h.scims[a]? with
      | none => .panic .nilDeref
      | some x => .ok x

/-- The URN that an object is: what a client can see of it. -/
def Mem.value (h : Mem) (x : Obj) : URN := { x.fields with scim := x.scim.bind fun a => h.scims[a]? }

/-- `*p = x` -/
def Mem.setObj (h : Mem) (p : Ptr) (x : Obj) : Run Mem :=
  match p with
  | none => .panic .nilDeref
  | some a => if a < h.urns.length then .ok { h with urns := h.urns.set a x } else .panic .nilDeref

/-- `*p = x` -/
def Mem.setScim (h : Mem) (p : Ptr) (x : SCIM) : Run Mem :=
  match p with
  | none => .panic .nilDeref
  | some a => if a < h.scims.length then .ok { h with scims := h.scims.set a x } else .panic .nilDeref

/-- The object that `Parse` makes: `output` (machine.go:146) and, for SCIM, `&SCIM{}` (machine.go.rl:162-164).  The memory
with the SCIM struct, and the URN struct itself. -/
def Mem.made (h : Mem) (u : URN) : Mem × Obj :=
  match u.scim with
  | none => (h, ⟨u, none⟩)
  | some x => ({ h with scims := h.scims ++ [x] }, ⟨{ u with scim := none }, some h.scims.length⟩)

/-- `&x` -/
def Mem.new (h : Mem) (x : Obj) : Mem × Ptr := ({ h with urns := h.urns ++ [x] }, some h.urns.length)

/-- What a client does. -/
inductive Act where
  /-- `Parse(s, options...)` -/
  | parse (s : Bytes) (options : List Opt)
  /-- `&URN{}` and `&SCIM{}` -/
  | newURN
  | newSCIM
  /-- the methods of `*URN` -/
  | normalize (p : Ptr)
  | equal (p q : Ptr)
  | string (p : Ptr)
  | isSCIM (p : Ptr)
  | scim (p : Ptr)
  | rfc (p : Ptr)
  | rComponent (p : Ptr)
  | qComponent (p : Ptr)
  | fComponent (p : Ptr)
  | marshalJSON (p : Ptr)
  | unmarshalJSON (p : Ptr) (text : Bytes)
  /-- `p.ID`, `p.SS`, `p.ID = v`, `p.SS = v`, `*p = *q` -/
  | id (p : Ptr)
  | ss (p : Ptr)
  | setID (p : Ptr) (v : Bytes)
  | setSS (p : Ptr) (v : Bytes)
  | copy (p q : Ptr)
  /-- the methods of `*SCIM` -/
  | scimString (p : Ptr)
  | scimMarshalJSON (p : Ptr)
  | scimUnmarshalJSON (p : Ptr) (text : Bytes)
  /-- `p.Type`, `p.Name`, `p.Other`; `p.Type = v`, `p.Name = v`, `p.Other = v`, `*p = *q` -/
  | scimFields (p : Ptr)
  | setType (p : Ptr) (v : Int)
  | setName (p : Ptr) (v : Bytes)
  | setOther (p : Ptr) (v : Bytes)
  | copySCIM (p q : Ptr)
  /-- `URN8141{p}.MarshalJSON()`, and `UnmarshalJSON` into a variable `URN8141{p}`, which returns its new pointer -/
  | marshal8141 (p : Ptr)
  | unmarshal8141 (p : Ptr) (text : Bytes)

/-- What it gets. -/
inductive Got where
  | unit
  | urn (p : Ptr) (ok : Bool)
  | scim (p : Ptr)
  | bool (b : Bool)
  | bytes (b : Bytes)
  | kind (k : Kind)
  | fields (Typ : Int) (Name Other : Bytes)
  | err (e : Option JErr)
  | urn8141 (p : Ptr) (e : Option JErr)
  deriving DecidableEq, Repr

/-- Run an action; `uni` and `j` as in `Urn.lean`. -/
def Mem.act (uni : Bytes → Bytes) (j : JsonCodec) (h : Mem) : Act → Run (Mem × Got)
  -- urn.go:86-93
  | .parse s options => do
      let r ← Urn.parse s options
      match r.urn with
      | none => pure (h, .urn none r.ok)
      | some u =>
          let (h, x) := h.made u
          let (h, p) := h.new x
          pure (h, .urn p r.ok)
  | .newURN => let (h, p) := h.new {}; pure (h, .urn p true)
  | .newSCIM => pure ({ h with scims := h.scims ++ [{}] }, .scim (some h.scims.length))
  -- urn.go:36-45
  | .normalize p => do
      let x ← h.obj p
      let (h, q) := h.new ⟨(h.value x).normalize uni, none⟩
      pure (h, .urn q true)
  -- urn.go:48-56
  | .equal p q =>
      match q with
      | none => pure (h, .bool false)
      | some _ => do
          let x ← h.obj p
          let y ← h.obj q
          pure (h, .bool ((h.value x).equal uni (some (h.value y))))
  -- urn.go:64-83
  | .string p => do let x ← h.obj p; pure (h, .bytes (h.value x).string)
  -- urn.go:115-141
  | .isSCIM p => do let x ← h.obj p; pure (h, .bool (h.value x).isSCIM)
  | .scim p => do let x ← h.obj p; pure (h, .scim (if x.fields.kind ≠ .RFC7643 then none else x.scim))
  | .rfc p => do let x ← h.obj p; pure (h, .kind (h.value x).rfc)
  | .rComponent p => do let x ← h.obj p; pure (h, .bytes (h.value x).getR)
  | .qComponent p => do let x ← h.obj p; pure (h, .bytes (h.value x).getQ)
  | .fComponent p => do let x ← h.obj p; pure (h, .bytes (h.value x).getF)
  -- urn.go:96-98
  | .marshalJSON p => do let x ← h.obj p; pure (h, .bytes ((h.value x).marshalJSON j))
  -- urn.go:101-113: `*u = *value` copies the pointer to the SCIM struct of `value`
  | .unmarshalJSON p text =>
      match j.unmarshal text with
      | none => pure (h, .err (some .json))
      | some str => do
          let r ← Urn.parse str
          if r.ok = false then pure (h, .err (some (.invalidURN str)))
          else
            match r.urn with
            | none => .panic .nilDeref
            | some v => do
                let (h, x) := h.made v
                let h ← h.setObj p x
                pure (h, .err none)
  | .id p => do let x ← h.obj p; pure (h, .bytes x.fields.ID)
  | .ss p => do let x ← h.obj p; pure (h, .bytes x.fields.SS)
  | .setID p v => do let x ← h.obj p; let h ← h.setObj p { x with fields := { x.fields with ID := v } }; pure (h, .unit)
  | .setSS p v => do let x ← h.obj p; let h ← h.setObj p { x with fields := { x.fields with SS := v } }; pure (h, .unit)
  | .copy p q => do let x ← h.obj q; let h ← h.setObj p x; pure (h, .unit)
  -- scim.go:41-48
  | .scimString p => do let x ← h.scim p; pure (h, .bytes x.string)
  -- scim.go:19-21
  | .scimMarshalJSON p => do let x ← h.scim p; pure (h, .bytes (x.marshalJSON j))
  -- scim.go:23-39: `*s = *value.SCIM()`
  | .scimUnmarshalJSON p text => do
      let (x, e) ← SCIM.unmarshalJSON j {} text
      match e with
      | some e => pure (h, .err (some e))
      | none => do let h ← h.setScim p x; pure (h, .err none)
  | .scimFields p => do let x ← h.scim p; pure (h, .fields x.Typ x.Name x.Other)
  | .setType p v => do let x ← h.scim p; let h ← h.setScim p { x with Typ := v }; pure (h, .unit)
  | .setName p v => do let x ← h.scim p; let h ← h.setScim p { x with Name := v }; pure (h, .unit)
  | .setOther p v => do let x ← h.scim p; let h ← h.setScim p { x with Other := v }; pure (h, .unit)
  | .copySCIM p q => do let x ← h.scim q; let h ← h.setScim p x; pure (h, .unit)
  -- urn8141.go:14-16
  | .marshal8141 p => do let x ← h.obj p; pure (h, .bytes (j.marshal (h.value x).string))
  -- urn8141.go:18-30: `*u = URN8141{value}` changes the variable, not the old URN
  | .unmarshal8141 p text =>
      match j.unmarshal text with
      | none => pure (h, .urn8141 p (some .json))
      | some str => do
          let r ← Urn.parse str [withParsingMode RFC8141Only]
          if r.ok = false then pure (h, .urn8141 p (some (.invalidURN8141 str)))
          else
            match r.urn with
            | none => pure (h, .urn8141 none none)
            | some u =>
                let (h, x) := h.made u
                let (h, q) := h.new x
                pure (h, .urn8141 q none)

/-- A sequence of actions. -/
def Mem.acts (uni : Bytes → Bytes) (j : JsonCodec) (h : Mem) : List Act → Run (Mem × List Got)
  | [] => pure (h, [])
  | a :: as => do
      let (h, g) ← h.act uni j a
      let (h, gs) ← h.acts uni j as
      pure (h, g :: gs)

/-- The pointers to URNs in an action. -/
def Act.urns : Act → List Nat
  | .normalize p | .string p | .isSCIM p | .scim p | .rfc p | .rComponent p | .qComponent p | .fComponent p | .id p | .ss p | .marshalJSON p | .unmarshalJSON p _
  | .setID p _ | .setSS p _ | .marshal8141 p | .unmarshal8141 p _ => p.toList
  | .equal p q | .copy p q => p.toList ++ q.toList
  | _ => []

/-- The pointers to SCIM structs in an action. -/
def Act.scims : Act → List Nat
  | .scimFields p | .scimString p | .scimMarshalJSON p | .scimUnmarshalJSON p _ | .setType p _ | .setName p _ | .setOther p _ => p.toList
  | .copySCIM p q => p.toList ++ q.toList
  | _ => []

/-- The pointers in a result. -/
def Got.urns : Got → List Nat
  | .urn p _ | .urn8141 p _ => p.toList
  | _ => []
def Got.scims : Got → List Nat
  | .scim p => p.toList
  | _ => []

/-- `Runs uni j h U S h' U' S'`: a client that has pointers to the URNs `U` and the SCIM structs `S` can turn the memory `h`
into `h'` and then has pointers to `U'` and `S'`.  It can only use pointers that it has or that it is given. -/
inductive Runs (uni : Bytes → Bytes) (j : JsonCodec) : Mem → List Nat → List Nat → Mem → List Nat → List Nat → Prop where
  | nil (h : Mem) (U S : List Nat) : Runs uni j h U S h U S
  | cons {h h1 h2 : Mem} {U S U' S' : List Nat} {a : Act} {g : Got} :
      (∀ x ∈ a.urns, x ∈ U) → (∀ x ∈ a.scims, x ∈ S) → h.act uni j a = .ok (h1, g) →
      Runs uni j h1 (g.urns ++ U) (g.scims ++ S) h2 U' S' → Runs uni j h U S h2 U' S'

/-! ## Options that are nil -/

/-- machine.go:115-117 `for _, o := range options { o(m) }`; `none` is a nil function, calling it panics. -/
def applyOptions : Machine → List (Option Opt) → Run Machine
  | m, [] => .ok m
  | _, none :: _ => .panic .nilDeref
  | m, some o :: options => do
      let (m, _) ← m.execAll o
      applyOptions m options

/-- urn.go:86-93 `Parse` with options that may be nil, as in `Urn.parse`. -/
def parse (s : Bytes) (options : List (Option Opt)) : Run ParseResult := do
  let m ← applyOptions { parsingModeSet := false } options
  let m := if m.parsingModeSet then m else m.withParsingMode DefaultParsingMode
  let r ← m.parse s
  match r.err with
  | some _ => pure ⟨none, false, r.m.data⟩
  | none => pure ⟨r.urn, true, r.m.data⟩

end Urn.Heap
