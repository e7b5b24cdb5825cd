import Verif.PropsValues
/-!
# C61: methods through pointers

`Heap.Mem.act` calls methods through pointers, `Urn.lean` defines them on values.  They say the same: a method returns what
it computes from the value its receiver points to, and changes only what it is said to change.
-/
set_option autoImplicit false
namespace Urn
open Heap

/-- The URN that a pointer points to. -/
def Heap.Mem.deref (h : Mem) (p : Ptr) : Option URN := p.bind fun a => h.urns[a]?.map h.value

/-- The SCIM struct that a pointer points to. -/
def Heap.Mem.derefSCIM (h : Mem) (p : Ptr) : Option SCIM := p.bind fun a => h.scims[a]?

theorem deref_some {h : Mem} {p : Ptr} {v : URN} (e : h.deref p = some v) : ∃ a x, p = some a ∧ h.urns[a]? = some x ∧ h.value x = v := by
  cases p with
  | none => cases e
  | some a =>
    simp only [Mem.deref, Option.bind_some, Option.map_eq_some_iff] at e
    obtain ⟨x, h1, h2⟩ := e
    exact ⟨a, x, rfl, h1, h2⟩

theorem deref_obj {h : Mem} {p : Ptr} {v : URN} (e : h.deref p = some v) : ∃ x, h.obj p = .ok x ∧ h.value x = v := by
  obtain ⟨a, x, rfl, h1, h2⟩ := deref_some e
  exact ⟨x, by simp only [Mem.obj, h1], h2⟩

theorem derefSCIM_obj {h : Mem} {p : Ptr} {y : SCIM} (e : h.derefSCIM p = some y) : h.scim p = .ok y := by
  cases p with
  | none => cases e
  | some a =>
    simp only [Mem.derefSCIM, Option.bind_some] at e
    simp only [Mem.scim, e]

/-- C61 (methods that only read): they return what they compute from the value, and change nothing. -/
theorem C61_reads (uni : Bytes → Bytes) (j : JsonCodec) (h : Mem) (p : Ptr) (v : URN) (hv : h.deref p = some v) :
    h.act uni j (.string p) = .ok (h, .bytes v.string) ∧ h.act uni j (.isSCIM p) = .ok (h, .bool v.isSCIM) ∧
    h.act uni j (.rfc p) = .ok (h, .kind v.rfc) ∧ h.act uni j (.rComponent p) = .ok (h, .bytes v.getR) ∧
    h.act uni j (.qComponent p) = .ok (h, .bytes v.getQ) ∧ h.act uni j (.fComponent p) = .ok (h, .bytes v.getF) ∧
    h.act uni j (.marshalJSON p) = .ok (h, .bytes (v.marshalJSON j)) ∧ h.act uni j (.id p) = .ok (h, .bytes v.ID) ∧
    h.act uni j (.ss p) = .ok (h, .bytes v.SS) ∧
    (∃ b, URN8141.marshalJSON j ⟨h.deref p⟩ = .ok b ∧ h.act uni j (.marshal8141 p) = .ok (h, .bytes b)) ∧
    h.act uni j (.equal p none) = .ok (h, .bool (v.equal uni none)) ∧
    (∀ q w, h.deref q = some w → h.act uni j (.equal p q) = .ok (h, .bool (v.equal uni (some w)))) := by
  obtain ⟨x, hx, rfl⟩ := deref_obj hv
  refine ⟨?_, ?_, ?_, ?_, ?_, ?_, ?_, ?_, ?_, ⟨_, by rw [hv]; rfl, ?_⟩, rfl, ?_⟩
  all_goals try (simp only [Mem.act, hx, Run.ok_bind]; rfl)
  intro q w hw
  obtain ⟨y, hy, rfl⟩ := deref_obj hw
  obtain ⟨b, _, rfl, _⟩ := deref_some hw
  simp only [Mem.act, hx, hy, Run.ok_bind]; rfl

example := C61_reads id ⟨id, some⟩ Cases.h1 (some 0) _ rfl
example (j : JsonCodec) : Cases.h1.act id j (.equal (some 0) (some 0)) = .ok (Cases.h1, .bool true) := by
  rw [(C61_reads id j Cases.h1 (some 0) _ rfl).2.2.2.2.2.2.2.2.2.2.2 (some 0) _ rfl]; decide

/-- C61 (`SCIM()`): the pointer is nil or points to the SCIM struct of the value. -/
theorem C61_scim {uni : Bytes → Bytes} {j : JsonCodec} {h : Mem} (hr : ReachableMem uni j h) (p : Ptr) (v : URN) (hv : h.deref p = some v) :
    ∃ q, h.act uni j (.scim p) = .ok (h, .scim q) ∧ h.derefSCIM q = v.getSCIM ∧ (q = none ↔ v.getSCIM = none) := by
  obtain ⟨a, x, rfl, hx, rfl⟩ := deref_some hv
  refine ⟨_, by simp only [Mem.act, Mem.obj, hx, Run.ok_bind]; rfl, ?_⟩
  by_cases hk : x.fields.kind ≠ .RFC7643
  · have hk' : (h.value x).kind ≠ .RFC7643 := hk
    simp [hk, URN.getSCIM, hk', Mem.derefSCIM]
  · simp only [hk, if_false, URN.getSCIM, Mem.derefSCIM, Mem.value]
    refine ⟨trivial, ?_⟩
    cases hs : x.scim with
    | none => simp
    | some s => simp [sound_of_reachable hr a x s hx hs]

example : ∃ q, Cases.h1.derefSCIM q ≠ none := by
  obtain ⟨q, _, h, _⟩ := C61_scim (Cases.reach1 id ⟨id, some⟩) (some 0) _ rfl
  exact ⟨q, by rw [h]; decide⟩

/-- C61 (methods of `*SCIM` that only read). -/
theorem C61_scim_reads (uni : Bytes → Bytes) (j : JsonCodec) (h : Mem) (p : Ptr) (y : SCIM) (hy : h.derefSCIM p = some y) :
    h.act uni j (.scimString p) = .ok (h, .bytes y.string) ∧ h.act uni j (.scimMarshalJSON p) = .ok (h, .bytes (y.marshalJSON j)) ∧
    h.act uni j (.scimFields p) = .ok (h, .fields y.Typ y.Name y.Other) := by
  have := derefSCIM_obj hy
  refine ⟨?_, ?_, ?_⟩ <;> (simp only [Mem.act, this, Run.ok_bind]; rfl)

example := C61_scim_reads id ⟨id, some⟩ Cases.h1 (some 0) _ rfl

/-! ## Changes -/

/-- The same but for the URN that `p` points to; new objects may be there. -/
def SameBut (h h1 : Mem) (p : Ptr) : Prop :=
  (∀ q v, h.deref q = some v → q ≠ p → h1.deref q = some v) ∧ ∀ q y, h.derefSCIM q = some y → h1.derefSCIM q = some y

theorem value_made {h : Mem} (hs : Sound h) {a : Nat} {x : Obj} (hx : h.urns[a]? = some x) (u : URN) : (h.made u).1.value x = h.value x := by
  unfold Mem.made
  split
  · rfl
  · simp only [Mem.value]
    cases hxs : x.scim with
    | none => rfl
    | some s =>
      simp only [Option.bind_some]
      rw [List.getElem?_append_left (hs a x s hx hxs)]

theorem made_value (h : Mem) (u : URN) : (h.made u).1.value (h.made u).2 = u := by
  unfold Mem.made
  cases hsc : u.scim with
  | none =>
    simp only [Mem.value, Option.bind_none]
    rw [← hsc]
  | some y =>
    simp only [Mem.value, Option.bind_some]
    rw [List.getElem?_concat_length, ← hsc]

theorem made_scims {h : Mem} {u : URN} {q : Ptr} {y : SCIM} (e : h.derefSCIM q = some y) : (h.made u).1.derefSCIM q = some y := by
  cases q with
  | none => cases e
  | some s =>
    simp only [Mem.derefSCIM, Option.bind_some] at e ⊢
    unfold Mem.made
    split
    · exact e
    · rw [List.getElem?_append_left (List.getElem?_eq_some_iff.mp e).1]; exact e

/-- Writing an object that was made from a URN. -/
theorem write_made {h : Mem} (hs : Sound h) {a : Nat} (ha : a < h.urns.length) (u : URN) :
    ∃ h1, (h.made u).1.setObj (some a) (h.made u).2 = .ok h1 ∧ h1.deref (some a) = some u ∧ SameBut h h1 (some a) := by
  refine ⟨{ (h.made u).1 with urns := (h.made u).1.urns.set a (h.made u).2 }, ?_, ?_, ?_, ?_⟩
  · simp only [Mem.setObj, made_urns, ha, if_true]
  · simp only [Mem.deref, Option.bind_some, List.getElem?_set, made_urns, ha, if_true, Option.map_some]
    exact congrArg some (made_value h u)
  · intro q v hv hne
    obtain ⟨b, x, rfl, hx, rfl⟩ := deref_some hv
    have hab : a ≠ b := fun e => hne (by rw [e])
    simp only [Mem.deref, Option.bind_some, List.getElem?_set, hab, if_false, made_urns, hx, Option.map_some]
    exact congrArg some (value_made hs hx u)
  · intro q y hy
    exact made_scims hy

/-- C61 (`UnmarshalJSON` of a URN): the receiver gets the value that the method computes, nothing else changes. -/
theorem C61_unmarshal {uni : Bytes → Bytes} {j : JsonCodec} {h : Mem} (hr : ReachableMem uni j h) (p : Ptr) (v : URN) (hv : h.deref p = some v)
    (text : Bytes) :
    ∃ h1 v1 e, h.act uni j (.unmarshalJSON p text) = .ok (h1, .err e) ∧ v.unmarshalJSON j text = .ok (v1, e) ∧
      h1.deref p = some v1 ∧ SameBut h h1 p := by
  have hs := sound_of_reachable hr
  have keep : SameBut h h p := ⟨fun _ _ h _ => h, fun _ _ h => h⟩
  simp only [Mem.act, URN.unmarshalJSON]
  cases hj : j.unmarshal text with
  | none => exact ⟨h, v, _, rfl, rfl, hv, keep⟩
  | some str =>
    obtain ⟨r, hp⟩ := C01_parse_returns str []
    simp only [hp, Run.ok_bind]
    by_cases ho : r.ok = false
    · simp only [ho, if_true]
      exact ⟨h, v, _, rfl, rfl, hv, keep⟩
    · simp only [ho]
      cases hu : r.urn with
      | none =>
        exact absurd hu (((C22_ok_iff _ (Or.inl rfl) str).2 r hp).mp (by simpa using ho))
      | some u =>
        obtain ⟨a, x, rfl, hx, _⟩ := deref_some hv
        obtain ⟨h1, h2, h3, h4⟩ := write_made hs (List.getElem?_eq_some_iff.mp hx).1 u
        refine ⟨h1, u, none, ?_, rfl, h3, h4⟩
        simp only [h2, Run.ok_bind]
        rfl

example := C61_unmarshal (Cases.reach1 id ⟨id, some⟩) (some 0) _ rfl (lit "urn:x:y")

/-- The same but for the SCIM struct that `p` points to. -/
def SameButSCIM (h h1 : Mem) (p : Ptr) : Prop :=
  h1.urns = h.urns ∧ ∀ q, q ≠ p → h1.derefSCIM q = h.derefSCIM q

theorem write_scim {h : Mem} {p : Ptr} {y : SCIM} (e : h.derefSCIM p = some y) (z : SCIM) :
    ∃ h1, h.setScim p z = .ok h1 ∧ h1.derefSCIM p = some z ∧ SameButSCIM h h1 p := by
  cases p with
  | none => cases e
  | some a =>
    simp only [Mem.derefSCIM, Option.bind_some] at e
    have ha := (List.getElem?_eq_some_iff.mp e).1
    refine ⟨{ h with scims := h.scims.set a z }, by simp only [Mem.setScim, ha, if_true], ?_, rfl, ?_⟩
    · simp only [Mem.derefSCIM, Option.bind_some, List.getElem?_set, ha, if_true]
    · intro q hq
      cases q with
      | none => rfl
      | some b =>
        have hab : a ≠ b := fun e => hq (by rw [e])
        simp only [Mem.derefSCIM, Option.bind_some, List.getElem?_set, hab, if_false]

/-- What the method computes does not depend on the receiver, but for the value that is kept after an error. -/
theorem scim_unmarshal_receiver (j : JsonCodec) (y z : SCIM) (text : Bytes) :
    ∃ w e, SCIM.unmarshalJSON j z text = .ok (w, e) ∧ SCIM.unmarshalJSON j y text = .ok (if e = none then w else y, e) := by
  simp only [SCIM.unmarshalJSON]
  cases hj : j.unmarshal text with
  | none => exact ⟨z, _, rfl, rfl⟩
  | some str =>
    obtain ⟨r, hp⟩ := C01_parse_returns str [withParsingMode RFC7643Only]
    simp only [hp, Run.ok_bind]
    by_cases ho : r.ok = false
    · simp only [ho, if_true]
      exact ⟨z, _, rfl, rfl⟩
    · simp only [ho]
      cases hu : r.urn with
      | none => exact absurd hu (((C22_ok_iff _ (Or.inr rfl) str).1 r hp).mp (by simpa using ho))
      | some u =>
        obtain ⟨_, h2, _, h4, h5⟩ := C26_kind _ (Or.inr (Or.inl rfl)) str u ⟨r, hp, hu⟩
        have hk : ¬ u.rfc ≠ .RFC7643 := fun h => h (h2 rfl)
        have hg : u.getSCIM ≠ none := h5.mpr (h4.mpr rfl)
        cases hsc : u.getSCIM with
        | none => exact absurd hsc hg
        | some w =>
          simp only [hk, if_false, Bool.true_eq_false, hsc]
          exact ⟨w, none, rfl, rfl⟩

/-- C61 (`UnmarshalJSON` of a SCIM struct): the receiver gets the value that the method computes, nothing else changes. -/
theorem C61_scim_unmarshal (uni : Bytes → Bytes) (j : JsonCodec) (h : Mem) (p : Ptr) (y : SCIM) (hy : h.derefSCIM p = some y) (text : Bytes) :
    ∃ h1 y1 e, h.act uni j (.scimUnmarshalJSON p text) = .ok (h1, .err e) ∧ y.unmarshalJSON j text = .ok (y1, e) ∧
      h1.derefSCIM p = some y1 ∧ SameButSCIM h h1 p := by
  obtain ⟨w, e, h1, h2⟩ := scim_unmarshal_receiver j y {} text
  cases e with
  | some e =>
    refine ⟨h, y, some e, ?_, h2, hy, rfl, fun _ _ => rfl⟩
    simp only [Mem.act, h1, Run.ok_bind]; rfl
  | none =>
    obtain ⟨h3, h4, h5, h6⟩ := write_scim hy w
    refine ⟨h3, w, none, ?_, h2, h5, h6⟩
    simp only [Mem.act, h1, Run.ok_bind, h4]; rfl

example := C61_scim_unmarshal id ⟨id, some⟩ Cases.h1 (some 0) _ rfl (lit "urn:ietf:params:scim:api:b")

theorem new_made {h : Mem} (hs : Sound h) (u : URN) :
    ((h.made u).1.new (h.made u).2).1.deref ((h.made u).1.new (h.made u).2).2 = some u ∧
    ∀ p, SameBut h ((h.made u).1.new (h.made u).2).1 p := by
  refine ⟨?_, fun p => ⟨?_, fun q y hy => ?_⟩⟩
  · simp only [Mem.deref, Mem.new, Option.bind_some, List.getElem?_concat_length, Option.map_some]
    exact congrArg some (made_value h u)
  · intro q v hv _
    obtain ⟨b, x, rfl, hx, rfl⟩ := deref_some hv
    simp only [Mem.deref, Mem.new, Option.bind_some, made_urns, List.getElem?_append_left (List.getElem?_eq_some_iff.mp hx).1, hx, Option.map_some]
    exact congrArg some (value_made hs hx u)
  · exact made_scims hy

/-- C61 (`Parse`): the pointer is nil or points to the URN that `Parse` computes; all that was there is as it was. -/
theorem C61_parse {uni : Bytes → Bytes} {j : JsonCodec} {h : Mem} (hr : ReachableMem uni j h) (s : Bytes) (opts : List Opt) :
    ∃ h1 p r, Urn.parse s opts = .ok r ∧ h.act uni j (.parse s opts) = .ok (h1, .urn p r.ok) ∧ h1.deref p = r.urn ∧
      (p = none ↔ r.urn = none) ∧ ∀ q, SameBut h h1 q := by
  obtain ⟨r, hp⟩ := C01_parse_returns s opts
  cases hu : r.urn with
  | none =>
    refine ⟨h, none, r, hp, ?_, by simp [Mem.deref, hu], by simp [hu], fun q => ⟨fun _ _ h _ => h, fun _ _ h => h⟩⟩
    simp only [Mem.act, hp, Run.ok_bind, hu]; rfl
  | some u =>
    obtain ⟨h1, h2⟩ := new_made (sound_of_reachable hr) u
    refine ⟨_, _, r, hp, ?_, by rw [hu]; exact h1, by simp [hu, Mem.new], h2⟩
    simp only [Mem.act, hp, Run.ok_bind, hu]; rfl

example := C61_parse (Cases.reach1 id ⟨id, some⟩) (lit "urn:x:y") []

/-- C61 (`Normalize`): a pointer to a new URN, with the value that the method computes. -/
theorem C61_normalize {uni : Bytes → Bytes} {j : JsonCodec} {h : Mem} (hr : ReachableMem uni j h) (p : Ptr) (v : URN) (hv : h.deref p = some v) :
    ∃ h1 q, h.act uni j (.normalize p) = .ok (h1, .urn q true) ∧ h1.deref q = some (v.normalize uni) ∧ h.deref q = none ∧
      ∀ q, SameBut h h1 q := by
  obtain ⟨x, hx, rfl⟩ := deref_obj hv
  have hm : h.made ((h.value x).normalize uni) = (h, ⟨(h.value x).normalize uni, none⟩) := rfl
  obtain ⟨h1, h2⟩ := new_made (sound_of_reachable hr) ((h.value x).normalize uni)
  rw [hm] at h1 h2
  refine ⟨_, _, by simp only [Mem.act, hx, Run.ok_bind]; rfl, h1, ?_, h2⟩
  simp [Mem.deref, Mem.new]

example := C61_normalize (Cases.reach1 id ⟨id, some⟩) (some 0) _ rfl

/-- C61 (`UnmarshalJSON` of a URN8141): the variable gets the value that the method computes; the URN that it pointed to is
as it was. -/
theorem C61_unmarshal8141 {uni : Bytes → Bytes} {j : JsonCodec} {h : Mem} (hr : ReachableMem uni j h) (p : Ptr) (text : Bytes)
    (hp : ∀ a, p = some a → a < h.urns.length) :
    ∃ h1 q u1 e, h.act uni j (.unmarshal8141 p text) = .ok (h1, .urn8141 q e) ∧
      URN8141.unmarshalJSON j ⟨h.deref p⟩ text = .ok (⟨u1⟩, e) ∧ h1.deref q = u1 ∧ (q = none ↔ u1 = none) ∧ (e ≠ none → q = p) ∧
      ∀ q, SameBut h h1 q := by
  have keep : ∀ q, SameBut h h q := fun _ => ⟨fun _ _ h _ => h, fun _ _ h => h⟩
  have hpn : p = none ↔ h.deref p = none := by
    cases p with
    | none => simp [Mem.deref]
    | some a =>
      have := hp a rfl
      simp [Mem.deref, this]
  simp only [Mem.act, URN8141.unmarshalJSON]
  cases hj : j.unmarshal text with
  | none => exact ⟨h, p, h.deref p, _, rfl, rfl, rfl, hpn, fun _ => rfl, keep⟩
  | some str =>
    obtain ⟨r, hp⟩ := C01_parse_returns str [withParsingMode RFC8141Only]
    simp only [hp, Run.ok_bind]
    by_cases ho : r.ok = false
    · simp only [ho, if_true]
      exact ⟨h, p, h.deref p, _, rfl, rfl, rfl, hpn, fun _ => rfl, keep⟩
    · simp only [ho]
      cases hu : r.urn with
      | none => exact ⟨h, none, none, none, rfl, rfl, rfl, by simp, fun h => absurd rfl h, keep⟩
      | some u =>
        obtain ⟨h1, h2⟩ := new_made (sound_of_reachable hr) u
        exact ⟨_, _, some u, none, rfl, rfl, h1, by simp [Mem.new], fun h => absurd rfl h, h2⟩

example := C61_unmarshal8141 (Cases.reach1 id ⟨id, some⟩) (some 0) (lit "urn:ab:c") (by rintro a ⟨⟩; decide)

/-- Writing an object with the SCIM pointer of one that is there. -/
theorem write_obj {h : Mem} {a : Nat} (ha : a < h.urns.length) (x : Obj) :
    ∃ h1, h.setObj (some a) x = .ok h1 ∧ h1.deref (some a) = some (h.value x) ∧ SameBut h h1 (some a) := by
  refine ⟨{ h with urns := h.urns.set a x }, by simp only [Mem.setObj, ha, if_true], ?_, ?_, fun _ _ h => h⟩
  · simp only [Mem.deref, Option.bind_some, List.getElem?_set, ha, if_true, Option.map_some]; rfl
  · intro q v hv hne
    obtain ⟨b, y, rfl, hy, rfl⟩ := deref_some hv
    have hab : a ≠ b := fun e => hne (by rw [e])
    simp only [Mem.deref, Option.bind_some, List.getElem?_set, hab, if_false, hy, Option.map_some]; rfl

/-- C61 (assignments): `p.ID = w`, `p.SS = w` and `*p = *q` change the value that `p` points to as Go says, and no other. -/
theorem C61_assign (uni : Bytes → Bytes) (j : JsonCodec) (h : Mem) (p : Ptr) (v : URN) (hv : h.deref p = some v) :
    (∀ w, ∃ h1, h.act uni j (.setID p w) = .ok (h1, .unit) ∧ h1.deref p = some { v with ID := w } ∧ SameBut h h1 p) ∧
    (∀ w, ∃ h1, h.act uni j (.setSS p w) = .ok (h1, .unit) ∧ h1.deref p = some { v with SS := w } ∧ SameBut h h1 p) ∧
    (∀ q v', h.deref q = some v' → ∃ h1, h.act uni j (.copy p q) = .ok (h1, .unit) ∧ h1.deref p = some v' ∧ SameBut h h1 p) := by
  obtain ⟨a, x, rfl, hx, rfl⟩ := deref_some hv
  have ha := (List.getElem?_eq_some_iff.mp hx).1
  have ho : h.obj (some a) = .ok x := by simp only [Mem.obj, hx]
  refine ⟨fun w => ?_, fun w => ?_, fun q v' hq => ?_⟩
  · obtain ⟨h1, h2, h3, h4⟩ := write_obj ha { x with fields := { x.fields with ID := w } }
    exact ⟨h1, by simp only [Mem.act, ho, h2, Run.ok_bind]; rfl, h3, h4⟩
  · obtain ⟨h1, h2, h3, h4⟩ := write_obj ha { x with fields := { x.fields with SS := w } }
    exact ⟨h1, by simp only [Mem.act, ho, h2, Run.ok_bind]; rfl, h3, h4⟩
  · obtain ⟨y, hy, rfl⟩ := deref_obj hq
    obtain ⟨h1, h2, h3, h4⟩ := write_obj ha y
    exact ⟨h1, by simp only [Mem.act, hy, h2, Run.ok_bind]; rfl, h3, h4⟩

example := C61_assign id ⟨id, some⟩ Cases.h1 (some 0) _ rfl

/-- C61 (assignments to SCIM structs). -/
theorem C61_scim_assign (uni : Bytes → Bytes) (j : JsonCodec) (h : Mem) (p : Ptr) (y : SCIM) (hy : h.derefSCIM p = some y) :
    (∀ w, ∃ h1, h.act uni j (.setType p w) = .ok (h1, .unit) ∧ h1.derefSCIM p = some { y with Typ := w } ∧ SameButSCIM h h1 p) ∧
    (∀ w, ∃ h1, h.act uni j (.setName p w) = .ok (h1, .unit) ∧ h1.derefSCIM p = some { y with Name := w } ∧ SameButSCIM h h1 p) ∧
    (∀ w, ∃ h1, h.act uni j (.setOther p w) = .ok (h1, .unit) ∧ h1.derefSCIM p = some { y with Other := w } ∧ SameButSCIM h h1 p) ∧
    (∀ q y', h.derefSCIM q = some y' → ∃ h1, h.act uni j (.copySCIM p q) = .ok (h1, .unit) ∧ h1.derefSCIM p = some y' ∧ SameButSCIM h h1 p) := by
  have ho := derefSCIM_obj hy
  refine ⟨fun w => ?_, fun w => ?_, fun w => ?_, fun q y' hq => ?_⟩
  · obtain ⟨h1, h2, h3, h4⟩ := write_scim hy { y with Typ := w }
    exact ⟨h1, by simp only [Mem.act, ho, h2, Run.ok_bind]; rfl, h3, h4⟩
  · obtain ⟨h1, h2, h3, h4⟩ := write_scim hy { y with Name := w }
    exact ⟨h1, by simp only [Mem.act, ho, h2, Run.ok_bind]; rfl, h3, h4⟩
  · obtain ⟨h1, h2, h3, h4⟩ := write_scim hy { y with Other := w }
    exact ⟨h1, by simp only [Mem.act, ho, h2, Run.ok_bind]; rfl, h3, h4⟩
  · obtain ⟨h1, h2, h3, h4⟩ := write_scim hy y'
    exact ⟨h1, by simp only [Mem.act, derefSCIM_obj hq, h2, Run.ok_bind]; rfl, h3, h4⟩

example := C61_scim_assign id ⟨id, some⟩ Cases.h1 (some 0) _ rfl

/-- C61 (new structs): `&URN{}` and `&SCIM{}` are zero. -/
theorem C61_new (uni : Bytes → Bytes) (j : JsonCodec) (h : Mem) :
    (∃ h1 p, h.act uni j .newURN = .ok (h1, .urn p true) ∧ h1.deref p = some {} ∧ h.deref p = none) ∧
    (∃ h1 p, h.act uni j .newSCIM = .ok (h1, .scim p) ∧ h1.derefSCIM p = some {} ∧ h.derefSCIM p = none) := by
  refine ⟨⟨_, _, rfl, ?_, ?_⟩, ⟨_, _, rfl, ?_, ?_⟩⟩
  · simp only [Mem.deref, Option.bind_some, List.getElem?_concat_length, Option.map_some]; rfl
  · simp [Mem.deref]
  · simp [Mem.derefSCIM]
  · simp [Mem.derefSCIM]

/-! Beside the theorems: a memory in which the pointers 0 (URN) and 0 (SCIM) are there. -/

example : ∃ h v y, ReachableMem id ⟨id, some⟩ h ∧ h.deref (some 0) = some v ∧ h.derefSCIM (some 0) = some y ∧ v.getSCIM = some y ∧ y.Name = lit "a" := by
  have p1 : Urn.parse (lit "urn:ietf:params:scim:api:a") [withParsingMode RFC7643Only] = _ := parse_mode _ _
  exact ⟨_, _, _, ⟨_, _, .cons (a := .parse (lit "urn:ietf:params:scim:api:a") [withParsingMode RFC7643Only]) (by simp [Heap.Act.urns]) (by simp [Heap.Act.scims])
    (by simp only [Mem.act, p1]; rfl) (.nil _ _ _)⟩, rfl, rfl, by decide, by decide⟩

end Urn
