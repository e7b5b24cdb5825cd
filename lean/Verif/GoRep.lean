import Verif.GoLabels
/-!
# How the memory of the interpreter represents machines and URNs
-/
set_option autoImplicit false
namespace Urn.GoLang
open Tables (Act)

/-! ## How values of the model are represented -/

/-- An error value. -/
def errVal : Option Err → Val
  | none => .nil
  | some e => .err (lit e.text)

def kindNum : Kind → Int
  | .NONE => 0
  | .RFC2141 => 1
  | .RFC7643 => 2
  | .RFC8141 => 3

/-- The struct `machine`, with a given value of its field `data`. -/
def machVal (data : Val) (m : Machine) : Val :=
  .struct "machine" [("data", data), ("cs", .int "int" m.cs), ("p", .int "int" m.p), ("pe", .int "int" m.pe),
    ("eof", .int "int" m.eof), ("pb", .int "int" m.pb), ("err", errVal m.err), ("startParsingAt", .int "int" m.startParsingAt),
    ("parsingMode", .int "ParsingMode" m.parsingMode), ("parsingModeSet", .bool m.parsingModeSet)]

/-- The struct `URN`, with the address of its SCIM struct. -/
def urnVal (scim : Option Nat) (o : URN) : Val :=
  .struct "URN" [("prefix", .str o.prefix), ("ID", .str o.ID), ("SS", .str o.SS), ("norm", .str o.norm),
    ("kind", .int "Kind" (kindNum o.kind)), ("scim", .ptr "SCIM" scim), ("rComponent", .str o.rComponent),
    ("qComponent", .str o.qComponent), ("fComponent", .str o.fComponent), ("rStart", .bool o.rStart), ("qStart", .bool o.qStart),
    ("tolower", .list (o.tolower.map (.int "int")))]

def scimVal (s : SCIM) : Val :=
  .struct "SCIM" [("Type", .int "Type" s.Typ), ("Name", .str s.Name), ("Other", .str s.Other), ("pos", .int "int" s.pos)]

/-- A slice of bytes: nil, or a part of an array with what is before and after it. -/
inductive Buf where
  | nil
  | part (a : Nat) (pre post : Bytes) (cap : Nat)

/-- The slice as a value. -/
def Buf.val : Buf → (len : Nat) → Val
  | .nil, _ => .nil
  | .part a pre _ cap, len => .bytes a pre.length len cap

/-- The slice has this contents. -/
def Buf.has (h : Heap) : Buf → Bytes → Prop
  | .nil, d => d = []
  | .part a pre post cap, d => h[a]? = some (.arr (pre ++ d ++ post)) ∧ d.length ≤ cap ∧ cap ≤ d.length + post.length

/-- What a program may do with the array of a slice: use all of it, all but write to byte `j` of the slice, or use the bytes of the slice. -/
inductive Seen where
  | all
  | rom (j : Nat)
  | win

/-- There is a byte that must not be written to. -/
def Seen.ro : Seen → Bool
  | .rom _ => true
  | _ => false

/-- This byte of the slice must not be written to. -/
def Seen.no : Seen → Int → Bool
  | .rom j, i => i == j
  | _, _ => false

theorem Seen.no_ro {w : Seen} {i : Int} (h : w.ro = false) : w.no i = false := by cases w <;> first | rfl | cases h

/-- The array of a slice that has the contents `d`. -/
def cellOf : Seen → (pre d post : Bytes) → Cell
  | .all, pre, d, post => .arr (pre ++ d ++ post)
  | .rom j, pre, d, post => .rom (pre.length + j) (pre ++ d ++ post)
  | .win, pre, d, _ => .win pre.length d

/-- The slice has this contents, and the program may do this with its array. -/
def Buf.seen (w : Seen) (h : Heap) : Buf → Bytes → Prop
  | .nil, d => d = []
  | .part a pre post cap, d => h[a]? = some (cellOf w pre d post) ∧ d.length ≤ cap ∧ cap ≤ d.length + post.length

theorem Buf.seen_has {h : Heap} {b : Buf} {d : Bytes} : b.seen .all h d ↔ b.has h d := by cases b <;> exact Iff.rfl

theorem cellOf_obj {w : Seen} {pre d post : Bytes} {v : Val} : cellOf w pre d post ≠ .obj v := by cases w <;> exact fun e => by cases e

theorem cut_part {pre d post : Bytes} {i n : Nat} (hi : i + n ≤ d.length) : cutBytes (pre ++ d ++ post) (pre.length + i) n = some ((d.drop i).take n) := by
  unfold cutBytes
  rw [if_pos (by simp only [List.length_append]; omega), List.append_assoc, ← List.drop_drop, List.drop_left,
    List.drop_append_of_le_length (by omega), List.take_append_of_le_length (by simp only [List.length_drop]; omega)]

theorem cut_cellOf {w : Seen} {pre d post : Bytes} {i n : Nat} (hi : i + n ≤ d.length) : (cellOf w pre d post).cut (pre.length + i) n = some ((d.drop i).take n) := by
  cases w with
  | win =>
      unfold cellOf Cell.cut cutBytes
      dsimp only
      rw [if_pos (by omega), if_pos (by omega), Nat.add_sub_cancel_left]
  | _ => exact cut_part hi

theorem loadBytes_cellOf {h : Heap} {a : Nat} {w : Seen} {pre d post : Bytes} {i n : Nat} (ha : h[a]? = some (cellOf w pre d post)) (hi : i + n ≤ d.length) :
    loadBytes h a (pre.length + i) n = .ok ((d.drop i).take n) := by
  unfold loadBytes
  rw [ha]
  dsimp only
  rw [cut_cellOf hi]
  rfl

theorem storeByte_cellOf {h : Heap} {a : Nat} {w : Seen} {pre d post : Bytes} {i : Nat} {c : UInt8} (ha : h[a]? = some (cellOf w pre d post)) (hw : w.no i = false)
    (hi : i < d.length) : storeByte h a (pre.length + i) c = .ok (h.set a (cellOf w pre (d.set i c) post)) := by
  unfold storeByte
  rw [ha]
  cases w with
  | rom j =>
      have hij : i ≠ j := by
        intro e
        simp [Seen.no, e] at hw
      simp only [cellOf, Cell.poke]
      rw [if_pos (by simp only [List.length_append]; omega), List.append_assoc, List.set_append_right _ _ (by omega), Nat.add_sub_cancel_left,
        List.set_append_left _ _ (by omega), List.append_assoc]
      rfl
  | all =>
      simp only [cellOf, Cell.poke]
      rw [if_pos (by simp only [List.length_append]; omega), List.append_assoc, List.set_append_right _ _ (by omega), Nat.add_sub_cancel_left,
        List.set_append_left _ _ (by omega), List.append_assoc]
      rfl
  | win =>
      simp only [cellOf, Cell.poke]
      rw [if_pos (by omega), Nat.add_sub_cancel_left]
      rfl

/-- Not the array of the slice. -/
def Buf.away : Buf → Nat → Prop
  | .nil, _ => True
  | .part a _ _ _, b => b ≠ a

/-- Where things are: the machine, the URN that is being made, and the input, and what may be done with the input. -/
structure Locs where
  am : Nat
  ao : Nat
  buf : Buf
  len : Nat
  see : Seen

abbrev Locs.ro (L : Locs) : Bool := L.see.ro

/-- The memory during `Parse`.  `h0` is the memory before. -/
structure RepAt (h0 h : Heap) (L : Locs) (sp : Option Nat) (m : Machine) (o : URN) : Prop where
  mach : h[L.am]? = some (.obj (machVal (L.buf.val L.len) m))
  out : h[L.ao]? = some (.obj (urnVal sp o))
  scim : match o.scim with
    | none => sp = none
    | some s => ∃ a, sp = some a ∧ h[a]? = some (.obj (scimVal s)) ∧ h0.length ≤ a
  buf : L.buf.seen L.see h m.data
  len : m.data.length = L.len
  fresh : h0.length ≤ L.ao
  frame : ∀ a, a < h0.length → a ≠ L.am → L.buf.away a → h[a]? = h0[a]?

def Rep (h0 h : Heap) (L : Locs) (m : Machine) (o : URN) : Prop := ∃ sp, RepAt h0 h L sp m o

/-- The variables of `Parse`. -/
def envOf (L : Locs) : Env :=
  [("output", .ptr "URN" (some L.ao)), ("m", .ptr "machine" (some L.am)), ("input", L.buf.val L.len)]

def sigOf : Flow → Sig
  | .next => .next
  | .again => .goto "_again"

section
variable {X : Ext} {call : Call} {fuel : Nat} {h0 h : Heap} {L : Locs} {sp : Option Nat} {m : Machine} {o : URN}

theorem RepAt.am_lt (r : RepAt h0 h L sp m o) : L.am < h.length := (List.getElem?_eq_some_iff.1 r.mach).1
theorem RepAt.ao_lt (r : RepAt h0 h L sp m o) : L.ao < h.length := (List.getElem?_eq_some_iff.1 r.out).1
theorem RepAt.ne (r : RepAt h0 h L sp m o) : L.am ≠ L.ao := by
  intro he
  have h1 := r.mach
  rw [he, r.out] at h1
  simp [urnVal, machVal] at h1
theorem RepAt.buf_am (r : RepAt h0 h L sp m o) : L.buf.away L.am := by
  have := r.buf
  cases hb : L.buf with
  | nil => trivial
  | part a pre post cap =>
      rw [hb] at this
      intro he
      have h1 := r.mach
      rw [he, this.1] at h1
      exact cellOf_obj (Option.some.inj h1)
theorem RepAt.buf_ao (r : RepAt h0 h L sp m o) : L.buf.away L.ao := by
  have := r.buf
  cases hb : L.buf with
  | nil => trivial
  | part a pre post cap =>
      rw [hb] at this
      intro he
      have h1 := r.out
      rw [he, this.1] at h1
      exact cellOf_obj (Option.some.inj h1)

theorem Buf.seen_set {b : Buf} {w : Seen} {d : Bytes} {a : Nat} {c : Cell} (hb : b.seen w h d) (ha : b.away a) : b.seen w (h.set a c) d := by
  cases b with
  | nil => exact hb
  | part a' pre post cap =>
      refine ⟨?_, hb.2⟩
      rw [List.getElem?_set_ne ha]
      exact hb.1

/-- Writing to the machine. -/
theorem RepAt.set_mach (r : RepAt h0 h L sp m o) {m' : Machine} (hd : m'.data = m.data) :
    RepAt h0 (h.set L.am (.obj (machVal (L.buf.val L.len) m'))) L sp m' o where
  mach := by rw [List.getElem?_set_self r.am_lt]
  out := by rw [List.getElem?_set_ne r.ne]; exact r.out
  scim := by
    have := r.scim
    split at this
    · exact this
    · obtain ⟨a, ha, hs, hl⟩ := this
      refine ⟨a, ha, ?_, hl⟩
      rw [List.getElem?_set_ne]
      · exact hs
      · intro he
        have h1 := r.mach
        rw [he, hs] at h1
        simp [scimVal, machVal] at h1
  buf := by rw [hd]; exact Buf.seen_set r.buf r.buf_am
  len := by rw [hd]; exact r.len
  fresh := r.fresh
  frame := by
    intro a h1 h2 h3
    rw [List.getElem?_set_ne (Ne.symm h2)]
    exact r.frame a h1 h2 h3

/-- Writing to the URN, except for its SCIM pointer. -/
theorem RepAt.set_out (r : RepAt h0 h L sp m o) {o' : URN} (hs : o'.scim = o.scim) :
    RepAt h0 (h.set L.ao (.obj (urnVal sp o'))) L sp m o' where
  mach := by rw [List.getElem?_set_ne (Ne.symm r.ne)]; exact r.mach
  out := by rw [List.getElem?_set_self r.ao_lt]
  scim := by
    rw [hs]
    have := r.scim
    split at this
    · exact this
    · obtain ⟨a, ha, hs, hl⟩ := this
      refine ⟨a, ha, ?_, hl⟩
      rw [List.getElem?_set_ne]
      · exact hs
      · intro he
        have h1 := r.out
        rw [he, hs] at h1
        simp [scimVal, urnVal] at h1
  buf := Buf.seen_set r.buf r.buf_ao
  len := r.len
  fresh := r.fresh
  frame := by
    intro a h1 h2 h3
    rw [List.getElem?_set_ne]
    · exact r.frame a h1 h2 h3
    · have := r.fresh
      omega

/-- Writing to the SCIM struct. -/
theorem RepAt.set_scim {a : Nat} {s : SCIM} (r : RepAt h0 h L (some a) m o) (ho : o.scim = some s) (s' : SCIM) :
    RepAt h0 (h.set a (.obj (scimVal s'))) L (some a) m { o with scim := some s' } := by
  have hs := r.scim
  rw [ho] at hs
  obtain ⟨a', ha, hs, hl⟩ := hs
  cases ha
  have h1 : a ≠ L.am := by
    intro he
    have h1 := r.mach
    rw [← he, hs] at h1
    simp [scimVal, machVal] at h1
  have h2 : a ≠ L.ao := by
    intro he
    have h1 := r.out
    rw [← he, hs] at h1
    simp [scimVal, urnVal] at h1
  have h3 : L.buf.away a := by
    have := r.buf
    cases hb : L.buf with
    | nil => trivial
    | part a' pre post cap =>
        rw [hb] at this
        intro he
        rw [he, this.1] at hs
        exact cellOf_obj (Option.some.inj hs)
  refine ⟨?_, ?_, ?_, Buf.seen_set r.buf h3, r.len, r.fresh, ?_⟩
  · rw [List.getElem?_set_ne h1]; exact r.mach
  · rw [List.getElem?_set_ne h2]; exact r.out
  · exact ⟨a, rfl, by rw [List.getElem?_set_self (List.getElem?_eq_some_iff.1 hs).1], hl⟩
  · intro b hb1 hb2 hb3
    rw [List.getElem?_set_ne (by omega)]
    exact r.frame b hb1 hb2 hb3

theorem Buf.seen_append {b : Buf} {w : Seen} {d : Bytes} {c : List Cell} (hb : b.seen w h d) : b.seen w (h ++ c) d := by
  cases b with
  | nil => exact hb
  | part a pre post cap =>
      refine ⟨?_, hb.2⟩
      rw [List.getElem?_append_left (List.getElem?_eq_some_iff.1 hb.1).1]
      exact hb.1

theorem Buf.has_append {b : Buf} {d : Bytes} {c : List Cell} (hb : b.has h d) : b.has (h ++ c) d :=
  Buf.seen_has.1 (Buf.seen_append (Buf.seen_has.2 hb))

/-- A new SCIM struct. -/
theorem RepAt.new_scim (r : RepAt h0 h L sp m o) (s : SCIM) :
    RepAt h0 ((h ++ [Cell.obj (scimVal s)]).set L.ao (.obj (urnVal (some h.length) o))) L (some h.length) m
      { o with scim := some s } := by
  have h1 := r.ao_lt
  have h2 := r.am_lt
  have hle : h0.length ≤ h.length := by have := r.fresh; omega
  refine ⟨?_, ?_, ?_, ?_, r.len, r.fresh, ?_⟩
  · rw [List.getElem?_set_ne (Ne.symm r.ne), List.getElem?_append_left h2]; exact r.mach
  · rw [List.getElem?_set_self (by simp; omega)]; rfl
  · refine ⟨h.length, rfl, ?_, hle⟩
    rw [List.getElem?_set_ne (by omega)]
    simp
  · exact Buf.seen_set (Buf.seen_append r.buf) r.buf_ao
  · intro b hb1 hb2 hb3
    have := r.fresh
    rw [List.getElem?_set_ne (by omega), List.getElem?_append_left (by omega)]
    exact r.frame b hb1 hb2 hb3

/-! ## Slices -/

/-- `string(d[i:j])` -/
theorem Buf.toStr_slice {b : Buf} {w : Seen} {d t : Bytes} {i j : Int} (hb : b.seen w h d) (hs : slice d i j = .ok t) :
    ∃ v, sliceVal (b.val d.length) i j = .ok v ∧ toStr h v = .ok (.str t) := by
  unfold slice at hs
  split at hs
  · rename_i hc
    cases hs
    cases b with
    | nil =>
        cases hb
        refine ⟨.nil, ?_, ?_⟩
        · simp at hc
          simp [Buf.val, sliceVal]; omega
        · simp [toStr]
    | part a pre post cap =>
        obtain ⟨h1, h2, h3⟩ := hb
        refine ⟨.bytes a (pre.length + i.toNat) (j.toNat - i.toNat) (cap - i.toNat), ?_, ?_⟩
        · simp only [Buf.val, sliceVal]
          rw [if_pos (by omega)]
        · simp only [toStr, loadBytes_cellOf h1 (i := i.toNat) (n := j.toNat - i.toNat) (by omega), Res.ok_bind, Res.pure_eq]
  · cases hs

/-- `d[i]` -/
theorem Buf.index_val {b : Buf} {w : Seen} {d : Bytes} {i : Int} {c : UInt8} (hb : b.seen w h d) (hs : index d i = .ok c) :
    indexVal h (b.val d.length) i = .ok (.int "byte" c.toNat) := by
  unfold index at hs
  split at hs
  · rename_i hc
    split at hs
    · rename_i c' hd
      cases hs
      have hl := (List.getElem?_eq_some_iff.1 hd).1
      cases b with
      | nil =>
          cases hb
          simp at hd
      | part a pre post cap =>
          obtain ⟨h1, h2, h3⟩ := hb
          have : (d.drop i.toNat).take 1 = [c] := by
            rw [List.take_one, List.head?_drop, hd]
            rfl
          simp only [Buf.val, indexVal, loadBytes_cellOf h1 (i := i.toNat) (n := 1) (by omega), Res.ok_bind, this]
          rw [if_pos (by omega)]
    · cases hs
  · cases hs

/-- `d[i] = c` -/
theorem Buf.setIndex_val {b : Buf} {d d' : Bytes} {i : Int} {n : Int} {t : String} {w : Seen} (hb : b.seen w h d) (hw : w.no i = false)
    (hs : Urn.store d i (UInt8.ofNat n.toNat) = .ok d') :
    ∃ a pre post cap, b = .part a pre post cap ∧
      setIndex h (b.val d.length) i (.int t n) = .ok (h.set a (cellOf w pre d' post)) := by
  unfold Urn.store at hs
  split at hs
  · rename_i hc
    cases hs
    cases b with
    | nil => cases hb; simp at hc; omega
    | part a pre post cap =>
        obtain ⟨h1, h2, h3⟩ := hb
        refine ⟨a, pre, post, cap, rfl, ?_⟩
        simp only [Buf.val, setIndex]
        rw [if_pos (by omega), storeByte_cellOf h1 (by rw [Int.toNat_of_nonneg hc.1]; exact hw) (by omega)]
  · cases hs

/-- A byte that must not be written to. -/
theorem Buf.setIndex_stuck {b : Buf} {d d' : Bytes} {i : Int} {n : Int} {t : String} {c : UInt8} {w : Seen} (hb : b.seen w h d) (hw : w.no i = true)
    (hs : Urn.store d i c = .ok d') : setIndex h (b.val d.length) i (.int t n) = .stuck := by
  unfold Urn.store at hs
  split at hs
  · rename_i hc
    cases b with
    | nil => cases hb; simp at hc; omega
    | part a pre post cap =>
        cases w with
        | rom j =>
            have hij : i = j := by simpa [Seen.no] using hw
            simp only [Buf.val, setIndex, storeByte, hb.1, cellOf, Cell.poke]
            rw [if_pos (by omega), if_neg (by omega)]
            rfl
        | _ => cases hw
  · cases hs

/-- Writing to the input. -/
theorem RepAt.set_buf {a cap : Nat} {pre post d' : Bytes} (r : RepAt h0 h L sp m o) (hb : L.buf = .part a pre post cap)
    (hl : d'.length = m.data.length) :
    RepAt h0 (h.set a (cellOf L.see pre d' post)) L sp { m with data := d' } o := by
  have hbuf := r.buf
  have h1 := r.buf_am
  have h2 := r.buf_ao
  rw [hb] at hbuf h1 h2
  obtain ⟨h3, h4, h5⟩ := hbuf
  have h1 : L.am ≠ a := h1
  have h2 : L.ao ≠ a := h2
  refine ⟨?_, ?_, ?_, ?_, hl.trans r.len, r.fresh, ?_⟩
  · rw [List.getElem?_set_ne (Ne.symm h1)]; exact r.mach
  · rw [List.getElem?_set_ne (Ne.symm h2)]; exact r.out
  · have := r.scim
    split at this
    · exact this
    · obtain ⟨b, hb1, hb2, hb3⟩ := this
      refine ⟨b, hb1, ?_, hb3⟩
      rw [List.getElem?_set_ne]
      · exact hb2
      · intro he
        rw [← he, h3] at hb2
        exact cellOf_obj (Option.some.inj hb2)
  · rw [hb]
    refine ⟨?_, ?_, ?_⟩
    · rw [List.getElem?_set_self (List.getElem?_eq_some_iff.1 h3).1]
    · simp only [hl]; exact h4
    · simp only [hl]; exact h5
  · intro b hb1 hb2 hb3
    have hb4 := hb3
    rw [hb] at hb4
    rw [List.getElem?_set_ne (Ne.symm hb4)]
    exact r.frame b hb1 hb2 hb3

/-! ## Texts of errors -/

/-- The part of a template before `%d`, with `%%` replaced, and the part after it. -/
def splitTmpl : Bytes → Option (Bytes × Bytes)
  | [] => none
  | [_] => none
  | c :: d :: r =>
      if c = 37 then
        if d = 37 then (splitTmpl r).map fun x => (37 :: x.1, x.2)
        else if d = 100 then some ([], r) else none
      else (splitTmpl (d :: r)).map fun x => (c :: x.1, x.2)

theorem sprintf_plain : ∀ b : Bytes, b.all (· ≠ 37) = true → sprintf b [] = some b
  | [], _ => by simp [sprintf]
  | c :: b, h => by
      simp at h
      have ih := sprintf_plain b (by simpa using h.2)
      unfold sprintf
      simp [h.1, ih]

theorem sprintf_split (t : String) (n : Int) : ∀ (s a b : Bytes), splitTmpl s = some (a, b) → b.all (· ≠ 37) = true →
    sprintf s [.int t n] = some (a ++ Urn.lit (toString n) ++ b)
  | [], a, b, hs, _ => by simp [splitTmpl] at hs
  | [_], a, b, hs, _ => by simp [splitTmpl] at hs
  | c :: d :: r, a, b, hs, hb => by
      unfold splitTmpl at hs
      unfold sprintf
      by_cases hc : c = 37
      · simp only [hc, if_true] at hs ⊢
        by_cases hd : d = 37
        · simp only [hd, if_true] at hs ⊢
          cases hx : splitTmpl r with
          | none => simp [hx] at hs
          | some x =>
              simp [hx] at hs
              obtain ⟨rfl, rfl⟩ := hs
              rw [sprintf_split t n r x.1 x.2 hx hb]
              simp
        · by_cases hd2 : d = 100
          · simp [hd2] at hs ⊢
            obtain ⟨rfl, rfl⟩ := hs
            rw [sprintf_plain r hb]
            simp
          · simp [hd, hd2] at hs
      · simp only [hc, if_false] at hs ⊢
        cases hx : splitTmpl (d :: r) with
        | none => simp [hx] at hs
        | some x =>
            simp [hx] at hs
            obtain ⟨rfl, rfl⟩ := hs
            rw [sprintf_split t n (d :: r) x.1 x.2 hx hb]
            simp

/-- The variables of machine.go:9-27. -/
def errName : ErrKind → String
  | .pfx => "errPrefix"
  | .identifier => "errIdentifier"
  | .specificString => "errSpecificString"
  | .noUrnWithinID => "errNoUrnWithinID"
  | .hex => "errHex"
  | .scimNamespace => "errSCIMNamespace"
  | .scimType => "errSCIMType"
  | .scimName => "errSCIMName"
  | .scimOther => "errSCIMOther"
  | .scimOtherIncomplete => "errSCIMOtherIncomplete"
  | .informalID8141 => "err8141InformalID"
  | .specificString8141 => "err8141SpecificString"
  | .identifier8141 => "err8141Identifier"
  | .rComponentStart8141 => "err8141RComponentStart"
  | .qComponentStart8141 => "err8141QComponentStart"
  | .malformedRComp8141 => "err8141MalformedRComp"
  | .malformedQComp8141 => "err8141MalformedQComp"

/-- Their values, split. -/
def errOK (k : ErrKind) : Bool :=
  match get (errName k) prog.consts with
  | some (.str t) => decide (splitTmpl t = some (Urn.lit k.template, Urn.lit "]"))
  | _ => false

theorem err_ok (k : ErrKind) : errOK k = true := by cases k <;> decide +kernel

theorem lit_app (a b : String) : Urn.lit (a ++ b) = Urn.lit a ++ Urn.lit b := by
  simp [Urn.lit]

theorem err_text (k : ErrKind) : ∃ t, get (errName k) prog.consts = some (.str t) ∧
    ∀ n : Int, sprintf t [.int "int" n] = some (Urn.lit (Err.text ⟨k, n⟩)) := by
  have h := err_ok k
  unfold errOK at h
  split at h
  · rename_i t ht
    refine ⟨t, ht, fun n => ?_⟩
    rw [sprintf_split "int" n t _ _ (of_decide_eq_true h) (by decide +kernel)]
    simp only [Err.text, lit_app]
  · cases h

end
end Urn.GoLang
