import Verif.GoCheckRun4
import Verif.PropsText
/-!
# Checks in Go

C69 of `properties.jsonl`.  `P` is the program in the files of /repo (C63: there is exactly one) and `C` the program of the
checks in `GoCheck.lean`, which are Go functions that return a bool.  `Holds P C X f vs h`: called with the arguments `vs` when
`h` is in memory, the check `f` is done and returns `true`.  A slice with the bytes `s` is `b.val s.length` with `b.has h s`: nil if
`s` is empty, or any part of any array in memory.  `X.Fits s`: the length of `s` is an `int` (of 32 or 64 bits, `X.bits`);
`X.FitsJson t`: so is the length of the string that the JSON text `t` has.  See `GoCheck.lean` for what is checked.
-/
set_option autoImplicit false
namespace Urn.GoLang

/-- The checks have a meaning. -/
theorem C69_program : ∃ C, IsProgram [checkGo] C ∧ ∀ D, IsProgram [checkGo] D → D = C :=
  ⟨tprog, isProgram_check, fun _ h => check_eq h⟩

section
variable {P C : Prog} (hP : IsProgram files P) (hC : IsProgram [checkGo] C) (X : Ext) (h : Heap)
include hP hC

theorem C69_unchanged (b : Buf) (s : Bytes) (hb : b.has h s) (hfs : X.Fits s) (mode : ParsingMode) :
    Holds P C X "unchanged" [b.val s.length, .int "ParsingMode" mode] h := by
  cases program_eq hP; cases check_eq hC; exact run_unchanged hb hfs

theorem C69_independent (b : Buf) (s : Bytes) (hb : b.has h s) (hfs : X.Fits s) (mode : ParsingMode) (i : Int) (hi : 0 ≤ i ∧ i < s.length) (c : UInt8) :
    Holds P C X "independent" [b.val s.length, .int "ParsingMode" mode, .int "int" i, .int "byte" c.toNat] h := by
  cases program_eq hP; cases check_eq hC; exact run_independent hb hfs hi

/-- In RFC 8141 mode `Parse` may return `nil, true` (C22). -/
theorem C69_reports (b : Buf) (s : Bytes) (hb : b.has h s) (hfs : X.Fits s) (mode : ParsingMode) (hm : mode = RFC2141Only ∨ mode = RFC7643Only) :
    Holds P C X "reports" [b.val s.length, .int "ParsingMode" mode] h := by
  cases program_eq hP; cases check_eq hC; exact run_reports hb hfs hm

theorem C69_exclusive (b : Buf) (s : Bytes) (hb : b.has h s) (hfs : X.Fits s) (mode : ParsingMode) :
    Holds P C X "exclusive" [b.val s.length, .int "ParsingMode" mode] h := by
  cases program_eq hP; cases check_eq hC; exact run_exclusive hb hfs

theorem C69_round_trip (b : Buf) (s : Bytes) (hb : b.has h s) (hfs : X.Fits s) : Holds P C X "roundTrip" [b.val s.length] h := by
  cases program_eq hP; cases check_eq hC; exact run_roundTrip hb hfs

theorem C69_pieces (b : Buf) (s : Bytes) (hb : b.has h s) (hfs : X.Fits s) : Holds P C X "pieces" [b.val s.length] h := by
  cases program_eq hP; cases check_eq hC; exact run_pieces hb hfs

theorem C69_pieces_8141 (b : Buf) (s : Bytes) (hb : b.has h s) (hfs : X.Fits s) : Holds P C X "pieces8141" [b.val s.length] h := by
  cases program_eq hP; cases check_eq hC; exact run_pieces8141 hb hfs

theorem C69_scim (b : Buf) (s : Bytes) (hb : b.has h s) (hfs : X.Fits s) : Holds P C X "scim" [b.val s.length] h := by
  cases program_eq hP; cases check_eq hC; exact run_scim hb hfs

theorem C69_agree (b : Buf) (s : Bytes) (hb : b.has h s) (hfs : X.Fits s) : Holds P C X "agree" [b.val s.length] h := by
  cases program_eq hP; cases check_eq hC; exact run_agree hb hfs

theorem C69_stable (b : Buf) (s : Bytes) (hb : b.has h s) (hfs : X.Fits s) (mode : ParsingMode) (hm : KnownMode mode) :
    Holds P C X "stable" [b.val s.length, .int "ParsingMode" mode] h := by
  cases program_eq hP; cases check_eq hC; exact run_stable hb hfs hm

theorem C69_equivalence (a b c : Buf) (s t w : Bytes) (ha : a.has h s) (hfs : X.Fits s) (hb : b.has h t) (hft : X.Fits t) (hc : c.has h w) (hfw : X.Fits w) (x y z : ParsingMode) :
    Holds P C X "equivalence" [a.val s.length, b.val t.length, c.val w.length, .int "ParsingMode" x, .int "ParsingMode" y, .int "ParsingMode" z] h := by
  cases program_eq hP; cases check_eq hC; exact run_equivalence ha hfs hb hft hc hfw

theorem C69_normal (b : Buf) (s : Bytes) (hb : b.has h s) (hfs : X.Fits s) (mode : ParsingMode) (hm : KnownMode mode) :
    Holds P C X "normal" [b.val s.length, .int "ParsingMode" mode] h := by
  cases program_eq hP; cases check_eq hC; exact run_normal hb hfs hm

theorem C69_canonical (a b : Buf) (s t : Bytes) (ha : a.has h s) (hfs : X.Fits s) (hb : b.has h t) (hft : X.Fits t) (mode : ParsingMode) (hm : KnownMode mode) :
    Holds P C X "canonical" [a.val s.length, b.val t.length, .int "ParsingMode" mode] h := by
  cases program_eq hP; cases check_eq hC; exact run_canonical ha hfs hb hft hm

theorem C69_reuse (a b : Buf) (s t : Bytes) (ha : a.has h s) (hfs : X.Fits s) (hb : b.has h t) (hft : X.Fits t) (mode : ParsingMode) :
    Holds P C X "reuse" [a.val s.length, b.val t.length, .int "ParsingMode" mode] h := by
  cases program_eq hP; cases check_eq hC; exact run_reuse ha hfs hb hft

theorem C69_last (b : Buf) (s : Bytes) (hb : b.has h s) (hfs : X.Fits s) (x mode : ParsingMode) (hm : KnownMode mode) :
    Holds P C X "last" [b.val s.length, .int "ParsingMode" x, .int "ParsingMode" mode] h := by
  cases program_eq hP; cases check_eq hC; exact run_last hb hfs hm

theorem C69_json (hj : JsonOk X.json) (b : Buf) (s : Bytes) (hb : b.has h s) (hfs : X.Fits s) : Holds P C X "jsonRoundTrip" [b.val s.length] h := by
  cases program_eq hP; cases check_eq hC; exact run_jsonRoundTrip hj hb hfs

theorem C69_unmarshal (b d : Buf) (s t : Bytes) (hb : b.has h s) (hfs : X.Fits s) (hd : d.has h t) (hft : X.FitsJson t) : Holds P C X "unmarshalKeeps" [b.val s.length, d.val t.length] h := by
  cases program_eq hP; cases check_eq hC; exact run_unmarshalKeeps hb hfs hd hft

theorem C69_built (id ss : Bytes) : Holds P C X "built" [.str id, .str ss] h := by
  cases program_eq hP; cases check_eq hC; exact run_built

theorem C69_names (s : Bytes) : Holds P C X "names" [.str s] h := by
  cases program_eq hP; cases check_eq hC; exact run_names
end

/-- Three slices of one array, two of which overlap, in RFC 2141, RFC 8141 and RFC 7643 mode. -/
example {P C : Prog} (hP : IsProgram files P) (hC : IsProgram [checkGo] C) (X : Ext) :
    Holds P C X "equivalence" [.bytes 0 0 7 13, .bytes 0 6 7 7, .nil, .int "ParsingMode" 1, .int "ParsingMode" 3, .int "ParsingMode" 2] [.arr (lit "urn:a:urn:b:c")] :=
  C69_equivalence hP hC X [.arr (lit "urn:a:urn:b:c")] (.part 0 [] (lit "rn:b:c") 13) (.part 0 (lit "urn:a:") [] 7) .nil (lit "urn:a:u") (lit "urn:b:c") []
    ⟨rfl, by decide, by decide⟩ (X.fits_of (by decide)) ⟨rfl, by decide, by decide⟩ (X.fits_of (by decide)) rfl (X.fits_of (by decide)) 1 3 2

/-- The codec of `Json.lean`. -/
example {P C : Prog} (hP : IsProgram files P) (hC : IsProgram [checkGo] C) (X : Ext) :
    Holds P C { X with json := Json.codec } "jsonRoundTrip" [.bytes 0 0 7 7] [.arr (lit "URN:a:B")] :=
  C69_json hP hC { X with json := Json.codec } [.arr (lit "URN:a:B")] Json.codec_ok (.part 0 [] [] 7) (lit "URN:a:B") ⟨rfl, by decide, by decide⟩
    (Ext.fits_of _ (by decide))

/-- The other checks on the bytes of a URN. -/
example {P C : Prog} (hP : IsProgram files P) (hC : IsProgram [checkGo] C) (X : Ext) :
    let h : Heap := [.arr (lit "urn:ab:C")]
    let b : Val := .bytes 0 0 8 8
    let m : Val := .int "ParsingMode" RFC8141Only
    Holds P C X "unchanged" [b, m] h ∧ Holds P C X "independent" [b, m, .int "int" 7, .int "byte" 100] h ∧
    Holds P C X "reports" [b, .int "ParsingMode" RFC7643Only] h ∧ Holds P C X "exclusive" [b, m] h ∧ Holds P C X "roundTrip" [b] h ∧
    Holds P C X "pieces" [b] h ∧ Holds P C X "pieces8141" [b] h ∧ Holds P C X "scim" [b] h ∧ Holds P C X "agree" [b] h ∧
    Holds P C X "stable" [b, m] h ∧ Holds P C X "normal" [b, m] h ∧ Holds P C X "canonical" [b, b, m] h ∧ Holds P C X "reuse" [b, b, m] h ∧
    Holds P C X "last" [b, .int "ParsingMode" RFC2141Only, m] h := by
  have hb : Buf.has [.arr (lit "urn:ab:C")] (.part 0 [] [] 8) (lit "urn:ab:C") := ⟨rfl, by decide, by decide⟩
  have hf : X.Fits (lit "urn:ab:C") := X.fits_of (by decide)
  have hm : KnownMode RFC8141Only := Or.inr (Or.inr rfl)
  exact ⟨C69_unchanged hP hC X _ _ _ hb hf _, C69_independent hP hC X _ _ _ hb hf RFC8141Only 7 (by decide) 100, C69_reports hP hC X _ _ _ hb hf _ (Or.inr rfl),
    C69_exclusive hP hC X _ _ _ hb hf _, C69_round_trip hP hC X _ _ _ hb hf, C69_pieces hP hC X _ _ _ hb hf, C69_pieces_8141 hP hC X _ _ _ hb hf,
    C69_scim hP hC X _ _ _ hb hf, C69_agree hP hC X _ _ _ hb hf, C69_stable hP hC X _ _ _ hb hf _ hm, C69_normal hP hC X _ _ _ hb hf _ hm,
    C69_canonical hP hC X _ _ _ _ _ hb hf hb hf _ hm, C69_reuse hP hC X _ _ _ _ _ hb hf hb hf _, C69_last hP hC X _ _ _ hb hf _ _ hm⟩

/-- A JSON text. -/
example {P C : Prog} (hP : IsProgram files P) (hC : IsProgram [checkGo] C) (X : Ext) :
    Holds P C (Cases.withJson X) "unmarshalKeeps" [.bytes 0 0 7 7, .bytes 1 0 10 10] [.arr (lit "URN:a:B"), .arr Cases.text] :=
  C69_unmarshal hP hC (Cases.withJson X) [.arr (lit "URN:a:B"), .arr Cases.text] (.part 0 [] [] 7) (.part 1 [] [] 10) (lit "URN:a:B") Cases.text
    ⟨rfl, by decide, by decide⟩ (Ext.fits_of _ (by decide)) ⟨rfl, by decide, by decide⟩ (Cases.text_fits X)

end Urn.GoLang
