{
 "C05": {
  "note": "Acceptance of every well-formed URN is false of the code (C05_refuted); the exact exception is proved (C05_exact)."
 },
 "C14": {
  "note": "Unconditional round trip is false of the code (C14_refuted); the exact condition is proved (C14_exact)."
 },
 "C19": {
  "note": "Idempotence is false of the code for every parsed URN; that is what C19_refuted proves."
 },
 "C20": {
  "note": "Between SCIM and RFC 2141 results equal normalized texts do not imply Equal; the property says so."
 },
 "C21": {
  "note": "'Exactly one' is false of the code in RFC 8141 mode (C21_refuted); the exact set is proved (C21_neither_8141)."
 },
 "C22": {
  "note": "See C21; C22_refuted is a witness."
 },
 "C30": {
  "note": "The result can hold a nil URN (C30_refuted); the exact set of texts is proved (C30_nil_iff)."
 },
 "C38": {
  "note": "Independence on a shared buffer is false of the code in general (C38_*_refuted); the exact condition for safety is proved."
 },
 "C42": {
  "note": "The RFC 2141 part has the exception of C05 (C42_refuted), stated exactly in C42_2141."
 },
 "C43": {
  "note": "The RFC 2141 part on concatenation has the exception of C05 (C43_concat_refuted), stated exactly in C43_concat."
 },
 "C44": {
  "note": "Default behaving as DefaultParsingMode is false of the code (C44_refuted)."
 },
 "C45": {
  "note": "'No change' is false of the code (C45_refuted); the exact change is proved for each mode."
 },
 "C47": {
  "note": "Disagrees with what a caller may expect of exported fields: C47_edited_refuted and C47_built show that values with different SS are Equal."
 },
 "C48": {
  "note": "C48_refuted gives a namestring rejected for each restriction and an accepted text with a non-hexadecimal escape. The rejection of urn-x agrees with section 5.2 of the RFC, which reserves these NIDs; the other two are limitations of the code."
 },
 "C49": {
  "note": "C49_refuted: reserved characters are rejected (as section 2.3 of the RFC asks); NIDs such as uci are rejected although they are in the RFC's grammar; escapes need not be hexadecimal."
 },
 "C50": {
  "note": "C50_refuted: urn:IETF:... and names with other characters than letters and digits are rejected although RFC 7643 allows them."
 },
 "C51": {
  "note": "Disagrees with the documentation of commentLineRegex: C51_refuted and C51_only_comments, blank lines before a comment line are removed too. Go matches runes, this model bytes; comment_replace and snake_findAll in RegexRuneAux.lean prove that it is the same for these expressions."
 },
 "C52": {
  "note": "C52_refuted: a_b and aB become the same name."
 },
 "C53": {
  "note": "Steps of os.WriteFile: open with truncation, then write in any number of pieces. C53_refuted: not atomic."
 },
 "C54": {
  "note": "With the model of encoding/json on strings in Json.lean (UTF-8, surrogates, HTML escapes). C54_null disagrees with the convention of encoding/json that UnmarshalJSON(null) is a no-op."
 },
 "C55": {
  "note": "Grammar.lean transcribes machine.go.rl; Ragel.lean gives the operators the meaning of the Ragel guide (trusted reading; minimisation is not modelled). The pairs of states of both automata are checked by the kernel, then a simulation by induction over the steps."
 },
 "C56": {
  "note": "Word.lean is the parser with w-bit integers; invariant over the steps: the cursor stays between -1 and the length, and the only look-ahead (p+3) happens within the scheme, at p <= 4."
 },
 "C57": {
  "note": "Shared.lean: two goroutines, one machine, interleaved at the steps of the loop; the disagreements are proved with concrete schedules (C57_*_refuted)."
 },
 "C58": {
  "note": "Heap.lean models pointers, struct copies and nil; C58_valid: a program has only nil and valid pointers; C58_nil: exactly which actions panic."
 },
 "C59": {
  "note": "Frame argument over Heap.Runs (everything a client can do with the pointers it has); sharing through copies and in-place decoding is proved as a disagreement."
 },
 "C60": {
  "note": "Invariant over Heap.Runs; C60_options reduces arbitrary options to the three known modes."
 },
 "C61": {
  "note": "Refinement between Heap.lean (objects and pointers) and Urn.lean (values)."
 },
 "C62": {
  "note": "The positive side of C57: interleaving at the labels of the generated code, with a lock around each call (the lock is the client's, it is not in the package)."
 },
 "C63": {
  "note": "From the text of the files (GoSource.lean, a copy made by tools/source.py) by a lexer, a parser and an interpreter written in Lean. Trusted instead of the hand translation: that lexer, parser and interpreter."
 },
 "C64": {
  "note": "As C63; the exact languages are those of C05, C09 and C12."
 },
 "C65": {
  "note": "As C63; strings.ToLower is a parameter on texts that are not ASCII."
 },
 "C66": {
  "note": "As C63; encoding/json is a parameter."
 },
 "C67": {
  "note": "As C63. The client is made of Go functions too (GoClient.lean), read by the same parser and run by the same interpreter; it is trusted that they are what clients do."
 },
 "C68": {
  "note": "The lexer, parser and expansion of RlSyntax are the meaning of the text and are trusted, as are the meanings of the operators in Ragel.lean (see C55). That the constants in RlSource are machine.go.rl is checked by tools/source.py --check. The tables that Ragel writes are related to the grammar by C55."
 },
 "C69": {
  "note": "The checks are an internal file of the package (package urn), run by callClient of GoClient.lean in the interpreter of GoSem.lean."
 },
 "C70": {
  "note": "The interpreter is ToolSem.lean, with ToolSyntax.lean (Go) and RegexRune.lean (reading and matching regular expressions, on runes)."
 },
 "C72": {
  "note": "Linear work is false of the code in RFC 8141 mode: C72_quadratic and C72_not_linear are the refutation, C72_linear, C72_default, C72_bound and C72_bound_linear what holds. C72_jumps and C72_jumps_parse are about the text of the package."
 },
 "C73": {
  "note": "About the text of the package, run by the interpreter as a tree of accesses to memory. C73_writer, C73_order, C73_assign, C73_clash and C73_same_slice show races; the others say when there are none. An access is to a whole struct (when it is copied), to a field of a struct, or to some bytes of an array; C73_shared is stated with whole URNs and SCIM structs, C73_fields with their fields: uses says which fields a call may use, and its text is checked to use no others. does says which fields a call uses in any case; where the two agree, C73_exact says exactly when goroutines race. Synchronisation is not modelled."
 },
 "C74": {
  "note": "About the text of the package; the model is not in the statements, only the interpreter and the grammars. The JSON theorems are for the encoding/json of Json.lean. C74_8141 and the rejected cases show the defects of C14, C22 and C30."
 },
 "C75": {
  "note": "About the text of the package (C73 has the case of slices without common bytes). For texts that are rejected there is no claim that slices with common bytes race, only that they do not, but for goroutines that parse the same slice."
 },
 "C76": {
  "note": "About the text of the package. An access is to a field of a struct or to some bytes of an array. C76_free treats Parse and WithParsingMode of an unknown mode as mixing, although they race only if the text has a bad percent escape; C76_races is exact and asks for accepted texts and known modes. C76_own is the last part of the statement."
 },
 "C77": {
  "note": "About the text of the package. The grammars are in SpecRfc.lean, the equivalences in SpecEquiv.lean; Parts8141 and Restricted, in PropsRfc.lean, name the parts of a namestring and the restrictions. C77_refuted has URNs of the RFCs that are rejected."
 },
 "C78": {
  "note": "About the text of the package; the counterpart of C62. The lock is not in the package; GoLock.lean says what it does. C78_serial holds whatever goroutines do with the lock held; C78_machine and C78_linearizable are about a machine, C78_clients about URNs and SCIM structs."
 }
}