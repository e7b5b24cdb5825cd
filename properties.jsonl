{"id": "C01", "title": "Parsing never panics", "statement": "Parse and (Machine).Parse return normally: no index out of range, no slice bounds error and no nil dereference happens, whatever the input and however the machine was configured.", "quantifier": "every byte slice, every sequence of options (including unknown parsing modes and options given several times), every previous history of the machine", "why_tests_cant": "The set of byte strings is infinite and the 194-state generated automaton does pointer arithmetic on p, pb, tolower offsets and the scim pointer; tests visit a few hundred inputs.", "anchors": ["machine.go:(*machine).Parse", "machine.go:text", "machine.go:tr/f labels", "urn.go:Parse"]}
{"id": "C02", "title": "Parsing terminates after linearly many steps", "statement": "Every call to Parse finishes, after a number of automaton steps bounded by a linear function of the input length. (What the steps cost is C72.)", "quantifier": "every byte slice, every machine configuration", "why_tests_cant": "The error handling moves the cursor backwards and re-enters the automaton (fhold / fgoto fail), and a to-state action jumps back to _again; only an argument over all inputs excludes a loop.", "anchors": ["machine.go:(*machine).Parse", "machine.go:_again", "machine.go:_toStateActions"]}
{"id": "C03", "title": "The caller's buffer is unchanged when Parse returns", "statement": "After Parse(input) returns, every byte of input has the value it had before the call, although Parse temporarily writes into the buffer to lowercase hex digits.", "quantifier": "every byte slice, every machine configuration, success and failure", "why_tests_cant": "The +32/-32 passes run over a dynamically built index list; one duplicated, missing or stale index corrupts the caller's data only for particular inputs.", "anchors": ["machine.go:(*machine).Parse", "machine.go:f38", "machine.go.rl:set_nss"]}
{"id": "C04", "title": "RFC 2141 mode accepts only well-formed URNs", "statement": "If Parse in the default (RFC 2141) mode returns a URN, the input is 'urn' (any case) ':' NID ':' NSS, where NID is 1 to 32 letters, digits or dashes not starting with a dash and not 'urn' in any case, and NSS is a non-empty sequence of allowed characters or '%' followed by two alphanumerics.", "quantifier": "every byte slice", "why_tests_cant": "Soundness of an acceptor quantifies over all strings, including non-ASCII bytes, NULs, newlines and arbitrarily long inputs.", "anchors": ["machine.go:(*machine).Parse", "machine.go.rl:urn", "machine.go.rl:nid", "machine.go.rl:nss"]}
{"id": "C05", "title": "RFC 2141 mode accepts every well-formed URN, but for one exception", "statement": "Conversely, every input of that form is accepted in RFC 2141 mode if and only if not (byte 4, the first of the NID, is u or U and byte 7 is a colon). The exception is a defect: the reserved word check compares only the first letter and the length, so urn:uci:x and urn:u:a:b are rejected although well-formed.", "quantifier": "every byte slice of the RFC 2141 form", "why_tests_cant": "Completeness quantifies over the infinite language; the existing tests miss the whole family of rejected well-formed inputs.", "anchors": ["machine.go:(*machine).Parse", "machine.go:f1", "machine.go.rl:throw_pre_urn_err"]}
{"id": "C06", "title": "RFC 2141 results are the exact pieces of the input", "statement": "For an accepted input the returned URN's prefix, ID and SS are exactly the three colon separated pieces of the input (split at the first two colons), RFC() is RFC2141, SCIM() is nil, and the r-, q- and f-components are empty.", "quantifier": "every accepted byte slice in RFC 2141 mode", "why_tests_cant": "Slice arithmetic on marks has to be right for every length of every piece.", "anchors": ["machine.go:(*machine).Parse", "machine.go:text", "urn.go:URN"]}
{"id": "C07", "title": "RFC 2141 text round trip", "statement": "In RFC 2141 mode, String() of a successfully parsed URN is byte for byte the input.", "quantifier": "every accepted byte slice in RFC 2141 mode", "why_tests_cant": "Unbounded input space; a round trip law holds for all strings or not at all.", "anchors": ["urn.go:String", "machine.go:(*machine).Parse"]}
{"id": "C08", "title": "Normalization lowercases exactly the hex digits of percent escapes", "statement": "The SS of Normalize() equals SS with the two characters after each '%' lowercased and every other byte unchanged; its ID is the lowercase ID and its prefix is 'urn'.", "quantifier": "every accepted byte slice in each of the three parsing modes", "why_tests_cant": "The positions to lowercase are collected relative to a mark during the run; being off by one or collecting from the wrong section shows only on particular inputs.", "anchors": ["urn.go:Normalize", "machine.go:f9", "machine.go:f38", "machine.go.rl:tolower"]}
{"id": "C09", "title": "RFC 7643 mode accepts exactly SCIM URNs", "statement": "Parse in RFC 7643 mode returns a URN if and only if the input is 'urn' (any case) ':ietf:params:scim:' (exact case) then schemas, api or param, ':' a non-empty alphanumeric name and optionally ':' and a non-empty sequence of RFC 2141 NSS characters or percent escapes.", "quantifier": "every byte slice", "why_tests_cant": "Language equality over infinitely many strings.", "anchors": ["machine.go:(*machine).Parse", "machine.go.rl:scim_only"]}
{"id": "C10", "title": "SCIM results are the exact pieces of the input", "statement": "For an accepted SCIM input, ID is ietf:params:scim, SS is everything after 'scim:', and SCIM() is non-nil with Type, Name and Other equal to the type keyword, the name and the other part; Type is never Unsupported, Name is never empty; RFC() is RFC7643 and IsSCIM() is true; String() is the input.", "quantifier": "every accepted byte slice in RFC 7643 mode", "why_tests_cant": "The name/other marks share one field (pos) that is overwritten mid-run; correctness must hold for all lengths.", "anchors": ["machine.go:(*machine).Parse", "scim.go:SCIM", "urn.go:SCIM", "urn.go:IsSCIM"]}
{"id": "C11", "title": "Every SCIM URN is also an RFC 2141 URN", "statement": "An input accepted in RFC 7643 mode is also accepted in RFC 2141 mode, with ID ietf and the same String(); the RFC 2141 SS is params:scim: followed by the SCIM SS.", "quantifier": "every byte slice accepted in RFC 7643 mode", "why_tests_cant": "Inclusion of two infinite languages recognised by two different parts of the automaton.", "anchors": ["machine.go:(*machine).Parse", "machine.go:enScimOnly", "machine.go:enMain"]}
{"id": "C12", "title": "RFC 8141 mode accepts exactly its documented grammar", "statement": "Parse in RFC 8141 mode returns a non-nil URN if and only if the input is 'urn' (any case) ':' NID ':' NSS [?+ r] [?= q] [# f], with NID 2 to 32 alphanumerics or dashes, first and last alphanumeric, not starting with urn- followed by a letter or 0; NSS, r, q starting with a pchar; and at most one r- and one q-component. (The exact language the code accepts, including the ?+/ and ?=/ continuations that it lets through, is characterised.)", "quantifier": "every byte slice", "why_tests_cant": "Language equality over infinitely many strings with a non-regular looking 'only one component' side condition implemented by mutable flags.", "anchors": ["machine.go:(*machine).Parse", "machine.go.rl:rfc8141_only", "machine.go:f44", "machine.go:f50"]}
{"id": "C13", "title": "RFC 8141 results are the exact pieces of the input", "statement": "For an accepted RFC 8141 input, ID, SS, RComponent(), QComponent() and FComponent() are exactly the corresponding pieces of the input, the pieces that are absent are empty, RFC() is RFC8141 and SCIM() is nil.", "quantifier": "every accepted byte slice in RFC 8141 mode", "why_tests_cant": "r is re-assigned at every '?' and must end up with the complete piece for every interleaving of '?', '+', '=', '/' characters.", "anchors": ["machine.go:(*machine).Parse", "machine.go:f42", "machine.go:f48", "urn.go:RComponent", "urn.go:QComponent", "urn.go:FComponent"]}
{"id": "C14", "title": "RFC 8141 text round trip", "statement": "In RFC 8141 mode String() of a successfully parsed URN is the input if and only if the input has no empty fragment ('#' at the end) and, when the NID starts with 'urn-', the prefix has the same letter case as the NID's first three letters. In the two excluded cases (defects) the '#' is dropped, respectively the prefix is overwritten by the NID's own first three letters.", "quantifier": "every accepted byte slice in RFC 8141 mode", "why_tests_cant": "Unbounded input space; the violating family needs a particular NID and a particular case combination.", "anchors": ["urn.go:String", "machine.go:tr210", "machine.go:f2"]}
{"id": "C15", "title": "Parse and String are stable", "statement": "If u was returned by Parse in some mode then Parse(u.String()) in the same mode succeeds and returns a URN identical to u in every field.", "quantifier": "every accepted byte slice, each of the three modes", "why_tests_cant": "Fixpoint law over all inputs, including all combinations of components.", "anchors": ["urn.go:String", "urn.go:Parse"]}
{"id": "C16", "title": "Equal is an equivalence relation", "statement": "On non-nil URNs (parsed or built by hand) Equal is reflexive, symmetric and transitive, and u.Equal(nil) is false.", "quantifier": "all URN values", "why_tests_cant": "A relational law over all pairs and triples of values.", "anchors": ["urn.go:Equal", "urn.go:Normalize"]}
{"id": "C17", "title": "Equal is RFC lexical equivalence on parsed URNs", "statement": "For two URNs parsed in RFC 2141 or RFC 8141 mode, Equal holds if and only if the NIDs are equal ignoring case and the NSSs are equal except for the case of the characters inside percent escapes.", "quantifier": "all pairs of accepted byte slices (in any of the modes)", "why_tests_cant": "Quantifies over all pairs of strings; both directions (no false positive, no false negative) are needed.", "anchors": ["urn.go:Equal", "urn.go:Normalize", "machine.go:f38"]}
{"id": "C18", "title": "Equal ignores prefix case and the r/q/f components", "statement": "Changing the case of the 'urn' prefix or adding, removing or changing r-, q- or f-components never changes the outcome of Equal.", "quantifier": "all accepted inputs and all component variations in RFC 8141 mode", "why_tests_cant": "Metamorphic law over all inputs and all variations.", "anchors": ["urn.go:Equal"]}
{"id": "C19", "title": "What Normalize preserves", "statement": "u.Normalize() of a parsed u keeps ID and prefix stable under a second Normalize, but, contrary to what the name suggests, is not idempotent and not Equal to u: for every parsed u, u.Normalize().Normalize().String() is empty while u.Normalize().String() is not, and Equal is false in both directions. (Normalize does not carry over the internal normal form; parsing the normalized text again restores it, see C20.)", "quantifier": "all parsed URNs", "why_tests_cant": "Law over all values; the existing tests never normalize twice.", "anchors": ["urn.go:Normalize", "urn.go:Equal"]}
{"id": "C20", "title": "Normalized text is canonical", "statement": "For a parsed u, u.Normalize().String() parses in the same mode, the result is Equal to u, and normalizing it again gives the same text; two URNs parsed in the same mode, or one in RFC 2141 and one in RFC 8141 mode, are Equal iff their normalized texts are the same. (Between SCIM and RFC 2141 results the texts can agree without the URNs being Equal, because the ID is split differently.)", "quantifier": "all accepted byte slices in RFC 2141, RFC 7643 and RFC 8141 mode, all pairs of them", "why_tests_cant": "Canonical form laws range over all pairs of inputs.", "anchors": ["urn.go:Normalize", "urn.go:String", "urn.go:Equal"]}
{"id": "C21", "title": "A failed parse reports an error, a successful one does not", "statement": "(Machine).Parse never returns both a URN and an error; in RFC 2141 and RFC 7643 mode it returns exactly one of them; in RFC 8141 mode it returns neither exactly for the inputs that are a well-formed urn:nid:nss followed by '?' and then not '+' or '=', or a well-formed URN followed by '#' and a fragment whose first forbidden byte is at its start or after an unescaped character (e.g. urn:ab:c?x, urn:ab:c#\"); on a machine that was only ever given unknown modes it always returns neither.", "quantifier": "every byte slice, every configuration", "why_tests_cant": "The offending transitions (to the error state without an action) are only hit by particular bytes in particular states.", "anchors": ["machine.go:(*machine).Parse", "machine.go:tr183", "machine.go:_eofActions"]}
{"id": "C22", "title": "Parse's boolean tells whether there is a URN, but for known exceptions", "statement": "Parse returns true with every non-nil URN; in RFC 2141 and RFC 7643 mode it returns true if and only if the URN is non-nil; in RFC 8141 mode this holds exactly for the inputs outside the exception set of C21, for which it returns nil, true; for unknown modes it always returns nil, true.", "quantifier": "every byte slice, every option list", "why_tests_cant": "As above: a whole family of inputs outside the test tables.", "anchors": ["urn.go:Parse"]}
{"id": "C23", "title": "Machines can be reused", "statement": "The result of Parse on a machine depends only on the input and on the known parsing mode last selected, not on the inputs parsed before (failed or successful): it is what a freshly created machine in that mode returns. (For modes outside the three known ones see C45.)", "quantifier": "every history of Parse / WithParsingMode / Error calls on one machine, every input", "why_tests_cant": "Quantifies over all histories; stale cursor, mark or error fields only show after particular sequences.", "anchors": ["machine.go:(*machine).Parse", "machine.go:NewMachine", "machine.go:WithParsingMode"]}
{"id": "C24", "title": "Error() is the outcome of the last Parse", "statement": "After any history, Error() returns exactly the error returned by the most recent Parse call on that machine (nil before the first), and neither Error() nor WithParsingMode changes it.", "quantifier": "every history of operations on one machine", "why_tests_cant": "Quantifies over all operation sequences.", "anchors": ["machine.go:Error", "machine.go:(*machine).Parse"]}
{"id": "C25", "title": "Option semantics", "statement": "Without options the mode is RFC 2141; WithParsingMode applied several times behaves as the last one when all are among the three known modes; options are applied left to right.", "quantifier": "every list of options", "why_tests_cant": "Unbounded lists of options; unknown modes keep the previous entry point but change the flags.", "anchors": ["machine.go:NewMachine", "machine.go:WithParsingMode", "options.go:WithParsingMode"]}
{"id": "C26", "title": "The kind of a URN is the mode it was parsed with", "statement": "A URN returned in mode RFC2141Only, RFC7643Only, RFC8141Only has RFC() equal to RFC2141, RFC7643, RFC8141 respectively, IsSCIM() iff RFC7643, and SCIM() non-nil iff IsSCIM().", "quantifier": "every accepted byte slice, each mode", "why_tests_cant": "The kind is set by EOF actions chosen by the final state; all final states and inputs matter.", "anchors": ["urn.go:RFC", "urn.go:IsSCIM", "urn.go:SCIM", "kind.go"]}
{"id": "C27", "title": "JSON round trip of URN", "statement": "For u parsed in RFC 2141 mode, UnmarshalJSON(MarshalJSON(u)) succeeds and restores u exactly.", "quantifier": "every accepted byte slice in RFC 2141 mode", "why_tests_cant": "Codec law over all values.", "anchors": ["urn.go:MarshalJSON", "urn.go:UnmarshalJSON"]}
{"id": "C28", "title": "UnmarshalJSON is all or nothing", "statement": "If UnmarshalJSON on URN or SCIM returns an error, the receiver is left exactly as it was; if it returns nil, the receiver is exactly the parse of the decoded string and keeps nothing of its old contents. An error is returned exactly when the JSON text does not decode to a string or that string is not accepted by the parser of that type.", "quantifier": "every byte slice given to UnmarshalJSON, every prior receiver value", "why_tests_cant": "Quantifies over all JSON inputs and all prior states.", "anchors": ["urn.go:UnmarshalJSON", "scim.go:UnmarshalJSON", "urn8141.go:UnmarshalJSON"]}
{"id": "C29", "title": "JSON round trip of SCIM", "statement": "For a SCIM value obtained by parsing, SCIM.String() is the parsed URN with prefix 'urn', and UnmarshalJSON(MarshalJSON(s)) succeeds and restores Type, Name and Other; the same holds for hand built SCIM values with a known Type, an alphanumeric non-empty Name and an empty or well-formed Other. UnmarshalJSON never panics.", "quantifier": "every accepted SCIM input, every well-formed SCIM value", "why_tests_cant": "Codec law over all values.", "anchors": ["scim.go:MarshalJSON", "scim.go:UnmarshalJSON", "scim.go:String"]}
{"id": "C30", "title": "JSON round trip of URN8141", "statement": "For a URN8141 obtained by parsing, UnmarshalJSON(MarshalJSON(u)) succeeds and restores it; UnmarshalJSON never panics, leaves the receiver unchanged on error, and succeeds with a nil URN inside if and only if the decoded text is in the exception set of C21 (e.g. \"urn:ab:c?\"), after which MarshalJSON or String panics.", "quantifier": "every accepted RFC 8141 input, every JSON input", "why_tests_cant": "Codec law over all values; the nil result needs a particular family of inputs.", "anchors": ["urn8141.go:MarshalJSON", "urn8141.go:UnmarshalJSON", "urn.go:Parse"]}
{"id": "C31", "title": "SCIM type names", "statement": "TypeFromString and Type.String are mutually inverse on the three known types, every other string maps to Unsupported and every other Type value prints as the empty string.", "quantifier": "all strings and all Type (int) values", "why_tests_cant": "All strings / all integers.", "anchors": ["scim/schema/type.go:TypeFromString", "scim/schema/type.go:String"]}
{"id": "C32", "title": "Error columns point into the input", "statement": "The column in the error returned for a rejected input is between 0 and the input length.", "quantifier": "every rejected byte slice, every mode", "why_tests_cant": "Columns are computed as p, p-1 or p+3 in different actions; bounds hold for all inputs or not.", "anchors": ["machine.go:err* variables", "machine.go:(*machine).Parse"]}
{"id": "C33", "title": "Error columns are the first offending position", "statement": "The reported column is the length of the longest prefix of the input that can still be extended to an accepted URN, except: in RFC 2141 mode the 'urn reserved' error is at column 7, the colon that ends the identifier, and the input up to and including that colon cannot be extended; in RFC 7643 mode a missing or incomplete other part is reported at the last byte of an input that can be extended; in RFC 8141 mode an ill-formed informal identifier is reported one byte early, and an r- or q-component that starts with a question mark one byte late, or two if the question mark starts a second ?+ or ?= like the first.", "quantifier": "every rejected byte slice, each of the three modes", "why_tests_cant": "A 'longest viable prefix' claim quantifies over all inputs and all their extensions.", "anchors": ["machine.go:(*machine).Parse", "machine.go:f0..f30"]}
{"id": "C34", "title": "Accepted inputs are plain printable ASCII", "statement": "Whatever the mode, an accepted input contains only bytes in the range 33..126 and none of the characters \" < > \\ ^ ` { | } [ ]; in RFC 2141 and 7643 mode additionally none of / ? # & ~; so no whitespace, control, NUL, CR/LF or non-ASCII byte can be smuggled through.", "quantifier": "every accepted byte slice, each mode", "why_tests_cant": "256 byte values at every position of unboundedly long inputs.", "anchors": ["machine.go:(*machine).Parse"]}
{"id": "C35", "title": "NID length bounds", "statement": "The ID of a URN returned in RFC 2141 mode has 1 to 32 characters and in RFC 8141 mode 2 to 32, the SS is non-empty, and the shortest accepted inputs have 7 (RFC 2141) and 8 (RFC 8141) bytes.", "quantifier": "every accepted byte slice", "why_tests_cant": "Counting is unrolled over more than 60 states; each boundary must be right for every content.", "anchors": ["machine.go:(*machine).Parse", "machine.go.rl:nid", "machine.go.rl:nid_rfc8141"]}
{"id": "C36", "title": "RFC 2141 and RFC 8141 agree on their common part", "statement": "If the same input is accepted in both modes both results have the same ID, SS, Normalize() text and are Equal; an RFC 2141 URN whose NID has at least two characters, does not end with a dash and is not of the urn-letter/urn-0 form is also accepted in RFC 8141 mode.", "quantifier": "every byte slice", "why_tests_cant": "Relation between two automata over all strings.", "anchors": ["machine.go:(*machine).Parse"]}
{"id": "C37", "title": "Errors depend only on the bytes read so far", "statement": "If an input is rejected with an error at column c, then replacing everything after the failing byte leaves the outcome rejected with the same error (up to the 3-byte look-ahead of the urn check in RFC 2141 mode). The failing byte is the one at column c, or at column c+1 for an ill-formed informal identifier; the error of an incomplete other part of a SCIM URN is about the end of the input, so no byte is failing there.", "quantifier": "every rejected byte slice and every replacement suffix", "why_tests_cant": "Quantifies over all pairs of inputs sharing a prefix; the fail state scans the rest of the input.", "anchors": ["machine.go:(*machine).Parse", "machine.go:case 193"]}
{"id": "C38", "title": "Concurrent parses do not interfere, unless they share an upper case escape letter", "statement": "Any number of Parse calls on different machines, over slices of one memory, each produce under every interleaving of their single byte accesses the result they produce alone, leave the memory as it was, and each finishes once it is scheduled often enough - provided no byte that is an upper case letter after a percent sign in one call's slice lies in another call's slice. So calls on disjoint slices are always independent, and calls on one shared slice are when it has no such letter. (The condition is needed, and concurrent parsing of one shared buffer is not safe in general: for every accepted input with an upper case escape letter in its NSS there is an interleaving of two calls on it in which one call returns a wrong result, and two interleaved calls on urn:a:%AA can leave the buffer changed to urn:a:%!A for good.)", "quantifier": "every interleaving of the byte reads and writes of any number of Parse calls, every memory and every choice of slices", "why_tests_cant": "Schedules are not controllable from a unit test.", "anchors": ["machine.go:(*machine).Parse", "machine.go:f38"]}
{"id": "C39", "title": "Parse writes only upper case escape characters", "statement": "During Parse the only buffer writes are to positions holding an upper case letter inside a percent escape of the namespace specific string, each is overwritten once with its lower case form and once with the original; inputs without such letters are never written to.", "quantifier": "every byte slice, every moment during Parse", "why_tests_cant": "Intermediate states are invisible to tests.", "anchors": ["machine.go:f38", "machine.go:f9"]}
{"id": "C40", "title": "Case variations of prefix and NID", "statement": "Changing the case of letters in the prefix and in the NID never changes whether the input is accepted (RFC 2141 and RFC 8141 mode), and the resulting URNs are Equal.", "quantifier": "every byte slice and every case variant of its prefix and NID", "why_tests_cant": "Metamorphic law over all inputs.", "anchors": ["machine.go:(*machine).Parse", "urn.go:Equal"]}
{"id": "C41", "title": "Case variations of percent escapes", "statement": "Changing the case of letters inside percent escapes of the NSS never changes whether the input is accepted, and the resulting URNs are Equal.", "quantifier": "every byte slice and every such variant, RFC 2141, RFC 7643 and RFC 8141 mode", "why_tests_cant": "Metamorphic law over all inputs.", "anchors": ["machine.go:(*machine).Parse", "urn.go:Equal"]}
{"id": "C42", "title": "Hand built URNs print and parse back", "statement": "String() of a URN built with just ID and SS is 'urn:ID:SS'; it is empty exactly when ID or SS is empty; if ID and SS are well-formed for RFC 8141 mode, parsing the text in that mode gives back that ID and SS; if they are well-formed for RFC 2141 mode, the text is accepted in that mode exactly unless ID starts with u or U and the fourth byte of ID:SS is a colon (C05), and whatever it parses to has that ID and SS.", "quantifier": "all ID and SS strings", "why_tests_cant": "All strings.", "anchors": ["urn.go:String", "urn.go:Parse"]}
{"id": "C43", "title": "Distinct texts, distinct URNs", "statement": "Parsing is injective in RFC 2141 and RFC 7643 mode: two different accepted inputs never give URNs with the same prefix, ID and SS; in RFC 8141 mode the texts of the URNs tell the inputs apart outside the exceptions of C14. NSS concatenation is compositional: if pre:nid:a and pre:nid:b are accepted so is pre:nid:ab, with SS ab - without exception in RFC 8141 mode, and in RFC 2141 mode exactly unless nid starts with u or U and byte 7 of the new text is a colon (C05).", "quantifier": "all pairs of accepted inputs", "why_tests_cant": "All pairs of inputs.", "anchors": ["machine.go:(*machine).Parse", "urn.go:URN"]}
{"id": "C44", "title": "The zero parsing mode selects no grammar", "statement": "Giving no option is the same as WithParsingMode(DefaultParsingMode), but WithParsingMode(Default), and any other value outside the three known modes, as the only option makes Parse return nil, true for every input: it does not select the default mode, and nothing is accepted. (Contrary to the name of the constant.)", "quantifier": "all byte slices", "why_tests_cant": "A property of every input under one option value; a few examples cannot show that no input at all is parsed.", "anchors": ["parsing_mode.go:Default", "machine.go:WithParsingMode", "urn.go:Parse"]}
{"id": "C45", "title": "An unknown mode given to a configured machine", "statement": "Calling WithParsingMode with a value outside the three known modes on a machine in mode RFC 7643 changes no outcome; in RFC 2141 mode it changes no outcome but the kind (not the column) of the error of a malformed escape, which becomes the general NSS error; in RFC 8141 mode the reserved word check of RFC 2141 mode is switched on for the inputs starting with urn:, the error of a malformed escape becomes at the same column that of the specific string, if there is no question mark before, or else that of an r- or q-component, and in a fragment no error, and nothing else changes. (One would expect no change, or an error, in each case.)", "quantifier": "all integer mode values other than 1, 2, 3, all machines, all byte slices", "why_tests_cant": "Ranges over all integers and all inputs; only inputs hitting the mode dependent actions show a difference.", "anchors": ["machine.go:WithParsingMode", "machine.go.rl:throw_pre_urn_err", "machine.go.rl:err_hex"]}
{"id": "C46", "title": "The kind of error identifies the faulty part", "statement": "In each mode, each kind of error is returned for exactly the inputs that have that fault first: the prefix error iff the input does not start with urn:, the reserved word error iff byte 4 is u/U and byte 7 a colon, the identifier error iff no well-formed identifier and colon follow the prefix, the specific string error iff the text after them is not well-formed (and not broken in or directly after a percent escape, which is the escape error), and likewise for the parts of SCIM URNs and for the informal identifier, r-component, q-component and fragment of RFC 8141 (where a second ?+ or ?= has its own error). No other kind is ever returned in that mode. The message texts differ for different kinds and for different columns.", "quantifier": "all byte slices, all error kinds, all three modes", "why_tests_cant": "An exact characterisation of 17 error kinds over all inputs; tests only show one or two inputs per message.", "anchors": ["machine.go:errPrefix", "machine.go:(*machine).Parse", "machine.go.rl:err_pre", "machine.go.rl:err_hex", "machine.go.rl:err_malformed_r_component"]}
{"id": "C47", "title": "Equal and Normalize never look at the exported SS field", "statement": "Assigning to the SS field of any URN value changes neither the result of Normalize nor any comparison with Equal. Values built from their exported fields are Equal exactly if their IDs are equal ignoring ASCII case, whatever their SS; the text of their normalization is empty; and they are never Equal to a parsed URN, not even to the one their own text parses to.", "quantifier": "all URN values, all IDs and specific strings, all parsed URNs in every mode", "why_tests_cant": "The values a caller can build or edit are unbounded; a test compares a handful of them.", "anchors": ["urn.go:URN.Normalize", "urn.go:URN.Equal", "urn.go:URN.String"]}
{"id": "C48", "title": "RFC 8141 conformance", "statement": "The texts that RFC 8141 mode accepts and whose percent escapes are hexadecimal are exactly the namestrings of the ABNF of RFC 8141 (with the pchar, fragment and pct-encoded of RFC 3986) whose parts meet three restrictions: the NID does not begin with urn- and a letter or 0; ?+ and ?= inside an r-component occur only before certain characters; likewise ?= inside a q-component. An accepted text is a namestring if and only if its escapes are hexadecimal. A namestring without components is accepted exactly if its NID does not begin with urn- and a letter or 0.", "quantifier": "all byte strings", "why_tests_cant": "It compares two infinite languages, one given by the RFC's ABNF, the other by a generated automaton.", "anchors": ["machine.go:machine.Parse", "machine.go.rl:rfc8141_only", "urn.go:Parse"]}
{"id": "C49", "title": "RFC 2141 conformance", "statement": "The texts that RFC 2141 mode accepts and whose percent escapes are hexadecimal are exactly the URNs of the grammar of RFC 2141 with hexadecimal escapes and without the reserved characters / ? #, but for those with u or U at index 4 and a colon at index 7. Everything accepted is in the grammar of RFC 2141.", "quantifier": "all byte strings", "why_tests_cant": "It compares two infinite languages, one given by the RFC, the other by a generated automaton.", "anchors": ["machine.go:machine.Parse", "machine.go.rl:urn", "urn.go:Parse"]}
{"id": "C50", "title": "RFC 7643 conformance", "statement": "The texts that RFC 7643 mode accepts and whose percent escapes are hexadecimal are exactly the SCIM URNs urn:ietf:params:scim:{type}:{name}{:other} of RFC 7643 in which the NID ietf is in lower case and the name consists of letters and digits; so they are all SCIM URNs of RFC 7643.", "quantifier": "all byte strings", "why_tests_cant": "It compares two infinite languages, one given by the RFC, the other by a generated automaton.", "anchors": ["machine.go:machine.Parse", "machine.go.rl:scim_only", "urn.go:Parse"]}
{"id": "C51", "title": "removecomments removes the //line comments, and which other lines", "statement": "The build tool removecomments returns the lines of its input, unchanged and in order, without the lines that are white space, then //line, then anything, and without the blank lines directly before such a line. So no such comment line is left, every other line that is not blank is kept, an input without such lines is unchanged, and running it again changes nothing. It removes only comment lines, as its documentation says, exactly if no blank line stands directly before one.", "quantifier": "all byte strings given to the tool", "why_tests_cant": "The single test has one text; the regular expression's white space also matches newlines, which only shows for some arrangements of lines.", "anchors": ["tools/removecomments/removecomments.go:commentLineRegex", "tools/removecomments/removecomments.go:removeComments", "makefile:machine.go"]}
{"id": "C52", "title": "snake2camel ends, with a determined result, and leaves nothing to rewrite", "statement": "The build tool snake2camel ends for every input, after at most as many rounds as there are underscores, and one more. The result is given line by line: as long as there is an underscore after a lower case letter (and maybe digits) and before a letter or digit, the last such underscore is removed and the character after it is put in upper case. So nothing is left to rewrite, a text with nothing to rewrite is unchanged, running it again changes nothing, and nothing but the removed underscores and the case of the characters after them differs. After removecomments and snake2camel, as the makefile runs them, there are no //line comments, and running both again changes nothing. Different names may become the same.", "quantifier": "all byte strings given to the tool", "why_tests_cant": "Termination of a loop over a regular expression and properties of a rewriting to normal form concern all texts.", "anchors": ["tools/snake2camel/snake2camel.go:snake2camel", "tools/snake2camel/snake2camel.go:replaceAllStringSubmatchFunc", "makefile:machine.go"]}
{"id": "C53", "title": "What an interrupted tool leaves of the file", "statement": "Both build tools rewrite the file in place. After a complete run the file holds the result; if the run is interrupted at any point it holds the old text or a beginning of the result, and each beginning of the result, the empty one included, is possible. So an interrupted run can leave neither the old text nor the result.", "quantifier": "all file contents, all ways in which the operating system splits the write, all points of interruption", "why_tests_cant": "Crash points between system calls are not reached by tests.", "anchors": ["tools/removecomments/removecomments.go:removeCommentsFromFile", "tools/snake2camel/snake2camel.go:snake2camelFile"]}
{"id": "C54", "title": "Which JSON texts are decoded to which URN, and what encoding writes", "statement": "A JSON text is decoded to a URN (of each of the three types) exactly if it is, up to white space around it, a JSON string whose characters, written as themselves or by any escapes, spell a text that is accepted in the mode of the type; the result is what parsing that text gives. Encoding a parsed URN writes its text in quotes, with \\u0026 in place of each & (only possible in RFC 8141 mode). Encoding and decoding any URN value, however built, gives a URN exactly if its text is accepted. null is an error and leaves the receiver unchanged.", "quantifier": "all byte strings given as JSON, all URN values, all receivers", "why_tests_cant": "Each URN has infinitely many JSON texts, and the values that a caller builds can hold any bytes, also such that are not UTF-8.", "anchors": ["urn.go:MarshalJSON", "urn.go:UnmarshalJSON", "scim.go:UnmarshalJSON", "urn8141.go:UnmarshalJSON"]}
{"id": "C55", "title": "The generated parser does what the grammar source says", "statement": "For each known parsing mode, Parse (of the package, and of a machine that was set to that mode, whatever was done with it before) returns the URN, the error and leaves the buffer that the grammar in machine.go.rl prescribes: its expressions, actions, priorities and error handlers, with the meaning that Ragel gives to the operators. Setting an unknown mode afterwards keeps the part of the grammar.", "quantifier": "all byte strings, all known modes, all machines", "why_tests_cant": "machine.go is generated, checked in, and edited by tools; that it still says what its source says must hold for each of its 194 states, 256 bytes and every sequence of actions, hence for all inputs.", "anchors": ["machine.go.rl", "machine.go:Parse", "machine.go:WithParsingMode"]}
{"id": "C56", "title": "Machine integers are enough", "statement": "Parse computes with Go's int, which wraps around. For every slice that Go can represent (its length is an int), no sum or difference that Parse computes overflows: with an int of 32 or 64 bits it returns the same result and the same error, and leaves the same machine, as with unbounded integers; also in sequences of calls and inside options.", "quantifier": "all word sizes of at least 4 bits, all byte strings whose length is representable, all machines, all option lists", "why_tests_cant": "An overflow shows only with inputs near the largest possible length (2 GB on 32-bit systems), and near which of the additions it happens depends on the state.", "anchors": ["machine.go:Parse", "machine.go.rl:throw_pre_urn_err", "machine.go.rl:tolower", "machine.go.rl:set_nss"]}
{"id": "C57", "title": "One machine, several goroutines", "statement": "If the calls that two goroutines make on one machine do not overlap, they return what they return one after the other. If calls overlap this fails (disagreement with what one might hope; the package takes no lock): for some schedules Parse returns, without error, a URN that mixes two inputs, rejects a well-formed input, panics, or returns a URN that the mode rejects.", "quantifier": "all reachable machines, all pairs of calls, all schedules in which they do not overlap; for the failures, concrete schedules", "why_tests_cant": "A test runs a few schedules; the bad ones need an interleaving at particular steps of the parser loop.", "anchors": ["machine.go:Parse", "machine.go:WithParsingMode", "machine.go:Error"]}
{"id": "C58", "title": "Nil pointers", "statement": "A method call, field access or copy with pointers that a program can have panics exactly when it follows a nil pointer: every method of *URN and *SCIM with a nil receiver, except Equal with a nil argument, and UnmarshalJSON with a text that is rejected; URN8141 methods likewise. Everything else returns. In particular Parse with ok = true gives a nil pointer exactly for an unknown mode and, in RFC 8141 mode, for the inputs of C22. A nil option makes Parse panic.", "quantifier": "all programs (histories of calls, writes to fields and copies), all actions, all JSON codecs and case mappings", "why_tests_cant": "Which pointers a program can have depends on everything it did before; tests call methods on a few values.", "anchors": ["urn.go:Parse", "urn.go:Equal", "urn.go:UnmarshalJSON", "scim.go:UnmarshalJSON", "urn8141.go:UnmarshalJSON", "machine.go:NewMachine"]}
{"id": "C59", "title": "What two URNs share", "statement": "A URN that Parse or Normalize returns shares nothing with what existed before: nothing that is done with the older pointers (calls, writes to fields, copies, decoding) changes it, and nothing that is done with it changes an older URN or SCIM struct. The text, normal form, equality and JSON of a URN never depend on its SCIM struct. Disagreement: a struct copy shares the SCIM struct, and decoding into the SCIM struct of a URN makes it disagree with the URN's text.", "quantifier": "all programs before the call and after it, all inputs and options", "why_tests_cant": "Sharing shows only after a write through another pointer, in any history.", "anchors": ["urn.go:Parse", "urn.go:Normalize", "urn.go:SCIM", "urn.go:UnmarshalJSON", "scim.go:UnmarshalJSON", "urn8141.go:UnmarshalJSON"]}
{"id": "C60", "title": "The URNs that a program can have", "statement": "Whatever a program does (parsing with any options, decoding, normalizing, assigning to exported fields, copying, writing to SCIM structs), each of its URNs is one that Parse returned in one of the three modes, or one that Normalize returned, or the zero value, up to the exported fields and the contents of the SCIM struct. So for each of them SCIM() is nil exactly when IsSCIM() is false, which is when RFC() is not RFC 7643; only URNs of kind RFC 8141 have components; String() is empty exactly if ID or SS is, and otherwise it is \"urn\" in some case, the two exported fields and the components.", "quantifier": "all programs (histories of actions on pointers), all option lists, all JSON codecs and case mappings", "why_tests_cant": "It is an invariant over all histories of calls and assignments.", "anchors": ["urn.go:URN", "urn.go:SCIM", "urn.go:IsSCIM", "urn.go:RFC", "urn.go:String", "urn.go:Normalize", "machine.go:WithParsingMode"]}
{"id": "C61", "title": "Methods through pointers", "statement": "In any program, a method called through a pointer returns what it computes from the value that the pointer points to. Methods that only read change nothing. Parse, Normalize, UnmarshalJSON (of the three types), assignments to fields and copies of structs change exactly the value they are said to change, to the value that they compute; every other URN and SCIM struct that existed keeps its value (a SCIM struct that several URNs share is one struct).", "quantifier": "all programs before the call, all pointers they can have, all inputs, all JSON codecs and case mappings", "why_tests_cant": "A test observes a few values after a call; that no other object changes ranges over all that a program may hold.", "anchors": ["urn.go", "scim.go", "urn8141.go"]}
{"id": "C62", "title": "One machine behind a mutex", "statement": "If any number of goroutines make their calls on one machine while holding one lock, then under every schedule each call returns what it returns when the calls are made one after the other, in an order that has the calls of each goroutine as it makes them and in which a call that has returned comes before all that return later; no call panics; when nobody is in a call the machine is in the state that this sequence leaves. Every goroutine gets all its calls done under every schedule that gives each goroutine a turn again and again.", "quantifier": "all numbers of goroutines, all lists of calls, all schedules, all machines a program can have", "why_tests_cant": "There are unboundedly many schedules; a test (even with the race detector) sees a few of them.", "anchors": ["machine.go: Parse, WithParsingMode, Error", "machine.go: NewMachine"]}
{"id": "C63", "title": "The text of the package: machines", "statement": "The eight source files are read, by a lexer and a parser, as one program (and as no other). Run by an interpreter of Go, NewMachine with any parsing modes makes a machine, and any sequence of calls of Parse, WithParsingMode and Error on it gives, under every bound on the number of calls and jumps that is great enough, exactly the results that the model of this directory gives: the same URNs, the same error texts. None of them panics or runs for ever; nothing that was in memory before is changed, except the machine and, if given one, the buffer, which at the end holds what it held. An int has 32 or 64 bits and wraps around; slices are as long as an int can say.", "quantifier": "all memories, all lists of parsing modes, all sequences of calls, all inputs, both sizes of int", "why_tests_cant": "It is the claim that a model and 5000 lines of source text agree on every history of calls.", "anchors": ["machine.go:Parse", "machine.go:NewMachine", "machine.go:WithParsingMode", "machine.go:Error", "options.go:WithParsingMode"]}
{"id": "C64", "title": "The text of the package: the function Parse", "statement": "Run by the interpreter, the text of urn.Parse returns for every slice of bytes and all options the URN (or nil) and the boolean that the model says, in new memory, and leaves the memory that was there as it was. So the text itself accepts, in each of the three modes, exactly the strings of that mode's grammar, and returns nil for all others. An int has 32 or 64 bits and wraps around; slices are as long as an int can say.", "quantifier": "all byte strings, all slices of all memories, all lists of options, both sizes of int", "why_tests_cant": "It is about the language that the source text accepts: infinitely many strings.", "anchors": ["urn.go:Parse", "machine.go:Parse", "options.go:WithParsingMode"]}
{"id": "C65", "title": "The text of the package: methods", "statement": "Run by the interpreter, the text of String, RFC, IsSCIM, SCIM, RComponent, QComponent, FComponent, Normalize and Equal of *URN, of String of *SCIM and of scimschema.Type, and of TypeFromString, returns what the model says, for every URN and SCIM struct in memory, and changes nothing that is there. Parse in RFC 2141 mode followed by String gives the input back. (An int has 32 or 64 bits and wraps around.)", "quantifier": "all memories, all pointers to URNs (for Equal also nil) and SCIM structs, all texts, both sizes of int", "why_tests_cant": "It ranges over all values and all memories.", "anchors": ["urn.go", "scim.go", "scim/schema/type.go"]}
{"id": "C66", "title": "The text of the package: JSON", "statement": "Run by the interpreter, the text of MarshalJSON and UnmarshalJSON of URN, SCIM and URN8141 gives the bytes, the error and the new value of the receiver that the model says, for all bytes and all receivers; UnmarshalJSON changes nothing else; MarshalJSON of a URN8141 without URN panics. An int has 32 or 64 bits and wraps around; slices are as long as an int can say.", "quantifier": "all memories, all receivers, all byte strings, all behaviours of encoding/json and strings.ToLower, both sizes of int", "why_tests_cant": "It ranges over all byte strings and all memories.", "anchors": ["urn.go:MarshalJSON", "urn.go:UnmarshalJSON", "scim.go:MarshalJSON", "scim.go:UnmarshalJSON", "urn8141.go:MarshalJSON", "urn8141.go:UnmarshalJSON"]}
{"id": "C67", "title": "The text of the package: clients", "statement": "Take any program that calls the package: any sequence of Parse with any modes, of all methods of *URN, *SCIM and URN8141, of making URNs and SCIM structs, of reading and writing their exported fields and of copying structs, through any of the pointers got so far (or nil), so that several pointers can point to one object and several URNs can share one SCIM struct. Run by the interpreter on the text of the package, it gets exactly the results that the model of pointers gives, call by call; pointers are equal when the model says so; at the end every object has the contents that the model says; other memory is as it was. It ends in every case: it returns, or it follows a nil pointer, and the calls that do are exactly those listed in C58. What it gets does not depend on what was in memory before. An int has 32 or 64 bits and wraps around; slices are as long as an int can say.", "quantifier": "all sequences of calls of any length, all pointers among those got, all inputs, all memories at the start, all behaviours of encoding/json and of strings.ToLower outside ASCII, both sizes of int", "why_tests_cant": "It ranges over all histories of calls with all ways to share objects.", "anchors": ["urn.go", "scim.go", "urn8141.go", "machine.go:Parse", "options.go:WithParsingMode"]}
{"id": "C68", "title": "The text of the grammar", "statement": "The text of machine.go.rl, read as Ragel (blocks, definitions, actions, expressions with the precedence and the meaning of the operators in the Ragel guide) and as Go (the rest), is the grammar that the parser follows: its four instantiations stand, with every name replaced by its definition, for exactly the expressions of the model of the grammar (which the generated parser follows by C55); every action of the file, as Ragel copies it into Go, does in memory what the action of the model does, and the file has no other actions; the Go code outside of the grammar is, after snake2camel, what is in machine.go, but for the tables and constants that Ragel writes and the block that it writes in Parse. So the text of the package parses any slice of memory, with any of the three modes, as the text of the grammar says.", "quantifier": "all inputs, all modes, all memories; all states of the machine in which an action can be executed", "why_tests_cant": "The grammar and the generated code could differ in any state and on any input; tests only see the generated code.", "anchors": ["machine.go.rl", "machine.go", "makefile:machine.go"]}
{"id": "C69", "title": "Checks in Go", "statement": "GoCheck.lean has a Go file with 19 functions of the kind that users write to test the package; each calls the package and returns a bool. Run by the interpreter together with the text of the package, each of them returns true, whatever its arguments are: Parse leaves its input as it was; a URN has no memory in common with the input; Parse says true exactly if it returns a URN; a machine does not return a URN and an error, and Error returns the error again; String returns what was parsed; ID and SS (and, in RFC 8141 mode, the components) are pieces of the input; a SCIM URN is a URN and its parts are the parts of SS; what RFC 2141 and RFC 8141 mode accept, they take apart in the same way; parsing what String returns gives the same URN; Equal is reflexive, symmetric and transitive and false for nil; the text of Normalize is a URN that is equal and normal; URNs are equal if and only if their normal texts are; a machine that has been used does the same as Parse; the last mode counts; UnmarshalJSON reads what MarshalJSON writes and changes nothing if it fails; String of a URN made by hand; String and TypeFromString. An int has 32 or 64 bits and wraps around; slices are as long as an int can say.", "quantifier": "all slices of bytes in memory (nil, or any part of any array, also overlapping), all modes that the check is about, all other arguments, all memories; for jsonRoundTrip all codecs that decode what they encode, both sizes of int", "why_tests_cant": "A test runs these functions on some arguments. That they return true on all arguments is a theorem.", "anchors": ["machine.go:Parse", "machine.go:NewMachine", "urn.go", "scim.go", "scim/schema/type.go", "options.go:WithParsingMode"]}
{"id": "C70", "title": "The text of the tools", "statement": "The text of tools/removecomments and tools/snake2camel, read and run by an interpreter of Go that does not know these programs (with the regular expressions read from the text of the programs), does as a command what C51 and C52 say. Called with anything but one path a tool prints what is wrong, exits with 1 and touches no file; if the file cannot be read it prints the error, exits with 1 and writes nothing; else it reads the file once, writes the same file once and exits with 0, or with 1 and the error if the write fails. The lines that removecomments writes are the lines of the file without the //line comments and the blank lines directly before them; what snake2camel writes has, line by line, the snake case names rewritten, the last one first, until there is none. It ends for every file. After removecomments and then snake2camel, as in the makefile, the file has no //line comments and no snake case names, and running both again leaves it as it is; the machine.go of the repository is such a file.", "quantifier": "all arguments, all files, all errors of reading and writing", "why_tests_cant": "The tests call the text functions on four texts; nothing runs main, and a file of any other form, size or content could be changed in another way, or make the loop go on for ever.", "anchors": ["tools/removecomments/removecomments.go", "tools/snake2camel/snake2camel.go", "makefile:machine.go", "machine.go"]}
{"id": "C71", "title": "The tools and characters outside of ASCII", "statement": "The tools never cut a character in two. Run on a file that is the UTF-8 encoding of any characters, the text of removecomments writes the encoding of these characters without some of them, and the text of snake2camel writes the encoding of characters in which those outside of ASCII are the same, in number and order, as before. The regular expressions go over the runes of the file, as in Go.", "quantifier": "all files that are UTF-8 encodings", "why_tests_cant": "All texts in the tests are ASCII; a match that begins or ends within a character, or `.` that matches a part of one, would show only for some other text.", "anchors": ["tools/removecomments/removecomments.go:commentLineRegex", "tools/snake2camel/snake2camel.go:snake2camel"]}
{"id": "C72", "title": "How much work parsing is", "statement": "Parsing costs work linear in the length of the input, counting the rounds of the automaton and the bytes that are copied. This holds with RFC2141Only (the default) and RFC7643Only: at most 22 * len + 110. It is false with RFC8141Only: each question mark in an r-component copies the r-component read so far, so that a valid URN with n of them costs at least n * n / 2; the work is never more than (11 + number of question marks) * (2 * len + 10). In every mode, also with RFC8141Only, the number of jumps that the text of Parse makes is linear: none of its blocks makes more than 9 * len + 75.", "quantifier": "every byte slice, every machine configuration", "why_tests_cant": "A growth rate is a statement about inputs of all lengths, and the inputs for which it is quadratic are a family that no test contains.", "anchors": ["machine.go:(*machine).Parse", "machine.go.rl:set_r_component", "machine.go.rl:rq_components", "machine.go:(*machine).text"]}
{"id": "C73", "title": "Goroutines that run the text of the package", "statement": "When any number of goroutines use the package at once, as its source text says, then under every schedule there is no data race and each goroutine returns what it returns alone, if no goroutine writes to what another one can reach. The same holds, more generally, if no goroutine writes to a field that another one uses: Equal and Normalize use the field ID and the normal form, but not the field SS, IsSCIM, SCIM, RFC and the methods for components use neither ID nor SS, and an assignment to a field uses that field only, so a goroutine can assign to SS of a URN while others call these. In particular: goroutines can share any URNs and SCIM structs as long as none of them assigns to them or calls UnmarshalJSON on them; a call of Parse accesses no memory that was there before it but the bytes of its slice, so goroutines can call Parse on slices of one array that have no bytes in common, and each finds its slice unchanged when it is done. Otherwise there are races: an assignment, a copy or a call that makes no new URN and no new SCIM struct, in one goroutine, and anything in another one whose result (a bool, a string, a kind or the fields of a SCIM struct) is not the same after it as before; an assignment to a field, whatever it assigns, even the value that the field has already, and anything in another one whose result depends on the field; two assignments to a field, or an assignment to a field and a call that always reads it (Equal and Normalize read ID and the normal form, String reads ID, MarshalJSON copies the struct), whatever the values are, so that goroutines which only read and assign to fields, parse, normalize, or ask for the kind, for components or for JSON race exactly if one of them writes to a field that another one uses; or two calls of Parse with the same slice (if it has an escape with an upper case letter).", "quantifier": "every schedule, every number of goroutines, every sequence of calls before and in the goroutines, every input", "why_tests_cant": "A race detector sees only the schedules and inputs of one run; the claim is about all interleavings of single accesses to memory, for programs of any length.", "anchors": ["urn.go:Parse", "urn.go:(*URN).Normalize", "urn.go:(*URN).Equal", "urn.go:(*URN).String", "urn.go:(*URN).UnmarshalJSON", "scim.go:(*SCIM).UnmarshalJSON", "machine.go:(*machine).Parse"]}
{"id": "C74", "title": "From the text of the package to the grammars", "statement": "A client of the package, as its source text says, gets for a text of the grammar of the parsing mode exactly its parts: ID, SS, the components, the fields of the SCIM struct, String, RFC, IsSCIM; Normalize gives a new URN with the identifier and the escapes in lower case; Equal is lexical equivalence; JSON texts of it are decoded to it and it is encoded as its text in quotes. For all other texts it gets nil and false, a machine gives the message of the first fault with its column (by the grammar, and with the exceptions of C33), and UnmarshalJSON gives an error and keeps the receiver (except for the texts for which RFC 8141 mode returns neither a URN nor an error).", "quantifier": "all byte strings, all JSON texts, all three modes, all memories, both sizes of int", "why_tests_cant": "The claims relate every text of a grammar to what every method returns; the texts are infinitely many, and so are the ways to write them in JSON.", "anchors": ["urn.go:Parse", "urn.go:(*URN).String", "urn.go:(*URN).Normalize", "urn.go:(*URN).Equal", "urn.go:(*URN).MarshalJSON", "urn.go:(*URN).UnmarshalJSON", "scim.go:(*SCIM).UnmarshalJSON", "urn8141.go:(*URN8141).UnmarshalJSON", "machine.go:(*machine).Parse"]}
{"id": "C75", "title": "Goroutines that parse slices of one array", "statement": "A call of Parse, as the source text of the package says, accesses no memory that was there before it but the bytes of its slice; it accesses all of these if the text is accepted; it writes only to upper case letters of percent escapes, and if the text is accepted, exactly to those in the namespace specific string. Goroutines that call Parse with slices of the same array do not race under any schedule, and each gets the result it gets alone and finds its slice unchanged when it is done, if no byte that one of them writes to is in the slice of another, in particular if no text has an upper case letter in a percent escape. If all texts are accepted this is exact: they race if and only if an upper case letter of a percent escape in the namespace specific string of one result is a byte of the slice of another goroutine. Any number of goroutines that parse the same slice with the same options, accepted or not, race exactly if there are at least two and the call writes to the slice.", "quantifier": "all numbers of goroutines, all schedules, all byte strings, all lists of options, all slices of all arrays, all memories, both sizes of int", "why_tests_cant": "There are unboundedly many schedules and texts; the race detector sees only the accesses of the schedules that happen.", "anchors": ["urn.go:Parse", "machine.go:(*machine).Parse", "machine.go.rl:set_nss"]}
{"id": "C76", "title": "Goroutines that use machines", "statement": "Goroutines that call methods of machines, as the source text of the package says: under every schedule there is no data race, and each call returns what it returns alone, if no two goroutines make calls on one machine that mix, and no byte that one call of Parse writes to is in the slice of another one. Two calls on one machine mix if one of them is Parse, or both are WithParsingMode; Error mixes only with Parse. Two goroutines whose calls on one machine mix race, also if one of them parses and the other one only asks for the last error (and if WithParsingMode is given one of the three modes). For accepted texts this is exact: there is a race exactly if calls on one machine mix or a byte that one of them writes to is in the slice of another. Goroutines that make their own machines with NewMachine and use them for any number of calls never race and get what they get alone.", "quantifier": "all numbers of goroutines, all schedules, all machines that a client can have, all byte strings, all slices of all arrays, all modes, all memories, both sizes of int; for the last part all sequences of calls", "why_tests_cant": "There are unboundedly many schedules, histories of machines and texts; the race detector sees only the accesses of the schedules that happen.", "anchors": ["machine.go:(*machine).Parse", "machine.go:(*machine).WithParsingMode", "machine.go:(*machine).Error", "machine.go:NewMachine"]}
{"id": "C77", "title": "The source text of the package against the RFCs", "statement": "What the text of the package does, stated in terms of the RFCs alone. In RFC 8141 mode it accepts, of the texts whose percent escapes are hexadecimal, exactly the namestrings of RFC 8141 with the restrictions of C48, and the methods return the parts that the ABNF of the RFC gives; likewise for RFC 2141 and RFC 7643 (C49, C50). Equal of two URNs that were parsed in RFC 2141 mode is the lexical equivalence of RFC 2141, section 5, and Equal of two namestrings parsed in RFC 8141 mode is the URN-equivalence of RFC 8141, section 3.1: the same text after the scheme and the NID are put in lower case, the percent escapes in upper case, and the components are left out.", "quantifier": "all byte strings, all pairs of byte strings, all memories, both sizes of int", "why_tests_cant": "The grammars of the RFCs have infinitely many texts, and so has the set of texts outside them; equivalence is about all pairs.", "anchors": ["urn.go:Parse", "urn.go:(*URN).Equal", "urn.go:(*URN).RComponent", "urn.go:(*URN).QComponent", "urn.go:(*URN).FComponent", "machine.go:(*machine).Parse"]}
{"id": "C78", "title": "The source text of the package behind a lock", "statement": "Goroutines that must not use a machine, a URN or a SCIM struct at the same time (C73, C76) can do so with a lock held: if each of any number of goroutines makes its calls between Lock and Unlock of one sync.Mutex, then under every schedule, with goroutines interleaved at each access to memory of the text of the package, there is one order of the calls in which, made one after the other, they return what they returned and leave memory as it is; this order is only continued later, so a call that has returned stays before all that return later. For a machine, no call panics and all goroutines get done, also when the slices that they parse overlap; for URNs and SCIM structs, a call panics only if it panics in that order in the model, and if nothing panics in any order, all goroutines get done.", "quantifier": "all numbers of goroutines, all calls and assignments, all schedules, all memories, both sizes of int", "why_tests_cant": "There are infinitely many schedules, and a test sees few of them; a test run with a lock that happens to work says nothing about the other interleavings.", "anchors": ["machine.go:(*machine).Parse", "machine.go:(*machine).WithParsingMode", "machine.go:(*machine).Error", "urn.go:(*URN).UnmarshalJSON", "urn.go:(*URN).String", "scim.go:(*SCIM).UnmarshalJSON"]}
