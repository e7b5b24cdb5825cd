/-!
GENERATED by tools/source.py from the files in /repo - do not edit by hand.

# The text of the tools, line by line
-/
namespace Urn.ToolSource

/-- tools/removecomments/removecomments.go:1-52 -/
def removecommentsGo : List String := [
  "package main",
  "",
  "import (",
  "\t\"fmt\"",
  "\t\"os\"",
  "\t\"regexp\"",
  ")",
  "",
  "// commentLineRegex matches a comment line and its newline characters. A",
  "// comment line, for the purposes of this function, begins with optional",
  "// whitespace followed by \"//line\" then any other text.",
  "//",
  "// optional newline character ---------------------------------+++",
  "// optional carriage return --------------------------------+++|||",
  "// end of line --------------------------------------------+||||||",
  "// wildcard ---------------------------------------------++|||||||",
  "// the literal word \"line\" --------------------------++++|||||||||",
  "// comment delimiters -----------------------------++|||||||||||||",
  "// one more more whitespace characters ---------+++|||||||||||||||",
  "// beginning of line --------------------------+||||||||||||||||||",
  "// allow multiline matching ---------------++++|||||||||||||||||||",
  "//                                         |||||||||||||||||||||||",
  "var commentLineRegex = regexp.MustCompile(`(?m)^\\s*//line.*$\\r?\\n?`)",
  "",
  "func removeComments(src []byte) []byte {",
  "\treturn commentLineRegex.ReplaceAllLiteral(src, []byte(\"\"))",
  "}",
  "",
  "func removeCommentsFromFile(path string) error {",
  "\tcontent, err := os.ReadFile(path)",
  "\tif err != nil {",
  "\t\treturn err",
  "\t}",
  "\tupdated := removeComments(content)",
  "\treturn os.WriteFile(path, updated, 0)",
  "}",
  "",
  "func exitWithError(msg string) {",
  "\terr := fmt.Sprintf(\"error: %s\\n\", msg)",
  "\tfmt.Fprintln(os.Stderr, err)",
  "\tos.Exit(1)",
  "}",
  "",
  "func main() {",
  "\tif len(os.Args) != 2 {",
  "\t\texitWithError(\"must be called with the file path as the only argument\")",
  "\t}",
  "\tpath := os.Args[1]",
  "\tif err := removeCommentsFromFile(path); err != nil {",
  "\t\texitWithError(err.Error())",
  "\t}",
  "}"]

/-- tools/snake2camel/snake2camel.go:1-69 -/
def snake2camelGo : List String := [
  "package main",
  "",
  "import (",
  "\t\"fmt\"",
  "\t\"os\"",
  "\t\"regexp\"",
  "\t\"strings\"",
  ")",
  "",
  "func exitWithError(msg string) {",
  "\terr := fmt.Sprintf(\"error: %s\\n\", msg)",
  "\tfmt.Fprintln(os.Stderr, err)",
  "\tos.Exit(1)",
  "}",
  "",
  "func replaceAllStringSubmatchFunc(re *regexp.Regexp, str string, repl func([]string) string) (string, int) {",
  "\tresult := \"\"",
  "\tlastIndex := 0",
  "",
  "\tfor _, v := range re.FindAllSubmatchIndex([]byte(str), -1) {",
  "\t\tgroups := []string{}",
  "\t\tfor i := 0; i < len(v); i += 2 {",
  "\t\t\tif v[i] == -1 || v[i+1] == -1 {",
  "\t\t\t\tgroups = append(groups, \"\")",
  "\t\t\t} else {",
  "\t\t\t\tgroups = append(groups, str[v[i]:v[i+1]])",
  "\t\t\t}",
  "\t\t}",
  "",
  "\t\tresult += str[lastIndex:v[0]] + repl(groups)",
  "\t\tlastIndex = v[1]",
  "\t}",
  "",
  "\treturn result + str[lastIndex:], lastIndex",
  "}",
  "",
  "func snake2camel(content []byte) []byte {",
  "\tre := regexp.MustCompile(`(.*)([a-z]+[0-9]*)_([a-zA-Z0-9])(.*)`)",
  "\tres := string(content)",
  "\tlast := -1",
  "",
  "\tfor last != 0 {",
  "\t\tres, last = replaceAllStringSubmatchFunc(re, res, func(groups []string) string {",
  "\t\t\treturn groups[1] + groups[2] + strings.ToUpper(groups[3]) + groups[4]",
  "\t\t})",
  "\t}",
  "",
  "\treturn []byte(res)",
  "}",
  "",
  "func snake2camelFile(path string) error {",
  "\tcontent, err := os.ReadFile(path)",
  "\tif err != nil {",
  "\t\treturn err",
  "\t}",
  "\tupdated := snake2camel(content)",
  "",
  "\treturn os.WriteFile(path, updated, 0)",
  "}",
  "",
  "func main() {",
  "\tif len(os.Args) != 2 {",
  "\t\texitWithError(\"must be called with the file path as the only argument\")",
  "\t}",
  "\tpath := os.Args[1]",
  "\tif err := snake2camelFile(path); err != nil {",
  "\t\texitWithError(err.Error())",
  "\t}",
  "}"]

end Urn.ToolSource
