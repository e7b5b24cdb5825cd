import Verif.Go
/-!
# Specification of the tools

What `removecomments` and `snake2camel` do to a text, without regular expressions.
-/
set_option autoImplicit false
namespace Urn.SpecTools

/-- The lines of a text, each with the newline that ends it (the last one may have none). -/
def lines : Bytes → List Bytes
  | [] => []
  | c :: t =>
      if c = 10 then [10] :: lines t
      else
        match lines t with
        | [] => [[c]]
        | l :: ls => (c :: l) :: ls

/-! ## Comment lines -/

/-- White space within a line: tab, form feed, carriage return, space. -/
def isIndent (c : UInt8) : Bool := c == 9 || c == 12 || c == 13 || c == 32

/-- The line is white space, then `//line`, then anything. -/
def isComment (l : Bytes) : Bool := (lit "//line").isPrefixOf (l.dropWhile isIndent)

/-- The line is white space only. -/
def isBlank (l : Bytes) : Bool := l.all fun c => isIndent c || c == 10

/-- After some blank lines (or none) there is a comment line. -/
def commentNext : List Bytes → Bool
  | [] => false
  | l :: ls => isComment l || (isBlank l && commentNext ls)

/-- The lines that remain: all but the comment lines and the blank lines directly before them. -/
def kept : List Bytes → List Bytes
  | [] => []
  | l :: ls => if isComment l || (isBlank l && commentNext ls) then kept ls else l :: kept ls

/-! ## Snake case -/

/-- `a`–`z` -/
def isLower (c : UInt8) : Bool := 97 ≤ c && c ≤ 122
/-- `0`–`9` -/
def isDigit (c : UInt8) : Bool := 48 ≤ c && c ≤ 57
/-- Letters and digits. -/
def isAlnum (c : UInt8) : Bool := isLower c || (65 ≤ c && c ≤ 90) || isDigit c
/-- ASCII upper case. -/
def upper (c : UInt8) : UInt8 := if isLower c then c - 32 else c

/-- `t` is `a x ds _ y b`: an underscore after a lower case letter `x` and digits `ds` (possibly none), and
before a letter or digit `y`. -/
structure Snake (t a : Bytes) (x : UInt8) (ds : Bytes) (y : UInt8) (b : Bytes) : Prop where
  eq : t = a ++ x :: (ds ++ 95 :: y :: b)
  hx : isLower x = true
  hds : ∀ d ∈ ds, isDigit d = true
  hy : isAlnum y = true

/-- There is such an underscore. -/
def HasSnake (t : Bytes) : Prop := ∃ a x ds y b, Snake t a x ds y b

/-- `t'` is `t` with the last such underscore removed and the character after it in upper case. -/
def Step (t t' : Bytes) : Prop :=
  ∃ a x ds y b, Snake t a x ds y b ∧ (∀ a' x' ds' y' b', Snake t a' x' ds' y' b' → b.length ≤ b'.length) ∧
    t' = a ++ x :: (ds ++ upper y :: b)

/-- Some number of such steps. -/
inductive Steps : Bytes → Bytes → Prop where
  | refl {t : Bytes} : Steps t t
  | step {t t' t'' : Bytes} : Step t t' → Steps t' t'' → Steps t t''

/-- `t'` is `t` with some underscores removed, where each is followed by a letter or digit, which is put in upper
case; nothing else is changed. -/
inductive Squeezed : Bytes → Bytes → Prop where
  | nil : Squeezed [] []
  | keep {c : UInt8} {t t' : Bytes} : Squeezed t t' → Squeezed (c :: t) (c :: t')
  | drop {y : UInt8} {t t' : Bytes} : isAlnum y = true → Squeezed t t' → Squeezed (95 :: y :: t) (upper y :: t')

/-- `P` holds line by line. -/
inductive Linewise (P : Bytes → Bytes → Prop) : List Bytes → List Bytes → Prop where
  | nil : Linewise P [] []
  | cons {l l' : Bytes} {ls ls' : List Bytes} : P l l' → Linewise P ls ls' → Linewise P (l :: ls) (l' :: ls')

end Urn.SpecTools
