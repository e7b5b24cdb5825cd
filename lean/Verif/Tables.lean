/-!
GENERATED by tools/gen.py from /repo/machine.go - do not edit by hand.

The tables of the Ragel generated automaton.  Every definition cites the lines of
/repo/machine.go it was translated from.
-/
namespace Urn.Tables

/-- The Ragel actions (machine.go.rl) whose text makes up the `f` blocks and the EOF cases
of machine.go.  `mark_scim_name` and `mark_scim_other` have the same text and are both
`markScim`.  Their meaning is given in `Verif/Machine.lean` (`execAct`). -/
inductive Act where
  | mark
  | tolower
  | setPre
  | throwPreUrnErr
  | setNid
  | setNss
  | errPre
  | errNid
  | errNss
  | errUrn
  | errHex
  | baseType
  | errScimNid
  | errScimType
  | errScimName
  | errScimOther
  | scimType
  | createScim
  | setScimType
  | markScim
  | setScimName
  | setScimOther
  | errNss8141
  | errNid8141
  | rfc8141Type
  | setRComponent
  | setQComponent
  | setFComponent
  | informalNidMatch
  | markRStart
  | markQStart
  | errMalformedR
  | errMalformedQ
  deriving DecidableEq, Repr

/-- machine.go:84 -/
abbrev start : Nat := 1

/-- machine.go:85 -/
abbrev firstFinal : Nat := 172

/-- machine.go:87 -/
abbrev enScimOnly : Nat := 44

/-- machine.go:88 -/
abbrev enRfc8141Only : Nat := 83

/-- machine.go:89 -/
abbrev enFail : Nat := 193

/-- machine.go:90 -/
abbrev enMain : Nat := 1

/-- machine.go:28-54 -/
def toStateActions : List Nat :=
  [0, 0, 0, 0, 0, 0, 0, 0, 0, 0, 0, 0, 0, 0, 0, 0,
   0, 0, 0, 0, 0, 0, 0, 0, 0, 0, 0, 0, 0, 0, 0, 0,
   0, 0, 0, 0, 0, 0, 0, 0, 0, 0, 0, 0, 0, 0, 0, 0,
   0, 0, 0, 0, 0, 0, 0, 0, 0, 0, 0, 0, 0, 0, 0, 0,
   0, 0, 0, 0, 0, 0, 0, 0, 0, 0, 0, 0, 0, 0, 0, 0,
   0, 0, 0, 0, 0, 0, 0, 0, 0, 0, 0, 0, 0, 0, 0, 0,
   0, 0, 0, 0, 0, 0, 0, 0, 0, 0, 0, 0, 0, 0, 0, 0,
   0, 0, 0, 0, 0, 0, 0, 0, 0, 0, 0, 0, 0, 0, 0, 0,
   0, 0, 0, 0, 0, 0, 0, 0, 0, 0, 0, 0, 0, 0, 0, 0,
   0, 0, 0, 0, 0, 0, 0, 0, 0, 0, 0, 0, 0, 0, 0, 0,
   0, 0, 0, 0, 0, 0, 0, 0, 0, 0, 0, 33, 0, 0, 0, 0,
   0, 0, 0, 0, 0, 0, 0, 0, 0, 0, 0, 0, 0, 0, 0, 0,
   0, 0]

/-- machine.go:56-82 -/
def eofActions : List Nat :=
  [0, 1, 1, 1, 1, 4, 6, 6, 6, 6, 6, 6, 6, 6, 6, 6,
   6, 6, 6, 6, 6, 6, 6, 6, 6, 6, 6, 6, 6, 6, 6, 6,
   6, 6, 6, 6, 6, 6, 8, 9, 9, 4, 4, 11, 1, 1, 1, 1,
   12, 12, 12, 12, 12, 12, 12, 12, 12, 12, 12, 12, 12, 12, 12, 12,
   12, 14, 14, 14, 14, 16, 18, 20, 20, 14, 14, 14, 14, 14, 14, 14,
   14, 14, 14, 1, 1, 1, 1, 21, 22, 22, 22, 22, 22, 22, 22, 22,
   22, 22, 22, 22, 22, 22, 22, 22, 22, 22, 22, 22, 22, 22, 22, 22,
   22, 22, 22, 22, 22, 22, 22, 22, 23, 24, 24, 25, 25, 0, 26, 28,
   28, 29, 29, 30, 30, 26, 26, 31, 31, 22, 22, 22, 22, 22, 22, 22,
   22, 22, 22, 22, 22, 22, 22, 22, 22, 22, 22, 22, 22, 22, 22, 22,
   22, 22, 22, 22, 22, 22, 22, 21, 21, 22, 22, 22, 34, 34, 35, 37,
   37, 38, 40, 41, 41, 38, 42, 42, 42, 44, 42, 48, 48, 48, 50, 44,
   50, 0]

/-- machine.go:158-165 -/
def st1 (c : UInt8) : Nat :=
  if c == 85 then 1 else if c == 117 then 1 else 0

/-- machine.go:168-175 -/
def st2 (c : UInt8) : Nat :=
  if c == 82 then 2 else if c == 114 then 2 else 0

/-- machine.go:176-183 -/
def st3 (c : UInt8) : Nat :=
  if c == 78 then 3 else if c == 110 then 3 else 0

/-- machine.go:184-188 -/
def st4 (c : UInt8) : Nat :=
  if c == 58 then 4 else 0

/-- machine.go:189-208 -/
def st5 (c : UInt8) : Nat :=
  if c == 85 then 7 else if c == 117 then 7 else if c < 65 then (if (48 ≤ c && c ≤ 57) then 6 else 5) else if c > 90 then (if (97 ≤ c && c ≤ 122) then 6 else 5) else 6

/-- machine.go:209-228 -/
def st6 (c : UInt8) : Nat :=
  if c == 45 then 9 else if c == 58 then 10 else if c < 65 then (if (48 ≤ c && c ≤ 57) then 9 else 8) else if c > 90 then (if (97 ≤ c && c ≤ 122) then 9 else 8) else 9

/-- machine.go:229-248 -/
def st7 (c : UInt8) : Nat :=
  if c == 45 then 11 else if c == 58 then 10 else if c < 65 then (if (48 ≤ c && c ≤ 57) then 11 else 8) else if c > 90 then (if (97 ≤ c && c ≤ 122) then 11 else 8) else 11

/-- machine.go:249-268 -/
def st8 (c : UInt8) : Nat :=
  if c == 45 then 12 else if c == 58 then 10 else if c < 65 then (if (48 ≤ c && c ≤ 57) then 12 else 8) else if c > 90 then (if (97 ≤ c && c ≤ 122) then 12 else 8) else 12

/-- machine.go:269-288 -/
def st9 (c : UInt8) : Nat :=
  if c == 45 then 13 else if c == 58 then 10 else if c < 65 then (if (48 ≤ c && c ≤ 57) then 13 else 8) else if c > 90 then (if (97 ≤ c && c ≤ 122) then 13 else 8) else 13

/-- machine.go:289-308 -/
def st10 (c : UInt8) : Nat :=
  if c == 45 then 14 else if c == 58 then 10 else if c < 65 then (if (48 ≤ c && c ≤ 57) then 14 else 8) else if c > 90 then (if (97 ≤ c && c ≤ 122) then 14 else 8) else 14

/-- machine.go:309-328 -/
def st11 (c : UInt8) : Nat :=
  if c == 45 then 15 else if c == 58 then 10 else if c < 65 then (if (48 ≤ c && c ≤ 57) then 15 else 8) else if c > 90 then (if (97 ≤ c && c ≤ 122) then 15 else 8) else 15

/-- machine.go:329-348 -/
def st12 (c : UInt8) : Nat :=
  if c == 45 then 16 else if c == 58 then 10 else if c < 65 then (if (48 ≤ c && c ≤ 57) then 16 else 8) else if c > 90 then (if (97 ≤ c && c ≤ 122) then 16 else 8) else 16

/-- machine.go:349-368 -/
def st13 (c : UInt8) : Nat :=
  if c == 45 then 17 else if c == 58 then 10 else if c < 65 then (if (48 ≤ c && c ≤ 57) then 17 else 8) else if c > 90 then (if (97 ≤ c && c ≤ 122) then 17 else 8) else 17

/-- machine.go:369-388 -/
def st14 (c : UInt8) : Nat :=
  if c == 45 then 18 else if c == 58 then 10 else if c < 65 then (if (48 ≤ c && c ≤ 57) then 18 else 8) else if c > 90 then (if (97 ≤ c && c ≤ 122) then 18 else 8) else 18

/-- machine.go:389-408 -/
def st15 (c : UInt8) : Nat :=
  if c == 45 then 19 else if c == 58 then 10 else if c < 65 then (if (48 ≤ c && c ≤ 57) then 19 else 8) else if c > 90 then (if (97 ≤ c && c ≤ 122) then 19 else 8) else 19

/-- machine.go:409-428 -/
def st16 (c : UInt8) : Nat :=
  if c == 45 then 20 else if c == 58 then 10 else if c < 65 then (if (48 ≤ c && c ≤ 57) then 20 else 8) else if c > 90 then (if (97 ≤ c && c ≤ 122) then 20 else 8) else 20

/-- machine.go:429-448 -/
def st17 (c : UInt8) : Nat :=
  if c == 45 then 21 else if c == 58 then 10 else if c < 65 then (if (48 ≤ c && c ≤ 57) then 21 else 8) else if c > 90 then (if (97 ≤ c && c ≤ 122) then 21 else 8) else 21

/-- machine.go:449-468 -/
def st18 (c : UInt8) : Nat :=
  if c == 45 then 22 else if c == 58 then 10 else if c < 65 then (if (48 ≤ c && c ≤ 57) then 22 else 8) else if c > 90 then (if (97 ≤ c && c ≤ 122) then 22 else 8) else 22

/-- machine.go:469-488 -/
def st19 (c : UInt8) : Nat :=
  if c == 45 then 23 else if c == 58 then 10 else if c < 65 then (if (48 ≤ c && c ≤ 57) then 23 else 8) else if c > 90 then (if (97 ≤ c && c ≤ 122) then 23 else 8) else 23

/-- machine.go:489-508 -/
def st20 (c : UInt8) : Nat :=
  if c == 45 then 24 else if c == 58 then 10 else if c < 65 then (if (48 ≤ c && c ≤ 57) then 24 else 8) else if c > 90 then (if (97 ≤ c && c ≤ 122) then 24 else 8) else 24

/-- machine.go:509-528 -/
def st21 (c : UInt8) : Nat :=
  if c == 45 then 25 else if c == 58 then 10 else if c < 65 then (if (48 ≤ c && c ≤ 57) then 25 else 8) else if c > 90 then (if (97 ≤ c && c ≤ 122) then 25 else 8) else 25

/-- machine.go:529-548 -/
def st22 (c : UInt8) : Nat :=
  if c == 45 then 26 else if c == 58 then 10 else if c < 65 then (if (48 ≤ c && c ≤ 57) then 26 else 8) else if c > 90 then (if (97 ≤ c && c ≤ 122) then 26 else 8) else 26

/-- machine.go:549-568 -/
def st23 (c : UInt8) : Nat :=
  if c == 45 then 27 else if c == 58 then 10 else if c < 65 then (if (48 ≤ c && c ≤ 57) then 27 else 8) else if c > 90 then (if (97 ≤ c && c ≤ 122) then 27 else 8) else 27

/-- machine.go:569-588 -/
def st24 (c : UInt8) : Nat :=
  if c == 45 then 28 else if c == 58 then 10 else if c < 65 then (if (48 ≤ c && c ≤ 57) then 28 else 8) else if c > 90 then (if (97 ≤ c && c ≤ 122) then 28 else 8) else 28

/-- machine.go:589-608 -/
def st25 (c : UInt8) : Nat :=
  if c == 45 then 29 else if c == 58 then 10 else if c < 65 then (if (48 ≤ c && c ≤ 57) then 29 else 8) else if c > 90 then (if (97 ≤ c && c ≤ 122) then 29 else 8) else 29

/-- machine.go:609-628 -/
def st26 (c : UInt8) : Nat :=
  if c == 45 then 30 else if c == 58 then 10 else if c < 65 then (if (48 ≤ c && c ≤ 57) then 30 else 8) else if c > 90 then (if (97 ≤ c && c ≤ 122) then 30 else 8) else 30

/-- machine.go:629-648 -/
def st27 (c : UInt8) : Nat :=
  if c == 45 then 31 else if c == 58 then 10 else if c < 65 then (if (48 ≤ c && c ≤ 57) then 31 else 8) else if c > 90 then (if (97 ≤ c && c ≤ 122) then 31 else 8) else 31

/-- machine.go:649-668 -/
def st28 (c : UInt8) : Nat :=
  if c == 45 then 32 else if c == 58 then 10 else if c < 65 then (if (48 ≤ c && c ≤ 57) then 32 else 8) else if c > 90 then (if (97 ≤ c && c ≤ 122) then 32 else 8) else 32

/-- machine.go:669-688 -/
def st29 (c : UInt8) : Nat :=
  if c == 45 then 33 else if c == 58 then 10 else if c < 65 then (if (48 ≤ c && c ≤ 57) then 33 else 8) else if c > 90 then (if (97 ≤ c && c ≤ 122) then 33 else 8) else 33

/-- machine.go:689-708 -/
def st30 (c : UInt8) : Nat :=
  if c == 45 then 34 else if c == 58 then 10 else if c < 65 then (if (48 ≤ c && c ≤ 57) then 34 else 8) else if c > 90 then (if (97 ≤ c && c ≤ 122) then 34 else 8) else 34

/-- machine.go:709-728 -/
def st31 (c : UInt8) : Nat :=
  if c == 45 then 35 else if c == 58 then 10 else if c < 65 then (if (48 ≤ c && c ≤ 57) then 35 else 8) else if c > 90 then (if (97 ≤ c && c ≤ 122) then 35 else 8) else 35

/-- machine.go:729-748 -/
def st32 (c : UInt8) : Nat :=
  if c == 45 then 36 else if c == 58 then 10 else if c < 65 then (if (48 ≤ c && c ≤ 57) then 36 else 8) else if c > 90 then (if (97 ≤ c && c ≤ 122) then 36 else 8) else 36

/-- machine.go:749-768 -/
def st33 (c : UInt8) : Nat :=
  if c == 45 then 37 else if c == 58 then 10 else if c < 65 then (if (48 ≤ c && c ≤ 57) then 37 else 8) else if c > 90 then (if (97 ≤ c && c ≤ 122) then 37 else 8) else 37

/-- machine.go:769-788 -/
def st34 (c : UInt8) : Nat :=
  if c == 45 then 38 else if c == 58 then 10 else if c < 65 then (if (48 ≤ c && c ≤ 57) then 38 else 8) else if c > 90 then (if (97 ≤ c && c ≤ 122) then 38 else 8) else 38

/-- machine.go:789-808 -/
def st35 (c : UInt8) : Nat :=
  if c == 45 then 39 else if c == 58 then 10 else if c < 65 then (if (48 ≤ c && c ≤ 57) then 39 else 8) else if c > 90 then (if (97 ≤ c && c ≤ 122) then 39 else 8) else 39

/-- machine.go:809-828 -/
def st36 (c : UInt8) : Nat :=
  if c == 45 then 40 else if c == 58 then 10 else if c < 65 then (if (48 ≤ c && c ≤ 57) then 40 else 8) else if c > 90 then (if (97 ≤ c && c ≤ 122) then 40 else 8) else 40

/-- machine.go:829-833 -/
def st37 (c : UInt8) : Nat :=
  if c == 58 then 10 else 8

/-- machine.go:834-864 -/
def st38 (c : UInt8) : Nat :=
  if c == 33 then 42 else if c == 36 then 42 else if c == 37 then 43 else if c == 61 then 42 else if c == 95 then 42 else if c < 48 then (if (39 ≤ c && c ≤ 46) then 42 else 41) else if c > 59 then (if c > 90 then (if (97 ≤ c && c ≤ 122) then 42 else 41) else if c ≥ 64 then 42 else 41) else 42

/-- machine.go:896-909 -/
def st39 (c : UInt8) : Nat :=
  if c < 65 then (if (48 ≤ c && c ≤ 57) then 45 else 44) else if c > 90 then (if (97 ≤ c && c ≤ 122) then 45 else 44) else 46

/-- machine.go:910-923 -/
def st40 (c : UInt8) : Nat :=
  if c < 65 then (if (48 ≤ c && c ≤ 57) then 47 else 44) else if c > 90 then (if (97 ≤ c && c ≤ 122) then 47 else 44) else 48

/-- machine.go:955-978 -/
def st41 (c : UInt8) : Nat :=
  if c == 45 then 9 else if c == 58 then 10 else if c == 82 then 49 else if c == 114 then 49 else if c < 65 then (if (48 ≤ c && c ≤ 57) then 9 else 5) else if c > 90 then (if (97 ≤ c && c ≤ 122) then 9 else 5) else 9

/-- machine.go:979-1002 -/
def st42 (c : UInt8) : Nat :=
  if c == 45 then 11 else if c == 58 then 10 else if c == 78 then 50 else if c == 110 then 50 else if c < 65 then (if (48 ≤ c && c ≤ 57) then 11 else 5) else if c > 90 then (if (97 ≤ c && c ≤ 122) then 11 else 5) else 11

/-- machine.go:1003-1019 -/
def st43 (c : UInt8) : Nat :=
  if c == 45 then 12 else if c < 65 then (if (48 ≤ c && c ≤ 57) then 12 else 51) else if c > 90 then (if (97 ≤ c && c ≤ 122) then 12 else 51) else 12

/-- machine.go:1020-1027 -/
def st44 (c : UInt8) : Nat :=
  if c == 85 then 52 else if c == 117 then 52 else 0

/-- machine.go:1028-1035 -/
def st45 (c : UInt8) : Nat :=
  if c == 82 then 53 else if c == 114 then 53 else 0

/-- machine.go:1036-1043 -/
def st46 (c : UInt8) : Nat :=
  if c == 78 then 54 else if c == 110 then 54 else 0

/-- machine.go:1044-1048 -/
def st47 (c : UInt8) : Nat :=
  if c == 58 then 55 else 0

/-- machine.go:1049-1053 -/
def st48 (c : UInt8) : Nat :=
  if c == 105 then 57 else 56

/-- machine.go:1054-1058 -/
def st49 (c : UInt8) : Nat :=
  if c == 101 then 58 else 56

/-- machine.go:1059-1063 -/
def st50 (c : UInt8) : Nat :=
  if c == 116 then 59 else 56

/-- machine.go:1064-1068 -/
def st51 (c : UInt8) : Nat :=
  if c == 102 then 60 else 56

/-- machine.go:1069-1073 -/
def st52 (c : UInt8) : Nat :=
  if c == 58 then 61 else 56

/-- machine.go:1074-1078 -/
def st53 (c : UInt8) : Nat :=
  if c == 112 then 62 else 56

/-- machine.go:1079-1083 -/
def st54 (c : UInt8) : Nat :=
  if c == 97 then 63 else 56

/-- machine.go:1084-1088 -/
def st55 (c : UInt8) : Nat :=
  if c == 114 then 64 else 56

/-- machine.go:1089-1093 -/
def st56 (c : UInt8) : Nat :=
  if c == 97 then 65 else 56

/-- machine.go:1094-1098 -/
def st57 (c : UInt8) : Nat :=
  if c == 109 then 66 else 56

/-- machine.go:1099-1103 -/
def st58 (c : UInt8) : Nat :=
  if c == 115 then 67 else 56

/-- machine.go:1104-1108 -/
def st59 (c : UInt8) : Nat :=
  if c == 58 then 68 else 56

/-- machine.go:1109-1113 -/
def st60 (c : UInt8) : Nat :=
  if c == 115 then 69 else 56

/-- machine.go:1114-1118 -/
def st61 (c : UInt8) : Nat :=
  if c == 99 then 70 else 56

/-- machine.go:1119-1123 -/
def st62 (c : UInt8) : Nat :=
  if c == 105 then 71 else 56

/-- machine.go:1124-1128 -/
def st63 (c : UInt8) : Nat :=
  if c == 109 then 72 else 56

/-- machine.go:1129-1133 -/
def st64 (c : UInt8) : Nat :=
  if c == 58 then 73 else 56

/-- machine.go:1134-1143 -/
def st65 (c : UInt8) : Nat :=
  if c == 97 then 75 else if c == 112 then 76 else if c == 115 then 77 else 74

/-- machine.go:1144-1148 -/
def st66 (c : UInt8) : Nat :=
  if c == 112 then 78 else 74

/-- machine.go:1149-1153 -/
def st67 (c : UInt8) : Nat :=
  if c == 105 then 79 else 74

/-- machine.go:1154-1158 -/
def st68 (c : UInt8) : Nat :=
  if c == 58 then 80 else 74

/-- machine.go:1159-1172 -/
def st69 (c : UInt8) : Nat :=
  if c < 65 then (if (48 ≤ c && c ≤ 57) then 82 else 81) else if c > 90 then (if (97 ≤ c && c ≤ 122) then 82 else 81) else 82

/-- machine.go:1190-1220 -/
def st70 (c : UInt8) : Nat :=
  if c == 33 then 84 else if c == 36 then 84 else if c == 37 then 85 else if c == 61 then 84 else if c == 95 then 84 else if c < 48 then (if (39 ≤ c && c ≤ 46) then 84 else 83) else if c > 59 then (if c > 90 then (if (97 ≤ c && c ≤ 122) then 84 else 83) else if c ≥ 64 then 84 else 83) else 84

/-- machine.go:1252-1265 -/
def st71 (c : UInt8) : Nat :=
  if c < 65 then (if (48 ≤ c && c ≤ 57) then 87 else 86) else if c > 90 then (if (97 ≤ c && c ≤ 122) then 87 else 86) else 88

/-- machine.go:1266-1279 -/
def st72 (c : UInt8) : Nat :=
  if c < 65 then (if (48 ≤ c && c ≤ 57) then 89 else 86) else if c > 90 then (if (97 ≤ c && c ≤ 122) then 89 else 86) else 90

/-- machine.go:1311-1315 -/
def st73 (c : UInt8) : Nat :=
  if c == 97 then 91 else 74

/-- machine.go:1316-1320 -/
def st74 (c : UInt8) : Nat :=
  if c == 114 then 92 else 74

/-- machine.go:1321-1325 -/
def st75 (c : UInt8) : Nat :=
  if c == 97 then 93 else 74

/-- machine.go:1326-1330 -/
def st76 (c : UInt8) : Nat :=
  if c == 109 then 79 else 74

/-- machine.go:1331-1335 -/
def st77 (c : UInt8) : Nat :=
  if c == 99 then 94 else 74

/-- machine.go:1336-1340 -/
def st78 (c : UInt8) : Nat :=
  if c == 104 then 95 else 74

/-- machine.go:1341-1345 -/
def st79 (c : UInt8) : Nat :=
  if c == 101 then 96 else 74

/-- machine.go:1346-1350 -/
def st80 (c : UInt8) : Nat :=
  if c == 109 then 97 else 74

/-- machine.go:1351-1355 -/
def st81 (c : UInt8) : Nat :=
  if c == 97 then 98 else 74

/-- machine.go:1356-1360 -/
def st82 (c : UInt8) : Nat :=
  if c == 115 then 79 else 74

/-- machine.go:1361-1368 -/
def st83 (c : UInt8) : Nat :=
  if c == 85 then 99 else if c == 117 then 99 else 0

/-- machine.go:1369-1376 -/
def st84 (c : UInt8) : Nat :=
  if c == 82 then 100 else if c == 114 then 100 else 0

/-- machine.go:1377-1384 -/
def st85 (c : UInt8) : Nat :=
  if c == 78 then 101 else if c == 110 then 101 else 0

/-- machine.go:1385-1389 -/
def st86 (c : UInt8) : Nat :=
  if c == 58 then 102 else 0

/-- machine.go:1390-1409 -/
def st87 (c : UInt8) : Nat :=
  if c == 85 then 105 else if c == 117 then 105 else if c < 65 then (if (48 ≤ c && c ≤ 57) then 104 else 103) else if c > 90 then (if (97 ≤ c && c ≤ 122) then 104 else 103) else 104

/-- machine.go:1410-1426 -/
def st88 (c : UInt8) : Nat :=
  if c == 45 then 107 else if c < 65 then (if (48 ≤ c && c ≤ 57) then 108 else 106) else if c > 90 then (if (97 ≤ c && c ≤ 122) then 108 else 106) else 108

/-- machine.go:1427-1443 -/
def st89 (c : UInt8) : Nat :=
  if c == 45 then 109 else if c < 65 then (if (48 ≤ c && c ≤ 57) then 110 else 106) else if c > 90 then (if (97 ≤ c && c ≤ 122) then 110 else 106) else 110

/-- machine.go:1444-1460 -/
def st90 (c : UInt8) : Nat :=
  if c == 45 then 111 else if c < 65 then (if (48 ≤ c && c ≤ 57) then 112 else 106) else if c > 90 then (if (97 ≤ c && c ≤ 122) then 112 else 106) else 112

/-- machine.go:1461-1477 -/
def st91 (c : UInt8) : Nat :=
  if c == 45 then 113 else if c < 65 then (if (48 ≤ c && c ≤ 57) then 114 else 106) else if c > 90 then (if (97 ≤ c && c ≤ 122) then 114 else 106) else 114

/-- machine.go:1478-1494 -/
def st92 (c : UInt8) : Nat :=
  if c == 45 then 115 else if c < 65 then (if (48 ≤ c && c ≤ 57) then 116 else 106) else if c > 90 then (if (97 ≤ c && c ≤ 122) then 116 else 106) else 116

/-- machine.go:1495-1511 -/
def st93 (c : UInt8) : Nat :=
  if c == 45 then 117 else if c < 65 then (if (48 ≤ c && c ≤ 57) then 118 else 106) else if c > 90 then (if (97 ≤ c && c ≤ 122) then 118 else 106) else 118

/-- machine.go:1512-1528 -/
def st94 (c : UInt8) : Nat :=
  if c == 45 then 119 else if c < 65 then (if (48 ≤ c && c ≤ 57) then 120 else 106) else if c > 90 then (if (97 ≤ c && c ≤ 122) then 120 else 106) else 120

/-- machine.go:1529-1545 -/
def st95 (c : UInt8) : Nat :=
  if c == 45 then 121 else if c < 65 then (if (48 ≤ c && c ≤ 57) then 122 else 106) else if c > 90 then (if (97 ≤ c && c ≤ 122) then 122 else 106) else 122

/-- machine.go:1546-1562 -/
def st96 (c : UInt8) : Nat :=
  if c == 45 then 123 else if c < 65 then (if (48 ≤ c && c ≤ 57) then 124 else 106) else if c > 90 then (if (97 ≤ c && c ≤ 122) then 124 else 106) else 124

/-- machine.go:1563-1579 -/
def st97 (c : UInt8) : Nat :=
  if c == 45 then 125 else if c < 65 then (if (48 ≤ c && c ≤ 57) then 126 else 106) else if c > 90 then (if (97 ≤ c && c ≤ 122) then 126 else 106) else 126

/-- machine.go:1580-1596 -/
def st98 (c : UInt8) : Nat :=
  if c == 45 then 127 else if c < 65 then (if (48 ≤ c && c ≤ 57) then 128 else 106) else if c > 90 then (if (97 ≤ c && c ≤ 122) then 128 else 106) else 128

/-- machine.go:1597-1613 -/
def st99 (c : UInt8) : Nat :=
  if c == 45 then 129 else if c < 65 then (if (48 ≤ c && c ≤ 57) then 130 else 106) else if c > 90 then (if (97 ≤ c && c ≤ 122) then 130 else 106) else 130

/-- machine.go:1614-1630 -/
def st100 (c : UInt8) : Nat :=
  if c == 45 then 131 else if c < 65 then (if (48 ≤ c && c ≤ 57) then 132 else 106) else if c > 90 then (if (97 ≤ c && c ≤ 122) then 132 else 106) else 132

/-- machine.go:1631-1647 -/
def st101 (c : UInt8) : Nat :=
  if c == 45 then 133 else if c < 65 then (if (48 ≤ c && c ≤ 57) then 134 else 106) else if c > 90 then (if (97 ≤ c && c ≤ 122) then 134 else 106) else 134

/-- machine.go:1648-1664 -/
def st102 (c : UInt8) : Nat :=
  if c == 45 then 135 else if c < 65 then (if (48 ≤ c && c ≤ 57) then 136 else 106) else if c > 90 then (if (97 ≤ c && c ≤ 122) then 136 else 106) else 136

/-- machine.go:1665-1681 -/
def st103 (c : UInt8) : Nat :=
  if c == 45 then 137 else if c < 65 then (if (48 ≤ c && c ≤ 57) then 138 else 106) else if c > 90 then (if (97 ≤ c && c ≤ 122) then 138 else 106) else 138

/-- machine.go:1682-1698 -/
def st104 (c : UInt8) : Nat :=
  if c == 45 then 139 else if c < 65 then (if (48 ≤ c && c ≤ 57) then 140 else 106) else if c > 90 then (if (97 ≤ c && c ≤ 122) then 140 else 106) else 140

/-- machine.go:1699-1715 -/
def st105 (c : UInt8) : Nat :=
  if c == 45 then 141 else if c < 65 then (if (48 ≤ c && c ≤ 57) then 142 else 106) else if c > 90 then (if (97 ≤ c && c ≤ 122) then 142 else 106) else 142

/-- machine.go:1716-1732 -/
def st106 (c : UInt8) : Nat :=
  if c == 45 then 143 else if c < 65 then (if (48 ≤ c && c ≤ 57) then 144 else 106) else if c > 90 then (if (97 ≤ c && c ≤ 122) then 144 else 106) else 144

/-- machine.go:1733-1749 -/
def st107 (c : UInt8) : Nat :=
  if c == 45 then 145 else if c < 65 then (if (48 ≤ c && c ≤ 57) then 146 else 106) else if c > 90 then (if (97 ≤ c && c ≤ 122) then 146 else 106) else 146

/-- machine.go:1750-1766 -/
def st108 (c : UInt8) : Nat :=
  if c == 45 then 147 else if c < 65 then (if (48 ≤ c && c ≤ 57) then 148 else 106) else if c > 90 then (if (97 ≤ c && c ≤ 122) then 148 else 106) else 148

/-- machine.go:1767-1783 -/
def st109 (c : UInt8) : Nat :=
  if c == 45 then 149 else if c < 65 then (if (48 ≤ c && c ≤ 57) then 150 else 106) else if c > 90 then (if (97 ≤ c && c ≤ 122) then 150 else 106) else 150

/-- machine.go:1784-1800 -/
def st110 (c : UInt8) : Nat :=
  if c == 45 then 151 else if c < 65 then (if (48 ≤ c && c ≤ 57) then 152 else 106) else if c > 90 then (if (97 ≤ c && c ≤ 122) then 152 else 106) else 152

/-- machine.go:1801-1817 -/
def st111 (c : UInt8) : Nat :=
  if c == 45 then 153 else if c < 65 then (if (48 ≤ c && c ≤ 57) then 154 else 106) else if c > 90 then (if (97 ≤ c && c ≤ 122) then 154 else 106) else 154

/-- machine.go:1818-1834 -/
def st112 (c : UInt8) : Nat :=
  if c == 45 then 155 else if c < 65 then (if (48 ≤ c && c ≤ 57) then 156 else 106) else if c > 90 then (if (97 ≤ c && c ≤ 122) then 156 else 106) else 156

/-- machine.go:1835-1851 -/
def st113 (c : UInt8) : Nat :=
  if c == 45 then 157 else if c < 65 then (if (48 ≤ c && c ≤ 57) then 158 else 106) else if c > 90 then (if (97 ≤ c && c ≤ 122) then 158 else 106) else 158

/-- machine.go:1852-1868 -/
def st114 (c : UInt8) : Nat :=
  if c == 45 then 159 else if c < 65 then (if (48 ≤ c && c ≤ 57) then 160 else 106) else if c > 90 then (if (97 ≤ c && c ≤ 122) then 160 else 106) else 160

/-- machine.go:1869-1885 -/
def st115 (c : UInt8) : Nat :=
  if c == 45 then 161 else if c < 65 then (if (48 ≤ c && c ≤ 57) then 162 else 106) else if c > 90 then (if (97 ≤ c && c ≤ 122) then 162 else 106) else 162

/-- machine.go:1886-1902 -/
def st116 (c : UInt8) : Nat :=
  if c == 45 then 163 else if c < 65 then (if (48 ≤ c && c ≤ 57) then 164 else 106) else if c > 90 then (if (97 ≤ c && c ≤ 122) then 164 else 106) else 164

/-- machine.go:1903-1919 -/
def st117 (c : UInt8) : Nat :=
  if c == 45 then 165 else if c < 65 then (if (48 ≤ c && c ≤ 57) then 166 else 106) else if c > 90 then (if (97 ≤ c && c ≤ 122) then 166 else 106) else 166

/-- machine.go:1920-1933 -/
def st118 (c : UInt8) : Nat :=
  if c < 65 then (if (48 ≤ c && c ≤ 57) then 167 else 106) else if c > 90 then (if (97 ≤ c && c ≤ 122) then 167 else 106) else 167

/-- machine.go:1934-1938 -/
def st119 (c : UInt8) : Nat :=
  if c == 58 then 168 else 106

/-- machine.go:1939-1969 -/
def st120 (c : UInt8) : Nat :=
  if c == 33 then 170 else if c == 37 then 171 else if c == 61 then 170 else if c == 95 then 170 else if c == 126 then 170 else if c < 48 then (if (36 ≤ c && c ≤ 46) then 170 else 169) else if c > 59 then (if c > 90 then (if (97 ≤ c && c ≤ 122) then 170 else 169) else if c ≥ 64 then 170 else 169) else 170

/-- machine.go:2052-2065 -/
def st121 (c : UInt8) : Nat :=
  if c < 65 then (if (48 ≤ c && c ≤ 57) then 173 else 172) else if c > 90 then (if (97 ≤ c && c ≤ 122) then 173 else 172) else 174

/-- machine.go:2066-2079 -/
def st122 (c : UInt8) : Nat :=
  if c < 65 then (if (48 ≤ c && c ≤ 57) then 175 else 172) else if c > 90 then (if (97 ≤ c && c ≤ 122) then 175 else 172) else 176

/-- machine.go:2106-2119 -/
def st123 (c : UInt8) : Nat :=
  if c < 65 then (if (48 ≤ c && c ≤ 57) then 178 else 177) else if c > 90 then (if (97 ≤ c && c ≤ 122) then 178 else 177) else 179

/-- machine.go:2120-2133 -/
def st124 (c : UInt8) : Nat :=
  if c < 65 then (if (48 ≤ c && c ≤ 57) then 180 else 177) else if c > 90 then (if (97 ≤ c && c ≤ 122) then 180 else 177) else 181

/-- machine.go:2164-2171 -/
def st125 (c : UInt8) : Nat :=
  if c == 43 then 182 else if c == 61 then 184 else 183

/-- machine.go:2172-2204 -/
def st126 (c : UInt8) : Nat :=
  if c == 33 then 186 else if c == 37 then 187 else if c == 61 then 186 else if c == 63 then 188 else if c == 95 then 186 else if c == 126 then 186 else if c < 48 then (if (36 ≤ c && c ≤ 46) then 186 else 185) else if c > 59 then (if c > 90 then (if (97 ≤ c && c ≤ 122) then 186 else 185) else if c ≥ 64 then 186 else 185) else 186

/-- machine.go:2235-2248 -/
def st127 (c : UInt8) : Nat :=
  if c < 65 then (if (48 ≤ c && c ≤ 57) then 190 else 189) else if c > 90 then (if (97 ≤ c && c ≤ 122) then 190 else 189) else 191

/-- machine.go:2249-2262 -/
def st128 (c : UInt8) : Nat :=
  if c < 65 then (if (48 ≤ c && c ≤ 57) then 192 else 189) else if c > 90 then (if (97 ≤ c && c ≤ 122) then 192 else 189) else 193

/-- machine.go:2419-2432 -/
def st129 (c : UInt8) : Nat :=
  if c < 65 then (if (48 ≤ c && c ≤ 57) then 195 else 194) else if c > 90 then (if (97 ≤ c && c ≤ 122) then 195 else 194) else 196

/-- machine.go:2433-2446 -/
def st130 (c : UInt8) : Nat :=
  if c < 65 then (if (48 ≤ c && c ≤ 57) then 197 else 194) else if c > 90 then (if (97 ≤ c && c ≤ 122) then 197 else 194) else 198

/-- machine.go:2539-2552 -/
def st131 (c : UInt8) : Nat :=
  if c < 65 then (if (48 ≤ c && c ≤ 57) then 200 else 199) else if c > 90 then (if (97 ≤ c && c ≤ 122) then 200 else 199) else 201

/-- machine.go:2553-2566 -/
def st132 (c : UInt8) : Nat :=
  if c < 65 then (if (48 ≤ c && c ≤ 57) then 197 else 199) else if c > 90 then (if (97 ≤ c && c ≤ 122) then 197 else 199) else 198

/-- machine.go:2567-2571 -/
def st133 (c : UInt8) : Nat :=
  if c == 43 then 202 else 185

/-- machine.go:2607-2614 -/
def st134 (c : UInt8) : Nat :=
  if c == 43 then 202 else if c == 61 then 184 else 185

/-- machine.go:2615-2647 -/
def st135 (c : UInt8) : Nat :=
  if c == 33 then 204 else if c == 37 then 205 else if c == 61 then 204 else if c == 63 then 206 else if c == 95 then 204 else if c == 126 then 204 else if c < 48 then (if (36 ≤ c && c ≤ 46) then 204 else 203) else if c > 59 then (if c > 90 then (if (97 ≤ c && c ≤ 122) then 204 else 203) else if c ≥ 64 then 204 else 203) else 204

/-- machine.go:2648-2652 -/
def st136 (c : UInt8) : Nat :=
  if c == 61 then 207 else 203

/-- machine.go:2688-2704 -/
def st137 (c : UInt8) : Nat :=
  if c == 58 then 168 else if c < 65 then (if (48 ≤ c && c ≤ 57) then 167 else 106) else if c > 90 then (if (97 ≤ c && c ≤ 122) then 167 else 106) else 167

/-- machine.go:2705-2724 -/
def st138 (c : UInt8) : Nat :=
  if c == 45 then 165 else if c == 58 then 168 else if c < 65 then (if (48 ≤ c && c ≤ 57) then 166 else 106) else if c > 90 then (if (97 ≤ c && c ≤ 122) then 166 else 106) else 166

/-- machine.go:2725-2744 -/
def st139 (c : UInt8) : Nat :=
  if c == 45 then 163 else if c == 58 then 168 else if c < 65 then (if (48 ≤ c && c ≤ 57) then 164 else 106) else if c > 90 then (if (97 ≤ c && c ≤ 122) then 164 else 106) else 164

/-- machine.go:2745-2764 -/
def st140 (c : UInt8) : Nat :=
  if c == 45 then 161 else if c == 58 then 168 else if c < 65 then (if (48 ≤ c && c ≤ 57) then 162 else 106) else if c > 90 then (if (97 ≤ c && c ≤ 122) then 162 else 106) else 162

/-- machine.go:2765-2784 -/
def st141 (c : UInt8) : Nat :=
  if c == 45 then 159 else if c == 58 then 168 else if c < 65 then (if (48 ≤ c && c ≤ 57) then 160 else 106) else if c > 90 then (if (97 ≤ c && c ≤ 122) then 160 else 106) else 160

/-- machine.go:2785-2804 -/
def st142 (c : UInt8) : Nat :=
  if c == 45 then 157 else if c == 58 then 168 else if c < 65 then (if (48 ≤ c && c ≤ 57) then 158 else 106) else if c > 90 then (if (97 ≤ c && c ≤ 122) then 158 else 106) else 158

/-- machine.go:2805-2824 -/
def st143 (c : UInt8) : Nat :=
  if c == 45 then 155 else if c == 58 then 168 else if c < 65 then (if (48 ≤ c && c ≤ 57) then 156 else 106) else if c > 90 then (if (97 ≤ c && c ≤ 122) then 156 else 106) else 156

/-- machine.go:2825-2844 -/
def st144 (c : UInt8) : Nat :=
  if c == 45 then 153 else if c == 58 then 168 else if c < 65 then (if (48 ≤ c && c ≤ 57) then 154 else 106) else if c > 90 then (if (97 ≤ c && c ≤ 122) then 154 else 106) else 154

/-- machine.go:2845-2864 -/
def st145 (c : UInt8) : Nat :=
  if c == 45 then 151 else if c == 58 then 168 else if c < 65 then (if (48 ≤ c && c ≤ 57) then 152 else 106) else if c > 90 then (if (97 ≤ c && c ≤ 122) then 152 else 106) else 152

/-- machine.go:2865-2884 -/
def st146 (c : UInt8) : Nat :=
  if c == 45 then 149 else if c == 58 then 168 else if c < 65 then (if (48 ≤ c && c ≤ 57) then 150 else 106) else if c > 90 then (if (97 ≤ c && c ≤ 122) then 150 else 106) else 150

/-- machine.go:2885-2904 -/
def st147 (c : UInt8) : Nat :=
  if c == 45 then 147 else if c == 58 then 168 else if c < 65 then (if (48 ≤ c && c ≤ 57) then 148 else 106) else if c > 90 then (if (97 ≤ c && c ≤ 122) then 148 else 106) else 148

/-- machine.go:2905-2924 -/
def st148 (c : UInt8) : Nat :=
  if c == 45 then 145 else if c == 58 then 168 else if c < 65 then (if (48 ≤ c && c ≤ 57) then 146 else 106) else if c > 90 then (if (97 ≤ c && c ≤ 122) then 146 else 106) else 146

/-- machine.go:2925-2944 -/
def st149 (c : UInt8) : Nat :=
  if c == 45 then 143 else if c == 58 then 168 else if c < 65 then (if (48 ≤ c && c ≤ 57) then 144 else 106) else if c > 90 then (if (97 ≤ c && c ≤ 122) then 144 else 106) else 144

/-- machine.go:2945-2964 -/
def st150 (c : UInt8) : Nat :=
  if c == 45 then 141 else if c == 58 then 168 else if c < 65 then (if (48 ≤ c && c ≤ 57) then 142 else 106) else if c > 90 then (if (97 ≤ c && c ≤ 122) then 142 else 106) else 142

/-- machine.go:2965-2984 -/
def st151 (c : UInt8) : Nat :=
  if c == 45 then 139 else if c == 58 then 168 else if c < 65 then (if (48 ≤ c && c ≤ 57) then 140 else 106) else if c > 90 then (if (97 ≤ c && c ≤ 122) then 140 else 106) else 140

/-- machine.go:2985-3004 -/
def st152 (c : UInt8) : Nat :=
  if c == 45 then 137 else if c == 58 then 168 else if c < 65 then (if (48 ≤ c && c ≤ 57) then 138 else 106) else if c > 90 then (if (97 ≤ c && c ≤ 122) then 138 else 106) else 138

/-- machine.go:3005-3024 -/
def st153 (c : UInt8) : Nat :=
  if c == 45 then 135 else if c == 58 then 168 else if c < 65 then (if (48 ≤ c && c ≤ 57) then 136 else 106) else if c > 90 then (if (97 ≤ c && c ≤ 122) then 136 else 106) else 136

/-- machine.go:3025-3044 -/
def st154 (c : UInt8) : Nat :=
  if c == 45 then 133 else if c == 58 then 168 else if c < 65 then (if (48 ≤ c && c ≤ 57) then 134 else 106) else if c > 90 then (if (97 ≤ c && c ≤ 122) then 134 else 106) else 134

/-- machine.go:3045-3064 -/
def st155 (c : UInt8) : Nat :=
  if c == 45 then 131 else if c == 58 then 168 else if c < 65 then (if (48 ≤ c && c ≤ 57) then 132 else 106) else if c > 90 then (if (97 ≤ c && c ≤ 122) then 132 else 106) else 132

/-- machine.go:3065-3084 -/
def st156 (c : UInt8) : Nat :=
  if c == 45 then 129 else if c == 58 then 168 else if c < 65 then (if (48 ≤ c && c ≤ 57) then 130 else 106) else if c > 90 then (if (97 ≤ c && c ≤ 122) then 130 else 106) else 130

/-- machine.go:3085-3104 -/
def st157 (c : UInt8) : Nat :=
  if c == 45 then 127 else if c == 58 then 168 else if c < 65 then (if (48 ≤ c && c ≤ 57) then 128 else 106) else if c > 90 then (if (97 ≤ c && c ≤ 122) then 128 else 106) else 128

/-- machine.go:3105-3124 -/
def st158 (c : UInt8) : Nat :=
  if c == 45 then 125 else if c == 58 then 168 else if c < 65 then (if (48 ≤ c && c ≤ 57) then 126 else 106) else if c > 90 then (if (97 ≤ c && c ≤ 122) then 126 else 106) else 126

/-- machine.go:3125-3144 -/
def st159 (c : UInt8) : Nat :=
  if c == 45 then 123 else if c == 58 then 168 else if c < 65 then (if (48 ≤ c && c ≤ 57) then 124 else 106) else if c > 90 then (if (97 ≤ c && c ≤ 122) then 124 else 106) else 124

/-- machine.go:3145-3164 -/
def st160 (c : UInt8) : Nat :=
  if c == 45 then 121 else if c == 58 then 168 else if c < 65 then (if (48 ≤ c && c ≤ 57) then 122 else 106) else if c > 90 then (if (97 ≤ c && c ≤ 122) then 122 else 106) else 122

/-- machine.go:3165-3184 -/
def st161 (c : UInt8) : Nat :=
  if c == 45 then 119 else if c == 58 then 168 else if c < 65 then (if (48 ≤ c && c ≤ 57) then 120 else 106) else if c > 90 then (if (97 ≤ c && c ≤ 122) then 120 else 106) else 120

/-- machine.go:3185-3204 -/
def st162 (c : UInt8) : Nat :=
  if c == 45 then 117 else if c == 58 then 168 else if c < 65 then (if (48 ≤ c && c ≤ 57) then 118 else 106) else if c > 90 then (if (97 ≤ c && c ≤ 122) then 118 else 106) else 118

/-- machine.go:3205-3224 -/
def st163 (c : UInt8) : Nat :=
  if c == 45 then 115 else if c == 58 then 168 else if c < 65 then (if (48 ≤ c && c ≤ 57) then 116 else 106) else if c > 90 then (if (97 ≤ c && c ≤ 122) then 116 else 106) else 116

/-- machine.go:3225-3244 -/
def st164 (c : UInt8) : Nat :=
  if c == 45 then 113 else if c == 58 then 168 else if c < 65 then (if (48 ≤ c && c ≤ 57) then 114 else 106) else if c > 90 then (if (97 ≤ c && c ≤ 122) then 114 else 106) else 114

/-- machine.go:3245-3264 -/
def st165 (c : UInt8) : Nat :=
  if c == 45 then 111 else if c == 58 then 168 else if c < 65 then (if (48 ≤ c && c ≤ 57) then 112 else 106) else if c > 90 then (if (97 ≤ c && c ≤ 122) then 112 else 106) else 112

/-- machine.go:3265-3284 -/
def st166 (c : UInt8) : Nat :=
  if c == 45 then 109 else if c == 58 then 168 else if c < 65 then (if (48 ≤ c && c ≤ 57) then 110 else 106) else if c > 90 then (if (97 ≤ c && c ≤ 122) then 110 else 106) else 110

/-- machine.go:3285-3306 -/
def st167 (c : UInt8) : Nat :=
  if c == 45 then 107 else if c == 82 then 208 else if c == 114 then 208 else if c < 65 then (if (48 ≤ c && c ≤ 57) then 108 else 103) else if c > 90 then (if (97 ≤ c && c ≤ 122) then 108 else 103) else 108

/-- machine.go:3307-3330 -/
def st168 (c : UInt8) : Nat :=
  if c == 45 then 109 else if c == 58 then 168 else if c == 78 then 209 else if c == 110 then 209 else if c < 65 then (if (48 ≤ c && c ≤ 57) then 110 else 103) else if c > 90 then (if (97 ≤ c && c ≤ 122) then 110 else 103) else 110

/-- machine.go:3331-3350 -/
def st169 (c : UInt8) : Nat :=
  if c == 45 then 210 else if c == 58 then 168 else if c < 65 then (if (48 ≤ c && c ≤ 57) then 112 else 106) else if c > 90 then (if (97 ≤ c && c ≤ 122) then 112 else 106) else 112

/-- machine.go:3351-3370 -/
def st170 (c : UInt8) : Nat :=
  if c == 45 then 113 else if c == 48 then 211 else if c < 65 then (if (49 ≤ c && c ≤ 57) then 114 else 106) else if c > 90 then (if (97 ≤ c && c ≤ 122) then 211 else 106) else 211

/-- machine.go:3371-3387 -/
def st171 (c : UInt8) : Nat :=
  if c == 45 then 115 else if c < 65 then (if (48 ≤ c && c ≤ 57) then 116 else 106) else if c > 90 then (if (97 ≤ c && c ≤ 122) then 116 else 106) else 116

/-- machine.go:865-895 -/
def st172 (c : UInt8) : Nat :=
  if c == 33 then 212 else if c == 36 then 212 else if c == 37 then 213 else if c == 61 then 212 else if c == 95 then 212 else if c < 48 then (if (39 ≤ c && c ≤ 46) then 212 else 41) else if c > 59 then (if c > 90 then (if (97 ≤ c && c ≤ 122) then 212 else 41) else if c ≥ 64 then 212 else 41) else 212

/-- machine.go:924-954 -/
def st173 (c : UInt8) : Nat :=
  if c == 33 then 212 else if c == 36 then 212 else if c == 37 then 213 else if c == 61 then 212 else if c == 95 then 212 else if c < 48 then (if (39 ≤ c && c ≤ 46) then 212 else 44) else if c > 59 then (if c > 90 then (if (97 ≤ c && c ≤ 122) then 212 else 44) else if c ≥ 64 then 212 else 44) else 212

/-- machine.go:1173-1189 -/
def st174 (c : UInt8) : Nat :=
  if c == 58 then 215 else if c < 65 then (if (48 ≤ c && c ≤ 57) then 214 else 81) else if c > 90 then (if (97 ≤ c && c ≤ 122) then 214 else 81) else 214

/-- machine.go:1221-1251 -/
def st175 (c : UInt8) : Nat :=
  if c == 33 then 216 else if c == 36 then 216 else if c == 37 then 217 else if c == 61 then 216 else if c == 95 then 216 else if c < 48 then (if (39 ≤ c && c ≤ 46) then 216 else 83) else if c > 59 then (if c > 90 then (if (97 ≤ c && c ≤ 122) then 216 else 83) else if c ≥ 64 then 216 else 83) else 216

/-- machine.go:1280-1310 -/
def st176 (c : UInt8) : Nat :=
  if c == 33 then 216 else if c == 36 then 216 else if c == 37 then 217 else if c == 61 then 216 else if c == 95 then 216 else if c < 48 then (if (39 ≤ c && c ≤ 46) then 216 else 86) else if c > 59 then (if c > 90 then (if (97 ≤ c && c ≤ 122) then 216 else 86) else if c ≥ 64 then 216 else 86) else 216

/-- machine.go:1970-1999 -/
def st177 (c : UInt8) : Nat :=
  if c == 33 then 218 else if c == 35 then 219 else if c == 37 then 220 else if c == 61 then 218 else if c == 63 then 221 else if c == 95 then 218 else if c == 126 then 218 else if c < 64 then (if (36 ≤ c && c ≤ 59) then 218 else 169) else if c > 90 then (if (97 ≤ c && c ≤ 122) then 218 else 169) else 218

/-- machine.go:2000-2025 -/
def st178 (c : UInt8) : Nat :=
  if c == 33 then 222 else if c == 37 then 223 else if c == 61 then 222 else if c == 95 then 222 else if c == 126 then 222 else if c < 63 then (if (36 ≤ c && c ≤ 59) then 222 else 183) else if c > 90 then (if (97 ≤ c && c ≤ 122) then 222 else 183) else 222

/-- machine.go:2026-2051 -/
def st179 (c : UInt8) : Nat :=
  if c == 33 then 224 else if c == 37 then 225 else if c == 61 then 224 else if c == 95 then 224 else if c == 126 then 224 else if c < 63 then (if (36 ≤ c && c ≤ 59) then 224 else 183) else if c > 90 then (if (97 ≤ c && c ≤ 122) then 224 else 183) else 224

/-- machine.go:2080-2105 -/
def st180 (c : UInt8) : Nat :=
  if c == 33 then 224 else if c == 37 then 225 else if c == 61 then 224 else if c == 95 then 224 else if c == 126 then 224 else if c < 63 then (if (36 ≤ c && c ≤ 59) then 224 else 172) else if c > 90 then (if (97 ≤ c && c ≤ 122) then 224 else 172) else 224

/-- machine.go:2134-2163 -/
def st181 (c : UInt8) : Nat :=
  if c == 33 then 218 else if c == 35 then 219 else if c == 37 then 220 else if c == 61 then 218 else if c == 63 then 221 else if c == 95 then 218 else if c == 126 then 218 else if c < 64 then (if (36 ≤ c && c ≤ 59) then 218 else 177) else if c > 90 then (if (97 ≤ c && c ≤ 122) then 218 else 177) else 218

/-- machine.go:2205-2234 -/
def st182 (c : UInt8) : Nat :=
  if c == 33 then 226 else if c == 35 then 227 else if c == 37 then 228 else if c == 61 then 226 else if c == 63 then 229 else if c == 95 then 226 else if c == 126 then 226 else if c < 64 then (if (36 ≤ c && c ≤ 59) then 226 else 185) else if c > 90 then (if (97 ≤ c && c ≤ 122) then 226 else 185) else 226

/-- machine.go:2263-2292 -/
def st183 (c : UInt8) : Nat :=
  if c == 33 then 226 else if c == 35 then 227 else if c == 37 then 228 else if c == 61 then 226 else if c == 63 then 229 else if c == 95 then 226 else if c == 126 then 226 else if c < 64 then (if (36 ≤ c && c ≤ 59) then 226 else 189) else if c > 90 then (if (97 ≤ c && c ≤ 122) then 226 else 189) else 226

/-- machine.go:2293-2324 -/
def st184 (c : UInt8) : Nat :=
  if c == 33 then 226 else if c == 35 then 227 else if c == 37 then 228 else if c == 43 then 230 else if c == 61 then 231 else if c == 63 then 229 else if c == 95 then 226 else if c == 126 then 226 else if c < 64 then (if (36 ≤ c && c ≤ 59) then 226 else 185) else if c > 90 then (if (97 ≤ c && c ≤ 122) then 226 else 185) else 226

/-- machine.go:2325-2356 -/
def st185 (c : UInt8) : Nat :=
  if c == 33 then 232 else if c == 35 then 233 else if c == 37 then 234 else if c == 47 then 226 else if c == 61 then 232 else if c == 63 then 235 else if c == 95 then 232 else if c == 126 then 232 else if c < 64 then (if (36 ≤ c && c ≤ 59) then 232 else 185) else if c > 90 then (if (97 ≤ c && c ≤ 122) then 232 else 185) else 232

/-- machine.go:2357-2388 -/
def st186 (c : UInt8) : Nat :=
  if c == 33 then 204 else if c == 35 then 227 else if c == 37 then 237 else if c == 47 then 226 else if c == 61 then 204 else if c == 63 then 229 else if c == 95 then 204 else if c == 126 then 204 else if c < 64 then (if (36 ≤ c && c ≤ 59) then 204 else 236) else if c > 90 then (if (97 ≤ c && c ≤ 122) then 204 else 236) else 204

/-- machine.go:2389-2418 -/
def st187 (c : UInt8) : Nat :=
  if c == 33 then 238 else if c == 35 then 239 else if c == 37 then 240 else if c == 61 then 238 else if c == 63 then 241 else if c == 95 then 238 else if c == 126 then 238 else if c < 64 then (if (36 ≤ c && c ≤ 59) then 238 else 203) else if c > 90 then (if (97 ≤ c && c ≤ 122) then 238 else 203) else 238

/-- machine.go:2447-2476 -/
def st188 (c : UInt8) : Nat :=
  if c == 33 then 238 else if c == 35 then 239 else if c == 37 then 240 else if c == 61 then 238 else if c == 63 then 241 else if c == 95 then 238 else if c == 126 then 238 else if c < 64 then (if (36 ≤ c && c ≤ 59) then 238 else 194) else if c > 90 then (if (97 ≤ c && c ≤ 122) then 238 else 194) else 238

/-- machine.go:2477-2506 -/
def st189 (c : UInt8) : Nat :=
  if c == 33 then 238 else if c == 35 then 239 else if c == 37 then 240 else if c == 61 then 242 else if c == 63 then 241 else if c == 95 then 238 else if c == 126 then 238 else if c < 64 then (if (36 ≤ c && c ≤ 59) then 238 else 203) else if c > 90 then (if (97 ≤ c && c ≤ 122) then 238 else 203) else 238

/-- machine.go:2507-2538 -/
def st190 (c : UInt8) : Nat :=
  if c == 33 then 243 else if c == 35 then 244 else if c == 37 then 245 else if c == 47 then 238 else if c == 61 then 243 else if c == 63 then 246 else if c == 95 then 243 else if c == 126 then 243 else if c < 64 then (if (36 ≤ c && c ≤ 59) then 243 else 203) else if c > 90 then (if (97 ≤ c && c ≤ 122) then 243 else 203) else 243

/-- machine.go:2572-2606 -/
def st191 (c : UInt8) : Nat :=
  if c == 33 then 232 else if c == 35 then 233 else if c == 37 then 234 else if c == 61 then 232 else if c == 63 then 247 else if c == 95 then 232 else if c == 126 then 232 else if c < 48 then (if (36 ≤ c && c ≤ 46) then 232 else 185) else if c > 59 then (if c > 90 then (if (97 ≤ c && c ≤ 122) then 232 else 185) else if c ≥ 64 then 232 else 185) else 232

/-- machine.go:2653-2687 -/
def st192 (c : UInt8) : Nat :=
  if c == 33 then 243 else if c == 35 then 244 else if c == 37 then 245 else if c == 61 then 243 else if c == 63 then 248 else if c == 95 then 243 else if c == 126 then 243 else if c < 48 then (if (36 ≤ c && c ≤ 46) then 243 else 203) else if c > 59 then (if c > 90 then (if (97 ≤ c && c ≤ 122) then 243 else 203) else if c ≥ 64 then 243 else 203) else 243

/-- machine.go:3388-3395 -/
def st193 (c : UInt8) : Nat :=
  if c == 10 then 183 else if c == 13 then 183 else 249

/-- Where `switch m.cs` (machine.go:157-3396) jumps to. -/
inductive Jump where
  | tr (n : Nat)
  | out
  deriving DecidableEq, Repr

/-- `switch m.cs` (machine.go:157-3396): state (other than 0) and byte to `tr` label.
The switch has no default: an unknown state falls through to the first label after it, `tr183`. -/
def trOf (cs : Nat) (c : UInt8) : Nat :=
  match cs with
  | 1 => st1 c
  | 2 => st2 c
  | 3 => st3 c
  | 4 => st4 c
  | 5 => st5 c
  | 6 => st6 c
  | 7 => st7 c
  | 8 => st8 c
  | 9 => st9 c
  | 10 => st10 c
  | 11 => st11 c
  | 12 => st12 c
  | 13 => st13 c
  | 14 => st14 c
  | 15 => st15 c
  | 16 => st16 c
  | 17 => st17 c
  | 18 => st18 c
  | 19 => st19 c
  | 20 => st20 c
  | 21 => st21 c
  | 22 => st22 c
  | 23 => st23 c
  | 24 => st24 c
  | 25 => st25 c
  | 26 => st26 c
  | 27 => st27 c
  | 28 => st28 c
  | 29 => st29 c
  | 30 => st30 c
  | 31 => st31 c
  | 32 => st32 c
  | 33 => st33 c
  | 34 => st34 c
  | 35 => st35 c
  | 36 => st36 c
  | 37 => st37 c
  | 38 => st38 c
  | 39 => st39 c
  | 40 => st40 c
  | 41 => st41 c
  | 42 => st42 c
  | 43 => st43 c
  | 44 => st44 c
  | 45 => st45 c
  | 46 => st46 c
  | 47 => st47 c
  | 48 => st48 c
  | 49 => st49 c
  | 50 => st50 c
  | 51 => st51 c
  | 52 => st52 c
  | 53 => st53 c
  | 54 => st54 c
  | 55 => st55 c
  | 56 => st56 c
  | 57 => st57 c
  | 58 => st58 c
  | 59 => st59 c
  | 60 => st60 c
  | 61 => st61 c
  | 62 => st62 c
  | 63 => st63 c
  | 64 => st64 c
  | 65 => st65 c
  | 66 => st66 c
  | 67 => st67 c
  | 68 => st68 c
  | 69 => st69 c
  | 70 => st70 c
  | 71 => st71 c
  | 72 => st72 c
  | 73 => st73 c
  | 74 => st74 c
  | 75 => st75 c
  | 76 => st76 c
  | 77 => st77 c
  | 78 => st78 c
  | 79 => st79 c
  | 80 => st80 c
  | 81 => st81 c
  | 82 => st82 c
  | 83 => st83 c
  | 84 => st84 c
  | 85 => st85 c
  | 86 => st86 c
  | 87 => st87 c
  | 88 => st88 c
  | 89 => st89 c
  | 90 => st90 c
  | 91 => st91 c
  | 92 => st92 c
  | 93 => st93 c
  | 94 => st94 c
  | 95 => st95 c
  | 96 => st96 c
  | 97 => st97 c
  | 98 => st98 c
  | 99 => st99 c
  | 100 => st100 c
  | 101 => st101 c
  | 102 => st102 c
  | 103 => st103 c
  | 104 => st104 c
  | 105 => st105 c
  | 106 => st106 c
  | 107 => st107 c
  | 108 => st108 c
  | 109 => st109 c
  | 110 => st110 c
  | 111 => st111 c
  | 112 => st112 c
  | 113 => st113 c
  | 114 => st114 c
  | 115 => st115 c
  | 116 => st116 c
  | 117 => st117 c
  | 118 => st118 c
  | 119 => st119 c
  | 120 => st120 c
  | 121 => st121 c
  | 122 => st122 c
  | 123 => st123 c
  | 124 => st124 c
  | 125 => st125 c
  | 126 => st126 c
  | 127 => st127 c
  | 128 => st128 c
  | 129 => st129 c
  | 130 => st130 c
  | 131 => st131 c
  | 132 => st132 c
  | 133 => st133 c
  | 134 => st134 c
  | 135 => st135 c
  | 136 => st136 c
  | 137 => st137 c
  | 138 => st138 c
  | 139 => st139 c
  | 140 => st140 c
  | 141 => st141 c
  | 142 => st142 c
  | 143 => st143 c
  | 144 => st144 c
  | 145 => st145 c
  | 146 => st146 c
  | 147 => st147 c
  | 148 => st148 c
  | 149 => st149 c
  | 150 => st150 c
  | 151 => st151 c
  | 152 => st152 c
  | 153 => st153 c
  | 154 => st154 c
  | 155 => st155 c
  | 156 => st156 c
  | 157 => st157 c
  | 158 => st158 c
  | 159 => st159 c
  | 160 => st160 c
  | 161 => st161 c
  | 162 => st162 c
  | 163 => st163 c
  | 164 => st164 c
  | 165 => st165 c
  | 166 => st166 c
  | 167 => st167 c
  | 168 => st168 c
  | 169 => st169 c
  | 170 => st170 c
  | 171 => st171 c
  | 172 => st172 c
  | 173 => st173 c
  | 174 => st174 c
  | 175 => st175 c
  | 176 => st176 c
  | 177 => st177 c
  | 178 => st178 c
  | 179 => st179 c
  | 180 => st180 c
  | 181 => st181 c
  | 182 => st182 c
  | 183 => st183 c
  | 184 => st184 c
  | 185 => st185 c
  | 186 => st186 c
  | 187 => st187 c
  | 188 => st188 c
  | 189 => st189 c
  | 190 => st190 c
  | 191 => st191 c
  | 192 => st192 c
  | 193 => st193 c
  | _ => 183

/-- The whole `switch m.cs`: state 0 goes to `_out`. -/
def dispatch (cs : Nat) (c : UInt8) : Jump :=
  if cs = 0 then .out else .tr (trOf cs c)

/-- The `tr` labels (machine.go:3398-4147): target state and `f` label (`none` = `goto _again`). -/
def trRow (n : Nat) : Nat × Option Nat :=
  match n with
  | 0 => (0, some 0)  -- machine.go:3401
  | 1 => (2, some 1)  -- machine.go:3467
  | 2 => (3, none)  -- machine.go:3470
  | 3 => (4, none)  -- machine.go:3473
  | 4 => (5, some 2)  -- machine.go:3476
  | 5 => (0, some 3)  -- machine.go:3404
  | 6 => (6, some 4)  -- machine.go:3479
  | 7 => (41, some 1)  -- machine.go:3590
  | 8 => (0, some 5)  -- machine.go:3407
  | 9 => (7, none)  -- machine.go:3482
  | 10 => (38, some 6)  -- machine.go:3575
  | 11 => (8, none)  -- machine.go:3485
  | 12 => (9, none)  -- machine.go:3488
  | 13 => (10, none)  -- machine.go:3491
  | 14 => (11, none)  -- machine.go:3494
  | 15 => (12, none)  -- machine.go:3497
  | 16 => (13, none)  -- machine.go:3500
  | 17 => (14, none)  -- machine.go:3503
  | 18 => (15, none)  -- machine.go:3506
  | 19 => (16, none)  -- machine.go:3509
  | 20 => (17, none)  -- machine.go:3512
  | 21 => (18, none)  -- machine.go:3515
  | 22 => (19, none)  -- machine.go:3518
  | 23 => (20, none)  -- machine.go:3521
  | 24 => (21, none)  -- machine.go:3524
  | 25 => (22, none)  -- machine.go:3527
  | 26 => (23, none)  -- machine.go:3530
  | 27 => (24, none)  -- machine.go:3533
  | 28 => (25, none)  -- machine.go:3536
  | 29 => (26, none)  -- machine.go:3539
  | 30 => (27, none)  -- machine.go:3542
  | 31 => (28, none)  -- machine.go:3545
  | 32 => (29, none)  -- machine.go:3548
  | 33 => (30, none)  -- machine.go:3551
  | 34 => (31, none)  -- machine.go:3554
  | 35 => (32, none)  -- machine.go:3557
  | 36 => (33, none)  -- machine.go:3560
  | 37 => (34, none)  -- machine.go:3563
  | 38 => (35, none)  -- machine.go:3566
  | 39 => (36, none)  -- machine.go:3569
  | 40 => (37, none)  -- machine.go:3572
  | 41 => (0, some 7)  -- machine.go:3410
  | 42 => (172, some 4)  -- machine.go:4022
  | 43 => (39, some 4)  -- machine.go:3581
  | 44 => (0, some 8)  -- machine.go:3413
  | 45 => (40, none)  -- machine.go:3584
  | 46 => (40, some 9)  -- machine.go:3587
  | 47 => (173, none)  -- machine.go:4025
  | 48 => (173, some 9)  -- machine.go:4028
  | 49 => (42, none)  -- machine.go:3593
  | 50 => (43, none)  -- machine.go:3596
  | 51 => (0, some 10)  -- machine.go:3416
  | 52 => (45, some 1)  -- machine.go:3599
  | 53 => (46, none)  -- machine.go:3602
  | 54 => (47, none)  -- machine.go:3605
  | 55 => (48, some 2)  -- machine.go:3608
  | 56 => (0, some 11)  -- machine.go:3419
  | 57 => (49, some 4)  -- machine.go:3611
  | 58 => (50, none)  -- machine.go:3614
  | 59 => (51, none)  -- machine.go:3617
  | 60 => (52, none)  -- machine.go:3620
  | 61 => (53, none)  -- machine.go:3623
  | 62 => (54, none)  -- machine.go:3626
  | 63 => (55, none)  -- machine.go:3629
  | 64 => (56, none)  -- machine.go:3632
  | 65 => (57, none)  -- machine.go:3635
  | 66 => (58, none)  -- machine.go:3638
  | 67 => (59, none)  -- machine.go:3641
  | 68 => (60, none)  -- machine.go:3644
  | 69 => (61, none)  -- machine.go:3647
  | 70 => (62, none)  -- machine.go:3650
  | 71 => (63, none)  -- machine.go:3653
  | 72 => (64, none)  -- machine.go:3656
  | 73 => (65, some 12)  -- machine.go:3659
  | 74 => (0, some 13)  -- machine.go:3422
  | 75 => (66, some 4)  -- machine.go:3662
  | 76 => (73, some 4)  -- machine.go:3689
  | 77 => (77, some 4)  -- machine.go:3701
  | 78 => (67, none)  -- machine.go:3665
  | 79 => (68, none)  -- machine.go:3668
  | 80 => (69, some 14)  -- machine.go:3671
  | 81 => (0, some 15)  -- machine.go:3425
  | 82 => (174, some 16)  -- machine.go:4034
  | 83 => (0, some 17)  -- machine.go:3428
  | 84 => (175, some 18)  -- machine.go:4040
  | 85 => (71, some 18)  -- machine.go:3680
  | 86 => (0, some 19)  -- machine.go:3431
  | 87 => (72, none)  -- machine.go:3683
  | 88 => (72, some 9)  -- machine.go:3686
  | 89 => (176, none)  -- machine.go:4043
  | 90 => (176, some 9)  -- machine.go:4046
  | 91 => (74, none)  -- machine.go:3692
  | 92 => (75, none)  -- machine.go:3695
  | 93 => (76, none)  -- machine.go:3698
  | 94 => (78, none)  -- machine.go:3704
  | 95 => (79, none)  -- machine.go:3707
  | 96 => (80, none)  -- machine.go:3710
  | 97 => (81, none)  -- machine.go:3713
  | 98 => (82, none)  -- machine.go:3716
  | 99 => (84, some 1)  -- machine.go:3719
  | 100 => (85, none)  -- machine.go:3722
  | 101 => (86, none)  -- machine.go:3725
  | 102 => (87, some 2)  -- machine.go:3728
  | 103 => (0, some 20)  -- machine.go:3434
  | 104 => (88, some 4)  -- machine.go:3731
  | 105 => (167, some 1)  -- machine.go:4004
  | 106 => (0, some 21)  -- machine.go:3437
  | 107 => (89, none)  -- machine.go:3734
  | 108 => (166, none)  -- machine.go:4001
  | 109 => (90, none)  -- machine.go:3737
  | 110 => (165, none)  -- machine.go:3998
  | 111 => (91, none)  -- machine.go:3740
  | 112 => (164, none)  -- machine.go:3995
  | 113 => (92, none)  -- machine.go:3743
  | 114 => (163, none)  -- machine.go:3992
  | 115 => (93, none)  -- machine.go:3746
  | 116 => (162, none)  -- machine.go:3989
  | 117 => (94, none)  -- machine.go:3749
  | 118 => (161, none)  -- machine.go:3986
  | 119 => (95, none)  -- machine.go:3752
  | 120 => (160, none)  -- machine.go:3983
  | 121 => (96, none)  -- machine.go:3755
  | 122 => (159, none)  -- machine.go:3980
  | 123 => (97, none)  -- machine.go:3758
  | 124 => (158, none)  -- machine.go:3977
  | 125 => (98, none)  -- machine.go:3761
  | 126 => (157, none)  -- machine.go:3974
  | 127 => (99, none)  -- machine.go:3764
  | 128 => (156, none)  -- machine.go:3971
  | 129 => (100, none)  -- machine.go:3767
  | 130 => (155, none)  -- machine.go:3968
  | 131 => (101, none)  -- machine.go:3770
  | 132 => (154, none)  -- machine.go:3965
  | 133 => (102, none)  -- machine.go:3773
  | 134 => (153, none)  -- machine.go:3962
  | 135 => (103, none)  -- machine.go:3776
  | 136 => (152, none)  -- machine.go:3959
  | 137 => (104, none)  -- machine.go:3779
  | 138 => (151, none)  -- machine.go:3956
  | 139 => (105, none)  -- machine.go:3782
  | 140 => (150, none)  -- machine.go:3953
  | 141 => (106, none)  -- machine.go:3785
  | 142 => (149, none)  -- machine.go:3950
  | 143 => (107, none)  -- machine.go:3788
  | 144 => (148, none)  -- machine.go:3947
  | 145 => (108, none)  -- machine.go:3791
  | 146 => (147, none)  -- machine.go:3944
  | 147 => (109, none)  -- machine.go:3794
  | 148 => (146, none)  -- machine.go:3941
  | 149 => (110, none)  -- machine.go:3797
  | 150 => (145, none)  -- machine.go:3938
  | 151 => (111, none)  -- machine.go:3800
  | 152 => (144, none)  -- machine.go:3935
  | 153 => (112, none)  -- machine.go:3803
  | 154 => (143, none)  -- machine.go:3932
  | 155 => (113, none)  -- machine.go:3806
  | 156 => (142, none)  -- machine.go:3929
  | 157 => (114, none)  -- machine.go:3809
  | 158 => (141, none)  -- machine.go:3926
  | 159 => (115, none)  -- machine.go:3812
  | 160 => (140, none)  -- machine.go:3923
  | 161 => (116, none)  -- machine.go:3815
  | 162 => (139, none)  -- machine.go:3920
  | 163 => (117, none)  -- machine.go:3818
  | 164 => (138, none)  -- machine.go:3917
  | 165 => (118, none)  -- machine.go:3821
  | 166 => (137, none)  -- machine.go:3914
  | 167 => (119, none)  -- machine.go:3824
  | 168 => (120, some 6)  -- machine.go:3827
  | 169 => (0, some 22)  -- machine.go:3440
  | 170 => (177, some 4)  -- machine.go:4052
  | 171 => (123, some 4)  -- machine.go:3845
  | 172 => (0, some 23)  -- machine.go:3443
  | 173 => (122, none)  -- machine.go:3836
  | 174 => (122, some 9)  -- machine.go:3839
  | 175 => (180, none)  -- machine.go:4076
  | 176 => (180, some 9)  -- machine.go:4079
  | 177 => (0, some 24)  -- machine.go:3446
  | 178 => (124, none)  -- machine.go:3848
  | 179 => (124, some 9)  -- machine.go:3851
  | 180 => (181, none)  -- machine.go:4082
  | 181 => (181, some 9)  -- machine.go:4085
  | 182 => (126, none)  -- machine.go:3857
  | 183 => (0, none)  -- machine.go:3398
  | 184 => (135, none)  -- machine.go:3905
  | 185 => (0, some 25)  -- machine.go:3449
  | 186 => (182, some 26)  -- machine.go:4091
  | 187 => (127, some 26)  -- machine.go:3863
  | 188 => (133, some 26)  -- machine.go:3899
  | 189 => (0, some 27)  -- machine.go:3452
  | 190 => (128, none)  -- machine.go:3869
  | 191 => (128, some 9)  -- machine.go:3872
  | 192 => (183, none)  -- machine.go:4097
  | 193 => (183, some 9)  -- machine.go:4100
  | 194 => (0, some 28)  -- machine.go:3455
  | 195 => (130, none)  -- machine.go:3884
  | 196 => (130, some 9)  -- machine.go:3887
  | 197 => (188, none)  -- machine.go:4124
  | 198 => (188, some 9)  -- machine.go:4127
  | 199 => (0, some 29)  -- machine.go:3458
  | 200 => (132, none)  -- machine.go:3893
  | 201 => (132, some 9)  -- machine.go:3896
  | 202 => (191, none)  -- machine.go:4139
  | 203 => (0, some 30)  -- machine.go:3461
  | 204 => (187, some 31)  -- machine.go:4118
  | 205 => (129, some 31)  -- machine.go:3878
  | 206 => (136, some 31)  -- machine.go:3908
  | 207 => (192, none)  -- machine.go:4142
  | 208 => (168, none)  -- machine.go:4007
  | 209 => (169, none)  -- machine.go:4010
  | 210 => (170, some 2)  -- machine.go:4013
  | 211 => (171, none)  -- machine.go:4016
  | 212 => (172, none)  -- machine.go:4019
  | 213 => (39, none)  -- machine.go:3578
  | 214 => (174, none)  -- machine.go:4031
  | 215 => (70, some 35)  -- machine.go:3674
  | 216 => (175, none)  -- machine.go:4037
  | 217 => (71, none)  -- machine.go:3677
  | 218 => (177, none)  -- machine.go:4049
  | 219 => (178, some 38)  -- machine.go:4055
  | 220 => (123, none)  -- machine.go:3842
  | 221 => (125, some 38)  -- machine.go:3854
  | 222 => (179, some 4)  -- machine.go:4073
  | 223 => (121, some 4)  -- machine.go:3833
  | 224 => (179, none)  -- machine.go:4070
  | 225 => (121, none)  -- machine.go:3830
  | 226 => (182, none)  -- machine.go:4088
  | 227 => (178, some 42)  -- machine.go:4058
  | 228 => (127, none)  -- machine.go:3860
  | 229 => (184, some 42)  -- machine.go:4103
  | 230 => (185, none)  -- machine.go:4109
  | 231 => (186, none)  -- machine.go:4112
  | 232 => (182, some 44)  -- machine.go:4094
  | 233 => (178, some 45)  -- machine.go:4061
  | 234 => (127, some 44)  -- machine.go:3866
  | 235 => (184, some 45)  -- machine.go:4106
  | 236 => (0, some 46)  -- machine.go:3464
  | 237 => (131, some 31)  -- machine.go:3890
  | 238 => (187, none)  -- machine.go:4115
  | 239 => (178, some 48)  -- machine.go:4064
  | 240 => (129, none)  -- machine.go:3875
  | 241 => (189, none)  -- machine.go:4130
  | 242 => (190, none)  -- machine.go:4136
  | 243 => (187, some 50)  -- machine.go:4121
  | 244 => (178, some 51)  -- machine.go:4067
  | 245 => (129, some 50)  -- machine.go:3881
  | 246 => (189, some 50)  -- machine.go:4133
  | 247 => (134, some 45)  -- machine.go:3902
  | 248 => (136, some 50)  -- machine.go:3911
  | 249 => (193, none)  -- machine.go:4145
  | _ => (0, none)

/-- The `f` labels: the actions they run before `goto _again`. -/
def fActs (n : Nat) : List Act :=
  match n with
  | 0 => [.errPre]  -- machine.go:4184-4192
  | 1 => [.mark, .throwPreUrnErr]  -- machine.go:4355-4373
  | 2 => [.setPre]  -- machine.go:4160-4164
  | 3 => [.errNid, .errPre]  -- machine.go:4381-4395
  | 4 => [.mark]  -- machine.go:4149-4153
  | 5 => [.errNid]  -- machine.go:4193-4201
  | 6 => [.setNid]  -- machine.go:4165-4169
  | 7 => [.errNss]  -- machine.go:4202-4210
  | 8 => [.errHex, .errNss]  -- machine.go:4411-4428
  | 9 => [.tolower]  -- machine.go:4154-4159
  | 10 => [.errNid, .errUrn]  -- machine.go:4396-4410
  | 11 => [.errScimNid]  -- machine.go:4223-4231
  | 12 => [.setNid, .createScim]  -- machine.go:4374-4380
  | 13 => [.errScimType]  -- machine.go:4232-4240
  | 14 => [.setScimType]  -- machine.go:4263-4267
  | 15 => [.errScimName]  -- machine.go:4241-4249
  | 16 => [.markScim]  -- machine.go:4268-4272
  | 17 => [.errScimOther]  -- machine.go:4250-4262
  | 18 => [.markScim]  -- machine.go:4278-4282
  | 19 => [.errHex, .errScimOther]  -- machine.go:4429-4450
  | 20 => [.errNid8141, .errPre]  -- machine.go:4505-4519
  | 21 => [.errNid8141]  -- machine.go:4292-4300
  | 22 => [.errNss8141]  -- machine.go:4283-4291
  | 23 => [.errHex]  -- machine.go:4211-4222
  | 24 => [.errHex, .errNss8141]  -- machine.go:4451-4468
  | 25 => [.errMalformedR]  -- machine.go:4337-4345
  | 26 => [.markRStart, .mark]  -- machine.go:4520-4534
  | 27 => [.errHex, .errMalformedR]  -- machine.go:4469-4486
  | 28 => [.errHex, .errMalformedQ]  -- machine.go:4487-4504
  | 29 => [.errHex, .errMalformedR, .errMalformedQ]  -- machine.go:4595-4619
  | 30 => [.errMalformedQ]  -- machine.go:4346-4354
  | 31 => [.markQStart, .mark]  -- machine.go:4550-4564
  | 35 => [.setScimName]  -- machine.go:4273-4277
  | 38 => [.setNss]  -- machine.go:4170-4183
  | 42 => [.setRComponent]  -- machine.go:4301-4305
  | 44 => [.markRStart]  -- machine.go:4311-4323
  | 45 => [.markRStart, .setRComponent]  -- machine.go:4535-4549
  | 46 => [.errMalformedR, .errMalformedQ]  -- machine.go:4580-4594
  | 48 => [.setQComponent]  -- machine.go:4306-4310
  | 50 => [.markQStart]  -- machine.go:4324-4336
  | 51 => [.markQStart, .setQComponent]  -- machine.go:4565-4579
  | _ => []

/-- The cases of `switch _eofActions[m.cs]`. -/
def eofActs (n : Nat) : List Act :=
  match n with
  | 1 => [.errPre]  -- machine.go:4642-4649
  | 4 => [.errNid, .errPre]  -- machine.go:4775-4788
  | 6 => [.errNid]  -- machine.go:4650-4657
  | 8 => [.errNss]  -- machine.go:4658-4665
  | 9 => [.errHex, .errNss]  -- machine.go:4803-4819
  | 11 => [.errNid, .errUrn]  -- machine.go:4789-4802
  | 12 => [.errScimNid]  -- machine.go:4677-4684
  | 14 => [.errScimType]  -- machine.go:4685-4692
  | 16 => [.errScimName]  -- machine.go:4693-4700
  | 18 => [.errScimOther]  -- machine.go:4701-4712
  | 20 => [.errHex, .errScimOther]  -- machine.go:4820-4840
  | 21 => [.errNid8141, .errPre]  -- machine.go:4892-4905
  | 22 => [.errNid8141]  -- machine.go:4721-4728
  | 23 => [.errNss8141]  -- machine.go:4713-4720
  | 24 => [.errHex]  -- machine.go:4666-4676
  | 25 => [.errHex, .errNss8141]  -- machine.go:4841-4857
  | 26 => [.errMalformedR]  -- machine.go:4729-4736
  | 28 => [.errHex, .errMalformedR]  -- machine.go:4858-4874
  | 29 => [.errHex, .errMalformedQ]  -- machine.go:4875-4891
  | 30 => [.errHex, .errMalformedR, .errMalformedQ]  -- machine.go:4932-4954
  | 31 => [.errMalformedQ]  -- machine.go:4737-4744
  | 34 => [.setNss, .baseType]  -- machine.go:4745-4759
  | 35 => [.setScimName, .setNss, .scimType]  -- machine.go:4955-4971
  | 37 => [.setScimOther, .setNss, .scimType]  -- machine.go:4972-4988
  | 38 => [.setNss, .rfc8141Type]  -- machine.go:4760-4774
  | 40 => [.mark, .setFComponent, .rfc8141Type]  -- machine.go:4924-4931
  | 41 => [.setFComponent, .rfc8141Type]  -- machine.go:4918-4923
  | 42 => [.setRComponent, .rfc8141Type]  -- machine.go:4906-4911
  | 44 => [.markRStart, .setRComponent, .rfc8141Type]  -- machine.go:4989-5004
  | 48 => [.setQComponent, .rfc8141Type]  -- machine.go:4912-4917
  | 50 => [.markQStart, .setQComponent, .rfc8141Type]  -- machine.go:5005-5019
  | _ => []

end Urn.Tables
