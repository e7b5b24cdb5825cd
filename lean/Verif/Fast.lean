import Verif.Tables
/-!
GENERATED by tools/fast.py from Tables.lean - do not edit by hand.

The transition functions as binary decision trees, and the proof that they are the functions of
Tables.lean.  Only used to speed up the proofs of the table lemmas.
-/
namespace Urn.Tables

/-- `trRow` as a tree. -/
def trRowF (n : Nat) : Nat × Option Nat :=
  bif Nat.blt n 250 then (bif Nat.blt n 125 then (bif Nat.blt n 62 then (bif Nat.blt n 31 then (bif Nat.blt n 15 then (bif Nat.blt n 7 then (bif Nat.blt n 3 then (bif Nat.blt n 1 then (0, some 0) else (bif Nat.blt n 2 then (2, some 1) else (3, none))) else (bif Nat.blt n 5 then (bif Nat.blt n 4 then (4, none) else (5, some 2)) else (bif Nat.blt n 6 then (0, some 3) else (6, some 4)))) else (bif Nat.blt n 11 then (bif Nat.blt n 9 then (bif Nat.blt n 8 then (41, some 1) else (0, some 5)) else (bif Nat.blt n 10 then (7, none) else (38, some 6))) else (bif Nat.blt n 13 then (bif Nat.blt n 12 then (8, none) else (9, none)) else (bif Nat.blt n 14 then (10, none) else (11, none))))) else (bif Nat.blt n 23 then (bif Nat.blt n 19 then (bif Nat.blt n 17 then (bif Nat.blt n 16 then (12, none) else (13, none)) else (bif Nat.blt n 18 then (14, none) else (15, none))) else (bif Nat.blt n 21 then (bif Nat.blt n 20 then (16, none) else (17, none)) else (bif Nat.blt n 22 then (18, none) else (19, none)))) else (bif Nat.blt n 27 then (bif Nat.blt n 25 then (bif Nat.blt n 24 then (20, none) else (21, none)) else (bif Nat.blt n 26 then (22, none) else (23, none))) else (bif Nat.blt n 29 then (bif Nat.blt n 28 then (24, none) else (25, none)) else (bif Nat.blt n 30 then (26, none) else (27, none)))))) else (bif Nat.blt n 46 then (bif Nat.blt n 38 then (bif Nat.blt n 34 then (bif Nat.blt n 32 then (28, none) else (bif Nat.blt n 33 then (29, none) else (30, none))) else (bif Nat.blt n 36 then (bif Nat.blt n 35 then (31, none) else (32, none)) else (bif Nat.blt n 37 then (33, none) else (34, none)))) else (bif Nat.blt n 42 then (bif Nat.blt n 40 then (bif Nat.blt n 39 then (35, none) else (36, none)) else (bif Nat.blt n 41 then (37, none) else (0, some 7))) else (bif Nat.blt n 44 then (bif Nat.blt n 43 then (172, some 4) else (39, some 4)) else (bif Nat.blt n 45 then (0, some 8) else (40, none))))) else (bif Nat.blt n 54 then (bif Nat.blt n 50 then (bif Nat.blt n 48 then (bif Nat.blt n 47 then (40, some 9) else (173, none)) else (bif Nat.blt n 49 then (173, some 9) else (42, none))) else (bif Nat.blt n 52 then (bif Nat.blt n 51 then (43, none) else (0, some 10)) else (bif Nat.blt n 53 then (45, some 1) else (46, none)))) else (bif Nat.blt n 58 then (bif Nat.blt n 56 then (bif Nat.blt n 55 then (47, none) else (48, some 2)) else (bif Nat.blt n 57 then (0, some 11) else (49, some 4))) else (bif Nat.blt n 60 then (bif Nat.blt n 59 then (50, none) else (51, none)) else (bif Nat.blt n 61 then (52, none) else (53, none))))))) else (bif Nat.blt n 93 then (bif Nat.blt n 77 then (bif Nat.blt n 69 then (bif Nat.blt n 65 then (bif Nat.blt n 63 then (54, none) else (bif Nat.blt n 64 then (55, none) else (56, none))) else (bif Nat.blt n 67 then (bif Nat.blt n 66 then (57, none) else (58, none)) else (bif Nat.blt n 68 then (59, none) else (60, none)))) else (bif Nat.blt n 73 then (bif Nat.blt n 71 then (bif Nat.blt n 70 then (61, none) else (62, none)) else (bif Nat.blt n 72 then (63, none) else (64, none))) else (bif Nat.blt n 75 then (bif Nat.blt n 74 then (65, some 12) else (0, some 13)) else (bif Nat.blt n 76 then (66, some 4) else (73, some 4))))) else (bif Nat.blt n 85 then (bif Nat.blt n 81 then (bif Nat.blt n 79 then (bif Nat.blt n 78 then (77, some 4) else (67, none)) else (bif Nat.blt n 80 then (68, none) else (69, some 14))) else (bif Nat.blt n 83 then (bif Nat.blt n 82 then (0, some 15) else (174, some 16)) else (bif Nat.blt n 84 then (0, some 17) else (175, some 18)))) else (bif Nat.blt n 89 then (bif Nat.blt n 87 then (bif Nat.blt n 86 then (71, some 18) else (0, some 19)) else (bif Nat.blt n 88 then (72, none) else (72, some 9))) else (bif Nat.blt n 91 then (bif Nat.blt n 90 then (176, none) else (176, some 9)) else (bif Nat.blt n 92 then (74, none) else (75, none)))))) else (bif Nat.blt n 109 then (bif Nat.blt n 101 then (bif Nat.blt n 97 then (bif Nat.blt n 95 then (bif Nat.blt n 94 then (76, none) else (78, none)) else (bif Nat.blt n 96 then (79, none) else (80, none))) else (bif Nat.blt n 99 then (bif Nat.blt n 98 then (81, none) else (82, none)) else (bif Nat.blt n 100 then (84, some 1) else (85, none)))) else (bif Nat.blt n 105 then (bif Nat.blt n 103 then (bif Nat.blt n 102 then (86, none) else (87, some 2)) else (bif Nat.blt n 104 then (0, some 20) else (88, some 4))) else (bif Nat.blt n 107 then (bif Nat.blt n 106 then (167, some 1) else (0, some 21)) else (bif Nat.blt n 108 then (89, none) else (166, none))))) else (bif Nat.blt n 117 then (bif Nat.blt n 113 then (bif Nat.blt n 111 then (bif Nat.blt n 110 then (90, none) else (165, none)) else (bif Nat.blt n 112 then (91, none) else (164, none))) else (bif Nat.blt n 115 then (bif Nat.blt n 114 then (92, none) else (163, none)) else (bif Nat.blt n 116 then (93, none) else (162, none)))) else (bif Nat.blt n 121 then (bif Nat.blt n 119 then (bif Nat.blt n 118 then (94, none) else (161, none)) else (bif Nat.blt n 120 then (95, none) else (160, none))) else (bif Nat.blt n 123 then (bif Nat.blt n 122 then (96, none) else (159, none)) else (bif Nat.blt n 124 then (97, none) else (158, none)))))))) else (bif Nat.blt n 187 then (bif Nat.blt n 156 then (bif Nat.blt n 140 then (bif Nat.blt n 132 then (bif Nat.blt n 128 then (bif Nat.blt n 126 then (98, none) else (bif Nat.blt n 127 then (157, none) else (99, none))) else (bif Nat.blt n 130 then (bif Nat.blt n 129 then (156, none) else (100, none)) else (bif Nat.blt n 131 then (155, none) else (101, none)))) else (bif Nat.blt n 136 then (bif Nat.blt n 134 then (bif Nat.blt n 133 then (154, none) else (102, none)) else (bif Nat.blt n 135 then (153, none) else (103, none))) else (bif Nat.blt n 138 then (bif Nat.blt n 137 then (152, none) else (104, none)) else (bif Nat.blt n 139 then (151, none) else (105, none))))) else (bif Nat.blt n 148 then (bif Nat.blt n 144 then (bif Nat.blt n 142 then (bif Nat.blt n 141 then (150, none) else (106, none)) else (bif Nat.blt n 143 then (149, none) else (107, none))) else (bif Nat.blt n 146 then (bif Nat.blt n 145 then (148, none) else (108, none)) else (bif Nat.blt n 147 then (147, none) else (109, none)))) else (bif Nat.blt n 152 then (bif Nat.blt n 150 then (bif Nat.blt n 149 then (146, none) else (110, none)) else (bif Nat.blt n 151 then (145, none) else (111, none))) else (bif Nat.blt n 154 then (bif Nat.blt n 153 then (144, none) else (112, none)) else (bif Nat.blt n 155 then (143, none) else (113, none)))))) else (bif Nat.blt n 171 then (bif Nat.blt n 163 then (bif Nat.blt n 159 then (bif Nat.blt n 157 then (142, none) else (bif Nat.blt n 158 then (114, none) else (141, none))) else (bif Nat.blt n 161 then (bif Nat.blt n 160 then (115, none) else (140, none)) else (bif Nat.blt n 162 then (116, none) else (139, none)))) else (bif Nat.blt n 167 then (bif Nat.blt n 165 then (bif Nat.blt n 164 then (117, none) else (138, none)) else (bif Nat.blt n 166 then (118, none) else (137, none))) else (bif Nat.blt n 169 then (bif Nat.blt n 168 then (119, none) else (120, some 6)) else (bif Nat.blt n 170 then (0, some 22) else (177, some 4))))) else (bif Nat.blt n 179 then (bif Nat.blt n 175 then (bif Nat.blt n 173 then (bif Nat.blt n 172 then (123, some 4) else (0, some 23)) else (bif Nat.blt n 174 then (122, none) else (122, some 9))) else (bif Nat.blt n 177 then (bif Nat.blt n 176 then (180, none) else (180, some 9)) else (bif Nat.blt n 178 then (0, some 24) else (124, none)))) else (bif Nat.blt n 183 then (bif Nat.blt n 181 then (bif Nat.blt n 180 then (124, some 9) else (181, none)) else (bif Nat.blt n 182 then (181, some 9) else (126, none))) else (bif Nat.blt n 185 then (bif Nat.blt n 184 then (0, none) else (135, none)) else (bif Nat.blt n 186 then (0, some 25) else (182, some 26))))))) else (bif Nat.blt n 218 then (bif Nat.blt n 202 then (bif Nat.blt n 194 then (bif Nat.blt n 190 then (bif Nat.blt n 188 then (127, some 26) else (bif Nat.blt n 189 then (133, some 26) else (0, some 27))) else (bif Nat.blt n 192 then (bif Nat.blt n 191 then (128, none) else (128, some 9)) else (bif Nat.blt n 193 then (183, none) else (183, some 9)))) else (bif Nat.blt n 198 then (bif Nat.blt n 196 then (bif Nat.blt n 195 then (0, some 28) else (130, none)) else (bif Nat.blt n 197 then (130, some 9) else (188, none))) else (bif Nat.blt n 200 then (bif Nat.blt n 199 then (188, some 9) else (0, some 29)) else (bif Nat.blt n 201 then (132, none) else (132, some 9))))) else (bif Nat.blt n 210 then (bif Nat.blt n 206 then (bif Nat.blt n 204 then (bif Nat.blt n 203 then (191, none) else (0, some 30)) else (bif Nat.blt n 205 then (187, some 31) else (129, some 31))) else (bif Nat.blt n 208 then (bif Nat.blt n 207 then (136, some 31) else (192, none)) else (bif Nat.blt n 209 then (168, none) else (169, none)))) else (bif Nat.blt n 214 then (bif Nat.blt n 212 then (bif Nat.blt n 211 then (170, some 2) else (171, none)) else (bif Nat.blt n 213 then (172, none) else (39, none))) else (bif Nat.blt n 216 then (bif Nat.blt n 215 then (174, none) else (70, some 35)) else (bif Nat.blt n 217 then (175, none) else (71, none)))))) else (bif Nat.blt n 234 then (bif Nat.blt n 226 then (bif Nat.blt n 222 then (bif Nat.blt n 220 then (bif Nat.blt n 219 then (177, none) else (178, some 38)) else (bif Nat.blt n 221 then (123, none) else (125, some 38))) else (bif Nat.blt n 224 then (bif Nat.blt n 223 then (179, some 4) else (121, some 4)) else (bif Nat.blt n 225 then (179, none) else (121, none)))) else (bif Nat.blt n 230 then (bif Nat.blt n 228 then (bif Nat.blt n 227 then (182, none) else (178, some 42)) else (bif Nat.blt n 229 then (127, none) else (184, some 42))) else (bif Nat.blt n 232 then (bif Nat.blt n 231 then (185, none) else (186, none)) else (bif Nat.blt n 233 then (182, some 44) else (178, some 45))))) else (bif Nat.blt n 242 then (bif Nat.blt n 238 then (bif Nat.blt n 236 then (bif Nat.blt n 235 then (127, some 44) else (184, some 45)) else (bif Nat.blt n 237 then (0, some 46) else (131, some 31))) else (bif Nat.blt n 240 then (bif Nat.blt n 239 then (187, none) else (178, some 48)) else (bif Nat.blt n 241 then (129, none) else (189, none)))) else (bif Nat.blt n 246 then (bif Nat.blt n 244 then (bif Nat.blt n 243 then (190, none) else (187, some 50)) else (bif Nat.blt n 245 then (178, some 51) else (129, some 50))) else (bif Nat.blt n 248 then (bif Nat.blt n 247 then (189, some 50) else (134, some 45)) else (bif Nat.blt n 249 then (136, some 50) else (193, none))))))))) else trRow n

/-- `fActs` as a tree. -/
def fActsF (n : Nat) : List Act :=
  bif Nat.blt n 52 then (bif Nat.blt n 26 then (bif Nat.blt n 13 then (bif Nat.blt n 6 then (bif Nat.blt n 3 then (bif Nat.blt n 1 then [.errPre] else (bif Nat.blt n 2 then [.mark, .throwPreUrnErr] else [.setPre])) else (bif Nat.blt n 4 then [.errNid, .errPre] else (bif Nat.blt n 5 then [.mark] else [.errNid]))) else (bif Nat.blt n 9 then (bif Nat.blt n 7 then [.setNid] else (bif Nat.blt n 8 then [.errNss] else [.errHex, .errNss])) else (bif Nat.blt n 11 then (bif Nat.blt n 10 then [.tolower] else [.errNid, .errUrn]) else (bif Nat.blt n 12 then [.errScimNid] else [.setNid, .createScim])))) else (bif Nat.blt n 19 then (bif Nat.blt n 16 then (bif Nat.blt n 14 then [.errScimType] else (bif Nat.blt n 15 then [.setScimType] else [.errScimName])) else (bif Nat.blt n 17 then [.markScim] else (bif Nat.blt n 18 then [.errScimOther] else [.markScim]))) else (bif Nat.blt n 22 then (bif Nat.blt n 20 then [.errHex, .errScimOther] else (bif Nat.blt n 21 then [.errNid8141, .errPre] else [.errNid8141])) else (bif Nat.blt n 24 then (bif Nat.blt n 23 then [.errNss8141] else [.errHex]) else (bif Nat.blt n 25 then [.errHex, .errNss8141] else [.errMalformedR]))))) else (bif Nat.blt n 39 then (bif Nat.blt n 32 then (bif Nat.blt n 29 then (bif Nat.blt n 27 then [.markRStart, .mark] else (bif Nat.blt n 28 then [.errHex, .errMalformedR] else [.errHex, .errMalformedQ])) else (bif Nat.blt n 30 then [.errHex, .errMalformedR, .errMalformedQ] else (bif Nat.blt n 31 then [.errMalformedQ] else [.markQStart, .mark]))) else (bif Nat.blt n 35 then (bif Nat.blt n 33 then [] else (bif Nat.blt n 34 then [] else [])) else (bif Nat.blt n 37 then (bif Nat.blt n 36 then [.setScimName] else []) else (bif Nat.blt n 38 then [] else [.setNss])))) else (bif Nat.blt n 45 then (bif Nat.blt n 42 then (bif Nat.blt n 40 then [] else (bif Nat.blt n 41 then [] else [])) else (bif Nat.blt n 43 then [.setRComponent] else (bif Nat.blt n 44 then [] else [.markRStart]))) else (bif Nat.blt n 48 then (bif Nat.blt n 46 then [.markRStart, .setRComponent] else (bif Nat.blt n 47 then [.errMalformedR, .errMalformedQ] else [])) else (bif Nat.blt n 50 then (bif Nat.blt n 49 then [.setQComponent] else []) else (bif Nat.blt n 51 then [.markQStart] else [.markQStart, .setQComponent])))))) else fActs n

/-- `trOf` as a tree. -/
def trOfF (cs : Nat) (c : UInt8) : Nat :=
  bif Nat.blt cs 194 then (bif Nat.blt cs 97 then (bif Nat.blt cs 48 then (bif Nat.blt cs 24 then (bif Nat.blt cs 12 then (bif Nat.blt cs 6 then (bif Nat.blt cs 3 then (bif Nat.blt cs 1 then 183 else (bif Nat.blt cs 2 then st1 c else st2 c)) else (bif Nat.blt cs 4 then st3 c else (bif Nat.blt cs 5 then st4 c else st5 c))) else (bif Nat.blt cs 9 then (bif Nat.blt cs 7 then st6 c else (bif Nat.blt cs 8 then st7 c else st8 c)) else (bif Nat.blt cs 10 then st9 c else (bif Nat.blt cs 11 then st10 c else st11 c)))) else (bif Nat.blt cs 18 then (bif Nat.blt cs 15 then (bif Nat.blt cs 13 then st12 c else (bif Nat.blt cs 14 then st13 c else st14 c)) else (bif Nat.blt cs 16 then st15 c else (bif Nat.blt cs 17 then st16 c else st17 c))) else (bif Nat.blt cs 21 then (bif Nat.blt cs 19 then st18 c else (bif Nat.blt cs 20 then st19 c else st20 c)) else (bif Nat.blt cs 22 then st21 c else (bif Nat.blt cs 23 then st22 c else st23 c))))) else (bif Nat.blt cs 36 then (bif Nat.blt cs 30 then (bif Nat.blt cs 27 then (bif Nat.blt cs 25 then st24 c else (bif Nat.blt cs 26 then st25 c else st26 c)) else (bif Nat.blt cs 28 then st27 c else (bif Nat.blt cs 29 then st28 c else st29 c))) else (bif Nat.blt cs 33 then (bif Nat.blt cs 31 then st30 c else (bif Nat.blt cs 32 then st31 c else st32 c)) else (bif Nat.blt cs 34 then st33 c else (bif Nat.blt cs 35 then st34 c else st35 c)))) else (bif Nat.blt cs 42 then (bif Nat.blt cs 39 then (bif Nat.blt cs 37 then st36 c else (bif Nat.blt cs 38 then st37 c else st38 c)) else (bif Nat.blt cs 40 then st39 c else (bif Nat.blt cs 41 then st40 c else st41 c))) else (bif Nat.blt cs 45 then (bif Nat.blt cs 43 then st42 c else (bif Nat.blt cs 44 then st43 c else st44 c)) else (bif Nat.blt cs 46 then st45 c else (bif Nat.blt cs 47 then st46 c else st47 c)))))) else (bif Nat.blt cs 72 then (bif Nat.blt cs 60 then (bif Nat.blt cs 54 then (bif Nat.blt cs 51 then (bif Nat.blt cs 49 then st48 c else (bif Nat.blt cs 50 then st49 c else st50 c)) else (bif Nat.blt cs 52 then st51 c else (bif Nat.blt cs 53 then st52 c else st53 c))) else (bif Nat.blt cs 57 then (bif Nat.blt cs 55 then st54 c else (bif Nat.blt cs 56 then st55 c else st56 c)) else (bif Nat.blt cs 58 then st57 c else (bif Nat.blt cs 59 then st58 c else st59 c)))) else (bif Nat.blt cs 66 then (bif Nat.blt cs 63 then (bif Nat.blt cs 61 then st60 c else (bif Nat.blt cs 62 then st61 c else st62 c)) else (bif Nat.blt cs 64 then st63 c else (bif Nat.blt cs 65 then st64 c else st65 c))) else (bif Nat.blt cs 69 then (bif Nat.blt cs 67 then st66 c else (bif Nat.blt cs 68 then st67 c else st68 c)) else (bif Nat.blt cs 70 then st69 c else (bif Nat.blt cs 71 then st70 c else st71 c))))) else (bif Nat.blt cs 84 then (bif Nat.blt cs 78 then (bif Nat.blt cs 75 then (bif Nat.blt cs 73 then st72 c else (bif Nat.blt cs 74 then st73 c else st74 c)) else (bif Nat.blt cs 76 then st75 c else (bif Nat.blt cs 77 then st76 c else st77 c))) else (bif Nat.blt cs 81 then (bif Nat.blt cs 79 then st78 c else (bif Nat.blt cs 80 then st79 c else st80 c)) else (bif Nat.blt cs 82 then st81 c else (bif Nat.blt cs 83 then st82 c else st83 c)))) else (bif Nat.blt cs 90 then (bif Nat.blt cs 87 then (bif Nat.blt cs 85 then st84 c else (bif Nat.blt cs 86 then st85 c else st86 c)) else (bif Nat.blt cs 88 then st87 c else (bif Nat.blt cs 89 then st88 c else st89 c))) else (bif Nat.blt cs 93 then (bif Nat.blt cs 91 then st90 c else (bif Nat.blt cs 92 then st91 c else st92 c)) else (bif Nat.blt cs 95 then (bif Nat.blt cs 94 then st93 c else st94 c) else (bif Nat.blt cs 96 then st95 c else st96 c))))))) else (bif Nat.blt cs 145 then (bif Nat.blt cs 121 then (bif Nat.blt cs 109 then (bif Nat.blt cs 103 then (bif Nat.blt cs 100 then (bif Nat.blt cs 98 then st97 c else (bif Nat.blt cs 99 then st98 c else st99 c)) else (bif Nat.blt cs 101 then st100 c else (bif Nat.blt cs 102 then st101 c else st102 c))) else (bif Nat.blt cs 106 then (bif Nat.blt cs 104 then st103 c else (bif Nat.blt cs 105 then st104 c else st105 c)) else (bif Nat.blt cs 107 then st106 c else (bif Nat.blt cs 108 then st107 c else st108 c)))) else (bif Nat.blt cs 115 then (bif Nat.blt cs 112 then (bif Nat.blt cs 110 then st109 c else (bif Nat.blt cs 111 then st110 c else st111 c)) else (bif Nat.blt cs 113 then st112 c else (bif Nat.blt cs 114 then st113 c else st114 c))) else (bif Nat.blt cs 118 then (bif Nat.blt cs 116 then st115 c else (bif Nat.blt cs 117 then st116 c else st117 c)) else (bif Nat.blt cs 119 then st118 c else (bif Nat.blt cs 120 then st119 c else st120 c))))) else (bif Nat.blt cs 133 then (bif Nat.blt cs 127 then (bif Nat.blt cs 124 then (bif Nat.blt cs 122 then st121 c else (bif Nat.blt cs 123 then st122 c else st123 c)) else (bif Nat.blt cs 125 then st124 c else (bif Nat.blt cs 126 then st125 c else st126 c))) else (bif Nat.blt cs 130 then (bif Nat.blt cs 128 then st127 c else (bif Nat.blt cs 129 then st128 c else st129 c)) else (bif Nat.blt cs 131 then st130 c else (bif Nat.blt cs 132 then st131 c else st132 c)))) else (bif Nat.blt cs 139 then (bif Nat.blt cs 136 then (bif Nat.blt cs 134 then st133 c else (bif Nat.blt cs 135 then st134 c else st135 c)) else (bif Nat.blt cs 137 then st136 c else (bif Nat.blt cs 138 then st137 c else st138 c))) else (bif Nat.blt cs 142 then (bif Nat.blt cs 140 then st139 c else (bif Nat.blt cs 141 then st140 c else st141 c)) else (bif Nat.blt cs 143 then st142 c else (bif Nat.blt cs 144 then st143 c else st144 c)))))) else (bif Nat.blt cs 169 then (bif Nat.blt cs 157 then (bif Nat.blt cs 151 then (bif Nat.blt cs 148 then (bif Nat.blt cs 146 then st145 c else (bif Nat.blt cs 147 then st146 c else st147 c)) else (bif Nat.blt cs 149 then st148 c else (bif Nat.blt cs 150 then st149 c else st150 c))) else (bif Nat.blt cs 154 then (bif Nat.blt cs 152 then st151 c else (bif Nat.blt cs 153 then st152 c else st153 c)) else (bif Nat.blt cs 155 then st154 c else (bif Nat.blt cs 156 then st155 c else st156 c)))) else (bif Nat.blt cs 163 then (bif Nat.blt cs 160 then (bif Nat.blt cs 158 then st157 c else (bif Nat.blt cs 159 then st158 c else st159 c)) else (bif Nat.blt cs 161 then st160 c else (bif Nat.blt cs 162 then st161 c else st162 c))) else (bif Nat.blt cs 166 then (bif Nat.blt cs 164 then st163 c else (bif Nat.blt cs 165 then st164 c else st165 c)) else (bif Nat.blt cs 167 then st166 c else (bif Nat.blt cs 168 then st167 c else st168 c))))) else (bif Nat.blt cs 181 then (bif Nat.blt cs 175 then (bif Nat.blt cs 172 then (bif Nat.blt cs 170 then st169 c else (bif Nat.blt cs 171 then st170 c else st171 c)) else (bif Nat.blt cs 173 then st172 c else (bif Nat.blt cs 174 then st173 c else st174 c))) else (bif Nat.blt cs 178 then (bif Nat.blt cs 176 then st175 c else (bif Nat.blt cs 177 then st176 c else st177 c)) else (bif Nat.blt cs 179 then st178 c else (bif Nat.blt cs 180 then st179 c else st180 c)))) else (bif Nat.blt cs 187 then (bif Nat.blt cs 184 then (bif Nat.blt cs 182 then st181 c else (bif Nat.blt cs 183 then st182 c else st183 c)) else (bif Nat.blt cs 185 then st184 c else (bif Nat.blt cs 186 then st185 c else st186 c))) else (bif Nat.blt cs 190 then (bif Nat.blt cs 188 then st187 c else (bif Nat.blt cs 189 then st188 c else st189 c)) else (bif Nat.blt cs 192 then (bif Nat.blt cs 191 then st190 c else st191 c) else (bif Nat.blt cs 193 then st192 c else st193 c)))))))) else trOf cs c

theorem trRowF_eq (n : Nat) : trRow n = trRowF n := by
  have h : ∀ i : Fin 250, trRow i = trRowF i := by decide +kernel
  by_cases hn : n < 250
  · exact h ⟨n, hn⟩
  · have : Nat.blt n 250 = false := by
      cases hb : Nat.blt n 250 with
      | false => rfl
      | true => exact absurd (Nat.le_of_ble_eq_true hb) hn
    simp only [trRowF, this, cond_false]

theorem fActsF_eq (n : Nat) : fActs n = fActsF n := by
  have h : ∀ i : Fin 52, fActs i = fActsF i := by decide +kernel
  by_cases hn : n < 52
  · exact h ⟨n, hn⟩
  · have : Nat.blt n 52 = false := by
      cases hb : Nat.blt n 52 with
      | false => rfl
      | true => exact absurd (Nat.le_of_ble_eq_true hb) hn
    simp only [fActsF, this, cond_false]

theorem trOfF_eq (cs : Nat) (c : UInt8) : trOf cs c = trOfF cs c := by
  by_cases hn : cs < 194
  · exact aux cs hn
  · have : Nat.blt cs 194 = false := by
      cases hb : Nat.blt cs 194 with
      | false => rfl
      | true => exact absurd (Nat.le_of_ble_eq_true hb) hn
    simp only [trOfF, this, cond_false]
where
  aux : ∀ cs < 194, trOf cs c = trOfF cs c
    | 0, _ => rfl
    | 1, _ => rfl
    | 2, _ => rfl
    | 3, _ => rfl
    | 4, _ => rfl
    | 5, _ => rfl
    | 6, _ => rfl
    | 7, _ => rfl
    | 8, _ => rfl
    | 9, _ => rfl
    | 10, _ => rfl
    | 11, _ => rfl
    | 12, _ => rfl
    | 13, _ => rfl
    | 14, _ => rfl
    | 15, _ => rfl
    | 16, _ => rfl
    | 17, _ => rfl
    | 18, _ => rfl
    | 19, _ => rfl
    | 20, _ => rfl
    | 21, _ => rfl
    | 22, _ => rfl
    | 23, _ => rfl
    | 24, _ => rfl
    | 25, _ => rfl
    | 26, _ => rfl
    | 27, _ => rfl
    | 28, _ => rfl
    | 29, _ => rfl
    | 30, _ => rfl
    | 31, _ => rfl
    | 32, _ => rfl
    | 33, _ => rfl
    | 34, _ => rfl
    | 35, _ => rfl
    | 36, _ => rfl
    | 37, _ => rfl
    | 38, _ => rfl
    | 39, _ => rfl
    | 40, _ => rfl
    | 41, _ => rfl
    | 42, _ => rfl
    | 43, _ => rfl
    | 44, _ => rfl
    | 45, _ => rfl
    | 46, _ => rfl
    | 47, _ => rfl
    | 48, _ => rfl
    | 49, _ => rfl
    | 50, _ => rfl
    | 51, _ => rfl
    | 52, _ => rfl
    | 53, _ => rfl
    | 54, _ => rfl
    | 55, _ => rfl
    | 56, _ => rfl
    | 57, _ => rfl
    | 58, _ => rfl
    | 59, _ => rfl
    | 60, _ => rfl
    | 61, _ => rfl
    | 62, _ => rfl
    | 63, _ => rfl
    | 64, _ => rfl
    | 65, _ => rfl
    | 66, _ => rfl
    | 67, _ => rfl
    | 68, _ => rfl
    | 69, _ => rfl
    | 70, _ => rfl
    | 71, _ => rfl
    | 72, _ => rfl
    | 73, _ => rfl
    | 74, _ => rfl
    | 75, _ => rfl
    | 76, _ => rfl
    | 77, _ => rfl
    | 78, _ => rfl
    | 79, _ => rfl
    | 80, _ => rfl
    | 81, _ => rfl
    | 82, _ => rfl
    | 83, _ => rfl
    | 84, _ => rfl
    | 85, _ => rfl
    | 86, _ => rfl
    | 87, _ => rfl
    | 88, _ => rfl
    | 89, _ => rfl
    | 90, _ => rfl
    | 91, _ => rfl
    | 92, _ => rfl
    | 93, _ => rfl
    | 94, _ => rfl
    | 95, _ => rfl
    | 96, _ => rfl
    | 97, _ => rfl
    | 98, _ => rfl
    | 99, _ => rfl
    | 100, _ => rfl
    | 101, _ => rfl
    | 102, _ => rfl
    | 103, _ => rfl
    | 104, _ => rfl
    | 105, _ => rfl
    | 106, _ => rfl
    | 107, _ => rfl
    | 108, _ => rfl
    | 109, _ => rfl
    | 110, _ => rfl
    | 111, _ => rfl
    | 112, _ => rfl
    | 113, _ => rfl
    | 114, _ => rfl
    | 115, _ => rfl
    | 116, _ => rfl
    | 117, _ => rfl
    | 118, _ => rfl
    | 119, _ => rfl
    | 120, _ => rfl
    | 121, _ => rfl
    | 122, _ => rfl
    | 123, _ => rfl
    | 124, _ => rfl
    | 125, _ => rfl
    | 126, _ => rfl
    | 127, _ => rfl
    | 128, _ => rfl
    | 129, _ => rfl
    | 130, _ => rfl
    | 131, _ => rfl
    | 132, _ => rfl
    | 133, _ => rfl
    | 134, _ => rfl
    | 135, _ => rfl
    | 136, _ => rfl
    | 137, _ => rfl
    | 138, _ => rfl
    | 139, _ => rfl
    | 140, _ => rfl
    | 141, _ => rfl
    | 142, _ => rfl
    | 143, _ => rfl
    | 144, _ => rfl
    | 145, _ => rfl
    | 146, _ => rfl
    | 147, _ => rfl
    | 148, _ => rfl
    | 149, _ => rfl
    | 150, _ => rfl
    | 151, _ => rfl
    | 152, _ => rfl
    | 153, _ => rfl
    | 154, _ => rfl
    | 155, _ => rfl
    | 156, _ => rfl
    | 157, _ => rfl
    | 158, _ => rfl
    | 159, _ => rfl
    | 160, _ => rfl
    | 161, _ => rfl
    | 162, _ => rfl
    | 163, _ => rfl
    | 164, _ => rfl
    | 165, _ => rfl
    | 166, _ => rfl
    | 167, _ => rfl
    | 168, _ => rfl
    | 169, _ => rfl
    | 170, _ => rfl
    | 171, _ => rfl
    | 172, _ => rfl
    | 173, _ => rfl
    | 174, _ => rfl
    | 175, _ => rfl
    | 176, _ => rfl
    | 177, _ => rfl
    | 178, _ => rfl
    | 179, _ => rfl
    | 180, _ => rfl
    | 181, _ => rfl
    | 182, _ => rfl
    | 183, _ => rfl
    | 184, _ => rfl
    | 185, _ => rfl
    | 186, _ => rfl
    | 187, _ => rfl
    | 188, _ => rfl
    | 189, _ => rfl
    | 190, _ => rfl
    | 191, _ => rfl
    | 192, _ => rfl
    | 193, _ => rfl
    | n + 194, h => absurd h (by omega)

end Urn.Tables
