import Verif.Grammar
/-!
# The states of the grammar and of the generated code side by side

Written by `tools/ragelcert.py`.  For each instantiation of the grammar: its expression, evaluated, and, for each number
of a state in machine.go, the states of the deterministic automaton of `Ragel.lean` that it stands for.  Nothing here
is trusted: `RagelAux.lean` checks it.
-/
set_option autoImplicit false
namespace Urn.Grammar
open Ragel

/-- machine.go.rl: the expression of `main` -/
def mainExp : Exp :=
  (.cat (.cat (.act .leave 5 .setPre (.act .enter 1 .throwPreUrnErr (.act .enter 0 .mark (.cat (.cat (.act
  .errNotFinal 2 .errPre (.cls [(117, 117), (85, 85)])) (.act .errNotFinal 3 .errPre (.cls [(114, 114), (82, 82)])))
  (.act .errNotFinal 4 .errPre (.cls [(110, 110), (78, 78)])))))) (.act .errNotFinal 6 .errPre (.cls [(58, 58)])))
  (.act .eofFinal 22 .baseType (.cat (.cat (.diff (.act .leave 9 .setNid (.act .errAny 8 .errNid (.cat (.act .enter 7
  .mark (.cls [(48, 57), (65, 90), (97, 122)])) (.upTo 31 (.alt (.cls [(48, 57), (65, 90), (97, 122)]) (.cls [(45,
  45)])))))) (.act .errFinal 16 .errUrn (.act .leave 15 .setPre (.act .enter 11 .throwPreUrnErr (.act .enter 10 .mark
  (.cat (.cat (.act .errNotFinal 12 .errPre (.cls [(117, 117), (85, 85)])) (.act .errNotFinal 13 .errPre (.cls [(114,
  114), (82, 82)]))) (.act .errNotFinal 14 .errPre (.cls [(110, 110), (78, 78)])))))))) (.cls [(58, 58)])) (.act
  .leave 21 .setNss (.act .enter 17 .mark (.act .errAny 20 .errNss (.cat (.alt (.alt (.cls [(48, 57), (65, 90), (97,
  122)]) (.cls [(40, 40), (41, 41), (43, 43), (44, 44), (45, 45), (46, 46), (58, 58), (61, 61), (64, 64), (59, 59),
  (36, 36), (95, 95), (33, 33), (42, 42), (39, 39)])) (.cat (.cls [(37, 37)]) (.act .errAny 19 .errHex (.cat (.alt
  (.alt (.cls [(48, 57)]) (.cls [(97, 122)])) (.act .enter 18 .tolower (.cls [(65, 90)]))) (.alt (.alt (.cls [(48,
  57)]) (.cls [(97, 122)])) (.act .enter 18 .tolower (.cls [(65, 90)]))))))) (.star (.alt (.alt (.cls [(48, 57), (65,
  90), (97, 122)]) (.cls [(40, 40), (41, 41), (43, 43), (44, 44), (45, 45), (46, 46), (58, 58), (61, 61), (64, 64),
  (59, 59), (36, 36), (95, 95), (33, 33), (42, 42), (39, 39)])) (.cat (.cls [(37, 37)]) (.act .errAny 19 .errHex
  (.cat (.alt (.alt (.cls [(48, 57)]) (.cls [(97, 122)])) (.act .enter 18 .tolower (.cls [(65, 90)]))) (.alt (.alt
  (.cls [(48, 57)]) (.cls [(97, 122)])) (.act .enter 18 .tolower (.cls [(65, 90)])))))))))))))))

/-- The states of `main` for each number of a state -/
def mainPairs : List (Nat × List Config) := [
  (1, [
    [none]]),
  (2, [
    [some (.left (.left (.left (.left .here))))]]),
  (3, [
    [some (.left (.left (.left (.right .here))))]]),
  (4, [
    [some (.left (.left (.right .here)))]]),
  (5, [
    [some (.left (.right .here))]]),
  (6, [
    [some (.right (.left (.left (.only (.left .here)))))]]),
  (7, [
    [some (.right (.left (.left (.only (.right (.copy 0 (.right .here)))))))],
    [some (.right (.left (.left (.only (.right (.copy 0 (.left .here)))))))]]),
  (8, [
    [some (.right (.left (.left (.only (.right (.copy 1 (.right .here)))))))],
    [some (.right (.left (.left (.only (.right (.copy 1 (.left .here)))))))]]),
  (9, [
    [some (.right (.left (.left (.only (.right (.copy 2 (.right .here)))))))],
    [some (.right (.left (.left (.only (.right (.copy 2 (.left .here)))))))]]),
  (10, [
    [some (.right (.left (.left (.only (.right (.copy 3 (.right .here)))))))],
    [some (.right (.left (.left (.only (.right (.copy 3 (.left .here)))))))]]),
  (11, [
    [some (.right (.left (.left (.only (.right (.copy 4 (.right .here)))))))],
    [some (.right (.left (.left (.only (.right (.copy 4 (.left .here)))))))]]),
  (12, [
    [some (.right (.left (.left (.only (.right (.copy 5 (.right .here)))))))],
    [some (.right (.left (.left (.only (.right (.copy 5 (.left .here)))))))]]),
  (13, [
    [some (.right (.left (.left (.only (.right (.copy 6 (.right .here)))))))],
    [some (.right (.left (.left (.only (.right (.copy 6 (.left .here)))))))]]),
  (14, [
    [some (.right (.left (.left (.only (.right (.copy 7 (.right .here)))))))],
    [some (.right (.left (.left (.only (.right (.copy 7 (.left .here)))))))]]),
  (15, [
    [some (.right (.left (.left (.only (.right (.copy 8 (.right .here)))))))],
    [some (.right (.left (.left (.only (.right (.copy 8 (.left .here)))))))]]),
  (16, [
    [some (.right (.left (.left (.only (.right (.copy 9 (.right .here)))))))],
    [some (.right (.left (.left (.only (.right (.copy 9 (.left .here)))))))]]),
  (17, [
    [some (.right (.left (.left (.only (.right (.copy 10 (.right .here)))))))],
    [some (.right (.left (.left (.only (.right (.copy 10 (.left .here)))))))]]),
  (18, [
    [some (.right (.left (.left (.only (.right (.copy 11 (.right .here)))))))],
    [some (.right (.left (.left (.only (.right (.copy 11 (.left .here)))))))]]),
  (19, [
    [some (.right (.left (.left (.only (.right (.copy 12 (.right .here)))))))],
    [some (.right (.left (.left (.only (.right (.copy 12 (.left .here)))))))]]),
  (20, [
    [some (.right (.left (.left (.only (.right (.copy 13 (.right .here)))))))],
    [some (.right (.left (.left (.only (.right (.copy 13 (.left .here)))))))]]),
  (21, [
    [some (.right (.left (.left (.only (.right (.copy 14 (.right .here)))))))],
    [some (.right (.left (.left (.only (.right (.copy 14 (.left .here)))))))]]),
  (22, [
    [some (.right (.left (.left (.only (.right (.copy 15 (.right .here)))))))],
    [some (.right (.left (.left (.only (.right (.copy 15 (.left .here)))))))]]),
  (23, [
    [some (.right (.left (.left (.only (.right (.copy 16 (.right .here)))))))],
    [some (.right (.left (.left (.only (.right (.copy 16 (.left .here)))))))]]),
  (24, [
    [some (.right (.left (.left (.only (.right (.copy 17 (.right .here)))))))],
    [some (.right (.left (.left (.only (.right (.copy 17 (.left .here)))))))]]),
  (25, [
    [some (.right (.left (.left (.only (.right (.copy 18 (.right .here)))))))],
    [some (.right (.left (.left (.only (.right (.copy 18 (.left .here)))))))]]),
  (26, [
    [some (.right (.left (.left (.only (.right (.copy 19 (.right .here)))))))],
    [some (.right (.left (.left (.only (.right (.copy 19 (.left .here)))))))]]),
  (27, [
    [some (.right (.left (.left (.only (.right (.copy 20 (.right .here)))))))],
    [some (.right (.left (.left (.only (.right (.copy 20 (.left .here)))))))]]),
  (28, [
    [some (.right (.left (.left (.only (.right (.copy 21 (.right .here)))))))],
    [some (.right (.left (.left (.only (.right (.copy 21 (.left .here)))))))]]),
  (29, [
    [some (.right (.left (.left (.only (.right (.copy 22 (.right .here)))))))],
    [some (.right (.left (.left (.only (.right (.copy 22 (.left .here)))))))]]),
  (30, [
    [some (.right (.left (.left (.only (.right (.copy 23 (.right .here)))))))],
    [some (.right (.left (.left (.only (.right (.copy 23 (.left .here)))))))]]),
  (31, [
    [some (.right (.left (.left (.only (.right (.copy 24 (.right .here)))))))],
    [some (.right (.left (.left (.only (.right (.copy 24 (.left .here)))))))]]),
  (32, [
    [some (.right (.left (.left (.only (.right (.copy 25 (.right .here)))))))],
    [some (.right (.left (.left (.only (.right (.copy 25 (.left .here)))))))]]),
  (33, [
    [some (.right (.left (.left (.only (.right (.copy 26 (.right .here)))))))],
    [some (.right (.left (.left (.only (.right (.copy 26 (.left .here)))))))]]),
  (34, [
    [some (.right (.left (.left (.only (.right (.copy 27 (.right .here)))))))],
    [some (.right (.left (.left (.only (.right (.copy 27 (.left .here)))))))]]),
  (35, [
    [some (.right (.left (.left (.only (.right (.copy 28 (.right .here)))))))],
    [some (.right (.left (.left (.only (.right (.copy 28 (.left .here)))))))]]),
  (36, [
    [some (.right (.left (.left (.only (.right (.copy 29 (.right .here)))))))],
    [some (.right (.left (.left (.only (.right (.copy 29 (.left .here)))))))]]),
  (37, [
    [some (.right (.left (.left (.only (.right (.copy 30 (.right .here)))))))],
    [some (.right (.left (.left (.only (.right (.copy 30 (.left .here)))))))]]),
  (38, [
    [some (.right (.left (.right .here)))]]),
  (39, [
    [some (.right (.right (.left (.right (.left .here)))))],
    [some (.right (.right (.right (.right (.left .here)))))]]),
  (40, [
    [some (.right (.right (.right (.right (.right (.left (.left (.left .here))))))))],
    [some (.right (.right (.right (.right (.right (.left (.right .here)))))))],
    [some (.right (.right (.right (.right (.right (.left (.left (.right .here))))))))],
    [some (.right (.right (.left (.right (.right (.left (.left (.left .here))))))))],
    [some (.right (.right (.left (.right (.right (.left (.right .here)))))))],
    [some (.right (.right (.left (.right (.right (.left (.left (.right .here))))))))]]),
  (41, [
    [some (.right (.left (.left (.both (.left .here) (.left (.left .here))))))]]),
  (42, [
    [some (.right (.left (.left (.both (.right (.copy 0 (.left .here))) (.left (.right .here))))))]]),
  (43, [
    [some (.right (.left (.left (.both (.right (.copy 1 (.left .here))) (.right .here)))))]]),
  (172, [
    [some (.right (.right (.left (.left (.right .here)))))],
    [some (.right (.right (.left (.left (.left .here)))))],
    [some (.right (.right (.right (.left (.right .here)))))],
    [some (.right (.right (.right (.left (.left .here)))))]]),
  (173, [
    [some (.right (.right (.right (.right (.right (.right (.left (.left .here))))))))],
    [some (.right (.right (.right (.right (.right (.right (.right .here)))))))],
    [some (.right (.right (.right (.right (.right (.right (.left (.right .here))))))))],
    [some (.right (.right (.left (.right (.right (.right (.left (.left .here))))))))],
    [some (.right (.right (.left (.right (.right (.right (.right .here)))))))],
    [some (.right (.right (.left (.right (.right (.right (.left (.right .here))))))))]])]

/-- machine.go.rl: the expression of `scimOnly` -/
def scimOnlyExp : Exp :=
  (.cat (.cat (.act .leave 5 .setPre (.act .enter 1 .throwPreUrnErr (.act .enter 0 .mark (.cat (.cat (.act
  .errNotFinal 2 .errPre (.cls [(117, 117), (85, 85)])) (.act .errNotFinal 3 .errPre (.cls [(114, 114), (82, 82)])))
  (.act .errNotFinal 4 .errPre (.cls [(110, 110), (78, 78)])))))) (.act .errNotFinal 6 .errPre (.cls [(58, 58)])))
  (.act .eofFinal 23 .scimType (.cat (.cat (.cat (.cat (.cat (.act .errAny 10 .errScimNid (.act .leave 9 .createScim
  (.act .leave 8 .setNid (.act .enter 7 .mark (.cat (.cat (.cat (.cat (.cat (.cat (.cat (.cat (.cat (.cat (.cat (.cat
  (.cat (.cat (.cat (.cls [(105, 105)]) (.cls [(101, 101)])) (.cls [(116, 116)])) (.cls [(102, 102)])) (.cls [(58,
  58)])) (.cls [(112, 112)])) (.cls [(97, 97)])) (.cls [(114, 114)])) (.cls [(97, 97)])) (.cls [(109, 109)])) (.cls
  [(115, 115)])) (.cls [(58, 58)])) (.cls [(115, 115)])) (.cls [(99, 99)])) (.cls [(105, 105)])) (.cls [(109,
  109)])))))) (.cls [(58, 58)])) (.act .errAny 13 .errScimType (.act .leave 12 .setScimType (.act .enter 11 .mark
  (.alt (.alt (.cat (.cat (.cat (.cat (.cat (.cat (.cls [(115, 115)]) (.cls [(99, 99)])) (.cls [(104, 104)])) (.cls
  [(101, 101)])) (.cls [(109, 109)])) (.cls [(97, 97)])) (.cls [(115, 115)])) (.cat (.cat (.cls [(97, 97)]) (.cls
  [(112, 112)])) (.cls [(105, 105)]))) (.cat (.cat (.cat (.cat (.cls [(112, 112)]) (.cls [(97, 97)])) (.cls [(114,
  114)])) (.cls [(97, 97)])) (.cls [(109, 109)]))))))) (.cls [(58, 58)])) (.act .errAny 16 .errScimName (.act .leave
  15 .setScimName (.act .enter 14 .markScim (.cat (.cls [(48, 57), (65, 90), (97, 122)]) (.star (.cls [(48, 57), (65,
  90), (97, 122)]))))))) (.act .leave 22 .setNss (.alt (.cat (.cls [(58, 58)]) (.act .errAny 21 .errScimOther (.act
  .leave 20 .setScimOther (.act .enter 17 .markScim (.cat (.alt (.alt (.cls [(48, 57), (65, 90), (97, 122)]) (.cls
  [(40, 40), (41, 41), (43, 43), (44, 44), (45, 45), (46, 46), (58, 58), (61, 61), (64, 64), (59, 59), (36, 36), (95,
  95), (33, 33), (42, 42), (39, 39)])) (.cat (.cls [(37, 37)]) (.act .errAny 19 .errHex (.cat (.alt (.alt (.cls [(48,
  57)]) (.cls [(97, 122)])) (.act .enter 18 .tolower (.cls [(65, 90)]))) (.alt (.alt (.cls [(48, 57)]) (.cls [(97,
  122)])) (.act .enter 18 .tolower (.cls [(65, 90)]))))))) (.star (.alt (.alt (.cls [(48, 57), (65, 90), (97, 122)])
  (.cls [(40, 40), (41, 41), (43, 43), (44, 44), (45, 45), (46, 46), (58, 58), (61, 61), (64, 64), (59, 59), (36,
  36), (95, 95), (33, 33), (42, 42), (39, 39)])) (.cat (.cls [(37, 37)]) (.act .errAny 19 .errHex (.cat (.alt (.alt
  (.cls [(48, 57)]) (.cls [(97, 122)])) (.act .enter 18 .tolower (.cls [(65, 90)]))) (.alt (.alt (.cls [(48, 57)])
  (.cls [(97, 122)])) (.act .enter 18 .tolower (.cls [(65, 90)]))))))))))))) .eps)))))

/-- The states of `scimOnly` for each number of a state -/
def scimOnlyPairs : List (Nat × List Config) := [
  (44, [
    [none]]),
  (45, [
    [some (.left (.left (.left (.left .here))))]]),
  (46, [
    [some (.left (.left (.left (.right .here))))]]),
  (47, [
    [some (.left (.left (.right .here)))]]),
  (48, [
    [some (.left (.right .here))]]),
  (49, [
    [some (.right (.left (.left (.left (.left (.left (.left (.left (.left (.left (.left (.left (.left (.left (.left
    (.left (.left (.left (.left (.left (.left .here)))))))))))))))))))))]]),
  (50, [
    [some (.right (.left (.left (.left (.left (.left (.left (.left (.left (.left (.left (.left (.left (.left (.left
    (.left (.left (.left (.left (.left (.right .here)))))))))))))))))))))]]),
  (51, [
    [some (.right (.left (.left (.left (.left (.left (.left (.left (.left (.left (.left (.left (.left (.left (.left
    (.left (.left (.left (.left (.right .here))))))))))))))))))))]]),
  (52, [
    [some (.right (.left (.left (.left (.left (.left (.left (.left (.left (.left (.left (.left (.left (.left (.left
    (.left (.left (.left (.right .here)))))))))))))))))))]]),
  (53, [
    [some (.right (.left (.left (.left (.left (.left (.left (.left (.left (.left (.left (.left (.left (.left (.left
    (.left (.left (.right .here))))))))))))))))))]]),
  (54, [
    [some (.right (.left (.left (.left (.left (.left (.left (.left (.left (.left (.left (.left (.left (.left (.left
    (.left (.right .here)))))))))))))))))]]),
  (55, [
    [some (.right (.left (.left (.left (.left (.left (.left (.left (.left (.left (.left (.left (.left (.left (.left
    (.right .here))))))))))))))))]]),
  (56, [
    [some (.right (.left (.left (.left (.left (.left (.left (.left (.left (.left (.left (.left (.left (.left (.right
    .here)))))))))))))))]]),
  (57, [
    [some (.right (.left (.left (.left (.left (.left (.left (.left (.left (.left (.left (.left (.left (.right
    .here))))))))))))))]]),
  (58, [
    [some (.right (.left (.left (.left (.left (.left (.left (.left (.left (.left (.left (.left (.right
    .here)))))))))))))]]),
  (59, [
    [some (.right (.left (.left (.left (.left (.left (.left (.left (.left (.left (.left (.right .here))))))))))))]]),
  (60, [
    [some (.right (.left (.left (.left (.left (.left (.left (.left (.left (.left (.right .here)))))))))))]]),
  (61, [
    [some (.right (.left (.left (.left (.left (.left (.left (.left (.left (.right .here))))))))))]]),
  (62, [
    [some (.right (.left (.left (.left (.left (.left (.left (.left (.right .here)))))))))]]),
  (63, [
    [some (.right (.left (.left (.left (.left (.left (.left (.right .here))))))))]]),
  (64, [
    [some (.right (.left (.left (.left (.left (.left (.right .here)))))))]]),
  (65, [
    [some (.right (.left (.left (.left (.left (.right .here))))))]]),
  (66, [
    [some (.right (.left (.left (.left (.right (.left (.right (.left (.left .here)))))))))]]),
  (67, [
    [some (.right (.left (.left (.left (.right (.left (.right (.left (.right .here)))))))))]]),
  (68, [
    [some (.right (.left (.left (.left (.right (.left (.left (.right .here))))))))],
    [some (.right (.left (.left (.left (.right (.right (.right .here)))))))],
    [some (.right (.left (.left (.left (.right (.left (.right (.right .here))))))))]]),
  (69, [
    [some (.right (.left (.left (.right .here))))]]),
  (70, [
    [some (.right (.right (.left (.left .here))))]]),
  (71, [
    [some (.right (.right (.left (.right (.left (.right (.left .here)))))))],
    [some (.right (.right (.left (.right (.right (.right (.left .here)))))))]]),
  (72, [
    [some (.right (.right (.left (.right (.right (.right (.right (.left (.left (.left .here))))))))))],
    [some (.right (.right (.left (.right (.right (.right (.right (.left (.right .here)))))))))],
    [some (.right (.right (.left (.right (.right (.right (.right (.left (.left (.right .here))))))))))],
    [some (.right (.right (.left (.right (.left (.right (.right (.left (.left (.left .here))))))))))],
    [some (.right (.right (.left (.right (.left (.right (.right (.left (.right .here)))))))))],
    [some (.right (.right (.left (.right (.left (.right (.right (.left (.left (.right .here))))))))))]]),
  (73, [
    [some (.right (.left (.left (.left (.right (.right (.left (.left (.left (.left .here))))))))))]]),
  (74, [
    [some (.right (.left (.left (.left (.right (.right (.left (.left (.left (.right .here))))))))))]]),
  (75, [
    [some (.right (.left (.left (.left (.right (.right (.left (.left (.right .here)))))))))]]),
  (76, [
    [some (.right (.left (.left (.left (.right (.right (.left (.right .here))))))))]]),
  (77, [
    [some (.right (.left (.left (.left (.right (.left (.left (.left (.left (.left (.left (.left (.left
    .here)))))))))))))]]),
  (78, [
    [some (.right (.left (.left (.left (.right (.left (.left (.left (.left (.left (.left (.left (.right
    .here)))))))))))))]]),
  (79, [
    [some (.right (.left (.left (.left (.right (.left (.left (.left (.left (.left (.left (.right .here))))))))))))]]),
  (80, [
    [some (.right (.left (.left (.left (.right (.left (.left (.left (.left (.left (.right .here)))))))))))]]),
  (81, [
    [some (.right (.left (.left (.left (.right (.left (.left (.left (.left (.right .here))))))))))]]),
  (82, [
    [some (.right (.left (.left (.left (.right (.left (.left (.left (.right .here)))))))))]]),
  (174, [
    [some (.right (.left (.right (.left .here))))],
    [some (.right (.left (.right (.right .here))))]]),
  (175, [
    [some (.right (.right (.left (.right (.left (.left (.right .here)))))))],
    [some (.right (.right (.left (.right (.left (.left (.left .here)))))))],
    [some (.right (.right (.left (.right (.right (.left (.right .here)))))))],
    [some (.right (.right (.left (.right (.right (.left (.left .here)))))))]]),
  (176, [
    [some (.right (.right (.left (.right (.right (.right (.right (.right (.left (.left .here))))))))))],
    [some (.right (.right (.left (.right (.right (.right (.right (.right (.right .here)))))))))],
    [some (.right (.right (.left (.right (.right (.right (.right (.right (.left (.right .here))))))))))],
    [some (.right (.right (.left (.right (.left (.right (.right (.right (.left (.left .here))))))))))],
    [some (.right (.right (.left (.right (.left (.right (.right (.right (.right .here)))))))))],
    [some (.right (.right (.left (.right (.left (.right (.right (.right (.left (.right .here))))))))))]])]

/-- machine.go.rl: the expression of `rfc8141Only` -/
def rfc8141OnlyExp : Exp :=
  (.cat (.cat (.cat (.cat (.cat (.cat (.act .leave 5 .setPre (.act .enter 1 .throwPreUrnErr (.act .enter 0 .mark
  (.cat (.cat (.act .errNotFinal 2 .errPre (.cls [(117, 117), (85, 85)])) (.act .errNotFinal 3 .errPre (.cls [(114,
  114), (82, 82)]))) (.act .errNotFinal 4 .errPre (.cls [(110, 110), (78, 78)])))))) (.act .errNotFinal 6 .errPre
  (.cls [(58, 58)]))) (.diff (.act .leave 9 .setNid (.act .errAny 8 .errNid8141 (.cat (.cat (.act .enter 7 .mark
  (.cls [(48, 57), (65, 90), (97, 122)])) (.upTo 30 (.alt (.cls [(48, 57), (65, 90), (97, 122)]) (.cls [(45, 45)]))))
  (.cls [(48, 57), (65, 90), (97, 122)])))) (.alt (.cat (.act .leave 15 .setPre (.act .enter 11 .throwPreUrnErr (.act
  .enter 10 .mark (.cat (.cat (.act .errNotFinal 12 .errPre (.cls [(117, 117), (85, 85)])) (.act .errNotFinal 13
  .errPre (.cls [(114, 114), (82, 82)]))) (.act .errNotFinal 14 .errPre (.cls [(110, 110), (78, 78)])))))) (.cat
  (.cls [(45, 45)]) (.act .toFinal 16 .informalNidMatch (.cls [(97, 122), (65, 122), (48, 48)])))) .eps))) (.cls
  [(58, 58)])) (.act .leave 23 .setNss (.act .errAny 22 .errNss8141 (.cat (.act .enter 17 .mark (.alt (.alt (.alt
  (.alt (.cls [(48, 57), (65, 90), (97, 122)]) (.cls [(40, 40), (41, 41), (43, 43), (44, 44), (45, 45), (46, 46),
  (58, 58), (61, 61), (64, 64), (59, 59), (36, 36), (95, 95), (33, 33), (42, 42), (39, 39)])) (.cls [(126, 126)]))
  (.cls [(38, 38)])) (.cat (.cls [(37, 37)]) (.act .errAny 19 .errHex (.cat (.alt (.alt (.cls [(48, 57)]) (.cls [(97,
  122)])) (.act .enter 18 .tolower (.cls [(65, 90)]))) (.alt (.alt (.cls [(48, 57)]) (.cls [(97, 122)])) (.act .enter
  18 .tolower (.cls [(65, 90)])))))))) (.star (.alt (.alt (.alt (.alt (.alt (.cls [(48, 57), (65, 90), (97, 122)])
  (.cls [(40, 40), (41, 41), (43, 43), (44, 44), (45, 45), (46, 46), (58, 58), (61, 61), (64, 64), (59, 59), (36,
  36), (95, 95), (33, 33), (42, 42), (39, 39)])) (.cls [(126, 126)])) (.cls [(38, 38)])) (.cat (.cls [(37, 37)])
  (.act .errAny 21 .errHex (.cat (.alt (.alt (.cls [(48, 57)]) (.cls [(97, 122)])) (.act .enter 20 .tolower (.cls
  [(65, 90)]))) (.alt (.alt (.cls [(48, 57)]) (.cls [(97, 122)])) (.act .enter 20 .tolower (.cls [(65, 90)])))))))
  (.cls [(47, 47)]))))))) (.alt (.alt (.cat (.prio .all 2 0 (.cat (.prio .all 0 1 (.act .leave 24 .markRStart (.cat
  (.cls [(63, 63)]) (.cls [(43, 43)])))) (.prio .start 0 0 (.act .leave 32 .setRComponent (.act .errAny 31
  .errMalformedR (.act .enter 25 .mark (.cat (.alt (.act .leave 26 .markRStart (.cat (.cls [(63, 63)]) (.cls [(43,
  43)]))) (.cat (.alt (.alt (.alt (.alt (.cls [(48, 57), (65, 90), (97, 122)]) (.cls [(40, 40), (41, 41), (43, 43),
  (44, 44), (45, 45), (46, 46), (58, 58), (61, 61), (64, 64), (59, 59), (36, 36), (95, 95), (33, 33), (42, 42), (39,
  39)])) (.cls [(126, 126)])) (.cls [(38, 38)])) (.cat (.cls [(37, 37)]) (.act .errAny 28 .errHex (.cat (.alt (.alt
  (.cls [(48, 57)]) (.cls [(97, 122)])) (.act .enter 27 .tolower (.cls [(65, 90)]))) (.alt (.alt (.cls [(48, 57)])
  (.cls [(97, 122)])) (.act .enter 27 .tolower (.cls [(65, 90)]))))))) (.star (.alt (.alt (.alt (.alt (.alt (.alt
  (.cls [(48, 57), (65, 90), (97, 122)]) (.cls [(40, 40), (41, 41), (43, 43), (44, 44), (45, 45), (46, 46), (58, 58),
  (61, 61), (64, 64), (59, 59), (36, 36), (95, 95), (33, 33), (42, 42), (39, 39)])) (.cls [(126, 126)])) (.cls [(38,
  38)])) (.cat (.cls [(37, 37)]) (.act .errAny 30 .errHex (.cat (.alt (.alt (.cls [(48, 57)]) (.cls [(97, 122)]))
  (.act .enter 29 .tolower (.cls [(65, 90)]))) (.alt (.alt (.cls [(48, 57)]) (.cls [(97, 122)])) (.act .enter 29
  .tolower (.cls [(65, 90)]))))))) (.cls [(47, 47)])) (.cls [(63, 63)]))))) (.star (.alt (.act .leave 26 .markRStart
  (.cat (.cls [(63, 63)]) (.cls [(43, 43)]))) (.cat (.alt (.alt (.alt (.alt (.cls [(48, 57), (65, 90), (97, 122)])
  (.cls [(40, 40), (41, 41), (43, 43), (44, 44), (45, 45), (46, 46), (58, 58), (61, 61), (64, 64), (59, 59), (36,
  36), (95, 95), (33, 33), (42, 42), (39, 39)])) (.cls [(126, 126)])) (.cls [(38, 38)])) (.cat (.cls [(37, 37)])
  (.act .errAny 28 .errHex (.cat (.alt (.alt (.cls [(48, 57)]) (.cls [(97, 122)])) (.act .enter 27 .tolower (.cls
  [(65, 90)]))) (.alt (.alt (.cls [(48, 57)]) (.cls [(97, 122)])) (.act .enter 27 .tolower (.cls [(65, 90)])))))))
  (.star (.alt (.alt (.alt (.alt (.alt (.alt (.cls [(48, 57), (65, 90), (97, 122)]) (.cls [(40, 40), (41, 41), (43,
  43), (44, 44), (45, 45), (46, 46), (58, 58), (61, 61), (64, 64), (59, 59), (36, 36), (95, 95), (33, 33), (42, 42),
  (39, 39)])) (.cls [(126, 126)])) (.cls [(38, 38)])) (.cat (.cls [(37, 37)]) (.act .errAny 30 .errHex (.cat (.alt
  (.alt (.cls [(48, 57)]) (.cls [(97, 122)])) (.act .enter 29 .tolower (.cls [(65, 90)]))) (.alt (.alt (.cls [(48,
  57)]) (.cls [(97, 122)])) (.act .enter 29 .tolower (.cls [(65, 90)]))))))) (.cls [(47, 47)])) (.cls [(63,
  63)]))))))))))))) (.prio .finish 2 1 (.alt (.cat (.prio .all 1 1 (.act .leave 33 .markQStart (.cat (.cls [(63,
  63)]) (.cls [(61, 61)])))) (.prio .start 1 0 (.act .leave 41 .setQComponent (.act .errAny 40 .errMalformedQ (.act
  .enter 34 .mark (.cat (.alt (.act .leave 35 .markQStart (.cat (.cls [(63, 63)]) (.cls [(61, 61)]))) (.cat (.alt
  (.alt (.alt (.alt (.cls [(48, 57), (65, 90), (97, 122)]) (.cls [(40, 40), (41, 41), (43, 43), (44, 44), (45, 45),
  (46, 46), (58, 58), (61, 61), (64, 64), (59, 59), (36, 36), (95, 95), (33, 33), (42, 42), (39, 39)])) (.cls [(126,
  126)])) (.cls [(38, 38)])) (.cat (.cls [(37, 37)]) (.act .errAny 37 .errHex (.cat (.alt (.alt (.cls [(48, 57)])
  (.cls [(97, 122)])) (.act .enter 36 .tolower (.cls [(65, 90)]))) (.alt (.alt (.cls [(48, 57)]) (.cls [(97, 122)]))
  (.act .enter 36 .tolower (.cls [(65, 90)]))))))) (.star (.alt (.alt (.alt (.alt (.alt (.alt (.cls [(48, 57), (65,
  90), (97, 122)]) (.cls [(40, 40), (41, 41), (43, 43), (44, 44), (45, 45), (46, 46), (58, 58), (61, 61), (64, 64),
  (59, 59), (36, 36), (95, 95), (33, 33), (42, 42), (39, 39)])) (.cls [(126, 126)])) (.cls [(38, 38)])) (.cat (.cls
  [(37, 37)]) (.act .errAny 39 .errHex (.cat (.alt (.alt (.cls [(48, 57)]) (.cls [(97, 122)])) (.act .enter 38
  .tolower (.cls [(65, 90)]))) (.alt (.alt (.cls [(48, 57)]) (.cls [(97, 122)])) (.act .enter 38 .tolower (.cls [(65,
  90)]))))))) (.cls [(47, 47)])) (.cls [(63, 63)]))))) (.star (.alt (.act .leave 35 .markQStart (.cat (.cls [(63,
  63)]) (.cls [(61, 61)]))) (.cat (.alt (.alt (.alt (.alt (.cls [(48, 57), (65, 90), (97, 122)]) (.cls [(40, 40),
  (41, 41), (43, 43), (44, 44), (45, 45), (46, 46), (58, 58), (61, 61), (64, 64), (59, 59), (36, 36), (95, 95), (33,
  33), (42, 42), (39, 39)])) (.cls [(126, 126)])) (.cls [(38, 38)])) (.cat (.cls [(37, 37)]) (.act .errAny 37 .errHex
  (.cat (.alt (.alt (.cls [(48, 57)]) (.cls [(97, 122)])) (.act .enter 36 .tolower (.cls [(65, 90)]))) (.alt (.alt
  (.cls [(48, 57)]) (.cls [(97, 122)])) (.act .enter 36 .tolower (.cls [(65, 90)]))))))) (.star (.alt (.alt (.alt
  (.alt (.alt (.alt (.cls [(48, 57), (65, 90), (97, 122)]) (.cls [(40, 40), (41, 41), (43, 43), (44, 44), (45, 45),
  (46, 46), (58, 58), (61, 61), (64, 64), (59, 59), (36, 36), (95, 95), (33, 33), (42, 42), (39, 39)])) (.cls [(126,
  126)])) (.cls [(38, 38)])) (.cat (.cls [(37, 37)]) (.act .errAny 39 .errHex (.cat (.alt (.alt (.cls [(48, 57)])
  (.cls [(97, 122)])) (.act .enter 38 .tolower (.cls [(65, 90)]))) (.alt (.alt (.cls [(48, 57)]) (.cls [(97, 122)]))
  (.act .enter 38 .tolower (.cls [(65, 90)]))))))) (.cls [(47, 47)])) (.cls [(63, 63)])))))))))))) .eps))) (.cat
  (.prio .all 3 1 (.act .leave 42 .markQStart (.cat (.cls [(63, 63)]) (.cls [(61, 61)])))) (.prio .start 3 0 (.act
  .leave 50 .setQComponent (.act .errAny 49 .errMalformedQ (.act .enter 43 .mark (.cat (.alt (.act .leave 44
  .markQStart (.cat (.cls [(63, 63)]) (.cls [(61, 61)]))) (.cat (.alt (.alt (.alt (.alt (.cls [(48, 57), (65, 90),
  (97, 122)]) (.cls [(40, 40), (41, 41), (43, 43), (44, 44), (45, 45), (46, 46), (58, 58), (61, 61), (64, 64), (59,
  59), (36, 36), (95, 95), (33, 33), (42, 42), (39, 39)])) (.cls [(126, 126)])) (.cls [(38, 38)])) (.cat (.cls [(37,
  37)]) (.act .errAny 46 .errHex (.cat (.alt (.alt (.cls [(48, 57)]) (.cls [(97, 122)])) (.act .enter 45 .tolower
  (.cls [(65, 90)]))) (.alt (.alt (.cls [(48, 57)]) (.cls [(97, 122)])) (.act .enter 45 .tolower (.cls [(65,
  90)]))))))) (.star (.alt (.alt (.alt (.alt (.alt (.alt (.cls [(48, 57), (65, 90), (97, 122)]) (.cls [(40, 40), (41,
  41), (43, 43), (44, 44), (45, 45), (46, 46), (58, 58), (61, 61), (64, 64), (59, 59), (36, 36), (95, 95), (33, 33),
  (42, 42), (39, 39)])) (.cls [(126, 126)])) (.cls [(38, 38)])) (.cat (.cls [(37, 37)]) (.act .errAny 48 .errHex
  (.cat (.alt (.alt (.cls [(48, 57)]) (.cls [(97, 122)])) (.act .enter 47 .tolower (.cls [(65, 90)]))) (.alt (.alt
  (.cls [(48, 57)]) (.cls [(97, 122)])) (.act .enter 47 .tolower (.cls [(65, 90)]))))))) (.cls [(47, 47)])) (.cls
  [(63, 63)]))))) (.star (.alt (.act .leave 44 .markQStart (.cat (.cls [(63, 63)]) (.cls [(61, 61)]))) (.cat (.alt
  (.alt (.alt (.alt (.cls [(48, 57), (65, 90), (97, 122)]) (.cls [(40, 40), (41, 41), (43, 43), (44, 44), (45, 45),
  (46, 46), (58, 58), (61, 61), (64, 64), (59, 59), (36, 36), (95, 95), (33, 33), (42, 42), (39, 39)])) (.cls [(126,
  126)])) (.cls [(38, 38)])) (.cat (.cls [(37, 37)]) (.act .errAny 46 .errHex (.cat (.alt (.alt (.cls [(48, 57)])
  (.cls [(97, 122)])) (.act .enter 45 .tolower (.cls [(65, 90)]))) (.alt (.alt (.cls [(48, 57)]) (.cls [(97, 122)]))
  (.act .enter 45 .tolower (.cls [(65, 90)]))))))) (.star (.alt (.alt (.alt (.alt (.alt (.alt (.cls [(48, 57), (65,
  90), (97, 122)]) (.cls [(40, 40), (41, 41), (43, 43), (44, 44), (45, 45), (46, 46), (58, 58), (61, 61), (64, 64),
  (59, 59), (36, 36), (95, 95), (33, 33), (42, 42), (39, 39)])) (.cls [(126, 126)])) (.cls [(38, 38)])) (.cat (.cls
  [(37, 37)]) (.act .errAny 48 .errHex (.cat (.alt (.alt (.cls [(48, 57)]) (.cls [(97, 122)])) (.act .enter 47
  .tolower (.cls [(65, 90)]))) (.alt (.alt (.cls [(48, 57)]) (.cls [(97, 122)])) (.act .enter 47 .tolower (.cls [(65,
  90)]))))))) (.cls [(47, 47)])) (.cls [(63, 63)]))))))))))))) .eps)) (.act .eofFinal 55 .rfc8141Type (.alt (.cat
  (.cls [(35, 35)]) (.act .leave 54 .setFComponent (.act .enter 51 .mark (.star (.alt (.alt (.alt (.alt (.alt (.alt
  (.cls [(48, 57), (65, 90), (97, 122)]) (.cls [(40, 40), (41, 41), (43, 43), (44, 44), (45, 45), (46, 46), (58, 58),
  (61, 61), (64, 64), (59, 59), (36, 36), (95, 95), (33, 33), (42, 42), (39, 39)])) (.cls [(126, 126)])) (.cls [(38,
  38)])) (.cat (.cls [(37, 37)]) (.act .errAny 53 .errHex (.cat (.alt (.alt (.cls [(48, 57)]) (.cls [(97, 122)]))
  (.act .enter 52 .tolower (.cls [(65, 90)]))) (.alt (.alt (.cls [(48, 57)]) (.cls [(97, 122)])) (.act .enter 52
  .tolower (.cls [(65, 90)]))))))) (.cls [(47, 47)])) (.cls [(63, 63)])))))) .eps)))

/-- The states of `rfc8141Only` for each number of a state, part 1 -/
def rfc8141OnlyPairs1 : List (Nat × List Config) := [
  (83, [
    [none]]),
  (84, [
    [some (.left (.left (.left (.left (.left (.left (.left (.left .here))))))))]]),
  (85, [
    [some (.left (.left (.left (.left (.left (.left (.left (.right .here))))))))]]),
  (86, [
    [some (.left (.left (.left (.left (.left (.left (.right .here)))))))]]),
  (87, [
    [some (.left (.left (.left (.left (.left (.right .here))))))]]),
  (88, [
    [some (.left (.left (.left (.left (.right (.only (.left (.left .here))))))))]]),
  (89, [
    [some (.left (.left (.left (.left (.right (.only (.left (.right (.copy 0 (.right .here))))))))))]]),
  (90, [
    [some (.left (.left (.left (.left (.right (.only (.left (.right (.copy 1 (.right .here))))))))))]]),
  (91, [
    [some (.left (.left (.left (.left (.right (.only (.left (.right (.copy 2 (.right .here))))))))))]]),
  (92, [
    [some (.left (.left (.left (.left (.right (.only (.left (.right (.copy 3 (.right .here))))))))))]]),
  (93, [
    [some (.left (.left (.left (.left (.right (.only (.left (.right (.copy 4 (.right .here))))))))))]]),
  (94, [
    [some (.left (.left (.left (.left (.right (.only (.left (.right (.copy 5 (.right .here))))))))))]]),
  (95, [
    [some (.left (.left (.left (.left (.right (.only (.left (.right (.copy 6 (.right .here))))))))))]]),
  (96, [
    [some (.left (.left (.left (.left (.right (.only (.left (.right (.copy 7 (.right .here))))))))))]]),
  (97, [
    [some (.left (.left (.left (.left (.right (.only (.left (.right (.copy 8 (.right .here))))))))))]]),
  (98, [
    [some (.left (.left (.left (.left (.right (.only (.left (.right (.copy 9 (.right .here))))))))))]]),
  (99, [
    [some (.left (.left (.left (.left (.right (.only (.left (.right (.copy 10 (.right .here))))))))))]]),
  (100, [
    [some (.left (.left (.left (.left (.right (.only (.left (.right (.copy 11 (.right .here))))))))))]]),
  (101, [
    [some (.left (.left (.left (.left (.right (.only (.left (.right (.copy 12 (.right .here))))))))))]]),
  (102, [
    [some (.left (.left (.left (.left (.right (.only (.left (.right (.copy 13 (.right .here))))))))))]]),
  (103, [
    [some (.left (.left (.left (.left (.right (.only (.left (.right (.copy 14 (.right .here))))))))))]]),
  (104, [
    [some (.left (.left (.left (.left (.right (.only (.left (.right (.copy 15 (.right .here))))))))))]]),
  (105, [
    [some (.left (.left (.left (.left (.right (.only (.left (.right (.copy 16 (.right .here))))))))))]]),
  (106, [
    [some (.left (.left (.left (.left (.right (.only (.left (.right (.copy 17 (.right .here))))))))))]]),
  (107, [
    [some (.left (.left (.left (.left (.right (.only (.left (.right (.copy 18 (.right .here))))))))))]]),
  (108, [
    [some (.left (.left (.left (.left (.right (.only (.left (.right (.copy 19 (.right .here))))))))))]]),
  (109, [
    [some (.left (.left (.left (.left (.right (.only (.left (.right (.copy 20 (.right .here))))))))))]]),
  (110, [
    [some (.left (.left (.left (.left (.right (.only (.left (.right (.copy 21 (.right .here))))))))))]]),
  (111, [
    [some (.left (.left (.left (.left (.right (.only (.left (.right (.copy 22 (.right .here))))))))))]]),
  (112, [
    [some (.left (.left (.left (.left (.right (.only (.left (.right (.copy 23 (.right .here))))))))))]]),
  (113, [
    [some (.left (.left (.left (.left (.right (.only (.left (.right (.copy 24 (.right .here))))))))))]]),
  (114, [
    [some (.left (.left (.left (.left (.right (.only (.left (.right (.copy 25 (.right .here))))))))))]]),
  (115, [
    [some (.left (.left (.left (.left (.right (.only (.left (.right (.copy 26 (.right .here))))))))))]]),
  (116, [
    [some (.left (.left (.left (.left (.right (.only (.left (.right (.copy 27 (.right .here))))))))))]]),
  (117, [
    [some (.left (.left (.left (.left (.right (.only (.left (.right (.copy 28 (.right .here))))))))))]]),
  (118, [
    [some (.left (.left (.left (.left (.right (.only (.left (.right (.copy 29 (.right .here))))))))))]])]

/-- The states of `rfc8141Only` for each number of a state, part 2 -/
def rfc8141OnlyPairs2 : List (Nat × List Config) := [
  (119, [
    [some (.left (.left (.left (.left (.right (.only (.right .here)))))))]]),
  (120, [
    [some (.left (.left (.left (.right .here))))]]),
  (121, [
    [some (.right (.left (.right (.left (.left (.right (.left .here)))))))]]),
  (122, [
    [some (.right (.left (.right (.left (.left (.right (.right (.left (.left (.left .here))))))))))],
    [some (.right (.left (.right (.left (.left (.right (.right (.left (.right .here)))))))))],
    [some (.right (.left (.right (.left (.left (.right (.right (.left (.left (.right .here))))))))))]]),
  (123, [
    [some (.left (.left (.right (.left (.right (.left .here))))))],
    [some (.left (.left (.right (.right (.left (.right (.left .here)))))))]]),
  (124, [
    [some (.left (.left (.right (.right (.left (.right (.right (.left (.left (.left .here))))))))))],
    [some (.left (.left (.right (.right (.left (.right (.right (.left (.right .here)))))))))],
    [some (.left (.left (.right (.right (.left (.right (.right (.left (.left (.right .here))))))))))],
    [some (.left (.left (.right (.left (.right (.right (.left (.left (.left .here)))))))))],
    [some (.left (.left (.right (.left (.right (.right (.left (.right .here))))))))],
    [some (.left (.left (.right (.left (.right (.right (.left (.left (.right .here)))))))))]]),
  (125, [
    [some (.left (.right (.left (.left (.left (.left (.left .here))))))), some (.left (.right (.left (.right (.left
    (.left .here))))))]]),
  (126, [
    [some (.left (.right (.left (.left (.left (.left (.right .here)))))))]]),
  (127, [
    [some (.left (.right (.left (.left (.left (.right (.left (.right (.left (.right (.left .here)))))))))))],
    [some (.left (.right (.left (.left (.left (.right (.left (.right (.right (.left (.left (.right (.left
    .here))))))))))))), some (.left (.right (.left (.left (.left (.right (.right (.right (.left (.right (.left
    .here)))))))))))],
    [some (.left (.right (.left (.left (.left (.right (.left (.right (.right (.left (.left (.right (.left
    .here))))))))))))), some (.left (.right (.left (.left (.left (.right (.right (.right (.right (.left (.left
    (.right (.left .here))))))))))))), some (.left (.right (.left (.left (.left (.right (.right (.right (.left
    (.right (.left .here)))))))))))],
    [some (.left (.right (.left (.left (.left (.right (.right (.right (.left (.right (.left .here)))))))))))],
    [some (.left (.right (.left (.left (.left (.right (.right (.right (.right (.left (.left (.right (.left
    .here))))))))))))), some (.left (.right (.left (.left (.left (.right (.right (.right (.left (.right (.left
    .here)))))))))))]]),
  (128, [
    [some (.left (.right (.left (.left (.left (.right (.left (.right (.right (.left (.left (.right (.right (.left
    (.left (.left .here)))))))))))))))), some (.left (.right (.left (.left (.left (.right (.right (.right (.right
    (.left (.left (.right (.right (.left (.left (.left .here)))))))))))))))), some (.left (.right (.left (.left
    (.left (.right (.right (.right (.left (.right (.right (.left (.left (.left .here))))))))))))))],
    [some (.left (.right (.left (.left (.left (.right (.left (.right (.right (.left (.left (.right (.right (.left
    (.right .here))))))))))))))), some (.left (.right (.left (.left (.left (.right (.right (.right (.right (.left
    (.left (.right (.right (.left (.right .here))))))))))))))), some (.left (.right (.left (.left (.left (.right
    (.right (.right (.left (.right (.right (.left (.right .here)))))))))))))],
    [some (.left (.right (.left (.left (.left (.right (.left (.right (.right (.left (.left (.right (.right (.left
    (.left (.right .here)))))))))))))))), some (.left (.right (.left (.left (.left (.right (.right (.right (.right
    (.left (.left (.right (.right (.left (.left (.right .here)))))))))))))))), some (.left (.right (.left (.left
    (.left (.right (.right (.right (.left (.right (.right (.left (.left (.right .here))))))))))))))],
    [some (.left (.right (.left (.left (.left (.right (.left (.right (.right (.left (.left (.right (.right (.left
    (.left (.left .here)))))))))))))))), some (.left (.right (.left (.left (.left (.right (.right (.right (.left
    (.right (.right (.left (.left (.left .here))))))))))))))],
    [some (.left (.right (.left (.left (.left (.right (.left (.right (.right (.left (.left (.right (.right (.left
    (.right .here))))))))))))))), some (.left (.right (.left (.left (.left (.right (.right (.right (.left (.right
    (.right (.left (.right .here)))))))))))))],
    [some (.left (.right (.left (.left (.left (.right (.left (.right (.right (.left (.left (.right (.right (.left
    (.left (.right .here)))))))))))))))), some (.left (.right (.left (.left (.left (.right (.right (.right (.left
    (.right (.right (.left (.left (.right .here))))))))))))))],
    [some (.left (.right (.left (.left (.left (.right (.right (.right (.right (.left (.left (.right (.right (.left
    (.left (.left .here)))))))))))))))), some (.left (.right (.left (.left (.left (.right (.right (.right (.left
    (.right (.right (.left (.left (.left .here))))))))))))))],
    [some (.left (.right (.left (.left (.left (.right (.right (.right (.right (.left (.left (.right (.right (.left
    (.right .here))))))))))))))), some (.left (.right (.left (.left (.left (.right (.right (.right (.left (.right
    (.right (.left (.right .here)))))))))))))],
    [some (.left (.right (.left (.left (.left (.right (.right (.right (.right (.left (.left (.right (.right (.left
    (.left (.right .here)))))))))))))))), some (.left (.right (.left (.left (.left (.right (.right (.right (.left
    (.right (.right (.left (.left (.right .here))))))))))))))],
    [some (.left (.right (.left (.left (.left (.right (.right (.right (.left (.right (.right (.left (.left (.left
    .here))))))))))))))],
    [some (.left (.right (.left (.left (.left (.right (.right (.right (.left (.right (.right (.left (.right
    .here)))))))))))))],
    [some (.left (.right (.left (.left (.left (.right (.right (.right (.left (.right (.right (.left (.left (.right
    .here))))))))))))))],
    [some (.left (.right (.left (.left (.left (.right (.left (.right (.left (.right (.right (.left (.left (.left
    .here))))))))))))))],
    [some (.left (.right (.left (.left (.left (.right (.left (.right (.left (.right (.right (.left (.right
    .here)))))))))))))],
    [some (.left (.right (.left (.left (.left (.right (.left (.right (.left (.right (.right (.left (.left (.right
    .here))))))))))))))]])]

/-- The states of `rfc8141Only` for each number of a state, part 3 -/
def rfc8141OnlyPairs3 : List (Nat × List Config) := [
  (129, [
    [some (.left (.right (.left (.right (.right (.left (.right (.left (.right (.left .here))))))))))],
    [some (.left (.right (.left (.right (.right (.left (.right (.right (.left (.left (.right (.left
    .here)))))))))))), some (.left (.right (.left (.right (.right (.right (.right (.left (.right (.left
    .here))))))))))],
    [some (.left (.right (.left (.right (.right (.left (.right (.right (.left (.left (.right (.left
    .here)))))))))))), some (.left (.right (.left (.right (.right (.right (.right (.right (.left (.left (.right
    (.left .here)))))))))))), some (.left (.right (.left (.right (.right (.right (.right (.left (.right (.left
    .here))))))))))],
    [some (.left (.right (.left (.right (.right (.right (.right (.left (.right (.left .here))))))))))],
    [some (.left (.right (.left (.right (.right (.right (.right (.right (.left (.left (.right (.left
    .here)))))))))))), some (.left (.right (.left (.right (.right (.right (.right (.left (.right (.left
    .here))))))))))],
    [some (.left (.right (.left (.left (.right (.left (.right (.left (.right (.right (.left (.left (.right (.left
    .here)))))))))))))), some (.left (.right (.left (.left (.right (.left (.right (.right (.right (.left (.right
    (.left .here))))))))))))],
    [some (.left (.right (.left (.left (.right (.left (.right (.left (.right (.right (.left (.left (.right (.left
    .here)))))))))))))), some (.left (.right (.left (.left (.right (.left (.right (.right (.right (.right (.left
    (.left (.right (.left .here)))))))))))))), some (.left (.right (.left (.left (.right (.left (.right (.right
    (.right (.left (.right (.left .here))))))))))))],
    [some (.left (.right (.left (.left (.right (.left (.right (.left (.right (.left (.right (.left .here))))))))))))],
    [some (.left (.right (.left (.left (.right (.left (.right (.right (.right (.left (.right (.left
    .here))))))))))))],
    [some (.left (.right (.left (.left (.right (.left (.right (.right (.right (.right (.left (.left (.right (.left
    .here)))))))))))))), some (.left (.right (.left (.left (.right (.left (.right (.right (.right (.left (.right
    (.left .here))))))))))))]])]

/-- The states of `rfc8141Only` for each number of a state, part 4 -/
def rfc8141OnlyPairs4 : List (Nat × List Config) := [
  (130, [
    [some (.left (.right (.left (.right (.right (.left (.right (.right (.left (.left (.right (.right (.left (.left
    (.left .here))))))))))))))), some (.left (.right (.left (.right (.right (.right (.right (.right (.left (.left
    (.right (.right (.left (.left (.left .here))))))))))))))), some (.left (.right (.left (.right (.right (.right
    (.right (.left (.right (.right (.left (.left (.left .here)))))))))))))],
    [some (.left (.right (.left (.right (.right (.left (.right (.right (.left (.left (.right (.right (.left (.right
    .here)))))))))))))), some (.left (.right (.left (.right (.right (.right (.right (.right (.left (.left (.right
    (.right (.left (.right .here)))))))))))))), some (.left (.right (.left (.right (.right (.right (.right (.left
    (.right (.right (.left (.right .here))))))))))))],
    [some (.left (.right (.left (.right (.right (.left (.right (.right (.left (.left (.right (.right (.left (.left
    (.right .here))))))))))))))), some (.left (.right (.left (.right (.right (.right (.right (.right (.left (.left
    (.right (.right (.left (.left (.right .here))))))))))))))), some (.left (.right (.left (.right (.right (.right
    (.right (.left (.right (.right (.left (.left (.right .here)))))))))))))],
    [some (.left (.right (.left (.right (.right (.left (.right (.right (.left (.left (.right (.right (.left (.left
    (.left .here))))))))))))))), some (.left (.right (.left (.right (.right (.right (.right (.left (.right (.right
    (.left (.left (.left .here)))))))))))))],
    [some (.left (.right (.left (.right (.right (.left (.right (.right (.left (.left (.right (.right (.left (.right
    .here)))))))))))))), some (.left (.right (.left (.right (.right (.right (.right (.left (.right (.right (.left
    (.right .here))))))))))))],
    [some (.left (.right (.left (.right (.right (.left (.right (.right (.left (.left (.right (.right (.left (.left
    (.right .here))))))))))))))), some (.left (.right (.left (.right (.right (.right (.right (.left (.right (.right
    (.left (.left (.right .here)))))))))))))],
    [some (.left (.right (.left (.right (.right (.right (.right (.right (.left (.left (.right (.right (.left (.left
    (.left .here))))))))))))))), some (.left (.right (.left (.right (.right (.right (.right (.left (.right (.right
    (.left (.left (.left .here)))))))))))))],
    [some (.left (.right (.left (.right (.right (.right (.right (.right (.left (.left (.right (.right (.left (.right
    .here)))))))))))))), some (.left (.right (.left (.right (.right (.right (.right (.left (.right (.right (.left
    (.right .here))))))))))))],
    [some (.left (.right (.left (.right (.right (.right (.right (.right (.left (.left (.right (.right (.left (.left
    (.right .here))))))))))))))), some (.left (.right (.left (.right (.right (.right (.right (.left (.right (.right
    (.left (.left (.right .here)))))))))))))],
    [some (.left (.right (.left (.right (.right (.right (.right (.left (.right (.right (.left (.left (.left
    .here)))))))))))))],
    [some (.left (.right (.left (.right (.right (.right (.right (.left (.right (.right (.left (.right
    .here))))))))))))],
    [some (.left (.right (.left (.right (.right (.right (.right (.left (.right (.right (.left (.left (.right
    .here)))))))))))))],
    [some (.left (.right (.left (.right (.right (.left (.right (.left (.right (.right (.left (.left (.left
    .here)))))))))))))],
    [some (.left (.right (.left (.right (.right (.left (.right (.left (.right (.right (.left (.right
    .here))))))))))))],
    [some (.left (.right (.left (.right (.right (.left (.right (.left (.right (.right (.left (.left (.right
    .here)))))))))))))],
    [some (.left (.right (.left (.left (.right (.left (.right (.left (.right (.right (.left (.left (.right (.right
    (.left (.left (.left .here))))))))))))))))), some (.left (.right (.left (.left (.right (.left (.right (.right
    (.right (.right (.left (.left (.right (.right (.left (.left (.left .here))))))))))))))))), some (.left (.right
    (.left (.left (.right (.left (.right (.right (.right (.left (.right (.right (.left (.left (.left
    .here)))))))))))))))],
    [some (.left (.right (.left (.left (.right (.left (.right (.left (.right (.right (.left (.left (.right (.right
    (.left (.right .here)))))))))))))))), some (.left (.right (.left (.left (.right (.left (.right (.right (.right
    (.right (.left (.left (.right (.right (.left (.right .here)))))))))))))))), some (.left (.right (.left (.left
    (.right (.left (.right (.right (.right (.left (.right (.right (.left (.right .here))))))))))))))],
    [some (.left (.right (.left (.left (.right (.left (.right (.left (.right (.right (.left (.left (.right (.right
    (.left (.left (.right .here))))))))))))))))), some (.left (.right (.left (.left (.right (.left (.right (.right
    (.right (.right (.left (.left (.right (.right (.left (.left (.right .here))))))))))))))))), some (.left (.right
    (.left (.left (.right (.left (.right (.right (.right (.left (.right (.right (.left (.left (.right
    .here)))))))))))))))],
    [some (.left (.right (.left (.left (.right (.left (.right (.left (.right (.right (.left (.left (.right (.right
    (.left (.left (.left .here))))))))))))))))), some (.left (.right (.left (.left (.right (.left (.right (.right
    (.right (.left (.right (.right (.left (.left (.left .here)))))))))))))))],
    [some (.left (.right (.left (.left (.right (.left (.right (.left (.right (.right (.left (.left (.right (.right
    (.left (.right .here)))))))))))))))), some (.left (.right (.left (.left (.right (.left (.right (.right (.right
    (.left (.right (.right (.left (.right .here))))))))))))))],
    [some (.left (.right (.left (.left (.right (.left (.right (.left (.right (.right (.left (.left (.right (.right
    (.left (.left (.right .here))))))))))))))))), some (.left (.right (.left (.left (.right (.left (.right (.right
    (.right (.left (.right (.right (.left (.left (.right .here)))))))))))))))],
    [some (.left (.right (.left (.left (.right (.left (.right (.right (.right (.right (.left (.left (.right (.right
    (.left (.left (.left .here))))))))))))))))), some (.left (.right (.left (.left (.right (.left (.right (.right
    (.right (.left (.right (.right (.left (.left (.left .here)))))))))))))))],
    [some (.left (.right (.left (.left (.right (.left (.right (.right (.right (.right (.left (.left (.right (.right
    (.left (.right .here)))))))))))))))), some (.left (.right (.left (.left (.right (.left (.right (.right (.right
    (.left (.right (.right (.left (.right .here))))))))))))))],
    [some (.left (.right (.left (.left (.right (.left (.right (.right (.right (.right (.left (.left (.right (.right
    (.left (.left (.right .here))))))))))))))))), some (.left (.right (.left (.left (.right (.left (.right (.right
    (.right (.left (.right (.right (.left (.left (.right .here)))))))))))))))],
    [some (.left (.right (.left (.left (.right (.left (.right (.right (.right (.left (.right (.right (.left (.left
    (.left .here)))))))))))))))],
    [some (.left (.right (.left (.left (.right (.left (.right (.right (.right (.left (.right (.right (.left (.right
    .here))))))))))))))],
    [some (.left (.right (.left (.left (.right (.left (.right (.right (.right (.left (.right (.right (.left (.left
    (.right .here)))))))))))))))],
    [some (.left (.right (.left (.left (.right (.left (.right (.left (.right (.left (.right (.right (.left (.left
    (.left .here)))))))))))))))],
    [some (.left (.right (.left (.left (.right (.left (.right (.left (.right (.left (.right (.right (.left (.right
    .here))))))))))))))],
    [some (.left (.right (.left (.left (.right (.left (.right (.left (.right (.left (.right (.right (.left (.left
    (.right .here)))))))))))))))]]),
  (131, [
    [some (.left (.right (.left (.left (.left (.right (.left (.right (.right (.left (.left (.right (.left
    .here))))))))))))), some (.left (.right (.left (.left (.left (.right (.right (.right (.right (.left (.left
    (.right (.left .here))))))))))))), some (.left (.right (.left (.left (.left (.right (.right (.right (.left
    (.right (.left .here))))))))))), some (.left (.right (.left (.left (.right (.left (.right (.left (.right (.left
    (.right (.left .here))))))))))))],
    [some (.left (.right (.left (.left (.left (.right (.right (.right (.right (.left (.left (.right (.left
    .here))))))))))))), some (.left (.right (.left (.left (.left (.right (.right (.right (.left (.right (.left
    .here))))))))))), some (.left (.right (.left (.left (.right (.left (.right (.left (.right (.left (.right (.left
    .here))))))))))))]])]

/-- The states of `rfc8141Only` for each number of a state, part 5 -/
def rfc8141OnlyPairs5 : List (Nat × List Config) := [
  (132, [
    [some (.left (.right (.left (.left (.left (.right (.left (.right (.right (.left (.left (.right (.right (.left
    (.left (.left .here)))))))))))))))), some (.left (.right (.left (.left (.left (.right (.right (.right (.right
    (.left (.left (.right (.right (.left (.left (.left .here)))))))))))))))), some (.left (.right (.left (.left
    (.left (.right (.right (.right (.left (.right (.right (.left (.left (.left .here)))))))))))))), some (.left
    (.right (.left (.left (.right (.left (.right (.left (.right (.left (.right (.right (.left (.left (.left
    .here)))))))))))))))],
    [some (.left (.right (.left (.left (.left (.right (.left (.right (.right (.left (.left (.right (.right (.left
    (.right .here))))))))))))))), some (.left (.right (.left (.left (.left (.right (.right (.right (.right (.left
    (.left (.right (.right (.left (.right .here))))))))))))))), some (.left (.right (.left (.left (.left (.right
    (.right (.right (.left (.right (.right (.left (.right .here))))))))))))), some (.left (.right (.left (.left
    (.right (.left (.right (.left (.right (.left (.right (.right (.left (.right .here))))))))))))))],
    [some (.left (.right (.left (.left (.left (.right (.left (.right (.right (.left (.left (.right (.right (.left
    (.left (.right .here)))))))))))))))), some (.left (.right (.left (.left (.left (.right (.right (.right (.right
    (.left (.left (.right (.right (.left (.left (.right .here)))))))))))))))), some (.left (.right (.left (.left
    (.left (.right (.right (.right (.left (.right (.right (.left (.left (.right .here)))))))))))))), some (.left
    (.right (.left (.left (.right (.left (.right (.left (.right (.left (.right (.right (.left (.left (.right
    .here)))))))))))))))],
    [some (.left (.right (.left (.left (.left (.right (.right (.right (.right (.left (.left (.right (.right (.left
    (.left (.left .here)))))))))))))))), some (.left (.right (.left (.left (.left (.right (.right (.right (.left
    (.right (.right (.left (.left (.left .here)))))))))))))), some (.left (.right (.left (.left (.right (.left
    (.right (.left (.right (.left (.right (.right (.left (.left (.left .here)))))))))))))))],
    [some (.left (.right (.left (.left (.left (.right (.right (.right (.right (.left (.left (.right (.right (.left
    (.right .here))))))))))))))), some (.left (.right (.left (.left (.left (.right (.right (.right (.left (.right
    (.right (.left (.right .here))))))))))))), some (.left (.right (.left (.left (.right (.left (.right (.left
    (.right (.left (.right (.right (.left (.right .here))))))))))))))],
    [some (.left (.right (.left (.left (.left (.right (.right (.right (.right (.left (.left (.right (.right (.left
    (.left (.right .here)))))))))))))))), some (.left (.right (.left (.left (.left (.right (.right (.right (.left
    (.right (.right (.left (.left (.right .here)))))))))))))), some (.left (.right (.left (.left (.right (.left
    (.right (.left (.right (.left (.right (.right (.left (.left (.right .here)))))))))))))))]]),
  (133, [
    [some (.left (.right (.left (.left (.left (.right (.left (.left (.left .here)))))))))]]),
  (134, [
    [some (.left (.right (.left (.left (.left (.right (.right (.left (.left .here))))))))), some (.left (.right
    (.left (.left (.right (.left (.left (.left .here))))))))]]),
  (135, [
    [some (.left (.right (.left (.right (.left (.right .here))))))],
    [some (.left (.right (.left (.left (.right (.left (.left (.right .here))))))))]]),
  (136, [
    [some (.left (.right (.left (.right (.right (.left (.left (.left .here))))))))],
    [some (.left (.right (.left (.right (.right (.right (.left (.left .here))))))))],
    [some (.left (.right (.left (.left (.right (.left (.right (.left (.left (.left .here))))))))))],
    [some (.left (.right (.left (.left (.right (.left (.right (.right (.left (.left .here))))))))))]]),
  (137, [
    [some (.left (.left (.left (.left (.right (.only (.left (.right (.copy 29 (.left .here)))))))))), some (.left
    (.left (.left (.left (.right (.only (.right .here)))))))]]),
  (138, [
    [some (.left (.left (.left (.left (.right (.only (.left (.right (.copy 28 (.left .here)))))))))), some (.left
    (.left (.left (.left (.right (.only (.right .here)))))))]]),
  (139, [
    [some (.left (.left (.left (.left (.right (.only (.left (.right (.copy 27 (.left .here)))))))))), some (.left
    (.left (.left (.left (.right (.only (.right .here)))))))]]),
  (140, [
    [some (.left (.left (.left (.left (.right (.only (.left (.right (.copy 26 (.left .here)))))))))), some (.left
    (.left (.left (.left (.right (.only (.right .here)))))))]]),
  (141, [
    [some (.left (.left (.left (.left (.right (.only (.left (.right (.copy 25 (.left .here)))))))))), some (.left
    (.left (.left (.left (.right (.only (.right .here)))))))]]),
  (142, [
    [some (.left (.left (.left (.left (.right (.only (.left (.right (.copy 24 (.left .here)))))))))), some (.left
    (.left (.left (.left (.right (.only (.right .here)))))))]]),
  (143, [
    [some (.left (.left (.left (.left (.right (.only (.left (.right (.copy 23 (.left .here)))))))))), some (.left
    (.left (.left (.left (.right (.only (.right .here)))))))]]),
  (144, [
    [some (.left (.left (.left (.left (.right (.only (.left (.right (.copy 22 (.left .here)))))))))), some (.left
    (.left (.left (.left (.right (.only (.right .here)))))))]]),
  (145, [
    [some (.left (.left (.left (.left (.right (.only (.left (.right (.copy 21 (.left .here)))))))))), some (.left
    (.left (.left (.left (.right (.only (.right .here)))))))]]),
  (146, [
    [some (.left (.left (.left (.left (.right (.only (.left (.right (.copy 20 (.left .here)))))))))), some (.left
    (.left (.left (.left (.right (.only (.right .here)))))))]]),
  (147, [
    [some (.left (.left (.left (.left (.right (.only (.left (.right (.copy 19 (.left .here)))))))))), some (.left
    (.left (.left (.left (.right (.only (.right .here)))))))]]),
  (148, [
    [some (.left (.left (.left (.left (.right (.only (.left (.right (.copy 18 (.left .here)))))))))), some (.left
    (.left (.left (.left (.right (.only (.right .here)))))))]]),
  (149, [
    [some (.left (.left (.left (.left (.right (.only (.left (.right (.copy 17 (.left .here)))))))))), some (.left
    (.left (.left (.left (.right (.only (.right .here)))))))]]),
  (150, [
    [some (.left (.left (.left (.left (.right (.only (.left (.right (.copy 16 (.left .here)))))))))), some (.left
    (.left (.left (.left (.right (.only (.right .here)))))))]]),
  (151, [
    [some (.left (.left (.left (.left (.right (.only (.left (.right (.copy 15 (.left .here)))))))))), some (.left
    (.left (.left (.left (.right (.only (.right .here)))))))]]),
  (152, [
    [some (.left (.left (.left (.left (.right (.only (.left (.right (.copy 14 (.left .here)))))))))), some (.left
    (.left (.left (.left (.right (.only (.right .here)))))))]]),
  (153, [
    [some (.left (.left (.left (.left (.right (.only (.left (.right (.copy 13 (.left .here)))))))))), some (.left
    (.left (.left (.left (.right (.only (.right .here)))))))]]),
  (154, [
    [some (.left (.left (.left (.left (.right (.only (.left (.right (.copy 12 (.left .here)))))))))), some (.left
    (.left (.left (.left (.right (.only (.right .here)))))))]]),
  (155, [
    [some (.left (.left (.left (.left (.right (.only (.left (.right (.copy 11 (.left .here)))))))))), some (.left
    (.left (.left (.left (.right (.only (.right .here)))))))]]),
  (156, [
    [some (.left (.left (.left (.left (.right (.only (.left (.right (.copy 10 (.left .here)))))))))), some (.left
    (.left (.left (.left (.right (.only (.right .here)))))))]]),
  (157, [
    [some (.left (.left (.left (.left (.right (.only (.left (.right (.copy 9 (.left .here)))))))))), some (.left
    (.left (.left (.left (.right (.only (.right .here)))))))]]),
  (158, [
    [some (.left (.left (.left (.left (.right (.only (.left (.right (.copy 8 (.left .here)))))))))), some (.left
    (.left (.left (.left (.right (.only (.right .here)))))))]])]

/-- The states of `rfc8141Only` for each number of a state, part 6 -/
def rfc8141OnlyPairs6 : List (Nat × List Config) := [
  (159, [
    [some (.left (.left (.left (.left (.right (.only (.left (.right (.copy 7 (.left .here)))))))))), some (.left
    (.left (.left (.left (.right (.only (.right .here)))))))]]),
  (160, [
    [some (.left (.left (.left (.left (.right (.only (.left (.right (.copy 6 (.left .here)))))))))), some (.left
    (.left (.left (.left (.right (.only (.right .here)))))))]]),
  (161, [
    [some (.left (.left (.left (.left (.right (.only (.left (.right (.copy 5 (.left .here)))))))))), some (.left
    (.left (.left (.left (.right (.only (.right .here)))))))]]),
  (162, [
    [some (.left (.left (.left (.left (.right (.only (.left (.right (.copy 4 (.left .here)))))))))), some (.left
    (.left (.left (.left (.right (.only (.right .here)))))))]]),
  (163, [
    [some (.left (.left (.left (.left (.right (.only (.left (.right (.copy 3 (.left .here)))))))))), some (.left
    (.left (.left (.left (.right (.only (.right .here)))))))]]),
  (164, [
    [some (.left (.left (.left (.left (.right (.only (.left (.right (.copy 2 (.left .here)))))))))), some (.left
    (.left (.left (.left (.right (.only (.right .here)))))))]]),
  (165, [
    [some (.left (.left (.left (.left (.right (.only (.left (.right (.copy 1 (.left .here)))))))))), some (.left
    (.left (.left (.left (.right (.only (.right .here)))))))]]),
  (166, [
    [some (.left (.left (.left (.left (.right (.only (.left (.right (.copy 0 (.left .here)))))))))), some (.left
    (.left (.left (.left (.right (.only (.right .here)))))))]]),
  (167, [
    [some (.left (.left (.left (.left (.right (.both (.left (.left .here)) (.left (.left (.left (.left
    .here))))))))))]]),
  (168, [
    [some (.left (.left (.left (.left (.right (.both (.left (.right (.copy 0 (.left .here)))) (.left (.left (.left
    (.right .here)))))))))), some (.left (.left (.left (.left (.right (.both (.right .here) (.left (.left (.left
    (.right .here))))))))))]]),
  (169, [
    [some (.left (.left (.left (.left (.right (.both (.left (.right (.copy 1 (.left .here)))) (.left (.left (.right
    .here))))))))), some (.left (.left (.left (.left (.right (.both (.right .here) (.left (.left (.right
    .here)))))))))]]),
  (170, [
    [some (.left (.left (.left (.left (.right (.both (.left (.right (.copy 2 (.right .here)))) (.left (.right (.left
    .here)))))))))]]),
  (171, [
    [some (.left (.left (.left (.left (.right (.both (.left (.right (.copy 3 (.left .here)))) (.left (.right (.right
    .here))))))))), some (.left (.left (.left (.left (.right (.both (.right .here) (.left (.right (.right
    .here)))))))))]]),
  (177, [
    [some (.left (.left (.right (.left (.left (.left (.left (.right .here))))))))],
    [some (.left (.left (.right (.left (.left (.right .here))))))],
    [some (.left (.left (.right (.left (.left (.left (.left (.left .here))))))))],
    [some (.left (.left (.right (.left (.left (.left (.right .here)))))))],
    [some (.left (.left (.right (.right (.left (.left (.left (.left (.right .here)))))))))],
    [some (.left (.left (.right (.right (.left (.left (.right .here)))))))],
    [some (.left (.left (.right (.right (.right .here)))))],
    [some (.left (.left (.right (.right (.left (.left (.left (.left (.left .here)))))))))],
    [some (.left (.left (.right (.right (.left (.left (.left (.right .here))))))))]]),
  (178, [
    [some (.right (.left (.left .here)))]]),
  (179, [
    [some (.right (.left (.right (.left (.left (.left (.left (.left (.right .here)))))))))],
    [some (.right (.left (.right (.left (.left (.left (.right .here)))))))],
    [some (.right (.left (.right (.left (.right .here)))))],
    [some (.right (.left (.right (.left (.left (.left (.left (.left (.left .here)))))))))],
    [some (.right (.left (.right (.right .here))))],
    [some (.right (.left (.right (.left (.left (.left (.left (.right .here))))))))]]),
  (180, [
    [some (.right (.left (.right (.left (.left (.right (.right (.right (.left (.left .here))))))))))],
    [some (.right (.left (.right (.left (.left (.right (.right (.right (.right .here)))))))))],
    [some (.right (.left (.right (.left (.left (.right (.right (.right (.left (.right .here))))))))))]])]

/-- The states of `rfc8141Only` for each number of a state, part 7 -/
def rfc8141OnlyPairs7 : List (Nat × List Config) := [
  (181, [
    [some (.left (.left (.right (.right (.left (.right (.right (.right (.left (.left .here))))))))))],
    [some (.left (.left (.right (.right (.left (.right (.right (.right (.right .here)))))))))],
    [some (.left (.left (.right (.right (.left (.right (.right (.right (.left (.right .here))))))))))],
    [some (.left (.left (.right (.left (.right (.right (.right (.left (.left .here)))))))))],
    [some (.left (.left (.right (.left (.right (.right (.right (.right .here))))))))],
    [some (.left (.left (.right (.left (.right (.right (.right (.left (.right .here)))))))))]]),
  (182, [
    [some (.left (.right (.left (.left (.left (.right (.left (.right (.left (.left (.left (.left (.right
    .here)))))))))))))],
    [some (.left (.right (.left (.left (.left (.right (.left (.right (.left (.left (.right .here)))))))))))],
    [some (.left (.right (.left (.left (.left (.right (.left (.right (.left (.left (.left (.left (.left
    .here)))))))))))))],
    [some (.left (.right (.left (.left (.left (.right (.left (.right (.left (.left (.left (.right .here))))))))))))],
    [some (.left (.right (.left (.left (.left (.right (.left (.right (.right (.left (.left (.left (.left (.left
    (.right .here))))))))))))))), some (.left (.right (.left (.left (.left (.right (.right (.right (.left (.left
    (.left (.left (.right .here)))))))))))))],
    [some (.left (.right (.left (.left (.left (.right (.left (.right (.right (.left (.left (.left (.right
    .here))))))))))))), some (.left (.right (.left (.left (.left (.right (.right (.right (.left (.left (.right
    .here)))))))))))],
    [some (.left (.right (.left (.left (.left (.right (.left (.right (.right (.left (.right .here)))))))))))],
    [some (.left (.right (.left (.left (.left (.right (.left (.right (.right (.left (.left (.left (.left (.left
    (.left .here))))))))))))))), some (.left (.right (.left (.left (.left (.right (.right (.right (.left (.left
    (.left (.left (.left .here)))))))))))))],
    [some (.left (.right (.left (.left (.left (.right (.left (.right (.right (.left (.left (.left (.left (.right
    .here)))))))))))))), some (.left (.right (.left (.left (.left (.right (.right (.right (.left (.left (.left
    (.right .here))))))))))))],
    [some (.left (.right (.left (.left (.left (.right (.left (.right (.right (.left (.left (.left (.left (.left
    (.right .here))))))))))))))), some (.left (.right (.left (.left (.left (.right (.right (.right (.right (.left
    (.left (.left (.left (.left (.right .here))))))))))))))), some (.left (.right (.left (.left (.left (.right
    (.right (.right (.left (.left (.left (.left (.right .here)))))))))))))],
    [some (.left (.right (.left (.left (.left (.right (.left (.right (.right (.left (.left (.left (.right
    .here))))))))))))), some (.left (.right (.left (.left (.left (.right (.right (.right (.right (.left (.left (.left
    (.right .here))))))))))))), some (.left (.right (.left (.left (.left (.right (.right (.right (.left (.left
    (.right .here)))))))))))],
    [some (.left (.right (.left (.left (.left (.right (.left (.right (.right (.left (.right .here))))))))))), some
    (.left (.right (.left (.left (.left (.right (.right (.right (.right (.left (.right .here)))))))))))],
    [some (.left (.right (.left (.left (.left (.right (.left (.right (.right (.left (.left (.left (.left (.left
    (.left .here))))))))))))))), some (.left (.right (.left (.left (.left (.right (.right (.right (.right (.left
    (.left (.left (.left (.left (.left .here))))))))))))))), some (.left (.right (.left (.left (.left (.right (.right
    (.right (.left (.left (.left (.left (.left .here)))))))))))))],
    [some (.left (.right (.left (.left (.left (.right (.left (.right (.right (.left (.left (.left (.left (.right
    .here)))))))))))))), some (.left (.right (.left (.left (.left (.right (.right (.right (.right (.left (.left
    (.left (.left (.right .here)))))))))))))), some (.left (.right (.left (.left (.left (.right (.right (.right
    (.left (.left (.left (.right .here))))))))))))],
    [some (.left (.right (.left (.left (.left (.right (.right (.right (.left (.left (.left (.left (.right
    .here)))))))))))))],
    [some (.left (.right (.left (.left (.left (.right (.right (.right (.left (.left (.right .here)))))))))))],
    [some (.left (.right (.left (.left (.left (.right (.right (.right (.left (.left (.left (.left (.left
    .here)))))))))))))],
    [some (.left (.right (.left (.left (.left (.right (.right (.right (.left (.left (.left (.right .here))))))))))))],
    [some (.left (.right (.left (.left (.left (.right (.right (.right (.right (.left (.left (.left (.left (.left
    (.right .here))))))))))))))), some (.left (.right (.left (.left (.left (.right (.right (.right (.left (.left
    (.left (.left (.right .here)))))))))))))],
    [some (.left (.right (.left (.left (.left (.right (.right (.right (.right (.left (.left (.left (.right
    .here))))))))))))), some (.left (.right (.left (.left (.left (.right (.right (.right (.left (.left (.right
    .here)))))))))))],
    [some (.left (.right (.left (.left (.left (.right (.right (.right (.right (.left (.right .here)))))))))))],
    [some (.left (.right (.left (.left (.left (.right (.right (.right (.right (.left (.left (.left (.left (.left
    (.left .here))))))))))))))), some (.left (.right (.left (.left (.left (.right (.right (.right (.left (.left
    (.left (.left (.left .here)))))))))))))],
    [some (.left (.right (.left (.left (.left (.right (.right (.right (.right (.left (.left (.left (.left (.right
    .here)))))))))))))), some (.left (.right (.left (.left (.left (.right (.right (.right (.left (.left (.left
    (.right .here))))))))))))]])]

/-- The states of `rfc8141Only` for each number of a state, part 8 -/
def rfc8141OnlyPairs8 : List (Nat × List Config) := [
  (183, [
    [some (.left (.right (.left (.left (.left (.right (.left (.right (.right (.left (.left (.right (.right (.right
    (.left (.left .here)))))))))))))))), some (.left (.right (.left (.left (.left (.right (.right (.right (.right
    (.left (.left (.right (.right (.right (.left (.left .here)))))))))))))))), some (.left (.right (.left (.left
    (.left (.right (.right (.right (.left (.right (.right (.right (.left (.left .here))))))))))))))],
    [some (.left (.right (.left (.left (.left (.right (.left (.right (.right (.left (.left (.right (.right (.right
    (.right .here))))))))))))))), some (.left (.right (.left (.left (.left (.right (.right (.right (.right (.left
    (.left (.right (.right (.right (.right .here))))))))))))))), some (.left (.right (.left (.left (.left (.right
    (.right (.right (.left (.right (.right (.right (.right .here)))))))))))))],
    [some (.left (.right (.left (.left (.left (.right (.left (.right (.right (.left (.left (.right (.right (.right
    (.left (.right .here)))))))))))))))), some (.left (.right (.left (.left (.left (.right (.right (.right (.right
    (.left (.left (.right (.right (.right (.left (.right .here)))))))))))))))), some (.left (.right (.left (.left
    (.left (.right (.right (.right (.left (.right (.right (.right (.left (.right .here))))))))))))))],
    [some (.left (.right (.left (.left (.left (.right (.left (.right (.right (.left (.left (.right (.right (.right
    (.left (.left .here)))))))))))))))), some (.left (.right (.left (.left (.left (.right (.right (.right (.left
    (.right (.right (.right (.left (.left .here))))))))))))))],
    [some (.left (.right (.left (.left (.left (.right (.left (.right (.right (.left (.left (.right (.right (.right
    (.right .here))))))))))))))), some (.left (.right (.left (.left (.left (.right (.right (.right (.left (.right
    (.right (.right (.right .here)))))))))))))],
    [some (.left (.right (.left (.left (.left (.right (.left (.right (.right (.left (.left (.right (.right (.right
    (.left (.right .here)))))))))))))))), some (.left (.right (.left (.left (.left (.right (.right (.right (.left
    (.right (.right (.right (.left (.right .here))))))))))))))],
    [some (.left (.right (.left (.left (.left (.right (.right (.right (.right (.left (.left (.right (.right (.right
    (.left (.left .here)))))))))))))))), some (.left (.right (.left (.left (.left (.right (.right (.right (.left
    (.right (.right (.right (.left (.left .here))))))))))))))],
    [some (.left (.right (.left (.left (.left (.right (.right (.right (.right (.left (.left (.right (.right (.right
    (.right .here))))))))))))))), some (.left (.right (.left (.left (.left (.right (.right (.right (.left (.right
    (.right (.right (.right .here)))))))))))))],
    [some (.left (.right (.left (.left (.left (.right (.right (.right (.right (.left (.left (.right (.right (.right
    (.left (.right .here)))))))))))))))), some (.left (.right (.left (.left (.left (.right (.right (.right (.left
    (.right (.right (.right (.left (.right .here))))))))))))))],
    [some (.left (.right (.left (.left (.left (.right (.right (.right (.left (.right (.right (.right (.left (.left
    .here))))))))))))))],
    [some (.left (.right (.left (.left (.left (.right (.right (.right (.left (.right (.right (.right (.right
    .here)))))))))))))],
    [some (.left (.right (.left (.left (.left (.right (.right (.right (.left (.right (.right (.right (.left (.right
    .here))))))))))))))],
    [some (.left (.right (.left (.left (.left (.right (.left (.right (.left (.right (.right (.right (.left (.left
    .here))))))))))))))],
    [some (.left (.right (.left (.left (.left (.right (.left (.right (.left (.right (.right (.right (.right
    .here)))))))))))))],
    [some (.left (.right (.left (.left (.left (.right (.left (.right (.left (.right (.right (.right (.left (.right
    .here))))))))))))))]]),
  (184, [
    [some (.left (.right (.left (.left (.left (.right (.left (.right (.right (.right .here)))))))))), some (.left
    (.right (.left (.left (.left (.right (.right (.left (.left .here))))))))), some (.left (.right (.left (.left
    (.right (.left (.left (.left .here))))))))],
    [some (.left (.right (.left (.left (.left (.right (.left (.right (.right (.right .here)))))))))), some (.left
    (.right (.left (.left (.left (.right (.right (.right (.right (.right .here)))))))))), some (.left (.right (.left
    (.left (.left (.right (.right (.left (.left .here))))))))), some (.left (.right (.left (.left (.right (.left
    (.left (.left .here))))))))],
    [some (.left (.right (.left (.left (.left (.right (.right (.right (.right (.right .here)))))))))), some (.left
    (.right (.left (.left (.left (.right (.right (.left (.left .here))))))))), some (.left (.right (.left (.left
    (.right (.left (.left (.left .here))))))))]]),
  (185, [
    [some (.left (.right (.left (.left (.left (.right (.left (.right (.right (.left (.left (.left (.left (.left
    (.right .here))))))))))))))), some (.left (.right (.left (.left (.left (.right (.right (.right (.right (.left
    (.left (.left (.left (.left (.right .here))))))))))))))), some (.left (.right (.left (.left (.left (.right
    (.right (.right (.left (.left (.left (.left (.right .here))))))))))))), some (.left (.right (.left (.left (.left
    (.right (.right (.left (.right .here)))))))))],
    [some (.left (.right (.left (.left (.left (.right (.left (.right (.right (.left (.left (.left (.left (.left
    (.right .here))))))))))))))), some (.left (.right (.left (.left (.left (.right (.right (.right (.left (.left
    (.left (.left (.right .here))))))))))))), some (.left (.right (.left (.left (.left (.right (.right (.left (.right
    .here)))))))))],
    [some (.left (.right (.left (.left (.left (.right (.right (.right (.right (.left (.left (.left (.left (.left
    (.right .here))))))))))))))), some (.left (.right (.left (.left (.left (.right (.right (.right (.left (.left
    (.left (.left (.right .here))))))))))))), some (.left (.right (.left (.left (.left (.right (.right (.left (.right
    .here)))))))))]]),
  (186, [
    [some (.left (.right (.left (.left (.left (.right (.left (.right (.right (.left (.left (.left (.left (.left
    (.right .here))))))))))))))), some (.left (.right (.left (.left (.left (.right (.right (.right (.right (.left
    (.left (.left (.left (.left (.right .here))))))))))))))), some (.left (.right (.left (.left (.left (.right
    (.right (.right (.left (.left (.left (.left (.right .here))))))))))))), some (.left (.right (.left (.left (.right
    (.left (.left (.right .here))))))))],
    [some (.left (.right (.left (.left (.left (.right (.left (.right (.right (.left (.left (.left (.left (.left
    (.right .here))))))))))))))), some (.left (.right (.left (.left (.left (.right (.right (.right (.left (.left
    (.left (.left (.right .here))))))))))))), some (.left (.right (.left (.left (.right (.left (.left (.right
    .here))))))))],
    [some (.left (.right (.left (.left (.left (.right (.right (.right (.right (.left (.left (.left (.left (.left
    (.right .here))))))))))))))), some (.left (.right (.left (.left (.left (.right (.right (.right (.left (.left
    (.left (.left (.right .here))))))))))))), some (.left (.right (.left (.left (.right (.left (.left (.right
    .here))))))))]])]

/-- The states of `rfc8141Only` for each number of a state, part 9 -/
def rfc8141OnlyPairs9 : List (Nat × List Config) := [
  (187, [
    [some (.left (.right (.left (.right (.right (.left (.right (.left (.left (.left (.left (.right .here))))))))))))],
    [some (.left (.right (.left (.right (.right (.left (.right (.left (.left (.right .here))))))))))],
    [some (.left (.right (.left (.right (.right (.left (.right (.left (.left (.left (.left (.left .here))))))))))))],
    [some (.left (.right (.left (.right (.right (.left (.right (.left (.left (.left (.right .here)))))))))))],
    [some (.left (.right (.left (.right (.right (.left (.right (.right (.left (.left (.left (.left (.left (.right
    .here)))))))))))))), some (.left (.right (.left (.right (.right (.right (.right (.left (.left (.left (.left
    (.right .here))))))))))))],
    [some (.left (.right (.left (.right (.right (.left (.right (.right (.left (.left (.left (.right
    .here)))))))))))), some (.left (.right (.left (.right (.right (.right (.right (.left (.left (.right
    .here))))))))))],
    [some (.left (.right (.left (.right (.right (.left (.right (.right (.left (.right .here))))))))))],
    [some (.left (.right (.left (.right (.right (.left (.right (.right (.left (.left (.left (.left (.left (.left
    .here)))))))))))))), some (.left (.right (.left (.right (.right (.right (.right (.left (.left (.left (.left
    (.left .here))))))))))))],
    [some (.left (.right (.left (.right (.right (.left (.right (.right (.left (.left (.left (.left (.right
    .here))))))))))))), some (.left (.right (.left (.right (.right (.right (.right (.left (.left (.left (.right
    .here)))))))))))],
    [some (.left (.right (.left (.right (.right (.left (.right (.right (.left (.left (.left (.left (.left (.right
    .here)))))))))))))), some (.left (.right (.left (.right (.right (.right (.right (.right (.left (.left (.left
    (.left (.left (.right .here)))))))))))))), some (.left (.right (.left (.right (.right (.right (.right (.left
    (.left (.left (.left (.right .here))))))))))))],
    [some (.left (.right (.left (.right (.right (.left (.right (.right (.left (.left (.left (.right
    .here)))))))))))), some (.left (.right (.left (.right (.right (.right (.right (.right (.left (.left (.left
    (.right .here)))))))))))), some (.left (.right (.left (.right (.right (.right (.right (.left (.left (.right
    .here))))))))))],
    [some (.left (.right (.left (.right (.right (.left (.right (.right (.left (.right .here)))))))))), some (.left
    (.right (.left (.right (.right (.right (.right (.right (.left (.right .here))))))))))],
    [some (.left (.right (.left (.right (.right (.left (.right (.right (.left (.left (.left (.left (.left (.left
    .here)))))))))))))), some (.left (.right (.left (.right (.right (.right (.right (.right (.left (.left (.left
    (.left (.left (.left .here)))))))))))))), some (.left (.right (.left (.right (.right (.right (.right (.left
    (.left (.left (.left (.left .here))))))))))))],
    [some (.left (.right (.left (.right (.right (.left (.right (.right (.left (.left (.left (.left (.right
    .here))))))))))))), some (.left (.right (.left (.right (.right (.right (.right (.right (.left (.left (.left
    (.left (.right .here))))))))))))), some (.left (.right (.left (.right (.right (.right (.right (.left (.left
    (.left (.right .here)))))))))))],
    [some (.left (.right (.left (.right (.right (.right (.right (.left (.left (.left (.left (.right
    .here))))))))))))],
    [some (.left (.right (.left (.right (.right (.right (.right (.left (.left (.right .here))))))))))],
    [some (.left (.right (.left (.right (.right (.right (.right (.left (.left (.left (.left (.left .here))))))))))))],
    [some (.left (.right (.left (.right (.right (.right (.right (.left (.left (.left (.right .here)))))))))))],
    [some (.left (.right (.left (.right (.right (.right (.right (.right (.left (.left (.left (.left (.left (.right
    .here)))))))))))))), some (.left (.right (.left (.right (.right (.right (.right (.left (.left (.left (.left
    (.right .here))))))))))))],
    [some (.left (.right (.left (.right (.right (.right (.right (.right (.left (.left (.left (.right
    .here)))))))))))), some (.left (.right (.left (.right (.right (.right (.right (.left (.left (.right
    .here))))))))))],
    [some (.left (.right (.left (.right (.right (.right (.right (.right (.left (.right .here))))))))))],
    [some (.left (.right (.left (.right (.right (.right (.right (.right (.left (.left (.left (.left (.left (.left
    .here)))))))))))))), some (.left (.right (.left (.right (.right (.right (.right (.left (.left (.left (.left
    (.left .here))))))))))))],
    [some (.left (.right (.left (.right (.right (.right (.right (.right (.left (.left (.left (.left (.right
    .here))))))))))))), some (.left (.right (.left (.right (.right (.right (.right (.left (.left (.left (.right
    .here)))))))))))],
    [some (.left (.right (.left (.left (.right (.left (.right (.left (.right (.left (.left (.left (.left (.right
    .here))))))))))))))],
    [some (.left (.right (.left (.left (.right (.left (.right (.left (.right (.left (.left (.right .here))))))))))))],
    [some (.left (.right (.left (.left (.right (.left (.right (.left (.right (.left (.left (.left (.left (.left
    .here))))))))))))))],
    [some (.left (.right (.left (.left (.right (.left (.right (.left (.right (.left (.left (.left (.right
    .here)))))))))))))],
    [some (.left (.right (.left (.left (.right (.left (.right (.left (.right (.right (.left (.left (.left (.left
    (.left (.right .here)))))))))))))))), some (.left (.right (.left (.left (.right (.left (.right (.right (.right
    (.left (.left (.left (.left (.right .here))))))))))))))],
    [some (.left (.right (.left (.left (.right (.left (.right (.left (.right (.right (.left (.left (.left (.right
    .here)))))))))))))), some (.left (.right (.left (.left (.right (.left (.right (.right (.right (.left (.left
    (.right .here))))))))))))],
    [some (.left (.right (.left (.left (.right (.left (.right (.left (.right (.right (.left (.right
    .here))))))))))))],
    [some (.left (.right (.left (.left (.right (.left (.right (.left (.right (.right (.left (.left (.left (.left
    (.left (.left .here)))))))))))))))), some (.left (.right (.left (.left (.right (.left (.right (.right (.right
    (.left (.left (.left (.left (.left .here))))))))))))))],
    [some (.left (.right (.left (.left (.right (.left (.right (.left (.right (.right (.left (.left (.left (.left
    (.right .here))))))))))))))), some (.left (.right (.left (.left (.right (.left (.right (.right (.right (.left
    (.left (.left (.right .here)))))))))))))],
    [some (.left (.right (.left (.left (.right (.left (.right (.left (.right (.right (.left (.left (.left (.left
    (.left (.right .here)))))))))))))))), some (.left (.right (.left (.left (.right (.left (.right (.right (.right
    (.right (.left (.left (.left (.left (.left (.right .here)))))))))))))))), some (.left (.right (.left (.left
    (.right (.left (.right (.right (.right (.left (.left (.left (.left (.right .here))))))))))))))],
    [some (.left (.right (.left (.left (.right (.left (.right (.left (.right (.right (.left (.left (.left (.right
    .here)))))))))))))), some (.left (.right (.left (.left (.right (.left (.right (.right (.right (.right (.left
    (.left (.left (.right .here)))))))))))))), some (.left (.right (.left (.left (.right (.left (.right (.right
    (.right (.left (.left (.right .here))))))))))))],
    [some (.left (.right (.left (.left (.right (.left (.right (.left (.right (.right (.left (.right
    .here)))))))))))), some (.left (.right (.left (.left (.right (.left (.right (.right (.right (.right (.left
    (.right .here))))))))))))],
    [some (.left (.right (.left (.left (.right (.left (.right (.left (.right (.right (.left (.left (.left (.left
    (.left (.left .here)))))))))))))))), some (.left (.right (.left (.left (.right (.left (.right (.right (.right
    (.right (.left (.left (.left (.left (.left (.left .here)))))))))))))))), some (.left (.right (.left (.left
    (.right (.left (.right (.right (.right (.left (.left (.left (.left (.left .here))))))))))))))],
    [some (.left (.right (.left (.left (.right (.left (.right (.left (.right (.right (.left (.left (.left (.left
    (.right .here))))))))))))))), some (.left (.right (.left (.left (.right (.left (.right (.right (.right (.right
    (.left (.left (.left (.left (.right .here))))))))))))))), some (.left (.right (.left (.left (.right (.left
    (.right (.right (.right (.left (.left (.left (.right .here)))))))))))))],
    [some (.left (.right (.left (.left (.right (.left (.right (.right (.right (.left (.left (.left (.left (.right
    .here))))))))))))))],
    [some (.left (.right (.left (.left (.right (.left (.right (.right (.right (.left (.left (.right
    .here))))))))))))],
    [some (.left (.right (.left (.left (.right (.left (.right (.right (.right (.left (.left (.left (.left (.left
    .here))))))))))))))],
    [some (.left (.right (.left (.left (.right (.left (.right (.right (.right (.left (.left (.left (.right
    .here)))))))))))))],
    [some (.left (.right (.left (.left (.right (.left (.right (.right (.right (.right (.left (.left (.left (.left
    (.left (.right .here)))))))))))))))), some (.left (.right (.left (.left (.right (.left (.right (.right (.right
    (.left (.left (.left (.left (.right .here))))))))))))))],
    [some (.left (.right (.left (.left (.right (.left (.right (.right (.right (.right (.left (.left (.left (.right
    .here)))))))))))))), some (.left (.right (.left (.left (.right (.left (.right (.right (.right (.left (.left
    (.right .here))))))))))))],
    [some (.left (.right (.left (.left (.right (.left (.right (.right (.right (.right (.left (.right
    .here))))))))))))],
    [some (.left (.right (.left (.left (.right (.left (.right (.right (.right (.right (.left (.left (.left (.left
    (.left (.left .here)))))))))))))))), some (.left (.right (.left (.left (.right (.left (.right (.right (.right
    (.left (.left (.left (.left (.left .here))))))))))))))],
    [some (.left (.right (.left (.left (.right (.left (.right (.right (.right (.right (.left (.left (.left (.left
    (.right .here))))))))))))))), some (.left (.right (.left (.left (.right (.left (.right (.right (.right (.left
    (.left (.left (.right .here)))))))))))))]])]

/-- The states of `rfc8141Only` for each number of a state, part 10 -/
def rfc8141OnlyPairs10 : List (Nat × List Config) := [
  (188, [
    [some (.left (.right (.left (.right (.right (.left (.right (.right (.left (.left (.right (.right (.right (.left
    (.left .here))))))))))))))), some (.left (.right (.left (.right (.right (.right (.right (.right (.left (.left
    (.right (.right (.right (.left (.left .here))))))))))))))), some (.left (.right (.left (.right (.right (.right
    (.right (.left (.right (.right (.right (.left (.left .here)))))))))))))],
    [some (.left (.right (.left (.right (.right (.left (.right (.right (.left (.left (.right (.right (.right (.right
    .here)))))))))))))), some (.left (.right (.left (.right (.right (.right (.right (.right (.left (.left (.right
    (.right (.right (.right .here)))))))))))))), some (.left (.right (.left (.right (.right (.right (.right (.left
    (.right (.right (.right (.right .here))))))))))))],
    [some (.left (.right (.left (.right (.right (.left (.right (.right (.left (.left (.right (.right (.right (.left
    (.right .here))))))))))))))), some (.left (.right (.left (.right (.right (.right (.right (.right (.left (.left
    (.right (.right (.right (.left (.right .here))))))))))))))), some (.left (.right (.left (.right (.right (.right
    (.right (.left (.right (.right (.right (.left (.right .here)))))))))))))],
    [some (.left (.right (.left (.right (.right (.left (.right (.right (.left (.left (.right (.right (.right (.left
    (.left .here))))))))))))))), some (.left (.right (.left (.right (.right (.right (.right (.left (.right (.right
    (.right (.left (.left .here)))))))))))))],
    [some (.left (.right (.left (.right (.right (.left (.right (.right (.left (.left (.right (.right (.right (.right
    .here)))))))))))))), some (.left (.right (.left (.right (.right (.right (.right (.left (.right (.right (.right
    (.right .here))))))))))))],
    [some (.left (.right (.left (.right (.right (.left (.right (.right (.left (.left (.right (.right (.right (.left
    (.right .here))))))))))))))), some (.left (.right (.left (.right (.right (.right (.right (.left (.right (.right
    (.right (.left (.right .here)))))))))))))],
    [some (.left (.right (.left (.right (.right (.right (.right (.right (.left (.left (.right (.right (.right (.left
    (.left .here))))))))))))))), some (.left (.right (.left (.right (.right (.right (.right (.left (.right (.right
    (.right (.left (.left .here)))))))))))))],
    [some (.left (.right (.left (.right (.right (.right (.right (.right (.left (.left (.right (.right (.right (.right
    .here)))))))))))))), some (.left (.right (.left (.right (.right (.right (.right (.left (.right (.right (.right
    (.right .here))))))))))))],
    [some (.left (.right (.left (.right (.right (.right (.right (.right (.left (.left (.right (.right (.right (.left
    (.right .here))))))))))))))), some (.left (.right (.left (.right (.right (.right (.right (.left (.right (.right
    (.right (.left (.right .here)))))))))))))],
    [some (.left (.right (.left (.right (.right (.right (.right (.left (.right (.right (.right (.left (.left
    .here)))))))))))))],
    [some (.left (.right (.left (.right (.right (.right (.right (.left (.right (.right (.right (.right
    .here))))))))))))],
    [some (.left (.right (.left (.right (.right (.right (.right (.left (.right (.right (.right (.left (.right
    .here)))))))))))))],
    [some (.left (.right (.left (.right (.right (.left (.right (.left (.right (.right (.right (.left (.left
    .here)))))))))))))],
    [some (.left (.right (.left (.right (.right (.left (.right (.left (.right (.right (.right (.right
    .here))))))))))))],
    [some (.left (.right (.left (.right (.right (.left (.right (.left (.right (.right (.right (.left (.right
    .here)))))))))))))],
    [some (.left (.right (.left (.left (.right (.left (.right (.left (.right (.right (.left (.left (.right (.right
    (.right (.left (.left .here))))))))))))))))), some (.left (.right (.left (.left (.right (.left (.right (.right
    (.right (.right (.left (.left (.right (.right (.right (.left (.left .here))))))))))))))))), some (.left (.right
    (.left (.left (.right (.left (.right (.right (.right (.left (.right (.right (.right (.left (.left
    .here)))))))))))))))],
    [some (.left (.right (.left (.left (.right (.left (.right (.left (.right (.right (.left (.left (.right (.right
    (.right (.right .here)))))))))))))))), some (.left (.right (.left (.left (.right (.left (.right (.right (.right
    (.right (.left (.left (.right (.right (.right (.right .here)))))))))))))))), some (.left (.right (.left (.left
    (.right (.left (.right (.right (.right (.left (.right (.right (.right (.right .here))))))))))))))],
    [some (.left (.right (.left (.left (.right (.left (.right (.left (.right (.right (.left (.left (.right (.right
    (.right (.left (.right .here))))))))))))))))), some (.left (.right (.left (.left (.right (.left (.right (.right
    (.right (.right (.left (.left (.right (.right (.right (.left (.right .here))))))))))))))))), some (.left (.right
    (.left (.left (.right (.left (.right (.right (.right (.left (.right (.right (.right (.left (.right
    .here)))))))))))))))],
    [some (.left (.right (.left (.left (.right (.left (.right (.left (.right (.right (.left (.left (.right (.right
    (.right (.left (.left .here))))))))))))))))), some (.left (.right (.left (.left (.right (.left (.right (.right
    (.right (.left (.right (.right (.right (.left (.left .here)))))))))))))))],
    [some (.left (.right (.left (.left (.right (.left (.right (.left (.right (.right (.left (.left (.right (.right
    (.right (.right .here)))))))))))))))), some (.left (.right (.left (.left (.right (.left (.right (.right (.right
    (.left (.right (.right (.right (.right .here))))))))))))))],
    [some (.left (.right (.left (.left (.right (.left (.right (.left (.right (.right (.left (.left (.right (.right
    (.right (.left (.right .here))))))))))))))))), some (.left (.right (.left (.left (.right (.left (.right (.right
    (.right (.left (.right (.right (.right (.left (.right .here)))))))))))))))],
    [some (.left (.right (.left (.left (.right (.left (.right (.left (.right (.left (.right (.right (.right (.left
    (.left .here)))))))))))))))],
    [some (.left (.right (.left (.left (.right (.left (.right (.left (.right (.left (.right (.right (.right (.right
    .here))))))))))))))],
    [some (.left (.right (.left (.left (.right (.left (.right (.left (.right (.left (.right (.right (.right (.left
    (.right .here)))))))))))))))],
    [some (.left (.right (.left (.left (.right (.left (.right (.right (.right (.right (.left (.left (.right (.right
    (.right (.left (.left .here))))))))))))))))), some (.left (.right (.left (.left (.right (.left (.right (.right
    (.right (.left (.right (.right (.right (.left (.left .here)))))))))))))))],
    [some (.left (.right (.left (.left (.right (.left (.right (.right (.right (.right (.left (.left (.right (.right
    (.right (.right .here)))))))))))))))), some (.left (.right (.left (.left (.right (.left (.right (.right (.right
    (.left (.right (.right (.right (.right .here))))))))))))))],
    [some (.left (.right (.left (.left (.right (.left (.right (.right (.right (.right (.left (.left (.right (.right
    (.right (.left (.right .here))))))))))))))))), some (.left (.right (.left (.left (.right (.left (.right (.right
    (.right (.left (.right (.right (.right (.left (.right .here)))))))))))))))],
    [some (.left (.right (.left (.left (.right (.left (.right (.right (.right (.left (.right (.right (.right (.left
    (.left .here)))))))))))))))],
    [some (.left (.right (.left (.left (.right (.left (.right (.right (.right (.left (.right (.right (.right (.right
    .here))))))))))))))],
    [some (.left (.right (.left (.left (.right (.left (.right (.right (.right (.left (.right (.right (.right (.left
    (.right .here)))))))))))))))]]),
  (189, [
    [some (.left (.right (.left (.right (.right (.left (.right (.right (.right .here))))))))), some (.left (.right
    (.left (.right (.right (.right (.left (.left .here))))))))],
    [some (.left (.right (.left (.right (.right (.left (.right (.right (.right .here))))))))), some (.left (.right
    (.left (.right (.right (.right (.right (.right (.right .here))))))))), some (.left (.right (.left (.right (.right
    (.right (.left (.left .here))))))))],
    [some (.left (.right (.left (.right (.right (.right (.right (.right (.right .here))))))))), some (.left (.right
    (.left (.right (.right (.right (.left (.left .here))))))))],
    [some (.left (.right (.left (.left (.right (.left (.right (.left (.right (.right (.right .here))))))))))), some
    (.left (.right (.left (.left (.right (.left (.right (.right (.left (.left .here))))))))))],
    [some (.left (.right (.left (.left (.right (.left (.right (.left (.right (.right (.right .here))))))))))), some
    (.left (.right (.left (.left (.right (.left (.right (.right (.right (.right (.right .here))))))))))), some (.left
    (.right (.left (.left (.right (.left (.right (.right (.left (.left .here))))))))))],
    [some (.left (.right (.left (.left (.right (.left (.right (.right (.right (.right (.right .here))))))))))), some
    (.left (.right (.left (.left (.right (.left (.right (.right (.left (.left .here))))))))))]])]

/-- The states of `rfc8141Only` for each number of a state, part 11 -/
def rfc8141OnlyPairs11 : List (Nat × List Config) := [
  (190, [
    [some (.left (.right (.left (.right (.right (.left (.right (.right (.left (.left (.left (.left (.left (.right
    .here)))))))))))))), some (.left (.right (.left (.right (.right (.right (.right (.right (.left (.left (.left
    (.left (.left (.right .here)))))))))))))), some (.left (.right (.left (.right (.right (.right (.right (.left
    (.left (.left (.left (.right .here)))))))))))), some (.left (.right (.left (.right (.right (.right (.left (.right
    .here))))))))],
    [some (.left (.right (.left (.right (.right (.left (.right (.right (.left (.left (.left (.left (.left (.right
    .here)))))))))))))), some (.left (.right (.left (.right (.right (.right (.right (.left (.left (.left (.left
    (.right .here)))))))))))), some (.left (.right (.left (.right (.right (.right (.left (.right .here))))))))],
    [some (.left (.right (.left (.right (.right (.right (.right (.right (.left (.left (.left (.left (.left (.right
    .here)))))))))))))), some (.left (.right (.left (.right (.right (.right (.right (.left (.left (.left (.left
    (.right .here)))))))))))), some (.left (.right (.left (.right (.right (.right (.left (.right .here))))))))],
    [some (.left (.right (.left (.left (.right (.left (.right (.left (.right (.right (.left (.left (.left (.left
    (.left (.right .here)))))))))))))))), some (.left (.right (.left (.left (.right (.left (.right (.right (.right
    (.right (.left (.left (.left (.left (.left (.right .here)))))))))))))))), some (.left (.right (.left (.left
    (.right (.left (.right (.right (.right (.left (.left (.left (.left (.right .here)))))))))))))), some (.left
    (.right (.left (.left (.right (.left (.right (.right (.left (.right .here))))))))))],
    [some (.left (.right (.left (.left (.right (.left (.right (.left (.right (.right (.left (.left (.left (.left
    (.left (.right .here)))))))))))))))), some (.left (.right (.left (.left (.right (.left (.right (.right (.right
    (.left (.left (.left (.left (.right .here)))))))))))))), some (.left (.right (.left (.left (.right (.left (.right
    (.right (.left (.right .here))))))))))],
    [some (.left (.right (.left (.left (.right (.left (.right (.right (.right (.right (.left (.left (.left (.left
    (.left (.right .here)))))))))))))))), some (.left (.right (.left (.left (.right (.left (.right (.right (.right
    (.left (.left (.left (.left (.right .here)))))))))))))), some (.left (.right (.left (.left (.right (.left (.right
    (.right (.left (.right .here))))))))))]]),
  (191, [
    [some (.left (.right (.left (.left (.left (.right (.left (.left (.right .here)))))))))],
    [some (.left (.right (.left (.left (.left (.right (.right (.left (.right .here)))))))))]]),
  (192, [
    [some (.left (.right (.left (.right (.right (.left (.left (.right .here))))))))],
    [some (.left (.right (.left (.right (.right (.right (.left (.right .here))))))))],
    [some (.left (.right (.left (.left (.right (.left (.right (.left (.left (.right .here))))))))))],
    [some (.left (.right (.left (.left (.right (.left (.right (.right (.left (.right .here))))))))))]])]

/-- The states of `rfc8141Only` for each number of a state -/
def rfc8141OnlyPairs : List (Nat × List Config) :=
  rfc8141OnlyPairs1 ++ rfc8141OnlyPairs2 ++ rfc8141OnlyPairs3 ++ rfc8141OnlyPairs4 ++ rfc8141OnlyPairs5 ++ rfc8141OnlyPairs6 ++ rfc8141OnlyPairs7 ++ rfc8141OnlyPairs8 ++ rfc8141OnlyPairs9 ++ rfc8141OnlyPairs10 ++ rfc8141OnlyPairs11

/-- machine.go.rl: the expression of `fail` -/
def failExp : Exp :=
  (.star (.cls [(0, 9), (11, 12), (14, 255)]))

/-- The states of `fail` for each number of a state -/
def failPairs : List (Nat × List Config) := [
  (193, [
    [none],
    [some .here]])]

end Urn.Grammar
