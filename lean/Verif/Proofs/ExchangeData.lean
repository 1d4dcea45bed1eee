/-
Finite automata, written by tools/keywords.py.  Nothing about them is assumed: Proofs/Exchange checks what is used.
State 0 is where no program gets, state 1 is the start.
-/
namespace Verif.LR

/-! The states: SINK, START, B, BC, BW, A, AK, AL -/

/-- for each state, the next state for each terminal -/
def ninthPassSteps : List (List Nat) :=
  [[0, 0, 0, 0, 0, 0, 0, 0, 0, 0, 0, 0, 0, 0, 0, 0, 0, 0, 0, 0, 0, 0, 0, 0, 0, 0, 0, 0, 0, 0, 0, 0, 0, 0, 0, 0, 0, 0,
     0, 0, 0, 0, 0, 0, 0, 0, 0, 0, 0, 0, 0, 0, 0, 0, 0, 0, 0, 0, 0],
      [0, 0, 0, 0, 0, 0, 0, 0, 0, 0, 0, 0, 0, 0, 0, 0, 0, 0, 0, 0, 0, 0, 0, 0, 0, 0, 0, 0, 0, 0, 0, 0, 0, 0, 0, 0, 0,
     0, 0, 0, 0, 0, 0, 0, 2, 0, 0, 0, 0, 0, 0, 0, 0, 0, 0, 0, 0, 0, 0],
      [2, 2, 2, 2, 2, 2, 2, 2, 2, 2, 2, 2, 3, 2, 2, 2, 2, 2, 2, 2, 2, 2, 2, 2, 2, 2, 2, 2, 2, 4, 2, 2, 2, 5, 2, 2, 2,
     2, 0, 2, 2, 2, 2, 2, 2, 2, 2, 2, 2, 2, 2, 2, 2, 2, 2, 2, 2, 2, 2],
      [2, 2, 2, 2, 2, 2, 2, 2, 2, 2, 2, 2, 3, 2, 2, 2, 2, 2, 2, 2, 2, 2, 2, 2, 2, 2, 0, 2, 2, 4, 2, 2, 2, 5, 2, 2, 2,
     2, 2, 2, 2, 2, 2, 2, 2, 2, 2, 2, 2, 2, 2, 2, 2, 2, 2, 2, 2, 2, 2],
      [2, 2, 2, 2, 2, 2, 2, 2, 2, 2, 2, 2, 3, 2, 2, 2, 2, 2, 2, 2, 2, 2, 2, 2, 2, 2, 2, 2, 2, 4, 2, 2, 2, 3, 2, 2, 2,
     2, 0, 2, 2, 2, 2, 2, 2, 2, 2, 2, 2, 2, 2, 2, 2, 2, 2, 2, 2, 2, 2],
      [5, 5, 5, 5, 5, 6, 5, 5, 5, 5, 5, 5, 5, 5, 5, 7, 5, 5, 5, 5, 5, 5, 5, 5, 5, 5, 0, 7, 5, 7, 5, 6, 6, 5, 5, 5, 5,
     5, 5, 5, 5, 5, 5, 5, 5, 5, 5, 5, 5, 5, 5, 5, 5, 5, 5, 5, 5, 5, 5],
      [6, 6, 6, 6, 6, 6, 6, 6, 6, 6, 6, 6, 6, 7, 6, 6, 6, 6, 6, 6, 6, 6, 6, 6, 6, 6, 0, 6, 6, 6, 6, 6, 6, 6, 6, 6, 6,
     6, 6, 6, 6, 6, 6, 6, 6, 6, 6, 6, 6, 6, 6, 6, 6, 6, 6, 6, 6, 6, 6],
      [5, 5, 5, 5, 5, 6, 5, 5, 5, 5, 5, 5, 5, 5, 5, 7, 5, 5, 5, 5, 5, 5, 5, 5, 5, 5, 5, 7, 5, 7, 5, 6, 6, 5, 5, 5, 5,
     5, 0, 5, 5, 5, 5, 5, 5, 5, 5, 5, 5, 5, 5, 5, 5, 5, 5, 5, 5, 5, 5]]

/-- for each nonterminal and each state, the set of states (one bit each) behind it -/
def ninthPassSets : List (List Nat) :=
  [[255, 255, 4, 255, 255, 32, 64, 32],
      [255, 255, 4, 255, 255, 32, 64, 32],
      [255, 255, 4, 255, 255, 255, 255, 255],
      [255, 255, 4, 255, 255, 255, 255, 255],
      [255, 255, 4, 255, 255, 32, 64, 32],
      [255, 255, 4, 255, 255, 32, 64, 32],
      [255, 255, 4, 255, 255, 32, 255, 255],
      [255, 255, 4, 255, 255, 32, 64, 255],
      [255, 255, 4, 255, 255, 32, 64, 255],
      [255, 255, 4, 255, 255, 32, 64, 255],
      [255, 255, 4, 255, 255, 32, 64, 255],
      [255, 255, 4, 255, 255, 32, 64, 255],
      [255, 255, 255, 4, 255, 32, 64, 255],
      [255, 255, 4, 255, 255, 32, 64, 255],
      [255, 255, 255, 4, 255, 32, 64, 255],
      [255, 255, 4, 255, 255, 32, 64, 255],
      [255, 255, 4, 255, 255, 32, 64, 255],
      [255, 255, 4, 255, 255, 32, 64, 255],
      [255, 32, 255, 255, 255, 255, 255, 255],
      [255, 255, 4, 255, 255, 255, 255, 255],
      [255, 255, 4, 255, 255, 255, 255, 255],
      [255, 255, 255, 255, 255, 32, 255, 255],
      [255, 255, 4, 255, 255, 32, 64, 255],
      [255, 255, 4, 255, 255, 255, 255, 255],
      [255, 255, 4, 255, 255, 32, 64, 255],
      [255, 255, 4, 255, 255, 32, 255, 255],
      [255, 255, 4, 255, 255, 255, 255, 32],
      [255, 255, 4, 255, 4, 32, 255, 32],
      [255, 255, 4, 255, 255, 255, 64, 255],
      [255, 255, 4, 255, 255, 255, 64, 255],
      [255, 255, 4, 255, 255, 32, 255, 255],
      [255, 255, 4, 255, 255, 32, 255, 255],
      [255, 255, 4, 255, 255, 255, 255, 32],
      [255, 255, 4, 255, 255, 32, 255, 32],
      [255, 255, 255, 255, 255, 32, 255, 32],
      [255, 255, 255, 255, 255, 32, 255, 255],
      [255, 255, 255, 255, 255, 32, 255, 32],
      [255, 255, 255, 255, 255, 32, 255, 255],
      [255, 255, 255, 255, 255, 32, 255, 32],
      [255, 255, 255, 255, 255, 160, 255, 160],
      [255, 255, 255, 255, 255, 32, 255, 32],
      [255, 255, 255, 255, 255, 32, 255, 255],
      [255, 255, 255, 255, 255, 32, 255, 255],
      [255, 255, 255, 255, 255, 32, 255, 255],
      [255, 255, 255, 255, 255, 32, 255, 255],
      [255, 255, 255, 255, 255, 32, 255, 255],
      [255, 255, 255, 255, 255, 32, 255, 255],
      [255, 255, 255, 255, 255, 32, 255, 255],
      [255, 255, 255, 255, 255, 32, 255, 255],
      [255, 255, 32, 255, 255, 255, 255, 255],
      [255, 255, 255, 255, 255, 32, 255, 255],
      [255, 255, 255, 255, 255, 32, 255, 255],
      [255, 255, 4, 255, 255, 32, 64, 32],
      [255, 255, 4, 255, 255, 32, 255, 255],
      [255, 255, 4, 255, 255, 32, 64, 32],
      [255, 255, 4, 255, 4, 32, 64, 32],
      [255, 255, 4, 255, 255, 32, 64, 32],
      [255, 255, 4, 255, 255, 32, 64, 255],
      [255, 255, 4, 255, 255, 32, 255, 32],
      [],
      [],
      [255, 255, 4, 255, 255, 255, 255, 255],
      [],
      [],
      [255, 255, 4, 255, 255, 32, 255, 255],
      [],
      [],
      [],
      [],
      [255, 255, 4, 255, 255, 32, 64, 255],
      [],
      [],
      [255, 255, 4, 255, 255, 32, 64, 255],
      [],
      [],
      [],
      [255, 255, 4, 255, 255, 32, 64, 255],
      [],
      [],
      [255, 255, 4, 255, 255, 255, 255, 255],
      [],
      [],
      [255, 255, 4, 255, 255, 255, 255, 255],
      [],
      [],
      [],
      [255, 255, 255, 255, 4, 255, 255, 32],
      [],
      [255, 255, 4, 255, 255, 255, 64, 255],
      [255, 255, 4, 255, 255, 32, 255, 255],
      [],
      [],
      [],
      [],
      [255, 255, 255, 255, 255, 32, 255, 255],
      [],
      [],
      [],
      [255, 255, 255, 255, 255, 255, 255, 160],
      [],
      [255, 255, 255, 255, 255, 32, 255, 255],
      [],
      [255, 255, 255, 255, 255, 32, 255, 255],
      [],
      [255, 255, 255, 255, 255, 32, 255, 255],
      [],
      [],
      [],
      [],
      [255, 255, 255, 255, 255, 32, 255, 255],
      [],
      [],
      [],
      [],
      [],
      [],
      [],
      [],
      []]

/-- for each state, the states with which it has no continuation in common -/
def ninthPassDoomed : List Nat :=
  [255, 1, 1, 1, 1, 1, 1, 1]

/-- the states where programs end -/
def ninthPassFinal : Nat := 32

/-! The states: SINK, START, H0, H, L, HX, C, HN, BLN, CN, B, BW, BY, BP, CP, BM, BX, BYN, BPP, BPN, A, CI, BMN, BPI, AR, AW, AM, AX, AMN, AP, APP, APN, API -/

/-- for each state, the next state for each terminal -/
def tenthPassSteps : List (List Nat) :=
  [[0, 0, 0, 0, 0, 0, 0, 0, 0, 0, 0, 0, 0, 0, 0, 0, 0, 0, 0, 0, 0, 0, 0, 0, 0, 0, 0, 0, 0, 0, 0, 0, 0, 0, 0, 0, 0, 0,
     0, 0, 0, 0, 0, 0, 0, 0, 0, 0, 0, 0, 0, 0, 0, 0, 0, 0, 0, 0, 0],
      [0, 0, 0, 0, 0, 0, 0, 0, 0, 0, 0, 0, 0, 0, 0, 0, 0, 0, 0, 0, 0, 0, 0, 0, 0, 0, 0, 0, 0, 0, 0, 0, 0, 0, 0, 0, 0,
     0, 0, 0, 0, 0, 0, 0, 2, 0, 0, 0, 0, 0, 0, 0, 0, 0, 0, 0, 0, 0, 0],
      [0, 0, 0, 0, 0, 0, 0, 0, 0, 0, 0, 0, 0, 0, 0, 0, 0, 0, 0, 0, 0, 0, 0, 0, 0, 0, 0, 0, 0, 0, 0, 0, 0, 0, 0, 0, 0,
     0, 0, 0, 0, 0, 0, 0, 0, 0, 0, 0, 0, 0, 0, 0, 3, 0, 0, 0, 0, 0, 0],
      [0, 0, 0, 0, 0, 0, 0, 0, 0, 0, 0, 0, 0, 0, 0, 0, 0, 0, 0, 0, 0, 0, 0, 0, 4, 5, 0, 0, 0, 0, 0, 0, 0, 6, 0, 0, 0,
     7, 0, 0, 0, 0, 0, 0, 0, 0, 0, 5, 0, 0, 7, 7, 0, 0, 0, 7, 7, 7, 7],
      [0, 0, 0, 0, 0, 0, 0, 0, 0, 0, 0, 0, 0, 0, 0, 0, 0, 0, 0, 0, 0, 0, 0, 0, 0, 0, 0, 0, 0, 0, 0, 0, 0, 0, 0, 0, 0,
     8, 0, 0, 0, 0, 0, 0, 0, 0, 0, 0, 0, 0, 8, 8, 0, 0, 0, 8, 8, 8, 8],
      [0, 0, 0, 0, 0, 0, 0, 0, 0, 0, 0, 0, 0, 0, 0, 0, 0, 0, 0, 0, 0, 0, 0, 0, 0, 0, 0, 0, 0, 0, 0, 0, 0, 0, 0, 0, 0,
     7, 0, 0, 0, 0, 0, 0, 0, 0, 0, 0, 0, 0, 7, 7, 0, 0, 0, 7, 7, 7, 7],
      [0, 0, 0, 0, 0, 0, 0, 0, 0, 0, 0, 0, 0, 0, 0, 0, 0, 0, 0, 0, 0, 0, 0, 0, 0, 0, 0, 0, 0, 0, 0, 0, 0, 0, 0, 0, 0,
     9, 0, 0, 0, 0, 0, 0, 0, 0, 0, 0, 0, 0, 9, 9, 0, 0, 0, 9, 9, 9, 9],
      [0, 0, 0, 0, 0, 0, 0, 0, 0, 0, 0, 0, 0, 0, 0, 0, 0, 0, 0, 0, 0, 0, 0, 0, 4, 5, 0, 0, 0, 0, 0, 0, 0, 6, 0, 0, 0,
     7, 0, 0, 0, 0, 0, 0, 0, 0, 0, 5, 0, 0, 7, 7, 0, 0, 0, 7, 7, 7, 7],
      [10, 10, 10, 10, 10, 10, 10, 10, 0, 10, 10, 10, 10, 10, 10, 10, 10, 10, 10, 10, 10, 10, 10, 10, 0, 0, 10, 10,
     10, 11, 10, 10, 10, 6, 10, 10, 10, 0, 10, 10, 10, 10, 10, 0, 10, 12, 13, 0, 10, 10, 0, 0, 10, 0, 10, 0, 0, 0, 0],
      [0, 0, 0, 0, 0, 0, 0, 0, 14, 0, 0, 0, 0, 0, 0, 0, 0, 0, 0, 0, 0, 0, 0, 0, 0, 0, 0, 0, 0, 0, 0, 0, 0, 0, 0, 0, 0,
     0, 0, 0, 0, 0, 0, 0, 0, 0, 0, 0, 0, 0, 0, 0, 0, 0, 0, 0, 0, 0, 0],
      [10, 10, 10, 10, 10, 10, 10, 10, 10, 10, 10, 10, 10, 10, 10, 10, 10, 10, 10, 10, 10, 10, 10, 10, 0, 0, 10, 10,
     10, 11, 10, 10, 10, 6, 10, 10, 10, 10, 10, 10, 10, 10, 10, 15, 10, 12, 13, 0, 10, 10, 10, 10, 10, 10, 10, 10, 10,
     10, 10],
      [10, 10, 10, 10, 10, 10, 10, 10, 10, 10, 10, 10, 10, 10, 10, 10, 10, 10, 10, 10, 10, 10, 10, 10, 16, 0, 10, 10,
     10, 11, 10, 10, 10, 16, 10, 10, 10, 10, 10, 10, 10, 10, 10, 0, 10, 0, 0, 0, 10, 10, 10, 10, 10, 10, 10, 10, 10,
     10, 10],
      [0, 0, 0, 0, 0, 0, 0, 0, 0, 0, 0, 0, 0, 0, 0, 0, 0, 0, 0, 0, 0, 0, 0, 0, 0, 0, 0, 0, 0, 0, 0, 0, 0, 0, 0, 0, 0,
     17, 0, 0, 0, 0, 0, 0, 0, 0, 0, 0, 0, 0, 17, 17, 0, 0, 0, 17, 17, 17, 17],
      [10, 10, 10, 10, 10, 10, 10, 10, 18, 10, 10, 10, 10, 10, 10, 10, 10, 10, 10, 10, 10, 10, 10, 10, 0, 0, 10, 10,
     10, 11, 10, 10, 10, 6, 10, 10, 10, 19, 10, 10, 10, 10, 10, 15, 10, 12, 13, 0, 10, 10, 19, 19, 10, 10, 10, 19, 19,
     19, 19],
      [0, 0, 0, 0, 0, 0, 0, 0, 0, 20, 0, 0, 20, 0, 0, 0, 0, 0, 0, 0, 0, 0, 0, 0, 0, 0, 0, 0, 0, 0, 0, 0, 0, 0, 0, 0,
     0, 0, 0, 0, 0, 0, 0, 0, 0, 0, 0, 0, 0, 0, 0, 0, 0, 0, 0, 21, 0, 0, 0],
      [0, 0, 0, 0, 0, 0, 0, 0, 10, 0, 0, 0, 0, 0, 0, 0, 0, 0, 0, 0, 0, 0, 0, 0, 0, 0, 0, 0, 0, 0, 0, 0, 0, 0, 0, 0, 0,
     22, 0, 0, 0, 0, 0, 15, 0, 0, 0, 0, 0, 0, 22, 22, 0, 13, 0, 22, 22, 22, 22],
      [0, 0, 0, 0, 0, 0, 0, 0, 0, 0, 0, 0, 0, 0, 0, 0, 0, 0, 0, 0, 0, 0, 0, 0, 0, 0, 0, 0, 0, 0, 10, 0, 0, 0, 0, 0, 0,
     0, 10, 0, 0, 0, 0, 0, 0, 0, 0, 0, 0, 0, 0, 0, 0, 0, 0, 0, 0, 0, 0],
      [0, 0, 0, 0, 0, 0, 0, 0, 0, 0, 0, 0, 0, 0, 0, 10, 0, 0, 0, 0, 0, 0, 0, 0, 0, 0, 10, 0, 0, 0, 0, 0, 0, 6, 0, 0,
     0, 0, 0, 0, 0, 0, 0, 0, 0, 12, 0, 0, 0, 0, 0, 0, 0, 0, 0, 0, 0, 0, 0],
      [10, 10, 10, 10, 10, 10, 10, 10, 10, 0, 10, 10, 0, 10, 10, 10, 10, 10, 10, 10, 10, 10, 10, 10, 0, 0, 10, 10, 10,
     11, 10, 10, 10, 6, 10, 10, 10, 10, 10, 10, 10, 10, 10, 15, 10, 12, 13, 0, 10, 10, 10, 10, 10, 10, 10, 23, 10, 10,
     10],
      [10, 10, 10, 10, 10, 10, 10, 10, 18, 10, 10, 10, 10, 10, 10, 10, 10, 10, 10, 10, 10, 10, 10, 10, 0, 0, 10, 10,
     10, 11, 10, 10, 10, 6, 10, 10, 10, 10, 10, 10, 10, 10, 10, 15, 10, 12, 13, 0, 10, 10, 10, 10, 10, 10, 10, 10, 10,
     10, 10],
      [20, 20, 20, 20, 20, 20, 20, 20, 20, 20, 20, 20, 20, 20, 20, 20, 24, 20, 20, 20, 20, 20, 20, 20, 0, 0, 20, 20,
     20, 25, 20, 20, 20, 0, 20, 20, 20, 20, 20, 20, 20, 20, 20, 26, 20, 0, 0, 0, 20, 20, 20, 20, 20, 20, 20, 20, 20,
     20, 20],
      [0, 0, 0, 20, 0, 0, 0, 0, 0, 0, 0, 0, 0, 0, 0, 0, 0, 0, 0, 0, 0, 0, 0, 0, 0, 0, 0, 0, 0, 0, 0, 0, 0, 0, 0, 0, 0,
     0, 0, 0, 0, 0, 0, 0, 0, 0, 0, 0, 0, 0, 0, 0, 0, 0, 0, 0, 0, 0, 0],
      [10, 10, 10, 10, 15, 10, 10, 10, 18, 10, 10, 10, 10, 10, 10, 0, 10, 10, 10, 10, 10, 10, 10, 10, 0, 0, 0, 10, 10,
     11, 10, 10, 10, 0, 10, 10, 10, 13, 10, 10, 10, 10, 10, 15, 10, 0, 13, 0, 10, 10, 13, 13, 10, 10, 10, 13, 13, 13,
     13],
      [10, 10, 10, 0, 10, 10, 10, 10, 10, 10, 10, 10, 10, 10, 10, 10, 10, 10, 10, 10, 10, 10, 10, 10, 0, 0, 10, 10,
     10, 11, 10, 10, 10, 6, 10, 10, 10, 10, 10, 10, 10, 10, 10, 15, 10, 12, 13, 0, 10, 10, 10, 10, 10, 10, 10, 10, 10,
     10, 10],
      [20, 20, 20, 20, 24, 20, 20, 20, 20, 20, 20, 20, 20, 20, 20, 20, 24, 20, 20, 20, 20, 20, 20, 20, 0, 0, 20, 20,
     20, 25, 20, 20, 20, 0, 20, 20, 20, 24, 20, 20, 20, 20, 20, 0, 20, 0, 0, 20, 20, 20, 24, 24, 20, 20, 20, 24, 24,
     24, 24],
      [20, 20, 20, 20, 20, 20, 20, 20, 20, 20, 20, 20, 20, 20, 20, 20, 24, 20, 20, 20, 20, 20, 20, 20, 27, 0, 20, 20,
     20, 25, 20, 20, 20, 27, 20, 20, 20, 20, 20, 20, 20, 20, 20, 0, 20, 0, 0, 0, 20, 20, 20, 20, 20, 20, 20, 20, 20,
     20, 20],
      [0, 0, 0, 0, 0, 0, 0, 0, 20, 0, 0, 0, 0, 0, 0, 0, 0, 0, 0, 0, 0, 0, 0, 0, 0, 0, 0, 0, 0, 0, 0, 0, 0, 0, 0, 0, 0,
     28, 0, 0, 0, 0, 0, 26, 0, 0, 0, 0, 0, 0, 28, 28, 0, 29, 0, 28, 28, 28, 28],
      [0, 0, 0, 0, 0, 0, 0, 0, 0, 0, 0, 0, 0, 0, 0, 0, 0, 0, 0, 0, 0, 0, 0, 0, 0, 0, 0, 0, 0, 0, 20, 0, 0, 0, 0, 0, 0,
     0, 20, 0, 0, 0, 0, 0, 0, 0, 0, 0, 0, 0, 0, 0, 0, 0, 0, 0, 0, 0, 0],
      [20, 20, 20, 20, 26, 20, 20, 20, 30, 20, 20, 20, 20, 20, 20, 0, 24, 20, 20, 20, 20, 20, 20, 20, 0, 0, 0, 20, 20,
     25, 20, 20, 20, 0, 20, 20, 20, 29, 20, 20, 20, 20, 20, 26, 20, 0, 0, 0, 20, 20, 29, 29, 20, 20, 20, 29, 29, 29,
     29],
      [20, 20, 20, 20, 20, 20, 20, 20, 30, 20, 20, 20, 20, 20, 20, 20, 24, 20, 20, 20, 20, 20, 20, 20, 0, 0, 20, 20,
     20, 25, 20, 20, 20, 0, 20, 20, 20, 31, 20, 20, 20, 20, 20, 26, 20, 0, 0, 0, 20, 20, 31, 31, 20, 20, 20, 31, 31,
     31, 31],
      [20, 20, 20, 20, 20, 20, 20, 20, 20, 0, 20, 20, 0, 20, 20, 20, 24, 20, 20, 20, 20, 20, 20, 20, 0, 0, 20, 20, 20,
     25, 20, 20, 20, 0, 20, 20, 20, 20, 20, 20, 20, 20, 20, 26, 20, 0, 0, 0, 20, 20, 20, 20, 20, 20, 20, 32, 20, 20,
     20],
      [20, 20, 20, 20, 20, 20, 20, 20, 30, 20, 20, 20, 20, 20, 20, 20, 24, 20, 20, 20, 20, 20, 20, 20, 0, 0, 20, 20,
     20, 25, 20, 20, 20, 0, 20, 20, 20, 20, 20, 20, 20, 20, 20, 26, 20, 0, 0, 0, 20, 20, 20, 20, 20, 20, 20, 20, 20,
     20, 20],
      [20, 20, 20, 0, 20, 20, 20, 20, 20, 20, 20, 20, 20, 20, 20, 20, 24, 20, 20, 20, 20, 20, 20, 20, 0, 0, 20, 20,
     20, 25, 20, 20, 20, 0, 20, 20, 20, 20, 20, 20, 20, 20, 20, 26, 20, 0, 0, 0, 20, 20, 20, 20, 20, 20, 20, 20, 20,
     20, 20]]

/-- for each nonterminal and each state, the set of states (one bit each) behind it -/
def tenthPassSets : List (List Nat) :=
  [[8589934591, 8589934591, 8589934591, 8589934591, 256, 128, 512, 128, 8589934591, 8589934591, 1024, 8589934591,
     131072, 524288, 8589934591, 4194304, 8589934591, 8589934591, 1024, 1024, 1048576, 8589934591, 8192, 8589934591,
     16777216, 1048576, 268435456, 8589934591, 536870912, 2147483648, 1048576, 1048576, 8589934591],
      [8589934591, 8589934591, 8589934591, 8589934591, 256, 128, 512, 128, 8589934591, 8589934591, 1024, 8589934591,
     131072, 524288, 8589934591, 4194304, 8589934591, 8589934591, 1024, 1024, 1048576, 8589934591, 8192, 8589934591,
     16777216, 1048576, 268435456, 8589934591, 536870912, 2147483648, 1048576, 1048576, 8589934591],
      [8589934591, 8589934591, 8589934591, 8589934591, 8589934591, 128, 8589934591, 128, 8589934591, 8589934591,
     8589934591, 8589934591, 8589934591, 8589934591, 8589934591, 8589934591, 8589934591, 8589934591, 8589934591,
     8589934591, 8589934591, 8589934591, 8589934591, 8589934591, 8589934591, 8589934591, 8589934591, 8589934591,
     8589934591, 8589934591, 8589934591, 8589934591, 8589934591],
      [8589934591, 8589934591, 8589934591, 128, 8589934591, 8589934591, 8589934591, 8589934591, 8589934591,
     8589934591, 8589934591, 8589934591, 8589934591, 8589934591, 8589934591, 8589934591, 8589934591, 8589934591,
     8589934591, 8589934591, 8589934591, 8589934591, 8589934591, 8589934591, 8589934591, 8589934591, 8589934591,
     8589934591, 8589934591, 8589934591, 8589934591, 8589934591, 8589934591],
      [8589934591, 8589934591, 8589934591, 8589934591, 8589934591, 8589934591, 8589934591, 8589934591, 8589934591,
     8589934591, 1024, 8589934591, 8589934591, 525312, 8589934591, 4195328, 8589934591, 8589934591, 1024, 1024,
     1048576, 8589934591, 9216, 8589934591, 8589934591, 1048576, 269484032, 8589934591, 537919488, 2148532224,
     1048576, 1048576, 8589934591],
      [8589934591, 8589934591, 8589934591, 8589934591, 8589934591, 8589934591, 8589934591, 8589934591, 8589934591,
     8589934591, 1024, 8589934591, 8589934591, 8589934591, 8589934591, 8589934591, 8589934591, 8589934591, 8589934591,
     8589934591, 1048576, 8589934591, 8589934591, 8589934591, 16777216, 1048576, 8589934591, 8589934591, 8589934591,
     8589934591, 8589934591, 8589934591, 8589934591],
      [8589934591, 8589934591, 8589934591, 8589934591, 8589934591, 8589934591, 8589934591, 8589934591, 8589934591,
     8589934591, 1024, 8589934591, 8589934591, 8589934591, 8589934591, 8589934591, 8589934591, 8589934591, 8589934591,
     8589934591, 1048576, 8589934591, 8589934591, 8589934591, 8589934591, 8589934591, 8589934591, 8589934591,
     8589934591, 8589934591, 8589934591, 8589934591, 8589934591],
      [8589934591, 8589934591, 8589934591, 8589934591, 8589934591, 8589934591, 8589934591, 8589934591, 8589934591,
     8589934591, 533504, 8589934591, 8589934591, 8589934591, 8589934591, 8589934591, 8589934591, 8589934591, 533504,
     8589934591, 2685403136, 8589934591, 8589934591, 8589934591, 8589934591, 8589934591, 8589934591, 8589934591,
     8589934591, 8589934591, 2685403136, 8589934591, 8589934591],
      [8589934591, 8589934591, 8589934591, 8589934591, 8589934591, 8589934591, 8589934591, 8589934591, 8589934591,
     8589934591, 533504, 8589934591, 8589934591, 8589934591, 8589934591, 8589934591, 8589934591, 8589934591, 533504,
     8589934591, 2685403136, 8589934591, 8589934591, 8589934591, 8589934591, 8589934591, 8589934591, 8589934591,
     8589934591, 8589934591, 2685403136, 8589934591, 8589934591],
      [8589934591, 8589934591, 8589934591, 8589934591, 8589934591, 8589934591, 8589934591, 8589934591, 8589934591,
     8589934591, 533504, 8589934591, 8589934591, 8589934591, 8589934591, 8589934591, 8589934591, 8589934591, 533504,
     8589934591, 2685403136, 8589934591, 8589934591, 8589934591, 8589934591, 8589934591, 8589934591, 8589934591,
     8589934591, 8589934591, 2685403136, 8589934591, 8589934591],
      [8589934591, 8589934591, 8589934591, 8589934591, 8589934591, 8589934591, 8589934591, 8589934591, 8589934591,
     8589934591, 9216, 8589934591, 8589934591, 533504, 8589934591, 8589934591, 8589934591, 8589934591, 8589934591,
     9216, 537919488, 8589934591, 8589934591, 8589934591, 8589934591, 8589934591, 8589934591, 8589934591, 8589934591,
     2685403136, 8589934591, 537919488, 8589934591],
      [8589934591, 8589934591, 8589934591, 8589934591, 8589934591, 8589934591, 8589934591, 8589934591, 8589934591,
     8589934591, 1024, 8589934591, 8589934591, 1024, 8589934591, 1024, 8589934591, 8589934591, 1024, 1024, 1048576,
     8589934591, 1024, 8589934591, 8589934591, 8589934591, 1048576, 8589934591, 1048576, 1048576, 1048576, 1048576,
     8589934591],
      [8589934591, 8589934591, 8589934591, 8589934591, 8589934591, 8589934591, 8589934591, 8589934591, 8589934591,
     8589934591, 8589934591, 8589934591, 8589934591, 8589934591, 8589934591, 8589934591, 533504, 8589934591,
     8589934591, 8589934591, 8589934591, 8589934591, 8589934591, 8589934591, 8589934591, 8589934591, 8589934591,
     2685403136, 8589934591, 8589934591, 8589934591, 8589934591, 8589934591],
      [8589934591, 8589934591, 8589934591, 8589934591, 8589934591, 8589934591, 8589934591, 8589934591, 8589934591,
     8589934591, 533504, 8589934591, 8589934591, 533504, 8589934591, 8589934591, 8589934591, 8589934591, 8589934591,
     533504, 2685403136, 8589934591, 8589934591, 8589934591, 8589934591, 8589934591, 8589934591, 8589934591,
     8589934591, 2685403136, 8589934591, 2685403136, 8589934591],
      [8589934591, 8589934591, 8589934591, 8589934591, 8589934591, 8589934591, 8589934591, 8589934591, 8589934591,
     8589934591, 533504, 8589934591, 8589934591, 8589934591, 8589934591, 8589934591, 533504, 8589934591, 8589934591,
     8589934591, 2685403136, 8589934591, 8589934591, 8589934591, 8589934591, 8589934591, 8589934591, 2685403136,
     8589934591, 8589934591, 8589934591, 8589934591, 8589934591],
      [8589934591, 8589934591, 8589934591, 8589934591, 8589934591, 8589934591, 8589934591, 8589934591, 8589934591,
     8589934591, 1024, 8589934591, 8589934591, 8589934591, 8589934591, 4195328, 8589934591, 8589934591, 8589934591,
     8589934591, 1048576, 8589934591, 8589934591, 8589934591, 8589934591, 8589934591, 269484032, 8589934591,
     8589934591, 8589934591, 8589934591, 8589934591, 8589934591],
      [8589934591, 8589934591, 8589934591, 8589934591, 8589934591, 8589934591, 8589934591, 8589934591, 8589934591,
     8589934591, 9216, 8589934591, 8589934591, 8589934591, 8589934591, 8589934591, 8589934591, 8589934591, 9216,
     8589934591, 537919488, 8589934591, 9216, 8589934591, 8589934591, 8589934591, 8589934591, 8589934591, 537919488,
     8589934591, 537919488, 8589934591, 8589934591],
      [8589934591, 8589934591, 8589934591, 8589934591, 8589934591, 8589934591, 8589934591, 8589934591, 8589934591,
     8589934591, 9216, 8589934591, 8589934591, 533504, 8589934591, 8589934591, 8589934591, 8589934591, 8589934591,
     9216, 537919488, 8589934591, 8589934591, 8589934591, 8589934591, 8589934591, 8589934591, 8589934591, 8589934591,
     2685403136, 8589934591, 537919488, 8589934591],
      [8589934591, 2685403136, 8589934591, 8589934591, 8589934591, 8589934591, 8589934591, 8589934591, 8589934591,
     8589934591, 8589934591, 8589934591, 8589934591, 8589934591, 8589934591, 8589934591, 8589934591, 8589934591,
     8589934591, 8589934591, 8589934591, 8589934591, 8589934591, 8589934591, 8589934591, 8589934591, 8589934591,
     8589934591, 8589934591, 8589934591, 8589934591, 8589934591, 8589934591],
      [8589934591, 8589934591, 8589934591, 664832, 8589934591, 8589934591, 8589934591, 664832, 8589934591, 8589934591,
     8589934591, 8589934591, 8589934591, 8589934591, 8589934591, 8589934591, 8589934591, 8589934591, 8589934591,
     8589934591, 8589934591, 8589934591, 8589934591, 8589934591, 8589934591, 8589934591, 8589934591, 8589934591,
     8589934591, 8589934591, 8589934591, 8589934591, 8589934591],
      [8589934591, 8589934591, 8589934591, 8589934591, 8589934591, 8589934591, 8589934591, 8589934591, 664576,
     8589934591, 664576, 8589934591, 8589934591, 664576, 8589934591, 8589934591, 8589934591, 664576, 8589934591,
     664576, 8589934591, 8589934591, 8589934591, 8589934591, 8589934591, 8589934591, 8589934591, 8589934591,
     8589934591, 8589934591, 8589934591, 8589934591, 8589934591],
      [8589934591, 8589934591, 8589934591, 8589934591, 8589934591, 8589934591, 8589934591, 8589934591, 8589934591,
     8589934591, 8589934591, 8589934591, 8589934591, 8589934591, 2685403136, 8589934591, 8589934591, 8589934591,
     8589934591, 8589934591, 2685403136, 8589934591, 8589934591, 8589934591, 8589934591, 8589934591, 8589934591,
     8589934591, 8589934591, 8589934591, 8589934591, 8589934591, 8589934591],
      [8589934591, 8589934591, 8589934591, 8589934591, 8589934591, 8589934591, 8589934591, 8589934591, 8589934591,
     8589934591, 533504, 8589934591, 8589934591, 8589934591, 8589934591, 8589934591, 8589934591, 8589934591,
     8589934591, 8589934591, 2685403136, 2685403136, 8589934591, 8589934591, 8589934591, 8589934591, 8589934591,
     8589934591, 8589934591, 8589934591, 8589934591, 8589934591, 8589934591],
      [8589934591, 8589934591, 8589934591, 8589934591, 8589934591, 8589934591, 8589934591, 8589934591, 8589934591,
     8589934591, 533504, 8589934591, 8589934591, 533504, 8589934591, 8589934591, 8589934591, 8589934591, 8589934591,
     533504, 8589934591, 8589934591, 8589934591, 8589934591, 8589934591, 8589934591, 8589934591, 8589934591,
     8589934591, 8589934591, 8589934591, 8589934591, 8589934591],
      [8589934591, 8589934591, 8589934591, 8589934591, 8589934591, 8589934591, 8589934591, 8589934591, 8589934591,
     8589934591, 533504, 8589934591, 8589934591, 8589934591, 8589934591, 8589934591, 8589934591, 8589934591, 533504,
     8589934591, 2685403136, 8589934591, 8589934591, 8589934591, 8589934591, 8589934591, 8589934591, 8589934591,
     8589934591, 8589934591, 2685403136, 8589934591, 8589934591],
      [8589934591, 8589934591, 8589934591, 8589934591, 8589934591, 8589934591, 8589934591, 8589934591, 8589934591,
     8589934591, 1024, 8589934591, 8589934591, 8589934591, 8589934591, 8589934591, 8589934591, 8589934591, 8589934591,
     8589934591, 1048576, 8589934591, 8589934591, 8589934591, 8589934591, 8589934591, 8589934591, 8589934591,
     8589934591, 8589934591, 8589934591, 8589934591, 8589934591],
      [8589934591, 8589934591, 8589934591, 8589934591, 8589934591, 8589934591, 8589934591, 8589934591, 8589934591,
     8589934591, 533504, 8589934591, 8589934591, 8589934591, 8589934591, 8589934591, 8589934591, 8589934591,
     8589934591, 8589934591, 2685403136, 8589934591, 8589934591, 8589934591, 8589934591, 2685403136, 8589934591,
     8589934591, 8589934591, 8589934591, 8589934591, 8589934591, 8589934591],
      [8589934591, 8589934591, 8589934591, 8589934591, 8589934591, 8589934591, 8589934591, 8589934591, 8589934591,
     8589934591, 533504, 533504, 8589934591, 533504, 8589934591, 8589934591, 8589934591, 8589934591, 8589934591,
     533504, 2685403136, 8589934591, 8589934591, 8589934591, 8589934591, 2685403136, 8589934591, 8589934591,
     8589934591, 2685403136, 8589934591, 2685403136, 8589934591],
      [8589934591, 8589934591, 8589934591, 8589934591, 8589934591, 8589934591, 8589934591, 8589934591, 8589934591,
     8589934591, 1024, 8589934591, 8589934591, 8589934591, 8589934591, 8589934591, 8589934591, 8589934591, 8589934591,
     8589934591, 1048576, 8589934591, 8589934591, 8589934591, 8589934591, 8589934591, 8589934591, 8589934591,
     8589934591, 8589934591, 8589934591, 8589934591, 8589934591],
      [8589934591, 8589934591, 8589934591, 8589934591, 8589934591, 8589934591, 8589934591, 8589934591, 8589934591,
     8589934591, 1024, 8589934591, 8589934591, 8589934591, 8589934591, 8589934591, 8589934591, 8589934591, 8589934591,
     8589934591, 1048576, 8589934591, 8589934591, 8589934591, 8589934591, 8589934591, 8589934591, 8589934591,
     8589934591, 8589934591, 8589934591, 8589934591, 8589934591],
      [8589934591, 8589934591, 8589934591, 8589934591, 8589934591, 8589934591, 8589934591, 8589934591, 8589934591,
     8589934591, 9216, 8589934591, 8589934591, 9216, 8589934591, 8589934591, 8589934591, 8589934591, 8589934591,
     8589934591, 537919488, 8589934591, 8589934591, 8589934591, 8589934591, 8589934591, 8589934591, 8589934591,
     8589934591, 537919488, 8589934591, 8589934591, 8589934591],
      [8589934591, 8589934591, 8589934591, 8589934591, 8589934591, 8589934591, 8589934591, 8589934591, 8589934591,
     8589934591, 9216, 8589934591, 8589934591, 8589934591, 8589934591, 8589934591, 8589934591, 8589934591, 8589934591,
     8589934591, 537919488, 8589934591, 8589934591, 8589934591, 8589934591, 8589934591, 8589934591, 8589934591,
     8589934591, 8589934591, 8589934591, 8589934591, 8589934591],
      [8589934591, 8589934591, 8589934591, 8589934591, 8589934591, 8589934591, 8589934591, 8589934591, 8589934591,
     8589934591, 9216, 8589934591, 8589934591, 8589934591, 8589934591, 8589934591, 8589934591, 8589934591, 8589934591,
     8589934591, 537919488, 8589934591, 8589934591, 8589934591, 8589934591, 537919488, 8589934591, 8589934591,
     8589934591, 8589934591, 8589934591, 8589934591, 8589934591],
      [8589934591, 8589934591, 8589934591, 8589934591, 8589934591, 8589934591, 8589934591, 8589934591, 8589934591,
     8589934591, 9216, 8589934591, 8589934591, 8589934591, 8589934591, 8589934591, 8589934591, 8589934591, 8589934591,
     8589934591, 537919488, 8589934591, 8589934591, 8589934591, 8589934591, 537919488, 8589934591, 8589934591,
     8589934591, 8589934591, 8589934591, 8589934591, 8589934591],
      [8589934591, 8589934591, 8589934591, 8589934591, 8589934591, 8589934591, 8589934591, 8589934591, 8589934591,
     8589934591, 8589934591, 8589934591, 8589934591, 8589934591, 8589934591, 8589934591, 8589934591, 8589934591,
     8589934591, 8589934591, 2702180352, 8589934591, 8589934591, 8589934591, 8589934591, 8589934591, 8589934591,
     8589934591, 8589934591, 8589934591, 8589934591, 8589934591, 8589934591],
      [8589934591, 8589934591, 8589934591, 8589934591, 8589934591, 8589934591, 8589934591, 8589934591, 8589934591,
     8589934591, 8589934591, 8589934591, 8589934591, 8589934591, 8589934591, 8589934591, 8589934591, 8589934591,
     8589934591, 8589934591, 2702180352, 8589934591, 8589934591, 8589934591, 2702180352, 8589934591, 8589934591,
     8589934591, 8589934591, 2702180352, 8589934591, 2702180352, 8589934591],
      [8589934591, 8589934591, 8589934591, 8589934591, 8589934591, 8589934591, 8589934591, 8589934591, 8589934591,
     8589934591, 8589934591, 8589934591, 8589934591, 8589934591, 8589934591, 8589934591, 8589934591, 8589934591,
     8589934591, 8589934591, 2702180352, 8589934591, 8589934591, 8589934591, 8589934591, 8589934591, 8589934591,
     8589934591, 8589934591, 8589934591, 8589934591, 8589934591, 8589934591],
      [8589934591, 8589934591, 8589934591, 8589934591, 8589934591, 8589934591, 8589934591, 8589934591, 8589934591,
     8589934591, 8589934591, 8589934591, 8589934591, 8589934591, 8589934591, 8589934591, 8589934591, 8589934591,
     8589934591, 8589934591, 8589934591, 8589934591, 8589934591, 8589934591, 1048576, 8589934591, 8589934591,
     8589934591, 8589934591, 8589934591, 8589934591, 8589934591, 8589934591],
      [8589934591, 8589934591, 8589934591, 8589934591, 8589934591, 8589934591, 8589934591, 8589934591, 8589934591,
     8589934591, 8589934591, 8589934591, 8589934591, 8589934591, 8589934591, 8589934591, 8589934591, 8589934591,
     8589934591, 8589934591, 1048576, 8589934591, 8589934591, 8589934591, 8589934591, 8589934591, 8589934591,
     8589934591, 8589934591, 8589934591, 8589934591, 8589934591, 8589934591],
      [8589934591, 8589934591, 8589934591, 8589934591, 8589934591, 8589934591, 8589934591, 8589934591, 8589934591,
     8589934591, 8589934591, 8589934591, 8589934591, 8589934591, 8589934591, 8589934591, 8589934591, 8589934591,
     8589934591, 8589934591, 2702180352, 8589934591, 8589934591, 8589934591, 2702180352, 2702180352, 8589934591,
     8589934591, 8589934591, 2702180352, 8589934591, 2702180352, 8589934591],
      [8589934591, 8589934591, 8589934591, 8589934591, 8589934591, 8589934591, 8589934591, 8589934591, 8589934591,
     8589934591, 8589934591, 8589934591, 8589934591, 8589934591, 8589934591, 8589934591, 8589934591, 8589934591,
     8589934591, 8589934591, 17825792, 8589934591, 8589934591, 8589934591, 8589934591, 8589934591, 8589934591,
     8589934591, 8589934591, 8589934591, 8589934591, 8589934591, 8589934591],
      [8589934591, 8589934591, 8589934591, 8589934591, 8589934591, 8589934591, 8589934591, 8589934591, 8589934591,
     8589934591, 8589934591, 8589934591, 8589934591, 8589934591, 8589934591, 8589934591, 8589934591, 8589934591,
     8589934591, 8589934591, 1048576, 8589934591, 8589934591, 8589934591, 1048576, 8589934591, 8589934591, 8589934591,
     8589934591, 8589934591, 8589934591, 8589934591, 8589934591],
      [8589934591, 8589934591, 8589934591, 8589934591, 8589934591, 8589934591, 8589934591, 8589934591, 8589934591,
     8589934591, 8589934591, 8589934591, 8589934591, 8589934591, 2685403136, 8589934591, 8589934591, 8589934591,
     8589934591, 8589934591, 2685403136, 8589934591, 8589934591, 8589934591, 8589934591, 8589934591, 8589934591,
     8589934591, 8589934591, 8589934591, 8589934591, 8589934591, 8589934591],
      [8589934591, 8589934591, 8589934591, 8589934591, 8589934591, 8589934591, 8589934591, 8589934591, 8589934591,
     8589934591, 8589934591, 8589934591, 8589934591, 8589934591, 2685403136, 8589934591, 8589934591, 8589934591,
     8589934591, 8589934591, 2685403136, 8589934591, 8589934591, 8589934591, 8589934591, 8589934591, 8589934591,
     8589934591, 8589934591, 2685403136, 8589934591, 2685403136, 8589934591],
      [8589934591, 8589934591, 8589934591, 8589934591, 8589934591, 8589934591, 8589934591, 8589934591, 8589934591,
     1048576, 8589934591, 8589934591, 8589934591, 8589934591, 8589934591, 8589934591, 8589934591, 8589934591,
     8589934591, 8589934591, 1048576, 8589934591, 8589934591, 8589934591, 8589934591, 8589934591, 8589934591,
     8589934591, 8589934591, 8589934591, 8589934591, 8589934591, 8589934591],
      [8589934591, 8589934591, 8589934591, 8589934591, 8589934591, 8589934591, 8589934591, 8589934591, 8589934591,
     8589934591, 8589934591, 8589934591, 8589934591, 8589934591, 8589934591, 8589934591, 8589934591, 8589934591,
     8589934591, 8589934591, 1048576, 8589934591, 8589934591, 8589934591, 8589934591, 8589934591, 8589934591,
     8589934591, 8589934591, 1048576, 8589934591, 1048576, 8589934591],
      [8589934591, 8589934591, 8589934591, 8589934591, 8589934591, 8589934591, 8589934591, 8589934591, 8589934591,
     8589934591, 8589934591, 8589934591, 8589934591, 8589934591, 8589934591, 8589934591, 8589934591, 8589934591,
     8589934591, 8589934591, 1048576, 8589934591, 8589934591, 8589934591, 8589934591, 8589934591, 8589934591,
     8589934591, 8589934591, 1048576, 8589934591, 1048576, 8589934591],
      [8589934591, 8589934591, 8589934591, 8589934591, 8589934591, 8589934591, 8589934591, 8589934591, 8589934591,
     8589934591, 8589934591, 8589934591, 8589934591, 8589934591, 8589934591, 8589934591, 8589934591, 8589934591,
     8589934591, 8589934591, 1048576, 8589934591, 8589934591, 8589934591, 8589934591, 8589934591, 8589934591,
     8589934591, 8589934591, 1048576, 8589934591, 1048576, 8589934591],
      [8589934591, 8589934591, 8589934591, 8589934591, 8589934591, 8589934591, 8589934591, 8589934591, 8589934591,
     8589934591, 8589934591, 8589934591, 8589934591, 8589934591, 8589934591, 8589934591, 8589934591, 8589934591,
     8589934591, 8589934591, 1048576, 8589934591, 8589934591, 8589934591, 8589934591, 8589934591, 8589934591,
     8589934591, 8589934591, 8589934591, 8589934591, 8589934591, 8589934591],
      [8589934591, 8589934591, 8589934591, 2685403136, 8589934591, 8589934591, 8589934591, 2685403136, 2685403136,
     8589934591, 2685403136, 8589934591, 8589934591, 2685403136, 8589934591, 8589934591, 8589934591, 2685403136,
     8589934591, 2685403136, 8589934591, 8589934591, 8589934591, 8589934591, 8589934591, 8589934591, 8589934591,
     8589934591, 8589934591, 8589934591, 8589934591, 8589934591, 8589934591],
      [8589934591, 8589934591, 8589934591, 8589934591, 8589934591, 8589934591, 8589934591, 8589934591, 8589934591,
     8589934591, 8589934591, 8589934591, 8589934591, 8589934591, 8589934591, 8589934591, 8589934591, 8589934591,
     8589934591, 8589934591, 2685403136, 8589934591, 8589934591, 8589934591, 8589934591, 8589934591, 8589934591,
     8589934591, 8589934591, 2685403136, 8589934591, 2685403136, 8589934591],
      [8589934591, 8589934591, 8589934591, 8589934591, 8589934591, 8589934591, 8589934591, 8589934591, 8589934591,
     8589934591, 8589934591, 8589934591, 8589934591, 8589934591, 8589934591, 8589934591, 8589934591, 8589934591,
     8589934591, 8589934591, 1048576, 8589934591, 8589934591, 8589934591, 8589934591, 8589934591, 8589934591,
     8589934591, 8589934591, 8589934591, 8589934591, 8589934591, 8589934591],
      [8589934591, 8589934591, 8589934591, 8589934591, 8589934591, 8589934591, 8589934591, 8589934591, 8589934591,
     8589934591, 1024, 8589934591, 8589934591, 1024, 8589934591, 8192, 8589934591, 8589934591, 1024, 1024, 1048576,
     8589934591, 1024, 8589934591, 8589934591, 1048576, 536870912, 8589934591, 1048576, 1048576, 1048576, 1048576,
     8589934591],
      [8589934591, 8589934591, 8, 8589934591, 8589934591, 8589934591, 8589934591, 8589934591, 8589934591, 8589934591,
     1024, 8589934591, 8589934591, 8589934591, 8589934591, 8589934591, 8589934591, 8589934591, 8589934591, 8589934591,
     1048576, 8589934591, 8589934591, 8589934591, 8589934591, 8589934591, 8589934591, 8589934591, 8589934591,
     8589934591, 8589934591, 8589934591, 8589934591],
      [8589934591, 8589934591, 8589934591, 8589934591, 8589934591, 8589934591, 8589934591, 8589934591, 8589934591,
     8589934591, 1024, 8589934591, 8589934591, 8589934591, 2097152, 8589934591, 8589934591, 8589934591, 8589934591,
     8589934591, 1048576, 8589934591, 8589934591, 8589934591, 16777216, 1048576, 8589934591, 8589934591, 8589934591,
     8589934591, 8589934591, 8589934591, 8589934591],
      [8589934591, 8589934591, 8589934591, 8589934591, 8589934591, 8589934591, 8589934591, 8589934591, 8589934591,
     8589934591, 1024, 1024, 8589934591, 8589934591, 8589934591, 8589934591, 8589934591, 8589934591, 8589934591,
     8589934591, 1048576, 8589934591, 8589934591, 8589934591, 16777216, 1048576, 8589934591, 8589934591, 8589934591,
     8589934591, 8589934591, 8589934591, 8589934591],
      [8589934591, 8589934591, 8589934591, 8589934591, 256, 128, 512, 128, 8589934591, 8589934591, 1024, 8589934591,
     131072, 524288, 8589934591, 4194304, 8589934591, 8589934591, 1024, 1024, 1048576, 8589934591, 8192, 8589934591,
     16777216, 1048576, 268435456, 8589934591, 536870912, 2147483648, 1048576, 1048576, 8589934591],
      [8589934591, 8589934591, 8589934591, 8589934591, 8589934591, 8589934591, 8589934591, 8589934591, 8589934591,
     8589934591, 1024, 8589934591, 8589934591, 524288, 8589934591, 8589934591, 8589934591, 8589934591, 1024, 1024,
     1048576, 8589934591, 8589934591, 8589934591, 8589934591, 8589934591, 8589934591, 8589934591, 8589934591,
     2147483648, 1048576, 1048576, 8589934591],
      [8589934591, 8589934591, 8589934591, 8589934591, 8589934591, 8589934591, 8589934591, 8589934591, 8589934591,
     8589934591, 1024, 8589934591, 8589934591, 8589934591, 8589934591, 8589934591, 8589934591, 8589934591, 8589934591,
     8589934591, 1048576, 8589934591, 8589934591, 8589934591, 8589934591, 1048576, 8589934591, 8589934591, 8589934591,
     8589934591, 8589934591, 8589934591, 8589934591],
      [],
      [],
      [8589934591, 8589934591, 8589934591, 8589934591, 8589934591, 128, 8589934591, 8589934591, 8589934591,
     8589934591, 8589934591, 8589934591, 8589934591, 8589934591, 8589934591, 8589934591, 8589934591, 8589934591,
     8589934591, 8589934591, 8589934591, 8589934591, 8589934591, 8589934591, 8589934591, 8589934591, 8589934591,
     8589934591, 8589934591, 8589934591, 8589934591, 8589934591, 8589934591],
      [],
      [],
      [8589934591, 8589934591, 8589934591, 8589934591, 8589934591, 8589934591, 8589934591, 8589934591, 8589934591,
     8589934591, 1024, 8589934591, 8589934591, 8589934591, 8589934591, 8589934591, 8589934591, 8589934591, 8589934591,
     8589934591, 1048576, 8589934591, 8589934591, 8589934591, 8589934591, 8589934591, 8589934591, 8589934591,
     8589934591, 8589934591, 8589934591, 8589934591, 8589934591],
      [],
      [],
      [],
      [],
      [8589934591, 8589934591, 8589934591, 8589934591, 8589934591, 8589934591, 8589934591, 8589934591, 8589934591,
     8589934591, 533504, 8589934591, 8589934591, 533504, 8589934591, 8589934591, 8589934591, 8589934591, 8589934591,
     8589934591, 2685403136, 8589934591, 8589934591, 8589934591, 8589934591, 8589934591, 8589934591, 8589934591,
     8589934591, 8589934591, 8589934591, 8589934591, 8589934591],
      [],
      [],
      [8589934591, 8589934591, 8589934591, 8589934591, 8589934591, 8589934591, 8589934591, 8589934591, 8589934591,
     8589934591, 533504, 8589934591, 8589934591, 533504, 8589934591, 8589934591, 8589934591, 8589934591, 8589934591,
     533504, 2685403136, 8589934591, 8589934591, 8589934591, 8589934591, 8589934591, 8589934591, 8589934591,
     8589934591, 2685403136, 8589934591, 2685403136, 8589934591],
      [],
      [],
      [],
      [8589934591, 8589934591, 8589934591, 8589934591, 8589934591, 8589934591, 8589934591, 8589934591, 8589934591,
     8589934591, 533504, 8589934591, 8589934591, 8589934591, 8589934591, 8589934591, 8589934591, 8589934591,
     8589934591, 8589934591, 2685403136, 8589934591, 8589934591, 8589934591, 8589934591, 8589934591, 8589934591,
     8589934591, 8589934591, 8589934591, 8589934591, 8589934591, 8589934591],
      [],
      [],
      [8589934591, 8589934591, 8589934591, 8589934591, 8589934591, 8589934591, 8589934591, 8589934591, 664576,
     8589934591, 8589934591, 8589934591, 8589934591, 8589934591, 8589934591, 8589934591, 8589934591, 8589934591,
     8589934591, 8589934591, 8589934591, 8589934591, 8589934591, 8589934591, 8589934591, 8589934591, 8589934591,
     8589934591, 8589934591, 8589934591, 8589934591, 8589934591, 8589934591],
      [],
      [],
      [8589934591, 8589934591, 8589934591, 8589934591, 8589934591, 8589934591, 8589934591, 8589934591, 8589934591,
     8589934591, 533504, 8589934591, 8589934591, 8589934591, 8589934591, 8589934591, 8589934591, 8589934591,
     8589934591, 8589934591, 8589934591, 8589934591, 8589934591, 8589934591, 8589934591, 8589934591, 8589934591,
     8589934591, 8589934591, 8589934591, 8589934591, 8589934591, 8589934591],
      [],
      [],
      [],
      [8589934591, 8589934591, 8589934591, 8589934591, 8589934591, 8589934591, 8589934591, 8589934591, 8589934591,
     8589934591, 8589934591, 533504, 8589934591, 8589934591, 8589934591, 8589934591, 8589934591, 8589934591,
     8589934591, 8589934591, 8589934591, 8589934591, 8589934591, 8589934591, 8589934591, 2685403136, 8589934591,
     8589934591, 8589934591, 8589934591, 8589934591, 8589934591, 8589934591],
      [],
      [8589934591, 8589934591, 8589934591, 8589934591, 8589934591, 8589934591, 8589934591, 8589934591, 8589934591,
     8589934591, 1024, 8589934591, 8589934591, 8589934591, 8589934591, 8589934591, 8589934591, 8589934591, 8589934591,
     8589934591, 1048576, 8589934591, 8589934591, 8589934591, 8589934591, 8589934591, 8589934591, 8589934591,
     8589934591, 8589934591, 8589934591, 8589934591, 8589934591],
      [8589934591, 8589934591, 8589934591, 8589934591, 8589934591, 8589934591, 8589934591, 8589934591, 8589934591,
     8589934591, 9216, 8589934591, 8589934591, 9216, 8589934591, 8589934591, 8589934591, 8589934591, 8589934591,
     8589934591, 537919488, 8589934591, 8589934591, 8589934591, 8589934591, 8589934591, 8589934591, 8589934591,
     8589934591, 537919488, 8589934591, 8589934591, 8589934591],
      [],
      [],
      [],
      [],
      [8589934591, 8589934591, 8589934591, 8589934591, 8589934591, 8589934591, 8589934591, 8589934591, 8589934591,
     8589934591, 8589934591, 8589934591, 8589934591, 8589934591, 8589934591, 8589934591, 8589934591, 8589934591,
     8589934591, 8589934591, 2702180352, 8589934591, 8589934591, 8589934591, 2702180352, 8589934591, 8589934591,
     8589934591, 8589934591, 2702180352, 8589934591, 2702180352, 8589934591],
      [],
      [],
      [],
      [8589934591, 8589934591, 8589934591, 8589934591, 8589934591, 8589934591, 8589934591, 8589934591, 8589934591,
     8589934591, 8589934591, 8589934591, 8589934591, 8589934591, 8589934591, 8589934591, 8589934591, 8589934591,
     8589934591, 8589934591, 8589934591, 8589934591, 8589934591, 8589934591, 8589934591, 2702180352, 8589934591,
     8589934591, 8589934591, 8589934591, 8589934591, 8589934591, 8589934591],
      [],
      [8589934591, 8589934591, 8589934591, 8589934591, 8589934591, 8589934591, 8589934591, 8589934591, 8589934591,
     8589934591, 8589934591, 8589934591, 8589934591, 8589934591, 8589934591, 8589934591, 8589934591, 8589934591,
     8589934591, 8589934591, 1048576, 8589934591, 8589934591, 8589934591, 1048576, 8589934591, 8589934591, 8589934591,
     8589934591, 8589934591, 8589934591, 8589934591, 8589934591],
      [],
      [8589934591, 8589934591, 8589934591, 8589934591, 8589934591, 8589934591, 8589934591, 8589934591, 8589934591,
     8589934591, 8589934591, 8589934591, 8589934591, 8589934591, 2685403136, 8589934591, 8589934591, 8589934591,
     8589934591, 8589934591, 2685403136, 8589934591, 8589934591, 8589934591, 8589934591, 8589934591, 8589934591,
     8589934591, 8589934591, 2685403136, 8589934591, 2685403136, 8589934591],
      [],
      [8589934591, 8589934591, 8589934591, 8589934591, 8589934591, 8589934591, 8589934591, 8589934591, 8589934591,
     8589934591, 8589934591, 8589934591, 8589934591, 8589934591, 8589934591, 8589934591, 8589934591, 8589934591,
     8589934591, 8589934591, 1048576, 8589934591, 8589934591, 8589934591, 8589934591, 8589934591, 8589934591,
     8589934591, 8589934591, 1048576, 8589934591, 1048576, 8589934591],
      [],
      [],
      [],
      [],
      [8589934591, 8589934591, 8589934591, 8589934591, 8589934591, 8589934591, 8589934591, 8589934591, 8589934591,
     8589934591, 8589934591, 8589934591, 8589934591, 8589934591, 8589934591, 8589934591, 8589934591, 8589934591,
     8589934591, 8589934591, 2685403136, 8589934591, 8589934591, 8589934591, 8589934591, 8589934591, 8589934591,
     8589934591, 8589934591, 8589934591, 8589934591, 8589934591, 8589934591],
      [],
      [],
      [],
      [],
      [],
      [],
      [],
      [],
      []]

/-- for each state, the states with which it has no continuation in common -/
def tenthPassDoomed : List Nat :=
  [8589934591, 8576553725, 8576553723, 8576385607, 8576516935, 8576516935, 1022361535, 8576385607, 8576356977,
     3102735871, 8576320065, 8576320065, 8576549703, 8576320065, 1223671807, 8576521031, 8576488191, 8580616823,
     8576320065, 8576320065, 13614527, 4509925375, 8576451137, 8576320065, 13614527, 13614527, 149929471, 82837503,
     13615103, 13615103, 13630911, 13615039, 15711679]

/-- the states where programs end -/
def tenthPassFinal : Nat := 2685403136

/-! The states: SINK, START, O, F, U, L, W, K, T, S, TH, M, E, FC, FN, FT, UN, LN, WN, KP, TN, SC, SN, MN, EP, FD, KI, SD, MD, EI -/

/-- for each state, the next state for each terminal -/
def eleventhPassSteps : List (List Nat) :=
  [[0, 0, 0, 0, 0, 0, 0, 0, 0, 0, 0, 0, 0, 0, 0, 0, 0, 0, 0, 0, 0, 0, 0, 0, 0, 0, 0, 0, 0, 0, 0, 0, 0, 0, 0, 0, 0, 0,
     0, 0, 0, 0, 0, 0, 0, 0, 0, 0, 0, 0, 0, 0, 0, 0, 0, 0, 0, 0, 0],
      [0, 0, 0, 0, 0, 0, 0, 0, 0, 0, 0, 0, 0, 0, 0, 0, 0, 0, 0, 0, 0, 0, 0, 0, 0, 0, 0, 0, 0, 0, 0, 0, 0, 0, 0, 0, 0,
     0, 0, 0, 0, 0, 0, 0, 2, 0, 0, 0, 0, 0, 0, 0, 0, 0, 0, 0, 0, 0, 0],
      [2, 2, 2, 2, 2, 2, 2, 2, 2, 2, 2, 2, 2, 2, 2, 2, 2, 2, 2, 2, 2, 2, 3, 4, 2, 2, 5, 4, 2, 6, 2, 7, 2, 2, 8, 9, 9,
     2, 2, 2, 2, 2, 10, 11, 2, 2, 2, 2, 8, 12, 2, 2, 2, 2, 2, 2, 2, 2, 2],
      [0, 0, 0, 0, 0, 0, 0, 0, 0, 0, 0, 0, 0, 0, 0, 0, 0, 0, 0, 0, 0, 0, 0, 0, 0, 0, 0, 0, 0, 0, 0, 0, 0, 0, 0, 0, 0,
     13, 0, 0, 0, 0, 0, 0, 0, 0, 0, 0, 0, 0, 13, 13, 0, 0, 0, 14, 14, 13, 15],
      [2, 2, 2, 2, 2, 2, 2, 2, 2, 2, 2, 2, 2, 2, 2, 2, 2, 2, 2, 2, 2, 2, 3, 4, 2, 2, 5, 4, 2, 6, 2, 7, 2, 2, 8, 9, 9,
     16, 2, 2, 2, 2, 10, 11, 2, 2, 2, 2, 8, 12, 16, 16, 2, 2, 2, 16, 16, 16, 16],
      [0, 0, 0, 0, 0, 0, 0, 0, 0, 0, 0, 0, 0, 0, 0, 0, 0, 0, 0, 0, 0, 0, 0, 0, 0, 0, 0, 0, 0, 0, 0, 0, 0, 0, 0, 0, 0,
     17, 0, 0, 0, 0, 0, 0, 0, 0, 0, 0, 0, 0, 17, 17, 0, 0, 0, 17, 17, 17, 17],
      [2, 2, 2, 2, 2, 2, 2, 2, 2, 2, 2, 2, 2, 2, 2, 2, 2, 2, 2, 2, 2, 2, 3, 4, 2, 2, 5, 4, 2, 6, 2, 7, 2, 2, 8, 9, 9,
     18, 2, 2, 2, 2, 10, 11, 2, 2, 2, 2, 8, 12, 18, 18, 2, 2, 2, 18, 18, 18, 18],
      [0, 0, 0, 0, 0, 0, 0, 0, 19, 0, 0, 0, 0, 0, 0, 0, 0, 0, 0, 0, 0, 0, 0, 0, 0, 0, 0, 0, 0, 0, 0, 0, 0, 0, 0, 0, 0,
     0, 0, 0, 0, 0, 0, 0, 0, 0, 0, 0, 0, 0, 0, 0, 0, 0, 0, 0, 0, 0, 0],
      [0, 0, 0, 0, 0, 0, 0, 0, 0, 0, 0, 0, 0, 0, 0, 0, 0, 0, 0, 0, 0, 0, 0, 0, 0, 0, 0, 0, 0, 0, 0, 0, 0, 0, 0, 0, 0,
     20, 0, 0, 0, 0, 0, 0, 0, 0, 0, 0, 0, 0, 20, 20, 0, 0, 0, 20, 20, 20, 20],
      [0, 0, 0, 0, 0, 0, 0, 0, 0, 0, 0, 0, 0, 0, 0, 0, 0, 0, 0, 0, 0, 0, 0, 0, 0, 0, 0, 0, 0, 0, 0, 0, 0, 0, 0, 0, 0,
     21, 0, 0, 0, 0, 0, 0, 0, 0, 0, 0, 0, 0, 21, 21, 0, 0, 0, 22, 22, 21, 0],
      [2, 2, 2, 2, 2, 2, 2, 2, 2, 2, 2, 2, 2, 2, 2, 2, 2, 2, 2, 2, 2, 2, 3, 4, 2, 2, 5, 4, 2, 6, 2, 7, 2, 2, 8, 9, 9,
     21, 2, 2, 2, 2, 10, 11, 2, 2, 2, 2, 8, 12, 21, 21, 2, 2, 2, 22, 22, 21, 0],
      [0, 0, 0, 0, 0, 0, 0, 0, 2, 0, 0, 0, 0, 0, 0, 0, 0, 0, 0, 0, 0, 0, 0, 0, 0, 0, 0, 0, 0, 0, 0, 0, 0, 0, 0, 0, 0,
     23, 0, 0, 0, 0, 0, 11, 0, 0, 0, 0, 0, 0, 23, 23, 0, 2, 0, 0, 0, 23, 0],
      [2, 2, 2, 2, 2, 2, 2, 2, 24, 2, 2, 2, 2, 2, 2, 2, 2, 2, 2, 2, 2, 2, 3, 4, 2, 2, 5, 4, 2, 6, 2, 7, 2, 2, 8, 9, 9,
     2, 2, 2, 2, 2, 10, 11, 2, 2, 2, 2, 8, 12, 2, 2, 2, 2, 2, 2, 2, 2, 2],
      [0, 0, 0, 0, 25, 0, 0, 0, 0, 0, 0, 0, 0, 0, 0, 0, 0, 0, 0, 0, 0, 0, 0, 0, 0, 0, 0, 0, 0, 0, 0, 0, 0, 0, 0, 0, 0,
     0, 0, 0, 0, 0, 0, 0, 0, 0, 0, 0, 0, 0, 0, 0, 0, 0, 0, 0, 0, 0, 0],
      [0, 0, 0, 0, 0, 0, 0, 0, 0, 0, 0, 0, 0, 0, 0, 0, 0, 0, 0, 0, 0, 0, 0, 0, 0, 0, 0, 0, 0, 0, 0, 0, 0, 0, 0, 0, 0,
     2, 0, 0, 0, 0, 0, 0, 0, 0, 0, 0, 0, 0, 2, 2, 0, 0, 0, 2, 2, 2, 2],
      [0, 0, 0, 0, 2, 0, 0, 0, 0, 0, 0, 0, 0, 0, 0, 0, 0, 0, 0, 0, 0, 0, 0, 0, 0, 0, 0, 0, 0, 0, 0, 0, 0, 0, 0, 0, 0,
     0, 0, 0, 0, 0, 0, 0, 0, 0, 0, 0, 0, 0, 0, 0, 0, 0, 0, 0, 0, 0, 0],
      [2, 2, 2, 0, 2, 2, 2, 2, 2, 2, 2, 2, 2, 2, 2, 0, 2, 2, 2, 2, 2, 2, 3, 4, 2, 2, 5, 4, 2, 6, 2, 7, 2, 2, 8, 9, 9,
     2, 2, 2, 2, 2, 10, 11, 2, 2, 2, 2, 8, 12, 2, 2, 2, 2, 2, 2, 2, 2, 2],
      [0, 0, 0, 2, 0, 0, 0, 0, 0, 0, 0, 0, 0, 0, 0, 2, 0, 0, 0, 0, 0, 0, 0, 0, 0, 0, 0, 0, 0, 0, 0, 0, 0, 0, 0, 0, 0,
     0, 0, 0, 0, 0, 0, 0, 0, 0, 0, 0, 0, 0, 0, 0, 0, 0, 0, 0, 0, 0, 0],
      [2, 2, 2, 2, 6, 2, 2, 2, 0, 2, 2, 2, 2, 2, 2, 2, 2, 2, 2, 2, 2, 2, 3, 4, 2, 2, 5, 4, 2, 6, 2, 7, 2, 2, 8, 9, 9,
     2, 2, 2, 2, 2, 10, 11, 2, 2, 2, 2, 8, 12, 2, 2, 2, 2, 2, 2, 2, 2, 2],
      [0, 0, 0, 0, 0, 0, 0, 0, 0, 0, 0, 0, 0, 0, 0, 0, 0, 0, 0, 0, 0, 0, 0, 0, 0, 0, 0, 0, 0, 0, 0, 0, 0, 0, 0, 0, 0,
     0, 0, 0, 0, 0, 0, 0, 0, 0, 0, 0, 0, 0, 0, 0, 0, 0, 0, 26, 0, 0, 0],
      [0, 0, 0, 0, 0, 0, 0, 0, 2, 0, 0, 0, 0, 0, 0, 0, 0, 0, 0, 0, 0, 0, 0, 0, 0, 0, 0, 0, 0, 0, 0, 0, 0, 0, 0, 0, 0,
     0, 0, 0, 0, 0, 0, 0, 0, 0, 0, 0, 0, 0, 0, 0, 0, 0, 0, 0, 0, 0, 0],
      [0, 0, 0, 0, 27, 0, 0, 0, 0, 0, 0, 0, 0, 0, 0, 0, 0, 0, 0, 0, 0, 0, 0, 0, 0, 0, 0, 0, 0, 0, 0, 0, 0, 0, 0, 0, 0,
     0, 0, 0, 0, 0, 0, 0, 0, 0, 0, 0, 0, 0, 0, 0, 0, 0, 0, 0, 0, 0, 0],
      [2, 2, 2, 2, 2, 2, 2, 2, 2, 2, 2, 2, 2, 2, 2, 2, 2, 2, 2, 2, 2, 2, 3, 4, 2, 2, 5, 4, 2, 6, 2, 7, 2, 2, 8, 9, 9,
     0, 2, 2, 2, 2, 10, 11, 2, 2, 2, 2, 8, 12, 0, 0, 2, 2, 2, 0, 0, 0, 0],
      [2, 2, 2, 2, 28, 2, 2, 2, 2, 2, 2, 2, 2, 2, 2, 2, 2, 2, 2, 2, 2, 2, 3, 4, 2, 2, 5, 4, 2, 6, 2, 7, 2, 2, 8, 9, 9,
     2, 2, 2, 2, 2, 10, 11, 2, 2, 2, 2, 8, 12, 2, 2, 2, 2, 2, 2, 2, 2, 2],
      [2, 2, 2, 2, 2, 2, 2, 2, 2, 2, 2, 2, 2, 2, 2, 2, 2, 2, 2, 2, 2, 2, 3, 4, 2, 2, 5, 4, 2, 6, 2, 7, 2, 2, 8, 9, 9,
     2, 2, 2, 2, 2, 10, 11, 2, 2, 2, 2, 8, 12, 2, 2, 2, 2, 2, 29, 2, 2, 2],
      [0, 0, 0, 0, 0, 0, 0, 0, 0, 0, 0, 0, 0, 0, 0, 0, 0, 0, 0, 0, 0, 0, 0, 0, 0, 0, 0, 0, 0, 0, 0, 0, 0, 0, 0, 0, 0,
     0, 0, 0, 0, 0, 0, 0, 0, 0, 0, 0, 0, 0, 0, 0, 0, 0, 0, 14, 14, 0, 0],
      [0, 0, 0, 2, 0, 0, 0, 0, 0, 0, 0, 0, 0, 0, 0, 0, 0, 0, 0, 0, 0, 0, 0, 0, 0, 0, 0, 0, 0, 0, 0, 0, 0, 0, 0, 0, 0,
     0, 0, 0, 0, 0, 0, 0, 0, 0, 0, 0, 0, 0, 0, 0, 0, 0, 0, 0, 0, 0, 0],
      [0, 0, 0, 0, 0, 0, 0, 0, 0, 0, 0, 0, 0, 0, 0, 0, 0, 0, 0, 0, 0, 0, 0, 0, 0, 0, 0, 0, 0, 0, 0, 0, 0, 0, 0, 0, 0,
     0, 0, 0, 0, 0, 0, 0, 0, 0, 0, 0, 0, 0, 0, 0, 0, 0, 0, 22, 22, 0, 0],
      [0, 0, 0, 0, 0, 0, 0, 0, 0, 0, 0, 0, 0, 0, 0, 0, 0, 0, 0, 0, 0, 0, 0, 0, 0, 0, 0, 0, 0, 0, 0, 0, 0, 0, 0, 0, 0,
     23, 0, 0, 0, 0, 0, 0, 0, 0, 0, 0, 0, 0, 23, 23, 0, 0, 0, 0, 0, 23, 0],
      [2, 2, 2, 0, 2, 2, 2, 2, 2, 2, 2, 2, 2, 2, 2, 2, 2, 2, 2, 2, 2, 2, 3, 4, 2, 2, 5, 4, 2, 6, 2, 7, 2, 2, 8, 9, 9,
     2, 2, 2, 2, 2, 10, 11, 2, 2, 2, 2, 8, 12, 2, 2, 2, 2, 2, 2, 2, 2, 2]]

/-- for each nonterminal and each state, the set of states (one bit each) behind it -/
def eleventhPassSets : List (List Nat) :=
  [[1073741823, 1073741823, 4, 8192, 65536, 1073741823, 262144, 1073741823, 1048576, 2097152, 2097152, 8388608, 4,
     1073741823, 4, 1073741823, 4, 1073741823, 4, 1073741823, 1073741823, 1073741823, 1073741823, 4, 4, 1073741823,
     1073741823, 1073741823, 8388608, 1073741823],
      [1073741823, 1073741823, 4, 8192, 65536, 1073741823, 262144, 1073741823, 1048576, 2097152, 2097152, 8388608, 4,
     1073741823, 4, 1073741823, 4, 1073741823, 4, 1073741823, 1073741823, 1073741823, 1073741823, 4, 4, 1073741823,
     1073741823, 1073741823, 8388608, 1073741823],
      [1073741823, 1073741823, 4, 1073741823, 1073741823, 1073741823, 1073741823, 1073741823, 1073741823, 1073741823,
     1073741823, 1073741823, 1073741823, 1073741823, 1073741823, 1073741823, 1073741823, 1073741823, 1073741823,
     1073741823, 1073741823, 1073741823, 1073741823, 1073741823, 1073741823, 1073741823, 1073741823, 1073741823,
     1073741823, 1073741823],
      [1073741823, 1073741823, 4, 1073741823, 1073741823, 1073741823, 1073741823, 1073741823, 1073741823, 1073741823,
     1073741823, 1073741823, 1073741823, 1073741823, 1073741823, 1073741823, 1073741823, 1073741823, 1073741823,
     1073741823, 1073741823, 1073741823, 1073741823, 1073741823, 1073741823, 1073741823, 1073741823, 1073741823,
     1073741823, 1073741823],
      [1073741823, 1073741823, 4, 1073741823, 65540, 1073741823, 262148, 1073741823, 1073741823, 1073741823,
     1073741823, 8388612, 4, 1073741823, 1073741823, 1073741823, 1073741823, 1073741823, 1073741823, 1073741823,
     1073741823, 1073741823, 1073741823, 4, 4, 1073741823, 1073741823, 1073741823, 1073741823, 1073741823],
      [1073741823, 1073741823, 4, 16384, 65540, 1073741823, 262144, 1073741823, 1073741823, 4194304, 4194304,
     1073741823, 1073741823, 1073741823, 1073741823, 1073741823, 4, 1073741823, 4, 1073741823, 1073741823, 1073741823,
     1073741823, 1073741823, 1073741823, 1073741823, 1073741823, 1073741823, 1073741823, 1073741823],
      [1073741823, 1073741823, 4, 1073741823, 1073741823, 1073741823, 1073741823, 1073741823, 1073741823, 1073741823,
     1073741823, 1073741823, 1073741823, 1073741823, 1073741823, 1073741823, 4, 1073741823, 1073741823, 1073741823,
     1073741823, 1073741823, 1073741823, 1073741823, 1073741823, 1073741823, 1073741823, 1073741823, 1073741823,
     1073741823],
      [1073741823, 1073741823, 4, 1073741823, 1073741823, 1073741823, 1073741823, 1073741823, 1073741823, 1073741823,
     1073741823, 1073741823, 1073741823, 1073741823, 1073741823, 1073741823, 1073741823, 1073741823, 1073741823,
     1073741823, 1073741823, 1073741823, 1073741823, 1073741823, 1073741823, 1073741823, 1073741823, 1073741823,
     1073741823, 1073741823],
      [1073741823, 1073741823, 4, 1073741823, 1073741823, 1073741823, 1073741823, 1073741823, 1073741823, 1073741823,
     1073741823, 1073741823, 1073741823, 1073741823, 1073741823, 1073741823, 1073741823, 1073741823, 1073741823,
     1073741823, 1073741823, 1073741823, 1073741823, 1073741823, 1073741823, 1073741823, 1073741823, 1073741823,
     1073741823, 1073741823],
      [1073741823, 1073741823, 4, 1073741823, 1073741823, 1073741823, 1073741823, 1073741823, 1073741823, 1073741823,
     1073741823, 1073741823, 1073741823, 1073741823, 1073741823, 1073741823, 1073741823, 1073741823, 1073741823,
     1073741823, 1073741823, 1073741823, 1073741823, 1073741823, 1073741823, 1073741823, 1073741823, 1073741823,
     1073741823, 1073741823],
      [1073741823, 1073741823, 4, 1073741823, 1073741823, 1073741823, 1073741823, 1073741823, 1073741823, 1073741823,
     1073741823, 1073741823, 1073741823, 1073741823, 1073741823, 1073741823, 1073741823, 1073741823, 1073741823,
     1073741823, 1073741823, 1073741823, 1073741823, 1073741823, 1073741823, 1073741823, 1073741823, 1073741823,
     1073741823, 1073741823],
      [1073741823, 1073741823, 4, 1073741823, 1073741823, 1073741823, 1073741823, 1073741823, 1073741823, 1073741823,
     1073741823, 4, 4, 1073741823, 1073741823, 1073741823, 1073741823, 1073741823, 1073741823, 1073741823, 1073741823,
     1073741823, 1073741823, 4, 4, 1073741823, 1073741823, 1073741823, 1073741823, 1073741823],
      [1073741823, 1073741823, 4, 1073741823, 1073741823, 1073741823, 1073741823, 1073741823, 1073741823, 1073741823,
     1073741823, 1073741823, 1073741823, 1073741823, 1073741823, 1073741823, 1073741823, 1073741823, 1073741823,
     1073741823, 1073741823, 1073741823, 1073741823, 1073741823, 1073741823, 1073741823, 1073741823, 1073741823,
     1073741823, 1073741823],
      [1073741823, 1073741823, 4, 1073741823, 1073741823, 1073741823, 1073741823, 1073741823, 1073741823, 1073741823,
     1073741823, 1073741823, 1073741823, 1073741823, 1073741823, 1073741823, 1073741823, 1073741823, 1073741823,
     1073741823, 1073741823, 1073741823, 1073741823, 1073741823, 1073741823, 1073741823, 1073741823, 1073741823,
     1073741823, 1073741823],
      [1073741823, 1073741823, 4, 1073741823, 1073741823, 1073741823, 1073741823, 1073741823, 1073741823, 1073741823,
     1073741823, 1073741823, 1073741823, 1073741823, 1073741823, 1073741823, 1073741823, 1073741823, 1073741823,
     1073741823, 1073741823, 1073741823, 1073741823, 1073741823, 1073741823, 1073741823, 1073741823, 1073741823,
     1073741823, 1073741823],
      [1073741823, 1073741823, 1073741823, 1073741823, 1073741823, 1073741823, 1073741823, 1073741823, 1073741823,
     1073741823, 1073741823, 8388612, 4, 1073741823, 1073741823, 1073741823, 1073741823, 1073741823, 1073741823,
     1073741823, 1073741823, 1073741823, 1073741823, 1073741823, 1073741823, 1073741823, 1073741823, 1073741823,
     1073741823, 1073741823],
      [1073741823, 1073741823, 4, 1073741823, 1073741823, 1073741823, 1073741823, 1073741823, 1073741823, 1073741823,
     1073741823, 1073741823, 1073741823, 1073741823, 1073741823, 1073741823, 1073741823, 1073741823, 1073741823,
     1073741823, 1073741823, 1073741823, 1073741823, 4, 1073741823, 1073741823, 1073741823, 1073741823, 1073741823,
     1073741823],
      [1073741823, 1073741823, 4, 1073741823, 1073741823, 1073741823, 1073741823, 1073741823, 1073741823, 1073741823,
     1073741823, 1073741823, 1073741823, 1073741823, 1073741823, 1073741823, 1073741823, 1073741823, 1073741823,
     1073741823, 1073741823, 1073741823, 1073741823, 1073741823, 1073741823, 1073741823, 1073741823, 1073741823,
     1073741823, 1073741823],
      [1073741823, 65540, 1073741823, 1073741823, 1073741823, 1073741823, 1073741823, 1073741823, 1073741823,
     1073741823, 1073741823, 1073741823, 1073741823, 1073741823, 1073741823, 1073741823, 1073741823, 1073741823,
     1073741823, 1073741823, 1073741823, 1073741823, 1073741823, 1073741823, 1073741823, 1073741823, 1073741823,
     1073741823, 1073741823, 1073741823],
      [1073741823, 1073741823, 65540, 1073741823, 1073741823, 1073741823, 1073741823, 1073741823, 1073741823,
     1073741823, 1073741823, 1073741823, 1073741823, 1073741823, 1073741823, 1073741823, 1073741823, 1073741823,
     1073741823, 1073741823, 1073741823, 1073741823, 1073741823, 1073741823, 1073741823, 1073741823, 1073741823,
     1073741823, 1073741823, 1073741823],
      [1073741823, 1073741823, 65540, 1073741823, 1073741823, 1073741823, 1073741823, 1073741823, 1073741823,
     1073741823, 1073741823, 1073741823, 1073741823, 1073741823, 1073741823, 1073741823, 65540, 1073741823,
     1073741823, 1073741823, 1073741823, 1073741823, 1073741823, 1073741823, 1073741823, 1073741823, 1073741823,
     1073741823, 1073741823, 1073741823],
      [1073741823, 1073741823, 4, 1073741823, 1073741823, 1073741823, 1073741823, 1073741823, 1073741823, 1073741823,
     1073741823, 1073741823, 1073741823, 1073741823, 1073741823, 1073741823, 1073741823, 1073741823, 1073741823,
     1073741823, 1073741823, 1073741823, 1073741823, 1073741823, 1073741823, 1073741823, 1073741823, 1073741823,
     1073741823, 1073741823],
      [1073741823, 1073741823, 4, 1073741823, 1073741823, 1073741823, 1073741823, 1073741823, 1073741823, 1073741823,
     1073741823, 1073741823, 1073741823, 1073741823, 1073741823, 1073741823, 1073741823, 4, 1073741823, 1073741823,
     1073741823, 1073741823, 1073741823, 1073741823, 1073741823, 1073741823, 4, 1073741823, 1073741823, 1073741823],
      [1073741823, 1073741823, 4, 1073741823, 1073741823, 1073741823, 1073741823, 1073741823, 1073741823, 1073741823,
     1073741823, 1073741823, 1073741823, 1073741823, 1073741823, 1073741823, 1073741823, 1073741823, 1073741823,
     1073741823, 1073741823, 1073741823, 1073741823, 1073741823, 1073741823, 1073741823, 1073741823, 1073741823,
     1073741823, 1073741823],
      [1073741823, 1073741823, 4, 1073741823, 1073741823, 1073741823, 1073741823, 1073741823, 1073741823, 1073741823,
     1073741823, 1073741823, 1073741823, 1073741823, 1073741823, 1073741823, 1073741823, 1073741823, 1073741823,
     1073741823, 1073741823, 1073741823, 1073741823, 1073741823, 1073741823, 1073741823, 1073741823, 1073741823,
     1073741823, 1073741823],
      [1073741823, 1073741823, 4, 1073741823, 1073741823, 1073741823, 1073741823, 1073741823, 1073741823, 1073741823,
     1073741823, 1073741823, 1073741823, 1073741823, 1073741823, 1073741823, 4, 1073741823, 4, 1073741823, 1073741823,
     1073741823, 1073741823, 1073741823, 1073741823, 1073741823, 1073741823, 1073741823, 1073741823, 1073741823],
      [1073741823, 1073741823, 65540, 1073741823, 65540, 1073741823, 327684, 1073741823, 1073741823, 1073741823,
     1073741823, 1073741823, 1073741823, 1073741823, 1073741823, 1073741823, 1073741823, 1073741823, 1073741823,
     1073741823, 1073741823, 1073741823, 1073741823, 1073741823, 1073741823, 1073741823, 1073741823, 1073741823,
     1073741823, 1073741823],
      [1073741823, 1073741823, 65540, 1073741823, 1073741823, 1073741823, 65540, 1073741823, 1073741823, 1073741823,
     1073741823, 1073741823, 1073741823, 1073741823, 1073741823, 1073741823, 65540, 1073741823, 1073741823,
     1073741823, 1073741823, 1073741823, 1073741823, 1073741823, 1073741823, 1073741823, 1073741823, 1073741823,
     1073741823, 1073741823],
      [1073741823, 1073741823, 4, 1073741823, 1073741823, 1073741823, 1073741823, 1073741823, 1073741823, 1073741823,
     1073741823, 1073741823, 1073741823, 1073741823, 1073741823, 1073741823, 1073741823, 1073741823, 1073741823,
     1073741823, 1073741823, 1073741823, 1073741823, 1073741823, 1073741823, 1073741823, 1073741823, 1073741823,
     1073741823, 1073741823],
      [1073741823, 1073741823, 4, 1073741823, 1073741823, 1073741823, 1073741823, 1073741823, 1073741823, 1073741823,
     1073741823, 1073741823, 1073741823, 1073741823, 1073741823, 1073741823, 1073741823, 1073741823, 1073741823,
     1073741823, 1073741823, 1073741823, 1073741823, 1073741823, 1073741823, 1073741823, 1073741823, 1073741823,
     1073741823, 1073741823],
      [1073741823, 1073741823, 4, 1073741823, 1073741823, 1073741823, 1073741823, 1073741823, 1073741823, 1073741823,
     1073741823, 1073741823, 1073741823, 1073741823, 1073741823, 1073741823, 1073741823, 1073741823, 1073741823,
     1073741823, 1073741823, 1073741823, 1073741823, 1073741823, 1073741823, 1073741823, 1073741823, 1073741823,
     1073741823, 1073741823],
      [1073741823, 1073741823, 4, 1073741823, 1073741823, 1073741823, 1073741823, 1073741823, 1073741823, 1073741823,
     1073741823, 1073741823, 1073741823, 1073741823, 1073741823, 1073741823, 1073741823, 1073741823, 1073741823,
     1073741823, 1073741823, 1073741823, 1073741823, 1073741823, 1073741823, 1073741823, 1073741823, 1073741823,
     1073741823, 1073741823],
      [1073741823, 1073741823, 4, 1073741823, 65540, 1073741823, 262148, 1073741823, 1073741823, 1073741823,
     1073741823, 1073741823, 1073741823, 1073741823, 1073741823, 1073741823, 1073741823, 1073741823, 1073741823,
     1073741823, 1073741823, 1073741823, 1073741823, 1073741823, 1073741823, 1073741823, 1073741823, 1073741823,
     1073741823, 1073741823],
      [1073741823, 1073741823, 4, 1073741823, 4, 1073741823, 4, 1073741823, 1073741823, 1073741823, 1073741823,
     1073741823, 1073741823, 1073741823, 1073741823, 1073741823, 1073741823, 1073741823, 1073741823, 1073741823,
     1073741823, 1073741823, 1073741823, 1073741823, 1073741823, 1073741823, 1073741823, 1073741823, 1073741823,
     1073741823],
      [1073741823, 1073741823, 4260868, 1073741823, 1073741823, 1073741823, 1073741823, 1073741823, 1073741823,
     1073741823, 1073741823, 1073741823, 1073741823, 1073741823, 1073741823, 1073741823, 1073741823, 1073741823,
     1073741823, 1073741823, 1073741823, 1073741823, 1073741823, 1073741823, 1073741823, 1073741823, 1073741823,
     1073741823, 1073741823, 1073741823],
      [1073741823, 1073741823, 4260868, 1073741823, 1073741823, 1073741823, 1073741823, 1073741823, 1073741823,
     1073741823, 4260868, 1073741823, 1073741823, 1073741823, 1073741823, 1073741823, 4260868, 1073741823, 1073741823,
     1073741823, 1073741823, 1073741823, 4260868, 1073741823, 1073741823, 1073741823, 1073741823, 1073741823,
     1073741823, 1073741823],
      [1073741823, 1073741823, 4260868, 1073741823, 1073741823, 1073741823, 1073741823, 1073741823, 1073741823,
     1073741823, 1073741823, 1073741823, 1073741823, 1073741823, 1073741823, 1073741823, 1073741823, 1073741823,
     1073741823, 1073741823, 1073741823, 1073741823, 1073741823, 1073741823, 1073741823, 1073741823, 1073741823,
     1073741823, 1073741823, 1073741823],
      [1073741823, 1073741823, 4, 1073741823, 1073741823, 1073741823, 1073741823, 1073741823, 1073741823, 1073741823,
     1073741823, 1073741823, 1073741823, 1073741823, 1073741823, 1073741823, 1073741823, 1073741823, 1073741823,
     1073741823, 1073741823, 1073741823, 1073741823, 1073741823, 1073741823, 1073741823, 1073741823, 1073741823,
     1073741823, 1073741823],
      [1073741823, 1073741823, 4, 1073741823, 1073741823, 1073741823, 1073741823, 1073741823, 1048576, 1073741823,
     1073741823, 1073741823, 1073741823, 1073741823, 4, 1073741823, 1073741823, 1073741823, 1073741823, 1073741823,
     1073741823, 1073741823, 1073741823, 1073741823, 1073741823, 1073741823, 1073741823, 1073741823, 1073741823,
     1073741823],
      [1073741823, 1073741823, 4260868, 1073741823, 1073741823, 1073741823, 4260868, 1073741823, 1073741823,
     1073741823, 4260868, 1073741823, 1073741823, 1073741823, 1073741823, 1073741823, 4260868, 1073741823, 1073741823,
     1073741823, 1073741823, 1073741823, 4260868, 1073741823, 1073741823, 1073741823, 1073741823, 1073741823,
     1073741823, 1073741823],
      [1073741823, 1073741823, 4, 1073741823, 1073741823, 1073741823, 1073741823, 1073741823, 1073741823, 1073741823,
     1073741823, 1073741823, 1073741823, 1073741823, 1073741823, 1073741823, 1073741823, 1073741823, 1073741823,
     1073741823, 1073741823, 1073741823, 1073741823, 1073741823, 1073741823, 1073741823, 1073741823, 1073741823,
     1073741823, 1073741823],
      [1073741823, 1073741823, 4, 1073741823, 1073741823, 1073741823, 1073741823, 1073741823, 1073741823, 1073741823,
     1073741823, 1073741823, 1073741823, 1073741823, 1073741823, 1073741823, 1073741823, 1073741823, 1073741823,
     1073741823, 1073741823, 1073741823, 1073741823, 1073741823, 1073741823, 1073741823, 1073741823, 1073741823,
     1073741823, 1073741823],
      [1073741823, 1073741823, 4, 1073741823, 1073741823, 1073741823, 1073741823, 1073741823, 1073741823, 1073741823,
     1073741823, 1073741823, 1073741823, 1073741823, 1073741823, 1073741823, 1073741823, 1073741823, 1073741823,
     1073741823, 1073741823, 1073741823, 1073741823, 1073741823, 1073741823, 1073741823, 1073741823, 1073741823,
     1073741823, 1073741823],
      [1073741823, 1073741823, 4, 1073741823, 1073741823, 1073741823, 1073741823, 1073741823, 1073741823, 1073741823,
     1073741823, 1073741823, 1073741823, 1073741823, 1073741823, 1073741823, 1073741823, 1073741823, 1073741823,
     1073741823, 1073741823, 1073741823, 1073741823, 1073741823, 1073741823, 1073741823, 1073741823, 1073741823,
     1073741823, 1073741823],
      [1073741823, 1073741823, 4, 1073741823, 1073741823, 1073741823, 1073741823, 1073741823, 1073741823, 1073741823,
     1073741823, 1073741823, 1073741823, 1073741823, 1073741823, 1073741823, 1073741823, 1073741823, 1073741823,
     1073741823, 4, 1073741823, 1073741823, 1073741823, 1073741823, 1073741823, 1073741823, 1073741823, 1073741823,
     1073741823],
      [1073741823, 1073741823, 4, 1073741823, 1073741823, 1073741823, 1073741823, 1073741823, 1073741823, 1073741823,
     1073741823, 1073741823, 1073741823, 1073741823, 1073741823, 1073741823, 4, 1073741823, 1073741823, 1073741823,
     1073741823, 1073741823, 1073741823, 1073741823, 1073741823, 1073741823, 1073741823, 1073741823, 1073741823,
     1073741823],
      [1073741823, 1073741823, 4, 1073741823, 1073741823, 1073741823, 1073741823, 1073741823, 1073741823, 1073741823,
     1073741823, 1073741823, 1073741823, 1073741823, 1073741823, 1073741823, 4, 1073741823, 1073741823, 1073741823,
     1073741823, 1073741823, 1073741823, 1073741823, 1073741823, 1073741823, 1073741823, 1073741823, 1073741823,
     1073741823],
      [1073741823, 1073741823, 4, 1073741823, 1073741823, 1073741823, 1073741823, 1073741823, 1073741823, 1073741823,
     1073741823, 1073741823, 1073741823, 1073741823, 1073741823, 1073741823, 4, 1073741823, 1073741823, 1073741823,
     1073741823, 1073741823, 1073741823, 1073741823, 1073741823, 1073741823, 1073741823, 1073741823, 1073741823,
     1073741823],
      [1073741823, 1073741823, 4, 1073741823, 1073741823, 1073741823, 1073741823, 1073741823, 1073741823, 1073741823,
     1073741823, 1073741823, 1073741823, 1073741823, 1073741823, 1073741823, 1073741823, 1073741823, 1073741823,
     1073741823, 1073741823, 1073741823, 1073741823, 1073741823, 1073741823, 1073741823, 1073741823, 1073741823,
     1073741823, 1073741823],
      [1073741823, 1073741823, 65540, 1073741823, 1073741823, 1073741823, 1073741823, 1073741823, 1073741823,
     1073741823, 1073741823, 1073741823, 1073741823, 1073741823, 1073741823, 1073741823, 65540, 1073741823,
     1073741823, 1073741823, 1073741823, 1073741823, 1073741823, 1073741823, 1073741823, 1073741823, 1073741823,
     1073741823, 1073741823, 1073741823],
      [1073741823, 1073741823, 65540, 1073741823, 1073741823, 1073741823, 1073741823, 1073741823, 1073741823,
     1073741823, 1073741823, 1073741823, 1073741823, 1073741823, 1073741823, 1073741823, 65540, 1073741823,
     1073741823, 1073741823, 1073741823, 1073741823, 1073741823, 1073741823, 1073741823, 1073741823, 1073741823,
     1073741823, 1073741823, 1073741823],
      [1073741823, 1073741823, 4, 1073741823, 1073741823, 1073741823, 1073741823, 1073741823, 1073741823, 1073741823,
     1073741823, 1073741823, 1073741823, 1073741823, 1073741823, 1073741823, 1073741823, 1073741823, 1073741823,
     1073741823, 1073741823, 1073741823, 1073741823, 1073741823, 1073741823, 1073741823, 1073741823, 1073741823,
     1073741823, 1073741823],
      [1073741823, 1073741823, 4, 1073741823, 4, 1073741823, 4, 1073741823, 1073741823, 1073741823, 1073741823, 4, 4,
     1073741823, 1073741823, 1073741823, 1073741823, 1073741823, 1073741823, 1073741823, 1073741823, 1073741823,
     1073741823, 4, 4, 1073741823, 1073741823, 1073741823, 1073741823, 1073741823],
      [1073741823, 1073741823, 4, 1073741823, 1073741823, 1073741823, 1073741823, 1073741823, 1073741823, 1073741823,
     1073741823, 1073741823, 1073741823, 1073741823, 1073741823, 1073741823, 4, 1073741823, 4, 1073741823, 1073741823,
     1073741823, 1073741823, 1073741823, 1073741823, 1073741823, 1073741823, 1073741823, 1073741823, 1073741823],
      [1073741823, 1073741823, 4, 16384, 65536, 131072, 262144, 1073741823, 1048576, 4194304, 4194304, 1073741823,
     1073741823, 1073741823, 4, 1073741823, 4, 1073741823, 4, 67108864, 1073741823, 1073741823, 1073741823,
     1073741823, 1073741823, 16384, 1073741823, 4194304, 1073741823, 1073741823],
      [1073741823, 1073741823, 4, 16384, 65536, 1073741823, 262144, 1073741823, 1073741823, 4194304, 4194304,
     1073741823, 1073741823, 1073741823, 1073741823, 1073741823, 4, 1073741823, 4, 1073741823, 1073741823, 1073741823,
     1073741823, 1073741823, 1073741823, 1073741823, 1073741823, 1073741823, 1073741823, 1073741823],
      [1073741823, 1073741823, 4, 8192, 65536, 1073741823, 262144, 1073741823, 1048576, 2097152, 2097152, 8388608, 4,
     1073741823, 4, 1073741823, 4, 1073741823, 4, 1073741823, 1073741823, 1073741823, 1073741823, 4, 4, 1073741823,
     1073741823, 1073741823, 8388608, 1073741823],
      [1073741823, 1073741823, 4, 32768, 1073741823, 1073741823, 1073741823, 1073741823, 1073741823, 1073741823,
     1073741823, 1073741823, 1073741823, 1073741823, 1073741823, 1073741823, 1073741823, 1073741823, 1073741823,
     1073741823, 1073741823, 1073741823, 1073741823, 1073741823, 1073741823, 1073741823, 1073741823, 1073741823,
     1073741823, 1073741823],
      [1073741823, 1073741823, 4, 1073741823, 4, 1073741823, 4, 1073741823, 1073741823, 1073741823, 1073741823,
     1073741823, 1073741823, 1073741823, 1073741823, 1073741823, 1073741823, 1073741823, 1073741823, 1073741823,
     1073741823, 1073741823, 1073741823, 1073741823, 1073741823, 1073741823, 1073741823, 1073741823, 1073741823,
     1073741823],
      [],
      [],
      [1073741823, 1073741823, 4, 1073741823, 1073741823, 1073741823, 1073741823, 1073741823, 1073741823, 1073741823,
     1073741823, 1073741823, 1073741823, 1073741823, 1073741823, 1073741823, 1073741823, 1073741823, 1073741823,
     1073741823, 1073741823, 1073741823, 1073741823, 1073741823, 1073741823, 1073741823, 1073741823, 1073741823,
     1073741823, 1073741823],
      [],
      [],
      [1073741823, 1073741823, 4, 1073741823, 1073741823, 1073741823, 1073741823, 1073741823, 1073741823, 1073741823,
     1073741823, 1073741823, 1073741823, 1073741823, 1073741823, 1073741823, 4, 1073741823, 4, 1073741823, 1073741823,
     1073741823, 1073741823, 1073741823, 1073741823, 1073741823, 1073741823, 1073741823, 1073741823, 1073741823],
      [],
      [],
      [],
      [],
      [1073741823, 1073741823, 4, 1073741823, 1073741823, 1073741823, 1073741823, 1073741823, 1073741823, 1073741823,
     1073741823, 1073741823, 1073741823, 1073741823, 1073741823, 1073741823, 1073741823, 1073741823, 1073741823,
     1073741823, 1073741823, 1073741823, 1073741823, 1073741823, 1073741823, 1073741823, 1073741823, 1073741823,
     1073741823, 1073741823],
      [],
      [],
      [1073741823, 1073741823, 4, 1073741823, 1073741823, 1073741823, 1073741823, 1073741823, 1073741823, 1073741823,
     1073741823, 1073741823, 1073741823, 1073741823, 1073741823, 1073741823, 1073741823, 1073741823, 1073741823,
     1073741823, 1073741823, 1073741823, 1073741823, 1073741823, 1073741823, 1073741823, 1073741823, 1073741823,
     1073741823, 1073741823],
      [],
      [],
      [],
      [1073741823, 1073741823, 4, 1073741823, 1073741823, 1073741823, 1073741823, 1073741823, 1073741823, 1073741823,
     1073741823, 1073741823, 1073741823, 1073741823, 1073741823, 1073741823, 1073741823, 1073741823, 1073741823,
     1073741823, 1073741823, 1073741823, 1073741823, 1073741823, 1073741823, 1073741823, 1073741823, 1073741823,
     1073741823, 1073741823],
      [],
      [],
      [1073741823, 1073741823, 65540, 1073741823, 1073741823, 1073741823, 1073741823, 1073741823, 1073741823,
     1073741823, 1073741823, 1073741823, 1073741823, 1073741823, 1073741823, 1073741823, 1073741823, 1073741823,
     1073741823, 1073741823, 1073741823, 1073741823, 1073741823, 1073741823, 1073741823, 1073741823, 1073741823,
     1073741823, 1073741823, 1073741823],
      [],
      [],
      [1073741823, 1073741823, 4, 1073741823, 1073741823, 1073741823, 1073741823, 1073741823, 1073741823, 1073741823,
     1073741823, 1073741823, 1073741823, 1073741823, 1073741823, 1073741823, 1073741823, 1073741823, 1073741823,
     1073741823, 1073741823, 1073741823, 1073741823, 1073741823, 1073741823, 1073741823, 1073741823, 1073741823,
     1073741823, 1073741823],
      [],
      [],
      [],
      [1073741823, 1073741823, 1073741823, 1073741823, 1073741823, 1073741823, 65540, 1073741823, 1073741823,
     1073741823, 1073741823, 1073741823, 1073741823, 1073741823, 1073741823, 1073741823, 1073741823, 1073741823,
     1073741823, 1073741823, 1073741823, 1073741823, 1073741823, 1073741823, 1073741823, 1073741823, 1073741823,
     1073741823, 1073741823, 1073741823],
      [],
      [1073741823, 1073741823, 4, 1073741823, 1073741823, 1073741823, 1073741823, 1073741823, 1073741823, 1073741823,
     1073741823, 1073741823, 1073741823, 1073741823, 1073741823, 1073741823, 1073741823, 1073741823, 1073741823,
     1073741823, 1073741823, 1073741823, 1073741823, 1073741823, 1073741823, 1073741823, 1073741823, 1073741823,
     1073741823, 1073741823],
      [1073741823, 1073741823, 4, 1073741823, 1073741823, 1073741823, 1073741823, 1073741823, 1073741823, 1073741823,
     1073741823, 1073741823, 1073741823, 1073741823, 1073741823, 1073741823, 1073741823, 1073741823, 1073741823,
     1073741823, 1073741823, 1073741823, 1073741823, 1073741823, 1073741823, 1073741823, 1073741823, 1073741823,
     1073741823, 1073741823],
      [],
      [],
      [],
      [],
      [1073741823, 1073741823, 4260868, 1073741823, 1073741823, 1073741823, 1073741823, 1073741823, 1073741823,
     1073741823, 4260868, 1073741823, 1073741823, 1073741823, 1073741823, 1073741823, 4260868, 1073741823, 1073741823,
     1073741823, 1073741823, 1073741823, 4260868, 1073741823, 1073741823, 1073741823, 1073741823, 1073741823,
     1073741823, 1073741823],
      [],
      [],
      [],
      [1073741823, 1073741823, 1073741823, 1073741823, 1073741823, 1073741823, 4260868, 1073741823, 1073741823,
     1073741823, 1073741823, 1073741823, 1073741823, 1073741823, 1073741823, 1073741823, 1073741823, 1073741823,
     1073741823, 1073741823, 1073741823, 1073741823, 1073741823, 1073741823, 1073741823, 1073741823, 1073741823,
     1073741823, 1073741823, 1073741823],
      [],
      [1073741823, 1073741823, 4, 1073741823, 1073741823, 1073741823, 1073741823, 1073741823, 1073741823, 1073741823,
     1073741823, 1073741823, 1073741823, 1073741823, 1073741823, 1073741823, 1073741823, 1073741823, 1073741823,
     1073741823, 1073741823, 1073741823, 1073741823, 1073741823, 1073741823, 1073741823, 1073741823, 1073741823,
     1073741823, 1073741823],
      [],
      [1073741823, 1073741823, 4, 1073741823, 1073741823, 1073741823, 1073741823, 1073741823, 1073741823, 1073741823,
     1073741823, 1073741823, 1073741823, 1073741823, 1073741823, 1073741823, 1073741823, 1073741823, 1073741823,
     1073741823, 1073741823, 1073741823, 1073741823, 1073741823, 1073741823, 1073741823, 1073741823, 1073741823,
     1073741823, 1073741823],
      [],
      [1073741823, 1073741823, 4, 1073741823, 1073741823, 1073741823, 1073741823, 1073741823, 1073741823, 1073741823,
     1073741823, 1073741823, 1073741823, 1073741823, 1073741823, 1073741823, 4, 1073741823, 1073741823, 1073741823,
     1073741823, 1073741823, 1073741823, 1073741823, 1073741823, 1073741823, 1073741823, 1073741823, 1073741823,
     1073741823],
      [],
      [],
      [],
      [],
      [1073741823, 1073741823, 65540, 1073741823, 1073741823, 1073741823, 1073741823, 1073741823, 1073741823,
     1073741823, 1073741823, 1073741823, 1073741823, 1073741823, 1073741823, 1073741823, 1073741823, 1073741823,
     1073741823, 1073741823, 1073741823, 1073741823, 1073741823, 1073741823, 1073741823, 1073741823, 1073741823,
     1073741823, 1073741823, 1073741823],
      [],
      [],
      [],
      [],
      [],
      [],
      [],
      [],
      []]

/-- for each state, the states with which it has no continuation in common -/
def eleventhPassDoomed : List Nat :=
  [1073741823, 507177897, 1, 477802403, 524321, 108175771, 257, 506393387, 108699883, 376613003, 301989897, 237675019,
     129, 515525547, 74621059, 505039787, 67239937, 440003499, 1048705, 393390491, 506389291, 513436587, 436749097,
     2105345, 524289, 477802403, 976874411, 376613003, 242919051, 67108865]

/-- the states where programs end -/
def eleventhPassFinal : Nat := 65540

end Verif.LR
