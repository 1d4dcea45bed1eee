/-
Finite automata and a counter machine, written by tools/keywords.py.  Nothing about them is assumed: Proofs/Punctuation checks what is used.
State 0 is where no program gets, state 1 is the start.
-/
namespace Verif.LR

/-! The states: SINK, START, O, P, G, A, L, F, PI, GC, BI, AN, LI, FC, FI, Y, GD, BY, LY, FD, B, BF, BFC, BFI, BFD -/

/-- for each state, the next state for each terminal -/
def twelfthPassSteps : List (List Nat) :=
  [[0, 0, 0, 0, 0, 0, 0, 0, 0, 0, 0, 0, 0, 0, 0, 0, 0, 0, 0, 0, 0, 0, 0, 0, 0, 0, 0, 0, 0, 0, 0, 0, 0, 0, 0, 0, 0, 0,
     0, 0, 0, 0, 0, 0, 0, 0, 0, 0, 0, 0, 0, 0, 0, 0, 0, 0, 0, 0, 0],
      [0, 0, 0, 0, 0, 0, 0, 0, 0, 0, 0, 0, 0, 0, 0, 0, 0, 0, 0, 0, 0, 0, 0, 0, 0, 0, 0, 0, 0, 0, 0, 0, 0, 0, 0, 0, 0,
     0, 0, 0, 0, 0, 0, 0, 2, 0, 0, 0, 0, 0, 0, 0, 0, 0, 0, 0, 0, 0, 0],
      [2, 2, 2, 0, 2, 2, 2, 2, 3, 2, 4, 2, 3, 2, 2, 2, 5, 2, 2, 2, 2, 2, 2, 2, 2, 2, 6, 2, 2, 2, 2, 2, 2, 2, 2, 2, 2,
     2, 7, 2, 2, 2, 2, 2, 2, 2, 2, 2, 2, 2, 2, 2, 2, 2, 2, 2, 2, 2, 2],
      [2, 2, 2, 0, 2, 2, 2, 2, 3, 2, 4, 2, 3, 2, 2, 2, 5, 2, 2, 2, 2, 2, 2, 2, 2, 2, 6, 2, 2, 2, 2, 2, 2, 2, 2, 2, 2,
     2, 7, 2, 2, 2, 2, 2, 2, 2, 2, 2, 2, 2, 2, 2, 2, 2, 2, 8, 2, 2, 2],
      [2, 2, 2, 0, 2, 2, 2, 2, 3, 2, 4, 2, 3, 2, 2, 2, 5, 2, 2, 2, 2, 2, 2, 2, 2, 2, 6, 2, 2, 2, 2, 2, 2, 2, 2, 2, 2,
     9, 7, 2, 2, 2, 2, 2, 2, 2, 2, 2, 2, 2, 2, 9, 2, 2, 2, 10, 10, 9, 2],
      [2, 2, 2, 0, 2, 2, 2, 2, 3, 2, 4, 2, 3, 2, 2, 2, 5, 2, 2, 2, 2, 2, 2, 2, 2, 2, 6, 2, 2, 2, 2, 2, 2, 2, 2, 2, 2,
     11, 7, 2, 2, 2, 2, 2, 2, 2, 2, 2, 2, 2, 2, 11, 2, 2, 2, 2, 2, 11, 2],
      [0, 0, 0, 0, 0, 0, 0, 0, 0, 0, 0, 0, 0, 0, 0, 0, 0, 0, 0, 0, 0, 0, 0, 0, 0, 0, 0, 0, 0, 0, 0, 0, 0, 0, 0, 0, 0,
     0, 0, 0, 0, 0, 0, 0, 0, 0, 0, 0, 0, 0, 0, 0, 0, 0, 0, 12, 0, 0, 0],
      [0, 0, 0, 0, 0, 0, 0, 0, 0, 0, 0, 0, 0, 0, 0, 0, 0, 0, 0, 0, 0, 0, 0, 0, 0, 0, 0, 0, 0, 0, 0, 0, 0, 0, 0, 0, 0,
     13, 0, 0, 0, 0, 0, 0, 0, 0, 0, 0, 0, 0, 0, 13, 0, 0, 0, 14, 14, 13, 0],
      [0, 0, 0, 15, 0, 0, 0, 0, 0, 2, 0, 0, 0, 0, 0, 0, 0, 0, 0, 0, 0, 0, 0, 0, 0, 0, 0, 0, 0, 0, 0, 0, 0, 0, 0, 0, 0,
     0, 0, 0, 0, 0, 0, 0, 0, 0, 0, 0, 0, 0, 0, 0, 0, 0, 0, 0, 0, 0, 0],
      [2, 2, 2, 0, 16, 2, 2, 2, 3, 2, 4, 2, 3, 2, 2, 2, 5, 2, 2, 2, 2, 2, 2, 2, 2, 2, 6, 2, 2, 2, 2, 2, 2, 2, 2, 2, 2,
     2, 7, 2, 2, 2, 2, 2, 2, 2, 2, 2, 2, 2, 2, 2, 2, 2, 2, 2, 2, 2, 2],
      [0, 0, 0, 17, 0, 0, 0, 0, 0, 0, 0, 0, 0, 0, 0, 0, 0, 0, 0, 0, 0, 0, 0, 0, 0, 0, 0, 0, 0, 0, 0, 0, 0, 0, 0, 0, 0,
     0, 0, 0, 0, 0, 0, 0, 0, 0, 0, 0, 0, 0, 0, 0, 0, 0, 0, 0, 0, 0, 0],
      [2, 2, 2, 0, 2, 2, 2, 2, 2, 2, 4, 2, 3, 2, 2, 2, 5, 2, 2, 2, 2, 2, 2, 2, 2, 2, 6, 2, 2, 2, 2, 2, 2, 2, 2, 2, 2,
     2, 7, 2, 2, 2, 2, 2, 2, 2, 2, 2, 2, 2, 2, 2, 2, 2, 2, 2, 2, 2, 2],
      [0, 0, 0, 18, 0, 0, 0, 0, 0, 0, 0, 0, 0, 0, 0, 2, 0, 0, 0, 0, 0, 0, 0, 0, 0, 0, 0, 0, 0, 0, 0, 0, 0, 0, 0, 0, 0,
     0, 0, 0, 0, 0, 0, 0, 0, 0, 0, 0, 0, 0, 0, 0, 0, 0, 0, 0, 0, 0, 0],
      [0, 0, 0, 0, 19, 0, 0, 0, 0, 0, 0, 0, 0, 0, 0, 0, 0, 0, 0, 0, 0, 0, 0, 0, 0, 0, 0, 0, 0, 0, 0, 0, 0, 0, 0, 0, 0,
     0, 0, 0, 0, 0, 0, 0, 0, 0, 0, 0, 0, 0, 0, 0, 0, 0, 0, 0, 0, 0, 0],
      [0, 0, 0, 15, 0, 0, 0, 0, 0, 0, 0, 0, 0, 0, 0, 0, 0, 0, 0, 0, 0, 0, 0, 0, 0, 0, 0, 0, 0, 0, 0, 0, 0, 0, 0, 0, 0,
     0, 0, 0, 0, 0, 0, 0, 0, 0, 0, 0, 0, 0, 0, 0, 0, 0, 0, 0, 0, 0, 0],
      [2, 2, 2, 0, 2, 2, 2, 2, 3, 0, 4, 2, 3, 2, 2, 0, 5, 2, 2, 2, 2, 2, 2, 2, 2, 2, 6, 2, 2, 2, 2, 2, 2, 2, 2, 2, 2,
     2, 7, 2, 2, 2, 2, 2, 2, 2, 2, 2, 2, 2, 2, 2, 2, 2, 2, 2, 2, 2, 2],
      [2, 2, 2, 0, 2, 2, 2, 2, 3, 2, 4, 2, 3, 2, 2, 2, 5, 2, 2, 2, 2, 2, 2, 2, 2, 2, 6, 2, 2, 2, 2, 2, 2, 2, 2, 2, 2,
     2, 7, 2, 2, 2, 2, 2, 2, 2, 2, 2, 2, 2, 2, 2, 2, 2, 2, 10, 10, 2, 2],
      [20, 20, 0, 0, 20, 20, 20, 20, 20, 20, 20, 0, 20, 20, 20, 0, 20, 20, 20, 20, 20, 20, 20, 20, 20, 20, 20, 20, 20,
     20, 20, 20, 20, 20, 20, 20, 20, 20, 21, 20, 20, 20, 20, 20, 20, 20, 20, 20, 20, 20, 20, 20, 20, 20, 20, 20, 20,
     20, 20],
      [2, 2, 2, 0, 2, 2, 2, 2, 3, 0, 4, 2, 3, 2, 2, 0, 5, 2, 2, 2, 2, 2, 2, 2, 2, 2, 6, 2, 2, 2, 2, 2, 2, 2, 2, 2, 2,
     2, 7, 2, 2, 2, 2, 2, 2, 2, 2, 2, 2, 2, 2, 2, 2, 2, 2, 2, 2, 2, 2],
      [0, 0, 0, 0, 0, 0, 0, 0, 0, 0, 0, 0, 0, 0, 0, 0, 0, 0, 0, 0, 0, 0, 0, 0, 0, 0, 0, 0, 0, 0, 0, 0, 0, 0, 0, 0, 0,
     0, 0, 0, 0, 0, 0, 0, 0, 0, 0, 0, 0, 0, 0, 0, 0, 0, 0, 14, 14, 0, 0],
      [20, 20, 4, 0, 20, 20, 20, 20, 20, 20, 20, 2, 20, 20, 20, 20, 20, 20, 20, 20, 20, 20, 20, 20, 20, 20, 20, 20,
     20, 20, 20, 20, 20, 20, 20, 20, 20, 20, 21, 20, 20, 20, 20, 20, 20, 20, 20, 20, 20, 20, 20, 20, 20, 20, 20, 20,
     20, 20, 20],
      [0, 0, 0, 0, 0, 0, 0, 0, 0, 0, 0, 0, 0, 0, 0, 0, 0, 0, 0, 0, 0, 0, 0, 0, 0, 0, 0, 0, 0, 0, 0, 0, 0, 0, 0, 0, 0,
     22, 0, 0, 0, 0, 0, 0, 0, 0, 0, 0, 0, 0, 0, 22, 0, 0, 0, 23, 23, 22, 0],
      [0, 0, 0, 0, 24, 0, 0, 0, 0, 0, 0, 0, 0, 0, 0, 0, 0, 0, 0, 0, 0, 0, 0, 0, 0, 0, 0, 0, 0, 0, 0, 0, 0, 0, 0, 0, 0,
     0, 0, 0, 0, 0, 0, 0, 0, 0, 0, 0, 0, 0, 0, 0, 0, 0, 0, 0, 0, 0, 0],
      [0, 0, 0, 17, 0, 0, 0, 0, 0, 0, 0, 0, 0, 0, 0, 0, 0, 0, 0, 0, 0, 0, 0, 0, 0, 0, 0, 0, 0, 0, 0, 0, 0, 0, 0, 0, 0,
     0, 0, 0, 0, 0, 0, 0, 0, 0, 0, 0, 0, 0, 0, 0, 0, 0, 0, 0, 0, 0, 0],
      [0, 0, 0, 0, 0, 0, 0, 0, 0, 0, 0, 0, 0, 0, 0, 0, 0, 0, 0, 0, 0, 0, 0, 0, 0, 0, 0, 0, 0, 0, 0, 0, 0, 0, 0, 0, 0,
     0, 0, 0, 0, 0, 0, 0, 0, 0, 0, 0, 0, 0, 0, 0, 0, 0, 0, 23, 23, 0, 0]]

/-- for each nonterminal and each state, the set of states (one bit each) behind it -/
def twelfthPassSets : List (List Nat) :=
  [[33554431, 33554431, 4, 4, 512, 2048, 33554431, 8192, 33554431, 4, 33554431, 33554431, 33554431, 33554431,
     33554431, 4, 4, 1048576, 4, 33554431, 1048576, 4194304, 33554431, 33554431, 33554431],
      [33554431, 33554431, 4, 4, 512, 2048, 33554431, 8192, 33554431, 4, 33554431, 33554431, 33554431, 33554431,
     33554431, 4, 4, 1048576, 4, 33554431, 1048576, 4194304, 33554431, 33554431, 33554431],
      [33554431, 33554431, 4, 33554431, 33554431, 33554431, 33554431, 33554431, 33554431, 33554431, 33554431,
     33554431, 33554431, 33554431, 33554431, 33554431, 33554431, 33554431, 33554431, 33554431, 33554431, 33554431,
     33554431, 33554431, 33554431],
      [33554431, 33554431, 4, 33554431, 33554431, 33554431, 33554431, 33554431, 33554431, 33554431, 33554431,
     33554431, 33554431, 33554431, 33554431, 33554431, 33554431, 33554431, 33554431, 33554431, 33554431, 33554431,
     33554431, 33554431, 33554431],
      [33554431, 33554431, 4, 4, 516, 33554431, 33554431, 33554431, 33554431, 4, 33554431, 33554431, 33554431,
     33554431, 33554431, 4, 33554431, 1048576, 4, 33554431, 1048576, 33554431, 33554431, 33554431, 33554431],
      [33554431, 33554431, 4, 33554431, 1024, 4, 33554431, 16384, 33554431, 33554431, 33554431, 33554431, 33554431,
     33554431, 33554431, 33554431, 33554431, 1048576, 33554431, 33554431, 33554431, 8388608, 33554431, 33554431,
     33554431],
      [33554431, 33554431, 4, 33554431, 33554431, 33554431, 33554431, 33554431, 33554431, 33554431, 33554431,
     33554431, 33554431, 33554431, 33554431, 33554431, 33554431, 33554431, 33554431, 33554431, 33554431, 33554431,
     33554431, 33554431, 33554431],
      [33554431, 33554431, 4, 4, 33554431, 33554431, 33554431, 33554431, 33554431, 33554431, 33554431, 33554431,
     33554431, 33554431, 33554431, 4, 33554431, 1048576, 4, 33554431, 1048576, 33554431, 33554431, 33554431,
     33554431],
      [33554431, 33554431, 4, 4, 33554431, 33554431, 33554431, 33554431, 33554431, 33554431, 33554431, 33554431,
     33554431, 33554431, 33554431, 4, 33554431, 1048576, 4, 33554431, 1048576, 33554431, 33554431, 33554431,
     33554431],
      [33554431, 33554431, 33554431, 4, 33554431, 33554431, 33554431, 33554431, 33554431, 33554431, 33554431,
     33554431, 33554431, 33554431, 33554431, 4, 33554431, 1048576, 4, 33554431, 1048576, 33554431, 33554431, 33554431,
     33554431],
      [33554431, 33554431, 4, 33554431, 516, 33554431, 33554431, 33554431, 33554431, 4, 33554431, 33554431, 33554431,
     33554431, 33554431, 33554431, 33554431, 33554431, 33554431, 33554431, 1048576, 33554431, 33554431, 33554431,
     33554431],
      [33554431, 33554431, 4, 4, 4, 33554431, 33554431, 33554431, 33554431, 4, 33554431, 33554431, 33554431, 33554431,
     33554431, 4, 33554431, 1048576, 4, 33554431, 1048576, 33554431, 33554431, 33554431, 33554431],
      [33554431, 33554431, 4, 33554431, 33554431, 33554431, 33554431, 33554431, 33554431, 33554431, 33554431,
     33554431, 33554431, 33554431, 33554431, 33554431, 33554431, 33554431, 33554431, 33554431, 1048576, 33554431,
     33554431, 33554431, 33554431],
      [33554431, 33554431, 4, 33554431, 33554431, 33554431, 33554431, 33554431, 33554431, 33554431, 33554431,
     33554431, 33554431, 33554431, 33554431, 33554431, 33554431, 33554431, 33554431, 33554431, 1048576, 33554431,
     33554431, 33554431, 33554431],
      [33554431, 33554431, 4, 4, 33554431, 33554431, 33554431, 33554431, 33554431, 33554431, 33554431, 33554431,
     33554431, 33554431, 33554431, 33554431, 33554431, 33554431, 33554431, 33554431, 1048576, 33554431, 33554431,
     33554431, 33554431],
      [33554431, 33554431, 4, 33554431, 33554431, 33554431, 33554431, 33554431, 33554431, 33554431, 33554431,
     33554431, 33554431, 33554431, 33554431, 33554431, 33554431, 33554431, 33554431, 33554431, 1048576, 33554431,
     33554431, 33554431, 33554431],
      [33554431, 33554431, 4, 4, 33554431, 33554431, 33554431, 33554431, 33554431, 33554431, 33554431, 33554431,
     33554431, 33554431, 33554431, 33554431, 33554431, 33554431, 33554431, 33554431, 1048576, 33554431, 33554431,
     33554431, 33554431],
      [33554431, 33554431, 4, 33554431, 33554431, 33554431, 33554431, 33554431, 33554431, 33554431, 33554431,
     33554431, 33554431, 33554431, 33554431, 33554431, 33554431, 33554431, 33554431, 33554431, 1048576, 33554431,
     33554431, 33554431, 33554431],
      [33554431, 4, 33554431, 33554431, 33554431, 33554431, 33554431, 33554431, 33554431, 33554431, 33554431,
     33554431, 33554431, 33554431, 33554431, 33554431, 33554431, 33554431, 33554431, 33554431, 33554431, 33554431,
     33554431, 33554431, 33554431],
      [33554431, 33554431, 4, 33554431, 33554431, 33554431, 33554431, 33554431, 33554431, 33554431, 33554431,
     33554431, 33554431, 33554431, 33554431, 33554431, 33554431, 33554431, 33554431, 33554431, 33554431, 33554431,
     33554431, 33554431, 33554431],
      [33554431, 33554431, 4, 33554431, 33554431, 33554431, 33554431, 33554431, 33554431, 33554431, 33554431,
     33554431, 33554431, 33554431, 33554431, 33554431, 33554431, 33554431, 33554431, 33554431, 33554431, 33554431,
     33554431, 33554431, 33554431],
      [33554431, 33554431, 33554431, 4, 33554431, 33554431, 33554431, 4, 33554431, 33554431, 33554431, 33554431,
     33554431, 33554431, 33554431, 33554431, 33554431, 33554431, 33554431, 33554431, 33554431, 33554431, 33554431,
     33554431, 33554431],
      [33554431, 33554431, 33554431, 33554431, 33554431, 33554431, 33554431, 33554431, 4, 33554431, 33554431,
     33554431, 4, 33554431, 4, 33554431, 33554431, 33554431, 33554431, 33554431, 33554431, 33554431, 33554431,
     33554431, 33554431],
      [33554431, 33554431, 4, 33554431, 33554431, 33554431, 33554431, 33554431, 33554431, 33554431, 33554431,
     33554431, 33554431, 33554431, 33554431, 33554431, 33554431, 33554431, 33554431, 33554431, 33554431, 33554431,
     33554431, 33554431, 33554431],
      [33554431, 33554431, 33554431, 4, 33554431, 33554431, 33554431, 33554431, 33554431, 33554431, 33554431,
     33554431, 33554431, 33554431, 33554431, 33554431, 33554431, 33554431, 33554431, 33554431, 1048576, 33554431,
     33554431, 33554431, 33554431],
      [33554431, 33554431, 4, 33554431, 33554431, 33554431, 33554431, 33554431, 33554431, 33554431, 33554431,
     33554431, 33554431, 33554431, 33554431, 33554431, 33554431, 33554431, 33554431, 33554431, 33554431, 33554431,
     33554431, 33554431, 33554431],
      [33554431, 33554431, 4, 33554431, 33554431, 33554431, 33554431, 33554431, 33554431, 33554431, 33554431,
     33554431, 33554431, 33554431, 33554431, 33554431, 33554431, 33554431, 33554431, 33554431, 33554431, 33554431,
     33554431, 33554431, 33554431],
      [33554431, 33554431, 4, 33554431, 33554431, 33554431, 33554431, 33554431, 33554431, 33554431, 33554431,
     33554431, 33554431, 33554431, 33554431, 33554431, 33554431, 33554431, 33554431, 33554431, 33554431, 33554431,
     33554431, 33554431, 33554431],
      [33554431, 33554431, 4, 260, 33554431, 33554431, 33554431, 33554431, 33554431, 33554431, 33554431, 33554431,
     33554431, 33554431, 33554431, 33554431, 33554431, 33554431, 33554431, 33554431, 33554431, 33554431, 33554431,
     33554431, 33554431],
      [33554431, 33554431, 4, 33554431, 33554431, 33554431, 33554431, 33554431, 33554431, 33554431, 33554431,
     33554431, 33554431, 33554431, 33554431, 33554431, 33554431, 33554431, 33554431, 33554431, 33554431, 33554431,
     33554431, 33554431, 33554431],
      [33554431, 33554431, 33554431, 33554431, 33554431, 33554431, 33554431, 33554431, 33554431, 33554431, 33554431,
     33554431, 33554431, 33554431, 33554431, 33554431, 33554431, 33554431, 33554431, 33554431, 1048576, 33554431,
     33554431, 33554431, 33554431],
      [33554431, 33554431, 33554431, 33554431, 1048576, 33554431, 33554431, 33554431, 33554431, 33554431, 33554431,
     33554431, 33554431, 33554431, 33554431, 33554431, 33554431, 33554431, 33554431, 33554431, 33554431, 33554431,
     33554431, 33554431, 33554431],
      [33554431, 33554431, 4, 33554431, 33554431, 33554431, 33554431, 33554431, 33554431, 33554431, 33554431,
     33554431, 33554431, 33554431, 33554431, 33554431, 33554431, 33554431, 33554431, 33554431, 33554431, 33554431,
     33554431, 33554431, 33554431],
      [33554431, 33554431, 4, 33554431, 33554431, 33554431, 33554431, 33554431, 33554431, 33554431, 33554431,
     33554431, 33554431, 33554431, 33554431, 33554431, 33554431, 1048576, 33554431, 33554431, 33554431, 33554431,
     33554431, 33554431, 33554431],
      [33554431, 33554431, 2052, 33554431, 33554431, 33554431, 33554431, 33554431, 33554431, 33554431, 33554431,
     33554431, 33554431, 33554431, 33554431, 33554431, 33554431, 33554431, 33554431, 33554431, 33554431, 33554431,
     33554431, 33554431, 33554431],
      [33554431, 33554431, 2052, 33554431, 33554431, 33554431, 33554431, 33554431, 33554431, 33554431, 33554431, 2052,
     33554431, 33554431, 33554431, 33554431, 33554431, 33554431, 33554431, 33554431, 33554431, 33554431, 33554431,
     33554431, 33554431],
      [33554431, 33554431, 2052, 33554431, 33554431, 33554431, 33554431, 33554431, 33554431, 33554431, 33554431,
     33554431, 33554431, 33554431, 33554431, 33554431, 33554431, 33554431, 33554431, 33554431, 33554431, 33554431,
     33554431, 33554431, 33554431],
      [33554431, 33554431, 33554431, 33554431, 33554431, 33554431, 33554431, 33554431, 33554431, 33554431, 33554431,
     4, 33554431, 33554431, 33554431, 33554431, 33554431, 33554431, 33554431, 33554431, 33554431, 33554431, 33554431,
     33554431, 33554431],
      [33554431, 33554431, 4, 33554431, 33554431, 33554431, 33554431, 33554431, 33554431, 33554431, 33554431,
     33554431, 33554431, 33554431, 33554431, 33554431, 33554431, 33554431, 33554431, 33554431, 33554431, 33554431,
     33554431, 33554431, 33554431],
      [33554431, 33554431, 2052, 33554431, 33554431, 33554431, 33554431, 33554431, 33554431, 33554431, 33554431, 2052,
     33554431, 33554431, 33554431, 33554431, 33554431, 33554431, 33554431, 33554431, 33554431, 33554431, 33554431,
     33554431, 33554431],
      [33554431, 33554431, 4, 33554431, 33554431, 33554431, 33554431, 33554431, 33554431, 33554431, 33554431,
     33554431, 33554431, 33554431, 33554431, 33554431, 33554431, 33554431, 33554431, 33554431, 33554431, 33554431,
     33554431, 33554431, 33554431],
      [33554431, 33554431, 4, 33554431, 33554431, 33554431, 33554431, 33554431, 33554431, 33554431, 33554431,
     33554431, 33554431, 33554431, 33554431, 33554431, 33554431, 33554431, 33554431, 33554431, 33554431, 33554431,
     33554431, 33554431, 33554431],
      [33554431, 33554431, 33554431, 4, 33554431, 33554431, 33554431, 33554431, 33554431, 33554431, 33554431,
     33554431, 33554431, 33554431, 33554431, 33554431, 33554431, 33554431, 33554431, 33554431, 33554431, 33554431,
     33554431, 33554431, 33554431],
      [33554431, 33554431, 4, 4, 33554431, 33554431, 33554431, 33554431, 33554431, 33554431, 33554431, 33554431,
     33554431, 33554431, 33554431, 33554431, 33554431, 33554431, 33554431, 33554431, 33554431, 33554431, 33554431,
     33554431, 33554431],
      [33554431, 33554431, 4, 33554431, 33554431, 33554431, 33554431, 33554431, 33554431, 33554431, 33554431,
     33554431, 33554431, 33554431, 33554431, 33554431, 33554431, 33554431, 33554431, 33554431, 33554431, 33554431,
     33554431, 33554431, 33554431],
      [33554431, 33554431, 4, 33554431, 33554431, 33554431, 33554431, 33554431, 33554431, 33554431, 33554431,
     33554431, 33554431, 33554431, 33554431, 33554431, 33554431, 33554431, 33554431, 33554431, 33554431, 33554431,
     33554431, 33554431, 33554431],
      [33554431, 33554431, 4, 33554431, 33554431, 33554431, 33554431, 33554431, 33554431, 33554431, 33554431,
     33554431, 33554431, 33554431, 33554431, 33554431, 33554431, 33554431, 33554431, 33554431, 33554431, 33554431,
     33554431, 33554431, 33554431],
      [33554431, 33554431, 4, 33554431, 33554431, 33554431, 33554431, 33554431, 33554431, 33554431, 33554431,
     33554431, 33554431, 33554431, 33554431, 33554431, 33554431, 33554431, 33554431, 33554431, 33554431, 33554431,
     33554431, 33554431, 33554431],
      [33554431, 33554431, 4, 33554431, 33554431, 33554431, 33554431, 33554431, 33554431, 33554431, 33554431,
     33554431, 33554431, 33554431, 33554431, 33554431, 33554431, 33554431, 33554431, 33554431, 33554431, 33554431,
     33554431, 33554431, 33554431],
      [33554431, 33554431, 4, 33554431, 33554431, 33554431, 33554431, 33554431, 33554431, 33554431, 33554431,
     33554431, 33554431, 33554431, 33554431, 33554431, 33554431, 33554431, 33554431, 33554431, 33554431, 33554431,
     33554431, 33554431, 33554431],
      [33554431, 33554431, 4, 33554431, 33554431, 33554431, 33554431, 33554431, 33554431, 33554431, 33554431,
     33554431, 33554431, 33554431, 33554431, 33554431, 33554431, 33554431, 33554431, 33554431, 33554431, 33554431,
     33554431, 33554431, 33554431],
      [33554431, 33554431, 4, 33554431, 33554431, 33554431, 33554431, 33554431, 33554431, 33554431, 33554431,
     33554431, 33554431, 33554431, 33554431, 33554431, 33554431, 33554431, 33554431, 33554431, 33554431, 33554431,
     33554431, 33554431, 33554431],
      [33554431, 33554431, 4, 4, 4, 33554431, 33554431, 33554431, 33554431, 4, 33554431, 33554431, 33554431, 33554431,
     33554431, 4, 33554431, 1048576, 4, 33554431, 1048576, 33554431, 33554431, 33554431, 33554431],
      [33554431, 33554431, 4, 33554431, 33554431, 33554431, 33554431, 33554431, 33554431, 33554431, 33554431,
     33554431, 33554431, 33554431, 33554431, 33554431, 33554431, 33554431, 33554431, 33554431, 1048576, 33554431,
     33554431, 33554431, 33554431],
      [33554431, 33554431, 4, 256, 1024, 4, 4096, 16384, 33554431, 33554431, 33554431, 33554431, 33554431, 33554431,
     33554431, 33554431, 1024, 1048576, 33554431, 16384, 1048576, 8388608, 33554431, 33554431, 8388608],
      [33554431, 33554431, 4, 33554431, 1024, 4, 33554431, 16384, 33554431, 33554431, 33554431, 33554431, 33554431,
     33554431, 33554431, 33554431, 33554431, 1048576, 33554431, 33554431, 1048576, 8388608, 33554431, 33554431,
     33554431],
      [33554431, 33554431, 4, 4, 512, 2048, 33554431, 8192, 33554431, 4, 33554431, 33554431, 33554431, 33554431,
     33554431, 4, 4, 1048576, 4, 33554431, 1048576, 4194304, 33554431, 33554431, 33554431],
      [33554431, 33554431, 4, 4, 4, 33554431, 33554431, 33554431, 33554431, 4, 33554431, 33554431, 33554431, 33554431,
     33554431, 4, 33554431, 1048576, 4, 33554431, 1048576, 33554431, 33554431, 33554431, 33554431],
      [33554431, 33554431, 4, 33554431, 33554431, 33554431, 33554431, 33554431, 33554431, 33554431, 33554431,
     33554431, 33554431, 33554431, 33554431, 33554431, 33554431, 1048576, 33554431, 33554431, 33554431, 33554431,
     33554431, 33554431, 33554431],
      [],
      [],
      [33554431, 33554431, 4, 33554431, 33554431, 33554431, 33554431, 33554431, 33554431, 33554431, 33554431,
     33554431, 33554431, 33554431, 33554431, 33554431, 33554431, 33554431, 33554431, 33554431, 33554431, 33554431,
     33554431, 33554431, 33554431],
      [],
      [],
      [33554431, 33554431, 4, 33554431, 33554431, 33554431, 33554431, 33554431, 33554431, 33554431, 33554431,
     33554431, 33554431, 33554431, 33554431, 33554431, 33554431, 33554431, 33554431, 33554431, 33554431, 33554431,
     33554431, 33554431, 33554431],
      [],
      [],
      [],
      [],
      [33554431, 33554431, 4, 33554431, 516, 33554431, 33554431, 33554431, 33554431, 33554431, 33554431, 33554431,
     33554431, 33554431, 33554431, 33554431, 33554431, 33554431, 33554431, 33554431, 1048576, 33554431, 33554431,
     33554431, 33554431],
      [],
      [],
      [33554431, 33554431, 4, 33554431, 33554431, 33554431, 33554431, 33554431, 33554431, 33554431, 33554431,
     33554431, 33554431, 33554431, 33554431, 33554431, 33554431, 33554431, 33554431, 33554431, 1048576, 33554431,
     33554431, 33554431, 33554431],
      [],
      [],
      [],
      [33554431, 33554431, 4, 33554431, 33554431, 33554431, 33554431, 33554431, 33554431, 33554431, 33554431,
     33554431, 33554431, 33554431, 33554431, 33554431, 33554431, 33554431, 33554431, 33554431, 1048576, 33554431,
     33554431, 33554431, 33554431],
      [],
      [],
      [33554431, 33554431, 4, 33554431, 33554431, 33554431, 33554431, 33554431, 33554431, 33554431, 33554431,
     33554431, 33554431, 33554431, 33554431, 33554431, 33554431, 33554431, 33554431, 33554431, 33554431, 33554431,
     33554431, 33554431, 33554431],
      [],
      [],
      [33554431, 33554431, 4, 33554431, 33554431, 33554431, 33554431, 33554431, 33554431, 33554431, 33554431,
     33554431, 33554431, 33554431, 33554431, 33554431, 33554431, 33554431, 33554431, 33554431, 33554431, 33554431,
     33554431, 33554431, 33554431],
      [],
      [],
      [],
      [33554431, 33554431, 4, 33554431, 33554431, 33554431, 33554431, 33554431, 33554431, 33554431, 33554431,
     33554431, 33554431, 33554431, 33554431, 33554431, 33554431, 33554431, 33554431, 33554431, 33554431, 33554431,
     33554431, 33554431, 33554431],
      [],
      [33554431, 33554431, 4, 33554431, 33554431, 33554431, 33554431, 33554431, 33554431, 33554431, 33554431,
     33554431, 33554431, 33554431, 33554431, 33554431, 33554431, 33554431, 33554431, 33554431, 33554431, 33554431,
     33554431, 33554431, 33554431],
      [33554431, 33554431, 33554431, 33554431, 33554431, 33554431, 33554431, 33554431, 33554431, 33554431, 33554431,
     33554431, 33554431, 33554431, 33554431, 33554431, 33554431, 33554431, 33554431, 33554431, 1048576, 33554431,
     33554431, 33554431, 33554431],
      [],
      [],
      [],
      [],
      [33554431, 33554431, 2052, 33554431, 33554431, 33554431, 33554431, 33554431, 33554431, 33554431, 33554431, 2052,
     33554431, 33554431, 33554431, 33554431, 33554431, 33554431, 33554431, 33554431, 33554431, 33554431, 33554431,
     33554431, 33554431],
      [],
      [],
      [],
      [33554431, 33554431, 2052, 33554431, 33554431, 33554431, 33554431, 33554431, 33554431, 33554431, 33554431,
     33554431, 33554431, 33554431, 33554431, 33554431, 33554431, 33554431, 33554431, 33554431, 33554431, 33554431,
     33554431, 33554431, 33554431],
      [],
      [33554431, 33554431, 4, 33554431, 33554431, 33554431, 33554431, 33554431, 33554431, 33554431, 33554431,
     33554431, 33554431, 33554431, 33554431, 33554431, 33554431, 33554431, 33554431, 33554431, 33554431, 33554431,
     33554431, 33554431, 33554431],
      [],
      [33554431, 33554431, 4, 4, 33554431, 33554431, 33554431, 33554431, 33554431, 33554431, 33554431, 33554431,
     33554431, 33554431, 33554431, 33554431, 33554431, 33554431, 33554431, 33554431, 33554431, 33554431, 33554431,
     33554431, 33554431],
      [],
      [33554431, 33554431, 4, 33554431, 33554431, 33554431, 33554431, 33554431, 33554431, 33554431, 33554431,
     33554431, 33554431, 33554431, 33554431, 33554431, 33554431, 33554431, 33554431, 33554431, 33554431, 33554431,
     33554431, 33554431, 33554431],
      [],
      [],
      [],
      [],
      [33554431, 33554431, 4, 33554431, 33554431, 33554431, 33554431, 33554431, 33554431, 33554431, 33554431,
     33554431, 33554431, 33554431, 33554431, 33554431, 33554431, 33554431, 33554431, 33554431, 33554431, 33554431,
     33554431, 33554431, 33554431],
      [],
      [],
      [],
      [],
      [],
      [],
      [],
      [],
      []]

/-- for each state, the states with which it has no continuation in common -/
def twelfthPassDoomed : List Nat :=
  [33554431, 32011713, 32007297, 12608513, 12608513, 32007297, 12612867, 14090023, 23896259, 27804801, 25144063,
     32007297, 24027331, 29351423, 25144063, 32011649, 12608513, 32011393, 32011649, 14090023, 32007297, 14090023,
     29351423, 25144063, 14090023]

/-- the states where programs end -/
def twelfthPassFinal : Nat := 4

/-! The states: SINK, START, O, R, A, RC, RE, RI, AC, AE, AI, RD, RF, AD, AF, AV -/

/-- for each state, the next state for each terminal -/
def thirteenthPassSteps : List (List Nat) :=
  [[0, 0, 0, 0, 0, 0, 0, 0, 0, 0, 0, 0, 0, 0, 0, 0, 0, 0, 0, 0, 0, 0, 0, 0, 0, 0, 0, 0, 0, 0, 0, 0, 0, 0, 0, 0, 0, 0,
     0, 0, 0, 0, 0, 0, 0, 0, 0, 0, 0, 0, 0, 0, 0, 0, 0, 0, 0, 0, 0],
      [0, 0, 0, 0, 0, 0, 0, 0, 0, 0, 0, 0, 0, 0, 0, 0, 0, 0, 0, 0, 0, 0, 0, 0, 0, 0, 0, 0, 0, 0, 0, 0, 0, 0, 0, 0, 0,
     0, 0, 0, 0, 0, 0, 0, 2, 0, 0, 0, 0, 0, 0, 0, 0, 0, 0, 0, 0, 0, 0],
      [2, 2, 2, 2, 2, 2, 2, 2, 2, 2, 2, 2, 2, 2, 2, 2, 0, 3, 2, 2, 2, 2, 2, 2, 2, 2, 2, 2, 2, 2, 2, 2, 2, 2, 2, 2, 2,
     2, 2, 2, 2, 2, 2, 2, 2, 2, 2, 2, 2, 2, 2, 2, 2, 2, 2, 2, 2, 2, 2],
      [0, 0, 0, 0, 0, 0, 0, 0, 0, 0, 0, 0, 0, 0, 0, 0, 4, 0, 0, 0, 0, 0, 0, 0, 0, 0, 0, 0, 0, 0, 0, 0, 0, 0, 0, 0, 0,
     5, 0, 0, 6, 0, 0, 0, 0, 0, 0, 0, 0, 0, 0, 5, 0, 0, 0, 7, 7, 5, 0],
      [0, 0, 0, 0, 0, 0, 0, 0, 0, 0, 0, 0, 0, 0, 0, 0, 0, 0, 0, 0, 0, 0, 0, 0, 0, 0, 0, 0, 0, 0, 0, 0, 0, 0, 0, 0, 0,
     8, 0, 0, 9, 0, 0, 0, 0, 0, 0, 0, 0, 0, 0, 8, 0, 0, 0, 10, 10, 8, 0],
      [0, 0, 0, 0, 11, 0, 0, 0, 0, 0, 0, 0, 0, 0, 0, 0, 0, 0, 0, 0, 0, 0, 0, 0, 0, 0, 0, 0, 0, 0, 0, 0, 0, 0, 0, 0, 0,
     0, 0, 0, 0, 0, 0, 0, 0, 0, 0, 0, 0, 0, 0, 0, 0, 0, 0, 0, 0, 0, 0],
      [0, 0, 0, 0, 0, 0, 0, 0, 0, 0, 0, 0, 0, 0, 0, 0, 0, 0, 0, 0, 0, 0, 0, 0, 0, 0, 0, 0, 0, 0, 0, 0, 0, 0, 0, 0, 0,
     0, 0, 0, 0, 0, 0, 0, 0, 0, 0, 0, 0, 0, 0, 0, 0, 0, 0, 12, 0, 0, 0],
      [2, 2, 2, 2, 0, 2, 2, 2, 2, 2, 2, 2, 2, 2, 2, 2, 0, 3, 2, 2, 2, 2, 2, 2, 2, 2, 2, 2, 2, 2, 2, 2, 2, 2, 2, 2, 2,
     2, 2, 2, 2, 2, 2, 2, 2, 2, 2, 0, 2, 2, 2, 2, 2, 2, 2, 2, 2, 2, 2],
      [2, 2, 2, 2, 13, 2, 2, 2, 2, 2, 2, 2, 2, 2, 2, 2, 0, 3, 2, 2, 2, 2, 2, 2, 2, 2, 2, 2, 2, 2, 2, 2, 2, 2, 2, 2, 2,
     2, 2, 2, 2, 2, 2, 2, 2, 2, 2, 2, 2, 2, 2, 2, 2, 2, 2, 2, 2, 2, 2],
      [0, 0, 0, 0, 0, 0, 0, 0, 0, 0, 0, 0, 0, 0, 0, 0, 0, 0, 0, 0, 0, 0, 0, 0, 0, 0, 0, 0, 0, 0, 0, 0, 0, 0, 0, 0, 0,
     0, 0, 0, 0, 0, 0, 0, 0, 0, 0, 0, 0, 0, 0, 0, 0, 0, 0, 14, 0, 0, 0],
      [0, 0, 0, 0, 2, 0, 0, 0, 0, 0, 0, 0, 0, 0, 0, 0, 0, 0, 0, 0, 0, 0, 0, 0, 0, 0, 0, 0, 0, 0, 0, 0, 0, 0, 0, 0, 0,
     0, 0, 0, 0, 0, 0, 0, 0, 0, 0, 2, 0, 0, 0, 0, 0, 0, 0, 0, 0, 0, 0],
      [0, 0, 0, 0, 0, 0, 0, 0, 0, 0, 0, 0, 0, 0, 0, 0, 0, 0, 0, 0, 0, 0, 0, 0, 0, 0, 0, 0, 0, 0, 0, 0, 0, 0, 0, 0, 0,
     0, 0, 0, 0, 0, 0, 0, 0, 0, 0, 0, 0, 0, 0, 0, 0, 0, 0, 7, 7, 0, 0],
      [2, 2, 2, 2, 0, 2, 2, 2, 2, 2, 2, 2, 2, 2, 2, 2, 0, 3, 2, 2, 2, 2, 2, 2, 2, 2, 2, 2, 2, 2, 2, 2, 2, 2, 2, 2, 2,
     2, 2, 2, 2, 2, 2, 2, 2, 2, 2, 2, 2, 2, 2, 2, 2, 2, 2, 2, 2, 2, 2],
      [0, 0, 0, 0, 0, 0, 0, 0, 0, 0, 0, 0, 0, 0, 0, 0, 0, 0, 0, 0, 0, 0, 0, 0, 0, 0, 0, 0, 0, 0, 0, 0, 0, 0, 0, 0, 0,
     0, 0, 0, 0, 0, 0, 0, 0, 0, 0, 0, 0, 0, 0, 0, 0, 0, 0, 15, 15, 0, 0],
      [0, 0, 0, 0, 2, 0, 0, 0, 0, 0, 0, 0, 0, 0, 0, 0, 0, 0, 0, 0, 0, 0, 0, 0, 0, 0, 0, 0, 0, 0, 0, 0, 0, 0, 0, 0, 0,
     0, 0, 0, 0, 0, 0, 0, 0, 0, 0, 0, 0, 0, 0, 0, 0, 0, 0, 0, 0, 0, 0],
      [0, 0, 0, 0, 0, 0, 0, 0, 0, 0, 0, 0, 0, 0, 0, 0, 0, 0, 0, 0, 0, 0, 0, 0, 0, 0, 0, 0, 0, 0, 0, 0, 0, 0, 0, 0, 0,
     0, 0, 0, 0, 0, 0, 0, 0, 0, 0, 2, 0, 0, 0, 0, 0, 0, 0, 0, 0, 0, 0]]

/-- for each nonterminal and each state, the set of states (one bit each) behind it -/
def thirteenthPassSets : List (List Nat) :=
  [[65535, 65535, 4, 32, 256, 65535, 65535, 65535, 65535, 65535, 65535, 65535, 65535, 65535, 65535, 65535],
      [65535, 65535, 4, 32, 256, 65535, 65535, 65535, 65535, 65535, 65535, 65535, 65535, 65535, 65535, 65535],
      [65535, 65535, 4, 65535, 65535, 65535, 65535, 65535, 65535, 65535, 65535, 65535, 65535, 65535, 65535, 65535],
      [65535, 65535, 4, 65535, 65535, 65535, 65535, 65535, 65535, 65535, 65535, 65535, 65535, 65535, 65535, 65535],
      [65535, 65535, 4, 65535, 65535, 65535, 65535, 65535, 65535, 65535, 65535, 65535, 65535, 65535, 65535, 65535],
      [65535, 65535, 4, 128, 33792, 65535, 65535, 65535, 65535, 65535, 65535, 65535, 65535, 65535, 65535, 65535],
      [65535, 65535, 4, 65535, 65535, 65535, 65535, 65535, 65535, 65535, 65535, 65535, 65535, 65535, 65535, 65535],
      [65535, 65535, 4, 65535, 65535, 65535, 65535, 65535, 65535, 65535, 65535, 65535, 65535, 65535, 65535, 65535],
      [65535, 65535, 4, 65535, 65535, 65535, 65535, 65535, 65535, 65535, 65535, 65535, 65535, 65535, 65535, 65535],
      [65535, 65535, 4, 65535, 65535, 65535, 65535, 65535, 65535, 65535, 65535, 65535, 65535, 65535, 65535, 65535],
      [65535, 65535, 4, 65535, 65535, 65535, 65535, 65535, 65535, 65535, 65535, 65535, 65535, 65535, 65535, 65535],
      [65535, 65535, 4, 65535, 65535, 65535, 65535, 65535, 65535, 65535, 65535, 65535, 65535, 65535, 65535, 65535],
      [65535, 65535, 4, 65535, 65535, 65535, 65535, 65535, 65535, 65535, 65535, 65535, 65535, 65535, 65535, 65535],
      [65535, 65535, 4, 65535, 65535, 65535, 65535, 65535, 65535, 65535, 65535, 65535, 65535, 65535, 65535, 65535],
      [65535, 65535, 4, 65535, 65535, 65535, 65535, 65535, 65535, 65535, 65535, 65535, 65535, 65535, 65535, 65535],
      [65535, 65535, 4, 65535, 65535, 65535, 65535, 65535, 65535, 65535, 65535, 65535, 65535, 65535, 65535, 65535],
      [65535, 65535, 4, 65535, 65535, 65535, 65535, 65535, 65535, 65535, 65535, 65535, 65535, 65535, 65535, 65535],
      [65535, 65535, 4, 65535, 65535, 65535, 65535, 65535, 65535, 65535, 65535, 65535, 65535, 65535, 65535, 65535],
      [65535, 4, 65535, 65535, 65535, 65535, 65535, 65535, 65535, 65535, 65535, 65535, 65535, 65535, 65535, 65535],
      [65535, 65535, 4, 65535, 65535, 65535, 65535, 65535, 65535, 65535, 65535, 65535, 65535, 65535, 65535, 65535],
      [65535, 65535, 4, 65535, 65535, 65535, 65535, 65535, 65535, 65535, 65535, 65535, 65535, 65535, 65535, 65535],
      [65535, 65535, 4, 65535, 65535, 65535, 65535, 65535, 65535, 65535, 65535, 65535, 65535, 65535, 65535, 65535],
      [65535, 65535, 4, 65535, 65535, 65535, 65535, 65535, 65535, 65535, 65535, 65535, 65535, 65535, 65535, 65535],
      [65535, 65535, 4, 65535, 65535, 65535, 65535, 65535, 65535, 65535, 65535, 65535, 65535, 65535, 65535, 65535],
      [65535, 65535, 4, 65535, 65535, 65535, 65535, 65535, 65535, 65535, 65535, 65535, 65535, 65535, 65535, 65535],
      [65535, 65535, 4, 65535, 65535, 65535, 65535, 65535, 65535, 65535, 65535, 65535, 65535, 65535, 65535, 65535],
      [65535, 65535, 4, 65535, 65535, 65535, 65535, 65535, 65535, 65535, 65535, 65535, 65535, 65535, 65535, 65535],
      [65535, 65535, 4, 65535, 65535, 65535, 65535, 65535, 65535, 65535, 65535, 65535, 65535, 65535, 65535, 65535],
      [65535, 65535, 4, 65535, 65535, 65535, 65535, 65535, 65535, 65535, 65535, 65535, 65535, 65535, 65535, 65535],
      [65535, 65535, 4, 65535, 65535, 65535, 65535, 65535, 65535, 65535, 65535, 65535, 65535, 65535, 65535, 65535],
      [65535, 65535, 4, 65535, 65535, 65535, 65535, 65535, 65535, 65535, 65535, 65535, 65535, 65535, 65535, 65535],
      [65535, 65535, 4, 65535, 65535, 65535, 65535, 65535, 65535, 65535, 65535, 65535, 65535, 65535, 65535, 65535],
      [65535, 65535, 4, 65535, 65535, 65535, 65535, 65535, 65535, 65535, 65535, 65535, 65535, 65535, 65535, 65535],
      [65535, 65535, 4, 65535, 65535, 65535, 65535, 65535, 65535, 65535, 65535, 65535, 65535, 65535, 65535, 65535],
      [65535, 65535, 388, 65535, 65535, 65535, 65535, 65535, 65535, 65535, 65535, 65535, 65535, 65535, 65535, 65535],
      [65535, 65535, 388, 65535, 65535, 65535, 65535, 388, 388, 65535, 65535, 65535, 65535, 65535, 65535, 65535],
      [65535, 65535, 388, 65535, 65535, 65535, 65535, 65535, 65535, 65535, 65535, 65535, 65535, 65535, 65535, 65535],
      [65535, 65535, 65535, 65535, 65535, 65535, 65535, 65535, 4, 65535, 65535, 65535, 65535, 65535, 65535, 65535],
      [65535, 65535, 4, 65535, 65535, 65535, 65535, 65535, 65535, 65535, 65535, 65535, 65535, 65535, 65535, 65535],
      [65535, 65535, 388, 65535, 65535, 65535, 65535, 388, 388, 65535, 65535, 65535, 65535, 65535, 65535, 65535],
      [65535, 65535, 4, 65535, 65535, 65535, 65535, 65535, 65535, 65535, 65535, 65535, 65535, 65535, 65535, 65535],
      [65535, 65535, 4, 65535, 65535, 65535, 65535, 4, 65535, 65535, 65535, 65535, 4, 65535, 65535, 65535],
      [65535, 65535, 4, 65535, 65535, 65535, 65535, 65535, 65535, 65535, 65535, 65535, 65535, 65535, 65535, 65535],
      [65535, 65535, 4, 65535, 65535, 65535, 65535, 65535, 65535, 65535, 65535, 65535, 65535, 65535, 65535, 65535],
      [65535, 65535, 4, 65535, 65535, 65535, 65535, 65535, 65535, 65535, 65535, 65535, 65535, 65535, 65535, 65535],
      [65535, 65535, 4, 65535, 65535, 65535, 65535, 65535, 65535, 65535, 65535, 65535, 65535, 65535, 65535, 65535],
      [65535, 65535, 4, 65535, 65535, 65535, 65535, 65535, 65535, 65535, 65535, 65535, 65535, 65535, 65535, 65535],
      [65535, 65535, 4, 65535, 65535, 65535, 65535, 65535, 65535, 65535, 65535, 65535, 65535, 65535, 65535, 65535],
      [65535, 65535, 4, 65535, 65535, 65535, 65535, 65535, 65535, 65535, 65535, 65535, 65535, 65535, 65535, 65535],
      [65535, 65535, 4, 65535, 65535, 65535, 65535, 65535, 65535, 65535, 65535, 65535, 65535, 65535, 65535, 65535],
      [65535, 65535, 4, 65535, 65535, 65535, 65535, 65535, 65535, 65535, 65535, 65535, 65535, 65535, 65535, 65535],
      [65535, 65535, 4, 65535, 65535, 65535, 65535, 65535, 65535, 65535, 65535, 65535, 65535, 65535, 65535, 65535],
      [65535, 65535, 4, 65535, 65535, 65535, 65535, 65535, 65535, 65535, 65535, 65535, 65535, 65535, 65535, 65535],
      [65535, 65535, 4, 65535, 65535, 65535, 65535, 65535, 65535, 65535, 65535, 65535, 65535, 65535, 65535, 65535],
      [65535, 65535, 4, 128, 1024, 65535, 4096, 65535, 65535, 16384, 65535, 128, 65535, 32768, 65535, 65535],
      [65535, 65535, 4, 128, 1024, 65535, 65535, 65535, 65535, 65535, 65535, 65535, 65535, 65535, 65535, 65535],
      [65535, 65535, 4, 32, 256, 65535, 65535, 65535, 65535, 65535, 65535, 65535, 65535, 65535, 65535, 65535],
      [65535, 65535, 4, 65535, 65535, 65535, 65535, 65535, 65535, 65535, 65535, 65535, 65535, 65535, 65535, 65535],
      [65535, 65535, 4, 65535, 65535, 65535, 65535, 65535, 65535, 65535, 65535, 65535, 65535, 65535, 65535, 65535],
      [],
      [],
      [65535, 65535, 4, 65535, 65535, 65535, 65535, 65535, 65535, 65535, 65535, 65535, 65535, 65535, 65535, 65535],
      [],
      [],
      [65535, 65535, 4, 65535, 65535, 65535, 65535, 65535, 65535, 65535, 65535, 65535, 65535, 65535, 65535, 65535],
      [],
      [],
      [],
      [],
      [65535, 65535, 4, 65535, 65535, 65535, 65535, 65535, 65535, 65535, 65535, 65535, 65535, 65535, 65535, 65535],
      [],
      [],
      [65535, 65535, 4, 65535, 65535, 65535, 65535, 65535, 65535, 65535, 65535, 65535, 65535, 65535, 65535, 65535],
      [],
      [],
      [],
      [65535, 65535, 4, 65535, 65535, 65535, 65535, 65535, 65535, 65535, 65535, 65535, 65535, 65535, 65535, 65535],
      [],
      [],
      [65535, 65535, 4, 65535, 65535, 65535, 65535, 65535, 65535, 65535, 65535, 65535, 65535, 65535, 65535, 65535],
      [],
      [],
      [65535, 65535, 4, 65535, 65535, 65535, 65535, 65535, 65535, 65535, 65535, 65535, 65535, 65535, 65535, 65535],
      [],
      [],
      [],
      [65535, 65535, 4, 65535, 65535, 65535, 65535, 65535, 65535, 65535, 65535, 65535, 65535, 65535, 65535, 65535],
      [],
      [65535, 65535, 4, 65535, 65535, 65535, 65535, 65535, 65535, 65535, 65535, 65535, 65535, 65535, 65535, 65535],
      [65535, 65535, 4, 65535, 65535, 65535, 65535, 65535, 65535, 65535, 65535, 65535, 65535, 65535, 65535, 65535],
      [],
      [],
      [],
      [],
      [65535, 65535, 388, 65535, 65535, 65535, 65535, 388, 388, 65535, 65535, 65535, 65535, 65535, 65535, 65535],
      [],
      [],
      [],
      [65535, 65535, 388, 65535, 65535, 65535, 65535, 65535, 65535, 65535, 65535, 65535, 65535, 65535, 65535, 65535],
      [],
      [65535, 65535, 4, 65535, 65535, 65535, 65535, 4, 65535, 65535, 65535, 65535, 4, 65535, 65535, 65535],
      [],
      [65535, 65535, 4, 65535, 65535, 65535, 65535, 65535, 65535, 65535, 65535, 65535, 65535, 65535, 65535, 65535],
      [],
      [65535, 65535, 4, 65535, 65535, 65535, 65535, 65535, 65535, 65535, 65535, 65535, 65535, 65535, 65535, 65535],
      [],
      [],
      [],
      [],
      [65535, 65535, 4, 65535, 65535, 65535, 65535, 65535, 65535, 65535, 65535, 65535, 65535, 65535, 65535, 65535],
      [],
      [],
      [],
      [],
      [],
      [],
      [],
      [],
      []]

/-- for each state, the states with which it has no continuation in common -/
def thirteenthPassDoomed : List Nat :=
  [65535, 61049, 1, 58931, 52267, 48091, 50723, 50209, 33, 60523, 10971, 58931, 16417, 52779, 47835, 27387]

/-- the states where programs end -/
def thirteenthPassFinal : Nat := 4

/-! The states: SINK, START, O, X, T, XN, V, TC, TV, XD, VC, TD, TA, VD, TB -/

/-- for each state, the next state for each terminal -/
def fourteenthPassSteps : List (List Nat) :=
  [[0, 0, 0, 0, 0, 0, 0, 0, 0, 0, 0, 0, 0, 0, 0, 0, 0, 0, 0, 0, 0, 0, 0, 0, 0, 0, 0, 0, 0, 0, 0, 0, 0, 0, 0, 0, 0, 0,
     0, 0, 0, 0, 0, 0, 0, 0, 0, 0, 0, 0, 0, 0, 0, 0, 0, 0, 0, 0, 0],
      [0, 0, 0, 0, 0, 0, 0, 0, 0, 0, 0, 0, 0, 0, 0, 0, 0, 0, 0, 0, 0, 0, 0, 0, 0, 0, 0, 0, 0, 0, 0, 0, 0, 0, 0, 0, 0,
     0, 0, 0, 0, 0, 0, 0, 2, 0, 0, 0, 0, 0, 0, 0, 0, 0, 0, 0, 0, 0, 0],
      [2, 2, 2, 2, 2, 2, 2, 2, 2, 2, 2, 2, 2, 3, 2, 3, 2, 2, 2, 0, 2, 2, 2, 2, 2, 2, 2, 3, 2, 3, 2, 2, 2, 2, 2, 2, 2,
     2, 2, 2, 2, 2, 2, 2, 2, 2, 2, 2, 2, 2, 2, 2, 2, 2, 2, 2, 2, 2, 2],
      [2, 2, 2, 2, 2, 2, 2, 2, 2, 2, 2, 2, 2, 3, 2, 3, 2, 2, 2, 4, 2, 2, 2, 2, 2, 2, 2, 3, 2, 3, 2, 2, 2, 2, 2, 2, 2,
     5, 2, 2, 2, 2, 2, 2, 2, 2, 2, 2, 2, 2, 2, 5, 2, 2, 2, 6, 6, 5, 2],
      [0, 0, 0, 0, 0, 0, 0, 0, 0, 0, 0, 0, 0, 0, 0, 0, 0, 0, 0, 0, 0, 0, 0, 0, 0, 0, 0, 0, 0, 0, 0, 0, 0, 0, 0, 0, 0,
     7, 0, 0, 0, 0, 0, 0, 0, 0, 0, 0, 0, 0, 0, 7, 0, 0, 0, 8, 8, 7, 0],
      [2, 2, 2, 2, 9, 2, 2, 2, 2, 2, 2, 2, 2, 3, 2, 3, 2, 2, 2, 0, 2, 2, 2, 2, 2, 2, 2, 3, 2, 3, 2, 2, 2, 2, 2, 2, 2,
     2, 2, 2, 2, 2, 2, 2, 2, 2, 2, 2, 2, 2, 2, 2, 2, 2, 2, 2, 2, 2, 2],
      [2, 2, 2, 2, 2, 2, 2, 2, 0, 2, 2, 2, 2, 3, 2, 3, 2, 2, 2, 0, 2, 2, 2, 2, 2, 2, 2, 3, 2, 3, 2, 2, 2, 2, 2, 2, 2,
     10, 2, 2, 2, 2, 2, 0, 2, 2, 2, 2, 2, 2, 0, 10, 2, 0, 2, 6, 6, 10, 0],
      [0, 0, 0, 0, 11, 0, 0, 0, 0, 0, 0, 0, 0, 0, 0, 0, 0, 0, 0, 0, 0, 0, 0, 0, 0, 0, 0, 0, 0, 0, 0, 0, 0, 0, 0, 0, 0,
     0, 0, 0, 0, 0, 0, 0, 0, 0, 0, 0, 0, 0, 0, 0, 0, 0, 0, 0, 0, 0, 0],
      [0, 0, 0, 0, 0, 0, 0, 0, 2, 0, 0, 0, 0, 0, 0, 0, 0, 0, 0, 0, 0, 0, 0, 0, 0, 0, 0, 0, 0, 0, 0, 0, 0, 0, 0, 0, 0,
     12, 0, 0, 0, 0, 0, 2, 0, 0, 0, 0, 0, 0, 2, 12, 0, 2, 0, 0, 0, 12, 2],
      [2, 2, 2, 2, 2, 2, 2, 2, 2, 2, 2, 2, 2, 3, 2, 3, 2, 2, 2, 0, 2, 2, 2, 2, 2, 2, 2, 3, 2, 3, 2, 2, 2, 2, 2, 2, 2,
     2, 2, 2, 2, 2, 2, 2, 2, 2, 2, 2, 2, 2, 2, 2, 2, 2, 2, 6, 6, 2, 2],
      [0, 0, 0, 0, 13, 0, 0, 0, 0, 0, 0, 0, 0, 0, 0, 0, 0, 0, 0, 0, 0, 0, 0, 0, 0, 0, 0, 0, 0, 0, 0, 0, 0, 0, 0, 0, 0,
     0, 0, 0, 0, 0, 0, 0, 0, 0, 0, 0, 0, 0, 0, 0, 0, 0, 0, 0, 0, 0, 0],
      [0, 0, 0, 0, 0, 0, 0, 0, 0, 0, 0, 0, 0, 0, 0, 0, 0, 0, 0, 0, 0, 0, 0, 0, 0, 0, 0, 0, 0, 0, 0, 0, 0, 0, 0, 0, 0,
     0, 0, 0, 0, 0, 0, 0, 0, 0, 0, 0, 0, 0, 0, 0, 0, 0, 0, 8, 8, 0, 0],
      [2, 2, 2, 2, 14, 2, 2, 2, 2, 2, 2, 2, 2, 3, 2, 3, 2, 2, 2, 0, 2, 2, 2, 2, 2, 2, 2, 3, 2, 3, 2, 2, 2, 2, 2, 2, 2,
     2, 2, 2, 2, 2, 2, 2, 2, 2, 2, 2, 2, 2, 2, 2, 2, 2, 2, 2, 2, 2, 2],
      [0, 0, 0, 0, 0, 0, 0, 0, 0, 0, 0, 0, 0, 0, 0, 0, 0, 0, 0, 0, 0, 0, 0, 0, 0, 0, 0, 0, 0, 0, 0, 0, 0, 0, 0, 0, 0,
     0, 0, 0, 0, 0, 0, 0, 0, 0, 0, 0, 0, 0, 0, 0, 0, 0, 0, 6, 6, 0, 0],
      [0, 0, 0, 0, 0, 0, 0, 0, 0, 0, 0, 0, 0, 0, 0, 0, 0, 0, 0, 0, 0, 0, 0, 0, 0, 0, 0, 0, 0, 0, 0, 0, 0, 0, 0, 0, 0,
     2, 0, 0, 0, 0, 0, 0, 0, 0, 0, 0, 0, 0, 2, 2, 0, 0, 0, 0, 0, 2, 2]]

/-- for each nonterminal and each state, the set of states (one bit each) behind it -/
def fourteenthPassSets : List (List Nat) :=
  [[32767, 32767, 4, 32, 128, 4, 1024, 32767, 4096, 4, 32767, 32767, 4, 32767, 4],
      [32767, 32767, 4, 32, 128, 4, 1024, 32767, 4096, 4, 32767, 32767, 4, 32767, 4],
      [32767, 32767, 4, 32767, 32767, 32767, 32767, 32767, 32767, 32767, 32767, 32767, 32767, 32767, 32767],
      [32767, 32767, 4, 32767, 32767, 32767, 32767, 32767, 32767, 32767, 32767, 32767, 32767, 32767, 32767],
      [32767, 32767, 4, 36, 32767, 32767, 32767, 32767, 4100, 32767, 32767, 32767, 4, 32767, 32767],
      [32767, 32767, 4, 64, 256, 4, 64, 32767, 32767, 32767, 32767, 32767, 32767, 32767, 32767],
      [32767, 32767, 4, 32767, 32767, 32767, 32767, 32767, 32767, 32767, 32767, 32767, 32767, 32767, 32767],
      [32767, 32767, 4, 32767, 32767, 32767, 32767, 32767, 32767, 32767, 32767, 32767, 32767, 32767, 32767],
      [32767, 32767, 4, 32767, 32767, 32767, 32767, 32767, 32767, 32767, 32767, 32767, 32767, 32767, 32767],
      [32767, 32767, 4, 32767, 32767, 32767, 32767, 32767, 32767, 32767, 32767, 32767, 32767, 32767, 32767],
      [32767, 32767, 4, 32767, 32767, 32767, 32767, 32767, 4100, 32767, 32767, 32767, 4, 32767, 32767],
      [32767, 32767, 4, 32767, 32767, 32767, 32767, 32767, 4, 32767, 32767, 32767, 4, 32767, 32767],
      [32767, 32767, 4, 32767, 32767, 32767, 32767, 32767, 32767, 32767, 32767, 32767, 32767, 32767, 32767],
      [32767, 32767, 4, 32767, 32767, 32767, 32767, 32767, 32767, 32767, 32767, 32767, 32767, 32767, 32767],
      [32767, 32767, 4, 32767, 32767, 32767, 32767, 32767, 32767, 32767, 32767, 32767, 32767, 32767, 32767],
      [32767, 32767, 4, 32767, 32767, 32767, 32767, 32767, 32767, 32767, 32767, 32767, 32767, 32767, 32767],
      [32767, 32767, 4, 32767, 32767, 32767, 32767, 32767, 32767, 32767, 32767, 32767, 32767, 32767, 32767],
      [32767, 32767, 4, 32767, 32767, 32767, 32767, 32767, 32767, 32767, 32767, 32767, 32767, 32767, 32767],
      [32767, 4204, 32767, 32767, 32767, 32767, 32767, 32767, 32767, 32767, 32767, 32767, 32767, 32767, 32767],
      [32767, 32767, 4196, 32767, 32767, 32767, 32767, 32767, 32767, 32767, 32767, 32767, 32767, 32767, 32767],
      [32767, 32767, 4196, 32767, 32767, 4196, 4196, 32767, 32767, 32767, 32767, 32767, 4196, 32767, 32767],
      [32767, 32767, 4, 32767, 32767, 32767, 32767, 32767, 32767, 32767, 32767, 32767, 32767, 32767, 32767],
      [32767, 32767, 4, 32767, 32767, 32767, 32767, 32767, 32767, 32767, 32767, 32767, 32767, 32767, 32767],
      [32767, 32767, 4, 4, 32767, 32767, 32767, 32767, 32767, 32767, 32767, 32767, 32767, 32767, 32767],
      [32767, 32767, 4, 32767, 32767, 32767, 32767, 32767, 32767, 32767, 32767, 32767, 32767, 32767, 32767],
      [32767, 32767, 4, 32767, 32767, 4, 32767, 32767, 32767, 32767, 32767, 32767, 32767, 32767, 32767],
      [32767, 32767, 32767, 4196, 32767, 32767, 32767, 32767, 32767, 32767, 32767, 32767, 32767, 32767, 32767],
      [32767, 32767, 4196, 4196, 32767, 4196, 4196, 32767, 32767, 32767, 32767, 32767, 4196, 32767, 32767],
      [32767, 32767, 4, 32767, 32767, 32767, 32767, 32767, 32767, 32767, 32767, 32767, 32767, 32767, 32767],
      [32767, 32767, 4, 32767, 32767, 32767, 32767, 32767, 32767, 32767, 32767, 32767, 32767, 32767, 32767],
      [32767, 32767, 4, 32767, 32767, 32767, 32767, 32767, 32767, 32767, 32767, 32767, 32767, 32767, 32767],
      [32767, 32767, 4, 32767, 32767, 32767, 32767, 32767, 32767, 32767, 32767, 32767, 32767, 32767, 32767],
      [32767, 32767, 32767, 68, 32767, 32767, 32767, 32767, 32767, 32767, 32767, 32767, 32767, 32767, 32767],
      [32767, 32767, 4, 4, 32767, 32767, 32767, 32767, 32767, 32767, 32767, 32767, 32767, 32767, 32767],
      [32767, 32767, 4196, 4196, 32767, 32767, 32767, 32767, 32767, 32767, 32767, 32767, 32767, 32767, 32767],
      [32767, 32767, 4196, 32767, 32767, 4196, 4196, 32767, 32767, 32767, 32767, 32767, 4196, 32767, 32767],
      [32767, 32767, 4196, 4196, 32767, 32767, 32767, 32767, 32767, 32767, 32767, 32767, 32767, 32767, 32767],
      [32767, 32767, 4, 32767, 32767, 32767, 32767, 32767, 32767, 32767, 32767, 32767, 32767, 32767, 32767],
      [32767, 32767, 4, 96, 32767, 32767, 32767, 32767, 32767, 32767, 32767, 32767, 32767, 32767, 32767],
      [32767, 32767, 4204, 4204, 32767, 4204, 4204, 32767, 32767, 32767, 32767, 32767, 4204, 32767, 32767],
      [32767, 32767, 4, 4, 32767, 32767, 32767, 32767, 32767, 32767, 32767, 32767, 32767, 32767, 32767],
      [32767, 32767, 4, 32767, 32767, 32767, 4, 32767, 32767, 32767, 32767, 32767, 32767, 32767, 32767],
      [32767, 32767, 4, 32767, 32767, 32767, 32767, 32767, 32767, 32767, 32767, 32767, 32767, 32767, 32767],
      [32767, 32767, 4, 32767, 32767, 32767, 32767, 32767, 32767, 32767, 32767, 32767, 32767, 32767, 32767],
      [32767, 32767, 4, 32767, 32767, 32767, 32767, 32767, 32767, 32767, 32767, 32767, 32767, 32767, 32767],
      [32767, 32767, 4, 4, 32767, 4, 4, 32767, 32767, 32767, 32767, 32767, 4, 32767, 32767],
      [32767, 32767, 4, 4, 32767, 4, 4, 32767, 32767, 32767, 32767, 32767, 4, 32767, 32767],
      [32767, 32767, 4, 4, 32767, 4, 4, 32767, 32767, 32767, 32767, 32767, 4, 32767, 32767],
      [32767, 32767, 4, 32767, 32767, 32767, 32767, 32767, 32767, 32767, 32767, 32767, 32767, 32767, 32767],
      [32767, 32767, 4204, 32767, 32767, 4204, 4204, 32767, 32767, 32767, 32767, 32767, 4204, 32767, 32767],
      [32767, 32767, 4196, 4196, 32767, 4196, 4196, 32767, 32767, 32767, 32767, 32767, 4196, 32767, 32767],
      [32767, 32767, 8, 32767, 32767, 32767, 32767, 32767, 32767, 32767, 32767, 32767, 32767, 32767, 32767],
      [32767, 32767, 4, 4, 32767, 32767, 32767, 32767, 4, 32767, 32767, 32767, 4, 32767, 32767],
      [32767, 32767, 4, 32767, 32767, 4, 32767, 32767, 32767, 32767, 32767, 32767, 32767, 32767, 32767],
      [32767, 32767, 4, 64, 256, 4, 64, 32767, 32767, 64, 32767, 256, 32767, 64, 32767],
      [32767, 32767, 4, 64, 256, 4, 64, 32767, 32767, 32767, 32767, 32767, 32767, 32767, 32767],
      [32767, 32767, 4, 32, 128, 4, 1024, 32767, 4096, 4, 32767, 32767, 4, 32767, 4],
      [32767, 32767, 4, 32767, 32767, 32767, 32767, 32767, 4, 32767, 32767, 32767, 4, 32767, 32767],
      [32767, 32767, 4, 4, 32767, 32767, 32767, 32767, 32767, 32767, 32767, 32767, 32767, 32767, 32767],
      [],
      [],
      [32767, 32767, 4, 32767, 32767, 32767, 32767, 32767, 32767, 32767, 32767, 32767, 32767, 32767, 32767],
      [],
      [],
      [32767, 32767, 4, 32767, 32767, 4, 64, 32767, 32767, 32767, 32767, 32767, 32767, 32767, 32767],
      [],
      [],
      [],
      [],
      [32767, 32767, 4, 32767, 32767, 32767, 32767, 32767, 4100, 32767, 32767, 32767, 32767, 32767, 32767],
      [],
      [],
      [32767, 32767, 4, 32767, 32767, 32767, 32767, 32767, 32767, 32767, 32767, 32767, 32767, 32767, 32767],
      [],
      [],
      [],
      [32767, 32767, 4, 32767, 32767, 32767, 32767, 32767, 32767, 32767, 32767, 32767, 32767, 32767, 32767],
      [],
      [],
      [32767, 32767, 4196, 32767, 32767, 32767, 32767, 32767, 32767, 32767, 32767, 32767, 32767, 32767, 32767],
      [],
      [],
      [32767, 32767, 32767, 4, 32767, 32767, 32767, 32767, 32767, 32767, 32767, 32767, 32767, 32767, 32767],
      [],
      [],
      [],
      [32767, 32767, 32767, 4196, 32767, 32767, 32767, 32767, 32767, 32767, 32767, 32767, 32767, 32767, 32767],
      [],
      [32767, 32767, 4, 32767, 32767, 32767, 32767, 32767, 32767, 32767, 32767, 32767, 32767, 32767, 32767],
      [32767, 32767, 4, 32767, 32767, 32767, 32767, 32767, 32767, 32767, 32767, 32767, 32767, 32767, 32767],
      [],
      [],
      [],
      [],
      [32767, 32767, 4196, 32767, 32767, 4196, 4196, 32767, 32767, 32767, 32767, 32767, 4196, 32767, 32767],
      [],
      [],
      [],
      [32767, 32767, 32767, 4204, 32767, 32767, 32767, 32767, 32767, 32767, 32767, 32767, 32767, 32767, 32767],
      [],
      [32767, 32767, 4, 32767, 32767, 32767, 4, 32767, 32767, 32767, 32767, 32767, 32767, 32767, 32767],
      [],
      [32767, 32767, 4, 32767, 32767, 32767, 32767, 32767, 32767, 32767, 32767, 32767, 32767, 32767, 32767],
      [],
      [32767, 32767, 4, 4, 32767, 4, 4, 32767, 32767, 32767, 32767, 32767, 4, 32767, 32767],
      [],
      [],
      [],
      [],
      [32767, 32767, 4196, 4196, 32767, 32767, 32767, 32767, 32767, 32767, 32767, 32767, 32767, 32767, 32767],
      [],
      [],
      [],
      [],
      [],
      [],
      [],
      [],
      []]

/-- for each state, the states with which it has no continuation in common -/
def fourteenthPassDoomed : List Nat :=
  [32767, 28049, 1, 2065, 9675, 129, 2321, 32051, 11475, 2049, 31123, 26571, 1153, 19859, 11395]

/-- the states where programs end -/
def fourteenthPassFinal : Nat := 4204

/-- for each nonterminal, each state and whether the counter is known to be zero: the states behind it -/
def arrowsTable : List (List (Option (List Nat))) :=
  [[some [0], some [0], some [0], some [0], some [2], some [2], some [2], some [2]],
      [some [0], some [0], some [0], some [0], some [2], some [2], some [2], some [2]],
      [none, some [0], none, none, none, none, none, none],
      [none, some [0], none, none, none, none, none, none],
      [some [0], some [0], some [0], some [0], some [2], some [2], some [2], some [2]],
      [some [0], some [0], some [0], some [0], some [2], some [2], some [2], some [2]],
      [some [0, 1], some [0, 1], none, none, some [2, 3], some [2, 3], none, none],
      [some [0, 1], some [0, 1], none, none, some [2, 3], some [2, 3], none, none],
      [some [0, 1], some [0, 1], none, none, some [2, 3], some [2, 3], none, none],
      [some [0, 1], some [0, 1], none, none, some [2, 3], some [2, 3], none, none],
      [some [0, 1], some [0, 1], some [0, 1], some [0, 1], some [2, 3], some [2, 3], some [2, 3], some
     [2, 3]],
      [some [0], some [0], some [0], some [0], some [2], some [2], some [2], some [2]],
      [some [0, 1], some [0, 1], none, none, some [2, 3], some [2, 3], none, none],
      [some [0, 1], some [0, 1], some [0, 1], some [0, 1], some [2, 3], some [2, 3], some [2, 3], some
     [2, 3]],
      [some [0, 1], some [0, 1], none, none, some [2, 3], some [2, 3], none, none],
      [some [0, 1], some [0, 1], none, none, some [2, 3], some [2, 3], none, none],
      [some [0, 1], some [0, 1], some [0, 1], some [0, 1], some [2, 3], some [2, 3], some [2, 3], some
     [2, 3]],
      [some [0, 1], some [0, 1], some [0, 1], some [0, 1], some [2, 3], some [2, 3], some [2, 3], some
     [2, 3]],
      [none, some [0, 1, 2, 3], none, none, none, none, none, none],
      [none, some [0, 1, 2, 3], none, none, none, none, none, none],
      [none, some [0, 1, 2, 3], none, some [0, 1, 2, 3], none, some [0, 1, 2, 3], none, some [0, 1, 2,
     3]],
      [none, some [0, 1], none, none, none, some [2, 3], none, none],
      [some [0, 1], some [0, 1], none, none, some [2, 3], some [2, 3], none, none],
      [none, none, none, none, none, some [2, 3], none, some [2, 3]],
      [some [0, 1], some [0, 1], none, none, some [2, 3], some [2, 3], none, none],
      [some [0], some [0], none, none, some [2], some [2], none, none],
      [some [0, 1], some [0, 1], none, none, some [0, 1, 2, 3], some [0, 1, 2, 3], none, none],
      [some [0, 1], some [0, 1], some [0, 1], some [0, 1], none, none, none, none],
      [some [0, 1], none, none, none, none, none, none, none],
      [some [0, 1], none, some [0, 1], none, none, none, none, none],
      [some [0, 1], some [0, 1], some [0, 1], some [0, 1], some [2, 3], some [2, 3], some [2, 3], some
     [2, 3]],
      [some [0, 1], some [0, 1], none, none, some [2, 3], some [2, 3], none, none],
      [some [0, 1], some [0, 1], none, none, some [2, 3], some [2, 3], none, none],
      [some [0, 1], some [0, 1], none, none, some [2, 3], some [2, 3], none, none],
      [none, some [0, 1], none, some [0, 1], none, some [0, 1, 2, 3], none, some [0, 1, 2, 3]],
      [none, some [0, 1], none, some [0, 1], none, some [0, 1, 2, 3], none, some [0, 1, 2, 3]],
      [none, some [0, 1], none, some [0, 1], none, none, none, some [0, 1, 2, 3]],
      [none, some [1], none, none, none, some [3], none, none],
      [none, some [0], none, some [0], none, some [2], none, some [2]],
      [none, some [0, 1], none, some [0, 1], none, none, none, none],
      [none, some [0], none, some [0], none, some [2], none, some [2]],
      [none, some [0], none, none, none, some [2], none, none],
      [none, some [0, 1], none, none, none, some [2, 3], none, none],
      [none, some [0, 1], none, some [0, 1], none, some [2, 3], none, some [2, 3]],
      [none, some [1], none, none, none, some [3], none, none],
      [none, some [0], none, some [0], none, some [0, 2], none, some [0, 2]],
      [none, some [0], none, some [0], none, some [0, 2], none, some [0, 2]],
      [none, some [0], none, some [0], none, some [0, 2], none, some [0, 2]],
      [none, none, none, some [0], none, none, none, some [0, 2]],
      [none, some [0, 1], none, some [0, 1], none, some [0, 1, 2, 3], none, some [0, 1, 2, 3]],
      [none, some [0, 1], none, some [0, 1], none, some [0, 1, 2, 3], none, some [0, 1, 2, 3]],
      [none, none, none, some [0], none, none, none, some [0, 2]],
      [some [0], some [0], some [0], some [0], some [2], some [2], some [2], some [2]],
      [some [0], some [0], none, none, some [2], some [2], none, none],
      [some [0], some [0], some [0], some [0], some [2], some [2], some [2], some [2]],
      [some [0], some [0], some [0], some [0], some [2], some [2], some [2], some [2]],
      [some [0], some [0], some [0], some [0], some [2], some [2], some [2], some [2]],
      [some [0], some [0], some [0], some [0], some [2], some [2], some [2], some [2]],
      [some [0], some [0], none, none, some [2], some [2], none, none],
      [],
      [],
      [none, some [0], none, none, none, none, none, none],
      [],
      [],
      [some [0], some [0], none, none, some [2], some [2], none, none],
      [],
      [],
      [],
      [],
      [some [0, 1], some [0, 1], none, none, some [2, 3], some [2, 3], none, none],
      [],
      [],
      [some [0, 1], some [0, 1], some [0, 1], some [0, 1], some [2, 3], some [2, 3], some [2, 3], some
     [2, 3]],
      [],
      [],
      [],
      [some [0, 1], some [0, 1], none, none, some [2, 3], some [2, 3], none, none],
      [],
      [],
      [none, some [0, 1, 2, 3], none, none, none, none, none, none],
      [],
      [],
      [none, none, none, none, none, some [2, 3], none, none],
      [],
      [],
      [],
      [some [0, 1], some [0, 1], none, none, none, none, none, none],
      [],
      [some [0, 1], none, none, none, none, none, none, none],
      [some [0, 1], some [0, 1], some [0, 1], some [0, 1], some [2, 3], some [2, 3], some [2, 3], some
     [2, 3]],
      [],
      [],
      [],
      [],
      [none, some [0, 1], none, some [0, 1], none, some [0, 1, 2, 3], none, some [0, 1, 2, 3]],
      [],
      [],
      [],
      [none, some [0, 1], none, none, none, none, none, none],
      [],
      [none, some [0], none, none, none, some [2], none, none],
      [],
      [none, some [0, 1], none, some [0, 1], none, some [2, 3], none, some [2, 3]],
      [],
      [none, some [0], none, some [0], none, some [0, 2], none, some [0, 2]],
      [],
      [],
      [],
      [],
      [none, some [0, 1], none, some [0, 1], none, some [0, 1, 2, 3], none, some [0, 1, 2, 3]],
      [],
      [],
      [],
      [],
      [],
      [],
      [],
      [],
      []]

end Verif.LR
