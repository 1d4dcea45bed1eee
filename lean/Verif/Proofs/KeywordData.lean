/-
Finite automata and counter machines, written by tools/keywords.py.  Nothing about them is assumed: Proofs/Keywords checks what is used.
State 0 is where no program gets, state 1 is the start.
-/
namespace Verif.LR

/-! The states: SINK, START, O, R, L, M, W, K, Y, T, N, F, E, RN, LI, MC, MI, AC, WN, KP, YI, TN, ND, NP, PT, PI, PV, FC, FI, EC, EI, RD, RT, RI, MD, KI, X, TP, NPI, PD, PP, Z, FD, ED, RPD, TPI, PPI -/

/-- for each state, the next state for each terminal -/
def firstPassSteps : List (List Nat) :=
  [[0, 0, 0, 0, 0, 0, 0, 0, 0, 0, 0, 0, 0, 0, 0, 0, 0, 0, 0, 0, 0, 0, 0, 0, 0, 0, 0, 0, 0, 0, 0, 0, 0, 0, 0, 0, 0, 0,
     0, 0, 0, 0, 0, 0, 0, 0, 0, 0, 0, 0, 0, 0, 0, 0, 0, 0, 0, 0, 0],
      [0, 0, 0, 0, 0, 0, 0, 0, 0, 0, 0, 0, 0, 0, 0, 0, 0, 0, 0, 0, 0, 0, 0, 0, 0, 0, 0, 0, 0, 0, 0, 0, 0, 0, 0, 0, 0,
     0, 0, 0, 0, 0, 0, 0, 2, 0, 0, 0, 0, 0, 0, 0, 0, 0, 0, 0, 0, 0, 0],
      [2, 2, 2, 2, 2, 3, 2, 2, 2, 3, 2, 2, 2, 2, 2, 2, 2, 2, 2, 2, 2, 3, 2, 2, 2, 2, 4, 2, 5, 6, 2, 7, 8, 9, 9, 2, 2,
     10, 11, 2, 12, 12, 2, 2, 0, 2, 2, 2, 9, 2, 10, 10, 2, 2, 2, 10, 10, 10, 10],
      [2, 2, 2, 2, 2, 3, 2, 2, 2, 3, 2, 2, 2, 2, 2, 2, 2, 2, 2, 2, 2, 3, 2, 2, 2, 2, 4, 2, 5, 6, 2, 7, 0, 9, 9, 2, 2,
     13, 11, 2, 12, 12, 2, 2, 0, 2, 2, 2, 9, 2, 13, 13, 2, 2, 2, 13, 13, 13, 13],
      [0, 0, 0, 0, 0, 0, 0, 0, 0, 0, 0, 0, 0, 0, 0, 0, 0, 0, 0, 0, 0, 0, 0, 0, 0, 0, 0, 0, 0, 0, 0, 0, 0, 0, 0, 0, 0,
     0, 0, 0, 0, 0, 0, 0, 0, 0, 0, 0, 0, 0, 0, 0, 0, 0, 0, 14, 0, 0, 0],
      [0, 0, 0, 0, 0, 0, 0, 0, 0, 0, 0, 0, 0, 0, 0, 0, 0, 0, 0, 0, 0, 0, 0, 0, 0, 0, 0, 0, 0, 0, 0, 0, 0, 0, 0, 0, 0,
     15, 0, 0, 0, 0, 0, 0, 0, 0, 0, 0, 0, 0, 15, 15, 0, 0, 0, 16, 16, 15, 15],
      [2, 2, 2, 2, 2, 3, 2, 2, 2, 3, 2, 2, 2, 2, 2, 2, 2, 2, 2, 2, 2, 3, 2, 2, 2, 2, 4, 2, 5, 6, 2, 7, 8, 17, 9, 2, 2,
     18, 11, 2, 12, 12, 2, 2, 0, 2, 2, 2, 9, 2, 18, 18, 2, 2, 2, 18, 10, 18, 18],
      [0, 0, 0, 0, 0, 0, 0, 0, 19, 0, 0, 0, 0, 0, 0, 0, 0, 0, 0, 0, 0, 0, 0, 0, 0, 0, 0, 0, 0, 0, 0, 0, 0, 0, 0, 0, 0,
     0, 0, 0, 0, 0, 0, 0, 0, 0, 0, 0, 0, 0, 0, 0, 0, 0, 0, 0, 0, 0, 0],
      [0, 0, 0, 0, 0, 0, 0, 0, 0, 0, 0, 0, 0, 0, 0, 0, 0, 0, 0, 0, 0, 0, 0, 0, 0, 0, 0, 0, 0, 0, 0, 0, 0, 0, 0, 0, 0,
     0, 0, 0, 0, 0, 0, 0, 0, 0, 0, 0, 0, 0, 0, 0, 0, 0, 0, 0, 0, 0, 20],
      [0, 0, 0, 0, 0, 0, 0, 0, 0, 0, 0, 0, 0, 0, 0, 0, 0, 0, 0, 0, 0, 0, 0, 0, 0, 0, 0, 0, 0, 0, 0, 0, 0, 0, 0, 0, 0,
     21, 0, 0, 0, 0, 0, 0, 0, 0, 0, 0, 0, 0, 21, 21, 0, 0, 0, 21, 21, 21, 21],
      [2, 2, 2, 2, 22, 3, 2, 2, 23, 3, 2, 2, 2, 2, 2, 2, 2, 2, 2, 2, 2, 3, 2, 2, 2, 2, 4, 2, 5, 6, 2, 7, 8, 9, 9, 2,
     2, 24, 11, 2, 12, 12, 2, 2, 0, 2, 2, 2, 9, 2, 24, 24, 2, 2, 2, 25, 25, 24, 26],
      [0, 0, 0, 0, 0, 0, 0, 0, 0, 0, 0, 0, 0, 0, 0, 0, 0, 0, 0, 0, 0, 0, 0, 0, 0, 0, 0, 0, 0, 0, 0, 0, 0, 0, 0, 0, 0,
     27, 0, 0, 0, 0, 0, 0, 0, 0, 0, 0, 0, 0, 27, 27, 0, 0, 0, 28, 28, 27, 27],
      [0, 0, 0, 0, 0, 0, 0, 0, 0, 0, 0, 0, 0, 0, 0, 0, 0, 0, 0, 0, 0, 0, 0, 0, 0, 0, 0, 0, 0, 0, 0, 0, 0, 0, 0, 0, 0,
     29, 0, 0, 0, 0, 0, 0, 0, 0, 0, 0, 0, 0, 29, 29, 0, 0, 0, 30, 30, 29, 29],
      [2, 2, 2, 2, 31, 3, 2, 2, 23, 3, 2, 2, 2, 2, 2, 2, 2, 2, 2, 2, 2, 3, 2, 2, 2, 2, 4, 2, 5, 6, 2, 7, 0, 9, 9, 2,
     2, 32, 11, 2, 12, 12, 2, 2, 0, 2, 2, 2, 9, 2, 32, 32, 2, 2, 2, 33, 33, 32, 32],
      [0, 0, 0, 2, 0, 0, 0, 0, 0, 0, 0, 0, 0, 0, 0, 2, 0, 0, 0, 0, 0, 0, 0, 0, 0, 0, 0, 0, 0, 0, 0, 0, 0, 0, 0, 0, 0,
     0, 0, 0, 0, 0, 0, 0, 0, 0, 0, 0, 0, 0, 0, 0, 0, 0, 0, 0, 0, 0, 0],
      [0, 0, 0, 0, 34, 0, 0, 0, 0, 0, 0, 0, 0, 0, 0, 0, 0, 0, 0, 0, 0, 0, 0, 0, 0, 0, 0, 0, 0, 0, 0, 0, 0, 0, 0, 0, 0,
     0, 0, 0, 0, 0, 0, 0, 0, 0, 0, 0, 0, 0, 0, 0, 0, 0, 0, 0, 0, 0, 0],
      [0, 0, 0, 0, 0, 0, 0, 0, 0, 0, 0, 0, 0, 0, 0, 0, 0, 0, 0, 0, 0, 0, 0, 0, 0, 0, 0, 0, 0, 6, 0, 0, 0, 0, 0, 0, 0,
     0, 0, 0, 0, 0, 0, 0, 0, 0, 0, 0, 0, 0, 0, 0, 0, 0, 0, 0, 0, 0, 0],
      [0, 0, 0, 0, 0, 0, 0, 0, 0, 0, 0, 0, 0, 0, 0, 0, 0, 0, 0, 0, 0, 0, 0, 0, 0, 0, 0, 0, 0, 0, 2, 0, 0, 0, 0, 0, 0,
     0, 11, 0, 0, 0, 0, 0, 0, 0, 0, 0, 0, 0, 0, 0, 0, 0, 0, 0, 0, 0, 0],
      [2, 2, 2, 2, 22, 3, 2, 2, 23, 3, 2, 2, 2, 2, 2, 2, 2, 2, 2, 2, 2, 3, 2, 2, 2, 2, 4, 2, 5, 6, 0, 7, 8, 9, 9, 2,
     2, 24, 0, 2, 12, 12, 2, 2, 0, 2, 2, 2, 9, 2, 24, 24, 2, 2, 2, 25, 25, 24, 26],
      [0, 0, 0, 0, 0, 0, 0, 0, 0, 0, 0, 0, 0, 0, 0, 0, 0, 0, 0, 0, 0, 0, 0, 0, 0, 0, 0, 0, 0, 0, 0, 0, 0, 0, 0, 0, 0,
     0, 0, 0, 0, 0, 0, 0, 0, 0, 0, 0, 0, 0, 0, 0, 0, 0, 0, 35, 0, 0, 0],
      [0, 0, 0, 0, 0, 0, 0, 0, 0, 0, 0, 0, 0, 36, 0, 0, 0, 0, 0, 0, 0, 0, 0, 0, 0, 0, 0, 0, 0, 0, 0, 0, 0, 0, 0, 0, 0,
     0, 0, 0, 0, 0, 0, 0, 0, 0, 0, 0, 0, 0, 0, 0, 0, 0, 0, 0, 0, 0, 0],
      [0, 0, 0, 0, 0, 0, 0, 0, 37, 0, 0, 0, 0, 0, 0, 0, 0, 0, 0, 0, 0, 0, 0, 0, 0, 0, 0, 0, 0, 0, 0, 0, 0, 0, 0, 0, 0,
     0, 0, 0, 0, 0, 0, 0, 0, 0, 0, 0, 0, 0, 0, 0, 0, 0, 0, 0, 0, 0, 0],
      [2, 2, 2, 2, 2, 3, 2, 2, 2, 3, 2, 2, 2, 2, 2, 2, 2, 2, 2, 2, 2, 3, 2, 2, 2, 2, 4, 2, 5, 6, 2, 7, 8, 9, 9, 2, 2,
     10, 11, 2, 12, 12, 2, 2, 0, 2, 2, 2, 9, 2, 10, 10, 2, 2, 2, 10, 10, 10, 10],
      [2, 2, 2, 2, 2, 3, 2, 2, 2, 3, 2, 2, 0, 2, 2, 2, 2, 2, 2, 2, 2, 3, 2, 2, 2, 2, 4, 2, 5, 6, 2, 7, 8, 9, 9, 2, 2,
     10, 11, 2, 12, 12, 2, 2, 0, 2, 2, 2, 9, 2, 10, 10, 2, 2, 2, 38, 10, 10, 10],
      [2, 2, 2, 2, 39, 3, 2, 2, 40, 3, 2, 2, 2, 2, 2, 2, 2, 2, 2, 2, 2, 3, 2, 2, 2, 2, 4, 2, 5, 6, 2, 7, 8, 9, 9, 2,
     2, 24, 11, 2, 12, 12, 2, 2, 0, 2, 2, 2, 9, 2, 24, 24, 2, 2, 2, 25, 25, 24, 26],
      [2, 2, 2, 0, 39, 3, 0, 2, 40, 3, 2, 2, 2, 2, 2, 0, 2, 2, 2, 2, 2, 3, 2, 2, 2, 2, 4, 2, 5, 0, 2, 7, 8, 9, 9, 2,
     2, 24, 11, 2, 12, 12, 2, 2, 0, 2, 2, 2, 9, 2, 24, 24, 2, 2, 2, 25, 25, 24, 26],
      [2, 2, 2, 2, 39, 3, 2, 2, 40, 3, 2, 2, 2, 41, 2, 2, 2, 2, 2, 2, 2, 3, 2, 2, 2, 2, 4, 2, 5, 6, 2, 7, 8, 9, 9, 2,
     2, 24, 11, 2, 12, 12, 2, 2, 0, 2, 2, 2, 9, 2, 24, 24, 2, 2, 2, 25, 25, 24, 26],
      [0, 0, 0, 0, 42, 0, 0, 0, 0, 0, 0, 0, 0, 0, 0, 0, 0, 0, 0, 0, 0, 0, 0, 0, 0, 0, 0, 0, 0, 0, 0, 0, 0, 0, 0, 0, 0,
     0, 0, 0, 0, 0, 0, 0, 0, 0, 0, 0, 0, 0, 0, 0, 0, 0, 0, 0, 0, 0, 0],
      [0, 0, 0, 2, 0, 0, 0, 0, 0, 0, 0, 0, 0, 0, 0, 0, 0, 0, 0, 0, 0, 0, 0, 0, 0, 0, 0, 0, 0, 0, 0, 0, 0, 0, 0, 0, 0,
     0, 0, 0, 0, 0, 0, 0, 0, 0, 0, 0, 0, 0, 0, 0, 0, 0, 0, 0, 0, 0, 0],
      [0, 0, 0, 0, 43, 0, 0, 0, 0, 0, 0, 0, 0, 0, 0, 0, 0, 0, 0, 0, 0, 0, 0, 0, 0, 0, 0, 0, 0, 0, 0, 0, 0, 0, 0, 0, 0,
     0, 0, 0, 0, 0, 0, 0, 0, 0, 0, 0, 0, 0, 0, 0, 0, 0, 0, 0, 0, 0, 0],
      [0, 0, 0, 0, 43, 0, 2, 0, 0, 0, 0, 0, 0, 0, 0, 0, 0, 0, 0, 0, 0, 0, 0, 0, 0, 0, 0, 0, 0, 0, 0, 0, 0, 0, 0, 0, 0,
     0, 0, 0, 0, 0, 0, 0, 0, 0, 0, 0, 0, 0, 0, 0, 0, 0, 0, 0, 0, 0, 0],
      [0, 0, 0, 0, 0, 0, 0, 0, 0, 0, 0, 0, 0, 0, 0, 0, 0, 0, 0, 0, 0, 0, 0, 0, 0, 0, 0, 0, 0, 0, 0, 0, 0, 0, 0, 0, 0,
     13, 0, 0, 0, 0, 0, 0, 0, 0, 0, 0, 0, 0, 13, 13, 0, 0, 0, 13, 13, 13, 13],
      [2, 2, 2, 2, 44, 3, 2, 2, 40, 3, 2, 2, 2, 2, 2, 2, 2, 2, 2, 2, 2, 3, 2, 2, 2, 2, 4, 2, 5, 6, 2, 7, 0, 9, 9, 2,
     2, 32, 11, 2, 12, 12, 2, 2, 0, 2, 2, 2, 9, 2, 32, 32, 2, 2, 2, 33, 33, 32, 32],
      [2, 2, 2, 0, 44, 3, 0, 2, 40, 3, 2, 2, 2, 2, 2, 0, 2, 2, 2, 2, 2, 3, 2, 2, 2, 2, 4, 2, 5, 0, 2, 7, 0, 9, 9, 2,
     2, 32, 11, 2, 12, 12, 2, 2, 0, 2, 2, 2, 9, 2, 32, 32, 2, 2, 2, 33, 33, 32, 32],
      [0, 0, 0, 0, 0, 0, 0, 0, 0, 0, 0, 0, 0, 0, 0, 0, 0, 0, 0, 0, 0, 0, 0, 0, 0, 0, 0, 0, 0, 0, 0, 0, 0, 0, 0, 0, 0,
     0, 0, 0, 0, 0, 0, 0, 0, 0, 0, 0, 0, 0, 0, 0, 0, 0, 0, 16, 16, 0, 0],
      [0, 0, 0, 2, 0, 0, 0, 0, 0, 0, 0, 0, 0, 0, 0, 0, 0, 0, 0, 0, 0, 0, 0, 0, 0, 0, 0, 0, 0, 0, 0, 0, 0, 0, 0, 0, 0,
     0, 0, 0, 0, 0, 0, 0, 0, 0, 0, 0, 0, 0, 0, 0, 0, 0, 0, 0, 0, 0, 0],
      [2, 2, 2, 2, 2, 3, 2, 2, 2, 3, 2, 2, 2, 2, 2, 2, 2, 2, 2, 2, 2, 3, 2, 2, 2, 2, 4, 2, 5, 6, 2, 7, 8, 0, 0, 2, 2,
     10, 0, 2, 12, 12, 2, 2, 0, 2, 2, 2, 0, 2, 10, 10, 2, 2, 2, 10, 10, 10, 10],
      [0, 0, 0, 0, 0, 0, 0, 0, 0, 2, 0, 0, 2, 0, 0, 0, 0, 0, 0, 0, 0, 0, 0, 0, 0, 0, 0, 0, 0, 0, 0, 0, 0, 0, 0, 0, 0,
     0, 0, 0, 0, 0, 0, 0, 0, 0, 0, 0, 0, 0, 0, 0, 0, 0, 0, 45, 0, 0, 0],
      [2, 2, 2, 0, 2, 3, 2, 2, 23, 3, 2, 2, 2, 2, 2, 2, 2, 2, 2, 2, 2, 3, 2, 2, 2, 2, 4, 2, 5, 6, 2, 7, 8, 9, 9, 2, 2,
     24, 11, 2, 12, 12, 2, 2, 0, 2, 2, 2, 9, 2, 24, 24, 2, 2, 2, 25, 25, 24, 26],
      [2, 2, 2, 2, 2, 3, 2, 2, 2, 3, 2, 2, 2, 2, 2, 2, 2, 2, 2, 2, 2, 3, 2, 2, 2, 2, 4, 2, 5, 6, 2, 7, 8, 9, 9, 2, 2,
     24, 11, 2, 12, 12, 2, 2, 0, 2, 2, 2, 9, 2, 24, 24, 2, 2, 2, 25, 25, 24, 24],
      [2, 2, 2, 2, 2, 3, 2, 2, 2, 0, 2, 2, 0, 2, 2, 2, 2, 2, 2, 2, 2, 3, 2, 2, 2, 2, 4, 2, 5, 6, 2, 7, 8, 9, 9, 2, 2,
     10, 11, 2, 12, 12, 2, 2, 0, 2, 2, 2, 9, 2, 10, 10, 2, 2, 2, 46, 10, 10, 10],
      [0, 0, 0, 0, 0, 0, 0, 0, 0, 0, 0, 0, 0, 0, 0, 0, 0, 0, 0, 0, 0, 0, 0, 0, 0, 0, 0, 0, 0, 0, 0, 0, 0, 9, 9, 0, 0,
     0, 11, 0, 0, 0, 0, 0, 0, 0, 0, 0, 9, 0, 0, 0, 0, 0, 0, 0, 0, 0, 0],
      [0, 0, 0, 0, 0, 0, 0, 0, 0, 0, 0, 0, 0, 0, 0, 0, 0, 0, 0, 0, 0, 0, 0, 0, 0, 0, 0, 0, 0, 0, 0, 0, 0, 0, 0, 0, 0,
     0, 0, 0, 0, 0, 0, 0, 0, 0, 0, 0, 0, 0, 0, 0, 0, 0, 0, 28, 28, 0, 0],
      [0, 0, 0, 0, 0, 0, 0, 0, 0, 0, 0, 0, 0, 0, 0, 0, 0, 0, 0, 0, 0, 0, 0, 0, 0, 0, 0, 0, 0, 0, 0, 0, 0, 0, 0, 0, 0,
     0, 0, 0, 0, 0, 0, 0, 0, 0, 0, 0, 0, 0, 0, 0, 0, 0, 0, 30, 30, 0, 0],
      [0, 0, 0, 0, 0, 0, 0, 0, 0, 0, 0, 0, 0, 0, 0, 0, 0, 0, 0, 0, 0, 0, 0, 0, 0, 0, 0, 0, 0, 0, 0, 0, 0, 0, 0, 0, 0,
     32, 0, 0, 0, 0, 0, 0, 0, 0, 0, 0, 0, 0, 32, 32, 0, 0, 0, 33, 33, 32, 32],
      [0, 0, 0, 2, 0, 0, 0, 0, 0, 0, 0, 0, 0, 0, 0, 0, 0, 0, 0, 0, 0, 0, 0, 0, 0, 0, 0, 0, 0, 0, 0, 0, 0, 0, 0, 0, 0,
     0, 0, 0, 0, 0, 0, 0, 0, 0, 0, 0, 0, 0, 0, 0, 0, 0, 0, 0, 0, 0, 0],
      [2, 2, 2, 0, 2, 3, 2, 2, 23, 3, 2, 2, 2, 2, 2, 2, 2, 2, 2, 2, 2, 3, 2, 2, 2, 2, 4, 2, 5, 6, 2, 7, 8, 9, 9, 2, 2,
     24, 11, 2, 12, 12, 2, 2, 0, 2, 2, 2, 9, 2, 24, 24, 2, 2, 2, 25, 25, 24, 26]]

/-- for each nonterminal and each state, the set of states (one bit each) behind it -/
def firstPassSets : List (List Nat) :=
  [[140737488355327, 140737488355327, 1024, 8192, 140737488355327, 32768, 262144, 140737488355327, 140737488355327,
     2097152, 16777216, 134217728, 140737488355327, 4294967296, 140737488355327, 140737488355327, 140737488355327,
     140737488355327, 16777216, 140737488355327, 140737488355327, 140737488355327, 1024, 1024, 16777216, 16777216,
     16777216, 140737488355327, 140737488355327, 140737488355327, 140737488355327, 8192, 4294967296, 4294967296,
     140737488355327, 140737488355327, 1024, 140737488355327, 16777216, 16777216, 1024, 140737488355327,
     140737488355327, 140737488355327, 4294967296, 140737488355327, 140737488355327],
      [140737488355327, 140737488355327, 1024, 8192, 140737488355327, 32768, 262144, 140737488355327, 140737488355327,
     2097152, 16777216, 134217728, 140737488355327, 4294967296, 140737488355327, 140737488355327, 140737488355327,
     140737488355327, 16777216, 140737488355327, 140737488355327, 140737488355327, 1024, 1024, 16777216, 16777216,
     16777216, 140737488355327, 140737488355327, 140737488355327, 140737488355327, 8192, 4294967296, 4294967296,
     140737488355327, 140737488355327, 1024, 140737488355327, 16777216, 16777216, 1024, 140737488355327,
     140737488355327, 140737488355327, 4294967296, 140737488355327, 140737488355327],
      [140737488355327, 140737488355327, 1024, 140737488355327, 140737488355327, 140737488355327, 140737488355327,
     140737488355327, 140737488355327, 140737488355327, 16778240, 140737488355327, 140737488355327, 140737488355327,
     140737488355327, 140737488355327, 140737488355327, 140737488355327, 140737488355327, 140737488355327,
     140737488355327, 140737488355327, 140737488355327, 140737488355327, 16778240, 140737488355327, 140737488355327,
     140737488355327, 140737488355327, 140737488355327, 140737488355327, 140737488355327, 140737488355327,
     140737488355327, 140737488355327, 140737488355327, 140737488355327, 140737488355327, 140737488355327,
     140737488355327, 140737488355327, 140737488355327, 140737488355327, 140737488355327, 140737488355327,
     140737488355327, 140737488355327],
      [140737488355327, 140737488355327, 16778240, 140737488355327, 140737488355327, 140737488355327, 140737488355327,
     140737488355327, 140737488355327, 140737488355327, 140737488355327, 140737488355327, 140737488355327,
     140737488355327, 140737488355327, 140737488355327, 140737488355327, 140737488355327, 140737488355327,
     140737488355327, 140737488355327, 140737488355327, 140737488355327, 140737488355327, 140737488355327,
     140737488355327, 140737488355327, 140737488355327, 140737488355327, 140737488355327, 140737488355327,
     140737488355327, 140737488355327, 140737488355327, 140737488355327, 140737488355327, 140737488355327,
     140737488355327, 140737488355327, 140737488355327, 140737488355327, 140737488355327, 140737488355327,
     140737488355327, 140737488355327, 140737488355327, 140737488355327],
      [140737488355327, 140737488355327, 1024, 9216, 140737488355327, 140737488355327, 263168, 140737488355327,
     140737488355327, 140737488355327, 16778240, 140737488355327, 140737488355327, 4294968320, 140737488355327,
     140737488355327, 140737488355327, 140737488355327, 140737488355327, 140737488355327, 140737488355327,
     140737488355327, 1024, 1024, 16778240, 16778240, 16778240, 140737488355327, 140737488355327, 140737488355327,
     140737488355327, 140737488355327, 4294968320, 4294968320, 140737488355327, 140737488355327, 1024,
     140737488355327, 140737488355327, 140737488355327, 1024, 140737488355327, 140737488355327, 140737488355327,
     140737488355327, 140737488355327, 140737488355327],
      [140737488355327, 140737488355327, 1024, 8192, 140737488355327, 65536, 263168, 140737488355327, 140737488355327,
     140737488355327, 33554432, 268435456, 140737488355327, 8589934592, 140737488355327, 140737488355327,
     140737488355327, 140737488355327, 33554432, 140737488355327, 140737488355327, 140737488355327, 1024,
     274877907968, 140737488355327, 33554432, 140737488355327, 140737488355327, 140737488355327, 140737488355327,
     140737488355327, 140737488355327, 140737488355327, 8589934592, 140737488355327, 140737488355327, 1024,
     140737488355327, 33554432, 140737488355327, 140737488355327, 140737488355327, 140737488355327, 140737488355327,
     140737488355327, 140737488355327, 140737488355327],
      [140737488355327, 140737488355327, 8623498248, 140737488355327, 140737488355327, 140737488355327,
     140737488355327, 140737488355327, 140737488355327, 140737488355327, 8623497224, 140737488355327, 140737488355327,
     140737488355327, 140737488355327, 140737488355327, 140737488355327, 140737488355327, 140737488355327,
     140737488355327, 140737488355327, 140737488355327, 140737488355327, 140737488355327, 140737488355327,
     140737488355327, 140737488355327, 140737488355327, 140737488355327, 140737488355327, 140737488355327,
     140737488355327, 140737488355327, 140737488355327, 140737488355327, 140737488355327, 140737488355327,
     140737488355327, 140737488355327, 140737488355327, 140737488355327, 140737488355327, 140737488355327,
     140737488355327, 140737488355327, 140737488355327, 140737488355327],
      [140737488355327, 140737488355327, 4378862604, 140737488355327, 140737488355327, 140737488355327,
     140737488355327, 140737488355327, 140737488355327, 140737488355327, 140737488355327, 140737488355327,
     140737488355327, 140737488355327, 140737488355327, 140737488355327, 140737488355327, 140737488355327,
     140737488355327, 140737488355327, 140737488355327, 140737488355327, 4378862604, 4378862604, 140737488355327,
     140737488355327, 140737488355327, 140737488355327, 140737488355327, 140737488355327, 140737488355327,
     140737488355327, 140737488355327, 140737488355327, 140737488355327, 140737488355327, 140737488355327,
     140737488355327, 140737488355327, 140737488355327, 4378862604, 140737488355327, 140737488355327, 140737488355327,
     140737488355327, 140737488355327, 140737488355327],
      [140737488355327, 140737488355327, 4378862604, 140737488355327, 140737488355327, 140737488355327,
     140737488355327, 140737488355327, 140737488355327, 140737488355327, 140737488355327, 140737488355327,
     140737488355327, 140737488355327, 140737488355327, 140737488355327, 140737488355327, 140737488355327,
     140737488355327, 140737488355327, 140737488355327, 140737488355327, 140737488355327, 4378862604, 140737488355327,
     140737488355327, 140737488355327, 140737488355327, 140737488355327, 140737488355327, 140737488355327,
     140737488355327, 140737488355327, 140737488355327, 140737488355327, 140737488355327, 140737488355327,
     140737488355327, 140737488355327, 140737488355327, 4378862604, 140737488355327, 140737488355327, 140737488355327,
     140737488355327, 140737488355327, 140737488355327],
      [140737488355327, 140737488355327, 4378862604, 140737488355327, 140737488355327, 140737488355327,
     140737488355327, 140737488355327, 140737488355327, 140737488355327, 140737488355327, 140737488355327,
     140737488355327, 140737488355327, 140737488355327, 140737488355327, 140737488355327, 140737488355327,
     140737488355327, 140737488355327, 140737488355327, 140737488355327, 140737488355327, 4378862604, 140737488355327,
     140737488355327, 140737488355327, 140737488355327, 140737488355327, 140737488355327, 140737488355327,
     140737488355327, 140737488355327, 140737488355327, 140737488355327, 140737488355327, 140737488355327,
     140737488355327, 140737488355327, 140737488355327, 4378862604, 140737488355327, 140737488355327, 140737488355327,
     140737488355327, 140737488355327, 140737488355327],
      [140737488355327, 140737488355327, 16786444, 16786444, 140737488355327, 140737488355327, 140737488355327,
     140737488355327, 140737488355327, 140737488355327, 83895308, 140737488355327, 140737488355327, 4311753740,
     140737488355327, 140737488355327, 140737488355327, 140737488355327, 140737488355327, 140737488355327,
     140737488355327, 140737488355327, 140737488355327, 140737488355327, 83895308, 140737488355327, 83895308,
     140737488355327, 140737488355327, 140737488355327, 140737488355327, 140737488355327, 4311753740, 140737488355327,
     140737488355327, 140737488355327, 140737488355327, 140737488355327, 140737488355327, 140737488355327,
     140737488355327, 140737488355327, 140737488355327, 140737488355327, 140737488355327, 140737488355327,
     140737488355327],
      [140737488355327, 140737488355327, 4, 4, 140737488355327, 140737488355327, 140737488355327, 140737488355327,
     140737488355327, 140737488355327, 4, 140737488355327, 140737488355327, 4, 140737488355327, 140737488355327,
     140737488355327, 140737488355327, 140737488355327, 140737488355327, 140737488355327, 140737488355327, 4, 4, 4,
     140737488355327, 4, 140737488355327, 140737488355327, 140737488355327, 140737488355327, 140737488355327, 4,
     140737488355327, 140737488355327, 140737488355327, 140737488355327, 140737488355327, 140737488355327,
     140737488355327, 4, 140737488355327, 140737488355327, 140737488355327, 140737488355327, 140737488355327,
     140737488355327],
      [140737488355327, 140737488355327, 140737488355327, 140737488355327, 140737488355327, 140737488355327,
     140737488355327, 140737488355327, 140737488355327, 140737488355327, 140737488355327, 140737488355327,
     140737488355327, 140737488355327, 140737488355327, 140737488355327, 140737488355327, 4378862604, 140737488355327,
     140737488355327, 140737488355327, 140737488355327, 140737488355327, 140737488355327, 140737488355327,
     140737488355327, 140737488355327, 140737488355327, 140737488355327, 140737488355327, 140737488355327,
     140737488355327, 140737488355327, 140737488355327, 140737488355327, 140737488355327, 140737488355327,
     140737488355327, 140737488355327, 140737488355327, 140737488355327, 140737488355327, 140737488355327,
     140737488355327, 140737488355327, 140737488355327, 140737488355327],
      [140737488355327, 140737488355327, 4378862604, 4378862604, 140737488355327, 140737488355327, 140737488355327,
     140737488355327, 140737488355327, 140737488355327, 4378862604, 140737488355327, 140737488355327, 4378862604,
     140737488355327, 140737488355327, 140737488355327, 140737488355327, 140737488355327, 140737488355327,
     140737488355327, 140737488355327, 140737488355327, 140737488355327, 4378862604, 140737488355327, 4378862604,
     140737488355327, 140737488355327, 140737488355327, 140737488355327, 140737488355327, 4378862604, 140737488355327,
     140737488355327, 140737488355327, 140737488355327, 140737488355327, 140737488355327, 140737488355327,
     140737488355327, 140737488355327, 140737488355327, 140737488355327, 140737488355327, 140737488355327,
     140737488355327],
      [140737488355327, 140737488355327, 4378862604, 140737488355327, 140737488355327, 140737488355327,
     140737488355327, 140737488355327, 140737488355327, 140737488355327, 140737488355327, 140737488355327,
     140737488355327, 140737488355327, 140737488355327, 140737488355327, 140737488355327, 4378862604, 140737488355327,
     140737488355327, 140737488355327, 140737488355327, 140737488355327, 140737488355327, 140737488355327,
     140737488355327, 140737488355327, 140737488355327, 140737488355327, 140737488355327, 140737488355327,
     140737488355327, 140737488355327, 140737488355327, 140737488355327, 140737488355327, 140737488355327,
     140737488355327, 140737488355327, 140737488355327, 140737488355327, 140737488355327, 140737488355327,
     140737488355327, 140737488355327, 140737488355327, 140737488355327],
      [140737488355327, 140737488355327, 1036, 140737488355327, 140737488355327, 140737488355327, 140737488355327,
     140737488355327, 140737488355327, 140737488355327, 140737488355327, 140737488355327, 140737488355327,
     140737488355327, 140737488355327, 140737488355327, 140737488355327, 140737488355327, 140737488355327,
     140737488355327, 140737488355327, 140737488355327, 140737488355327, 140737488355327, 140737488355327,
     140737488355327, 140737488355327, 140737488355327, 140737488355327, 140737488355327, 140737488355327,
     140737488355327, 140737488355327, 140737488355327, 140737488355327, 140737488355327, 140737488355327,
     140737488355327, 140737488355327, 140737488355327, 140737488355327, 140737488355327, 140737488355327,
     140737488355327, 140737488355327, 140737488355327, 140737488355327],
      [140737488355327, 140737488355327, 16786444, 16786444, 140737488355327, 140737488355327, 140737488355327,
     140737488355327, 140737488355327, 140737488355327, 16786444, 140737488355327, 140737488355327, 140737488355327,
     140737488355327, 140737488355327, 140737488355327, 140737488355327, 140737488355327, 140737488355327,
     140737488355327, 140737488355327, 140737488355327, 16786444, 140737488355327, 140737488355327, 140737488355327,
     140737488355327, 140737488355327, 140737488355327, 140737488355327, 140737488355327, 140737488355327,
     140737488355327, 140737488355327, 140737488355327, 140737488355327, 140737488355327, 140737488355327,
     140737488355327, 16786444, 140737488355327, 140737488355327, 140737488355327, 140737488355327, 140737488355327,
     140737488355327],
      [140737488355327, 140737488355327, 16786444, 16786444, 140737488355327, 140737488355327, 140737488355327,
     140737488355327, 140737488355327, 140737488355327, 16786444, 140737488355327, 140737488355327, 4311753740,
     140737488355327, 140737488355327, 140737488355327, 140737488355327, 140737488355327, 140737488355327,
     140737488355327, 140737488355327, 140737488355327, 140737488355327, 16786444, 140737488355327, 140737488355327,
     140737488355327, 140737488355327, 140737488355327, 140737488355327, 140737488355327, 4311753740, 140737488355327,
     140737488355327, 140737488355327, 140737488355327, 140737488355327, 140737488355327, 140737488355327,
     140737488355327, 140737488355327, 140737488355327, 140737488355327, 140737488355327, 140737488355327,
     140737488355327],
      [140737488355327, 2212025607180, 140737488355327, 140737488355327, 140737488355327, 140737488355327,
     140737488355327, 140737488355327, 140737488355327, 140737488355327, 140737488355327, 140737488355327,
     140737488355327, 140737488355327, 140737488355327, 140737488355327, 140737488355327, 140737488355327,
     140737488355327, 140737488355327, 140737488355327, 140737488355327, 140737488355327, 140737488355327,
     140737488355327, 140737488355327, 140737488355327, 140737488355327, 140737488355327, 140737488355327,
     140737488355327, 140737488355327, 140737488355327, 140737488355327, 140737488355327, 140737488355327,
     140737488355327, 140737488355327, 140737488355327, 140737488355327, 140737488355327, 140737488355327,
     140737488355327, 140737488355327, 140737488355327, 140737488355327, 140737488355327],
      [140737488355327, 140737488355327, 13002351628, 140737488355327, 140737488355327, 140737488355327,
     140737488355327, 140737488355327, 140737488355327, 140737488355327, 13002351628, 140737488355327,
     140737488355327, 140737488355327, 140737488355327, 140737488355327, 140737488355327, 140737488355327,
     140737488355327, 140737488355327, 140737488355327, 140737488355327, 140737488355327, 140737488355327,
     13002351628, 140737488355327, 140737488355327, 140737488355327, 140737488355327, 140737488355327,
     140737488355327, 140737488355327, 140737488355327, 140737488355327, 140737488355327, 140737488355327,
     140737488355327, 140737488355327, 140737488355327, 140737488355327, 140737488355327, 140737488355327,
     140737488355327, 140737488355327, 140737488355327, 140737488355327, 140737488355327],
      [140737488355327, 140737488355327, 13002351628, 13002351628, 140737488355327, 140737488355327, 140737488355327,
     140737488355327, 140737488355327, 140737488355327, 13002351628, 140737488355327, 140737488355327, 13002351628,
     140737488355327, 140737488355327, 140737488355327, 140737488355327, 140737488355327, 140737488355327,
     140737488355327, 140737488355327, 140737488355327, 140737488355327, 13002351628, 13002351628, 13002351628,
     140737488355327, 140737488355327, 140737488355327, 140737488355327, 140737488355327, 13002351628, 13002351628,
     140737488355327, 140737488355327, 140737488355327, 140737488355327, 140737488355327, 140737488355327,
     140737488355327, 140737488355327, 140737488355327, 140737488355327, 140737488355327, 140737488355327,
     140737488355327],
      [140737488355327, 140737488355327, 4378862604, 140737488355327, 140737488355327, 140737488355327,
     140737488355327, 140737488355327, 140737488355327, 140737488355327, 140737488355327, 4378862604, 140737488355327,
     140737488355327, 140737488355327, 140737488355327, 140737488355327, 140737488355327, 140737488355327,
     140737488355327, 140737488355327, 140737488355327, 140737488355327, 140737488355327, 140737488355327,
     140737488355327, 140737488355327, 140737488355327, 140737488355327, 140737488355327, 140737488355327,
     140737488355327, 140737488355327, 140737488355327, 140737488355327, 140737488355327, 140737488355327, 4378862604,
     140737488355327, 140737488355327, 140737488355327, 140737488355327, 140737488355327, 140737488355327,
     140737488355327, 140737488355327, 140737488355327],
      [140737488355327, 140737488355327, 140737488355327, 140737488355327, 140737488355327, 140737488355327,
     140737488355327, 140737488355327, 140737488355327, 140737488355327, 4378862604, 140737488355327, 140737488355327,
     140737488355327, 4378862604, 140737488355327, 140737488355327, 140737488355327, 140737488355327, 140737488355327,
     140737488355327, 140737488355327, 140737488355327, 140737488355327, 140737488355327, 140737488355327,
     140737488355327, 140737488355327, 4378862604, 140737488355327, 140737488355327, 140737488355327, 140737488355327,
     140737488355327, 140737488355327, 4378862604, 140737488355327, 140737488355327, 140737488355327, 140737488355327,
     140737488355327, 140737488355327, 140737488355327, 140737488355327, 140737488355327, 4378862604,
     140737488355327],
      [140737488355327, 140737488355327, 4378862604, 4378862604, 140737488355327, 140737488355327, 140737488355327,
     140737488355327, 140737488355327, 140737488355327, 4378862604, 140737488355327, 140737488355327, 4378862604,
     140737488355327, 140737488355327, 140737488355327, 140737488355327, 140737488355327, 140737488355327,
     140737488355327, 140737488355327, 140737488355327, 140737488355327, 4378862604, 140737488355327, 4378862604,
     140737488355327, 140737488355327, 140737488355327, 140737488355327, 140737488355327, 4378862604, 140737488355327,
     140737488355327, 140737488355327, 140737488355327, 140737488355327, 140737488355327, 140737488355327,
     140737488355327, 140737488355327, 140737488355327, 140737488355327, 140737488355327, 140737488355327,
     140737488355327],
      [140737488355327, 140737488355327, 4311753740, 140737488355327, 140737488355327, 140737488355327,
     140737488355327, 140737488355327, 140737488355327, 140737488355327, 140737488355327, 140737488355327,
     140737488355327, 140737488355327, 140737488355327, 140737488355327, 140737488355327, 140737488355327,
     140737488355327, 140737488355327, 140737488355327, 140737488355327, 140737488355327, 4311753740, 140737488355327,
     140737488355327, 140737488355327, 140737488355327, 140737488355327, 140737488355327, 140737488355327,
     140737488355327, 140737488355327, 140737488355327, 140737488355327, 140737488355327, 140737488355327,
     140737488355327, 140737488355327, 140737488355327, 4311753740, 140737488355327, 140737488355327, 140737488355327,
     140737488355327, 140737488355327, 140737488355327],
      [140737488355327, 140737488355327, 140737488355327, 140737488355327, 140737488355327, 140737488355327,
     140737488355327, 140737488355327, 140737488355327, 140737488355327, 4, 140737488355327, 140737488355327,
     140737488355327, 140737488355327, 140737488355327, 140737488355327, 140737488355327, 4, 140737488355327,
     140737488355327, 140737488355327, 140737488355327, 140737488355327, 140737488355327, 140737488355327,
     140737488355327, 140737488355327, 140737488355327, 140737488355327, 140737488355327, 140737488355327,
     140737488355327, 140737488355327, 140737488355327, 140737488355327, 140737488355327, 140737488355327,
     140737488355327, 140737488355327, 140737488355327, 140737488355327, 140737488355327, 140737488355327,
     140737488355327, 140737488355327, 140737488355327],
      [140737488355327, 140737488355327, 13002351628, 140737488355327, 140737488355327, 140737488355327, 13002613772,
     140737488355327, 140737488355327, 140737488355327, 140737488355327, 140737488355327, 140737488355327,
     140737488355327, 140737488355327, 140737488355327, 140737488355327, 140737488355327, 140737488355327,
     140737488355327, 140737488355327, 140737488355327, 140737488355327, 140737488355327, 140737488355327,
     140737488355327, 140737488355327, 140737488355327, 140737488355327, 140737488355327, 140737488355327,
     140737488355327, 140737488355327, 140737488355327, 140737488355327, 140737488355327, 13002351628,
     140737488355327, 140737488355327, 140737488355327, 140737488355327, 140737488355327, 140737488355327,
     140737488355327, 140737488355327, 140737488355327, 140737488355327],
      [140737488355327, 140737488355327, 13002351628, 13002351628, 140737488355327, 140737488355327, 13002351628,
     140737488355327, 140737488355327, 140737488355327, 13002351628, 140737488355327, 140737488355327, 13002351628,
     140737488355327, 140737488355327, 140737488355327, 140737488355327, 140737488355327, 140737488355327,
     140737488355327, 140737488355327, 140737488355327, 140737488355327, 13002351628, 13002351628, 13002351628,
     140737488355327, 140737488355327, 140737488355327, 140737488355327, 140737488355327, 13002351628, 13002351628,
     140737488355327, 140737488355327, 140737488355327, 140737488355327, 140737488355327, 140737488355327,
     140737488355327, 140737488355327, 140737488355327, 140737488355327, 140737488355327, 140737488355327,
     140737488355327],
      [140737488355327, 140737488355327, 12935242760, 12935242760, 140737488355327, 140737488355327, 140737488355327,
     140737488355327, 140737488355327, 140737488355327, 140737488355327, 140737488355327, 140737488355327,
     140737488355327, 140737488355327, 140737488355327, 140737488355327, 140737488355327, 140737488355327,
     140737488355327, 140737488355327, 140737488355327, 140737488355327, 287813149704, 140737488355327,
     140737488355327, 140737488355327, 140737488355327, 140737488355327, 140737488355327, 140737488355327,
     140737488355327, 140737488355327, 140737488355327, 140737488355327, 140737488355327, 140737488355327,
     140737488355327, 140737488355327, 140737488355327, 70381679420424, 140737488355327, 140737488355327,
     140737488355327, 140737488355327, 140737488355327, 140737488355327],
      [140737488355327, 140737488355327, 140737488355327, 9224, 140737488355327, 140737488355327, 140737488355327,
     140737488355327, 140737488355327, 140737488355327, 50332680, 140737488355327, 140737488355327, 12884902920,
     140737488355327, 140737488355327, 140737488355327, 140737488355327, 140737488355327, 140737488355327,
     140737488355327, 140737488355327, 140737488355327, 140737488355327, 50332680, 50332680, 140737488355327,
     140737488355327, 140737488355327, 140737488355327, 140737488355327, 140737488355327, 12884902920, 12884902920,
     140737488355327, 140737488355327, 140737488355327, 140737488355327, 140737488355327, 140737488355327,
     140737488355327, 140737488355327, 140737488355327, 140737488355327, 140737488355327, 140737488355327,
     140737488355327],
      [140737488355327, 140737488355327, 16786444, 16786444, 140737488355327, 140737488355327, 140737488355327,
     140737488355327, 140737488355327, 140737488355327, 16786444, 140737488355327, 140737488355327, 16786444,
     140737488355327, 140737488355327, 140737488355327, 140737488355327, 140737488355327, 140737488355327,
     140737488355327, 140737488355327, 140737488355327, 140737488355327, 16786444, 140737488355327, 140737488355327,
     140737488355327, 140737488355327, 140737488355327, 140737488355327, 140737488355327, 140737488355327,
     140737488355327, 140737488355327, 140737488355327, 140737488355327, 140737488355327, 140737488355327,
     140737488355327, 140737488355327, 140737488355327, 140737488355327, 140737488355327, 140737488355327,
     140737488355327, 140737488355327],
      [140737488355327, 140737488355327, 16786444, 140737488355327, 140737488355327, 140737488355327, 140737488355327,
     140737488355327, 140737488355327, 140737488355327, 140737488355327, 140737488355327, 140737488355327,
     140737488355327, 140737488355327, 140737488355327, 140737488355327, 140737488355327, 140737488355327,
     140737488355327, 140737488355327, 140737488355327, 140737488355327, 140737488355327, 140737488355327,
     140737488355327, 140737488355327, 140737488355327, 140737488355327, 140737488355327, 140737488355327,
     140737488355327, 140737488355327, 140737488355327, 140737488355327, 140737488355327, 140737488355327,
     140737488355327, 140737488355327, 140737488355327, 140737488355327, 140737488355327, 140737488355327,
     140737488355327, 140737488355327, 140737488355327, 140737488355327],
      [140737488355327, 140737488355327, 16786444, 140737488355327, 140737488355327, 140737488355327, 17048588,
     140737488355327, 140737488355327, 140737488355327, 140737488355327, 140737488355327, 140737488355327,
     140737488355327, 140737488355327, 140737488355327, 140737488355327, 140737488355327, 140737488355327,
     140737488355327, 140737488355327, 140737488355327, 140737488355327, 140737488355327, 140737488355327,
     140737488355327, 140737488355327, 140737488355327, 140737488355327, 140737488355327, 140737488355327,
     140737488355327, 140737488355327, 140737488355327, 140737488355327, 140737488355327, 16786444, 140737488355327,
     140737488355327, 140737488355327, 140737488355327, 140737488355327, 140737488355327, 140737488355327,
     140737488355327, 140737488355327, 140737488355327],
      [140737488355327, 140737488355327, 16786444, 140737488355327, 140737488355327, 140737488355327, 16786444,
     140737488355327, 140737488355327, 140737488355327, 140737488355327, 140737488355327, 140737488355327,
     140737488355327, 140737488355327, 140737488355327, 140737488355327, 140737488355327, 140737488355327,
     140737488355327, 140737488355327, 140737488355327, 140737488355327, 140737488355327, 140737488355327,
     140737488355327, 140737488355327, 140737488355327, 140737488355327, 140737488355327, 140737488355327,
     140737488355327, 140737488355327, 140737488355327, 140737488355327, 140737488355327, 16786444, 140737488355327,
     140737488355327, 140737488355327, 140737488355327, 140737488355327, 140737488355327, 140737488355327,
     140737488355327, 140737488355327, 140737488355327],
      [140737488355327, 140737488355327, 13002351628, 13002351628, 140737488355327, 140737488355327, 140737488355327,
     140737488355327, 140737488355327, 140737488355327, 140737488355327, 140737488355327, 140737488355327,
     140737488355327, 140737488355327, 140737488355327, 140737488355327, 140737488355327, 140737488355327,
     140737488355327, 140737488355327, 140737488355327, 140737488355327, 140737488355327, 140737488355327,
     140737488355327, 140737488355327, 140737488355327, 140737488355327, 140737488355327, 140737488355327,
     140737488355327, 140737488355327, 140737488355327, 140737488355327, 140737488355327, 140737488355327,
     140737488355327, 140737488355327, 140737488355327, 140737488355327, 140737488355327, 140737488355327,
     140737488355327, 140737488355327, 140737488355327, 140737488355327],
      [140737488355327, 140737488355327, 13002351628, 13002351628, 140737488355327, 140737488355327, 140737488355327,
     140737488355327, 140737488355327, 140737488355327, 13002351628, 140737488355327, 140737488355327, 13002351628,
     140737488355327, 140737488355327, 140737488355327, 140737488355327, 140737488355327, 140737488355327,
     140737488355327, 140737488355327, 140737488355327, 140737488355327, 13002351628, 13002351628, 13002351628,
     140737488355327, 140737488355327, 140737488355327, 140737488355327, 140737488355327, 13002351628, 13002351628,
     140737488355327, 140737488355327, 140737488355327, 140737488355327, 140737488355327, 140737488355327,
     140737488355327, 140737488355327, 140737488355327, 140737488355327, 140737488355327, 140737488355327,
     140737488355327],
      [140737488355327, 140737488355327, 13002351628, 13002351628, 140737488355327, 140737488355327, 140737488355327,
     140737488355327, 140737488355327, 140737488355327, 140737488355327, 140737488355327, 140737488355327,
     140737488355327, 140737488355327, 140737488355327, 140737488355327, 140737488355327, 140737488355327,
     140737488355327, 140737488355327, 140737488355327, 140737488355327, 140737488355327, 140737488355327,
     140737488355327, 140737488355327, 140737488355327, 140737488355327, 140737488355327, 140737488355327,
     140737488355327, 140737488355327, 140737488355327, 140737488355327, 140737488355327, 140737488355327,
     140737488355327, 140737488355327, 140737488355327, 140737488355327, 140737488355327, 140737488355327,
     140737488355327, 140737488355327, 140737488355327, 140737488355327],
      [140737488355327, 140737488355327, 140737488355327, 140737488355327, 140737488355327, 140737488355327,
     140737488355327, 140737488355327, 140737488355327, 140737488355327, 8, 140737488355327, 140737488355327,
     140737488355327, 140737488355327, 140737488355327, 140737488355327, 140737488355327, 140737488355327,
     140737488355327, 140737488355327, 140737488355327, 140737488355327, 140737488355327, 140737488355327,
     140737488355327, 140737488355327, 140737488355327, 140737488355327, 140737488355327, 140737488355327,
     140737488355327, 140737488355327, 140737488355327, 140737488355327, 140737488355327, 140737488355327,
     140737488355327, 140737488355327, 140737488355327, 140737488355327, 140737488355327, 140737488355327,
     140737488355327, 140737488355327, 140737488355327, 140737488355327],
      [140737488355327, 140737488355327, 1024, 8192, 140737488355327, 140737488355327, 140737488355327,
     140737488355327, 140737488355327, 2097152, 50331648, 140737488355327, 140737488355327, 140737488355327,
     140737488355327, 140737488355327, 140737488355327, 140737488355327, 140737488355327, 140737488355327,
     140737488355327, 140737488355327, 140737488355327, 140737488355327, 140737488355327, 140737488355327,
     140737488355327, 140737488355327, 140737488355327, 140737488355327, 140737488355327, 140737488355327,
     140737488355327, 140737488355327, 140737488355327, 140737488355327, 140737488355327, 140737488355327,
     140737488355327, 140737488355327, 140737488355327, 140737488355327, 140737488355327, 140737488355327,
     140737488355327, 140737488355327, 140737488355327],
      [140737488355327, 140737488355327, 13002351628, 13002351628, 140737488355327, 140737488355327, 13002351628,
     140737488355327, 140737488355327, 140737488355327, 13002351628, 140737488355327, 140737488355327, 13002351628,
     140737488355327, 140737488355327, 140737488355327, 140737488355327, 140737488355327, 140737488355327,
     140737488355327, 140737488355327, 140737488355327, 140737488355327, 13002351628, 13002351628, 13002351628,
     140737488355327, 140737488355327, 140737488355327, 140737488355327, 140737488355327, 13002351628, 13002351628,
     140737488355327, 140737488355327, 140737488355327, 140737488355327, 140737488355327, 140737488355327,
     140737488355327, 140737488355327, 140737488355327, 140737488355327, 140737488355327, 140737488355327,
     140737488355327],
      [140737488355327, 140737488355327, 1028, 1028, 140737488355327, 140737488355327, 140737488355327,
     140737488355327, 140737488355327, 140737488355327, 140737488355327, 140737488355327, 140737488355327,
     140737488355327, 140737488355327, 140737488355327, 140737488355327, 140737488355327, 140737488355327,
     140737488355327, 140737488355327, 140737488355327, 140737488355327, 140737488355327, 140737488355327,
     140737488355327, 140737488355327, 140737488355327, 140737488355327, 140737488355327, 140737488355327,
     140737488355327, 140737488355327, 140737488355327, 140737488355327, 140737488355327, 140737488355327,
     140737488355327, 140737488355327, 140737488355327, 140737488355327, 140737488355327, 140737488355327,
     140737488355327, 140737488355327, 140737488355327, 140737488355327],
      [140737488355327, 140737488355327, 4, 140737488355327, 140737488355327, 140737488355327, 140737488355327,
     140737488355327, 140737488355327, 140737488355327, 4, 140737488355327, 140737488355327, 4, 140737488355327,
     140737488355327, 140737488355327, 140737488355327, 140737488355327, 140737488355327, 140737488355327,
     140737488355327, 140737488355327, 140737488355327, 140737488355327, 140737488355327, 140737488355327,
     140737488355327, 140737488355327, 140737488355327, 4, 140737488355327, 140737488355327, 140737488355327,
     140737488355327, 140737488355327, 140737488355327, 140737488355327, 140737488355327, 140737488355327,
     140737488355327, 140737488355327, 140737488355327, 140737488355327, 140737488355327, 140737488355327,
     140737488355327],
      [140737488355327, 140737488355327, 4378862604, 140737488355327, 140737488355327, 140737488355327,
     140737488355327, 140737488355327, 140737488355327, 140737488355327, 140737488355327, 140737488355327,
     140737488355327, 140737488355327, 140737488355327, 140737488355327, 140737488355327, 140737488355327,
     140737488355327, 140737488355327, 140737488355327, 140737488355327, 140737488355327, 140737488355327,
     140737488355327, 140737488355327, 140737488355327, 140737488355327, 140737488355327, 140737488355327,
     140737488355327, 140737488355327, 140737488355327, 140737488355327, 140737488355327, 140737488355327,
     140737488355327, 4378862604, 140737488355327, 140737488355327, 140737488355327, 140737488355327, 140737488355327,
     140737488355327, 140737488355327, 140737488355327, 140737488355327],
      [140737488355327, 140737488355327, 4378862604, 4378862604, 140737488355327, 140737488355327, 140737488355327,
     140737488355327, 140737488355327, 140737488355327, 4378862604, 140737488355327, 140737488355327, 4378862604,
     140737488355327, 140737488355327, 140737488355327, 140737488355327, 140737488355327, 140737488355327,
     140737488355327, 140737488355327, 140737488355327, 140737488355327, 4378862604, 140737488355327, 4378862604,
     140737488355327, 140737488355327, 140737488355327, 140737488355327, 140737488355327, 4378862604, 140737488355327,
     140737488355327, 140737488355327, 140737488355327, 4378862604, 140737488355327, 140737488355327, 140737488355327,
     140737488355327, 140737488355327, 140737488355327, 140737488355327, 140737488355327, 140737488355327],
      [140737488355327, 140737488355327, 140737488355327, 140737488355327, 140737488355327, 140737488355327,
     140737488355327, 140737488355327, 140737488355327, 140737488355327, 140737488355327, 140737488355327,
     140737488355327, 140737488355327, 140737488355327, 140737488355327, 140737488355327, 140737488355327,
     140737488355327, 140737488355327, 140737488355327, 12, 140737488355327, 140737488355327, 140737488355327,
     140737488355327, 140737488355327, 140737488355327, 140737488355327, 140737488355327, 140737488355327,
     140737488355327, 140737488355327, 140737488355327, 140737488355327, 140737488355327, 140737488355327,
     140737488355327, 140737488355327, 140737488355327, 140737488355327, 140737488355327, 140737488355327,
     140737488355327, 140737488355327, 140737488355327, 140737488355327],
      [140737488355327, 140737488355327, 4, 4, 140737488355327, 140737488355327, 140737488355327, 140737488355327,
     140737488355327, 140737488355327, 4, 140737488355327, 140737488355327, 4, 140737488355327, 140737488355327,
     140737488355327, 140737488355327, 140737488355327, 140737488355327, 140737488355327, 140737488355327,
     140737488355327, 140737488355327, 4, 4, 4, 140737488355327, 140737488355327, 140737488355327, 140737488355327,
     140737488355327, 4, 4, 140737488355327, 140737488355327, 140737488355327, 140737488355327, 140737488355327,
     140737488355327, 140737488355327, 4, 140737488355327, 140737488355327, 140737488355327, 140737488355327,
     140737488355327],
      [140737488355327, 140737488355327, 4, 4, 140737488355327, 140737488355327, 140737488355327, 140737488355327,
     140737488355327, 140737488355327, 4, 140737488355327, 140737488355327, 4, 140737488355327, 140737488355327,
     140737488355327, 140737488355327, 140737488355327, 140737488355327, 140737488355327, 140737488355327,
     140737488355327, 140737488355327, 4, 4, 4, 140737488355327, 140737488355327, 140737488355327, 140737488355327,
     140737488355327, 4, 4, 140737488355327, 140737488355327, 140737488355327, 140737488355327, 140737488355327,
     140737488355327, 140737488355327, 4, 140737488355327, 140737488355327, 140737488355327, 140737488355327,
     140737488355327],
      [140737488355327, 140737488355327, 4, 4, 140737488355327, 140737488355327, 140737488355327, 140737488355327,
     140737488355327, 140737488355327, 4, 140737488355327, 140737488355327, 4, 140737488355327, 140737488355327,
     140737488355327, 140737488355327, 140737488355327, 140737488355327, 140737488355327, 140737488355327,
     140737488355327, 140737488355327, 4, 4, 4, 140737488355327, 140737488355327, 140737488355327, 140737488355327,
     140737488355327, 4, 4, 140737488355327, 140737488355327, 140737488355327, 140737488355327, 140737488355327,
     140737488355327, 140737488355327, 4, 140737488355327, 140737488355327, 140737488355327, 140737488355327,
     140737488355327],
      [140737488355327, 140737488355327, 4, 4, 140737488355327, 140737488355327, 140737488355327, 140737488355327,
     140737488355327, 140737488355327, 140737488355327, 140737488355327, 140737488355327, 140737488355327,
     140737488355327, 140737488355327, 140737488355327, 140737488355327, 140737488355327, 140737488355327,
     140737488355327, 140737488355327, 140737488355327, 140737488355327, 140737488355327, 140737488355327,
     140737488355327, 140737488355327, 140737488355327, 140737488355327, 140737488355327, 140737488355327,
     140737488355327, 140737488355327, 140737488355327, 140737488355327, 140737488355327, 140737488355327,
     140737488355327, 140737488355327, 140737488355327, 140737488355327, 140737488355327, 140737488355327,
     140737488355327, 140737488355327, 140737488355327],
      [140737488355327, 140737488355327, 2212025607180, 2212025607180, 140737488355327, 140737488355327,
     140737488355327, 140737488355327, 140737488355327, 140737488355327, 2212025607180, 140737488355327,
     140737488355327, 2212025607180, 140737488355327, 140737488355327, 140737488355327, 140737488355327,
     140737488355327, 140737488355327, 140737488355327, 140737488355327, 140737488355327, 140737488355327,
     2212025607180, 2212025607180, 2212025607180, 140737488355327, 140737488355327, 140737488355327, 140737488355327,
     140737488355327, 2212025607180, 2212025607180, 140737488355327, 140737488355327, 140737488355327,
     140737488355327, 140737488355327, 140737488355327, 140737488355327, 140737488355327, 140737488355327,
     140737488355327, 140737488355327, 140737488355327, 140737488355327],
      [140737488355327, 140737488355327, 13002351628, 13002351628, 140737488355327, 140737488355327, 140737488355327,
     140737488355327, 140737488355327, 140737488355327, 13002351628, 140737488355327, 140737488355327, 13002351628,
     140737488355327, 140737488355327, 140737488355327, 140737488355327, 140737488355327, 140737488355327,
     140737488355327, 140737488355327, 140737488355327, 140737488355327, 13002351628, 13002351628, 13002351628,
     140737488355327, 140737488355327, 140737488355327, 140737488355327, 140737488355327, 13002351628, 13002351628,
     140737488355327, 140737488355327, 140737488355327, 140737488355327, 140737488355327, 140737488355327,
     140737488355327, 13002351628, 140737488355327, 140737488355327, 140737488355327, 140737488355327,
     140737488355327],
      [140737488355327, 140737488355327, 2199023255556, 2199023255556, 140737488355327, 140737488355327,
     140737488355327, 140737488355327, 140737488355327, 140737488355327, 140737488355327, 140737488355327,
     140737488355327, 140737488355327, 140737488355327, 140737488355327, 140737488355327, 140737488355327,
     140737488355327, 140737488355327, 140737488355327, 140737488355327, 140737488355327, 140737488355327,
     140737488355327, 140737488355327, 140737488355327, 140737488355327, 140737488355327, 140737488355327,
     140737488355327, 140737488355327, 140737488355327, 140737488355327, 140737488355327, 140737488355327,
     140737488355327, 140737488355327, 140737488355327, 140737488355327, 140737488355327, 140737488355327,
     140737488355327, 140737488355327, 140737488355327, 140737488355327, 140737488355327],
      [140737488355327, 140737488355327, 4, 4, 140737488355327, 140737488355327, 4, 140737488355327, 140737488355327,
     140737488355327, 4, 140737488355327, 140737488355327, 4, 140737488355327, 140737488355327, 140737488355327,
     140737488355327, 140737488355327, 140737488355327, 140737488355327, 140737488355327, 4, 4, 4, 4, 4,
     140737488355327, 140737488355327, 140737488355327, 140737488355327, 140737488355327, 4, 4, 140737488355327,
     140737488355327, 4, 140737488355327, 140737488355327, 140737488355327, 4, 140737488355327, 140737488355327,
     140737488355327, 140737488355327, 140737488355327, 140737488355327],
      [140737488355327, 140737488355327, 4, 140737488355327, 140737488355327, 140737488355327, 140737488355327,
     140737488355327, 140737488355327, 140737488355327, 4, 140737488355327, 140737488355327, 140737488355327,
     140737488355327, 140737488355327, 140737488355327, 140737488355327, 4, 140737488355327, 140737488355327,
     140737488355327, 140737488355327, 140737488355327, 140737488355327, 140737488355327, 140737488355327,
     140737488355327, 140737488355327, 140737488355327, 140737488355327, 140737488355327, 140737488355327,
     140737488355327, 140737488355327, 140737488355327, 140737488355327, 140737488355327, 140737488355327,
     140737488355327, 140737488355327, 140737488355327, 140737488355327, 140737488355327, 140737488355327,
     140737488355327, 140737488355327],
      [140737488355327, 140737488355327, 1024, 8192, 16384, 65536, 262144, 140737488355327, 140737488355327, 2097152,
     33554432, 268435456, 1073741824, 8589934592, 140737488355327, 140737488355327, 140737488355327, 140737488355327,
     33554432, 34359738368, 140737488355327, 140737488355327, 1024, 274877906944, 33554432, 33554432, 140737488355327,
     140737488355327, 140737488355327, 140737488355327, 140737488355327, 8192, 8589934592, 8589934592, 65536,
     140737488355327, 1024, 35184372088832, 33554432, 33554432, 70368744177664, 140737488355327, 268435456,
     1073741824, 8589934592, 140737488355327, 140737488355327],
      [140737488355327, 140737488355327, 1024, 8192, 140737488355327, 65536, 1024, 140737488355327, 140737488355327,
     140737488355327, 33554432, 268435456, 140737488355327, 8589934592, 140737488355327, 140737488355327,
     140737488355327, 140737488355327, 33554432, 140737488355327, 140737488355327, 140737488355327, 1024, 1024,
     140737488355327, 33554432, 140737488355327, 140737488355327, 140737488355327, 140737488355327, 140737488355327,
     140737488355327, 140737488355327, 8589934592, 140737488355327, 140737488355327, 1024, 140737488355327, 33554432,
     140737488355327, 140737488355327, 140737488355327, 140737488355327, 140737488355327, 140737488355327,
     140737488355327, 140737488355327],
      [140737488355327, 140737488355327, 1024, 8192, 140737488355327, 32768, 262144, 140737488355327, 140737488355327,
     2097152, 16777216, 134217728, 140737488355327, 4294967296, 140737488355327, 140737488355327, 140737488355327,
     140737488355327, 16777216, 140737488355327, 140737488355327, 140737488355327, 1024, 1024, 16777216, 16777216,
     16777216, 140737488355327, 140737488355327, 140737488355327, 140737488355327, 8192, 4294967296, 4294967296,
     140737488355327, 140737488355327, 1024, 140737488355327, 16777216, 16777216, 1024, 140737488355327,
     140737488355327, 140737488355327, 4294967296, 140737488355327, 140737488355327],
      [140737488355327, 140737488355327, 1024, 8192, 140737488355327, 140737488355327, 140737488355327,
     140737488355327, 1048576, 140737488355327, 67108864, 140737488355327, 140737488355327, 4294967296,
     140737488355327, 140737488355327, 140737488355327, 140737488355327, 140737488355327, 140737488355327,
     140737488355327, 140737488355327, 1024, 1024, 67108864, 140737488355327, 67108864, 140737488355327,
     140737488355327, 140737488355327, 140737488355327, 140737488355327, 4294967296, 140737488355327, 140737488355327,
     140737488355327, 140737488355327, 140737488355327, 140737488355327, 140737488355327, 1024, 140737488355327,
     140737488355327, 140737488355327, 140737488355327, 140737488355327, 140737488355327],
      [140737488355327, 140737488355327, 4, 140737488355327, 140737488355327, 140737488355327, 4, 140737488355327,
     140737488355327, 140737488355327, 140737488355327, 140737488355327, 140737488355327, 140737488355327,
     140737488355327, 140737488355327, 140737488355327, 140737488355327, 140737488355327, 140737488355327,
     140737488355327, 140737488355327, 140737488355327, 140737488355327, 140737488355327, 140737488355327,
     140737488355327, 140737488355327, 140737488355327, 140737488355327, 140737488355327, 140737488355327,
     140737488355327, 140737488355327, 140737488355327, 140737488355327, 4, 140737488355327, 140737488355327,
     140737488355327, 140737488355327, 140737488355327, 140737488355327, 140737488355327, 140737488355327,
     140737488355327, 140737488355327],
      [],
      [],
      [140737488355327, 140737488355327, 16778240, 140737488355327, 140737488355327, 140737488355327, 140737488355327,
     140737488355327, 140737488355327, 140737488355327, 140737488355327, 140737488355327, 140737488355327,
     140737488355327, 140737488355327, 140737488355327, 140737488355327, 140737488355327, 140737488355327,
     140737488355327, 140737488355327, 140737488355327, 140737488355327, 140737488355327, 140737488355327,
     140737488355327, 140737488355327, 140737488355327, 140737488355327, 140737488355327, 140737488355327,
     140737488355327, 140737488355327, 140737488355327, 140737488355327, 140737488355327, 140737488355327,
     140737488355327, 140737488355327, 140737488355327, 140737488355327, 140737488355327, 140737488355327,
     140737488355327, 140737488355327, 140737488355327, 140737488355327],
      [],
      [],
      [140737488355327, 140737488355327, 33555456, 140737488355327, 140737488355327, 140737488355327, 140737488355327,
     140737488355327, 140737488355327, 140737488355327, 33554432, 140737488355327, 140737488355327, 8589934592,
     140737488355327, 140737488355327, 140737488355327, 140737488355327, 33554432, 140737488355327, 140737488355327,
     140737488355327, 140737488355327, 274911462400, 140737488355327, 140737488355327, 140737488355327,
     140737488355327, 140737488355327, 140737488355327, 140737488355327, 140737488355327, 140737488355327,
     140737488355327, 140737488355327, 140737488355327, 140737488355327, 140737488355327, 140737488355327,
     140737488355327, 140737488355327, 140737488355327, 140737488355327, 140737488355327, 140737488355327,
     140737488355327, 140737488355327],
      [],
      [],
      [],
      [],
      [140737488355327, 140737488355327, 4378862604, 140737488355327, 140737488355327, 140737488355327,
     140737488355327, 140737488355327, 140737488355327, 140737488355327, 4378862604, 140737488355327, 140737488355327,
     140737488355327, 140737488355327, 140737488355327, 140737488355327, 140737488355327, 140737488355327,
     140737488355327, 140737488355327, 140737488355327, 140737488355327, 140737488355327, 140737488355327,
     140737488355327, 140737488355327, 140737488355327, 140737488355327, 140737488355327, 140737488355327,
     140737488355327, 140737488355327, 140737488355327, 140737488355327, 140737488355327, 140737488355327,
     140737488355327, 140737488355327, 140737488355327, 140737488355327, 140737488355327, 140737488355327,
     140737488355327, 140737488355327, 140737488355327, 140737488355327],
      [],
      [],
      [140737488355327, 140737488355327, 4378862604, 4378862604, 140737488355327, 140737488355327, 140737488355327,
     140737488355327, 140737488355327, 140737488355327, 4378862604, 140737488355327, 140737488355327, 4378862604,
     140737488355327, 140737488355327, 140737488355327, 140737488355327, 140737488355327, 140737488355327,
     140737488355327, 140737488355327, 140737488355327, 140737488355327, 4378862604, 140737488355327, 4378862604,
     140737488355327, 140737488355327, 140737488355327, 140737488355327, 140737488355327, 4378862604, 140737488355327,
     140737488355327, 140737488355327, 140737488355327, 140737488355327, 140737488355327, 140737488355327,
     140737488355327, 140737488355327, 140737488355327, 140737488355327, 140737488355327, 140737488355327,
     140737488355327],
      [],
      [],
      [],
      [140737488355327, 140737488355327, 140737488355327, 140737488355327, 140737488355327, 140737488355327,
     140737488355327, 140737488355327, 140737488355327, 140737488355327, 4311753740, 140737488355327, 140737488355327,
     140737488355327, 140737488355327, 140737488355327, 140737488355327, 140737488355327, 140737488355327,
     140737488355327, 140737488355327, 140737488355327, 140737488355327, 140737488355327, 140737488355327,
     140737488355327, 140737488355327, 140737488355327, 140737488355327, 140737488355327, 140737488355327,
     140737488355327, 140737488355327, 140737488355327, 140737488355327, 140737488355327, 140737488355327,
     140737488355327, 140737488355327, 140737488355327, 140737488355327, 140737488355327, 140737488355327,
     140737488355327, 140737488355327, 140737488355327, 140737488355327],
      [],
      [],
      [140737488355327, 140737488355327, 140737488355327, 140737488355327, 140737488355327, 140737488355327,
     140737488355327, 140737488355327, 140737488355327, 140737488355327, 13002351628, 140737488355327,
     140737488355327, 140737488355327, 140737488355327, 140737488355327, 140737488355327, 140737488355327,
     140737488355327, 140737488355327, 140737488355327, 140737488355327, 140737488355327, 140737488355327,
     140737488355327, 140737488355327, 140737488355327, 140737488355327, 140737488355327, 140737488355327,
     140737488355327, 140737488355327, 140737488355327, 140737488355327, 140737488355327, 140737488355327,
     140737488355327, 140737488355327, 140737488355327, 140737488355327, 140737488355327, 140737488355327,
     140737488355327, 140737488355327, 140737488355327, 140737488355327, 140737488355327],
      [],
      [],
      [140737488355327, 140737488355327, 4378862604, 140737488355327, 140737488355327, 140737488355327,
     140737488355327, 140737488355327, 140737488355327, 140737488355327, 140737488355327, 140737488355327,
     140737488355327, 140737488355327, 140737488355327, 140737488355327, 140737488355327, 140737488355327,
     140737488355327, 140737488355327, 140737488355327, 140737488355327, 140737488355327, 140737488355327,
     140737488355327, 140737488355327, 140737488355327, 140737488355327, 140737488355327, 140737488355327,
     140737488355327, 140737488355327, 140737488355327, 140737488355327, 140737488355327, 140737488355327,
     140737488355327, 140737488355327, 140737488355327, 140737488355327, 140737488355327, 140737488355327,
     140737488355327, 140737488355327, 140737488355327, 140737488355327, 140737488355327],
      [],
      [],
      [],
      [140737488355327, 140737488355327, 140737488355327, 140737488355327, 140737488355327, 140737488355327,
     13002351628, 140737488355327, 140737488355327, 140737488355327, 140737488355327, 140737488355327,
     140737488355327, 140737488355327, 140737488355327, 140737488355327, 140737488355327, 140737488355327,
     140737488355327, 140737488355327, 140737488355327, 140737488355327, 140737488355327, 140737488355327,
     140737488355327, 140737488355327, 140737488355327, 140737488355327, 140737488355327, 140737488355327,
     140737488355327, 140737488355327, 140737488355327, 140737488355327, 140737488355327, 140737488355327,
     140737488355327, 140737488355327, 140737488355327, 140737488355327, 140737488355327, 140737488355327,
     140737488355327, 140737488355327, 140737488355327, 140737488355327, 140737488355327],
      [],
      [140737488355327, 140737488355327, 140737488355327, 140737488355327, 140737488355327, 140737488355327,
     140737488355327, 140737488355327, 140737488355327, 140737488355327, 12935242760, 140737488355327,
     140737488355327, 12935242760, 140737488355327, 140737488355327, 140737488355327, 140737488355327,
     140737488355327, 140737488355327, 140737488355327, 140737488355327, 140737488355327, 140737488355327,
     140737488355327, 140737488355327, 140737488355327, 140737488355327, 140737488355327, 140737488355327,
     140737488355327, 140737488355327, 140737488355327, 140737488355327, 140737488355327, 140737488355327,
     140737488355327, 140737488355327, 140737488355327, 140737488355327, 140737488355327, 140737488355327,
     140737488355327, 140737488355327, 140737488355327, 140737488355327, 140737488355327],
      [140737488355327, 140737488355327, 16786444, 16786444, 140737488355327, 140737488355327, 140737488355327,
     140737488355327, 140737488355327, 140737488355327, 16786444, 140737488355327, 140737488355327, 16786444,
     140737488355327, 140737488355327, 140737488355327, 140737488355327, 140737488355327, 140737488355327,
     140737488355327, 140737488355327, 140737488355327, 140737488355327, 16786444, 140737488355327, 140737488355327,
     140737488355327, 140737488355327, 140737488355327, 140737488355327, 140737488355327, 140737488355327,
     140737488355327, 140737488355327, 140737488355327, 140737488355327, 140737488355327, 140737488355327,
     140737488355327, 140737488355327, 140737488355327, 140737488355327, 140737488355327, 140737488355327,
     140737488355327, 140737488355327],
      [],
      [],
      [],
      [],
      [140737488355327, 140737488355327, 13002351628, 13002351628, 140737488355327, 140737488355327, 140737488355327,
     140737488355327, 140737488355327, 140737488355327, 13002351628, 140737488355327, 140737488355327, 13002351628,
     140737488355327, 140737488355327, 140737488355327, 140737488355327, 140737488355327, 140737488355327,
     140737488355327, 140737488355327, 140737488355327, 140737488355327, 13002351628, 13002351628, 13002351628,
     140737488355327, 140737488355327, 140737488355327, 140737488355327, 140737488355327, 13002351628, 13002351628,
     140737488355327, 140737488355327, 140737488355327, 140737488355327, 140737488355327, 140737488355327,
     140737488355327, 140737488355327, 140737488355327, 140737488355327, 140737488355327, 140737488355327,
     140737488355327],
      [],
      [],
      [],
      [140737488355327, 140737488355327, 140737488355327, 140737488355327, 140737488355327, 140737488355327,
     13002351628, 140737488355327, 140737488355327, 140737488355327, 140737488355327, 140737488355327,
     140737488355327, 140737488355327, 140737488355327, 140737488355327, 140737488355327, 140737488355327,
     140737488355327, 140737488355327, 140737488355327, 140737488355327, 140737488355327, 140737488355327,
     140737488355327, 140737488355327, 140737488355327, 140737488355327, 140737488355327, 140737488355327,
     140737488355327, 140737488355327, 140737488355327, 140737488355327, 140737488355327, 140737488355327,
     140737488355327, 140737488355327, 140737488355327, 140737488355327, 140737488355327, 140737488355327,
     140737488355327, 140737488355327, 140737488355327, 140737488355327, 140737488355327],
      [],
      [140737488355327, 140737488355327, 140737488355327, 140737488355327, 140737488355327, 140737488355327,
     140737488355327, 140737488355327, 140737488355327, 140737488355327, 4, 140737488355327, 140737488355327, 4,
     140737488355327, 140737488355327, 140737488355327, 140737488355327, 140737488355327, 140737488355327,
     140737488355327, 140737488355327, 140737488355327, 140737488355327, 140737488355327, 140737488355327,
     140737488355327, 140737488355327, 140737488355327, 140737488355327, 4, 140737488355327, 140737488355327,
     140737488355327, 140737488355327, 140737488355327, 140737488355327, 140737488355327, 140737488355327,
     140737488355327, 140737488355327, 140737488355327, 140737488355327, 140737488355327, 140737488355327,
     140737488355327, 140737488355327],
      [],
      [140737488355327, 140737488355327, 4378862604, 4378862604, 140737488355327, 140737488355327, 140737488355327,
     140737488355327, 140737488355327, 140737488355327, 4378862604, 140737488355327, 140737488355327, 4378862604,
     140737488355327, 140737488355327, 140737488355327, 140737488355327, 140737488355327, 140737488355327,
     140737488355327, 140737488355327, 140737488355327, 140737488355327, 4378862604, 140737488355327, 4378862604,
     140737488355327, 140737488355327, 140737488355327, 140737488355327, 140737488355327, 4378862604, 140737488355327,
     140737488355327, 140737488355327, 140737488355327, 4378862604, 140737488355327, 140737488355327, 140737488355327,
     140737488355327, 140737488355327, 140737488355327, 140737488355327, 140737488355327, 140737488355327],
      [],
      [140737488355327, 140737488355327, 4, 4, 140737488355327, 140737488355327, 140737488355327, 140737488355327,
     140737488355327, 140737488355327, 4, 140737488355327, 140737488355327, 4, 140737488355327, 140737488355327,
     140737488355327, 140737488355327, 140737488355327, 140737488355327, 140737488355327, 140737488355327,
     140737488355327, 140737488355327, 4, 4, 4, 140737488355327, 140737488355327, 140737488355327, 140737488355327,
     140737488355327, 4, 4, 140737488355327, 140737488355327, 140737488355327, 140737488355327, 140737488355327,
     140737488355327, 140737488355327, 4, 140737488355327, 140737488355327, 140737488355327, 140737488355327,
     140737488355327],
      [],
      [],
      [],
      [],
      [140737488355327, 140737488355327, 13002351628, 13002351628, 140737488355327, 140737488355327, 140737488355327,
     140737488355327, 140737488355327, 140737488355327, 140737488355327, 140737488355327, 140737488355327,
     140737488355327, 140737488355327, 140737488355327, 140737488355327, 140737488355327, 140737488355327,
     140737488355327, 140737488355327, 140737488355327, 140737488355327, 140737488355327, 140737488355327,
     140737488355327, 140737488355327, 140737488355327, 140737488355327, 140737488355327, 140737488355327,
     140737488355327, 140737488355327, 140737488355327, 140737488355327, 140737488355327, 140737488355327,
     140737488355327, 140737488355327, 140737488355327, 140737488355327, 13002351628, 140737488355327,
     140737488355327, 140737488355327, 140737488355327, 140737488355327],
      [],
      [],
      [],
      [],
      [],
      [],
      [],
      [],
      []]

/-- for each state, the states with which it has no continuation in common -/
def firstPassDoomed : List Nat :=
  [140737488355327, 140737488355325, 3, 3, 135031611193251, 139549917314963, 3, 139019486756659, 121412270415539,
     139567097183667, 13211319933875, 135031611193251, 130771004157875, 13211319933619, 33152487365555,
     68375866465203, 68371487579059, 66163841031091, 13211320064947, 136131131209635, 68362930215859, 68375864400691,
     3, 524291, 13211993152435, 48432067238835, 13211994201011, 68375732280243, 103796109450163, 68374255885235,
     68369877031859, 37419771740291, 13211993152179, 48432067238579, 139549917314963, 103796109450163, 2199023255555,
     64924742308771, 48430320196531, 13211319933491, 137439477763, 66232560245683, 135031611193251, 130771004157875,
     50768530627251, 103796109450163, 48430320196531]

/-- the states where programs end -/
def firstPassFinal : Nat := 2212025607180

/-! The states: SINK, START, O, P, PM, PN, PD, OB, OF -/

/-- for each state, the next state for each terminal -/
def secondPassSteps : List (List Nat) :=
  [[0, 0, 0, 0, 0, 0, 0, 0, 0, 0, 0, 0, 0, 0, 0, 0, 0, 0, 0, 0, 0, 0, 0, 0, 0, 0, 0, 0, 0, 0, 0, 0, 0, 0, 0, 0, 0, 0,
     0, 0, 0, 0, 0, 0, 0, 0, 0, 0, 0, 0, 0, 0, 0, 0, 0, 0, 0, 0, 0],
      [0, 0, 0, 0, 0, 0, 0, 0, 0, 0, 0, 0, 0, 0, 0, 0, 0, 0, 0, 0, 0, 0, 0, 0, 0, 0, 0, 0, 0, 0, 0, 0, 0, 0, 0, 0, 0,
     0, 0, 0, 0, 0, 0, 0, 2, 0, 0, 0, 0, 0, 0, 0, 0, 0, 0, 0, 0, 0, 0],
      [2, 2, 2, 2, 2, 3, 2, 2, 2, 2, 2, 2, 2, 2, 2, 2, 2, 2, 2, 2, 2, 2, 2, 2, 2, 2, 2, 2, 2, 2, 2, 2, 2, 2, 2, 2, 2,
     2, 2, 2, 2, 2, 2, 2, 2, 2, 0, 2, 2, 2, 2, 2, 2, 2, 2, 2, 2, 2, 2],
      [0, 0, 0, 0, 0, 0, 0, 0, 0, 0, 0, 0, 0, 0, 0, 0, 0, 0, 0, 0, 0, 4, 0, 0, 0, 0, 0, 0, 0, 0, 0, 0, 0, 0, 0, 0, 0,
     5, 0, 0, 0, 0, 0, 0, 0, 0, 0, 0, 0, 0, 5, 5, 0, 5, 0, 5, 5, 5, 5],
      [0, 0, 0, 0, 4, 0, 0, 0, 4, 4, 0, 0, 0, 2, 0, 0, 0, 0, 0, 0, 0, 4, 0, 0, 0, 0, 0, 0, 0, 0, 0, 0, 0, 0, 0, 0, 0,
     4, 0, 0, 0, 0, 0, 0, 0, 0, 0, 0, 0, 0, 4, 4, 0, 4, 0, 4, 4, 4, 4],
      [0, 0, 0, 0, 6, 3, 0, 0, 4, 0, 0, 0, 0, 2, 0, 0, 0, 0, 0, 0, 0, 4, 0, 0, 0, 0, 2, 0, 0, 0, 0, 0, 0, 2, 0, 0, 0,
     4, 0, 0, 0, 0, 0, 0, 0, 2, 7, 0, 0, 0, 4, 4, 0, 4, 0, 4, 4, 4, 4],
      [0, 0, 0, 0, 0, 0, 0, 0, 0, 0, 0, 0, 0, 0, 0, 0, 0, 0, 0, 0, 0, 4, 0, 0, 0, 0, 0, 0, 0, 0, 0, 0, 0, 0, 0, 0, 0,
     5, 0, 0, 0, 0, 0, 0, 0, 0, 0, 0, 0, 0, 5, 5, 0, 5, 0, 5, 5, 5, 5],
      [0, 0, 0, 0, 0, 0, 0, 0, 8, 0, 0, 0, 0, 0, 0, 0, 0, 0, 0, 0, 0, 0, 0, 0, 0, 0, 0, 0, 0, 0, 0, 0, 0, 0, 0, 0, 0,
     8, 0, 0, 0, 0, 0, 8, 0, 0, 0, 0, 0, 0, 8, 8, 0, 8, 0, 8, 8, 8, 8],
      [8, 8, 8, 8, 8, 3, 8, 8, 8, 8, 8, 8, 8, 0, 8, 8, 8, 8, 8, 8, 8, 8, 8, 8, 8, 8, 2, 8, 8, 8, 8, 8, 8, 2, 8, 8, 8,
     8, 8, 8, 8, 8, 8, 8, 8, 2, 0, 8, 8, 8, 8, 8, 8, 8, 8, 8, 8, 8, 8]]

/-- for each nonterminal and each state, the set of states (one bit each) behind it -/
def secondPassSets : List (List Nat) :=
  [[511, 511, 4, 32, 16, 16, 32, 256, 256],
      [511, 511, 4, 32, 16, 16, 32, 256, 256],
      [511, 511, 4, 511, 511, 511, 511, 511, 511],
      [511, 511, 4, 511, 511, 511, 511, 511, 511],
      [511, 511, 4, 32, 16, 16, 511, 256, 256],
      [511, 511, 4, 511, 511, 511, 511, 511, 511],
      [511, 511, 4, 511, 511, 511, 511, 511, 511],
      [511, 511, 4, 511, 511, 511, 511, 511, 260],
      [511, 511, 4, 511, 511, 511, 511, 511, 260],
      [511, 511, 4, 511, 511, 511, 511, 511, 260],
      [511, 511, 4, 511, 511, 511, 511, 260, 260],
      [511, 511, 4, 511, 511, 511, 511, 260, 260],
      [511, 511, 4, 511, 511, 511, 511, 511, 511],
      [511, 511, 4, 511, 511, 511, 511, 511, 511],
      [511, 511, 4, 511, 511, 511, 511, 511, 511],
      [511, 511, 4, 511, 511, 511, 511, 511, 260],
      [511, 511, 4, 511, 511, 511, 511, 511, 260],
      [511, 511, 4, 511, 511, 511, 511, 511, 260],
      [511, 4, 511, 511, 511, 511, 511, 511, 511],
      [511, 511, 292, 511, 511, 511, 511, 511, 511],
      [511, 511, 292, 511, 511, 292, 511, 511, 292],
      [511, 511, 4, 511, 511, 511, 511, 511, 511],
      [511, 511, 4, 511, 511, 511, 511, 511, 511],
      [511, 511, 292, 511, 511, 292, 511, 511, 292],
      [511, 511, 4, 511, 511, 511, 511, 511, 260],
      [511, 511, 4, 511, 511, 511, 511, 511, 511],
      [511, 511, 4, 511, 511, 511, 511, 511, 511],
      [511, 511, 4, 511, 511, 511, 511, 511, 511],
      [511, 511, 511, 48, 16, 511, 511, 511, 511],
      [511, 511, 511, 511, 16, 16, 511, 511, 511],
      [511, 511, 4, 511, 511, 511, 511, 511, 511],
      [511, 511, 4, 511, 511, 511, 511, 511, 511],
      [511, 511, 4, 511, 511, 511, 511, 511, 511],
      [511, 511, 4, 511, 511, 511, 511, 511, 511],
      [511, 511, 4, 511, 511, 511, 511, 511, 511],
      [511, 511, 4, 511, 511, 511, 511, 511, 511],
      [511, 511, 4, 511, 511, 511, 511, 511, 511],
      [511, 511, 4, 511, 511, 511, 511, 511, 511],
      [511, 511, 4, 511, 511, 511, 511, 511, 511],
      [511, 511, 4, 511, 511, 511, 511, 511, 511],
      [511, 511, 4, 511, 511, 511, 511, 511, 511],
      [511, 511, 4, 511, 511, 511, 511, 511, 511],
      [511, 511, 4, 511, 511, 511, 511, 511, 511],
      [511, 511, 4, 511, 511, 511, 511, 511, 511],
      [511, 511, 4, 511, 511, 511, 511, 511, 511],
      [511, 511, 4, 511, 511, 511, 511, 511, 511],
      [511, 511, 4, 511, 511, 511, 511, 511, 511],
      [511, 511, 4, 511, 511, 511, 511, 511, 511],
      [511, 511, 4, 511, 511, 511, 511, 511, 511],
      [511, 511, 4, 511, 511, 4, 511, 511, 4],
      [511, 511, 4, 511, 511, 511, 511, 511, 511],
      [511, 511, 4, 511, 511, 511, 511, 511, 511],
      [511, 511, 4, 32, 16, 16, 511, 256, 256],
      [511, 511, 4, 511, 511, 511, 511, 511, 511],
      [511, 511, 4, 32, 16, 16, 511, 511, 511],
      [511, 511, 4, 511, 511, 511, 511, 511, 256],
      [511, 511, 4, 32, 16, 16, 32, 256, 256],
      [511, 511, 4, 511, 511, 511, 511, 256, 256],
      [511, 511, 4, 511, 511, 511, 511, 511, 511],
      [],
      [],
      [511, 511, 4, 511, 511, 511, 511, 511, 511],
      [],
      [],
      [511, 511, 4, 511, 511, 511, 511, 511, 511],
      [],
      [],
      [],
      [],
      [511, 511, 4, 511, 511, 511, 511, 260, 260],
      [],
      [],
      [511, 511, 4, 511, 511, 511, 511, 511, 511],
      [],
      [],
      [],
      [511, 511, 4, 511, 511, 511, 511, 511, 260],
      [],
      [],
      [511, 511, 292, 511, 511, 511, 511, 511, 511],
      [],
      [],
      [511, 511, 292, 511, 511, 511, 511, 511, 511],
      [],
      [],
      [],
      [511, 511, 4, 511, 511, 511, 511, 511, 511],
      [],
      [511, 511, 511, 511, 16, 16, 511, 511, 511],
      [511, 511, 4, 511, 511, 511, 511, 511, 511],
      [],
      [],
      [],
      [],
      [511, 511, 4, 511, 511, 511, 511, 511, 511],
      [],
      [],
      [],
      [511, 511, 4, 511, 511, 511, 511, 511, 511],
      [],
      [511, 511, 4, 511, 511, 511, 511, 511, 511],
      [],
      [511, 511, 4, 511, 511, 511, 511, 511, 511],
      [],
      [511, 511, 4, 511, 511, 511, 511, 511, 511],
      [],
      [],
      [],
      [],
      [511, 511, 4, 511, 511, 511, 511, 511, 511],
      [],
      [],
      [],
      [],
      [],
      [],
      [],
      [],
      []]

/-- for each state, the states with which it has no continuation in common -/
def secondPassDoomed : List Nat :=
  [511, 249, 1, 3, 387, 131, 3, 51, 17]

/-- the states where programs end -/
def secondPassFinal : Nat := 4

/-! The states: SINK, START, O, B, V, BN, VN, EM, VH, BD, VD1, VC, VA, EC, E2, EH, VD, ED, E3, E4 -/

/-- for each state, the next state for each terminal -/
def thirdPassSteps : List (List Nat) :=
  [[0, 0, 0, 0, 0, 0, 0, 0, 0, 0, 0, 0, 0, 0, 0, 0, 0, 0, 0, 0, 0, 0, 0, 0, 0, 0, 0, 0, 0, 0, 0, 0, 0, 0, 0, 0, 0, 0,
     0, 0, 0, 0, 0, 0, 0, 0, 0, 0, 0, 0, 0, 0, 0, 0, 0, 0, 0, 0, 0],
      [0, 0, 0, 0, 0, 0, 0, 0, 0, 0, 0, 0, 0, 0, 0, 0, 0, 0, 0, 0, 0, 0, 0, 0, 0, 0, 0, 0, 0, 0, 0, 0, 0, 0, 0, 0, 0,
     0, 0, 0, 0, 0, 0, 0, 2, 0, 0, 0, 0, 0, 0, 0, 0, 0, 0, 0, 0, 0, 0],
      [2, 2, 3, 2, 2, 2, 2, 2, 2, 2, 3, 2, 2, 4, 2, 4, 2, 2, 2, 2, 2, 2, 2, 2, 2, 2, 2, 4, 2, 4, 2, 2, 2, 2, 2, 2, 2,
     2, 2, 2, 2, 2, 2, 2, 2, 2, 2, 2, 2, 0, 2, 2, 2, 2, 2, 2, 2, 2, 2],
      [2, 2, 3, 2, 2, 2, 2, 2, 2, 2, 3, 2, 2, 4, 2, 4, 2, 2, 2, 2, 2, 2, 2, 2, 2, 2, 2, 4, 2, 4, 2, 2, 2, 2, 2, 2, 2,
     5, 2, 2, 2, 2, 2, 2, 2, 2, 2, 2, 2, 0, 5, 5, 2, 2, 2, 5, 5, 5, 5],
      [2, 2, 3, 2, 2, 2, 2, 2, 0, 2, 3, 2, 2, 4, 2, 4, 2, 2, 2, 2, 2, 2, 2, 2, 2, 2, 2, 4, 2, 4, 2, 2, 2, 2, 2, 2, 2,
     6, 2, 2, 2, 2, 2, 2, 2, 2, 2, 2, 2, 7, 6, 6, 2, 8, 2, 6, 6, 6, 6],
      [2, 2, 3, 4, 9, 2, 2, 2, 2, 2, 3, 2, 2, 4, 2, 4, 2, 2, 2, 2, 2, 2, 2, 2, 2, 2, 2, 4, 2, 4, 2, 2, 2, 2, 2, 2, 2,
     2, 2, 2, 2, 2, 2, 2, 2, 2, 2, 2, 2, 0, 2, 2, 2, 2, 2, 2, 2, 2, 2],
      [2, 2, 3, 2, 10, 2, 2, 2, 0, 2, 3, 2, 2, 4, 2, 4, 2, 2, 2, 2, 2, 2, 2, 2, 2, 2, 2, 4, 2, 0, 2, 2, 2, 2, 2, 2, 2,
     11, 2, 2, 2, 2, 2, 0, 2, 2, 2, 2, 2, 0, 0, 11, 2, 0, 2, 12, 12, 11, 2],
      [0, 0, 0, 0, 0, 0, 0, 0, 2, 0, 0, 0, 0, 0, 0, 0, 0, 0, 0, 0, 0, 0, 0, 0, 0, 0, 0, 0, 0, 0, 0, 0, 0, 0, 0, 0, 0,
     13, 0, 0, 0, 0, 0, 0, 0, 0, 0, 0, 0, 0, 14, 13, 0, 15, 0, 0, 0, 13, 0],
      [2, 2, 3, 2, 10, 2, 2, 2, 0, 2, 3, 2, 2, 4, 2, 4, 2, 2, 2, 2, 2, 2, 2, 2, 2, 2, 2, 4, 2, 4, 2, 2, 2, 2, 2, 2, 2,
     0, 2, 2, 2, 2, 2, 0, 2, 2, 2, 2, 2, 0, 0, 0, 2, 0, 2, 0, 0, 0, 0],
      [2, 2, 3, 2, 2, 2, 2, 2, 2, 2, 3, 2, 2, 4, 2, 4, 2, 2, 2, 2, 2, 2, 2, 2, 2, 2, 2, 4, 2, 4, 2, 2, 2, 2, 2, 2, 2,
     5, 2, 2, 2, 2, 2, 2, 2, 2, 2, 2, 2, 0, 5, 5, 2, 2, 2, 5, 5, 5, 5],
      [0, 0, 0, 0, 0, 0, 0, 0, 0, 0, 0, 0, 0, 0, 0, 0, 0, 0, 0, 0, 0, 0, 0, 0, 0, 0, 0, 0, 0, 0, 0, 0, 0, 0, 0, 0, 0,
     6, 0, 0, 0, 0, 0, 0, 0, 0, 0, 0, 0, 0, 6, 6, 0, 0, 0, 6, 6, 6, 6],
      [0, 0, 0, 0, 16, 0, 0, 0, 0, 0, 0, 0, 0, 0, 0, 0, 0, 0, 0, 0, 0, 0, 0, 0, 0, 0, 0, 0, 0, 0, 0, 0, 0, 0, 0, 0, 0,
     0, 0, 0, 0, 0, 0, 0, 0, 0, 0, 0, 0, 0, 0, 0, 0, 0, 0, 0, 0, 0, 0],
      [2, 2, 3, 2, 2, 2, 2, 2, 2, 2, 3, 2, 2, 4, 2, 4, 2, 2, 2, 2, 2, 2, 2, 2, 2, 2, 2, 4, 2, 4, 2, 2, 2, 2, 2, 2, 2,
     11, 2, 2, 2, 2, 2, 2, 2, 2, 2, 2, 2, 0, 2, 11, 2, 2, 2, 12, 12, 11, 2],
      [0, 0, 0, 0, 17, 0, 0, 0, 2, 0, 0, 0, 0, 0, 0, 0, 0, 0, 0, 0, 0, 0, 0, 0, 0, 0, 0, 0, 0, 2, 0, 0, 0, 0, 0, 0, 0,
     18, 0, 0, 0, 0, 0, 2, 0, 0, 0, 0, 0, 0, 18, 18, 0, 2, 0, 0, 0, 18, 0],
      [0, 0, 0, 0, 0, 0, 0, 0, 2, 0, 0, 0, 0, 0, 0, 0, 0, 0, 0, 0, 0, 0, 0, 0, 0, 0, 0, 0, 0, 0, 0, 0, 0, 0, 0, 0, 0,
     18, 0, 0, 0, 0, 0, 2, 0, 0, 0, 0, 0, 0, 18, 18, 0, 2, 0, 0, 0, 18, 0],
      [0, 0, 0, 0, 17, 0, 0, 0, 0, 0, 0, 0, 0, 0, 0, 0, 0, 0, 0, 0, 0, 0, 0, 0, 0, 0, 0, 0, 0, 0, 0, 0, 0, 0, 0, 0, 0,
     0, 0, 0, 0, 0, 0, 0, 0, 0, 0, 0, 0, 0, 0, 0, 0, 0, 0, 0, 0, 0, 0],
      [0, 0, 0, 0, 0, 0, 0, 0, 0, 0, 0, 0, 0, 0, 0, 0, 0, 0, 0, 0, 0, 0, 0, 0, 0, 0, 0, 0, 0, 0, 0, 0, 0, 0, 0, 0, 0,
     0, 0, 0, 0, 0, 0, 0, 0, 0, 0, 0, 0, 0, 0, 0, 0, 0, 0, 12, 12, 0, 0],
      [0, 0, 0, 0, 0, 0, 0, 0, 0, 0, 0, 0, 0, 0, 0, 0, 0, 0, 0, 0, 0, 0, 0, 0, 0, 0, 0, 0, 0, 0, 0, 0, 0, 0, 0, 0, 0,
     14, 0, 0, 0, 0, 0, 0, 0, 0, 0, 0, 0, 0, 14, 14, 0, 0, 0, 0, 0, 14, 0],
      [2, 2, 3, 2, 19, 2, 2, 2, 2, 2, 3, 2, 2, 4, 2, 4, 2, 2, 2, 2, 2, 2, 2, 2, 2, 2, 2, 4, 2, 4, 2, 2, 2, 2, 2, 2, 2,
     2, 2, 2, 2, 2, 2, 2, 2, 2, 2, 2, 2, 0, 2, 2, 2, 2, 2, 2, 2, 2, 2],
      [0, 0, 0, 0, 0, 0, 0, 0, 0, 0, 0, 0, 0, 0, 0, 0, 0, 0, 0, 0, 0, 0, 0, 0, 0, 0, 0, 0, 0, 0, 0, 0, 0, 0, 0, 0, 0,
     2, 0, 0, 0, 0, 0, 0, 0, 0, 0, 0, 0, 0, 2, 2, 0, 0, 0, 0, 0, 2, 0]]

/-- for each nonterminal and each state, the set of states (one bit each) behind it -/
def thirdPassSets : List (List Nat) :=
  [[1048575, 1048575, 4, 32, 64, 4, 2048, 8192, 1048575, 32, 64, 1048575, 2048, 262144, 262144, 1048575, 1048575,
     16384, 1048575, 4],
      [1048575, 1048575, 4, 32, 64, 4, 2048, 8192, 1048575, 32, 64, 1048575, 2048, 262144, 262144, 1048575, 1048575,
     16384, 1048575, 4],
      [1048575, 1048575, 4, 1048575, 1048575, 1048575, 1048575, 1048575, 1048575, 1048575, 1048575, 1048575, 1048575,
     1048575, 1048575, 1048575, 1048575, 1048575, 1048575, 1048575],
      [1048575, 1048575, 4, 1048575, 1048575, 1048575, 1048575, 1048575, 1048575, 1048575, 1048575, 1048575, 1048575,
     1048575, 1048575, 1048575, 1048575, 1048575, 1048575, 1048575],
      [1048575, 1048575, 4, 36, 64, 4, 1048575, 24576, 1048575, 1048575, 1048575, 1048575, 1048575, 262148, 262148,
     1048575, 1048575, 1048575, 1048575, 1048575],
      [1048575, 1048575, 4, 32, 64, 4, 4096, 1048575, 1048575, 1048575, 1048575, 1048575, 4096, 1048575, 1048575,
     1048575, 1048575, 1048575, 1048575, 1048575],
      [1048575, 1048575, 4, 1048575, 1048575, 1048575, 1048575, 1048575, 1048575, 1048575, 1048575, 1048575, 1048575,
     1048575, 1048575, 1048575, 1048575, 1048575, 1048575, 1048575],
      [1048575, 1048575, 4, 1048575, 1048575, 1048575, 1048575, 1048575, 1048575, 1048575, 1048575, 1048575, 1048575,
     1048575, 1048575, 1048575, 1048575, 1048575, 1048575, 1048575],
      [1048575, 1048575, 4, 1048575, 1048575, 1048575, 1048575, 1048575, 1048575, 1048575, 1048575, 1048575, 1048575,
     1048575, 1048575, 1048575, 1048575, 1048575, 1048575, 1048575],
      [1048575, 1048575, 4, 1048575, 1048575, 1048575, 1048575, 1048575, 1048575, 1048575, 1048575, 1048575, 1048575,
     1048575, 1048575, 1048575, 1048575, 1048575, 1048575, 1048575],
      [1048575, 1048575, 4, 36, 1048575, 4, 1048575, 1048575, 1048575, 1048575, 1048575, 1048575, 1048575, 1048575,
     1048575, 1048575, 1048575, 1048575, 1048575, 1048575],
      [1048575, 1048575, 4, 4, 1048575, 4, 1048575, 4, 1048575, 1048575, 1048575, 1048575, 1048575, 4, 4, 1048575,
     1048575, 1048575, 1048575, 1048575],
      [1048575, 1048575, 4, 1048575, 1048575, 1048575, 1048575, 1048575, 1048575, 1048575, 1048575, 1048575, 1048575,
     1048575, 1048575, 1048575, 1048575, 1048575, 1048575, 1048575],
      [1048575, 1048575, 4, 1048575, 1048575, 1048575, 1048575, 1048575, 1048575, 1048575, 1048575, 1048575, 1048575,
     1048575, 1048575, 1048575, 1048575, 1048575, 1048575, 1048575],
      [1048575, 1048575, 4, 1048575, 1048575, 1048575, 1048575, 1048575, 1048575, 1048575, 1048575, 1048575, 1048575,
     1048575, 1048575, 1048575, 1048575, 1048575, 1048575, 1048575],
      [1048575, 1048575, 4, 1048575, 1048575, 1048575, 1048575, 24580, 1048575, 1048575, 1048575, 1048575, 1048575,
     1048575, 1048575, 1048575, 1048575, 1048575, 1048575, 1048575],
      [1048575, 1048575, 4, 1048575, 1048575, 1048575, 1048575, 1048575, 1048575, 1048575, 1048575, 1048575, 1048575,
     262148, 262148, 1048575, 1048575, 1048575, 1048575, 1048575],
      [1048575, 1048575, 4, 1048575, 1048575, 1048575, 1048575, 1048575, 1048575, 1048575, 1048575, 1048575, 1048575,
     1048575, 1048575, 1048575, 1048575, 1048575, 1048575, 1048575],
      [1048575, 266580, 1048575, 1048575, 1048575, 1048575, 1048575, 1048575, 1048575, 1048575, 1048575, 1048575,
     1048575, 1048575, 1048575, 1048575, 1048575, 1048575, 1048575, 1048575],
      [1048575, 1048575, 266564, 1048575, 1048575, 1048575, 1048575, 1048575, 1048575, 1048575, 1048575, 1048575,
     1048575, 1048575, 1048575, 1048575, 1048575, 1048575, 1048575, 1048575],
      [1048575, 1048575, 266564, 1048575, 1048575, 1048575, 266564, 1048575, 266564, 1048575, 1048575, 1048575,
     266564, 1048575, 1048575, 1048575, 1048575, 1048575, 266564, 1048575],
      [1048575, 1048575, 4, 1048575, 1048575, 1048575, 1048575, 1048575, 1048575, 1048575, 1048575, 1048575, 1048575,
     1048575, 1048575, 1048575, 1048575, 1048575, 1048575, 1048575],
      [1048575, 1048575, 4, 1048575, 1048575, 1048575, 1048575, 1048575, 1048575, 1048575, 1048575, 1048575, 1048575,
     1048575, 1048575, 1048575, 1048575, 1048575, 1048575, 1048575],
      [1048575, 1048575, 4, 1048575, 4, 1048575, 1048575, 1048575, 1048575, 1048575, 1048575, 1048575, 1048575,
     1048575, 1048575, 1048575, 1048575, 1048575, 1048575, 1048575],
      [1048575, 1048575, 4, 1048575, 1048575, 1048575, 1048575, 1048575, 1048575, 1048575, 1048575, 1048575, 1048575,
     1048575, 1048575, 1048575, 1048575, 1048575, 1048575, 1048575],
      [1048575, 1048575, 4, 1048575, 1048575, 1048575, 4, 1048575, 1048575, 1048575, 1048575, 1048575, 1048575,
     1048575, 1048575, 1048575, 1048575, 1048575, 1048575, 1048575],
      [1048575, 1048575, 1048575, 1048575, 266564, 1048575, 1048575, 1048575, 1048575, 1048575, 1048575, 1048575,
     1048575, 1048575, 1048575, 1048575, 1048575, 1048575, 1048575, 1048575],
      [1048575, 1048575, 266564, 1048575, 266564, 1048575, 266564, 1048575, 266564, 1048575, 1048575, 1048575, 266564,
     1048575, 1048575, 1048575, 1048575, 1048575, 266564, 1048575],
      [1048575, 1048575, 4, 1048575, 1048575, 1048575, 1048575, 1048575, 1048575, 1048575, 1048575, 1048575, 1048575,
     1048575, 1048575, 1048575, 1048575, 1048575, 1048575, 1048575],
      [1048575, 1048575, 4, 1048575, 1048575, 1048575, 1048575, 1048575, 1048575, 1048575, 1048575, 1048575, 1048575,
     1048575, 1048575, 1048575, 1048575, 1048575, 1048575, 1048575],
      [1048575, 1048575, 262468, 1048575, 1048575, 1048575, 262468, 1048575, 262468, 1048575, 1048575, 1048575,
     1048575, 1048575, 1048575, 1048575, 1048575, 1048575, 262468, 1048575],
      [1048575, 1048575, 1048575, 262468, 1048575, 1048575, 1048575, 1048575, 1048575, 1048575, 1048575, 1048575,
     1048575, 1048575, 1048575, 1048575, 1048575, 1048575, 1048575, 1048575],
      [1048575, 1048575, 1048575, 1048575, 262468, 1048575, 1048575, 1048575, 1048575, 1048575, 1048575, 1048575,
     1048575, 1048575, 1048575, 1048575, 1048575, 1048575, 1048575, 1048575],
      [1048575, 1048575, 1048575, 1048575, 262404, 1048575, 1048575, 1048575, 1048575, 1048575, 1048575, 1048575,
     1048575, 1048575, 1048575, 1048575, 1048575, 1048575, 1048575, 1048575],
      [1048575, 1048575, 266564, 266596, 266564, 1048575, 1048575, 1048575, 1048575, 1048575, 1048575, 1048575,
     1048575, 1048575, 1048575, 1048575, 1048575, 1048575, 1048575, 1048575],
      [1048575, 1048575, 266596, 1048575, 1048575, 266596, 266596, 1048575, 266596, 1048575, 1048575, 1048575, 266596,
     1048575, 1048575, 1048575, 1048575, 1048575, 266596, 1048575],
      [1048575, 1048575, 266596, 1048575, 266596, 1048575, 1048575, 1048575, 1048575, 1048575, 1048575, 1048575,
     1048575, 1048575, 1048575, 1048575, 1048575, 1048575, 1048575, 1048575],
      [1048575, 1048575, 4, 1048575, 1048575, 1048575, 1048575, 1048575, 1048575, 1048575, 1048575, 1048575, 1048575,
     1048575, 1048575, 1048575, 1048575, 1048575, 1048575, 1048575],
      [1048575, 1048575, 4, 32, 64, 1048575, 1048575, 1048575, 1048575, 1048575, 1048575, 1048575, 1048575, 1048575,
     1048575, 1048575, 1048575, 1048575, 1048575, 1048575],
      [1048575, 1048575, 266612, 1048575, 266612, 266612, 266612, 1048575, 266612, 1048575, 1048575, 1048575, 266612,
     1048575, 1048575, 1048575, 1048575, 1048575, 266612, 1048575],
      [1048575, 1048575, 4, 4, 4, 1048575, 1048575, 1048575, 1048575, 1048575, 1048575, 1048575, 1048575, 1048575,
     1048575, 1048575, 1048575, 1048575, 1048575, 1048575],
      [1048575, 1048575, 4, 1048575, 1048575, 4, 4, 1048575, 1048575, 1048575, 1048575, 1048575, 1048575, 1048575,
     1048575, 1048575, 1048575, 1048575, 1048575, 1048575],
      [1048575, 1048575, 4, 1048575, 1048575, 1048575, 1048575, 1048575, 1048575, 1048575, 1048575, 1048575, 1048575,
     1048575, 1048575, 1048575, 1048575, 1048575, 1048575, 1048575],
      [1048575, 1048575, 4, 1048575, 1048575, 1048575, 1048575, 1048575, 1048575, 1048575, 1048575, 1048575, 1048575,
     1048575, 1048575, 1048575, 1048575, 1048575, 1048575, 1048575],
      [1048575, 1048575, 4, 1048575, 1048575, 1048575, 1048575, 1048575, 1048575, 1048575, 1048575, 1048575, 1048575,
     1048575, 1048575, 1048575, 1048575, 1048575, 1048575, 1048575],
      [1048575, 1048575, 4, 1048575, 4, 1048575, 4, 1048575, 4, 1048575, 1048575, 1048575, 4, 1048575, 1048575,
     1048575, 1048575, 1048575, 4, 1048575],
      [1048575, 1048575, 4, 1048575, 4, 1048575, 4, 1048575, 4, 1048575, 1048575, 1048575, 4, 1048575, 1048575,
     1048575, 1048575, 1048575, 4, 1048575],
      [1048575, 1048575, 4, 1048575, 4, 1048575, 4, 1048575, 4, 1048575, 1048575, 1048575, 4, 1048575, 1048575,
     1048575, 1048575, 1048575, 4, 1048575],
      [1048575, 1048575, 4, 1048575, 1048575, 1048575, 1048575, 1048575, 1048575, 1048575, 1048575, 1048575, 1048575,
     1048575, 1048575, 1048575, 1048575, 1048575, 1048575, 1048575],
      [1048575, 1048575, 266580, 1048575, 1048575, 1048575, 266580, 1048575, 266580, 1048575, 1048575, 1048575,
     266580, 1048575, 1048575, 1048575, 1048575, 1048575, 266580, 1048575],
      [1048575, 1048575, 266564, 1048575, 266564, 1048575, 266564, 1048575, 266564, 1048575, 1048575, 1048575, 266564,
     1048575, 1048575, 1048575, 1048575, 1048575, 266564, 1048575],
      [1048575, 1048575, 16, 1048575, 1048575, 1048575, 1048575, 1048575, 1048575, 1048575, 1048575, 1048575, 1048575,
     1048575, 1048575, 1048575, 1048575, 1048575, 1048575, 1048575],
      [1048575, 1048575, 4, 4, 256, 4, 1048575, 32768, 1048575, 1048575, 1048575, 1048575, 1048575, 4, 4, 1048575,
     1048575, 1048575, 1048575, 1048575],
      [1048575, 1048575, 4, 1048575, 1048575, 1048575, 4, 1048575, 1048575, 1048575, 1048575, 1048575, 1048575,
     1048575, 1048575, 1048575, 1048575, 1048575, 1048575, 1048575],
      [1048575, 1048575, 4, 32, 64, 4, 4096, 1048575, 1048575, 32, 64, 1048575, 4096, 1048575, 1048575, 1048575, 4096,
     1048575, 1048575, 1048575],
      [1048575, 1048575, 4, 32, 64, 4, 4096, 1048575, 1048575, 1048575, 1048575, 1048575, 4096, 1048575, 1048575,
     1048575, 1048575, 1048575, 1048575, 1048575],
      [1048575, 1048575, 4, 32, 64, 4, 2048, 8192, 1048575, 32, 64, 1048575, 2048, 262144, 262144, 1048575, 1048575,
     16384, 1048575, 4],
      [1048575, 1048575, 4, 32, 1048575, 4, 1048575, 1048575, 1048575, 1048575, 1048575, 1048575, 1048575, 1048575,
     1048575, 1048575, 1048575, 1048575, 1048575, 1048575],
      [1048575, 1048575, 1048575, 1048575, 4, 1048575, 1048575, 1048575, 1048575, 1048575, 1048575, 1048575, 1048575,
     1048575, 1048575, 1048575, 1048575, 1048575, 1048575, 1048575],
      [],
      [],
      [1048575, 1048575, 4, 1048575, 1048575, 1048575, 1048575, 1048575, 1048575, 1048575, 1048575, 1048575, 1048575,
     1048575, 1048575, 1048575, 1048575, 1048575, 1048575, 1048575],
      [],
      [],
      [1048575, 1048575, 4, 1048575, 1048575, 4, 4096, 1048575, 1048575, 1048575, 1048575, 1048575, 1048575, 1048575,
     1048575, 1048575, 1048575, 1048575, 1048575, 1048575],
      [],
      [],
      [],
      [],
      [1048575, 1048575, 4, 36, 1048575, 1048575, 1048575, 1048575, 1048575, 1048575, 1048575, 1048575, 1048575,
     1048575, 1048575, 1048575, 1048575, 1048575, 1048575, 1048575],
      [],
      [],
      [1048575, 1048575, 4, 1048575, 1048575, 1048575, 1048575, 1048575, 1048575, 1048575, 1048575, 1048575, 1048575,
     1048575, 1048575, 1048575, 1048575, 1048575, 1048575, 1048575],
      [],
      [],
      [],
      [1048575, 1048575, 4, 1048575, 1048575, 1048575, 1048575, 1048575, 1048575, 1048575, 1048575, 1048575, 1048575,
     1048575, 1048575, 1048575, 1048575, 1048575, 1048575, 1048575],
      [],
      [],
      [1048575, 1048575, 266564, 1048575, 1048575, 1048575, 1048575, 1048575, 1048575, 1048575, 1048575, 1048575,
     1048575, 1048575, 1048575, 1048575, 1048575, 1048575, 1048575, 1048575],
      [],
      [],
      [1048575, 1048575, 1048575, 1048575, 4, 1048575, 1048575, 1048575, 1048575, 1048575, 1048575, 1048575, 1048575,
     1048575, 1048575, 1048575, 1048575, 1048575, 1048575, 1048575],
      [],
      [],
      [],
      [1048575, 1048575, 1048575, 1048575, 266564, 1048575, 1048575, 1048575, 1048575, 1048575, 1048575, 1048575,
     1048575, 1048575, 1048575, 1048575, 1048575, 1048575, 1048575, 1048575],
      [],
      [1048575, 1048575, 4, 1048575, 1048575, 1048575, 1048575, 1048575, 1048575, 1048575, 1048575, 1048575, 1048575,
     1048575, 1048575, 1048575, 1048575, 1048575, 1048575, 1048575],
      [1048575, 1048575, 262468, 1048575, 1048575, 1048575, 262468, 1048575, 262468, 1048575, 1048575, 1048575,
     1048575, 1048575, 1048575, 1048575, 1048575, 1048575, 262468, 1048575],
      [],
      [],
      [],
      [],
      [1048575, 1048575, 266596, 1048575, 1048575, 1048575, 266596, 1048575, 266596, 1048575, 1048575, 1048575,
     266596, 1048575, 1048575, 1048575, 1048575, 1048575, 266596, 1048575],
      [],
      [],
      [],
      [1048575, 1048575, 1048575, 1048575, 266612, 1048575, 1048575, 1048575, 1048575, 1048575, 1048575, 1048575,
     1048575, 1048575, 1048575, 1048575, 1048575, 1048575, 1048575, 1048575],
      [],
      [1048575, 1048575, 4, 1048575, 1048575, 4, 4, 1048575, 1048575, 1048575, 1048575, 1048575, 1048575, 1048575,
     1048575, 1048575, 1048575, 1048575, 1048575, 1048575],
      [],
      [1048575, 1048575, 4, 1048575, 1048575, 1048575, 1048575, 1048575, 1048575, 1048575, 1048575, 1048575, 1048575,
     1048575, 1048575, 1048575, 1048575, 1048575, 1048575, 1048575],
      [],
      [1048575, 1048575, 4, 1048575, 4, 1048575, 4, 1048575, 4, 1048575, 1048575, 1048575, 4, 1048575, 1048575,
     1048575, 1048575, 1048575, 4, 1048575],
      [],
      [],
      [],
      [],
      [1048575, 1048575, 266564, 1048575, 266564, 1048575, 1048575, 1048575, 1048575, 1048575, 1048575, 1048575,
     1048575, 1048575, 1048575, 1048575, 1048575, 1048575, 1048575, 1048575],
      [],
      [],
      [],
      [],
      [],
      [],
      [],
      [],
      []]

/-- for each state, the states with which it has no continuation in common -/
def thirdPassDoomed : List Nat :=
  [1048575, 781441, 1, 1, 131201, 1, 188545, 101715, 771201, 1, 166275, 1041539, 1, 67651, 100675, 740803, 715139,
     101715, 2049, 100611]

/-- the states where programs end -/
def thirdPassFinal : Nat := 266580

/-! The states: SINK, START, BN, BP, BO, BL, BW, AN, BI, BK, AO -/

/-- for each state, the next state for each terminal -/
def fourthPassSteps : List (List Nat) :=
  [[0, 0, 0, 0, 0, 0, 0, 0, 0, 0, 0, 0, 0, 0, 0, 0, 0, 0, 0, 0, 0, 0, 0, 0, 0, 0, 0, 0, 0, 0, 0, 0, 0, 0, 0, 0, 0, 0,
     0, 0, 0, 0, 0, 0, 0, 0, 0, 0, 0, 0, 0, 0, 0, 0, 0, 0, 0, 0, 0],
      [0, 0, 0, 0, 0, 0, 0, 0, 0, 0, 0, 0, 0, 0, 0, 0, 0, 0, 0, 0, 0, 0, 0, 0, 0, 0, 0, 0, 0, 0, 0, 0, 0, 0, 0, 0, 0,
     0, 0, 0, 0, 0, 0, 0, 2, 0, 0, 0, 0, 0, 0, 0, 0, 0, 0, 0, 0, 0, 0],
      [2, 2, 3, 2, 3, 2, 2, 2, 3, 2, 3, 2, 2, 4, 2, 4, 2, 2, 2, 2, 2, 2, 2, 2, 2, 2, 5, 4, 2, 6, 2, 2, 2, 7, 2, 2, 2,
     2, 3, 2, 2, 2, 2, 2, 2, 2, 2, 2, 2, 2, 2, 2, 2, 2, 2, 8, 2, 2, 2],
      [2, 2, 3, 2, 3, 2, 2, 2, 3, 2, 3, 2, 2, 4, 2, 4, 2, 2, 2, 2, 2, 2, 2, 2, 2, 2, 0, 4, 2, 6, 2, 2, 2, 7, 2, 2, 2,
     2, 3, 2, 2, 2, 2, 2, 2, 2, 2, 2, 2, 2, 2, 2, 2, 2, 2, 2, 2, 2, 2],
      [2, 2, 3, 2, 3, 2, 2, 2, 3, 2, 3, 2, 2, 4, 2, 4, 2, 2, 2, 2, 2, 2, 2, 2, 2, 2, 5, 4, 2, 6, 2, 2, 2, 7, 2, 2, 2,
     2, 3, 2, 2, 2, 2, 2, 2, 2, 2, 2, 2, 2, 2, 2, 2, 2, 2, 8, 2, 2, 2],
      [0, 0, 0, 0, 0, 0, 0, 0, 0, 0, 0, 0, 0, 0, 0, 0, 0, 0, 0, 0, 0, 0, 0, 0, 0, 0, 0, 0, 0, 0, 0, 0, 0, 0, 0, 0, 0,
     0, 0, 0, 0, 0, 0, 0, 0, 0, 0, 0, 0, 0, 0, 0, 0, 0, 0, 9, 0, 0, 0],
      [2, 2, 3, 2, 3, 2, 2, 2, 3, 2, 3, 2, 2, 4, 2, 4, 2, 2, 2, 2, 2, 2, 2, 2, 2, 2, 5, 4, 2, 6, 2, 2, 2, 2, 2, 2, 2,
     2, 3, 2, 2, 2, 2, 2, 2, 2, 2, 2, 2, 2, 2, 2, 2, 2, 2, 8, 2, 2, 2],
      [7, 7, 7, 7, 7, 7, 7, 7, 7, 7, 7, 7, 7, 10, 7, 10, 7, 7, 7, 7, 7, 7, 7, 7, 7, 7, 0, 10, 7, 10, 7, 7, 7, 7, 7, 7,
     7, 7, 7, 7, 7, 7, 7, 7, 7, 7, 7, 7, 7, 7, 7, 7, 7, 7, 7, 7, 7, 7, 7],
      [2, 2, 3, 0, 3, 2, 2, 2, 3, 2, 3, 2, 2, 4, 2, 0, 2, 2, 2, 2, 2, 2, 2, 2, 2, 2, 5, 4, 2, 6, 2, 2, 2, 7, 2, 2, 2,
     2, 3, 2, 2, 2, 2, 2, 2, 2, 2, 2, 2, 2, 2, 2, 2, 2, 2, 8, 2, 2, 2],
      [0, 0, 0, 2, 0, 0, 0, 0, 0, 0, 0, 0, 0, 0, 0, 4, 0, 0, 0, 0, 0, 0, 0, 0, 0, 0, 0, 0, 0, 0, 0, 0, 0, 0, 0, 0, 0,
     0, 0, 0, 0, 0, 0, 0, 0, 0, 0, 0, 0, 0, 0, 0, 0, 0, 0, 0, 0, 0, 0],
      [7, 7, 7, 7, 7, 7, 7, 7, 7, 7, 7, 7, 7, 10, 7, 10, 7, 7, 7, 7, 7, 7, 7, 7, 7, 7, 7, 10, 7, 10, 7, 7, 7, 7, 7, 7,
     7, 7, 7, 7, 7, 7, 7, 7, 7, 7, 7, 7, 7, 7, 7, 7, 7, 7, 7, 7, 7, 7, 7]]

/-- for each nonterminal and each state, the set of states (one bit each) behind it -/
def fourthPassSets : List (List Nat) :=
  [[2047, 2047, 4, 4, 4, 2047, 2047, 128, 4, 2047, 128],
      [2047, 2047, 4, 4, 4, 2047, 2047, 128, 4, 2047, 128],
      [2047, 2047, 4, 2047, 2047, 2047, 2047, 2047, 2047, 2047, 2047],
      [2047, 2047, 4, 2047, 2047, 2047, 2047, 2047, 2047, 2047, 2047],
      [2047, 2047, 4, 4, 4, 2047, 2047, 128, 4, 2047, 128],
      [2047, 2047, 260, 4, 260, 2047, 2047, 128, 260, 2047, 128],
      [2047, 2047, 260, 2047, 2047, 2047, 2047, 128, 260, 2047, 2047],
      [2047, 2047, 4, 4, 2047, 2047, 2047, 128, 2047, 2047, 2047],
      [2047, 2047, 4, 4, 2047, 2047, 2047, 128, 2047, 2047, 2047],
      [2047, 2047, 4, 4, 2047, 2047, 2047, 128, 2047, 2047, 2047],
      [2047, 2047, 4, 4, 2047, 2047, 2047, 128, 4, 2047, 2047],
      [2047, 2047, 4, 4, 2047, 2047, 2047, 128, 4, 2047, 2047],
      [2047, 2047, 4, 2047, 2047, 2047, 2047, 128, 2047, 2047, 2047],
      [2047, 2047, 4, 2047, 2047, 2047, 2047, 128, 2047, 2047, 2047],
      [2047, 2047, 4, 2047, 2047, 2047, 2047, 128, 2047, 2047, 2047],
      [2047, 2047, 4, 2047, 2047, 2047, 2047, 128, 2047, 2047, 2047],
      [2047, 2047, 4, 4, 2047, 2047, 2047, 128, 2047, 2047, 2047],
      [2047, 2047, 4, 2047, 2047, 2047, 2047, 128, 2047, 2047, 2047],
      [2047, 1152, 2047, 2047, 2047, 2047, 2047, 2047, 2047, 2047, 2047],
      [2047, 2047, 260, 2047, 2047, 2047, 2047, 2047, 2047, 2047, 2047],
      [2047, 2047, 260, 2047, 2047, 2047, 2047, 2047, 260, 2047, 2047],
      [2047, 2047, 2047, 2047, 2047, 2047, 2047, 128, 2047, 2047, 2047],
      [2047, 2047, 4, 2047, 2047, 2047, 2047, 128, 2047, 4, 2047],
      [2047, 2047, 4, 2047, 4, 2047, 2047, 2047, 2047, 2047, 2047],
      [2047, 2047, 2047, 4, 2047, 2047, 2047, 128, 2047, 2047, 2047],
      [2047, 2047, 4, 2047, 2047, 2047, 2047, 128, 4, 2047, 2047],
      [2047, 2047, 2047, 2047, 260, 2047, 2047, 2047, 2047, 2047, 128],
      [2047, 2047, 260, 2047, 2047, 2047, 260, 128, 260, 2047, 128],
      [2047, 2047, 260, 260, 2047, 2047, 2047, 128, 2047, 2047, 2047],
      [2047, 2047, 260, 2047, 2047, 2047, 2047, 128, 260, 2047, 2047],
      [2047, 2047, 260, 2047, 2047, 2047, 2047, 128, 260, 2047, 2047],
      [2047, 2047, 2047, 260, 2047, 2047, 2047, 128, 2047, 2047, 2047],
      [2047, 2047, 2047, 2047, 260, 2047, 2047, 2047, 2047, 2047, 128],
      [2047, 2047, 4, 2047, 4, 2047, 2047, 128, 2047, 2047, 128],
      [2047, 2047, 2047, 2047, 2047, 2047, 2047, 128, 2047, 2047, 128],
      [2047, 2047, 2047, 2047, 2047, 2047, 2047, 128, 2047, 2047, 2047],
      [2047, 2047, 2047, 2047, 2047, 2047, 2047, 128, 2047, 2047, 128],
      [2047, 2047, 2047, 2047, 2047, 2047, 2047, 128, 2047, 2047, 2047],
      [2047, 2047, 2047, 2047, 2047, 2047, 2047, 128, 2047, 2047, 128],
      [2047, 2047, 2047, 2047, 2047, 2047, 2047, 1152, 2047, 2047, 1152],
      [2047, 2047, 2047, 2047, 2047, 2047, 2047, 128, 2047, 2047, 128],
      [2047, 2047, 2047, 2047, 2047, 2047, 2047, 128, 2047, 2047, 2047],
      [2047, 2047, 2047, 2047, 2047, 2047, 2047, 128, 2047, 2047, 2047],
      [2047, 2047, 2047, 2047, 2047, 2047, 2047, 128, 2047, 2047, 2047],
      [2047, 2047, 2047, 2047, 2047, 2047, 2047, 128, 2047, 2047, 2047],
      [2047, 2047, 2047, 2047, 2047, 2047, 2047, 128, 2047, 2047, 128],
      [2047, 2047, 2047, 2047, 2047, 2047, 2047, 128, 2047, 2047, 128],
      [2047, 2047, 2047, 2047, 2047, 2047, 2047, 128, 2047, 2047, 128],
      [2047, 2047, 2047, 2047, 2047, 2047, 2047, 128, 2047, 2047, 2047],
      [2047, 2047, 1152, 2047, 2047, 2047, 2047, 2047, 1152, 2047, 2047],
      [2047, 2047, 2047, 2047, 2047, 2047, 2047, 128, 2047, 2047, 128],
      [2047, 2047, 2047, 2047, 2047, 2047, 2047, 1024, 2047, 2047, 2047],
      [2047, 2047, 4, 4, 4, 2047, 2047, 128, 4, 2047, 128],
      [2047, 2047, 4, 2047, 2047, 2047, 2047, 128, 2047, 2047, 2047],
      [2047, 2047, 256, 4, 256, 512, 2047, 128, 256, 2047, 128],
      [2047, 2047, 4, 4, 4, 2047, 4, 128, 4, 2047, 128],
      [2047, 2047, 4, 4, 4, 2047, 2047, 128, 4, 2047, 128],
      [2047, 2047, 4, 4, 2047, 2047, 2047, 128, 4, 2047, 2047],
      [2047, 2047, 4, 2047, 4, 2047, 2047, 128, 2047, 2047, 128],
      [],
      [],
      [2047, 2047, 4, 2047, 2047, 2047, 2047, 2047, 2047, 2047, 2047],
      [],
      [],
      [2047, 2047, 260, 2047, 2047, 2047, 2047, 128, 260, 2047, 2047],
      [],
      [],
      [],
      [],
      [2047, 2047, 4, 4, 2047, 2047, 2047, 128, 4, 2047, 2047],
      [],
      [],
      [2047, 2047, 4, 2047, 2047, 2047, 2047, 128, 2047, 2047, 2047],
      [],
      [],
      [],
      [2047, 2047, 4, 2047, 2047, 2047, 2047, 128, 2047, 2047, 2047],
      [],
      [],
      [2047, 2047, 260, 2047, 2047, 2047, 2047, 2047, 2047, 2047, 2047],
      [],
      [],
      [2047, 2047, 2047, 2047, 4, 2047, 2047, 2047, 2047, 2047, 2047],
      [],
      [],
      [],
      [2047, 2047, 2047, 2047, 2047, 2047, 260, 2047, 2047, 2047, 128],
      [],
      [2047, 2047, 260, 2047, 2047, 2047, 2047, 128, 2047, 2047, 2047],
      [2047, 2047, 260, 2047, 2047, 2047, 2047, 128, 260, 2047, 2047],
      [],
      [],
      [],
      [],
      [2047, 2047, 2047, 2047, 2047, 2047, 2047, 128, 2047, 2047, 2047],
      [],
      [],
      [],
      [2047, 2047, 2047, 2047, 2047, 2047, 2047, 2047, 2047, 2047, 1152],
      [],
      [2047, 2047, 2047, 2047, 2047, 2047, 2047, 128, 2047, 2047, 2047],
      [],
      [2047, 2047, 2047, 2047, 2047, 2047, 2047, 128, 2047, 2047, 2047],
      [],
      [2047, 2047, 2047, 2047, 2047, 2047, 2047, 128, 2047, 2047, 128],
      [],
      [],
      [],
      [],
      [2047, 2047, 2047, 2047, 2047, 2047, 2047, 128, 2047, 2047, 128],
      [],
      [],
      [],
      [],
      [],
      [],
      [],
      [],
      []]

/-- for each state, the states with which it has no continuation in common -/
def fourthPassDoomed : List Nat :=
  [2047, 545, 33, 1, 33, 855, 33, 1, 545, 291, 1]

/-- the states where programs end -/
def fourthPassFinal : Nat := 1152

/-! The states: SINK, START, B, H, G, BX, F, BI, GX, GI, BD, FX, FI, GD, FD -/

/-- for each state, the next state for each terminal -/
def fifthPassSteps : List (List Nat) :=
  [[0, 0, 0, 0, 0, 0, 0, 0, 0, 0, 0, 0, 0, 0, 0, 0, 0, 0, 0, 0, 0, 0, 0, 0, 0, 0, 0, 0, 0, 0, 0, 0, 0, 0, 0, 0, 0, 0,
     0, 0, 0, 0, 0, 0, 0, 0, 0, 0, 0, 0, 0, 0, 0, 0, 0, 0, 0, 0, 0],
      [0, 0, 0, 0, 0, 0, 0, 0, 0, 0, 0, 0, 0, 0, 0, 0, 0, 0, 0, 0, 0, 0, 0, 0, 0, 0, 0, 0, 0, 0, 0, 0, 0, 0, 0, 0, 0,
     0, 0, 0, 0, 0, 0, 0, 2, 0, 0, 0, 0, 0, 0, 0, 0, 0, 0, 0, 0, 0, 0],
      [2, 2, 3, 2, 2, 2, 2, 2, 3, 2, 3, 2, 4, 2, 2, 2, 2, 2, 2, 2, 2, 2, 2, 2, 2, 2, 3, 2, 2, 2, 2, 2, 2, 2, 2, 2, 2,
     5, 6, 2, 2, 2, 2, 2, 2, 2, 2, 2, 2, 2, 5, 5, 2, 2, 2, 7, 7, 5, 5],
      [2, 2, 3, 2, 2, 2, 2, 2, 3, 2, 3, 2, 4, 2, 2, 2, 2, 2, 2, 2, 2, 2, 2, 2, 2, 2, 3, 2, 2, 2, 2, 2, 2, 2, 2, 2, 2,
     8, 0, 2, 2, 2, 2, 2, 2, 2, 2, 2, 2, 2, 8, 8, 2, 2, 2, 9, 9, 8, 8],
      [2, 2, 3, 2, 2, 2, 2, 2, 3, 2, 3, 2, 4, 2, 2, 2, 2, 2, 2, 2, 2, 2, 2, 2, 2, 2, 3, 2, 2, 2, 2, 2, 2, 2, 2, 2, 2,
     8, 6, 2, 2, 2, 2, 2, 2, 2, 2, 2, 2, 2, 8, 8, 2, 2, 2, 9, 9, 8, 8],
      [2, 2, 3, 2, 10, 2, 2, 2, 3, 2, 3, 2, 4, 2, 2, 2, 2, 2, 2, 2, 2, 2, 2, 2, 2, 2, 3, 2, 2, 2, 2, 2, 2, 2, 2, 2, 2,
     5, 6, 2, 2, 2, 2, 2, 2, 2, 2, 2, 2, 2, 5, 5, 2, 2, 2, 7, 7, 5, 5],
      [0, 0, 0, 0, 0, 0, 0, 0, 0, 0, 0, 0, 0, 0, 0, 0, 0, 0, 0, 0, 0, 0, 0, 0, 0, 0, 0, 0, 0, 0, 0, 0, 0, 0, 0, 0, 0,
     11, 0, 0, 0, 0, 0, 0, 0, 0, 0, 0, 0, 0, 11, 11, 0, 0, 0, 12, 12, 11, 11],
      [2, 2, 3, 0, 10, 2, 2, 2, 3, 2, 3, 2, 4, 2, 2, 2, 2, 2, 2, 2, 2, 2, 2, 2, 2, 2, 3, 2, 2, 2, 2, 2, 2, 2, 2, 2, 2,
     5, 6, 2, 2, 2, 2, 2, 2, 2, 2, 2, 2, 2, 5, 5, 2, 2, 2, 7, 7, 5, 5],
      [2, 2, 3, 2, 13, 2, 2, 2, 3, 2, 3, 2, 4, 2, 2, 2, 2, 2, 2, 2, 2, 2, 2, 2, 2, 2, 3, 2, 2, 2, 2, 2, 2, 2, 2, 2, 2,
     5, 6, 2, 2, 2, 2, 2, 2, 2, 2, 2, 2, 2, 5, 5, 2, 2, 2, 7, 7, 5, 5],
      [2, 2, 3, 2, 13, 2, 2, 2, 3, 2, 3, 2, 4, 2, 2, 2, 2, 2, 2, 2, 2, 2, 2, 2, 2, 2, 3, 2, 2, 2, 2, 2, 2, 2, 2, 2, 2,
     5, 6, 2, 2, 2, 2, 2, 2, 2, 2, 2, 2, 2, 5, 5, 2, 2, 2, 7, 7, 5, 5],
      [2, 2, 3, 2, 2, 2, 2, 2, 3, 2, 3, 2, 4, 2, 2, 2, 2, 2, 2, 2, 2, 2, 2, 2, 2, 2, 3, 2, 2, 2, 2, 2, 2, 2, 2, 2, 2,
     5, 0, 2, 2, 2, 2, 2, 2, 2, 2, 2, 2, 2, 5, 5, 2, 2, 2, 7, 7, 5, 5],
      [0, 0, 0, 0, 14, 0, 0, 0, 0, 0, 0, 0, 0, 0, 0, 0, 0, 0, 0, 0, 0, 0, 0, 0, 0, 0, 0, 0, 0, 0, 0, 0, 0, 0, 0, 0, 0,
     0, 0, 0, 0, 0, 0, 0, 0, 0, 0, 0, 0, 0, 0, 0, 0, 0, 0, 0, 0, 0, 0],
      [0, 0, 0, 2, 14, 0, 0, 0, 0, 0, 0, 0, 0, 0, 0, 0, 0, 0, 0, 0, 0, 0, 0, 0, 0, 0, 0, 0, 0, 0, 0, 0, 0, 0, 0, 0, 0,
     0, 0, 0, 0, 0, 0, 0, 0, 0, 0, 0, 0, 0, 0, 0, 0, 0, 0, 0, 0, 0, 0],
      [2, 2, 3, 2, 2, 2, 2, 2, 3, 2, 3, 2, 4, 2, 2, 2, 2, 2, 2, 2, 2, 2, 2, 2, 2, 2, 3, 2, 2, 2, 2, 2, 2, 2, 2, 2, 2,
     8, 0, 2, 2, 2, 2, 2, 2, 2, 2, 2, 2, 2, 8, 8, 2, 2, 2, 9, 9, 8, 8],
      [0, 0, 0, 0, 0, 0, 0, 0, 0, 0, 0, 0, 0, 0, 0, 0, 0, 0, 0, 0, 0, 0, 0, 0, 0, 0, 0, 0, 0, 0, 0, 0, 0, 0, 0, 0, 0,
     0, 0, 0, 0, 0, 0, 0, 0, 0, 0, 0, 0, 0, 0, 0, 0, 0, 0, 12, 12, 0, 0]]

/-- for each nonterminal and each state, the set of states (one bit each) behind it -/
def fifthPassSets : List (List Nat) :=
  [[32767, 32767, 32, 256, 32767, 32, 2048, 32, 32, 32, 32, 32767, 32767, 256, 32767],
      [32767, 32767, 32, 256, 32767, 32, 2048, 32, 32, 32, 32, 32767, 32767, 256, 32767],
      [32767, 32767, 32, 32767, 32767, 32, 32767, 32767, 32767, 32767, 32767, 32767, 32767, 32767, 32767],
      [32767, 32767, 32, 32767, 32767, 32767, 32767, 32767, 32767, 32767, 32767, 32767, 32767, 32767, 32767],
      [32767, 32767, 32, 288, 32767, 32, 32767, 32, 32, 32767, 32, 32767, 32767, 32767, 32767],
      [32767, 32767, 128, 512, 32767, 128, 4096, 128, 128, 128, 128, 32767, 32767, 32767, 32767],
      [32767, 32767, 132, 32767, 32767, 32767, 32767, 132, 32767, 32767, 32767, 32767, 32767, 32767, 32767],
      [32767, 32767, 36, 292, 32767, 32767, 32767, 32767, 32767, 32767, 36, 32767, 32767, 32767, 32767],
      [32767, 32767, 36, 36, 32767, 32767, 32767, 32767, 32767, 32767, 32767, 32767, 32767, 32767, 32767],
      [32767, 32767, 36, 292, 32767, 32767, 32767, 32767, 32767, 32767, 32767, 32767, 32767, 32767, 32767],
      [32767, 32767, 36, 292, 32767, 36, 32767, 36, 36, 32767, 32767, 32767, 32767, 32767, 32767],
      [32767, 32767, 4, 4, 32767, 4, 32767, 4, 4, 32767, 4, 32767, 32767, 32767, 32767],
      [32767, 32767, 36, 32767, 32767, 32767, 32767, 32767, 32767, 32767, 32767, 32767, 32767, 32767, 32767],
      [32767, 32767, 36, 32767, 32767, 36, 32767, 32767, 32767, 32767, 32767, 32767, 32767, 32767, 32767],
      [32767, 32767, 36, 32767, 36, 32767, 32767, 32767, 32767, 32767, 32767, 32767, 32767, 32767, 32767],
      [32767, 32767, 36, 32767, 32767, 32767, 32767, 32767, 32767, 32767, 32767, 32767, 32767, 32767, 32767],
      [32767, 32767, 36, 292, 32767, 36, 32767, 32767, 32767, 32767, 32767, 32767, 32767, 32767, 32767],
      [32767, 32767, 36, 32767, 32767, 36, 32767, 32767, 36, 32767, 32767, 32767, 32767, 32767, 32767],
      [32767, 164, 32767, 32767, 32767, 32767, 32767, 32767, 32767, 32767, 32767, 32767, 32767, 32767, 32767],
      [32767, 32767, 164, 32767, 32767, 164, 32767, 32767, 32767, 32767, 32767, 32767, 32767, 32767, 32767],
      [32767, 32767, 164, 32767, 32767, 164, 32767, 164, 32767, 32767, 32767, 32767, 32767, 32767, 32767],
      [32767, 32767, 32767, 36, 36, 32767, 36, 32767, 32767, 32767, 32767, 32767, 32767, 32767, 32767],
      [32767, 32767, 32767, 32767, 32767, 32767, 32767, 32767, 32767, 36, 32767, 32767, 36, 32767, 32767],
      [32767, 32767, 36, 32767, 32767, 36, 32767, 32767, 32767, 32767, 32767, 32767, 32767, 32767, 32767],
      [32767, 32767, 32767, 292, 32767, 32767, 32767, 32767, 32767, 32767, 32767, 32767, 32767, 32767, 32767],
      [32767, 32767, 32767, 32767, 32767, 4, 32767, 4, 32767, 32767, 32767, 32767, 32767, 32767, 32767],
      [32767, 32767, 164, 32767, 32767, 32767, 32767, 32767, 32767, 32767, 32767, 32767, 32767, 32767, 32767],
      [32767, 32767, 164, 32767, 32767, 164, 32767, 164, 32767, 32767, 32767, 32767, 32767, 32767, 32767],
      [32767, 32767, 164, 932, 32767, 32767, 32767, 32767, 32767, 32767, 32767, 32767, 32767, 32767, 32767],
      [32767, 32767, 164, 32767, 32767, 164, 32767, 164, 164, 32767, 32767, 32767, 32767, 32767, 32767],
      [32767, 32767, 164, 32767, 32767, 164, 32767, 164, 32767, 32767, 32767, 32767, 32767, 32767, 32767],
      [32767, 32767, 32767, 164, 32767, 32767, 32767, 32767, 32767, 32767, 32767, 32767, 32767, 32767, 32767],
      [32767, 32767, 164, 32767, 32767, 32767, 32767, 32767, 32767, 32767, 32767, 32767, 32767, 32767, 32767],
      [32767, 32767, 36, 32767, 32767, 32767, 32767, 32767, 32767, 32767, 32767, 32767, 32767, 32767, 32767],
      [32767, 32767, 164, 932, 32767, 32767, 32767, 32767, 32767, 32767, 32767, 32767, 32767, 32767, 32767],
      [32767, 32767, 932, 32767, 32767, 932, 32767, 932, 932, 932, 32767, 32767, 32767, 32767, 32767],
      [32767, 32767, 932, 32767, 32767, 32767, 32767, 32767, 32767, 32767, 32767, 32767, 32767, 32767, 32767],
      [32767, 32767, 32767, 32767, 32767, 4, 32767, 32767, 32767, 32767, 32767, 32767, 32767, 32767, 32767],
      [32767, 32767, 160, 768, 32767, 32767, 32767, 160, 32767, 32767, 32767, 32767, 32767, 32767, 32767],
      [32767, 32767, 932, 32767, 32767, 932, 32767, 932, 932, 932, 32767, 32767, 32767, 32767, 32767],
      [32767, 32767, 132, 132, 32767, 32767, 32767, 32767, 32767, 32767, 32767, 32767, 32767, 32767, 32767],
      [32767, 32767, 4, 32767, 32767, 32767, 32767, 4, 32767, 4, 32767, 32767, 32767, 32767, 32767],
      [32767, 32767, 32767, 36, 36, 32767, 32767, 32767, 32767, 32767, 32767, 32767, 32767, 32767, 32767],
      [32767, 32767, 36, 36, 32767, 36, 32767, 32767, 32767, 32767, 32767, 32767, 32767, 32767, 32767],
      [32767, 32767, 32767, 32767, 32767, 4, 32767, 4, 32767, 32767, 32767, 32767, 32767, 32767, 32767],
      [32767, 32767, 4, 32767, 32767, 4, 32767, 4, 32767, 32767, 32767, 32767, 32767, 32767, 32767],
      [32767, 32767, 4, 32767, 32767, 4, 32767, 4, 32767, 32767, 32767, 32767, 32767, 32767, 32767],
      [32767, 32767, 4, 32767, 32767, 4, 32767, 4, 32767, 32767, 32767, 32767, 32767, 32767, 32767],
      [32767, 32767, 4, 32767, 32767, 32767, 32767, 32767, 32767, 32767, 32767, 32767, 32767, 32767, 32767],
      [32767, 32767, 164, 32767, 32767, 164, 32767, 164, 32767, 32767, 32767, 32767, 32767, 32767, 32767],
      [32767, 32767, 164, 32767, 32767, 164, 32767, 164, 32767, 32767, 32767, 32767, 32767, 32767, 32767],
      [32767, 32767, 4, 32767, 32767, 32767, 32767, 32767, 32767, 32767, 32767, 32767, 32767, 32767, 32767],
      [32767, 32767, 4, 4, 32767, 4, 32767, 4, 4, 32767, 4, 32767, 32767, 32767, 32767],
      [32767, 32767, 4, 32767, 32767, 4, 32767, 32767, 32767, 32767, 32767, 32767, 32767, 32767, 32767],
      [32767, 32767, 128, 512, 512, 128, 4096, 128, 128, 128, 128, 32767, 32767, 512, 4096],
      [32767, 32767, 128, 512, 32767, 128, 4096, 128, 128, 128, 128, 32767, 32767, 32767, 32767],
      [32767, 32767, 32, 256, 32767, 32, 2048, 32, 32, 32, 32, 32767, 32767, 256, 32767],
      [32767, 32767, 32, 256, 32767, 32, 32767, 32, 32, 32767, 32, 32767, 32767, 32767, 32767],
      [32767, 32767, 4, 32767, 32767, 32767, 32767, 32767, 32767, 32767, 32767, 32767, 32767, 32767, 32767],
      [],
      [],
      [32767, 32767, 32, 32767, 32767, 32767, 32767, 32767, 32767, 32767, 32767, 32767, 32767, 32767, 32767],
      [],
      [],
      [32767, 32767, 128, 640, 32767, 128, 32767, 128, 128, 128, 32767, 32767, 32767, 32767, 32767],
      [],
      [],
      [],
      [],
      [32767, 32767, 36, 292, 32767, 36, 32767, 36, 36, 32767, 32767, 32767, 32767, 32767, 32767],
      [],
      [],
      [32767, 32767, 36, 32767, 32767, 36, 32767, 32767, 32767, 32767, 32767, 32767, 32767, 32767, 32767],
      [],
      [],
      [],
      [32767, 32767, 32767, 32767, 32767, 36, 32767, 32767, 36, 32767, 32767, 32767, 32767, 32767, 32767],
      [],
      [],
      [32767, 32767, 32767, 32767, 32767, 164, 32767, 32767, 32767, 32767, 32767, 32767, 32767, 32767, 32767],
      [],
      [],
      [32767, 32767, 36, 32767, 32767, 32767, 32767, 32767, 32767, 32767, 32767, 32767, 32767, 32767, 32767],
      [],
      [],
      [],
      [32767, 32767, 164, 32767, 32767, 32767, 32767, 32767, 32767, 32767, 32767, 32767, 32767, 32767, 32767],
      [],
      [32767, 32767, 32767, 32767, 32767, 164, 32767, 32767, 164, 32767, 32767, 32767, 32767, 32767, 32767],
      [32767, 32767, 164, 32767, 32767, 164, 32767, 164, 32767, 32767, 32767, 32767, 32767, 32767, 32767],
      [],
      [],
      [],
      [],
      [32767, 32767, 932, 32767, 32767, 932, 32767, 932, 32767, 32767, 32767, 32767, 32767, 32767, 32767],
      [],
      [],
      [],
      [32767, 32767, 932, 32767, 32767, 32767, 32767, 32767, 32767, 32767, 32767, 32767, 32767, 32767, 32767],
      [],
      [32767, 32767, 32767, 32767, 32767, 32767, 32767, 4, 32767, 4, 32767, 32767, 32767, 32767, 32767],
      [],
      [32767, 32767, 36, 36, 32767, 36, 32767, 32767, 32767, 32767, 32767, 32767, 32767, 32767, 32767],
      [],
      [32767, 32767, 4, 32767, 32767, 4, 32767, 4, 32767, 32767, 32767, 32767, 32767, 32767, 32767],
      [],
      [],
      [],
      [],
      [32767, 32767, 164, 32767, 32767, 32767, 32767, 32767, 32767, 32767, 32767, 32767, 32767, 32767, 32767],
      [],
      [],
      [],
      [],
      [],
      [],
      [],
      [],
      []]

/-- for each state, the states with which it has no continuation in common -/
def fifthPassDoomed : List Nat :=
  [32767, 22593, 18497, 2049, 2049, 18497, 8103, 22593, 16449, 16449, 18497, 25855, 16579, 2049, 8103]

/-- the states where programs end -/
def fifthPassFinal : Nat := 164

/-! The states: SINK, START, O, M, I, MX, MI, MD -/

/-- for each state, the next state for each terminal -/
def sixthPassSteps : List (List Nat) :=
  [[0, 0, 0, 0, 0, 0, 0, 0, 0, 0, 0, 0, 0, 0, 0, 0, 0, 0, 0, 0, 0, 0, 0, 0, 0, 0, 0, 0, 0, 0, 0, 0, 0, 0, 0, 0, 0, 0,
     0, 0, 0, 0, 0, 0, 0, 0, 0, 0, 0, 0, 0, 0, 0, 0, 0, 0, 0, 0, 0],
      [0, 0, 0, 0, 0, 0, 0, 0, 0, 0, 0, 0, 0, 0, 0, 0, 0, 0, 0, 0, 0, 0, 0, 0, 0, 0, 0, 0, 0, 0, 0, 0, 0, 0, 0, 0, 0,
     0, 0, 0, 0, 0, 0, 0, 2, 0, 0, 0, 0, 0, 0, 0, 0, 0, 0, 0, 0, 0, 0],
      [2, 2, 2, 2, 2, 2, 2, 2, 2, 2, 2, 2, 2, 2, 2, 2, 2, 2, 2, 2, 2, 2, 2, 2, 2, 2, 2, 2, 3, 2, 2, 2, 2, 2, 2, 2, 2,
     2, 2, 2, 2, 2, 2, 2, 2, 2, 2, 2, 2, 2, 2, 2, 2, 2, 2, 4, 4, 2, 2],
      [0, 0, 0, 0, 0, 0, 0, 0, 0, 0, 0, 0, 0, 0, 0, 0, 0, 0, 0, 0, 0, 0, 0, 0, 0, 0, 0, 0, 0, 0, 0, 0, 0, 0, 0, 0, 0,
     5, 0, 0, 0, 0, 0, 0, 0, 0, 0, 0, 0, 0, 5, 5, 0, 0, 0, 6, 6, 5, 5],
      [2, 2, 2, 2, 2, 2, 2, 2, 2, 2, 2, 2, 2, 2, 2, 2, 2, 2, 2, 2, 2, 2, 2, 2, 2, 2, 2, 2, 3, 0, 2, 2, 2, 2, 2, 2, 2,
     2, 2, 2, 2, 2, 2, 2, 2, 2, 2, 2, 2, 2, 2, 2, 2, 2, 2, 4, 4, 2, 2],
      [0, 0, 0, 0, 7, 0, 0, 0, 0, 0, 0, 0, 0, 0, 0, 0, 0, 0, 0, 0, 0, 0, 0, 0, 0, 0, 0, 0, 0, 0, 0, 0, 0, 0, 0, 0, 0,
     0, 0, 0, 0, 0, 0, 0, 0, 0, 0, 0, 0, 0, 0, 0, 0, 0, 0, 0, 0, 0, 0],
      [0, 0, 0, 0, 0, 0, 0, 0, 0, 0, 0, 0, 0, 0, 0, 0, 0, 0, 0, 0, 0, 0, 0, 0, 0, 0, 0, 0, 0, 2, 0, 0, 0, 0, 0, 0, 0,
     0, 0, 0, 0, 0, 0, 0, 0, 0, 0, 0, 0, 0, 0, 0, 0, 0, 0, 0, 0, 0, 0],
      [0, 0, 0, 0, 0, 0, 0, 0, 0, 0, 0, 0, 0, 0, 0, 0, 0, 0, 0, 0, 0, 0, 0, 0, 0, 0, 0, 0, 0, 0, 0, 0, 0, 0, 0, 0, 0,
     0, 0, 0, 0, 0, 0, 0, 0, 0, 0, 0, 0, 0, 0, 0, 0, 0, 0, 6, 6, 0, 0]]

/-- for each nonterminal and each state, the set of states (one bit each) behind it -/
def sixthPassSets : List (List Nat) :=
  [[255, 255, 4, 32, 4, 255, 255, 255],
      [255, 255, 4, 32, 4, 255, 255, 255],
      [255, 255, 4, 255, 255, 255, 255, 255],
      [255, 255, 4, 255, 255, 255, 255, 255],
      [255, 255, 4, 255, 4, 255, 255, 255],
      [255, 255, 16, 64, 16, 255, 255, 255],
      [255, 255, 20, 255, 20, 255, 255, 255],
      [255, 255, 4, 255, 255, 255, 255, 255],
      [255, 255, 4, 255, 255, 255, 255, 255],
      [255, 255, 4, 255, 255, 255, 255, 255],
      [255, 255, 4, 255, 4, 255, 255, 255],
      [255, 255, 4, 255, 4, 255, 255, 255],
      [255, 255, 4, 255, 255, 255, 255, 255],
      [255, 255, 4, 255, 255, 255, 255, 255],
      [255, 255, 4, 255, 255, 255, 255, 255],
      [255, 255, 4, 255, 255, 255, 255, 255],
      [255, 255, 4, 255, 255, 255, 255, 255],
      [255, 255, 4, 255, 255, 255, 255, 255],
      [255, 20, 255, 255, 255, 255, 255, 255],
      [255, 255, 20, 255, 255, 255, 255, 255],
      [255, 255, 20, 255, 20, 255, 255, 255],
      [255, 255, 4, 255, 255, 255, 255, 255],
      [255, 255, 255, 255, 4, 255, 255, 255],
      [255, 255, 4, 255, 255, 255, 255, 255],
      [255, 255, 4, 255, 255, 255, 255, 255],
      [255, 255, 4, 255, 4, 255, 255, 255],
      [255, 255, 20, 255, 255, 255, 255, 255],
      [255, 255, 20, 255, 20, 255, 255, 255],
      [255, 255, 20, 255, 255, 255, 255, 255],
      [255, 255, 20, 255, 20, 255, 255, 255],
      [255, 255, 20, 255, 20, 255, 255, 255],
      [255, 255, 20, 255, 255, 255, 255, 255],
      [255, 255, 20, 255, 255, 255, 255, 255],
      [255, 255, 4, 255, 255, 255, 255, 255],
      [255, 255, 20, 255, 255, 255, 255, 255],
      [255, 255, 20, 255, 20, 255, 255, 255],
      [255, 255, 20, 255, 255, 255, 255, 255],
      [255, 255, 4, 255, 255, 255, 255, 255],
      [255, 255, 20, 255, 20, 255, 255, 255],
      [255, 255, 20, 255, 20, 255, 255, 255],
      [255, 255, 20, 255, 255, 255, 255, 255],
      [255, 255, 4, 255, 4, 255, 255, 255],
      [255, 255, 4, 255, 255, 255, 255, 255],
      [255, 255, 4, 255, 255, 255, 255, 255],
      [255, 255, 4, 255, 4, 255, 255, 255],
      [255, 255, 4, 255, 4, 255, 255, 255],
      [255, 255, 4, 255, 4, 255, 255, 255],
      [255, 255, 4, 255, 4, 255, 255, 255],
      [255, 255, 4, 255, 255, 255, 255, 255],
      [255, 255, 20, 255, 20, 255, 255, 255],
      [255, 255, 20, 255, 20, 255, 255, 255],
      [255, 255, 4, 255, 255, 255, 255, 255],
      [255, 255, 4, 255, 4, 255, 255, 255],
      [255, 255, 4, 255, 255, 255, 255, 255],
      [255, 255, 16, 64, 16, 255, 255, 64],
      [255, 255, 16, 64, 16, 255, 255, 255],
      [255, 255, 4, 32, 4, 255, 255, 255],
      [255, 255, 4, 255, 4, 255, 255, 255],
      [255, 255, 4, 255, 255, 255, 255, 255],
      [],
      [],
      [255, 255, 4, 255, 255, 255, 255, 255],
      [],
      [],
      [255, 255, 16, 255, 16, 255, 255, 255],
      [],
      [],
      [],
      [],
      [255, 255, 4, 255, 4, 255, 255, 255],
      [],
      [],
      [255, 255, 4, 255, 255, 255, 255, 255],
      [],
      [],
      [],
      [255, 255, 4, 255, 255, 255, 255, 255],
      [],
      [],
      [255, 255, 20, 255, 255, 255, 255, 255],
      [],
      [],
      [255, 255, 4, 255, 255, 255, 255, 255],
      [],
      [],
      [],
      [255, 255, 20, 255, 255, 255, 255, 255],
      [],
      [255, 255, 20, 255, 255, 255, 255, 255],
      [255, 255, 20, 255, 20, 255, 255, 255],
      [],
      [],
      [],
      [],
      [255, 255, 20, 255, 20, 255, 255, 255],
      [],
      [],
      [],
      [255, 255, 20, 255, 255, 255, 255, 255],
      [],
      [255, 255, 255, 255, 4, 255, 255, 255],
      [],
      [255, 255, 4, 255, 255, 255, 255, 255],
      [],
      [255, 255, 4, 255, 4, 255, 255, 255],
      [],
      [],
      [],
      [],
      [255, 255, 20, 255, 255, 255, 255, 255],
      [],
      [],
      [],
      [],
      [],
      [],
      [],
      [],
      []]

/-- for each state, the states with which it has no continuation in common -/
def sixthPassDoomed : List Nat :=
  [255, 233, 169, 119, 233, 223, 187, 119]

/-- the states where programs end -/
def sixthPassFinal : Nat := 20

/-! The states: SINK, START, O, W, R, D, V, Q, DC, DI, E, DD -/

/-- for each state, the next state for each terminal -/
def seventhPassSteps : List (List Nat) :=
  [[0, 0, 0, 0, 0, 0, 0, 0, 0, 0, 0, 0, 0, 0, 0, 0, 0, 0, 0, 0, 0, 0, 0, 0, 0, 0, 0, 0, 0, 0, 0, 0, 0, 0, 0, 0, 0, 0,
     0, 0, 0, 0, 0, 0, 0, 0, 0, 0, 0, 0, 0, 0, 0, 0, 0, 0, 0, 0, 0],
      [0, 0, 0, 0, 0, 0, 0, 0, 0, 0, 0, 0, 0, 0, 0, 0, 0, 0, 0, 0, 0, 0, 0, 0, 0, 0, 0, 0, 0, 0, 0, 0, 0, 0, 0, 0, 0,
     0, 0, 0, 0, 0, 0, 0, 2, 0, 0, 0, 0, 0, 0, 0, 0, 0, 0, 0, 0, 0, 0],
      [2, 2, 2, 2, 2, 2, 3, 2, 2, 2, 2, 2, 2, 2, 2, 2, 4, 4, 2, 2, 2, 2, 2, 2, 2, 2, 2, 2, 2, 2, 2, 2, 2, 2, 2, 2, 2,
     2, 2, 2, 4, 5, 2, 2, 2, 2, 2, 2, 2, 2, 2, 2, 2, 2, 2, 2, 2, 2, 2],
      [3, 3, 3, 3, 3, 3, 3, 6, 3, 3, 3, 3, 3, 3, 3, 3, 3, 3, 3, 3, 3, 3, 3, 3, 3, 3, 3, 3, 3, 3, 3, 3, 3, 3, 3, 3, 3,
     3, 3, 3, 3, 0, 3, 3, 3, 3, 3, 3, 3, 3, 3, 3, 3, 3, 3, 3, 3, 3, 3],
      [2, 2, 2, 2, 4, 2, 7, 2, 2, 2, 2, 2, 2, 2, 2, 2, 4, 4, 2, 2, 2, 2, 2, 2, 2, 2, 2, 2, 2, 2, 2, 2, 2, 2, 2, 2, 2,
     4, 2, 2, 4, 0, 2, 2, 2, 2, 2, 2, 2, 2, 4, 4, 2, 2, 2, 4, 4, 4, 4],
      [0, 0, 0, 0, 0, 0, 0, 0, 0, 0, 0, 0, 0, 0, 0, 0, 0, 0, 0, 0, 0, 0, 0, 0, 0, 0, 0, 0, 0, 0, 0, 0, 0, 0, 0, 0, 0,
     8, 0, 0, 0, 0, 0, 0, 0, 0, 0, 0, 0, 0, 8, 8, 0, 0, 0, 9, 9, 8, 8],
      [0, 0, 0, 0, 0, 0, 3, 0, 0, 0, 0, 0, 0, 0, 0, 0, 0, 0, 2, 0, 0, 0, 0, 0, 0, 0, 0, 0, 0, 0, 0, 0, 0, 0, 0, 0, 0,
     0, 0, 0, 0, 0, 0, 0, 0, 0, 0, 0, 0, 0, 0, 0, 0, 0, 0, 0, 0, 0, 0],
      [7, 7, 7, 7, 7, 7, 7, 10, 7, 7, 7, 7, 7, 7, 7, 7, 7, 7, 7, 7, 7, 7, 7, 7, 7, 7, 7, 7, 7, 7, 7, 7, 7, 7, 7, 7, 7,
     7, 7, 7, 7, 0, 7, 7, 7, 7, 7, 7, 7, 7, 7, 7, 7, 7, 7, 7, 7, 7, 7],
      [0, 0, 0, 0, 11, 0, 0, 0, 0, 0, 0, 0, 0, 0, 0, 0, 0, 0, 0, 0, 0, 0, 0, 0, 0, 0, 0, 0, 0, 0, 0, 0, 0, 0, 0, 0, 0,
     0, 0, 0, 0, 0, 0, 0, 0, 0, 0, 0, 0, 0, 0, 0, 0, 0, 0, 0, 0, 0, 0],
      [0, 0, 0, 0, 0, 0, 7, 0, 0, 0, 0, 0, 0, 0, 0, 0, 0, 0, 0, 0, 0, 0, 0, 0, 0, 0, 0, 0, 0, 0, 0, 0, 0, 0, 0, 0, 0,
     0, 0, 0, 0, 0, 0, 0, 0, 0, 0, 0, 0, 0, 0, 0, 0, 0, 0, 0, 0, 0, 0],
      [2, 2, 2, 2, 2, 2, 7, 2, 2, 2, 2, 2, 2, 2, 2, 2, 4, 4, 0, 2, 2, 2, 2, 2, 2, 2, 2, 2, 2, 2, 2, 2, 2, 2, 2, 2, 2,
     2, 2, 2, 4, 5, 2, 2, 2, 2, 2, 2, 2, 2, 2, 2, 2, 2, 2, 2, 2, 2, 2],
      [0, 0, 0, 0, 0, 0, 0, 0, 0, 0, 0, 0, 0, 0, 0, 0, 0, 0, 0, 0, 0, 0, 0, 0, 0, 0, 0, 0, 0, 0, 0, 0, 0, 0, 0, 0, 0,
     0, 0, 0, 0, 0, 0, 0, 0, 0, 0, 0, 0, 0, 0, 0, 0, 0, 0, 9, 9, 0, 0]]

/-- for each nonterminal and each state, the set of states (one bit each) behind it -/
def seventhPassSets : List (List Nat) :=
  [[4095, 4095, 4, 8, 16, 4095, 4095, 128, 4095, 4095, 4095, 4095],
      [4095, 4095, 4, 8, 16, 4095, 4095, 128, 4095, 4095, 4095, 4095],
      [4095, 4095, 4, 4095, 4095, 4095, 4095, 4095, 4095, 4095, 4095, 4095],
      [4095, 4095, 4, 4095, 4095, 4095, 4095, 4095, 4095, 4095, 4095, 4095],
      [4095, 4095, 4, 4095, 4095, 4095, 4095, 4095, 4095, 4095, 4095, 4095],
      [4095, 4095, 4, 8, 16, 4095, 4095, 128, 4095, 4095, 4095, 4095],
      [4095, 4095, 4, 4095, 4095, 4095, 4095, 4095, 4095, 4095, 4095, 4095],
      [4095, 4095, 4, 4095, 4095, 4095, 4095, 4095, 4095, 4095, 4095, 4095],
      [4095, 4095, 4, 4095, 4095, 4095, 4095, 4095, 4095, 4095, 4095, 4095],
      [4095, 4095, 4, 4095, 4095, 4095, 4095, 4095, 4095, 4095, 4095, 4095],
      [4095, 4095, 4, 4095, 4095, 4095, 4095, 4095, 4095, 4095, 4095, 4095],
      [4095, 4095, 4, 4095, 4095, 4095, 4095, 4095, 4095, 4095, 4095, 4095],
      [4095, 4095, 4, 4095, 4095, 4095, 4095, 4095, 4095, 4095, 4095, 4095],
      [4095, 4095, 4, 4095, 4095, 4095, 4095, 4095, 4095, 4095, 4095, 4095],
      [4095, 4095, 4, 4095, 4095, 4095, 4095, 4095, 4095, 4095, 4095, 4095],
      [4095, 4095, 4, 4095, 4095, 4095, 4095, 4095, 4095, 4095, 4095, 4095],
      [4095, 4095, 4, 4095, 4095, 4095, 4095, 4095, 4095, 4095, 4095, 4095],
      [4095, 4095, 4, 4095, 4095, 4095, 4095, 4095, 4095, 4095, 4095, 4095],
      [4095, 4, 4095, 4095, 4095, 4095, 4095, 4095, 4095, 4095, 4095, 4095],
      [4095, 4095, 4, 4095, 4095, 4095, 4095, 4095, 4095, 4095, 4095, 4095],
      [4095, 4095, 4, 4095, 4095, 4095, 4095, 4095, 4095, 4095, 4095, 4095],
      [4095, 4095, 4, 4095, 4095, 4095, 4095, 4095, 4095, 4095, 4095, 4095],
      [4095, 4095, 4, 4095, 4095, 4095, 4095, 4095, 4095, 4095, 4095, 4095],
      [4095, 4095, 4, 4095, 4095, 4095, 4095, 4095, 4095, 4095, 4095, 4095],
      [4095, 4095, 4, 4095, 4095, 4095, 4095, 4095, 4095, 4095, 4095, 4095],
      [4095, 4095, 4, 4095, 4095, 4095, 4095, 4095, 4095, 4095, 4095, 4095],
      [4095, 4095, 4, 4095, 4095, 4095, 4095, 4095, 4095, 4095, 4095, 4095],
      [4095, 4095, 4, 4095, 4095, 4095, 4095, 4095, 4095, 4095, 4095, 4095],
      [4095, 4095, 4, 4095, 4095, 4095, 4095, 4095, 4095, 4095, 4095, 4095],
      [4095, 4095, 4, 4095, 4095, 4095, 4095, 4095, 4095, 4095, 4095, 4095],
      [4095, 4095, 4, 4095, 4095, 4095, 4095, 4095, 4095, 4095, 4095, 4095],
      [4095, 4095, 4, 4095, 4095, 4095, 4095, 4095, 4095, 4095, 4095, 4095],
      [4095, 4095, 4, 4095, 4095, 4095, 4095, 4095, 4095, 4095, 4095, 4095],
      [4095, 4095, 4, 4095, 4095, 4095, 4095, 4095, 4095, 4095, 4095, 4095],
      [4095, 4095, 1044, 4095, 4095, 4095, 4095, 4095, 4095, 4095, 4095, 4095],
      [4095, 4095, 1044, 4095, 1044, 4095, 4095, 4095, 4095, 4095, 1044, 4095],
      [4095, 4095, 1044, 4095, 4095, 4095, 4095, 4095, 4095, 4095, 4095, 4095],
      [4095, 4095, 4095, 4095, 4, 4095, 4095, 4095, 4095, 4095, 4095, 4095],
      [4095, 4095, 4, 4095, 4095, 4095, 4095, 4095, 4095, 4095, 4095, 4095],
      [4095, 4095, 1044, 4095, 1044, 4095, 4095, 4095, 4095, 4095, 1044, 4095],
      [4095, 4095, 1044, 4095, 4095, 4095, 4095, 4095, 4095, 4095, 4095, 4095],
      [4095, 4095, 64, 4095, 1024, 4095, 64, 4095, 4095, 1024, 1024, 4095],
      [4095, 4095, 4, 4095, 4095, 4095, 4095, 4095, 4095, 4095, 4095, 4095],
      [4095, 4095, 4, 4095, 4095, 4095, 4095, 4095, 4095, 4095, 4095, 4095],
      [4095, 4095, 4, 4095, 4095, 4095, 4095, 4095, 4095, 4095, 4095, 4095],
      [4095, 4095, 4, 4095, 4095, 4095, 4095, 4095, 4095, 4095, 4095, 4095],
      [4095, 4095, 4, 4095, 4095, 4095, 4095, 4095, 4095, 4095, 4095, 4095],
      [4095, 4095, 4, 4095, 4095, 4095, 4095, 4095, 4095, 4095, 4095, 4095],
      [4095, 4095, 4, 4095, 4095, 4095, 4095, 4095, 4095, 4095, 4095, 4095],
      [4095, 4095, 4, 4095, 4095, 4095, 4095, 4095, 4095, 4095, 4095, 4095],
      [4095, 4095, 4, 4095, 4095, 4095, 4095, 4095, 4095, 4095, 4095, 4095],
      [4095, 4095, 4, 4095, 4095, 4095, 4095, 4095, 4095, 4095, 4095, 4095],
      [4095, 4095, 4, 4095, 4095, 4095, 4095, 4095, 4095, 4095, 4095, 4095],
      [4095, 4095, 4, 4095, 4095, 4095, 4095, 4095, 4095, 4095, 4095, 4095],
      [4095, 4095, 4, 8, 16, 512, 4095, 128, 4095, 4095, 4095, 4095],
      [4095, 4095, 4, 8, 16, 4095, 4095, 128, 4095, 4095, 4095, 4095],
      [4095, 4095, 4, 8, 16, 4095, 4095, 128, 4095, 4095, 4095, 4095],
      [4095, 4095, 4, 4095, 4095, 4095, 4095, 4095, 4095, 4095, 4095, 4095],
      [4095, 4095, 4, 4095, 4095, 4095, 4095, 4095, 4095, 4095, 4095, 4095],
      [],
      [],
      [4095, 4095, 4, 4095, 4095, 4095, 4095, 4095, 4095, 4095, 4095, 4095],
      [],
      [],
      [4095, 4095, 4, 4095, 4095, 4095, 4095, 4095, 4095, 4095, 4095, 4095],
      [],
      [],
      [],
      [],
      [4095, 4095, 4, 4095, 4095, 4095, 4095, 4095, 4095, 4095, 4095, 4095],
      [],
      [],
      [4095, 4095, 4, 4095, 4095, 4095, 4095, 4095, 4095, 4095, 4095, 4095],
      [],
      [],
      [],
      [4095, 4095, 4, 4095, 4095, 4095, 4095, 4095, 4095, 4095, 4095, 4095],
      [],
      [],
      [4095, 4095, 4, 4095, 4095, 4095, 4095, 4095, 4095, 4095, 4095, 4095],
      [],
      [],
      [4095, 4095, 4, 4095, 4095, 4095, 4095, 4095, 4095, 4095, 4095, 4095],
      [],
      [],
      [],
      [4095, 4095, 4, 4095, 4095, 4095, 4095, 4095, 4095, 4095, 4095, 4095],
      [],
      [4095, 4095, 4, 4095, 4095, 4095, 4095, 4095, 4095, 4095, 4095, 4095],
      [4095, 4095, 4, 4095, 4095, 4095, 4095, 4095, 4095, 4095, 4095, 4095],
      [],
      [],
      [],
      [],
      [4095, 4095, 1044, 4095, 1044, 4095, 4095, 4095, 4095, 4095, 1044, 4095],
      [],
      [],
      [],
      [4095, 4095, 1044, 4095, 4095, 4095, 4095, 4095, 4095, 4095, 4095, 4095],
      [],
      [4095, 4095, 64, 4095, 1024, 4095, 4095, 4095, 4095, 1024, 4095, 4095],
      [],
      [4095, 4095, 4, 4095, 4095, 4095, 4095, 4095, 4095, 4095, 4095, 4095],
      [],
      [4095, 4095, 4, 4095, 4095, 4095, 4095, 4095, 4095, 4095, 4095, 4095],
      [],
      [],
      [],
      [],
      [4095, 4095, 4, 4095, 4095, 4095, 4095, 4095, 4095, 4095, 4095, 4095],
      [],
      [],
      [],
      [],
      [],
      [],
      [],
      [],
      []]

/-- for each state, the states with which it has no continuation in common -/
def seventhPassDoomed : List Nat :=
  [4095, 2913, 2849, 2977, 1, 1871, 3875, 9, 3695, 2415, 2401, 1871]

/-- the states where programs end -/
def seventhPassFinal : Nat := 4

/-! The states: SINK, START, O, V, K, Y -/

/-- for each state, the next state for each terminal -/
def eighthPassSteps : List (List Nat) :=
  [[0, 0, 0, 0, 0, 0, 0, 0, 0, 0, 0, 0, 0, 0, 0, 0, 0, 0, 0, 0, 0, 0, 0, 0, 0, 0, 0, 0, 0, 0, 0, 0, 0, 0, 0, 0, 0, 0,
     0, 0, 0, 0, 0, 0, 0, 0, 0, 0, 0, 0, 0, 0, 0, 0, 0, 0, 0, 0, 0],
      [0, 0, 0, 0, 0, 0, 0, 0, 0, 0, 0, 0, 0, 0, 0, 0, 0, 0, 0, 0, 0, 0, 0, 0, 0, 0, 0, 0, 0, 0, 0, 0, 0, 0, 0, 0, 0,
     0, 0, 0, 0, 0, 0, 0, 2, 0, 0, 0, 0, 0, 0, 0, 0, 0, 0, 0, 0, 0, 0],
      [2, 2, 2, 2, 2, 2, 2, 2, 2, 2, 2, 2, 2, 3, 2, 3, 2, 2, 2, 2, 2, 2, 2, 2, 2, 2, 2, 3, 2, 3, 2, 0, 0, 2, 2, 2, 2,
     2, 2, 2, 2, 2, 2, 2, 2, 2, 2, 2, 2, 2, 2, 2, 2, 2, 2, 2, 2, 2, 2],
      [2, 2, 2, 2, 2, 2, 2, 2, 0, 2, 2, 2, 2, 3, 2, 3, 2, 2, 2, 2, 2, 2, 2, 2, 2, 2, 2, 3, 2, 3, 2, 4, 5, 2, 2, 2, 2,
     2, 2, 2, 2, 2, 2, 2, 2, 2, 2, 2, 2, 2, 2, 2, 2, 2, 2, 2, 2, 2, 0],
      [0, 0, 0, 0, 0, 0, 0, 0, 2, 0, 0, 0, 0, 0, 0, 0, 0, 0, 0, 0, 0, 0, 0, 0, 0, 0, 0, 0, 0, 0, 0, 0, 0, 0, 0, 0, 0,
     0, 0, 0, 0, 0, 0, 0, 0, 0, 0, 0, 0, 0, 0, 0, 0, 0, 0, 0, 0, 0, 0],
      [0, 0, 0, 0, 0, 0, 0, 0, 0, 0, 0, 0, 0, 0, 0, 0, 0, 0, 0, 0, 0, 0, 0, 0, 0, 0, 0, 0, 0, 0, 0, 0, 0, 0, 0, 0, 0,
     0, 0, 0, 0, 0, 0, 0, 0, 0, 0, 0, 0, 0, 0, 0, 0, 0, 0, 0, 0, 0, 2]]

/-- for each nonterminal and each state, the set of states (one bit each) behind it -/
def eighthPassSets : List (List Nat) :=
  [[63, 63, 4, 4, 63, 63],
      [63, 63, 4, 4, 63, 63],
      [63, 63, 4, 63, 63, 63],
      [63, 63, 4, 63, 63, 63],
      [63, 63, 4, 4, 63, 63],
      [63, 63, 4, 4, 63, 63],
      [63, 63, 4, 63, 63, 63],
      [63, 63, 4, 63, 63, 63],
      [63, 63, 4, 63, 63, 63],
      [63, 63, 4, 63, 63, 63],
      [63, 63, 4, 63, 63, 63],
      [63, 63, 4, 63, 63, 63],
      [63, 63, 4, 63, 63, 63],
      [63, 63, 4, 63, 63, 63],
      [63, 63, 4, 63, 63, 63],
      [63, 63, 4, 63, 63, 63],
      [63, 63, 4, 63, 63, 63],
      [63, 63, 4, 63, 63, 63],
      [63, 12, 63, 63, 63, 63],
      [63, 63, 4, 63, 63, 63],
      [63, 63, 4, 63, 63, 63],
      [63, 63, 4, 63, 63, 63],
      [63, 63, 4, 63, 63, 63],
      [63, 63, 4, 4, 63, 63],
      [63, 63, 4, 63, 63, 63],
      [63, 63, 4, 63, 63, 63],
      [63, 63, 63, 4, 63, 63],
      [63, 63, 4, 4, 63, 63],
      [63, 63, 4, 63, 63, 63],
      [63, 63, 4, 63, 63, 63],
      [63, 63, 4, 63, 63, 63],
      [63, 63, 4, 63, 63, 63],
      [63, 63, 63, 4, 63, 63],
      [63, 63, 4, 4, 63, 63],
      [63, 63, 4, 4, 63, 63],
      [63, 63, 4, 63, 63, 63],
      [63, 63, 4, 4, 63, 63],
      [63, 63, 4, 63, 63, 63],
      [63, 63, 4, 4, 63, 63],
      [63, 63, 12, 12, 63, 63],
      [63, 63, 4, 4, 63, 63],
      [63, 63, 4, 63, 63, 63],
      [63, 63, 4, 63, 63, 63],
      [63, 63, 4, 63, 63, 63],
      [63, 63, 4, 63, 63, 63],
      [63, 63, 4, 4, 63, 63],
      [63, 63, 4, 4, 63, 63],
      [63, 63, 4, 4, 63, 63],
      [63, 63, 4, 63, 63, 63],
      [63, 63, 12, 63, 63, 63],
      [63, 63, 4, 4, 63, 63],
      [63, 63, 8, 63, 63, 63],
      [63, 63, 4, 4, 63, 63],
      [63, 63, 4, 63, 63, 63],
      [63, 63, 4, 4, 63, 63],
      [63, 63, 4, 4, 63, 63],
      [63, 63, 4, 4, 63, 63],
      [63, 63, 4, 63, 63, 4],
      [63, 63, 4, 4, 63, 63],
      [],
      [],
      [63, 63, 4, 63, 63, 63],
      [],
      [],
      [63, 63, 4, 63, 63, 63],
      [],
      [],
      [],
      [],
      [63, 63, 4, 63, 63, 63],
      [],
      [],
      [63, 63, 4, 63, 63, 63],
      [],
      [],
      [],
      [63, 63, 4, 63, 63, 63],
      [],
      [],
      [63, 63, 4, 63, 63, 63],
      [],
      [],
      [63, 63, 63, 4, 63, 63],
      [],
      [],
      [],
      [63, 63, 63, 4, 63, 63],
      [],
      [63, 63, 4, 63, 63, 63],
      [63, 63, 4, 63, 63, 63],
      [],
      [],
      [],
      [],
      [63, 63, 4, 63, 63, 63],
      [],
      [],
      [],
      [63, 63, 63, 12, 63, 63],
      [],
      [63, 63, 4, 63, 63, 63],
      [],
      [63, 63, 4, 63, 63, 63],
      [],
      [63, 63, 4, 4, 63, 63],
      [],
      [],
      [],
      [],
      [63, 63, 4, 4, 63, 63],
      [],
      [],
      [],
      [],
      [],
      [],
      [],
      [],
      []]

/-- for each state, the states with which it has no continuation in common -/
def eighthPassDoomed : List Nat :=
  [63, 49, 1, 49, 43, 27]

/-- the states where programs end -/
def eighthPassFinal : Nat := 12

/-- for each nonterminal, each state and whether the counter is known to be zero: the states behind it -/
def letInTable : List (List (Option (List Nat))) :=
  [[some [0], some [0], some [0], some [0]],
      [some [0], some [0], some [0], some [0]],
      [none, some [0], none, none],
      [none, some [0], none, none],
      [some [0], some [0], some [0], some [0]],
      [some [0], some [0], some [0], some [0]],
      [some [0], some [0], none, none],
      [some [0], some [0], none, none],
      [some [0], some [0], none, none],
      [some [0], some [0], none, none],
      [some [0], some [0], none, none],
      [some [0], some [0], none, none],
      [some [0], some [0], none, none],
      [some [0], some [0], none, none],
      [some [0], some [0], none, none],
      [some [0], some [0], none, none],
      [some [0], some [0], none, none],
      [some [0], some [0], none, none],
      [none, some [0, 1], none, none],
      [none, some [0], none, none],
      [none, some [0], none, none],
      [none, some [0], none, none],
      [some [0], some [0], none, none],
      [none, some [0], none, some [0]],
      [some [0], some [0], none, none],
      [some [0], some [0], none, none],
      [none, none, some [0], some [0]],
      [some [0], some [0], some [0], some [0]],
      [some [0], some [0], none, none],
      [some [0], some [0], none, none],
      [some [0], some [0], none, none],
      [some [0], some [0], none, none],
      [none, none, some [0], some [0]],
      [some [0], some [0], some [0], some [0]],
      [none, some [0], none, some [0]],
      [none, some [0], none, none],
      [none, some [0], none, some [0]],
      [none, some [0], none, none],
      [none, some [0], none, some [0]],
      [none, some [0, 1], none, some [0, 1]],
      [none, some [0], none, some [0]],
      [none, some [0], none, none],
      [none, some [0], none, none],
      [none, some [0], none, none],
      [none, some [0], none, none],
      [none, some [0], none, some [0]],
      [none, some [0], none, some [0]],
      [none, some [0], none, some [0]],
      [none, some [0], none, none],
      [none, some [0, 1], none, none],
      [none, some [0], none, some [0]],
      [none, some [1], none, none],
      [some [0], some [0], some [0], some [0]],
      [some [0], some [0], none, none],
      [some [0], some [0], some [0], some [0]],
      [some [0], some [0], some [0], some [0]],
      [some [0], some [0], some [0], some [0]],
      [some [0], some [0], none, none],
      [some [0], some [0], some [0], some [0]],
      [],
      [],
      [none, some [0], none, none],
      [],
      [],
      [some [0], some [0], none, none],
      [],
      [],
      [],
      [],
      [some [0], some [0], none, none],
      [],
      [],
      [some [0], some [0], none, none],
      [],
      [],
      [],
      [some [0], some [0], none, none],
      [],
      [],
      [none, some [0], none, none],
      [],
      [],
      [none, none, none, some [0]],
      [],
      [],
      [],
      [none, none, some [0], some [0]],
      [],
      [some [0], some [0], none, none],
      [some [0], some [0], none, none],
      [],
      [],
      [],
      [],
      [none, some [0], none, none],
      [],
      [],
      [],
      [none, none, none, some [0, 1]],
      [],
      [none, some [0], none, none],
      [],
      [none, some [0], none, none],
      [],
      [none, some [0], none, some [0]],
      [],
      [],
      [],
      [],
      [none, some [0], none, some [0]],
      [],
      [],
      [],
      [],
      [],
      [],
      [],
      [],
      []]

/-- for each nonterminal, each state and whether the counter is known to be zero: the states behind it -/
def headerTable : List (List (Option (List Nat))) :=
  [[none, some [0], none, none, none, some [0], none, some [4], none, none, some [5], some
     [5], some [5], some [5], none, none, none, some [8], none, some [8]],
      [none, some [0], none, none, none, some [0], none, some [4], none, none, some [5], some
     [5], some [5], some [5], none, none, none, some [8], none, some [8]],
      [none, some [0], none, none, none, none, none, none, none, none, none, none, none,
     none, none, none, none, none, none, none],
      [none, some [0], none, none, none, none, none, none, none, none, none, none, none,
     none, none, none, none, none, none, none],
      [none, some [0], none, none, none, some [0], none, none, none, none, some [5], some [5],
     some [5], some [5], none, none, none, some [8], none, some [8]],
      [none, some [0], none, none, none, some [0], none, none, none, none, some [5], some [5],
     none, none, none, none, none, some [8], none, some [8]],
      [none, some [0, 2], none, none, none, none, none, none, none, none, none, none, none,
     none, none, none, none, some [8, 9], none, none],
      [none, some [0, 2], none, none, none, none, none, none, none, none, some [5, 6], some [5,
     6], none, none, none, none, none, some [8, 9], none, none],
      [none, some [0, 2], none, none, none, none, none, none, none, none, some [5, 6], some [5,
     6], none, none, none, none, none, some [8, 9], none, none],
      [none, some [0, 2], none, none, none, none, none, none, none, none, some [5, 6], some [5,
     6], none, none, none, none, none, some [8, 9], none, none],
      [none, some [0, 2], none, none, none, some [0, 2], none, none, none, none, some [5, 6],
     some [5, 6], some [5, 6], some [5, 6], none, none, none, some [8, 9], none, some [8, 9]],
      [none, some [0], none, none, none, some [0], none, none, none, none, some [5], some [5],
     some [5], some [5], none, none, none, some [8], none, some [8]],
      [none, some [0, 2], none, none, none, none, none, none, none, none, some [5, 6], some [5,
     6], none, none, none, none, none, some [8, 9], none, none],
      [none, some [0, 2], none, none, none, some [0, 2], none, none, none, none, some [5, 6],
     some [5, 6], some [5, 6], some [5, 6], none, none, none, some [8, 9], none, some [8, 9]],
      [none, some [0, 2], none, none, none, none, none, none, none, none, some [5, 6], some [5,
     6], none, none, none, none, none, some [8, 9], none, none],
      [none, some [0, 2], none, none, none, none, none, none, none, none, some [5, 6], some [5,
     6], none, none, none, none, none, some [8, 9], none, none],
      [none, some [0, 2], none, none, none, some [0, 2], none, none, none, none, some [5, 6],
     some [5, 6], some [5, 6], some [5, 6], none, none, none, some [8, 9], none, some [8, 9]],
      [none, some [0, 2], none, none, none, some [0, 2], none, none, none, none, some [5, 6],
     none, some [5, 6], none, none, none, none, some [8, 9], none, some [8, 9]],
      [none, some [7, 8, 9], none, none, none, none, none, none, none, none, none, none,
     none, none, none, none, none, none, none, none],
      [none, some [0, 2], none, none, none, none, none, none, none, none, none, none, none,
     none, none, none, none, none, none, none],
      [none, some [0, 2], none, none, none, some [0, 2], none, none, none, none, none, none,
     none, none, none, none, none, none, none, none],
      [none, none, none, none, none, none, none, none, none, none, none, some [5, 6], none,
     none, none, none, none, some [8, 9], none, none],
      [none, some [0, 2], none, none, none, none, none, none, none, none, none, some [5, 6],
     none, none, none, none, none, some [8, 9], none, none],
      [none, some [0, 2], none, none, none, some [0, 2], none, none, none, none, none, none,
     none, none, none, none, none, none, none, none],
      [none, some [0, 2], none, none, none, none, none, none, none, none, some [5, 6], none,
     none, none, none, none, none, some [8, 9], none, none],
      [none, some [0], none, none, none, none, none, none, none, none, none, none, none,
     none, none, none, none, some [8], none, none],
      [none, some [0, 2], none, none, none, none, none, none, none, none, none, none, none,
     none, none, none, none, some [8, 9], none, none],
      [none, some [0, 2], none, some [0, 2], none, some [0, 2], none, none, none, none, none,
     none, none, none, none, none, none, some [8, 9], none, some [8, 9]],
      [none, some [0, 2], none, none, none, none, none, none, none, none, none, none, none,
     none, none, none, none, some [8, 9], none, none],
      [none, some [0, 2], none, none, none, some [0, 2], none, none, none, none, none, none,
     none, none, none, none, none, some [8, 9], none, some [8, 9]],
      [none, some [0, 2], none, none, none, some [0, 2], none, none, none, none, none, none,
     none, none, none, none, none, some [8, 9], none, some [8, 9]],
      [none, some [0, 2], none, none, none, none, none, none, none, none, none, none, none,
     none, none, none, none, some [8, 9], none, none],
      [none, some [0, 2], none, none, none, none, none, none, none, none, none, none, none,
     none, none, none, none, some [8, 9], none, none],
      [none, some [0, 2], none, none, none, none, none, none, none, none, none, none, none,
     none, none, none, none, some [8, 9], none, none],
      [none, none, none, none, none, none, none, none, none, none, none, none, none, none,
     none, none, none, some [8, 9], none, some [8, 9]],
      [none, none, none, none, none, none, none, none, none, none, none, none, none, none,
     none, none, none, some [8, 9], none, some [8, 9]],
      [none, none, none, none, none, none, none, none, none, none, none, none, none, none,
     none, none, none, some [8, 9], none, some [8, 9]],
      [none, none, none, none, none, none, none, none, none, none, none, none, none, none,
     none, none, none, some [9], none, none],
      [none, none, none, none, none, none, none, none, none, none, none, none, none, none,
     none, none, none, some [8], none, some [8]],
      [none, none, none, none, none, none, none, none, none, none, none, none, none, none,
     none, none, none, some [8, 9], none, some [8, 9]],
      [none, none, none, none, none, none, none, none, none, none, none, none, none, none,
     none, none, none, some [8], none, some [8]],
      [none, none, none, none, none, none, none, none, none, none, none, none, none, none,
     none, none, none, some [8], none, none],
      [none, none, none, none, none, none, none, none, none, none, none, some [5, 6], none,
     none, none, none, none, some [8, 9], none, none],
      [none, none, none, none, none, none, none, none, none, none, none, some [5, 6], none,
     some [5, 6], none, none, none, some [8, 9], none, some [8, 9]],
      [none, none, none, none, none, none, none, none, none, some [7], none, none, none,
     none, none, none, none, some [9], none, none],
      [none, none, none, none, none, none, none, none, none, none, none, none, none, none,
     none, some [8], none, some [8], none, some [8]],
      [none, none, none, none, none, none, none, none, none, none, none, none, none, none,
     none, some [8], none, some [8], none, some [8]],
      [none, none, none, none, none, none, none, none, none, none, none, none, none, none,
     none, some [8], none, some [8], none, some [8]],
      [none, none, none, none, none, none, none, none, none, none, none, none, none, none,
     none, none, none, none, none, some [8]],
      [none, some [7, 8, 9], none, none, none, some [7, 8, 9], none, none, none, none, none,
     none, none, none, none, none, none, none, none, none],
      [none, none, none, none, none, none, none, none, none, none, none, none, none, none,
     none, some [8, 9], none, some [8, 9], none, some [8, 9]],
      [none, none, none, none, none, none, none, none, none, none, none, none, none, none,
     none, some [8], none, none, none, none],
      [none, some [0], none, none, none, some [0], none, none, none, none, some [5], some [5],
     some [5], some [5], none, none, none, some [8], none, some [8]],
      [none, some [0], none, none, none, none, none, none, none, none, none, none, none,
     none, none, none, none, some [8], none, none],
      [none, some [0], none, none, none, some [0], none, none, none, none, some [5], some [5],
     none, none, none, none, none, some [8], none, some [8]],
      [none, some [0], none, some [0], none, some [0], none, none, none, none, some [5], some
     [5], none, none, none, none, none, some [8], none, some [8]],
      [none, some [0], none, none, none, some [0], none, some [4], none, none, some [5], some
     [5], some [5], some [5], none, none, none, some [8], none, some [8]],
      [none, some [0], none, none, none, some [0], none, none, none, none, some [5], some [5],
     some [5], some [5], none, none, none, some [8], none, some [8]],
      [none, some [0], none, none, none, none, none, none, none, none, none, none, none,
     none, none, none, none, some [8], none, none],
      [],
      [],
      [none, some [0], none, none, none, none, none, none, none, none, none, none, none,
     none, none, none, none, none, none, none],
      [],
      [],
      [none, some [0], none, none, none, none, none, none, none, none, none, none, none,
     none, none, none, none, some [8], none, none],
      [],
      [],
      [],
      [],
      [none, some [0, 2], none, none, none, none, none, none, none, none, some [5, 6], some [5,
     6], none, none, none, none, none, some [8, 9], none, none],
      [],
      [],
      [none, some [0, 2], none, none, none, some [0, 2], none, none, none, none, some [5, 6],
     some [5, 6], some [5, 6], some [5, 6], none, none, none, some [8, 9], none, some [8, 9]],
      [],
      [],
      [],
      [none, some [0, 2], none, none, none, none, none, none, none, none, some [5, 6], none,
     none, none, none, none, none, some [8, 9], none, none],
      [],
      [],
      [none, some [0, 2], none, none, none, none, none, none, none, none, none, none, none,
     none, none, none, none, none, none, none],
      [],
      [],
      [none, some [0, 2], none, none, none, none, none, none, none, none, none, none, none,
     none, none, none, none, none, none, none],
      [],
      [],
      [],
      [none, none, none, some [0, 2], none, none, none, none, none, none, none, none, none,
     none, none, none, none, some [8, 9], none, none],
      [],
      [none, some [0, 2], none, none, none, none, none, none, none, none, none, none, none,
     none, none, none, none, some [8, 9], none, none],
      [none, some [0, 2], none, none, none, some [0, 2], none, none, none, none, none, none,
     none, none, none, none, none, some [8, 9], none, some [8, 9]],
      [],
      [],
      [],
      [],
      [none, none, none, none, none, none, none, none, none, none, none, none, none, none,
     none, none, none, some [8, 9], none, some [8, 9]],
      [],
      [],
      [],
      [none, none, none, none, none, none, none, none, none, none, none, none, none, none,
     none, none, none, some [8, 9], none, none],
      [],
      [none, none, none, none, none, none, none, none, none, none, none, none, none, none,
     none, none, none, some [8], none, none],
      [],
      [none, none, none, none, none, none, none, none, none, none, none, some [5, 6], none,
     some [5, 6], none, none, none, some [8, 9], none, some [8, 9]],
      [],
      [none, none, none, none, none, none, none, none, none, none, none, none, none, none,
     none, some [8], none, some [8], none, some [8]],
      [],
      [],
      [],
      [],
      [none, none, none, none, none, none, none, none, none, none, none, none, none, none,
     none, some [8, 9], none, some [8, 9], none, none],
      [],
      [],
      [],
      [],
      [],
      [],
      [],
      [],
      []]

/-- for each nonterminal, each state and whether the counter is known to be zero: the states behind it -/
def commasTable : List (List (Option (List Nat))) :=
  [[some [0], some [0], some [0], some [0], none, none],
      [some [0], some [0], some [0], some [0], none, none],
      [none, some [0], none, none, none, none],
      [none, some [0], none, none, none, none],
      [some [0], some [0], some [0], some [0], none, none],
      [some [0], some [0], some [0], some [0], none, none],
      [some [0, 1], some [0, 1], none, none, none, none],
      [some [0, 1], some [0, 1], none, none, none, none],
      [some [0, 1], some [0, 1], none, none, none, none],
      [some [0, 1], some [0, 1], none, none, none, none],
      [some [0, 1], some [0, 1], some [0, 1], some [0, 1], none, none],
      [some [0], some [0], some [0], some [0], none, none],
      [some [0, 1], none, none, none, none, none],
      [some [0, 1], none, some [0, 1], none, none, none],
      [some [0, 1], none, none, none, some [0, 1], none],
      [some [0, 1], some [0, 1], none, none, none, none],
      [some [0, 1], some [0, 1], some [0, 1], some [0, 1], none, none],
      [some [0, 1], some [0, 1], some [0, 1], some [0, 1], none, none],
      [none, some [0, 1], none, none, none, none],
      [none, some [0, 1], none, none, none, none],
      [none, some [0, 1], none, some [0, 1], none, none],
      [none, some [0, 1], none, none, none, some [0, 1]],
      [some [0, 1], some [0, 1], none, none, none, none],
      [none, some [0, 1], none, some [0, 1], none, none],
      [some [0, 1], some [0, 1], none, none, none, none],
      [some [0], some [0], none, none, none, none],
      [some [0, 1], some [0, 1], none, none, none, none],
      [some [0, 1], none, some [0, 1], none, none, none],
      [some [0, 1], none, none, none, none, none],
      [some [0, 1], none, some [0, 1], none, none, none],
      [some [0, 1], some [0, 1], some [0, 1], some [0, 1], none, none],
      [some [0, 1], some [0, 1], none, none, none, none],
      [some [0, 1], some [0, 1], none, none, none, none],
      [some [0, 1], some [0, 1], none, none, none, none],
      [some [0, 1], some [0, 1], none, some [0, 1], none, none],
      [some [0, 1], some [0, 1], some [0, 1], some [0, 1], none, none],
      [some [0, 1], none, none, some [0, 1], none, none],
      [some [1], some [1], none, none, none, none],
      [some [0], some [0], none, some [0], none, none],
      [some [0, 1], none, some [0, 1], none, none, none],
      [some [0], some [0], none, some [0], none, none],
      [some [0], some [0], none, none, none, none],
      [none, some [0, 1], none, none, none, some [0, 1]],
      [none, some [0, 1], none, some [0, 1], none, none],
      [none, some [1], none, none, none, none],
      [none, some [0], none, some [0], none, none],
      [none, some [0], none, some [0], none, none],
      [none, some [0], none, some [0], none, none],
      [none, none, none, some [0], none, none],
      [none, some [0, 1], none, some [0, 1], none, none],
      [none, some [0, 1], none, some [0, 1], none, none],
      [none, none, none, some [0], none, none],
      [some [0], some [0], some [0], some [0], none, none],
      [some [0], some [0], none, none, none, none],
      [some [0], some [0], some [0], some [0], none, some [0]],
      [some [0], some [0], some [0], some [0], none, none],
      [some [0], some [0], some [0], some [0], none, none],
      [some [0], some [0], some [0], some [0], none, none],
      [some [0], some [0], none, none, none, none],
      [],
      [],
      [none, some [0], none, none, none, none],
      [],
      [],
      [some [0], some [0], none, none, none, none],
      [],
      [],
      [],
      [],
      [some [0, 1], some [0, 1], none, none, none, none],
      [],
      [],
      [some [0, 1], none, some [0, 1], none, none, none],
      [],
      [],
      [],
      [some [0, 1], some [0, 1], none, none, none, none],
      [],
      [],
      [none, some [0, 1], none, none, none, none],
      [],
      [],
      [none, some [0, 1], none, none, none, none],
      [],
      [],
      [],
      [some [0, 1], none, none, none, none, none],
      [],
      [some [0, 1], none, none, none, none, none],
      [some [0, 1], some [0, 1], some [0, 1], some [0, 1], none, none],
      [],
      [],
      [],
      [],
      [some [0, 1], some [0, 1], some [0, 1], some [0, 1], none, none],
      [],
      [],
      [],
      [some [0, 1], none, none, none, none, none],
      [],
      [some [0], some [0], none, none, none, none],
      [],
      [none, some [0, 1], none, some [0, 1], none, none],
      [],
      [none, some [0], none, some [0], none, none],
      [],
      [],
      [],
      [],
      [none, some [0, 1], none, some [0, 1], none, none],
      [],
      [],
      [],
      [],
      [],
      [],
      [],
      [],
      []]

end Verif.LR
