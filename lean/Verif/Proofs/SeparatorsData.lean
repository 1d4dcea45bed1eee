/-
Finite automata and a counter machine, written by tools/keywords.py.  Nothing about them is assumed: Proofs/Separators checks what is used.
State 0 is where no program gets, state 1 is the start.
-/
namespace Verif.LR

/-! The states: SINK, START, O, S, D, R, Q, K, EA, E, A, U, L, EW, CN, F, UI, RI, PI, FI, M, AT, EF, BN, C, P, C2, CH, EI, C1, LI, CA0, ES, FW, PT, BW, BA, MW, MI, ATW, AT1, BN1, CD, CT, CX, P1, P2, PH, CHD, T, FD, PW, BD, MD, MC, ATD, AP, AW, AH, BNP, CTp, BN2, CTk, CTq, CTw, CTh, CXD, PD, T1, T2, TH, PWD, MCW, MX0, MV, AWD, CTi, CTf, CTr, CTd, CTc, TD, MCD, MXp, MX, MXk, MXq, MXw, MXh, CTg, MXi, MXf, MXr, MXd, MXc, CTe, MXg, MXe -/

/-- for each state, the next state for each terminal -/
def sixteenthPassSteps : List (List Nat) :=
  [[0, 0, 0, 0, 0, 0, 0, 0, 0, 0, 0, 0, 0, 0, 0, 0, 0, 0, 0, 0, 0, 0, 0, 0, 0, 0, 0, 0, 0, 0, 0, 0, 0, 0, 0, 0, 0, 0,
     0, 0, 0, 0, 0, 0, 0, 0, 0, 0, 0, 0, 0, 0, 0, 0, 0, 0, 0, 0, 0],
      [0, 0, 0, 0, 0, 0, 0, 0, 0, 0, 0, 0, 0, 0, 0, 0, 0, 0, 0, 0, 0, 0, 0, 0, 0, 0, 0, 0, 0, 0, 0, 0, 0, 0, 0, 0, 0,
     0, 0, 0, 0, 0, 0, 0, 2, 0, 0, 0, 0, 0, 0, 0, 0, 0, 0, 0, 0, 0, 0],
      [2, 2, 3, 0, 4, 5, 2, 2, 6, 2, 0, 2, 7, 8, 2, 9, 2, 10, 10, 0, 2, 11, 2, 2, 2, 2, 12, 9, 2, 13, 2, 2, 2, 14, 2,
     2, 2, 2, 15, 2, 2, 2, 2, 2, 0, 2, 2, 2, 2, 0, 2, 2, 2, 2, 2, 2, 2, 2, 2],
      [2, 2, 3, 0, 4, 5, 2, 2, 6, 2, 0, 2, 7, 8, 2, 9, 2, 10, 10, 0, 2, 11, 2, 2, 2, 2, 12, 9, 2, 13, 2, 2, 2, 14, 2,
     2, 2, 2, 15, 2, 2, 2, 2, 2, 0, 2, 2, 2, 2, 0, 2, 2, 2, 2, 2, 2, 2, 2, 2],
      [2, 2, 3, 0, 4, 5, 2, 2, 6, 2, 0, 2, 7, 8, 2, 9, 2, 10, 10, 0, 2, 11, 2, 2, 2, 2, 12, 9, 2, 13, 2, 2, 2, 14, 2,
     2, 2, 2, 0, 2, 2, 2, 2, 2, 0, 2, 2, 2, 2, 0, 2, 2, 2, 2, 2, 16, 16, 2, 2],
      [2, 2, 3, 0, 4, 5, 2, 2, 6, 2, 0, 2, 7, 8, 2, 9, 2, 10, 10, 0, 2, 11, 2, 2, 2, 2, 12, 9, 2, 13, 2, 2, 2, 14, 2,
     2, 2, 2, 0, 2, 2, 2, 2, 2, 0, 2, 2, 2, 2, 0, 2, 2, 2, 2, 2, 17, 0, 2, 2],
      [2, 2, 3, 0, 4, 5, 2, 2, 6, 2, 0, 2, 7, 8, 2, 9, 2, 10, 10, 0, 2, 11, 2, 2, 2, 2, 12, 9, 2, 13, 2, 2, 2, 14, 2,
     2, 2, 2, 15, 2, 2, 2, 2, 2, 0, 2, 2, 2, 2, 0, 2, 2, 2, 2, 2, 18, 2, 2, 2],
      [0, 0, 0, 0, 0, 0, 0, 0, 0, 0, 0, 0, 0, 0, 0, 0, 0, 0, 0, 0, 0, 0, 0, 0, 0, 0, 0, 0, 0, 0, 0, 0, 0, 0, 0, 0, 0,
     0, 15, 0, 0, 0, 0, 0, 0, 0, 0, 0, 0, 0, 0, 0, 0, 0, 0, 19, 0, 0, 0],
      [2, 2, 0, 0, 0, 5, 2, 2, 0, 0, 20, 2, 0, 8, 2, 0, 2, 10, 10, 21, 2, 0, 22, 23, 2, 2, 12, 9, 2, 13, 2, 2, 2, 0,
     2, 2, 2, 24, 15, 2, 2, 2, 2, 0, 0, 2, 2, 2, 2, 25, 26, 24, 0, 27, 2, 28, 29, 24, 0],
      [2, 2, 0, 0, 0, 5, 2, 2, 0, 0, 20, 2, 0, 8, 2, 0, 2, 10, 10, 21, 2, 0, 0, 23, 2, 2, 12, 9, 2, 13, 2, 2, 2, 0, 2,
     2, 2, 24, 0, 2, 2, 2, 2, 0, 0, 2, 2, 2, 2, 25, 26, 24, 0, 27, 2, 29, 29, 24, 0],
      [2, 2, 3, 0, 4, 5, 2, 2, 6, 2, 0, 2, 7, 8, 2, 9, 2, 10, 10, 0, 2, 11, 2, 2, 2, 2, 0, 9, 2, 13, 2, 2, 2, 14, 2,
     2, 2, 2, 0, 2, 2, 2, 2, 2, 0, 2, 2, 2, 2, 0, 2, 2, 2, 2, 2, 16, 16, 2, 2],
      [2, 2, 3, 0, 4, 5, 2, 2, 6, 2, 0, 2, 7, 8, 2, 9, 2, 10, 10, 0, 2, 11, 2, 2, 2, 2, 12, 9, 2, 13, 2, 2, 2, 14, 2,
     2, 2, 2, 0, 2, 2, 2, 2, 2, 0, 2, 2, 2, 2, 0, 2, 2, 2, 2, 2, 16, 2, 2, 2],
      [0, 0, 0, 0, 0, 0, 0, 0, 0, 0, 0, 0, 0, 0, 0, 0, 0, 0, 0, 0, 0, 0, 0, 0, 0, 0, 0, 0, 0, 0, 0, 0, 0, 0, 0, 0, 0,
     0, 0, 0, 0, 0, 0, 0, 0, 0, 0, 0, 0, 0, 0, 0, 0, 0, 0, 30, 0, 0, 0],
      [2, 2, 0, 0, 0, 5, 2, 2, 0, 0, 20, 2, 0, 8, 2, 0, 2, 10, 10, 21, 2, 0, 0, 23, 2, 2, 12, 9, 2, 13, 2, 2, 2, 31,
     2, 2, 2, 24, 0, 2, 2, 2, 2, 0, 0, 2, 2, 2, 2, 25, 26, 24, 0, 27, 2, 29, 32, 24, 0],
      [0, 0, 0, 0, 0, 0, 0, 0, 0, 0, 0, 0, 0, 0, 0, 0, 0, 0, 0, 0, 0, 0, 0, 0, 0, 0, 0, 0, 0, 0, 0, 0, 0, 0, 0, 0, 0,
     2, 0, 0, 0, 0, 0, 0, 0, 0, 0, 0, 0, 0, 0, 2, 0, 0, 0, 0, 0, 2, 0],
      [0, 0, 0, 0, 0, 0, 0, 0, 0, 0, 0, 0, 0, 0, 0, 0, 0, 0, 0, 0, 0, 0, 0, 0, 0, 0, 0, 0, 0, 0, 0, 0, 0, 0, 0, 0, 0,
     33, 0, 0, 0, 0, 0, 0, 0, 0, 0, 0, 0, 0, 0, 33, 0, 0, 0, 19, 19, 33, 0],
      [2, 2, 3, 0, 4, 5, 2, 2, 6, 2, 0, 2, 7, 8, 2, 0, 2, 10, 10, 0, 2, 11, 2, 2, 2, 2, 12, 9, 2, 13, 2, 2, 2, 14, 2,
     2, 2, 2, 15, 2, 2, 2, 2, 2, 0, 2, 2, 2, 2, 0, 2, 2, 2, 2, 2, 2, 2, 2, 2],
      [0, 0, 0, 0, 0, 0, 0, 0, 0, 0, 0, 0, 0, 8, 0, 0, 0, 0, 0, 0, 0, 0, 0, 0, 0, 0, 0, 0, 0, 0, 0, 0, 0, 0, 0, 0, 0,
     0, 0, 0, 0, 0, 0, 0, 0, 0, 0, 0, 0, 0, 0, 0, 0, 0, 0, 0, 0, 0, 0],
      [0, 0, 0, 34, 0, 0, 0, 0, 0, 2, 0, 0, 0, 0, 0, 0, 0, 0, 0, 0, 0, 0, 0, 0, 0, 0, 0, 0, 0, 0, 0, 0, 0, 0, 0, 0, 0,
     35, 0, 0, 0, 0, 0, 0, 0, 0, 0, 0, 0, 0, 0, 35, 0, 0, 0, 36, 36, 35, 0],
      [0, 0, 0, 2, 0, 0, 0, 0, 0, 0, 0, 0, 0, 0, 0, 0, 0, 0, 0, 0, 0, 0, 0, 0, 0, 0, 0, 0, 0, 0, 0, 0, 0, 0, 0, 0, 0,
     0, 0, 0, 0, 0, 0, 0, 0, 0, 0, 0, 0, 0, 0, 0, 0, 0, 0, 0, 0, 0, 0],
      [0, 0, 0, 0, 0, 0, 0, 0, 0, 0, 0, 0, 0, 0, 0, 0, 0, 0, 0, 0, 0, 0, 0, 0, 0, 0, 0, 0, 0, 0, 0, 0, 0, 0, 0, 0, 0,
     37, 0, 0, 0, 0, 0, 0, 0, 0, 0, 0, 0, 0, 0, 37, 0, 0, 0, 38, 38, 37, 0],
      [0, 0, 0, 0, 0, 0, 0, 0, 0, 0, 0, 0, 0, 0, 0, 0, 0, 0, 0, 0, 0, 0, 0, 0, 0, 0, 0, 0, 0, 0, 0, 0, 0, 0, 0, 0, 0,
     39, 0, 0, 0, 0, 0, 0, 0, 0, 0, 0, 0, 0, 0, 39, 0, 0, 0, 40, 40, 39, 0],
      [2, 2, 3, 0, 4, 5, 2, 2, 6, 2, 0, 2, 7, 8, 2, 9, 2, 10, 10, 0, 2, 11, 2, 2, 2, 2, 12, 9, 2, 13, 2, 2, 2, 14, 2,
     2, 2, 2, 15, 2, 2, 2, 2, 2, 0, 2, 2, 2, 2, 0, 2, 2, 2, 2, 2, 2, 2, 2, 0],
      [0, 0, 0, 0, 0, 0, 0, 0, 0, 0, 0, 0, 0, 0, 0, 0, 0, 0, 0, 0, 0, 0, 0, 0, 0, 0, 0, 0, 0, 0, 0, 0, 0, 0, 0, 0, 0,
     0, 0, 0, 0, 0, 0, 0, 0, 0, 0, 0, 0, 0, 0, 0, 0, 0, 0, 41, 0, 0, 0],
      [2, 2, 3, 0, 42, 5, 2, 2, 0, 0, 43, 2, 0, 8, 0, 0, 2, 10, 10, 0, 2, 0, 2, 2, 2, 2, 12, 9, 2, 0, 2, 2, 2, 14, 2,
     2, 2, 44, 15, 2, 2, 2, 2, 0, 0, 2, 2, 2, 2, 0, 0, 44, 2, 0, 2, 29, 29, 44, 0],
      [0, 0, 0, 0, 0, 0, 0, 0, 6, 0, 0, 0, 0, 0, 0, 0, 0, 0, 0, 0, 0, 0, 0, 0, 0, 0, 0, 0, 0, 0, 0, 0, 0, 0, 0, 0, 0,
     45, 0, 0, 0, 0, 0, 0, 0, 0, 0, 0, 0, 0, 46, 45, 0, 47, 0, 0, 0, 45, 0],
      [2, 2, 3, 0, 0, 5, 2, 2, 0, 0, 43, 2, 0, 8, 0, 0, 2, 10, 10, 0, 2, 0, 2, 2, 2, 2, 12, 9, 2, 0, 2, 2, 2, 14, 2,
     2, 2, 44, 15, 2, 2, 2, 2, 0, 0, 2, 2, 2, 2, 0, 0, 44, 0, 0, 2, 29, 29, 44, 0],
      [2, 2, 3, 0, 48, 5, 2, 2, 6, 2, 0, 2, 7, 8, 2, 9, 2, 10, 10, 0, 2, 11, 2, 2, 2, 2, 12, 9, 2, 0, 2, 2, 2, 14, 2,
     2, 2, 2, 15, 2, 2, 2, 2, 2, 0, 2, 2, 2, 2, 0, 2, 2, 2, 2, 2, 0, 0, 2, 2],
      [2, 2, 3, 0, 0, 5, 2, 2, 0, 0, 0, 2, 0, 8, 0, 9, 2, 10, 10, 0, 2, 0, 2, 2, 2, 2, 12, 9, 2, 0, 2, 2, 2, 14, 2, 2,
     2, 44, 15, 2, 2, 2, 2, 0, 0, 2, 2, 2, 2, 0, 0, 44, 0, 0, 2, 29, 29, 44, 0],
      [2, 2, 3, 0, 0, 5, 2, 2, 0, 0, 0, 2, 0, 8, 0, 0, 2, 10, 10, 0, 2, 0, 2, 2, 2, 2, 12, 9, 2, 0, 2, 2, 2, 14, 2, 2,
     2, 44, 15, 2, 2, 2, 2, 0, 0, 2, 2, 2, 2, 0, 0, 44, 0, 0, 2, 29, 29, 44, 0],
      [0, 0, 0, 49, 0, 0, 0, 0, 0, 0, 0, 0, 0, 0, 0, 9, 0, 0, 0, 0, 0, 0, 0, 0, 0, 0, 0, 0, 0, 0, 0, 0, 0, 0, 0, 0, 0,
     0, 0, 0, 0, 0, 0, 0, 0, 0, 0, 0, 0, 0, 0, 0, 0, 0, 0, 0, 0, 0, 0],
      [0, 0, 0, 0, 0, 0, 0, 0, 0, 0, 0, 0, 0, 0, 0, 0, 0, 0, 0, 0, 0, 0, 0, 0, 0, 0, 0, 0, 0, 0, 2, 0, 0, 0, 0, 0, 0,
     0, 15, 0, 0, 0, 0, 0, 0, 0, 0, 0, 0, 0, 0, 0, 0, 0, 0, 0, 0, 0, 0],
      [2, 2, 3, 0, 0, 5, 2, 2, 0, 0, 0, 2, 0, 8, 0, 0, 2, 10, 10, 0, 2, 0, 2, 2, 2, 2, 12, 9, 2, 0, 2, 2, 2, 14, 2, 2,
     2, 44, 15, 2, 2, 2, 2, 0, 0, 2, 2, 2, 2, 0, 0, 44, 0, 0, 2, 29, 29, 44, 0],
      [0, 0, 0, 0, 50, 0, 0, 0, 0, 0, 0, 0, 0, 0, 0, 0, 0, 0, 0, 0, 0, 0, 0, 0, 0, 0, 0, 0, 0, 0, 0, 0, 0, 0, 0, 0, 0,
     0, 0, 0, 0, 0, 0, 0, 0, 0, 0, 0, 0, 0, 0, 0, 0, 0, 0, 0, 0, 0, 0],
      [2, 2, 3, 0, 0, 5, 2, 2, 6, 0, 0, 2, 7, 8, 2, 9, 2, 10, 10, 0, 2, 11, 2, 2, 2, 2, 12, 9, 2, 13, 2, 2, 2, 14, 2,
     2, 2, 51, 15, 2, 2, 2, 2, 2, 0, 2, 2, 2, 2, 0, 2, 51, 2, 2, 2, 0, 0, 51, 2],
      [0, 0, 0, 0, 52, 0, 0, 0, 0, 0, 0, 0, 0, 0, 0, 0, 0, 0, 0, 0, 0, 0, 0, 0, 0, 0, 0, 0, 0, 0, 0, 0, 0, 0, 0, 0, 0,
     0, 0, 0, 0, 0, 0, 0, 0, 0, 0, 0, 0, 0, 0, 0, 0, 0, 0, 0, 0, 0, 0],
      [0, 0, 0, 0, 0, 0, 0, 0, 0, 2, 0, 0, 0, 0, 0, 0, 0, 0, 0, 0, 0, 0, 0, 0, 0, 0, 0, 0, 0, 0, 0, 0, 0, 0, 0, 0, 0,
     35, 0, 0, 0, 0, 0, 0, 0, 0, 0, 0, 0, 0, 0, 35, 0, 0, 0, 36, 36, 35, 0],
      [0, 0, 0, 0, 53, 0, 0, 0, 0, 0, 0, 0, 0, 0, 0, 0, 0, 0, 0, 0, 0, 0, 0, 0, 0, 0, 0, 0, 0, 0, 0, 0, 0, 0, 0, 0, 0,
     0, 0, 0, 0, 0, 0, 0, 0, 0, 0, 0, 0, 0, 0, 0, 0, 0, 0, 0, 0, 0, 0],
      [0, 0, 0, 54, 0, 0, 0, 0, 0, 0, 0, 0, 0, 0, 0, 0, 0, 0, 0, 0, 0, 0, 0, 0, 0, 0, 0, 0, 0, 0, 0, 0, 0, 0, 0, 0, 0,
     0, 0, 0, 0, 0, 0, 0, 0, 0, 0, 0, 0, 0, 0, 0, 0, 0, 0, 0, 0, 0, 0],
      [0, 0, 0, 0, 55, 0, 0, 0, 0, 0, 0, 0, 0, 0, 0, 0, 0, 0, 0, 0, 0, 0, 0, 0, 0, 0, 0, 0, 0, 0, 0, 0, 0, 0, 0, 0, 0,
     0, 0, 0, 0, 0, 0, 0, 0, 0, 0, 0, 0, 0, 0, 0, 0, 0, 0, 0, 0, 0, 0],
      [0, 0, 0, 0, 0, 0, 0, 0, 56, 0, 0, 0, 0, 0, 0, 0, 0, 0, 0, 0, 0, 0, 0, 0, 0, 0, 0, 0, 0, 0, 0, 0, 0, 0, 0, 0, 0,
     57, 0, 0, 0, 0, 0, 2, 0, 0, 0, 0, 0, 0, 2, 57, 0, 58, 0, 0, 0, 57, 2],
      [0, 0, 0, 0, 0, 0, 0, 0, 59, 0, 43, 0, 0, 0, 0, 0, 0, 0, 0, 0, 0, 0, 0, 0, 0, 0, 0, 0, 0, 0, 0, 0, 0, 0, 0, 0,
     0, 44, 0, 0, 0, 0, 0, 0, 0, 0, 0, 0, 0, 0, 0, 44, 0, 0, 0, 29, 29, 44, 0],
      [0, 0, 0, 0, 0, 0, 0, 0, 0, 0, 0, 0, 0, 0, 0, 0, 0, 0, 0, 0, 0, 0, 0, 0, 0, 0, 0, 0, 0, 0, 0, 0, 0, 0, 0, 0, 0,
     26, 0, 0, 0, 0, 0, 0, 0, 0, 0, 0, 0, 0, 0, 26, 0, 0, 0, 29, 0, 26, 0],
      [0, 0, 0, 0, 0, 0, 0, 0, 60, 43, 0, 61, 62, 0, 43, 0, 0, 0, 0, 0, 0, 0, 63, 0, 43, 0, 0, 0, 0, 0, 43, 0, 0, 0,
     0, 0, 0, 64, 0, 0, 0, 0, 0, 43, 0, 0, 0, 0, 0, 0, 43, 64, 0, 65, 0, 0, 0, 64, 43],
      [0, 0, 0, 0, 66, 0, 0, 0, 0, 0, 0, 0, 0, 0, 0, 0, 0, 0, 0, 0, 0, 0, 0, 0, 0, 0, 0, 0, 0, 0, 0, 0, 0, 0, 0, 0, 0,
     0, 0, 0, 0, 0, 0, 0, 0, 0, 0, 0, 0, 0, 0, 0, 0, 0, 0, 0, 0, 0, 0],
      [0, 0, 0, 0, 67, 0, 0, 0, 6, 0, 0, 0, 0, 0, 0, 0, 0, 0, 0, 0, 0, 0, 0, 0, 0, 0, 0, 0, 0, 13, 0, 0, 0, 0, 0, 0,
     0, 2, 0, 0, 0, 0, 0, 2, 0, 0, 0, 0, 0, 0, 2, 2, 0, 2, 0, 0, 0, 2, 0],
      [0, 0, 0, 0, 0, 0, 0, 0, 6, 0, 0, 0, 0, 0, 0, 0, 0, 0, 0, 0, 0, 0, 0, 0, 0, 0, 0, 0, 0, 0, 0, 0, 0, 0, 0, 0, 0,
     2, 0, 0, 0, 0, 0, 2, 0, 0, 0, 0, 0, 0, 2, 2, 0, 2, 0, 0, 0, 2, 0],
      [0, 0, 0, 0, 67, 0, 0, 0, 0, 0, 0, 0, 0, 0, 0, 0, 0, 0, 0, 0, 0, 0, 0, 0, 0, 0, 0, 0, 0, 0, 0, 0, 0, 0, 0, 0, 0,
     0, 0, 0, 0, 0, 0, 0, 0, 0, 0, 0, 0, 0, 0, 0, 0, 0, 0, 0, 0, 0, 0],
      [0, 0, 0, 0, 0, 0, 0, 0, 0, 0, 0, 0, 0, 0, 0, 0, 0, 0, 0, 0, 0, 0, 0, 0, 0, 0, 0, 0, 0, 0, 0, 0, 0, 0, 0, 0, 0,
     26, 0, 0, 0, 0, 0, 0, 0, 0, 0, 0, 0, 0, 0, 26, 0, 0, 0, 0, 0, 26, 0],
      [0, 0, 0, 0, 0, 0, 0, 0, 6, 0, 0, 0, 0, 0, 0, 0, 0, 0, 0, 0, 0, 0, 2, 0, 0, 0, 0, 0, 0, 0, 0, 0, 0, 0, 0, 0, 0,
     68, 0, 0, 0, 0, 0, 2, 0, 0, 0, 0, 0, 0, 69, 68, 0, 70, 0, 0, 0, 68, 69],
      [0, 0, 0, 0, 0, 0, 0, 0, 0, 0, 0, 0, 0, 0, 0, 0, 0, 0, 0, 0, 0, 0, 0, 0, 0, 0, 0, 0, 0, 0, 0, 0, 0, 0, 0, 0, 0,
     0, 0, 0, 0, 0, 0, 0, 0, 0, 0, 0, 0, 0, 0, 0, 0, 0, 0, 19, 0, 0, 0],
      [2, 2, 3, 0, 71, 5, 2, 2, 6, 2, 0, 2, 7, 8, 2, 9, 2, 10, 10, 0, 2, 11, 2, 2, 2, 2, 12, 9, 2, 13, 2, 2, 2, 14, 2,
     2, 2, 2, 15, 2, 2, 2, 2, 2, 0, 2, 2, 2, 2, 0, 2, 2, 2, 2, 2, 2, 2, 2, 2],
      [0, 0, 0, 0, 0, 0, 0, 0, 0, 0, 0, 0, 0, 0, 0, 0, 0, 0, 0, 0, 0, 0, 0, 0, 0, 0, 0, 0, 0, 0, 0, 0, 0, 0, 0, 0, 0,
     0, 0, 0, 0, 0, 0, 0, 0, 0, 0, 0, 0, 0, 0, 0, 0, 0, 0, 36, 0, 0, 0],
      [0, 0, 0, 0, 0, 0, 0, 0, 0, 0, 0, 0, 0, 0, 0, 0, 0, 0, 0, 0, 0, 0, 0, 0, 0, 0, 0, 0, 0, 0, 0, 0, 0, 0, 0, 0, 0,
     0, 0, 0, 0, 0, 0, 0, 0, 0, 0, 0, 0, 0, 0, 0, 0, 0, 0, 38, 0, 0, 0],
      [0, 0, 0, 0, 0, 0, 0, 0, 0, 0, 0, 0, 0, 0, 0, 0, 0, 0, 0, 0, 0, 0, 0, 0, 0, 0, 0, 0, 0, 0, 0, 0, 0, 0, 0, 0, 0,
     72, 0, 0, 0, 0, 0, 0, 0, 0, 0, 0, 0, 73, 0, 72, 0, 74, 74, 74, 74, 72, 0],
      [0, 0, 0, 0, 0, 0, 0, 0, 0, 0, 0, 0, 0, 0, 0, 0, 0, 0, 0, 0, 0, 0, 0, 0, 0, 0, 0, 0, 0, 0, 0, 0, 0, 0, 0, 0, 0,
     0, 0, 0, 0, 0, 0, 0, 0, 0, 0, 0, 0, 0, 0, 0, 0, 0, 0, 40, 0, 0, 0],
      [2, 2, 3, 0, 4, 5, 2, 2, 6, 0, 0, 2, 7, 8, 2, 9, 2, 10, 10, 0, 2, 11, 2, 2, 2, 2, 12, 9, 2, 13, 2, 2, 2, 14, 2,
     2, 2, 2, 15, 2, 2, 2, 2, 2, 0, 2, 2, 2, 2, 0, 2, 2, 2, 2, 2, 2, 2, 2, 2],
      [2, 2, 3, 0, 75, 5, 2, 2, 6, 2, 0, 2, 7, 8, 2, 9, 2, 10, 10, 0, 2, 11, 2, 2, 2, 2, 12, 9, 2, 13, 2, 2, 2, 14, 2,
     2, 2, 2, 15, 2, 2, 2, 2, 2, 0, 2, 2, 2, 2, 0, 2, 2, 2, 2, 2, 2, 2, 2, 2],
      [0, 0, 0, 0, 75, 0, 0, 0, 0, 0, 0, 0, 0, 0, 0, 0, 0, 0, 0, 0, 0, 0, 0, 0, 0, 0, 0, 0, 0, 0, 0, 0, 0, 0, 0, 0, 0,
     0, 0, 0, 0, 0, 0, 0, 0, 0, 0, 0, 0, 0, 0, 0, 0, 0, 0, 0, 0, 0, 0],
      [0, 0, 0, 0, 0, 0, 0, 0, 0, 2, 0, 0, 0, 0, 0, 0, 0, 0, 0, 0, 0, 0, 0, 0, 0, 0, 0, 0, 0, 0, 0, 0, 0, 0, 0, 0, 0,
     0, 0, 0, 0, 0, 0, 0, 0, 0, 0, 0, 0, 0, 0, 0, 0, 0, 0, 0, 0, 0, 0],
      [0, 0, 0, 0, 0, 0, 0, 0, 60, 43, 0, 0, 62, 0, 43, 0, 0, 0, 0, 0, 0, 0, 63, 0, 43, 0, 0, 0, 0, 0, 43, 0, 0, 0, 0,
     0, 0, 64, 0, 0, 0, 0, 0, 43, 0, 0, 0, 0, 0, 0, 43, 64, 0, 65, 0, 76, 0, 64, 43],
      [2, 2, 3, 0, 0, 5, 2, 2, 59, 0, 0, 2, 0, 8, 0, 0, 2, 10, 10, 0, 2, 0, 2, 2, 2, 2, 12, 9, 2, 0, 2, 2, 2, 14, 2,
     2, 2, 44, 15, 2, 2, 2, 2, 0, 0, 2, 2, 2, 2, 0, 0, 44, 0, 0, 2, 29, 29, 44, 0],
      [0, 0, 0, 0, 0, 0, 0, 0, 0, 0, 0, 0, 0, 0, 0, 0, 0, 0, 0, 0, 0, 0, 0, 0, 0, 0, 0, 0, 0, 0, 0, 0, 0, 0, 0, 0, 0,
     0, 77, 0, 0, 0, 0, 0, 0, 0, 0, 0, 0, 0, 0, 0, 0, 0, 0, 76, 0, 0, 0],
      [0, 0, 0, 0, 0, 0, 0, 0, 0, 0, 0, 0, 0, 0, 0, 0, 0, 0, 0, 0, 0, 0, 0, 0, 0, 0, 0, 0, 0, 0, 0, 0, 0, 0, 0, 0, 0,
     0, 0, 0, 0, 0, 0, 0, 0, 0, 0, 0, 0, 0, 0, 0, 0, 0, 0, 0, 0, 0, 78],
      [0, 0, 0, 0, 79, 0, 0, 0, 60, 43, 0, 61, 62, 0, 43, 0, 0, 0, 0, 0, 0, 0, 63, 0, 43, 0, 0, 0, 0, 80, 43, 0, 0, 0,
     0, 0, 0, 64, 0, 0, 0, 0, 0, 43, 0, 0, 0, 0, 0, 0, 43, 64, 0, 65, 0, 0, 0, 64, 43],
      [0, 0, 0, 0, 79, 0, 0, 0, 0, 0, 0, 0, 0, 0, 0, 0, 0, 0, 0, 0, 0, 0, 0, 0, 0, 0, 0, 0, 0, 0, 0, 0, 0, 0, 0, 0, 0,
     0, 0, 0, 0, 0, 0, 0, 0, 0, 0, 0, 0, 0, 0, 0, 0, 0, 0, 0, 0, 0, 0],
      [0, 0, 0, 0, 0, 0, 0, 0, 0, 0, 0, 0, 0, 0, 0, 0, 0, 0, 0, 0, 0, 0, 0, 0, 0, 0, 0, 0, 0, 0, 0, 0, 0, 0, 0, 0, 0,
     0, 0, 0, 0, 0, 0, 0, 0, 0, 0, 0, 0, 0, 0, 0, 0, 0, 0, 29, 0, 0, 0],
      [0, 0, 0, 0, 0, 0, 0, 0, 0, 0, 0, 0, 0, 0, 0, 0, 0, 0, 0, 0, 0, 0, 0, 0, 0, 0, 0, 0, 0, 0, 0, 0, 0, 0, 0, 0, 0,
     46, 0, 0, 0, 0, 0, 0, 0, 0, 0, 0, 0, 0, 0, 46, 0, 0, 0, 0, 0, 46, 0],
      [0, 0, 0, 0, 81, 0, 0, 0, 6, 0, 0, 0, 0, 0, 2, 9, 0, 0, 0, 0, 0, 0, 0, 0, 0, 0, 0, 0, 0, 13, 0, 0, 0, 0, 0, 0,
     0, 68, 0, 0, 0, 0, 0, 2, 0, 0, 0, 0, 0, 0, 69, 68, 0, 70, 0, 0, 0, 68, 69],
      [0, 0, 0, 0, 0, 0, 0, 0, 6, 0, 0, 0, 0, 0, 2, 9, 0, 0, 0, 0, 0, 0, 0, 0, 0, 0, 0, 0, 0, 0, 0, 0, 0, 0, 0, 0, 0,
     68, 0, 0, 0, 0, 0, 2, 0, 0, 0, 0, 0, 0, 69, 68, 0, 70, 0, 0, 0, 68, 69],
      [0, 0, 0, 0, 81, 0, 0, 0, 0, 0, 0, 0, 0, 0, 0, 0, 0, 0, 0, 0, 0, 0, 0, 0, 0, 0, 0, 0, 0, 0, 0, 0, 0, 0, 0, 0, 0,
     0, 0, 0, 0, 0, 0, 0, 0, 0, 0, 0, 0, 0, 0, 0, 0, 0, 0, 0, 0, 0, 0],
      [0, 0, 0, 0, 0, 0, 0, 0, 0, 0, 0, 0, 0, 0, 0, 0, 0, 0, 0, 0, 0, 0, 0, 0, 0, 0, 0, 0, 0, 0, 0, 0, 0, 0, 0, 0, 0,
     2, 0, 0, 0, 0, 0, 0, 0, 0, 0, 0, 0, 0, 0, 2, 0, 0, 0, 0, 0, 2, 0],
      [0, 0, 0, 0, 82, 0, 0, 0, 0, 0, 0, 0, 0, 0, 0, 0, 0, 0, 0, 0, 0, 0, 0, 0, 0, 0, 0, 0, 0, 0, 0, 0, 0, 0, 0, 0, 0,
     0, 0, 0, 0, 0, 0, 0, 0, 0, 0, 0, 0, 0, 0, 0, 74, 0, 0, 0, 0, 0, 0],
      [0, 0, 0, 0, 0, 0, 0, 0, 83, 84, 0, 0, 85, 0, 84, 0, 0, 0, 0, 0, 0, 0, 86, 0, 84, 0, 0, 0, 0, 0, 84, 0, 0, 0, 0,
     0, 0, 87, 0, 0, 0, 0, 0, 84, 0, 0, 0, 0, 0, 0, 84, 87, 0, 88, 0, 0, 0, 87, 84],
      [0, 0, 20, 0, 0, 0, 0, 0, 0, 0, 0, 2, 0, 0, 0, 0, 0, 0, 0, 0, 0, 0, 0, 0, 0, 0, 0, 0, 0, 0, 0, 0, 0, 0, 0, 0, 0,
     0, 0, 0, 0, 0, 0, 0, 0, 0, 0, 0, 0, 0, 0, 0, 0, 0, 0, 0, 0, 0, 0],
      [0, 0, 0, 0, 0, 0, 0, 0, 0, 0, 0, 0, 0, 0, 0, 0, 0, 0, 0, 0, 0, 0, 0, 0, 0, 0, 0, 0, 0, 0, 0, 0, 0, 0, 0, 0, 0,
     2, 0, 0, 0, 0, 0, 0, 0, 0, 0, 0, 0, 0, 0, 2, 0, 0, 0, 0, 0, 2, 0],
      [0, 0, 0, 43, 0, 0, 0, 0, 0, 0, 0, 0, 0, 0, 0, 0, 0, 0, 0, 0, 0, 0, 0, 0, 0, 0, 0, 0, 0, 0, 0, 0, 0, 0, 0, 0, 0,
     0, 0, 0, 0, 0, 0, 0, 0, 0, 0, 0, 0, 0, 0, 0, 0, 0, 0, 0, 0, 0, 0],
      [0, 0, 0, 0, 0, 0, 0, 0, 0, 0, 0, 0, 0, 0, 0, 0, 0, 0, 0, 0, 0, 0, 0, 0, 0, 0, 0, 0, 0, 0, 0, 0, 0, 0, 0, 0, 0,
     89, 0, 0, 0, 0, 0, 0, 0, 0, 0, 0, 0, 0, 0, 89, 0, 0, 0, 76, 76, 89, 0],
      [0, 0, 0, 0, 43, 0, 0, 0, 0, 0, 0, 0, 0, 0, 0, 0, 0, 0, 0, 0, 0, 0, 0, 0, 0, 0, 0, 0, 0, 0, 0, 0, 0, 0, 0, 0, 0,
     0, 0, 0, 0, 0, 0, 0, 0, 0, 0, 0, 0, 0, 0, 0, 0, 0, 0, 0, 0, 0, 0],
      [0, 0, 0, 0, 0, 0, 0, 0, 0, 0, 0, 0, 0, 0, 0, 0, 0, 0, 0, 0, 0, 0, 0, 0, 0, 0, 0, 0, 0, 0, 0, 0, 0, 0, 0, 0, 0,
     43, 0, 0, 0, 0, 0, 0, 0, 0, 0, 0, 0, 0, 0, 43, 0, 0, 0, 0, 0, 43, 0],
      [0, 0, 0, 0, 0, 0, 0, 0, 60, 43, 0, 0, 0, 0, 43, 0, 0, 0, 0, 0, 0, 0, 63, 0, 43, 0, 0, 0, 0, 0, 43, 0, 0, 80, 0,
     0, 0, 64, 77, 0, 0, 0, 0, 43, 0, 0, 0, 0, 0, 0, 43, 64, 0, 65, 0, 0, 43, 64, 43],
      [0, 0, 0, 0, 0, 0, 0, 0, 0, 0, 0, 0, 0, 0, 0, 0, 0, 0, 0, 0, 0, 0, 0, 0, 0, 0, 0, 0, 0, 0, 0, 0, 0, 0, 0, 0, 0,
     69, 0, 0, 0, 0, 0, 0, 0, 0, 0, 0, 0, 0, 0, 69, 0, 0, 0, 0, 0, 69, 0],
      [0, 0, 0, 0, 0, 0, 0, 0, 0, 0, 0, 0, 0, 0, 0, 0, 0, 0, 0, 0, 0, 0, 0, 0, 0, 0, 0, 0, 0, 0, 0, 0, 0, 0, 0, 0, 0,
     0, 0, 0, 0, 0, 0, 0, 0, 0, 0, 0, 0, 0, 0, 0, 0, 0, 0, 74, 0, 0, 0],
      [0, 0, 0, 0, 0, 0, 0, 0, 83, 84, 0, 0, 85, 0, 84, 0, 0, 0, 0, 0, 0, 0, 86, 0, 84, 0, 0, 0, 0, 0, 84, 0, 0, 0, 0,
     0, 0, 87, 0, 0, 0, 0, 0, 84, 0, 0, 0, 0, 0, 0, 84, 87, 0, 88, 0, 90, 0, 87, 84],
      [0, 0, 20, 0, 0, 0, 0, 0, 83, 84, 0, 2, 85, 0, 84, 0, 0, 0, 0, 0, 0, 0, 86, 0, 84, 0, 0, 0, 0, 0, 84, 0, 0, 0,
     0, 0, 0, 87, 0, 0, 0, 0, 0, 84, 0, 0, 0, 0, 0, 0, 84, 87, 0, 88, 0, 0, 0, 87, 84],
      [0, 0, 0, 0, 0, 0, 0, 0, 0, 0, 0, 0, 0, 0, 0, 0, 0, 0, 0, 0, 0, 0, 0, 0, 0, 0, 0, 0, 0, 0, 0, 0, 0, 0, 0, 0, 0,
     0, 91, 0, 0, 0, 0, 0, 0, 0, 0, 0, 0, 0, 0, 0, 0, 0, 0, 90, 0, 0, 0],
      [0, 0, 0, 0, 0, 0, 0, 0, 0, 0, 0, 0, 0, 0, 0, 0, 0, 0, 0, 0, 0, 0, 0, 0, 0, 0, 0, 0, 0, 0, 0, 0, 0, 0, 0, 0, 0,
     0, 0, 0, 0, 0, 0, 0, 0, 0, 0, 0, 0, 0, 0, 0, 0, 0, 0, 0, 0, 0, 92],
      [0, 0, 20, 0, 93, 0, 0, 0, 83, 84, 0, 2, 85, 0, 84, 0, 0, 0, 0, 0, 0, 0, 86, 0, 84, 0, 0, 0, 0, 94, 84, 0, 0, 0,
     0, 0, 0, 87, 0, 0, 0, 0, 0, 84, 0, 0, 0, 0, 0, 0, 84, 87, 0, 88, 0, 0, 0, 87, 84],
      [0, 0, 0, 0, 93, 0, 0, 0, 0, 0, 0, 0, 0, 0, 0, 0, 0, 0, 0, 0, 0, 0, 0, 0, 0, 0, 0, 0, 0, 0, 0, 0, 0, 0, 0, 0, 0,
     0, 0, 0, 0, 0, 0, 0, 0, 0, 0, 0, 0, 0, 0, 0, 0, 0, 0, 0, 0, 0, 0],
      [0, 0, 0, 0, 95, 0, 0, 0, 0, 0, 0, 0, 0, 0, 0, 0, 0, 0, 0, 0, 0, 0, 0, 0, 0, 0, 0, 0, 0, 0, 0, 0, 0, 0, 0, 0, 0,
     0, 0, 0, 0, 0, 0, 0, 0, 0, 0, 0, 0, 0, 0, 0, 0, 0, 0, 0, 0, 0, 0],
      [0, 0, 0, 84, 0, 0, 0, 0, 0, 0, 0, 0, 0, 0, 0, 0, 0, 0, 0, 0, 0, 0, 0, 0, 0, 0, 0, 0, 0, 0, 0, 0, 0, 0, 0, 0, 0,
     0, 0, 0, 0, 0, 0, 0, 0, 0, 0, 0, 0, 0, 0, 0, 0, 0, 0, 0, 0, 0, 0],
      [0, 0, 0, 0, 0, 0, 0, 0, 0, 0, 0, 0, 0, 0, 0, 0, 0, 0, 0, 0, 0, 0, 0, 0, 0, 0, 0, 0, 0, 0, 0, 0, 0, 0, 0, 0, 0,
     96, 0, 0, 0, 0, 0, 0, 0, 0, 0, 0, 0, 0, 0, 96, 0, 0, 0, 90, 90, 96, 0],
      [0, 0, 0, 0, 84, 0, 0, 0, 0, 0, 0, 0, 0, 0, 0, 0, 0, 0, 0, 0, 0, 0, 0, 0, 0, 0, 0, 0, 0, 0, 0, 0, 0, 0, 0, 0, 0,
     0, 0, 0, 0, 0, 0, 0, 0, 0, 0, 0, 0, 0, 0, 0, 0, 0, 0, 0, 0, 0, 0],
      [0, 0, 0, 0, 0, 0, 0, 0, 0, 0, 0, 0, 0, 0, 0, 0, 0, 0, 0, 0, 0, 0, 0, 0, 0, 0, 0, 0, 0, 0, 0, 0, 0, 0, 0, 0, 0,
     84, 0, 0, 0, 0, 0, 0, 0, 0, 0, 0, 0, 0, 0, 84, 0, 0, 0, 0, 0, 84, 0],
      [0, 0, 0, 0, 0, 0, 0, 0, 83, 84, 0, 0, 0, 0, 84, 0, 0, 0, 0, 0, 0, 0, 86, 0, 84, 0, 0, 0, 0, 0, 84, 0, 0, 94, 0,
     0, 0, 87, 91, 0, 0, 0, 0, 84, 0, 0, 0, 0, 0, 0, 84, 87, 0, 88, 0, 0, 84, 87, 84],
      [0, 0, 0, 0, 0, 0, 0, 0, 0, 0, 0, 0, 0, 0, 0, 0, 0, 0, 0, 0, 0, 0, 0, 0, 0, 0, 0, 0, 0, 0, 0, 0, 0, 0, 0, 0, 0,
     0, 0, 0, 0, 0, 0, 0, 0, 0, 0, 0, 0, 0, 0, 0, 0, 0, 0, 76, 0, 0, 0],
      [0, 0, 0, 0, 97, 0, 0, 0, 0, 0, 0, 0, 0, 0, 0, 0, 0, 0, 0, 0, 0, 0, 0, 0, 0, 0, 0, 0, 0, 0, 0, 0, 0, 0, 0, 0, 0,
     0, 0, 0, 0, 0, 0, 0, 0, 0, 0, 0, 0, 0, 0, 0, 0, 0, 0, 0, 0, 0, 0],
      [0, 0, 0, 0, 0, 0, 0, 0, 0, 0, 0, 0, 0, 0, 0, 0, 0, 0, 0, 0, 0, 0, 0, 0, 0, 0, 0, 0, 0, 0, 0, 0, 0, 0, 0, 0, 0,
     0, 0, 0, 0, 0, 0, 0, 0, 0, 0, 0, 0, 0, 0, 0, 0, 0, 0, 90, 0, 0, 0]]

/-- for each nonterminal and each state, the set of states (one bit each) behind it -/
def sixteenthPassSets : List (List Nat) :=
  [[316912650057057350374175801343, 316912650057057350374175801343, 4, 4, 4, 4, 4, 316912650057057350374175801343,
     16777216, 16777216, 4, 4, 316912650057057350374175801343, 16777216, 4, 8589934592, 4,
     316912650057057350374175801343, 34359738368, 316912650057057350374175801343, 137438953472, 549755813888, 4,
     316912650057057350374175801343, 17592186044416, 35184372088832, 17592186044416, 316912650057057350374175801343,
     17592186044416, 17592186044416, 316912650057057350374175801343, 316912650057057350374175801343, 17592186044416,
     316912650057057350374175801343, 2251799813685248, 316912650057057350374175801343, 34359738368,
     316912650057057350374175801343, 316912650057057350374175801343, 316912650057057350374175801343,
     144115188075855872, 17592186044416, 67108864, 18446744073709551616, 316912650057057350374175801343, 4, 4,
     316912650057057350374175801343, 67108864, 295147905179352825856, 316912650057057350374175801343, 4,
     316912650057057350374175801343, 316912650057057350374175801343, 4722366482869645213696,
     316912650057057350374175801343, 4, 4, 316912650057057350374175801343, 316912650057057350374175801343,
     18446744073709551616, 17592186044416, 316912650057057350374175801343, 316912650057057350374175801343,
     18446744073709551616, 316912650057057350374175801343, 316912650057057350374175801343, 70368744177664,
     295147905179352825856, 295147905179352825856, 316912650057057350374175801343, 4, 316912650057057350374175801343,
     154742504910672534362390528, 316912650057057350374175801343, 4, 316912650057057350374175801343,
     618970019642690137449562112, 316912650057057350374175801343, 8796093022208, 316912650057057350374175801343,
     590295810358705651712, 316912650057057350374175801343, 154742504910672534362390528, 154742504910672534362390528,
     316912650057057350374175801343, 316912650057057350374175801343, 154742504910672534362390528,
     316912650057057350374175801343, 316912650057057350374175801343, 316912650057057350374175801343,
     79228162514264337593543950336, 316912650057057350374175801343, 19342813113834066795298816,
     316912650057057350374175801343, 316912650057057350374175801343, 316912650057057350374175801343,
     316912650057057350374175801343],
      [316912650057057350374175801343, 316912650057057350374175801343, 4, 4, 4, 4, 4, 316912650057057350374175801343,
     16777216, 16777216, 4, 4, 316912650057057350374175801343, 16777216, 4, 8589934592, 4,
     316912650057057350374175801343, 34359738368, 316912650057057350374175801343, 137438953472, 549755813888, 4,
     316912650057057350374175801343, 17592186044416, 35184372088832, 17592186044416, 316912650057057350374175801343,
     17592186044416, 17592186044416, 316912650057057350374175801343, 316912650057057350374175801343, 17592186044416,
     316912650057057350374175801343, 2251799813685248, 316912650057057350374175801343, 34359738368,
     316912650057057350374175801343, 316912650057057350374175801343, 316912650057057350374175801343,
     144115188075855872, 17592186044416, 67108864, 18446744073709551616, 316912650057057350374175801343, 4, 4,
     316912650057057350374175801343, 67108864, 295147905179352825856, 316912650057057350374175801343, 4,
     316912650057057350374175801343, 316912650057057350374175801343, 4722366482869645213696,
     316912650057057350374175801343, 4, 4, 316912650057057350374175801343, 316912650057057350374175801343,
     18446744073709551616, 17592186044416, 316912650057057350374175801343, 316912650057057350374175801343,
     18446744073709551616, 316912650057057350374175801343, 316912650057057350374175801343, 70368744177664,
     295147905179352825856, 295147905179352825856, 316912650057057350374175801343, 4, 316912650057057350374175801343,
     154742504910672534362390528, 316912650057057350374175801343, 4, 316912650057057350374175801343,
     618970019642690137449562112, 316912650057057350374175801343, 8796093022208, 316912650057057350374175801343,
     590295810358705651712, 316912650057057350374175801343, 154742504910672534362390528, 154742504910672534362390528,
     316912650057057350374175801343, 316912650057057350374175801343, 154742504910672534362390528,
     316912650057057350374175801343, 316912650057057350374175801343, 316912650057057350374175801343,
     79228162514264337593543950336, 316912650057057350374175801343, 19342813113834066795298816,
     316912650057057350374175801343, 316912650057057350374175801343, 316912650057057350374175801343,
     316912650057057350374175801343],
      [316912650057057350374175801343, 316912650057057350374175801343, 4, 316912650057057350374175801343,
     316912650057057350374175801343, 316912650057057350374175801343, 316912650057057350374175801343,
     316912650057057350374175801343, 316912650057057350374175801343, 316912650057057350374175801343,
     316912650057057350374175801343, 316912650057057350374175801343, 316912650057057350374175801343,
     316912650057057350374175801343, 316912650057057350374175801343, 316912650057057350374175801343,
     316912650057057350374175801343, 316912650057057350374175801343, 316912650057057350374175801343,
     316912650057057350374175801343, 316912650057057350374175801343, 316912650057057350374175801343,
     316912650057057350374175801343, 316912650057057350374175801343, 316912650057057350374175801343,
     316912650057057350374175801343, 316912650057057350374175801343, 316912650057057350374175801343,
     316912650057057350374175801343, 316912650057057350374175801343, 316912650057057350374175801343,
     316912650057057350374175801343, 316912650057057350374175801343, 316912650057057350374175801343,
     316912650057057350374175801343, 316912650057057350374175801343, 316912650057057350374175801343,
     316912650057057350374175801343, 316912650057057350374175801343, 316912650057057350374175801343,
     316912650057057350374175801343, 316912650057057350374175801343, 316912650057057350374175801343,
     316912650057057350374175801343, 316912650057057350374175801343, 316912650057057350374175801343,
     316912650057057350374175801343, 316912650057057350374175801343, 316912650057057350374175801343,
     316912650057057350374175801343, 316912650057057350374175801343, 316912650057057350374175801343,
     316912650057057350374175801343, 316912650057057350374175801343, 316912650057057350374175801343,
     316912650057057350374175801343, 316912650057057350374175801343, 316912650057057350374175801343,
     316912650057057350374175801343, 316912650057057350374175801343, 316912650057057350374175801343,
     316912650057057350374175801343, 316912650057057350374175801343, 316912650057057350374175801343,
     316912650057057350374175801343, 316912650057057350374175801343, 316912650057057350374175801343,
     316912650057057350374175801343, 316912650057057350374175801343, 316912650057057350374175801343,
     316912650057057350374175801343, 316912650057057350374175801343, 316912650057057350374175801343,
     316912650057057350374175801343, 316912650057057350374175801343, 316912650057057350374175801343,
     316912650057057350374175801343, 316912650057057350374175801343, 316912650057057350374175801343,
     316912650057057350374175801343, 316912650057057350374175801343, 316912650057057350374175801343,
     316912650057057350374175801343, 316912650057057350374175801343, 316912650057057350374175801343,
     316912650057057350374175801343, 316912650057057350374175801343, 316912650057057350374175801343,
     316912650057057350374175801343, 316912650057057350374175801343, 316912650057057350374175801343,
     316912650057057350374175801343, 316912650057057350374175801343, 316912650057057350374175801343,
     316912650057057350374175801343, 316912650057057350374175801343, 316912650057057350374175801343,
     316912650057057350374175801343],
      [316912650057057350374175801343, 316912650057057350374175801343, 4, 316912650057057350374175801343,
     316912650057057350374175801343, 316912650057057350374175801343, 316912650057057350374175801343,
     316912650057057350374175801343, 316912650057057350374175801343, 316912650057057350374175801343,
     316912650057057350374175801343, 316912650057057350374175801343, 316912650057057350374175801343,
     316912650057057350374175801343, 316912650057057350374175801343, 316912650057057350374175801343,
     316912650057057350374175801343, 316912650057057350374175801343, 316912650057057350374175801343,
     316912650057057350374175801343, 316912650057057350374175801343, 316912650057057350374175801343,
     316912650057057350374175801343, 316912650057057350374175801343, 316912650057057350374175801343,
     316912650057057350374175801343, 316912650057057350374175801343, 316912650057057350374175801343,
     316912650057057350374175801343, 316912650057057350374175801343, 316912650057057350374175801343,
     316912650057057350374175801343, 316912650057057350374175801343, 316912650057057350374175801343,
     316912650057057350374175801343, 316912650057057350374175801343, 316912650057057350374175801343,
     316912650057057350374175801343, 316912650057057350374175801343, 316912650057057350374175801343,
     316912650057057350374175801343, 316912650057057350374175801343, 316912650057057350374175801343,
     316912650057057350374175801343, 316912650057057350374175801343, 316912650057057350374175801343,
     316912650057057350374175801343, 316912650057057350374175801343, 316912650057057350374175801343,
     316912650057057350374175801343, 316912650057057350374175801343, 316912650057057350374175801343,
     316912650057057350374175801343, 316912650057057350374175801343, 316912650057057350374175801343,
     316912650057057350374175801343, 316912650057057350374175801343, 316912650057057350374175801343,
     316912650057057350374175801343, 316912650057057350374175801343, 316912650057057350374175801343,
     316912650057057350374175801343, 316912650057057350374175801343, 316912650057057350374175801343,
     316912650057057350374175801343, 316912650057057350374175801343, 316912650057057350374175801343,
     316912650057057350374175801343, 316912650057057350374175801343, 316912650057057350374175801343,
     316912650057057350374175801343, 316912650057057350374175801343, 316912650057057350374175801343,
     316912650057057350374175801343, 316912650057057350374175801343, 316912650057057350374175801343,
     316912650057057350374175801343, 316912650057057350374175801343, 316912650057057350374175801343,
     316912650057057350374175801343, 316912650057057350374175801343, 316912650057057350374175801343,
     316912650057057350374175801343, 316912650057057350374175801343, 316912650057057350374175801343,
     316912650057057350374175801343, 316912650057057350374175801343, 316912650057057350374175801343,
     316912650057057350374175801343, 316912650057057350374175801343, 316912650057057350374175801343,
     316912650057057350374175801343, 316912650057057350374175801343, 316912650057057350374175801343,
     316912650057057350374175801343, 316912650057057350374175801343, 316912650057057350374175801343,
     316912650057057350374175801343],
      [316912650057057350374175801343, 316912650057057350374175801343, 4, 316912650057057350374175801343, 4, 4, 4,
     316912650057057350374175801343, 83886080, 83886080, 316912650057057350374175801343, 4,
     316912650057057350374175801343, 83886080, 316912650057057350374175801343, 316912650057057350374175801343, 4,
     316912650057057350374175801343, 316912650057057350374175801343, 316912650057057350374175801343,
     316912650057057350374175801343, 316912650057057350374175801343, 316912650057057350374175801343,
     316912650057057350374175801343, 316912650057057350374175801343, 105553116266496, 316912650057057350374175801343,
     316912650057057350374175801343, 316912650057057350374175801343, 316912650057057350374175801343,
     316912650057057350374175801343, 316912650057057350374175801343, 316912650057057350374175801343,
     316912650057057350374175801343, 2251799813685252, 316912650057057350374175801343, 316912650057057350374175801343,
     316912650057057350374175801343, 316912650057057350374175801343, 316912650057057350374175801343,
     144115188075855876, 316912650057057350374175801343, 316912650057057350374175801343, 18446752869802573824,
     316912650057057350374175801343, 4, 4, 316912650057057350374175801343, 316912650057057350374175801343,
     885443715538058477568, 316912650057057350374175801343, 4, 316912650057057350374175801343,
     316912650057057350374175801343, 316912650057057350374175801343, 316912650057057350374175801343, 4, 4,
     316912650057057350374175801343, 316912650057057350374175801343, 18446752869802573824,
     316912650057057350374175801343, 316912650057057350374175801343, 316912650057057350374175801343,
     18446752869802573824, 316912650057057350374175801343, 316912650057057350374175801343,
     316912650057057350374175801343, 885443715538058477568, 885443715538058477568, 316912650057057350374175801343,
     316912650057057350374175801343, 316912650057057350374175801343, 174085318024506601157689344,
     316912650057057350374175801343, 316912650057057350374175801343, 316912650057057350374175801343,
     316912650057057350374175801343, 316912650057057350374175801343, 316912650057057350374175801343,
     316912650057057350374175801343, 316912650057057350374175801343, 316912650057057350374175801343,
     174085318024506601157689344, 174085318024506601157689344, 316912650057057350374175801343,
     316912650057057350374175801343, 174085318024506601157689344, 316912650057057350374175801343,
     316912650057057350374175801343, 316912650057057350374175801343, 316912650057057350374175801343,
     316912650057057350374175801343, 316912650057057350374175801343, 316912650057057350374175801343,
     316912650057057350374175801343, 316912650057057350374175801343, 316912650057057350374175801343],
      [316912650057057350374175801343, 316912650057057350374175801343, 65540, 316912650057057350374175801343, 65536,
     316912650057057350374175801343, 327684, 316912650057057350374175801343, 805306368, 536870912, 65536,
     316912650057057350374175801343, 316912650057057350374175801343, 4831838208, 316912650057057350374175801343,
     524288, 65540, 316912650057057350374175801343, 68719476736, 316912650057057350374175801343, 274877906944,
     1099511627776, 65540, 316912650057057350374175801343, 536870912, 316912650057057350374175801343, 536870912,
     316912650057057350374175801343, 536870912, 536870912, 316912650057057350374175801343,
     316912650057057350374175801343, 536870912, 316912650057057350374175801343, 316912650057057350374175801343,
     316912650057057350374175801343, 68719476736, 316912650057057350374175801343, 316912650057057350374175801343,
     316912650057057350374175801343, 316912650057057350374175801343, 536870912, 316912650057057350374175801343,
     316912650057057350374175801343, 316912650057057350374175801343, 316912650057057350374175801343,
     316912650057057350374175801343, 316912650057057350374175801343, 316912650057057350374175801343,
     316912650057057350374175801343, 316912650057057350374175801343, 316912650057057350374175801343,
     316912650057057350374175801343, 316912650057057350374175801343, 18889465931478580854784,
     316912650057057350374175801343, 316912650057057350374175801343, 316912650057057350374175801343,
     316912650057057350374175801343, 316912650057057350374175801343, 316912650057057350374175801343, 536870912,
     316912650057057350374175801343, 316912650057057350374175801343, 316912650057057350374175801343,
     316912650057057350374175801343, 316912650057057350374175801343, 316912650057057350374175801343,
     316912650057057350374175801343, 316912650057057350374175801343, 316912650057057350374175801343,
     316912650057057350374175801343, 316912650057057350374175801343, 316912650057057350374175801343,
     316912650057057350374175801343, 316912650057057350374175801343, 316912650057057350374175801343,
     75557863725914323419136, 316912650057057350374175801343, 316912650057057350374175801343,
     316912650057057350374175801343, 316912650057057350374175801343, 316912650057057350374175801343,
     316912650057057350374175801343, 316912650057057350374175801343, 316912650057057350374175801343,
     316912650057057350374175801343, 316912650057057350374175801343, 316912650057057350374175801343,
     316912650057057350374175801343, 316912650057057350374175801343, 1237940039285380274899124224,
     316912650057057350374175801343, 316912650057057350374175801343, 316912650057057350374175801343,
     316912650057057350374175801343, 316912650057057350374175801343, 316912650057057350374175801343],
      [316912650057057350374175801343, 316912650057057350374175801343, 316912650057057350374175801343,
     316912650057057350374175801343, 316912650057057350374175801343, 316912650057057350374175801343,
     316912650057057350374175801343, 316912650057057350374175801343, 316912650057057350374175801343,
     316912650057057350374175801343, 316912650057057350374175801343, 316912650057057350374175801343,
     316912650057057350374175801343, 316912650057057350374175801343, 316912650057057350374175801343,
     316912650057057350374175801343, 316912650057057350374175801343, 316912650057057350374175801343,
     316912650057057350374175801343, 316912650057057350374175801343, 316912650057057350374175801343,
     316912650057057350374175801343, 316912650057057350374175801343, 316912650057057350374175801343,
     316912650057057350374175801343, 316912650057057350374175801343, 316912650057057350374175801343,
     316912650057057350374175801343, 316912650057057350374175801343, 316912650057057350374175801343,
     316912650057057350374175801343, 316912650057057350374175801343, 316912650057057350374175801343,
     316912650057057350374175801343, 316912650057057350374175801343, 316912650057057350374175801343,
     316912650057057350374175801343, 316912650057057350374175801343, 316912650057057350374175801343,
     316912650057057350374175801343, 316912650057057350374175801343, 536936452, 316912650057057350374175801343,
     316912650057057350374175801343, 316912650057057350374175801343, 316912650057057350374175801343,
     316912650057057350374175801343, 316912650057057350374175801343, 316912650057057350374175801343,
     316912650057057350374175801343, 316912650057057350374175801343, 316912650057057350374175801343,
     316912650057057350374175801343, 316912650057057350374175801343, 316912650057057350374175801343,
     316912650057057350374175801343, 316912650057057350374175801343, 316912650057057350374175801343,
     316912650057057350374175801343, 316912650057057350374175801343, 316912650057057350374175801343, 536936452,
     316912650057057350374175801343, 316912650057057350374175801343, 316912650057057350374175801343,
     316912650057057350374175801343, 316912650057057350374175801343, 316912650057057350374175801343,
     316912650057057350374175801343, 316912650057057350374175801343, 316912650057057350374175801343,
     316912650057057350374175801343, 316912650057057350374175801343, 316912650057057350374175801343,
     316912650057057350374175801343, 316912650057057350374175801343, 316912650057057350374175801343,
     316912650057057350374175801343, 316912650057057350374175801343, 316912650057057350374175801343,
     316912650057057350374175801343, 316912650057057350374175801343, 316912650057057350374175801343,
     316912650057057350374175801343, 316912650057057350374175801343, 316912650057057350374175801343,
     316912650057057350374175801343, 316912650057057350374175801343, 316912650057057350374175801343,
     316912650057057350374175801343, 316912650057057350374175801343, 316912650057057350374175801343,
     316912650057057350374175801343, 316912650057057350374175801343, 316912650057057350374175801343,
     316912650057057350374175801343, 316912650057057350374175801343, 316912650057057350374175801343],
      [316912650057057350374175801343, 316912650057057350374175801343, 4, 316912650057057350374175801343, 4,
     316912650057057350374175801343, 4, 316912650057057350374175801343, 316912650057057350374175801343,
     316912650057057350374175801343, 316912650057057350374175801343, 316912650057057350374175801343,
     316912650057057350374175801343, 316912650057057350374175801343, 316912650057057350374175801343,
     316912650057057350374175801343, 316912650057057350374175801343, 316912650057057350374175801343,
     316912650057057350374175801343, 316912650057057350374175801343, 316912650057057350374175801343,
     316912650057057350374175801343, 316912650057057350374175801343, 316912650057057350374175801343,
     316912650057057350374175801343, 316912650057057350374175801343, 316912650057057350374175801343,
     316912650057057350374175801343, 316912650057057350374175801343, 316912650057057350374175801343,
     316912650057057350374175801343, 316912650057057350374175801343, 316912650057057350374175801343,
     316912650057057350374175801343, 2251799813685252, 316912650057057350374175801343, 316912650057057350374175801343,
     316912650057057350374175801343, 316912650057057350374175801343, 316912650057057350374175801343,
     316912650057057350374175801343, 316912650057057350374175801343, 316912650057057350374175801343,
     18446752869802573824, 316912650057057350374175801343, 316912650057057350374175801343,
     316912650057057350374175801343, 316912650057057350374175801343, 316912650057057350374175801343,
     885443715538058477572, 316912650057057350374175801343, 316912650057057350374175801343,
     316912650057057350374175801343, 316912650057057350374175801343, 316912650057057350374175801343,
     316912650057057350374175801343, 4, 316912650057057350374175801343, 316912650057057350374175801343,
     316912650057057350374175801343, 18446752869802573824, 316912650057057350374175801343,
     316912650057057350374175801343, 316912650057057350374175801343, 316912650057057350374175801343,
     316912650057057350374175801343, 316912650057057350374175801343, 316912650057057350374175801343,
     316912650057057350374175801343, 316912650057057350374175801343, 316912650057057350374175801343,
     316912650057057350374175801343, 316912650057057350374175801343, 316912650057057350374175801343,
     316912650057057350374175801343, 316912650057057350374175801343, 316912650057057350374175801343,
     316912650057057350374175801343, 316912650057057350374175801343, 316912650057057350374175801343,
     316912650057057350374175801343, 316912650057057350374175801343, 316912650057057350374175801343,
     174085318024506601157689344, 174085318024506601157689344, 316912650057057350374175801343,
     316912650057057350374175801343, 316912650057057350374175801343, 316912650057057350374175801343,
     316912650057057350374175801343, 316912650057057350374175801343, 316912650057057350374175801343,
     316912650057057350374175801343, 316912650057057350374175801343, 316912650057057350374175801343,
     316912650057057350374175801343, 316912650057057350374175801343, 316912650057057350374175801343],
      [316912650057057350374175801343, 316912650057057350374175801343, 4, 316912650057057350374175801343,
     316912650057057350374175801343, 316912650057057350374175801343, 4, 316912650057057350374175801343,
     316912650057057350374175801343, 316912650057057350374175801343, 316912650057057350374175801343,
     316912650057057350374175801343, 316912650057057350374175801343, 316912650057057350374175801343,
     316912650057057350374175801343, 316912650057057350374175801343, 316912650057057350374175801343,
     316912650057057350374175801343, 316912650057057350374175801343, 316912650057057350374175801343,
     316912650057057350374175801343, 316912650057057350374175801343, 316912650057057350374175801343,
     316912650057057350374175801343, 316912650057057350374175801343, 316912650057057350374175801343,
     316912650057057350374175801343, 316912650057057350374175801343, 316912650057057350374175801343,
     316912650057057350374175801343, 316912650057057350374175801343, 316912650057057350374175801343,
     316912650057057350374175801343, 316912650057057350374175801343, 4, 316912650057057350374175801343,
     316912650057057350374175801343, 316912650057057350374175801343, 316912650057057350374175801343,
     316912650057057350374175801343, 316912650057057350374175801343, 316912650057057350374175801343,
     316912650057057350374175801343, 18446752869802573824, 316912650057057350374175801343,
     316912650057057350374175801343, 316912650057057350374175801343, 316912650057057350374175801343,
     316912650057057350374175801343, 4, 316912650057057350374175801343, 316912650057057350374175801343,
     316912650057057350374175801343, 316912650057057350374175801343, 316912650057057350374175801343,
     316912650057057350374175801343, 4, 316912650057057350374175801343, 316912650057057350374175801343,
     316912650057057350374175801343, 18446752869802573824, 316912650057057350374175801343,
     316912650057057350374175801343, 316912650057057350374175801343, 316912650057057350374175801343,
     316912650057057350374175801343, 316912650057057350374175801343, 316912650057057350374175801343,
     316912650057057350374175801343, 316912650057057350374175801343, 316912650057057350374175801343,
     316912650057057350374175801343, 316912650057057350374175801343, 316912650057057350374175801343,
     316912650057057350374175801343, 316912650057057350374175801343, 316912650057057350374175801343,
     316912650057057350374175801343, 316912650057057350374175801343, 316912650057057350374175801343,
     316912650057057350374175801343, 316912650057057350374175801343, 316912650057057350374175801343,
     174085318024506601157689344, 174085318024506601157689344, 316912650057057350374175801343,
     316912650057057350374175801343, 316912650057057350374175801343, 316912650057057350374175801343,
     316912650057057350374175801343, 316912650057057350374175801343, 316912650057057350374175801343,
     316912650057057350374175801343, 316912650057057350374175801343, 316912650057057350374175801343,
     316912650057057350374175801343, 316912650057057350374175801343, 316912650057057350374175801343],
      [316912650057057350374175801343, 316912650057057350374175801343, 4, 316912650057057350374175801343,
     316912650057057350374175801343, 316912650057057350374175801343, 4, 316912650057057350374175801343,
     316912650057057350374175801343, 316912650057057350374175801343, 316912650057057350374175801343,
     316912650057057350374175801343, 316912650057057350374175801343, 316912650057057350374175801343,
     316912650057057350374175801343, 316912650057057350374175801343, 316912650057057350374175801343,
     316912650057057350374175801343, 316912650057057350374175801343, 316912650057057350374175801343,
     316912650057057350374175801343, 316912650057057350374175801343, 316912650057057350374175801343,
     316912650057057350374175801343, 316912650057057350374175801343, 316912650057057350374175801343,
     316912650057057350374175801343, 316912650057057350374175801343, 316912650057057350374175801343,
     316912650057057350374175801343, 316912650057057350374175801343, 316912650057057350374175801343,
     316912650057057350374175801343, 316912650057057350374175801343, 2251799813685252, 316912650057057350374175801343,
     316912650057057350374175801343, 316912650057057350374175801343, 316912650057057350374175801343,
     316912650057057350374175801343, 316912650057057350374175801343, 316912650057057350374175801343,
     316912650057057350374175801343, 18446752869802573824, 316912650057057350374175801343,
     316912650057057350374175801343, 316912650057057350374175801343, 316912650057057350374175801343,
     316912650057057350374175801343, 885443715538058477572, 316912650057057350374175801343,
     316912650057057350374175801343, 316912650057057350374175801343, 316912650057057350374175801343,
     316912650057057350374175801343, 316912650057057350374175801343, 4, 316912650057057350374175801343,
     316912650057057350374175801343, 316912650057057350374175801343, 18446752869802573824,
     316912650057057350374175801343, 316912650057057350374175801343, 316912650057057350374175801343,
     316912650057057350374175801343, 316912650057057350374175801343, 316912650057057350374175801343,
     316912650057057350374175801343, 316912650057057350374175801343, 316912650057057350374175801343,
     316912650057057350374175801343, 316912650057057350374175801343, 316912650057057350374175801343,
     316912650057057350374175801343, 316912650057057350374175801343, 316912650057057350374175801343,
     316912650057057350374175801343, 316912650057057350374175801343, 316912650057057350374175801343,
     316912650057057350374175801343, 316912650057057350374175801343, 316912650057057350374175801343,
     316912650057057350374175801343, 174085318024506601157689344, 174085318024506601157689344,
     316912650057057350374175801343, 316912650057057350374175801343, 316912650057057350374175801343,
     316912650057057350374175801343, 316912650057057350374175801343, 316912650057057350374175801343,
     316912650057057350374175801343, 316912650057057350374175801343, 316912650057057350374175801343,
     316912650057057350374175801343, 316912650057057350374175801343, 316912650057057350374175801343,
     316912650057057350374175801343],
      [316912650057057350374175801343, 316912650057057350374175801343, 4, 316912650057057350374175801343,
     316912650057057350374175801343, 316912650057057350374175801343, 316912650057057350374175801343,
     316912650057057350374175801343, 316912650057057350374175801343, 316912650057057350374175801343,
     316912650057057350374175801343, 316912650057057350374175801343, 316912650057057350374175801343,
     316912650057057350374175801343, 316912650057057350374175801343, 316912650057057350374175801343,
     316912650057057350374175801343, 316912650057057350374175801343, 316912650057057350374175801343,
     316912650057057350374175801343, 316912650057057350374175801343, 316912650057057350374175801343,
     316912650057057350374175801343, 316912650057057350374175801343, 316912650057057350374175801343,
     316912650057057350374175801343, 316912650057057350374175801343, 316912650057057350374175801343,
     316912650057057350374175801343, 316912650057057350374175801343, 316912650057057350374175801343,
     316912650057057350374175801343, 316912650057057350374175801343, 316912650057057350374175801343,
     316912650057057350374175801343, 316912650057057350374175801343, 316912650057057350374175801343,
     316912650057057350374175801343, 316912650057057350374175801343, 316912650057057350374175801343,
     144115188075855876, 316912650057057350374175801343, 316912650057057350374175801343, 18446752869802573824,
     316912650057057350374175801343, 316912650057057350374175801343, 316912650057057350374175801343,
     316912650057057350374175801343, 316912650057057350374175801343, 316912650057057350374175801343,
     316912650057057350374175801343, 4, 316912650057057350374175801343, 316912650057057350374175801343,
     316912650057057350374175801343, 316912650057057350374175801343, 316912650057057350374175801343, 4,
     316912650057057350374175801343, 316912650057057350374175801343, 316912650057057350374175801343,
     316912650057057350374175801343, 316912650057057350374175801343, 316912650057057350374175801343,
     18446752869802573824, 316912650057057350374175801343, 316912650057057350374175801343,
     316912650057057350374175801343, 885443715538058477572, 885443715538058477572, 316912650057057350374175801343,
     316912650057057350374175801343, 316912650057057350374175801343, 316912650057057350374175801343,
     316912650057057350374175801343, 316912650057057350374175801343, 316912650057057350374175801343,
     316912650057057350374175801343, 316912650057057350374175801343, 316912650057057350374175801343,
     316912650057057350374175801343, 316912650057057350374175801343, 316912650057057350374175801343,
     316912650057057350374175801343, 174085318024506601157689344, 316912650057057350374175801343,
     316912650057057350374175801343, 174085318024506601157689344, 316912650057057350374175801343,
     316912650057057350374175801343, 316912650057057350374175801343, 316912650057057350374175801343,
     316912650057057350374175801343, 316912650057057350374175801343, 316912650057057350374175801343,
     316912650057057350374175801343, 316912650057057350374175801343, 316912650057057350374175801343],
      [316912650057057350374175801343, 316912650057057350374175801343, 4, 316912650057057350374175801343, 4,
     316912650057057350374175801343, 4, 316912650057057350374175801343, 316912650057057350374175801343,
     316912650057057350374175801343, 316912650057057350374175801343, 316912650057057350374175801343,
     316912650057057350374175801343, 316912650057057350374175801343, 316912650057057350374175801343,
     316912650057057350374175801343, 316912650057057350374175801343, 316912650057057350374175801343,
     316912650057057350374175801343, 316912650057057350374175801343, 316912650057057350374175801343,
     316912650057057350374175801343, 316912650057057350374175801343, 316912650057057350374175801343,
     316912650057057350374175801343, 4, 316912650057057350374175801343, 316912650057057350374175801343,
     316912650057057350374175801343, 316912650057057350374175801343, 316912650057057350374175801343,
     316912650057057350374175801343, 316912650057057350374175801343, 316912650057057350374175801343, 4,
     316912650057057350374175801343, 316912650057057350374175801343, 316912650057057350374175801343,
     316912650057057350374175801343, 316912650057057350374175801343, 4, 316912650057057350374175801343,
     316912650057057350374175801343, 8796093022208, 316912650057057350374175801343, 4, 4,
     316912650057057350374175801343, 316912650057057350374175801343, 4, 316912650057057350374175801343, 4,
     316912650057057350374175801343, 316912650057057350374175801343, 316912650057057350374175801343,
     316912650057057350374175801343, 4, 4, 316912650057057350374175801343, 316912650057057350374175801343,
     8796093022208, 316912650057057350374175801343, 316912650057057350374175801343, 316912650057057350374175801343,
     8796093022208, 316912650057057350374175801343, 316912650057057350374175801343, 316912650057057350374175801343, 4,
     4, 316912650057057350374175801343, 316912650057057350374175801343, 316912650057057350374175801343,
     19342813113834066795298816, 316912650057057350374175801343, 316912650057057350374175801343,
     316912650057057350374175801343, 316912650057057350374175801343, 316912650057057350374175801343,
     316912650057057350374175801343, 316912650057057350374175801343, 316912650057057350374175801343,
     316912650057057350374175801343, 19342813113834066795298816, 19342813113834066795298816,
     316912650057057350374175801343, 316912650057057350374175801343, 19342813113834066795298816,
     316912650057057350374175801343, 316912650057057350374175801343, 316912650057057350374175801343,
     316912650057057350374175801343, 316912650057057350374175801343, 316912650057057350374175801343,
     316912650057057350374175801343, 316912650057057350374175801343, 316912650057057350374175801343,
     316912650057057350374175801343],
      [316912650057057350374175801343, 316912650057057350374175801343, 316912650057057350374175801343,
     316912650057057350374175801343, 316912650057057350374175801343, 316912650057057350374175801343,
     316912650057057350374175801343, 316912650057057350374175801343, 316912650057057350374175801343,
     316912650057057350374175801343, 316912650057057350374175801343, 316912650057057350374175801343,
     316912650057057350374175801343, 316912650057057350374175801343, 316912650057057350374175801343,
     316912650057057350374175801343, 316912650057057350374175801343, 316912650057057350374175801343,
     316912650057057350374175801343, 316912650057057350374175801343, 316912650057057350374175801343,
     316912650057057350374175801343, 316912650057057350374175801343, 316912650057057350374175801343,
     316912650057057350374175801343, 316912650057057350374175801343, 316912650057057350374175801343,
     316912650057057350374175801343, 316912650057057350374175801343, 316912650057057350374175801343,
     316912650057057350374175801343, 4, 316912650057057350374175801343, 316912650057057350374175801343,
     316912650057057350374175801343, 316912650057057350374175801343, 316912650057057350374175801343,
     316912650057057350374175801343, 316912650057057350374175801343, 316912650057057350374175801343,
     316912650057057350374175801343, 316912650057057350374175801343, 316912650057057350374175801343,
     316912650057057350374175801343, 316912650057057350374175801343, 316912650057057350374175801343,
     316912650057057350374175801343, 316912650057057350374175801343, 316912650057057350374175801343,
     316912650057057350374175801343, 316912650057057350374175801343, 316912650057057350374175801343,
     316912650057057350374175801343, 316912650057057350374175801343, 316912650057057350374175801343,
     316912650057057350374175801343, 316912650057057350374175801343, 316912650057057350374175801343,
     316912650057057350374175801343, 316912650057057350374175801343, 316912650057057350374175801343,
     316912650057057350374175801343, 316912650057057350374175801343, 316912650057057350374175801343,
     316912650057057350374175801343, 316912650057057350374175801343, 316912650057057350374175801343,
     316912650057057350374175801343, 316912650057057350374175801343, 316912650057057350374175801343,
     316912650057057350374175801343, 316912650057057350374175801343, 316912650057057350374175801343,
     316912650057057350374175801343, 316912650057057350374175801343, 316912650057057350374175801343,
     316912650057057350374175801343, 316912650057057350374175801343, 316912650057057350374175801343,
     316912650057057350374175801343, 18446752869802573824, 316912650057057350374175801343,
     316912650057057350374175801343, 316912650057057350374175801343, 316912650057057350374175801343,
     316912650057057350374175801343, 316912650057057350374175801343, 316912650057057350374175801343,
     316912650057057350374175801343, 316912650057057350374175801343, 316912650057057350374175801343,
     316912650057057350374175801343, 316912650057057350374175801343, 316912650057057350374175801343,
     174085318024506601157689344, 316912650057057350374175801343, 316912650057057350374175801343,
     316912650057057350374175801343],
      [316912650057057350374175801343, 316912650057057350374175801343, 4, 316912650057057350374175801343,
     316912650057057350374175801343, 316912650057057350374175801343, 316912650057057350374175801343,
     316912650057057350374175801343, 316912650057057350374175801343, 316912650057057350374175801343,
     316912650057057350374175801343, 316912650057057350374175801343, 316912650057057350374175801343,
     316912650057057350374175801343, 316912650057057350374175801343, 316912650057057350374175801343,
     316912650057057350374175801343, 316912650057057350374175801343, 316912650057057350374175801343,
     316912650057057350374175801343, 316912650057057350374175801343, 316912650057057350374175801343,
     316912650057057350374175801343, 316912650057057350374175801343, 316912650057057350374175801343,
     316912650057057350374175801343, 316912650057057350374175801343, 316912650057057350374175801343,
     316912650057057350374175801343, 316912650057057350374175801343, 316912650057057350374175801343,
     316912650057057350374175801343, 316912650057057350374175801343, 316912650057057350374175801343,
     316912650057057350374175801343, 316912650057057350374175801343, 316912650057057350374175801343,
     316912650057057350374175801343, 316912650057057350374175801343, 316912650057057350374175801343,
     316912650057057350374175801343, 316912650057057350374175801343, 316912650057057350374175801343,
     18446752869802573824, 316912650057057350374175801343, 316912650057057350374175801343,
     316912650057057350374175801343, 316912650057057350374175801343, 316912650057057350374175801343,
     316912650057057350374175801343, 316912650057057350374175801343, 316912650057057350374175801343,
     316912650057057350374175801343, 316912650057057350374175801343, 316912650057057350374175801343,
     316912650057057350374175801343, 316912650057057350374175801343, 316912650057057350374175801343,
     316912650057057350374175801343, 316912650057057350374175801343, 316912650057057350374175801343,
     316912650057057350374175801343, 316912650057057350374175801343, 316912650057057350374175801343,
     18446752869802573824, 316912650057057350374175801343, 316912650057057350374175801343,
     316912650057057350374175801343, 316912650057057350374175801343, 316912650057057350374175801343,
     316912650057057350374175801343, 316912650057057350374175801343, 316912650057057350374175801343,
     316912650057057350374175801343, 316912650057057350374175801343, 316912650057057350374175801343,
     316912650057057350374175801343, 316912650057057350374175801343, 316912650057057350374175801343,
     316912650057057350374175801343, 316912650057057350374175801343, 316912650057057350374175801343,
     316912650057057350374175801343, 316912650057057350374175801343, 174085318024506601157689344,
     316912650057057350374175801343, 316912650057057350374175801343, 174085318024506601157689344,
     316912650057057350374175801343, 316912650057057350374175801343, 316912650057057350374175801343,
     316912650057057350374175801343, 316912650057057350374175801343, 316912650057057350374175801343,
     316912650057057350374175801343, 316912650057057350374175801343, 316912650057057350374175801343,
     316912650057057350374175801343],
      [316912650057057350374175801343, 316912650057057350374175801343, 316912650057057350374175801343,
     316912650057057350374175801343, 316912650057057350374175801343, 316912650057057350374175801343,
     316912650057057350374175801343, 4, 316912650057057350374175801343, 316912650057057350374175801343,
     316912650057057350374175801343, 316912650057057350374175801343, 316912650057057350374175801343,
     316912650057057350374175801343, 316912650057057350374175801343, 316912650057057350374175801343,
     316912650057057350374175801343, 316912650057057350374175801343, 316912650057057350374175801343,
     316912650057057350374175801343, 316912650057057350374175801343, 316912650057057350374175801343,
     316912650057057350374175801343, 316912650057057350374175801343, 316912650057057350374175801343,
     316912650057057350374175801343, 316912650057057350374175801343, 316912650057057350374175801343,
     316912650057057350374175801343, 316912650057057350374175801343, 316912650057057350374175801343, 4,
     316912650057057350374175801343, 316912650057057350374175801343, 316912650057057350374175801343,
     316912650057057350374175801343, 316912650057057350374175801343, 316912650057057350374175801343,
     316912650057057350374175801343, 316912650057057350374175801343, 316912650057057350374175801343,
     316912650057057350374175801343, 316912650057057350374175801343, 316912650057057350374175801343,
     316912650057057350374175801343, 316912650057057350374175801343, 316912650057057350374175801343,
     316912650057057350374175801343, 316912650057057350374175801343, 316912650057057350374175801343,
     316912650057057350374175801343, 316912650057057350374175801343, 316912650057057350374175801343,
     316912650057057350374175801343, 316912650057057350374175801343, 316912650057057350374175801343,
     316912650057057350374175801343, 316912650057057350374175801343, 316912650057057350374175801343,
     316912650057057350374175801343, 316912650057057350374175801343, 316912650057057350374175801343,
     18446752869802573824, 316912650057057350374175801343, 316912650057057350374175801343,
     316912650057057350374175801343, 316912650057057350374175801343, 316912650057057350374175801343,
     316912650057057350374175801343, 316912650057057350374175801343, 316912650057057350374175801343,
     316912650057057350374175801343, 316912650057057350374175801343, 316912650057057350374175801343,
     316912650057057350374175801343, 316912650057057350374175801343, 316912650057057350374175801343,
     316912650057057350374175801343, 316912650057057350374175801343, 316912650057057350374175801343,
     18446752869802573824, 316912650057057350374175801343, 316912650057057350374175801343,
     316912650057057350374175801343, 316912650057057350374175801343, 174085318024506601157689344,
     316912650057057350374175801343, 316912650057057350374175801343, 316912650057057350374175801343,
     316912650057057350374175801343, 316912650057057350374175801343, 316912650057057350374175801343,
     316912650057057350374175801343, 316912650057057350374175801343, 174085318024506601157689344,
     316912650057057350374175801343, 316912650057057350374175801343, 316912650057057350374175801343],
      [316912650057057350374175801343, 316912650057057350374175801343, 4, 316912650057057350374175801343,
     316912650057057350374175801343, 316912650057057350374175801343, 316912650057057350374175801343,
     316912650057057350374175801343, 316912650057057350374175801343, 316912650057057350374175801343,
     316912650057057350374175801343, 316912650057057350374175801343, 316912650057057350374175801343,
     316912650057057350374175801343, 316912650057057350374175801343, 316912650057057350374175801343,
     316912650057057350374175801343, 316912650057057350374175801343, 316912650057057350374175801343,
     316912650057057350374175801343, 316912650057057350374175801343, 316912650057057350374175801343,
     316912650057057350374175801343, 316912650057057350374175801343, 316912650057057350374175801343, 105553116266500,
     316912650057057350374175801343, 316912650057057350374175801343, 316912650057057350374175801343,
     316912650057057350374175801343, 316912650057057350374175801343, 316912650057057350374175801343,
     316912650057057350374175801343, 316912650057057350374175801343, 316912650057057350374175801343,
     316912650057057350374175801343, 316912650057057350374175801343, 316912650057057350374175801343,
     316912650057057350374175801343, 316912650057057350374175801343, 316912650057057350374175801343,
     316912650057057350374175801343, 316912650057057350374175801343, 18446752869802573824,
     316912650057057350374175801343, 316912650057057350374175801343, 316912650057057350374175801343,
     316912650057057350374175801343, 316912650057057350374175801343, 316912650057057350374175801343,
     316912650057057350374175801343, 316912650057057350374175801343, 316912650057057350374175801343,
     316912650057057350374175801343, 316912650057057350374175801343, 316912650057057350374175801343,
     316912650057057350374175801343, 316912650057057350374175801343, 316912650057057350374175801343,
     316912650057057350374175801343, 316912650057057350374175801343, 316912650057057350374175801343,
     316912650057057350374175801343, 316912650057057350374175801343, 316912650057057350374175801343,
     316912650057057350374175801343, 316912650057057350374175801343, 316912650057057350374175801343,
     316912650057057350374175801343, 316912650057057350374175801343, 316912650057057350374175801343,
     316912650057057350374175801343, 316912650057057350374175801343, 174085318024506601157689344,
     316912650057057350374175801343, 316912650057057350374175801343, 316912650057057350374175801343,
     316912650057057350374175801343, 316912650057057350374175801343, 316912650057057350374175801343,
     316912650057057350374175801343, 316912650057057350374175801343, 316912650057057350374175801343,
     316912650057057350374175801343, 174085318024506601157689344, 316912650057057350374175801343,
     316912650057057350374175801343, 316912650057057350374175801343, 316912650057057350374175801343,
     316912650057057350374175801343, 316912650057057350374175801343, 316912650057057350374175801343,
     316912650057057350374175801343, 316912650057057350374175801343, 316912650057057350374175801343,
     316912650057057350374175801343, 316912650057057350374175801343, 316912650057057350374175801343],
      [316912650057057350374175801343, 316912650057057350374175801343, 4, 316912650057057350374175801343,
     316912650057057350374175801343, 316912650057057350374175801343, 4, 316912650057057350374175801343,
     316912650057057350374175801343, 316912650057057350374175801343, 316912650057057350374175801343,
     316912650057057350374175801343, 316912650057057350374175801343, 316912650057057350374175801343,
     316912650057057350374175801343, 316912650057057350374175801343, 316912650057057350374175801343,
     316912650057057350374175801343, 316912650057057350374175801343, 316912650057057350374175801343,
     316912650057057350374175801343, 316912650057057350374175801343, 316912650057057350374175801343,
     316912650057057350374175801343, 316912650057057350374175801343, 316912650057057350374175801343,
     316912650057057350374175801343, 316912650057057350374175801343, 316912650057057350374175801343,
     316912650057057350374175801343, 316912650057057350374175801343, 316912650057057350374175801343,
     316912650057057350374175801343, 316912650057057350374175801343, 316912650057057350374175801343,
     316912650057057350374175801343, 316912650057057350374175801343, 316912650057057350374175801343,
     316912650057057350374175801343, 316912650057057350374175801343, 316912650057057350374175801343,
     316912650057057350374175801343, 316912650057057350374175801343, 18446752869802573824,
     316912650057057350374175801343, 4, 4, 316912650057057350374175801343, 316912650057057350374175801343,
     316912650057057350374175801343, 316912650057057350374175801343, 316912650057057350374175801343,
     316912650057057350374175801343, 316912650057057350374175801343, 316912650057057350374175801343,
     316912650057057350374175801343, 316912650057057350374175801343, 316912650057057350374175801343,
     316912650057057350374175801343, 316912650057057350374175801343, 18446752869802573824,
     316912650057057350374175801343, 316912650057057350374175801343, 316912650057057350374175801343,
     18446752869802573824, 316912650057057350374175801343, 316912650057057350374175801343,
     316912650057057350374175801343, 316912650057057350374175801343, 316912650057057350374175801343,
     316912650057057350374175801343, 316912650057057350374175801343, 316912650057057350374175801343,
     316912650057057350374175801343, 316912650057057350374175801343, 316912650057057350374175801343,
     316912650057057350374175801343, 316912650057057350374175801343, 316912650057057350374175801343,
     316912650057057350374175801343, 316912650057057350374175801343, 316912650057057350374175801343,
     316912650057057350374175801343, 174085318024506601157689344, 174085318024506601157689344,
     316912650057057350374175801343, 316912650057057350374175801343, 174085318024506601157689344,
     316912650057057350374175801343, 316912650057057350374175801343, 316912650057057350374175801343,
     316912650057057350374175801343, 316912650057057350374175801343, 316912650057057350374175801343,
     316912650057057350374175801343, 316912650057057350374175801343, 316912650057057350374175801343,
     316912650057057350374175801343],
      [316912650057057350374175801343, 316912650057057350374175801343, 4, 316912650057057350374175801343,
     316912650057057350374175801343, 316912650057057350374175801343, 316912650057057350374175801343,
     316912650057057350374175801343, 316912650057057350374175801343, 316912650057057350374175801343,
     316912650057057350374175801343, 316912650057057350374175801343, 316912650057057350374175801343,
     316912650057057350374175801343, 316912650057057350374175801343, 316912650057057350374175801343,
     316912650057057350374175801343, 316912650057057350374175801343, 316912650057057350374175801343,
     316912650057057350374175801343, 316912650057057350374175801343, 316912650057057350374175801343,
     316912650057057350374175801343, 316912650057057350374175801343, 316912650057057350374175801343,
     316912650057057350374175801343, 316912650057057350374175801343, 316912650057057350374175801343,
     316912650057057350374175801343, 316912650057057350374175801343, 316912650057057350374175801343,
     316912650057057350374175801343, 316912650057057350374175801343, 316912650057057350374175801343,
     316912650057057350374175801343, 316912650057057350374175801343, 316912650057057350374175801343,
     316912650057057350374175801343, 316912650057057350374175801343, 316912650057057350374175801343,
     316912650057057350374175801343, 316912650057057350374175801343, 316912650057057350374175801343,
     18446752869802573824, 316912650057057350374175801343, 316912650057057350374175801343,
     316912650057057350374175801343, 316912650057057350374175801343, 316912650057057350374175801343,
     316912650057057350374175801343, 316912650057057350374175801343, 316912650057057350374175801343,
     316912650057057350374175801343, 316912650057057350374175801343, 316912650057057350374175801343,
     316912650057057350374175801343, 316912650057057350374175801343, 316912650057057350374175801343,
     316912650057057350374175801343, 316912650057057350374175801343, 316912650057057350374175801343,
     316912650057057350374175801343, 316912650057057350374175801343, 316912650057057350374175801343,
     18446752869802573824, 316912650057057350374175801343, 316912650057057350374175801343,
     316912650057057350374175801343, 316912650057057350374175801343, 316912650057057350374175801343,
     316912650057057350374175801343, 316912650057057350374175801343, 316912650057057350374175801343,
     316912650057057350374175801343, 316912650057057350374175801343, 316912650057057350374175801343,
     316912650057057350374175801343, 316912650057057350374175801343, 316912650057057350374175801343,
     316912650057057350374175801343, 316912650057057350374175801343, 316912650057057350374175801343,
     316912650057057350374175801343, 316912650057057350374175801343, 174085318024506601157689344,
     316912650057057350374175801343, 316912650057057350374175801343, 174085318024506601157689344,
     316912650057057350374175801343, 316912650057057350374175801343, 316912650057057350374175801343,
     316912650057057350374175801343, 316912650057057350374175801343, 316912650057057350374175801343,
     316912650057057350374175801343, 316912650057057350374175801343, 316912650057057350374175801343,
     316912650057057350374175801343],
      [316912650057057350374175801343, 2449958198313025796, 316912650057057350374175801343,
     316912650057057350374175801343, 316912650057057350374175801343, 316912650057057350374175801343,
     316912650057057350374175801343, 316912650057057350374175801343, 316912650057057350374175801343,
     316912650057057350374175801343, 316912650057057350374175801343, 316912650057057350374175801343,
     316912650057057350374175801343, 316912650057057350374175801343, 316912650057057350374175801343,
     316912650057057350374175801343, 316912650057057350374175801343, 316912650057057350374175801343,
     316912650057057350374175801343, 316912650057057350374175801343, 316912650057057350374175801343,
     316912650057057350374175801343, 316912650057057350374175801343, 316912650057057350374175801343,
     316912650057057350374175801343, 316912650057057350374175801343, 316912650057057350374175801343,
     316912650057057350374175801343, 316912650057057350374175801343, 316912650057057350374175801343,
     316912650057057350374175801343, 316912650057057350374175801343, 316912650057057350374175801343,
     316912650057057350374175801343, 316912650057057350374175801343, 316912650057057350374175801343,
     316912650057057350374175801343, 316912650057057350374175801343, 316912650057057350374175801343,
     316912650057057350374175801343, 316912650057057350374175801343, 316912650057057350374175801343,
     316912650057057350374175801343, 316912650057057350374175801343, 316912650057057350374175801343,
     316912650057057350374175801343, 316912650057057350374175801343, 316912650057057350374175801343,
     316912650057057350374175801343, 316912650057057350374175801343, 316912650057057350374175801343,
     316912650057057350374175801343, 316912650057057350374175801343, 316912650057057350374175801343,
     316912650057057350374175801343, 316912650057057350374175801343, 316912650057057350374175801343,
     316912650057057350374175801343, 316912650057057350374175801343, 316912650057057350374175801343,
     316912650057057350374175801343, 316912650057057350374175801343, 316912650057057350374175801343,
     316912650057057350374175801343, 316912650057057350374175801343, 316912650057057350374175801343,
     316912650057057350374175801343, 316912650057057350374175801343, 316912650057057350374175801343,
     316912650057057350374175801343, 316912650057057350374175801343, 316912650057057350374175801343,
     316912650057057350374175801343, 316912650057057350374175801343, 316912650057057350374175801343,
     316912650057057350374175801343, 316912650057057350374175801343, 316912650057057350374175801343,
     316912650057057350374175801343, 316912650057057350374175801343, 316912650057057350374175801343,
     316912650057057350374175801343, 316912650057057350374175801343, 316912650057057350374175801343,
     316912650057057350374175801343, 316912650057057350374175801343, 316912650057057350374175801343,
     316912650057057350374175801343, 316912650057057350374175801343, 316912650057057350374175801343,
     316912650057057350374175801343, 316912650057057350374175801343, 316912650057057350374175801343,
     316912650057057350374175801343, 316912650057057350374175801343, 316912650057057350374175801343,
     316912650057057350374175801343, 316912650057057350374175801343],
      [316912650057057350374175801343, 316912650057057350374175801343, 2449958198313025540,
     316912650057057350374175801343, 316912650057057350374175801343, 316912650057057350374175801343,
     316912650057057350374175801343, 316912650057057350374175801343, 316912650057057350374175801343,
     316912650057057350374175801343, 316912650057057350374175801343, 316912650057057350374175801343,
     316912650057057350374175801343, 316912650057057350374175801343, 316912650057057350374175801343,
     316912650057057350374175801343, 316912650057057350374175801343, 316912650057057350374175801343,
     316912650057057350374175801343, 316912650057057350374175801343, 316912650057057350374175801343,
     316912650057057350374175801343, 316912650057057350374175801343, 316912650057057350374175801343,
     316912650057057350374175801343, 316912650057057350374175801343, 316912650057057350374175801343,
     316912650057057350374175801343, 316912650057057350374175801343, 316912650057057350374175801343,
     316912650057057350374175801343, 316912650057057350374175801343, 316912650057057350374175801343,
     316912650057057350374175801343, 316912650057057350374175801343, 316912650057057350374175801343,
     316912650057057350374175801343, 316912650057057350374175801343, 316912650057057350374175801343,
     316912650057057350374175801343, 316912650057057350374175801343, 316912650057057350374175801343,
     316912650057057350374175801343, 316912650057057350374175801343, 316912650057057350374175801343,
     316912650057057350374175801343, 316912650057057350374175801343, 316912650057057350374175801343,
     316912650057057350374175801343, 316912650057057350374175801343, 316912650057057350374175801343,
     316912650057057350374175801343, 316912650057057350374175801343, 316912650057057350374175801343,
     316912650057057350374175801343, 316912650057057350374175801343, 316912650057057350374175801343,
     316912650057057350374175801343, 316912650057057350374175801343, 316912650057057350374175801343,
     316912650057057350374175801343, 316912650057057350374175801343, 316912650057057350374175801343,
     316912650057057350374175801343, 316912650057057350374175801343, 316912650057057350374175801343,
     316912650057057350374175801343, 316912650057057350374175801343, 316912650057057350374175801343,
     316912650057057350374175801343, 316912650057057350374175801343, 316912650057057350374175801343,
     316912650057057350374175801343, 316912650057057350374175801343, 316912650057057350374175801343,
     316912650057057350374175801343, 316912650057057350374175801343, 316912650057057350374175801343,
     316912650057057350374175801343, 316912650057057350374175801343, 316912650057057350374175801343,
     316912650057057350374175801343, 316912650057057350374175801343, 316912650057057350374175801343,
     316912650057057350374175801343, 316912650057057350374175801343, 316912650057057350374175801343,
     316912650057057350374175801343, 316912650057057350374175801343, 316912650057057350374175801343,
     316912650057057350374175801343, 316912650057057350374175801343, 316912650057057350374175801343,
     316912650057057350374175801343, 316912650057057350374175801343, 316912650057057350374175801343,
     316912650057057350374175801343, 316912650057057350374175801343],
      [316912650057057350374175801343, 316912650057057350374175801343, 2449958198313025540,
     316912650057057350374175801343, 316912650057057350374175801343, 316912650057057350374175801343,
     316912650057057350374175801343, 316912650057057350374175801343, 316912650057057350374175801343,
     316912650057057350374175801343, 316912650057057350374175801343, 316912650057057350374175801343,
     316912650057057350374175801343, 316912650057057350374175801343, 316912650057057350374175801343,
     316912650057057350374175801343, 2449958198313025540, 316912650057057350374175801343,
     316912650057057350374175801343, 316912650057057350374175801343, 316912650057057350374175801343,
     316912650057057350374175801343, 316912650057057350374175801343, 316912650057057350374175801343,
     2449958198313025540, 316912650057057350374175801343, 2449958198313025540, 2449958198313025540,
     2449958198313025540, 2449958198313025540, 316912650057057350374175801343, 316912650057057350374175801343,
     316912650057057350374175801343, 316912650057057350374175801343, 316912650057057350374175801343,
     316912650057057350374175801343, 316912650057057350374175801343, 316912650057057350374175801343,
     316912650057057350374175801343, 316912650057057350374175801343, 316912650057057350374175801343,
     316912650057057350374175801343, 316912650057057350374175801343, 316912650057057350374175801343,
     316912650057057350374175801343, 316912650057057350374175801343, 316912650057057350374175801343,
     316912650057057350374175801343, 316912650057057350374175801343, 316912650057057350374175801343,
     316912650057057350374175801343, 316912650057057350374175801343, 316912650057057350374175801343,
     316912650057057350374175801343, 316912650057057350374175801343, 316912650057057350374175801343,
     316912650057057350374175801343, 2449958198313025540, 316912650057057350374175801343,
     316912650057057350374175801343, 316912650057057350374175801343, 2449958198313025540,
     316912650057057350374175801343, 316912650057057350374175801343, 316912650057057350374175801343,
     316912650057057350374175801343, 316912650057057350374175801343, 316912650057057350374175801343,
     316912650057057350374175801343, 316912650057057350374175801343, 316912650057057350374175801343,
     316912650057057350374175801343, 316912650057057350374175801343, 316912650057057350374175801343,
     316912650057057350374175801343, 316912650057057350374175801343, 316912650057057350374175801343,
     316912650057057350374175801343, 316912650057057350374175801343, 316912650057057350374175801343,
     316912650057057350374175801343, 316912650057057350374175801343, 316912650057057350374175801343,
     316912650057057350374175801343, 316912650057057350374175801343, 316912650057057350374175801343,
     316912650057057350374175801343, 316912650057057350374175801343, 316912650057057350374175801343,
     316912650057057350374175801343, 316912650057057350374175801343, 316912650057057350374175801343,
     316912650057057350374175801343, 316912650057057350374175801343, 316912650057057350374175801343,
     316912650057057350374175801343, 316912650057057350374175801343, 316912650057057350374175801343],
      [316912650057057350374175801343, 316912650057057350374175801343, 316912650057057350374175801343,
     316912650057057350374175801343, 316912650057057350374175801343, 316912650057057350374175801343, 2251799813685252,
     4, 316912650057057350374175801343, 316912650057057350374175801343, 316912650057057350374175801343,
     316912650057057350374175801343, 316912650057057350374175801343, 316912650057057350374175801343,
     316912650057057350374175801343, 4, 316912650057057350374175801343, 316912650057057350374175801343,
     316912650057057350374175801343, 316912650057057350374175801343, 316912650057057350374175801343,
     316912650057057350374175801343, 316912650057057350374175801343, 316912650057057350374175801343,
     316912650057057350374175801343, 316912650057057350374175801343, 316912650057057350374175801343,
     316912650057057350374175801343, 316912650057057350374175801343, 316912650057057350374175801343,
     316912650057057350374175801343, 316912650057057350374175801343, 316912650057057350374175801343,
     316912650057057350374175801343, 316912650057057350374175801343, 316912650057057350374175801343,
     316912650057057350374175801343, 316912650057057350374175801343, 316912650057057350374175801343,
     316912650057057350374175801343, 316912650057057350374175801343, 316912650057057350374175801343,
     316912650057057350374175801343, 316912650057057350374175801343, 316912650057057350374175801343,
     316912650057057350374175801343, 316912650057057350374175801343, 316912650057057350374175801343,
     316912650057057350374175801343, 316912650057057350374175801343, 316912650057057350374175801343,
     316912650057057350374175801343, 316912650057057350374175801343, 316912650057057350374175801343,
     316912650057057350374175801343, 316912650057057350374175801343, 316912650057057350374175801343,
     316912650057057350374175801343, 316912650057057350374175801343, 316912650057057350374175801343,
     316912650057057350374175801343, 316912650057057350374175801343, 316912650057057350374175801343,
     316912650057057350374175801343, 316912650057057350374175801343, 316912650057057350374175801343,
     316912650057057350374175801343, 316912650057057350374175801343, 316912650057057350374175801343,
     316912650057057350374175801343, 316912650057057350374175801343, 316912650057057350374175801343,
     316912650057057350374175801343, 316912650057057350374175801343, 316912650057057350374175801343,
     316912650057057350374175801343, 316912650057057350374175801343, 316912650057057350374175801343,
     316912650057057350374175801343, 316912650057057350374175801343, 316912650057057350374175801343,
     316912650057057350374175801343, 316912650057057350374175801343, 316912650057057350374175801343,
     316912650057057350374175801343, 316912650057057350374175801343, 316912650057057350374175801343,
     316912650057057350374175801343, 316912650057057350374175801343, 316912650057057350374175801343,
     316912650057057350374175801343, 316912650057057350374175801343, 316912650057057350374175801343,
     316912650057057350374175801343, 316912650057057350374175801343, 316912650057057350374175801343,
     316912650057057350374175801343, 316912650057057350374175801343],
      [316912650057057350374175801343, 316912650057057350374175801343, 316912650057057350374175801343,
     316912650057057350374175801343, 316912650057057350374175801343, 316912650057057350374175801343,
     316912650057057350374175801343, 316912650057057350374175801343, 316912650057057350374175801343,
     316912650057057350374175801343, 316912650057057350374175801343, 316912650057057350374175801343,
     316912650057057350374175801343, 316912650057057350374175801343, 316912650057057350374175801343,
     316912650057057350374175801343, 316912650057057350374175801343, 316912650057057350374175801343, 2251799813685252,
     4, 316912650057057350374175801343, 316912650057057350374175801343, 316912650057057350374175801343,
     316912650057057350374175801343, 316912650057057350374175801343, 316912650057057350374175801343,
     316912650057057350374175801343, 316912650057057350374175801343, 316912650057057350374175801343,
     316912650057057350374175801343, 885443715538058477572, 316912650057057350374175801343,
     316912650057057350374175801343, 316912650057057350374175801343, 316912650057057350374175801343,
     316912650057057350374175801343, 316912650057057350374175801343, 316912650057057350374175801343,
     316912650057057350374175801343, 316912650057057350374175801343, 316912650057057350374175801343,
     316912650057057350374175801343, 316912650057057350374175801343, 316912650057057350374175801343,
     316912650057057350374175801343, 316912650057057350374175801343, 316912650057057350374175801343,
     316912650057057350374175801343, 316912650057057350374175801343, 316912650057057350374175801343,
     316912650057057350374175801343, 316912650057057350374175801343, 316912650057057350374175801343,
     316912650057057350374175801343, 316912650057057350374175801343, 316912650057057350374175801343,
     316912650057057350374175801343, 316912650057057350374175801343, 316912650057057350374175801343,
     316912650057057350374175801343, 316912650057057350374175801343, 316912650057057350374175801343,
     316912650057057350374175801343, 316912650057057350374175801343, 316912650057057350374175801343,
     316912650057057350374175801343, 316912650057057350374175801343, 316912650057057350374175801343,
     316912650057057350374175801343, 316912650057057350374175801343, 316912650057057350374175801343,
     316912650057057350374175801343, 316912650057057350374175801343, 316912650057057350374175801343,
     316912650057057350374175801343, 316912650057057350374175801343, 316912650057057350374175801343,
     316912650057057350374175801343, 316912650057057350374175801343, 316912650057057350374175801343,
     316912650057057350374175801343, 316912650057057350374175801343, 316912650057057350374175801343,
     316912650057057350374175801343, 316912650057057350374175801343, 316912650057057350374175801343,
     316912650057057350374175801343, 316912650057057350374175801343, 316912650057057350374175801343,
     316912650057057350374175801343, 316912650057057350374175801343, 316912650057057350374175801343,
     316912650057057350374175801343, 316912650057057350374175801343, 316912650057057350374175801343,
     316912650057057350374175801343, 316912650057057350374175801343, 316912650057057350374175801343],
      [316912650057057350374175801343, 316912650057057350374175801343, 4, 316912650057057350374175801343,
     316912650057057350374175801343, 316912650057057350374175801343, 316912650057057350374175801343,
     316912650057057350374175801343, 316912650057057350374175801343, 4, 316912650057057350374175801343,
     316912650057057350374175801343, 316912650057057350374175801343, 316912650057057350374175801343,
     316912650057057350374175801343, 316912650057057350374175801343, 316912650057057350374175801343,
     316912650057057350374175801343, 316912650057057350374175801343, 316912650057057350374175801343,
     316912650057057350374175801343, 316912650057057350374175801343, 316912650057057350374175801343,
     316912650057057350374175801343, 316912650057057350374175801343, 316912650057057350374175801343,
     316912650057057350374175801343, 316912650057057350374175801343, 316912650057057350374175801343,
     316912650057057350374175801343, 316912650057057350374175801343, 316912650057057350374175801343,
     316912650057057350374175801343, 316912650057057350374175801343, 316912650057057350374175801343,
     316912650057057350374175801343, 316912650057057350374175801343, 316912650057057350374175801343,
     316912650057057350374175801343, 316912650057057350374175801343, 316912650057057350374175801343,
     316912650057057350374175801343, 316912650057057350374175801343, 316912650057057350374175801343,
     316912650057057350374175801343, 316912650057057350374175801343, 316912650057057350374175801343,
     316912650057057350374175801343, 316912650057057350374175801343, 316912650057057350374175801343,
     316912650057057350374175801343, 316912650057057350374175801343, 316912650057057350374175801343,
     316912650057057350374175801343, 316912650057057350374175801343, 316912650057057350374175801343,
     316912650057057350374175801343, 316912650057057350374175801343, 316912650057057350374175801343,
     316912650057057350374175801343, 316912650057057350374175801343, 316912650057057350374175801343,
     316912650057057350374175801343, 316912650057057350374175801343, 316912650057057350374175801343,
     316912650057057350374175801343, 316912650057057350374175801343, 316912650057057350374175801343,
     316912650057057350374175801343, 316912650057057350374175801343, 316912650057057350374175801343,
     316912650057057350374175801343, 316912650057057350374175801343, 316912650057057350374175801343,
     316912650057057350374175801343, 316912650057057350374175801343, 316912650057057350374175801343,
     316912650057057350374175801343, 316912650057057350374175801343, 316912650057057350374175801343,
     316912650057057350374175801343, 316912650057057350374175801343, 316912650057057350374175801343,
     316912650057057350374175801343, 316912650057057350374175801343, 316912650057057350374175801343,
     316912650057057350374175801343, 316912650057057350374175801343, 316912650057057350374175801343,
     316912650057057350374175801343, 316912650057057350374175801343, 316912650057057350374175801343,
     316912650057057350374175801343, 316912650057057350374175801343, 316912650057057350374175801343,
     316912650057057350374175801343, 316912650057057350374175801343, 316912650057057350374175801343],
      [316912650057057350374175801343, 316912650057057350374175801343, 316912650057057350374175801343,
     316912650057057350374175801343, 316912650057057350374175801343, 316912650057057350374175801343, 4,
     316912650057057350374175801343, 316912650057057350374175801343, 316912650057057350374175801343,
     316912650057057350374175801343, 316912650057057350374175801343, 316912650057057350374175801343,
     316912650057057350374175801343, 316912650057057350374175801343, 316912650057057350374175801343,
     316912650057057350374175801343, 316912650057057350374175801343, 316912650057057350374175801343,
     316912650057057350374175801343, 316912650057057350374175801343, 316912650057057350374175801343,
     316912650057057350374175801343, 316912650057057350374175801343, 316912650057057350374175801343,
     316912650057057350374175801343, 316912650057057350374175801343, 316912650057057350374175801343,
     316912650057057350374175801343, 316912650057057350374175801343, 316912650057057350374175801343,
     316912650057057350374175801343, 316912650057057350374175801343, 316912650057057350374175801343,
     316912650057057350374175801343, 316912650057057350374175801343, 316912650057057350374175801343,
     316912650057057350374175801343, 316912650057057350374175801343, 316912650057057350374175801343,
     316912650057057350374175801343, 316912650057057350374175801343, 316912650057057350374175801343,
     316912650057057350374175801343, 316912650057057350374175801343, 316912650057057350374175801343,
     316912650057057350374175801343, 316912650057057350374175801343, 316912650057057350374175801343,
     316912650057057350374175801343, 316912650057057350374175801343, 316912650057057350374175801343,
     316912650057057350374175801343, 316912650057057350374175801343, 316912650057057350374175801343,
     316912650057057350374175801343, 316912650057057350374175801343, 316912650057057350374175801343,
     316912650057057350374175801343, 316912650057057350374175801343, 18446752869802573824,
     316912650057057350374175801343, 316912650057057350374175801343, 316912650057057350374175801343,
     316912650057057350374175801343, 316912650057057350374175801343, 316912650057057350374175801343,
     316912650057057350374175801343, 316912650057057350374175801343, 316912650057057350374175801343,
     316912650057057350374175801343, 316912650057057350374175801343, 316912650057057350374175801343,
     316912650057057350374175801343, 316912650057057350374175801343, 316912650057057350374175801343,
     316912650057057350374175801343, 316912650057057350374175801343, 316912650057057350374175801343,
     316912650057057350374175801343, 316912650057057350374175801343, 316912650057057350374175801343,
     316912650057057350374175801343, 174085318024506601157689344, 316912650057057350374175801343,
     316912650057057350374175801343, 316912650057057350374175801343, 316912650057057350374175801343,
     316912650057057350374175801343, 316912650057057350374175801343, 316912650057057350374175801343,
     316912650057057350374175801343, 316912650057057350374175801343, 316912650057057350374175801343,
     316912650057057350374175801343, 316912650057057350374175801343, 316912650057057350374175801343,
     316912650057057350374175801343],
      [316912650057057350374175801343, 316912650057057350374175801343, 316912650057057350374175801343,
     316912650057057350374175801343, 316912650057057350374175801343, 316912650057057350374175801343,
     316912650057057350374175801343, 316912650057057350374175801343, 316912650057057350374175801343,
     316912650057057350374175801343, 316912650057057350374175801343, 316912650057057350374175801343,
     316912650057057350374175801343, 316912650057057350374175801343, 316912650057057350374175801343,
     316912650057057350374175801343, 316912650057057350374175801343, 316912650057057350374175801343,
     316912650057057350374175801343, 316912650057057350374175801343, 316912650057057350374175801343,
     316912650057057350374175801343, 316912650057057350374175801343, 316912650057057350374175801343,
     2305843009213693952, 316912650057057350374175801343, 2305843009213693952, 316912650057057350374175801343,
     316912650057057350374175801343, 316912650057057350374175801343, 316912650057057350374175801343,
     316912650057057350374175801343, 316912650057057350374175801343, 316912650057057350374175801343,
     316912650057057350374175801343, 316912650057057350374175801343, 316912650057057350374175801343,
     316912650057057350374175801343, 316912650057057350374175801343, 316912650057057350374175801343,
     316912650057057350374175801343, 2305843009213693952, 316912650057057350374175801343,
     316912650057057350374175801343, 316912650057057350374175801343, 316912650057057350374175801343,
     316912650057057350374175801343, 316912650057057350374175801343, 316912650057057350374175801343,
     316912650057057350374175801343, 316912650057057350374175801343, 316912650057057350374175801343,
     316912650057057350374175801343, 316912650057057350374175801343, 316912650057057350374175801343,
     316912650057057350374175801343, 316912650057057350374175801343, 316912650057057350374175801343,
     316912650057057350374175801343, 316912650057057350374175801343, 316912650057057350374175801343,
     316912650057057350374175801343, 316912650057057350374175801343, 316912650057057350374175801343,
     316912650057057350374175801343, 316912650057057350374175801343, 316912650057057350374175801343,
     316912650057057350374175801343, 316912650057057350374175801343, 316912650057057350374175801343,
     316912650057057350374175801343, 316912650057057350374175801343, 316912650057057350374175801343,
     316912650057057350374175801343, 316912650057057350374175801343, 316912650057057350374175801343,
     316912650057057350374175801343, 316912650057057350374175801343, 316912650057057350374175801343,
     316912650057057350374175801343, 316912650057057350374175801343, 316912650057057350374175801343,
     316912650057057350374175801343, 316912650057057350374175801343, 316912650057057350374175801343,
     316912650057057350374175801343, 316912650057057350374175801343, 316912650057057350374175801343,
     316912650057057350374175801343, 316912650057057350374175801343, 316912650057057350374175801343,
     316912650057057350374175801343, 316912650057057350374175801343, 316912650057057350374175801343,
     316912650057057350374175801343, 316912650057057350374175801343, 316912650057057350374175801343,
     316912650057057350374175801343],
      [316912650057057350374175801343, 316912650057057350374175801343, 316912650057057350374175801343,
     316912650057057350374175801343, 316912650057057350374175801343, 316912650057057350374175801343,
     316912650057057350374175801343, 316912650057057350374175801343, 2449958198313025540, 2449958198313025540,
     316912650057057350374175801343, 316912650057057350374175801343, 316912650057057350374175801343,
     2449958202607992836, 316912650057057350374175801343, 316912650057057350374175801343,
     316912650057057350374175801343, 316912650057057350374175801343, 316912650057057350374175801343,
     316912650057057350374175801343, 316912650057057350374175801343, 316912650057057350374175801343,
     316912650057057350374175801343, 316912650057057350374175801343, 316912650057057350374175801343,
     316912650057057350374175801343, 316912650057057350374175801343, 316912650057057350374175801343,
     316912650057057350374175801343, 316912650057057350374175801343, 316912650057057350374175801343,
     316912650057057350374175801343, 316912650057057350374175801343, 316912650057057350374175801343,
     316912650057057350374175801343, 316912650057057350374175801343, 316912650057057350374175801343,
     316912650057057350374175801343, 316912650057057350374175801343, 316912650057057350374175801343,
     316912650057057350374175801343, 316912650057057350374175801343, 316912650057057350374175801343,
     316912650057057350374175801343, 316912650057057350374175801343, 316912650057057350374175801343,
     316912650057057350374175801343, 316912650057057350374175801343, 316912650057057350374175801343,
     316912650057057350374175801343, 316912650057057350374175801343, 316912650057057350374175801343,
     316912650057057350374175801343, 316912650057057350374175801343, 316912650057057350374175801343,
     316912650057057350374175801343, 316912650057057350374175801343, 316912650057057350374175801343,
     316912650057057350374175801343, 316912650057057350374175801343, 316912650057057350374175801343,
     316912650057057350374175801343, 316912650057057350374175801343, 316912650057057350374175801343,
     316912650057057350374175801343, 316912650057057350374175801343, 316912650057057350374175801343,
     316912650057057350374175801343, 316912650057057350374175801343, 316912650057057350374175801343,
     316912650057057350374175801343, 316912650057057350374175801343, 316912650057057350374175801343,
     316912650057057350374175801343, 316912650057057350374175801343, 316912650057057350374175801343,
     316912650057057350374175801343, 316912650057057350374175801343, 316912650057057350374175801343,
     316912650057057350374175801343, 316912650057057350374175801343, 316912650057057350374175801343,
     316912650057057350374175801343, 316912650057057350374175801343, 316912650057057350374175801343,
     316912650057057350374175801343, 316912650057057350374175801343, 316912650057057350374175801343,
     316912650057057350374175801343, 316912650057057350374175801343, 316912650057057350374175801343,
     316912650057057350374175801343, 316912650057057350374175801343, 316912650057057350374175801343,
     316912650057057350374175801343, 316912650057057350374175801343, 316912650057057350374175801343,
     316912650057057350374175801343],
      [316912650057057350374175801343, 316912650057057350374175801343, 2449958198313025540,
     316912650057057350374175801343, 316912650057057350374175801343, 316912650057057350374175801343,
     316912650057057350374175801343, 316912650057057350374175801343, 316912650057057350374175801343,
     316912650057057350374175801343, 316912650057057350374175801343, 316912650057057350374175801343,
     316912650057057350374175801343, 2449958198313025540, 316912650057057350374175801343,
     316912650057057350374175801343, 2449958198313025540, 316912650057057350374175801343,
     316912650057057350374175801343, 316912650057057350374175801343, 316912650057057350374175801343,
     316912650057057350374175801343, 316912650057057350374175801343, 316912650057057350374175801343,
     2449958198313025540, 316912650057057350374175801343, 2449958198313025540, 2449958198313025540,
     2449958198313025540, 2449958198313025540, 316912650057057350374175801343, 316912650057057350374175801343,
     316912650057057350374175801343, 316912650057057350374175801343, 316912650057057350374175801343,
     316912650057057350374175801343, 316912650057057350374175801343, 316912650057057350374175801343,
     316912650057057350374175801343, 316912650057057350374175801343, 316912650057057350374175801343,
     316912650057057350374175801343, 316912650057057350374175801343, 316912650057057350374175801343,
     316912650057057350374175801343, 316912650057057350374175801343, 316912650057057350374175801343,
     316912650057057350374175801343, 316912650057057350374175801343, 316912650057057350374175801343,
     316912650057057350374175801343, 316912650057057350374175801343, 316912650057057350374175801343,
     316912650057057350374175801343, 316912650057057350374175801343, 316912650057057350374175801343,
     316912650057057350374175801343, 2449958198313025540, 316912650057057350374175801343,
     316912650057057350374175801343, 316912650057057350374175801343, 2449958198313025540,
     316912650057057350374175801343, 316912650057057350374175801343, 316912650057057350374175801343,
     316912650057057350374175801343, 316912650057057350374175801343, 316912650057057350374175801343,
     316912650057057350374175801343, 316912650057057350374175801343, 316912650057057350374175801343,
     316912650057057350374175801343, 316912650057057350374175801343, 316912650057057350374175801343,
     316912650057057350374175801343, 316912650057057350374175801343, 316912650057057350374175801343,
     316912650057057350374175801343, 316912650057057350374175801343, 316912650057057350374175801343,
     316912650057057350374175801343, 316912650057057350374175801343, 316912650057057350374175801343,
     316912650057057350374175801343, 316912650057057350374175801343, 316912650057057350374175801343,
     316912650057057350374175801343, 316912650057057350374175801343, 316912650057057350374175801343,
     316912650057057350374175801343, 316912650057057350374175801343, 316912650057057350374175801343,
     316912650057057350374175801343, 316912650057057350374175801343, 316912650057057350374175801343,
     316912650057057350374175801343, 316912650057057350374175801343, 316912650057057350374175801343],
      [316912650057057350374175801343, 316912650057057350374175801343, 316912650057057350374175801343,
     316912650057057350374175801343, 316912650057057350374175801343, 198660, 329732, 316912650057057350374175801343,
     316912650057057350374175801343, 316912650057057350374175801343, 316912650057057350374175801343,
     316912650057057350374175801343, 316912650057057350374175801343, 316912650057057350374175801343,
     316912650057057350374175801343, 316912650057057350374175801343, 316912650057057350374175801343,
     316912650057057350374175801343, 316912650057057350374175801343, 316912650057057350374175801343,
     316912650057057350374175801343, 316912650057057350374175801343, 316912650057057350374175801343,
     316912650057057350374175801343, 316912650057057350374175801343, 316912650057057350374175801343,
     316912650057057350374175801343, 316912650057057350374175801343, 316912650057057350374175801343,
     316912650057057350374175801343, 316912650057057350374175801343, 316912650057057350374175801343,
     316912650057057350374175801343, 316912650057057350374175801343, 316912650057057350374175801343,
     316912650057057350374175801343, 316912650057057350374175801343, 316912650057057350374175801343,
     316912650057057350374175801343, 316912650057057350374175801343, 316912650057057350374175801343,
     316912650057057350374175801343, 316912650057057350374175801343, 316912650057057350374175801343,
     316912650057057350374175801343, 316912650057057350374175801343, 316912650057057350374175801343,
     316912650057057350374175801343, 316912650057057350374175801343, 316912650057057350374175801343,
     316912650057057350374175801343, 316912650057057350374175801343, 316912650057057350374175801343,
     316912650057057350374175801343, 316912650057057350374175801343, 316912650057057350374175801343,
     316912650057057350374175801343, 316912650057057350374175801343, 316912650057057350374175801343,
     316912650057057350374175801343, 316912650057057350374175801343, 316912650057057350374175801343,
     316912650057057350374175801343, 316912650057057350374175801343, 316912650057057350374175801343,
     316912650057057350374175801343, 316912650057057350374175801343, 316912650057057350374175801343,
     316912650057057350374175801343, 316912650057057350374175801343, 316912650057057350374175801343,
     316912650057057350374175801343, 316912650057057350374175801343, 316912650057057350374175801343,
     316912650057057350374175801343, 316912650057057350374175801343, 316912650057057350374175801343,
     316912650057057350374175801343, 316912650057057350374175801343, 316912650057057350374175801343,
     316912650057057350374175801343, 316912650057057350374175801343, 316912650057057350374175801343,
     316912650057057350374175801343, 316912650057057350374175801343, 316912650057057350374175801343,
     316912650057057350374175801343, 316912650057057350374175801343, 316912650057057350374175801343,
     316912650057057350374175801343, 316912650057057350374175801343, 316912650057057350374175801343,
     316912650057057350374175801343, 316912650057057350374175801343, 316912650057057350374175801343,
     316912650057057350374175801343, 316912650057057350374175801343, 316912650057057350374175801343],
      [316912650057057350374175801343, 316912650057057350374175801343, 2052, 316912650057057350374175801343,
     316912650057057350374175801343, 316912650057057350374175801343, 316912650057057350374175801343,
     316912650057057350374175801343, 316912650057057350374175801343, 316912650057057350374175801343,
     316912650057057350374175801343, 67588, 316912650057057350374175801343, 316912650057057350374175801343,
     316912650057057350374175801343, 316912650057057350374175801343, 2052, 316912650057057350374175801343,
     316912650057057350374175801343, 316912650057057350374175801343, 316912650057057350374175801343,
     316912650057057350374175801343, 316912650057057350374175801343, 316912650057057350374175801343,
     316912650057057350374175801343, 316912650057057350374175801343, 316912650057057350374175801343,
     316912650057057350374175801343, 316912650057057350374175801343, 316912650057057350374175801343,
     316912650057057350374175801343, 316912650057057350374175801343, 316912650057057350374175801343,
     316912650057057350374175801343, 316912650057057350374175801343, 316912650057057350374175801343,
     316912650057057350374175801343, 316912650057057350374175801343, 316912650057057350374175801343,
     316912650057057350374175801343, 316912650057057350374175801343, 316912650057057350374175801343,
     316912650057057350374175801343, 316912650057057350374175801343, 316912650057057350374175801343,
     316912650057057350374175801343, 316912650057057350374175801343, 316912650057057350374175801343,
     316912650057057350374175801343, 316912650057057350374175801343, 316912650057057350374175801343,
     316912650057057350374175801343, 316912650057057350374175801343, 316912650057057350374175801343,
     316912650057057350374175801343, 316912650057057350374175801343, 316912650057057350374175801343,
     316912650057057350374175801343, 316912650057057350374175801343, 316912650057057350374175801343,
     316912650057057350374175801343, 316912650057057350374175801343, 316912650057057350374175801343,
     316912650057057350374175801343, 316912650057057350374175801343, 316912650057057350374175801343,
     316912650057057350374175801343, 316912650057057350374175801343, 316912650057057350374175801343,
     316912650057057350374175801343, 316912650057057350374175801343, 316912650057057350374175801343,
     316912650057057350374175801343, 316912650057057350374175801343, 316912650057057350374175801343,
     316912650057057350374175801343, 316912650057057350374175801343, 316912650057057350374175801343,
     316912650057057350374175801343, 316912650057057350374175801343, 316912650057057350374175801343,
     316912650057057350374175801343, 316912650057057350374175801343, 316912650057057350374175801343,
     316912650057057350374175801343, 316912650057057350374175801343, 316912650057057350374175801343,
     316912650057057350374175801343, 316912650057057350374175801343, 316912650057057350374175801343,
     316912650057057350374175801343, 316912650057057350374175801343, 316912650057057350374175801343,
     316912650057057350374175801343, 316912650057057350374175801343, 316912650057057350374175801343,
     316912650057057350374175801343, 316912650057057350374175801343],
      [316912650057057350374175801343, 316912650057057350374175801343, 316912650057057350374175801343,
     316912650057057350374175801343, 316912650057057350374175801343, 316912650057057350374175801343,
     316912650057057350374175801343, 316912650057057350374175801343, 316912650057057350374175801343,
     316912650057057350374175801343, 316912650057057350374175801343, 316912650057057350374175801343,
     316912650057057350374175801343, 316912650057057350374175801343, 316912650057057350374175801343,
     316912650057057350374175801343, 316912650057057350374175801343, 316912650057057350374175801343,
     316912650057057350374175801343, 316912650057057350374175801343, 316912650057057350374175801343,
     316912650057057350374175801343, 316912650057057350374175801343, 316912650057057350374175801343,
     316912650057057350374175801343, 316912650057057350374175801343, 316912650057057350374175801343,
     316912650057057350374175801343, 316912650057057350374175801343, 316912650057057350374175801343,
     316912650057057350374175801343, 316912650057057350374175801343, 316912650057057350374175801343,
     316912650057057350374175801343, 316912650057057350374175801343, 316912650057057350374175801343,
     316912650057057350374175801343, 316912650057057350374175801343, 316912650057057350374175801343,
     316912650057057350374175801343, 316912650057057350374175801343, 316912650057057350374175801343,
     316912650057057350374175801343, 316912650057057350374175801343, 316912650057057350374175801343,
     316912650057057350374175801343, 316912650057057350374175801343, 316912650057057350374175801343,
     316912650057057350374175801343, 316912650057057350374175801343, 316912650057057350374175801343,
     316912650057057350374175801343, 316912650057057350374175801343, 316912650057057350374175801343,
     316912650057057350374175801343, 316912650057057350374175801343, 316912650057057350374175801343,
     316912650057057350374175801343, 316912650057057350374175801343, 316912650057057350374175801343,
     316912650057057350374175801343, 316912650057057350374175801343, 316912650057057350374175801343,
     316912650057057350374175801343, 316912650057057350374175801343, 316912650057057350374175801343,
     316912650057057350374175801343, 316912650057057350374175801343, 316912650057057350374175801343,
     316912650057057350374175801343, 316912650057057350374175801343, 316912650057057350374175801343,
     316912650057057350374175801343, 316912650057057350374175801343, 174104207490438079738544128,
     316912650057057350374175801343, 316912650057057350374175801343, 316912650057057350374175801343,
     316912650057057350374175801343, 316912650057057350374175801343, 316912650057057350374175801343,
     316912650057057350374175801343, 316912650057057350374175801343, 316912650057057350374175801343,
     174104207490438079738544128, 316912650057057350374175801343, 316912650057057350374175801343,
     174104207490438079738544128, 316912650057057350374175801343, 316912650057057350374175801343,
     316912650057057350374175801343, 316912650057057350374175801343, 316912650057057350374175801343,
     316912650057057350374175801343, 316912650057057350374175801343, 316912650057057350374175801343,
     316912650057057350374175801343, 316912650057057350374175801343],
      [316912650057057350374175801343, 316912650057057350374175801343, 316912650057057350374175801343,
     316912650057057350374175801343, 316912650057057350374175801343, 316912650057057350374175801343,
     316912650057057350374175801343, 316912650057057350374175801343, 316912650057057350374175801343,
     316912650057057350374175801343, 316912650057057350374175801343, 316912650057057350374175801343,
     316912650057057350374175801343, 316912650057057350374175801343, 316912650057057350374175801343,
     316912650057057350374175801343, 316912650057057350374175801343, 316912650057057350374175801343,
     316912650057057350374175801343, 316912650057057350374175801343, 174104207490438079738544128,
     316912650057057350374175801343, 316912650057057350374175801343, 316912650057057350374175801343,
     316912650057057350374175801343, 316912650057057350374175801343, 316912650057057350374175801343,
     316912650057057350374175801343, 316912650057057350374175801343, 316912650057057350374175801343,
     316912650057057350374175801343, 316912650057057350374175801343, 316912650057057350374175801343,
     316912650057057350374175801343, 316912650057057350374175801343, 316912650057057350374175801343,
     316912650057057350374175801343, 316912650057057350374175801343, 316912650057057350374175801343,
     316912650057057350374175801343, 316912650057057350374175801343, 316912650057057350374175801343,
     316912650057057350374175801343, 316912650057057350374175801343, 316912650057057350374175801343,
     316912650057057350374175801343, 316912650057057350374175801343, 316912650057057350374175801343,
     316912650057057350374175801343, 316912650057057350374175801343, 316912650057057350374175801343,
     316912650057057350374175801343, 316912650057057350374175801343, 316912650057057350374175801343,
     316912650057057350374175801343, 316912650057057350374175801343, 316912650057057350374175801343,
     316912650057057350374175801343, 316912650057057350374175801343, 316912650057057350374175801343,
     316912650057057350374175801343, 316912650057057350374175801343, 316912650057057350374175801343,
     316912650057057350374175801343, 316912650057057350374175801343, 316912650057057350374175801343,
     316912650057057350374175801343, 316912650057057350374175801343, 316912650057057350374175801343,
     316912650057057350374175801343, 316912650057057350374175801343, 316912650057057350374175801343,
     316912650057057350374175801343, 316912650057057350374175801343, 316912650057057350374175801343,
     316912650057057350374175801343, 316912650057057350374175801343, 316912650057057350374175801343,
     316912650057057350374175801343, 316912650057057350374175801343, 316912650057057350374175801343,
     316912650057057350374175801343, 316912650057057350374175801343, 316912650057057350374175801343,
     316912650057057350374175801343, 316912650057057350374175801343, 316912650057057350374175801343,
     316912650057057350374175801343, 316912650057057350374175801343, 316912650057057350374175801343,
     316912650057057350374175801343, 316912650057057350374175801343, 316912650057057350374175801343,
     316912650057057350374175801343, 316912650057057350374175801343, 316912650057057350374175801343,
     316912650057057350374175801343, 316912650057057350374175801343],
      [316912650057057350374175801343, 316912650057057350374175801343, 316912650057057350374175801343,
     316912650057057350374175801343, 316912650057057350374175801343, 316912650057057350374175801343,
     316912650057057350374175801343, 316912650057057350374175801343, 939524100, 671088644,
     316912650057057350374175801343, 316912650057057350374175801343, 316912650057057350374175801343, 4966055940,
     316912650057057350374175801343, 316912650057057350374175801343, 316912650057057350374175801343,
     316912650057057350374175801343, 316912650057057350374175801343, 316912650057057350374175801343,
     316912650057057350374175801343, 316912650057057350374175801343, 316912650057057350374175801343,
     316912650057057350374175801343, 316912650057057350374175801343, 316912650057057350374175801343,
     316912650057057350374175801343, 316912650057057350374175801343, 316912650057057350374175801343,
     316912650057057350374175801343, 316912650057057350374175801343, 316912650057057350374175801343,
     316912650057057350374175801343, 316912650057057350374175801343, 316912650057057350374175801343,
     316912650057057350374175801343, 316912650057057350374175801343, 316912650057057350374175801343,
     316912650057057350374175801343, 316912650057057350374175801343, 316912650057057350374175801343,
     316912650057057350374175801343, 316912650057057350374175801343, 316912650057057350374175801343,
     316912650057057350374175801343, 316912650057057350374175801343, 316912650057057350374175801343,
     316912650057057350374175801343, 316912650057057350374175801343, 316912650057057350374175801343,
     316912650057057350374175801343, 316912650057057350374175801343, 316912650057057350374175801343,
     316912650057057350374175801343, 316912650057057350374175801343, 316912650057057350374175801343,
     316912650057057350374175801343, 316912650057057350374175801343, 316912650057057350374175801343,
     316912650057057350374175801343, 316912650057057350374175801343, 316912650057057350374175801343,
     316912650057057350374175801343, 316912650057057350374175801343, 316912650057057350374175801343,
     316912650057057350374175801343, 316912650057057350374175801343, 316912650057057350374175801343,
     316912650057057350374175801343, 316912650057057350374175801343, 316912650057057350374175801343,
     316912650057057350374175801343, 316912650057057350374175801343, 316912650057057350374175801343,
     316912650057057350374175801343, 316912650057057350374175801343, 316912650057057350374175801343,
     316912650057057350374175801343, 316912650057057350374175801343, 316912650057057350374175801343,
     316912650057057350374175801343, 316912650057057350374175801343, 316912650057057350374175801343,
     316912650057057350374175801343, 316912650057057350374175801343, 316912650057057350374175801343,
     316912650057057350374175801343, 316912650057057350374175801343, 316912650057057350374175801343,
     316912650057057350374175801343, 316912650057057350374175801343, 316912650057057350374175801343,
     316912650057057350374175801343, 316912650057057350374175801343, 316912650057057350374175801343,
     316912650057057350374175801343, 316912650057057350374175801343, 316912650057057350374175801343],
      [316912650057057350374175801343, 316912650057057350374175801343, 316912650057057350374175801343,
     316912650057057350374175801343, 316912650057057350374175801343, 316912650057057350374175801343,
     316912650057057350374175801343, 316912650057057350374175801343, 134217732, 134217732,
     316912650057057350374175801343, 316912650057057350374175801343, 316912650057057350374175801343, 134217732,
     316912650057057350374175801343, 316912650057057350374175801343, 316912650057057350374175801343,
     316912650057057350374175801343, 316912650057057350374175801343, 316912650057057350374175801343,
     316912650057057350374175801343, 316912650057057350374175801343, 316912650057057350374175801343,
     316912650057057350374175801343, 316912650057057350374175801343, 316912650057057350374175801343,
     316912650057057350374175801343, 316912650057057350374175801343, 316912650057057350374175801343,
     316912650057057350374175801343, 316912650057057350374175801343, 316912650057057350374175801343,
     316912650057057350374175801343, 316912650057057350374175801343, 316912650057057350374175801343,
     316912650057057350374175801343, 316912650057057350374175801343, 316912650057057350374175801343,
     316912650057057350374175801343, 316912650057057350374175801343, 316912650057057350374175801343,
     316912650057057350374175801343, 316912650057057350374175801343, 316912650057057350374175801343,
     316912650057057350374175801343, 316912650057057350374175801343, 316912650057057350374175801343,
     316912650057057350374175801343, 316912650057057350374175801343, 316912650057057350374175801343,
     316912650057057350374175801343, 316912650057057350374175801343, 316912650057057350374175801343,
     316912650057057350374175801343, 174104207490438079738544128, 316912650057057350374175801343,
     316912650057057350374175801343, 316912650057057350374175801343, 316912650057057350374175801343,
     316912650057057350374175801343, 316912650057057350374175801343, 316912650057057350374175801343,
     316912650057057350374175801343, 316912650057057350374175801343, 316912650057057350374175801343,
     316912650057057350374175801343, 316912650057057350374175801343, 316912650057057350374175801343,
     316912650057057350374175801343, 316912650057057350374175801343, 316912650057057350374175801343,
     316912650057057350374175801343, 316912650057057350374175801343, 316912650057057350374175801343,
     316912650057057350374175801343, 316912650057057350374175801343, 316912650057057350374175801343,
     316912650057057350374175801343, 316912650057057350374175801343, 316912650057057350374175801343,
     316912650057057350374175801343, 316912650057057350374175801343, 316912650057057350374175801343,
     316912650057057350374175801343, 316912650057057350374175801343, 316912650057057350374175801343,
     316912650057057350374175801343, 316912650057057350374175801343, 316912650057057350374175801343,
     316912650057057350374175801343, 316912650057057350374175801343, 316912650057057350374175801343,
     316912650057057350374175801343, 316912650057057350374175801343, 316912650057057350374175801343,
     316912650057057350374175801343, 316912650057057350374175801343, 316912650057057350374175801343],
      [316912650057057350374175801343, 316912650057057350374175801343, 2449958198313025540, 2449958198313025540,
     316912650057057350374175801343, 316912650057057350374175801343, 316912650057057350374175801343,
     316912650057057350374175801343, 2449958198313025540, 316912650057057350374175801343,
     316912650057057350374175801343, 316912650057057350374175801343, 316912650057057350374175801343,
     316912650057057350374175801343, 316912650057057350374175801343, 316912650057057350374175801343,
     316912650057057350374175801343, 316912650057057350374175801343, 316912650057057350374175801343,
     316912650057057350374175801343, 316912650057057350374175801343, 316912650057057350374175801343,
     316912650057057350374175801343, 316912650057057350374175801343, 316912650057057350374175801343,
     316912650057057350374175801343, 316912650057057350374175801343, 316912650057057350374175801343,
     316912650057057350374175801343, 316912650057057350374175801343, 316912650057057350374175801343,
     316912650057057350374175801343, 316912650057057350374175801343, 316912650057057350374175801343,
     316912650057057350374175801343, 316912650057057350374175801343, 316912650057057350374175801343,
     316912650057057350374175801343, 316912650057057350374175801343, 316912650057057350374175801343,
     316912650057057350374175801343, 316912650057057350374175801343, 316912650057057350374175801343,
     316912650057057350374175801343, 316912650057057350374175801343, 316912650057057350374175801343,
     316912650057057350374175801343, 316912650057057350374175801343, 316912650057057350374175801343,
     316912650057057350374175801343, 316912650057057350374175801343, 316912650057057350374175801343,
     316912650057057350374175801343, 316912650057057350374175801343, 316912650057057350374175801343,
     316912650057057350374175801343, 316912650057057350374175801343, 316912650057057350374175801343,
     316912650057057350374175801343, 316912650057057350374175801343, 316912650057057350374175801343,
     316912650057057350374175801343, 316912650057057350374175801343, 316912650057057350374175801343,
     316912650057057350374175801343, 316912650057057350374175801343, 316912650057057350374175801343,
     316912650057057350374175801343, 316912650057057350374175801343, 316912650057057350374175801343,
     316912650057057350374175801343, 316912650057057350374175801343, 316912650057057350374175801343,
     316912650057057350374175801343, 316912650057057350374175801343, 316912650057057350374175801343,
     316912650057057350374175801343, 316912650057057350374175801343, 316912650057057350374175801343,
     316912650057057350374175801343, 316912650057057350374175801343, 316912650057057350374175801343,
     316912650057057350374175801343, 316912650057057350374175801343, 316912650057057350374175801343,
     316912650057057350374175801343, 316912650057057350374175801343, 316912650057057350374175801343,
     316912650057057350374175801343, 316912650057057350374175801343, 316912650057057350374175801343,
     316912650057057350374175801343, 316912650057057350374175801343, 316912650057057350374175801343,
     316912650057057350374175801343, 316912650057057350374175801343, 316912650057057350374175801343,
     316912650057057350374175801343],
      [316912650057057350374175801343, 316912650057057350374175801343, 2449958198313025540,
     316912650057057350374175801343, 316912650057057350374175801343, 316912650057057350374175801343,
     316912650057057350374175801343, 316912650057057350374175801343, 316912650057057350374175801343,
     316912650057057350374175801343, 316912650057057350374175801343, 316912650057057350374175801343,
     316912650057057350374175801343, 316912650057057350374175801343, 316912650057057350374175801343,
     316912650057057350374175801343, 2449958198313025540, 316912650057057350374175801343,
     316912650057057350374175801343, 316912650057057350374175801343, 316912650057057350374175801343,
     316912650057057350374175801343, 316912650057057350374175801343, 316912650057057350374175801343,
     2449958198313025540, 316912650057057350374175801343, 2449958198313025540, 2449958198313025540,
     2449958198313025540, 2449958198313025540, 316912650057057350374175801343, 316912650057057350374175801343,
     316912650057057350374175801343, 316912650057057350374175801343, 316912650057057350374175801343,
     316912650057057350374175801343, 316912650057057350374175801343, 316912650057057350374175801343,
     316912650057057350374175801343, 316912650057057350374175801343, 316912650057057350374175801343,
     316912650057057350374175801343, 316912650057057350374175801343, 316912650057057350374175801343,
     316912650057057350374175801343, 316912650057057350374175801343, 316912650057057350374175801343,
     316912650057057350374175801343, 316912650057057350374175801343, 316912650057057350374175801343,
     316912650057057350374175801343, 316912650057057350374175801343, 316912650057057350374175801343,
     316912650057057350374175801343, 316912650057057350374175801343, 316912650057057350374175801343,
     316912650057057350374175801343, 2449958198313025540, 316912650057057350374175801343,
     316912650057057350374175801343, 316912650057057350374175801343, 2449958198313025540,
     316912650057057350374175801343, 316912650057057350374175801343, 316912650057057350374175801343,
     316912650057057350374175801343, 316912650057057350374175801343, 316912650057057350374175801343,
     316912650057057350374175801343, 316912650057057350374175801343, 316912650057057350374175801343,
     316912650057057350374175801343, 316912650057057350374175801343, 316912650057057350374175801343,
     316912650057057350374175801343, 316912650057057350374175801343, 316912650057057350374175801343,
     316912650057057350374175801343, 316912650057057350374175801343, 316912650057057350374175801343,
     316912650057057350374175801343, 316912650057057350374175801343, 316912650057057350374175801343,
     316912650057057350374175801343, 316912650057057350374175801343, 316912650057057350374175801343,
     316912650057057350374175801343, 316912650057057350374175801343, 316912650057057350374175801343,
     316912650057057350374175801343, 316912650057057350374175801343, 316912650057057350374175801343,
     316912650057057350374175801343, 316912650057057350374175801343, 316912650057057350374175801343,
     316912650057057350374175801343, 316912650057057350374175801343, 316912650057057350374175801343],
      [316912650057057350374175801343, 316912650057057350374175801343, 2449958198313025540,
     316912650057057350374175801343, 316912650057057350374175801343, 316912650057057350374175801343,
     316912650057057350374175801343, 316912650057057350374175801343, 2449958198313025540,
     316912650057057350374175801343, 316912650057057350374175801343, 316912650057057350374175801343,
     316912650057057350374175801343, 316912650057057350374175801343, 316912650057057350374175801343,
     316912650057057350374175801343, 316912650057057350374175801343, 316912650057057350374175801343,
     316912650057057350374175801343, 316912650057057350374175801343, 316912650057057350374175801343,
     316912650057057350374175801343, 316912650057057350374175801343, 316912650057057350374175801343,
     316912650057057350374175801343, 316912650057057350374175801343, 316912650057057350374175801343,
     316912650057057350374175801343, 316912650057057350374175801343, 316912650057057350374175801343,
     316912650057057350374175801343, 316912650057057350374175801343, 316912650057057350374175801343,
     316912650057057350374175801343, 316912650057057350374175801343, 316912650057057350374175801343,
     316912650057057350374175801343, 316912650057057350374175801343, 316912650057057350374175801343,
     316912650057057350374175801343, 316912650057057350374175801343, 316912650057057350374175801343,
     316912650057057350374175801343, 316912650057057350374175801343, 316912650057057350374175801343,
     316912650057057350374175801343, 316912650057057350374175801343, 316912650057057350374175801343,
     316912650057057350374175801343, 316912650057057350374175801343, 316912650057057350374175801343,
     316912650057057350374175801343, 316912650057057350374175801343, 316912650057057350374175801343,
     316912650057057350374175801343, 316912650057057350374175801343, 316912650057057350374175801343,
     316912650057057350374175801343, 316912650057057350374175801343, 316912650057057350374175801343,
     316912650057057350374175801343, 316912650057057350374175801343, 316912650057057350374175801343,
     316912650057057350374175801343, 316912650057057350374175801343, 316912650057057350374175801343,
     316912650057057350374175801343, 316912650057057350374175801343, 316912650057057350374175801343,
     316912650057057350374175801343, 316912650057057350374175801343, 316912650057057350374175801343,
     316912650057057350374175801343, 316912650057057350374175801343, 316912650057057350374175801343,
     316912650057057350374175801343, 316912650057057350374175801343, 316912650057057350374175801343,
     316912650057057350374175801343, 316912650057057350374175801343, 316912650057057350374175801343,
     316912650057057350374175801343, 316912650057057350374175801343, 316912650057057350374175801343,
     316912650057057350374175801343, 316912650057057350374175801343, 316912650057057350374175801343,
     316912650057057350374175801343, 316912650057057350374175801343, 316912650057057350374175801343,
     316912650057057350374175801343, 316912650057057350374175801343, 316912650057057350374175801343,
     316912650057057350374175801343, 316912650057057350374175801343, 316912650057057350374175801343,
     316912650057057350374175801343, 316912650057057350374175801343],
      [316912650057057350374175801343, 316912650057057350374175801343, 4, 316912650057057350374175801343,
     316912650057057350374175801343, 316912650057057350374175801343, 316912650057057350374175801343,
     316912650057057350374175801343, 316912650057057350374175801343, 316912650057057350374175801343,
     316912650057057350374175801343, 316912650057057350374175801343, 316912650057057350374175801343,
     316912650057057350374175801343, 316912650057057350374175801343, 316912650057057350374175801343,
     316912650057057350374175801343, 316912650057057350374175801343, 316912650057057350374175801343,
     316912650057057350374175801343, 316912650057057350374175801343, 316912650057057350374175801343,
     316912650057057350374175801343, 316912650057057350374175801343, 316912650057057350374175801343,
     316912650057057350374175801343, 316912650057057350374175801343, 316912650057057350374175801343,
     316912650057057350374175801343, 316912650057057350374175801343, 316912650057057350374175801343,
     316912650057057350374175801343, 316912650057057350374175801343, 316912650057057350374175801343,
     316912650057057350374175801343, 316912650057057350374175801343, 316912650057057350374175801343,
     316912650057057350374175801343, 316912650057057350374175801343, 316912650057057350374175801343,
     316912650057057350374175801343, 316912650057057350374175801343, 316912650057057350374175801343,
     316912650057057350374175801343, 316912650057057350374175801343, 316912650057057350374175801343,
     316912650057057350374175801343, 316912650057057350374175801343, 316912650057057350374175801343,
     316912650057057350374175801343, 316912650057057350374175801343, 316912650057057350374175801343,
     316912650057057350374175801343, 316912650057057350374175801343, 316912650057057350374175801343,
     316912650057057350374175801343, 316912650057057350374175801343, 316912650057057350374175801343,
     316912650057057350374175801343, 316912650057057350374175801343, 316912650057057350374175801343,
     316912650057057350374175801343, 316912650057057350374175801343, 316912650057057350374175801343,
     316912650057057350374175801343, 316912650057057350374175801343, 316912650057057350374175801343,
     316912650057057350374175801343, 316912650057057350374175801343, 316912650057057350374175801343,
     316912650057057350374175801343, 316912650057057350374175801343, 316912650057057350374175801343,
     316912650057057350374175801343, 316912650057057350374175801343, 316912650057057350374175801343,
     316912650057057350374175801343, 316912650057057350374175801343, 316912650057057350374175801343,
     316912650057057350374175801343, 316912650057057350374175801343, 316912650057057350374175801343,
     316912650057057350374175801343, 316912650057057350374175801343, 316912650057057350374175801343,
     316912650057057350374175801343, 316912650057057350374175801343, 316912650057057350374175801343,
     316912650057057350374175801343, 316912650057057350374175801343, 316912650057057350374175801343,
     316912650057057350374175801343, 316912650057057350374175801343, 316912650057057350374175801343,
     316912650057057350374175801343, 316912650057057350374175801343, 316912650057057350374175801343,
     316912650057057350374175801343],
      [316912650057057350374175801343, 316912650057057350374175801343, 4, 4, 316912650057057350374175801343,
     316912650057057350374175801343, 316912650057057350374175801343, 316912650057057350374175801343, 285212672,
     316912650057057350374175801343, 316912650057057350374175801343, 316912650057057350374175801343,
     316912650057057350374175801343, 316912650057057350374175801343, 316912650057057350374175801343,
     316912650057057350374175801343, 4, 316912650057057350374175801343, 316912650057057350374175801343,
     316912650057057350374175801343, 316912650057057350374175801343, 316912650057057350374175801343,
     316912650057057350374175801343, 316912650057057350374175801343, 316912650057057350374175801343,
     316912650057057350374175801343, 316912650057057350374175801343, 316912650057057350374175801343,
     316912650057057350374175801343, 316912650057057350374175801343, 316912650057057350374175801343,
     316912650057057350374175801343, 316912650057057350374175801343, 316912650057057350374175801343,
     316912650057057350374175801343, 316912650057057350374175801343, 316912650057057350374175801343,
     316912650057057350374175801343, 316912650057057350374175801343, 316912650057057350374175801343,
     316912650057057350374175801343, 316912650057057350374175801343, 316912650057057350374175801343,
     316912650057057350374175801343, 316912650057057350374175801343, 316912650057057350374175801343,
     316912650057057350374175801343, 316912650057057350374175801343, 316912650057057350374175801343,
     316912650057057350374175801343, 316912650057057350374175801343, 316912650057057350374175801343,
     316912650057057350374175801343, 316912650057057350374175801343, 316912650057057350374175801343,
     316912650057057350374175801343, 316912650057057350374175801343, 316912650057057350374175801343,
     316912650057057350374175801343, 316912650057057350374175801343, 316912650057057350374175801343,
     316912650057057350374175801343, 316912650057057350374175801343, 316912650057057350374175801343,
     316912650057057350374175801343, 316912650057057350374175801343, 316912650057057350374175801343,
     316912650057057350374175801343, 316912650057057350374175801343, 316912650057057350374175801343,
     316912650057057350374175801343, 316912650057057350374175801343, 316912650057057350374175801343,
     316912650057057350374175801343, 316912650057057350374175801343, 316912650057057350374175801343,
     316912650057057350374175801343, 316912650057057350374175801343, 316912650057057350374175801343,
     316912650057057350374175801343, 316912650057057350374175801343, 316912650057057350374175801343,
     316912650057057350374175801343, 316912650057057350374175801343, 316912650057057350374175801343,
     316912650057057350374175801343, 316912650057057350374175801343, 316912650057057350374175801343,
     316912650057057350374175801343, 316912650057057350374175801343, 316912650057057350374175801343,
     316912650057057350374175801343, 316912650057057350374175801343, 316912650057057350374175801343,
     316912650057057350374175801343, 316912650057057350374175801343, 316912650057057350374175801343,
     316912650057057350374175801343],
      [316912650057057350374175801343, 316912650057057350374175801343, 2449958198313025796,
     316912650057057350374175801343, 316912650057057350374175801343, 316912650057057350374175801343,
     316912650057057350374175801343, 316912650057057350374175801343, 2449958198313025796,
     316912650057057350374175801343, 316912650057057350374175801343, 316912650057057350374175801343,
     316912650057057350374175801343, 2449958198313025796, 316912650057057350374175801343,
     316912650057057350374175801343, 2449958198313025796, 316912650057057350374175801343,
     316912650057057350374175801343, 316912650057057350374175801343, 316912650057057350374175801343,
     316912650057057350374175801343, 316912650057057350374175801343, 316912650057057350374175801343,
     2449958198313025796, 316912650057057350374175801343, 2449958198313025796, 2449958198313025796,
     2449958198313025796, 2449958198313025796, 316912650057057350374175801343, 316912650057057350374175801343,
     316912650057057350374175801343, 316912650057057350374175801343, 316912650057057350374175801343,
     316912650057057350374175801343, 316912650057057350374175801343, 316912650057057350374175801343,
     316912650057057350374175801343, 316912650057057350374175801343, 316912650057057350374175801343,
     316912650057057350374175801343, 316912650057057350374175801343, 316912650057057350374175801343,
     316912650057057350374175801343, 316912650057057350374175801343, 316912650057057350374175801343,
     316912650057057350374175801343, 316912650057057350374175801343, 316912650057057350374175801343,
     316912650057057350374175801343, 316912650057057350374175801343, 316912650057057350374175801343,
     316912650057057350374175801343, 316912650057057350374175801343, 316912650057057350374175801343,
     316912650057057350374175801343, 2449958198313025796, 316912650057057350374175801343,
     316912650057057350374175801343, 316912650057057350374175801343, 2449958198313025796,
     316912650057057350374175801343, 316912650057057350374175801343, 316912650057057350374175801343,
     316912650057057350374175801343, 316912650057057350374175801343, 316912650057057350374175801343,
     316912650057057350374175801343, 316912650057057350374175801343, 316912650057057350374175801343,
     316912650057057350374175801343, 316912650057057350374175801343, 316912650057057350374175801343,
     316912650057057350374175801343, 316912650057057350374175801343, 316912650057057350374175801343,
     316912650057057350374175801343, 316912650057057350374175801343, 316912650057057350374175801343,
     316912650057057350374175801343, 316912650057057350374175801343, 316912650057057350374175801343,
     316912650057057350374175801343, 316912650057057350374175801343, 316912650057057350374175801343,
     316912650057057350374175801343, 316912650057057350374175801343, 316912650057057350374175801343,
     316912650057057350374175801343, 316912650057057350374175801343, 316912650057057350374175801343,
     316912650057057350374175801343, 316912650057057350374175801343, 316912650057057350374175801343,
     316912650057057350374175801343, 316912650057057350374175801343, 316912650057057350374175801343],
      [316912650057057350374175801343, 316912650057057350374175801343, 65540, 65540, 316912650057057350374175801343,
     316912650057057350374175801343, 316912650057057350374175801343, 316912650057057350374175801343, 65540,
     316912650057057350374175801343, 316912650057057350374175801343, 316912650057057350374175801343,
     316912650057057350374175801343, 316912650057057350374175801343, 316912650057057350374175801343,
     316912650057057350374175801343, 316912650057057350374175801343, 316912650057057350374175801343,
     316912650057057350374175801343, 316912650057057350374175801343, 316912650057057350374175801343,
     316912650057057350374175801343, 316912650057057350374175801343, 316912650057057350374175801343,
     316912650057057350374175801343, 316912650057057350374175801343, 316912650057057350374175801343,
     316912650057057350374175801343, 316912650057057350374175801343, 316912650057057350374175801343,
     316912650057057350374175801343, 316912650057057350374175801343, 316912650057057350374175801343,
     316912650057057350374175801343, 316912650057057350374175801343, 316912650057057350374175801343,
     316912650057057350374175801343, 316912650057057350374175801343, 316912650057057350374175801343,
     316912650057057350374175801343, 316912650057057350374175801343, 316912650057057350374175801343,
     316912650057057350374175801343, 316912650057057350374175801343, 316912650057057350374175801343,
     316912650057057350374175801343, 316912650057057350374175801343, 316912650057057350374175801343,
     316912650057057350374175801343, 316912650057057350374175801343, 316912650057057350374175801343,
     316912650057057350374175801343, 316912650057057350374175801343, 316912650057057350374175801343,
     316912650057057350374175801343, 316912650057057350374175801343, 316912650057057350374175801343,
     316912650057057350374175801343, 316912650057057350374175801343, 316912650057057350374175801343,
     316912650057057350374175801343, 316912650057057350374175801343, 316912650057057350374175801343,
     316912650057057350374175801343, 316912650057057350374175801343, 316912650057057350374175801343,
     316912650057057350374175801343, 316912650057057350374175801343, 316912650057057350374175801343,
     316912650057057350374175801343, 316912650057057350374175801343, 316912650057057350374175801343,
     316912650057057350374175801343, 316912650057057350374175801343, 316912650057057350374175801343,
     316912650057057350374175801343, 316912650057057350374175801343, 316912650057057350374175801343,
     316912650057057350374175801343, 316912650057057350374175801343, 316912650057057350374175801343,
     316912650057057350374175801343, 316912650057057350374175801343, 316912650057057350374175801343,
     316912650057057350374175801343, 316912650057057350374175801343, 316912650057057350374175801343,
     316912650057057350374175801343, 316912650057057350374175801343, 316912650057057350374175801343,
     316912650057057350374175801343, 316912650057057350374175801343, 316912650057057350374175801343,
     316912650057057350374175801343, 316912650057057350374175801343, 316912650057057350374175801343,
     316912650057057350374175801343, 316912650057057350374175801343],
      [316912650057057350374175801343, 316912650057057350374175801343, 4, 316912650057057350374175801343,
     316912650057057350374175801343, 316912650057057350374175801343, 316912650057057350374175801343,
     316912650057057350374175801343, 316912650057057350374175801343, 316912650057057350374175801343,
     316912650057057350374175801343, 316912650057057350374175801343, 316912650057057350374175801343,
     316912650057057350374175801343, 316912650057057350374175801343, 316912650057057350374175801343, 4,
     316912650057057350374175801343, 316912650057057350374175801343, 316912650057057350374175801343,
     316912650057057350374175801343, 316912650057057350374175801343, 316912650057057350374175801343,
     316912650057057350374175801343, 316912650057057350374175801343, 316912650057057350374175801343,
     316912650057057350374175801343, 316912650057057350374175801343, 4, 316912650057057350374175801343,
     316912650057057350374175801343, 316912650057057350374175801343, 316912650057057350374175801343,
     316912650057057350374175801343, 316912650057057350374175801343, 316912650057057350374175801343,
     316912650057057350374175801343, 316912650057057350374175801343, 316912650057057350374175801343,
     316912650057057350374175801343, 316912650057057350374175801343, 316912650057057350374175801343,
     316912650057057350374175801343, 316912650057057350374175801343, 316912650057057350374175801343,
     316912650057057350374175801343, 316912650057057350374175801343, 316912650057057350374175801343,
     316912650057057350374175801343, 316912650057057350374175801343, 316912650057057350374175801343,
     316912650057057350374175801343, 316912650057057350374175801343, 316912650057057350374175801343,
     316912650057057350374175801343, 316912650057057350374175801343, 316912650057057350374175801343,
     316912650057057350374175801343, 316912650057057350374175801343, 316912650057057350374175801343,
     316912650057057350374175801343, 316912650057057350374175801343, 316912650057057350374175801343,
     316912650057057350374175801343, 316912650057057350374175801343, 316912650057057350374175801343,
     316912650057057350374175801343, 316912650057057350374175801343, 316912650057057350374175801343,
     316912650057057350374175801343, 316912650057057350374175801343, 316912650057057350374175801343,
     316912650057057350374175801343, 316912650057057350374175801343, 316912650057057350374175801343,
     316912650057057350374175801343, 316912650057057350374175801343, 316912650057057350374175801343,
     316912650057057350374175801343, 316912650057057350374175801343, 316912650057057350374175801343,
     316912650057057350374175801343, 316912650057057350374175801343, 316912650057057350374175801343,
     316912650057057350374175801343, 316912650057057350374175801343, 316912650057057350374175801343,
     316912650057057350374175801343, 316912650057057350374175801343, 316912650057057350374175801343,
     316912650057057350374175801343, 316912650057057350374175801343, 316912650057057350374175801343,
     316912650057057350374175801343, 316912650057057350374175801343, 316912650057057350374175801343,
     316912650057057350374175801343, 316912650057057350374175801343],
      [316912650057057350374175801343, 316912650057057350374175801343, 316912650057057350374175801343,
     316912650057057350374175801343, 316912650057057350374175801343, 316912650057057350374175801343, 2251799813685252,
     4, 316912650057057350374175801343, 316912650057057350374175801343, 316912650057057350374175801343,
     316912650057057350374175801343, 316912650057057350374175801343, 316912650057057350374175801343,
     316912650057057350374175801343, 316912650057057350374175801343, 316912650057057350374175801343,
     316912650057057350374175801343, 316912650057057350374175801343, 316912650057057350374175801343,
     316912650057057350374175801343, 316912650057057350374175801343, 316912650057057350374175801343,
     316912650057057350374175801343, 316912650057057350374175801343, 316912650057057350374175801343,
     316912650057057350374175801343, 316912650057057350374175801343, 316912650057057350374175801343,
     316912650057057350374175801343, 316912650057057350374175801343, 316912650057057350374175801343,
     316912650057057350374175801343, 316912650057057350374175801343, 316912650057057350374175801343,
     316912650057057350374175801343, 316912650057057350374175801343, 316912650057057350374175801343,
     316912650057057350374175801343, 316912650057057350374175801343, 316912650057057350374175801343,
     316912650057057350374175801343, 316912650057057350374175801343, 316912650057057350374175801343,
     316912650057057350374175801343, 316912650057057350374175801343, 316912650057057350374175801343,
     316912650057057350374175801343, 316912650057057350374175801343, 316912650057057350374175801343,
     316912650057057350374175801343, 316912650057057350374175801343, 316912650057057350374175801343,
     316912650057057350374175801343, 316912650057057350374175801343, 316912650057057350374175801343,
     316912650057057350374175801343, 316912650057057350374175801343, 316912650057057350374175801343,
     316912650057057350374175801343, 316912650057057350374175801343, 316912650057057350374175801343,
     316912650057057350374175801343, 316912650057057350374175801343, 316912650057057350374175801343,
     316912650057057350374175801343, 316912650057057350374175801343, 316912650057057350374175801343,
     316912650057057350374175801343, 316912650057057350374175801343, 316912650057057350374175801343,
     316912650057057350374175801343, 316912650057057350374175801343, 316912650057057350374175801343,
     316912650057057350374175801343, 316912650057057350374175801343, 316912650057057350374175801343,
     316912650057057350374175801343, 316912650057057350374175801343, 316912650057057350374175801343,
     316912650057057350374175801343, 316912650057057350374175801343, 316912650057057350374175801343,
     316912650057057350374175801343, 316912650057057350374175801343, 316912650057057350374175801343,
     316912650057057350374175801343, 316912650057057350374175801343, 316912650057057350374175801343,
     316912650057057350374175801343, 316912650057057350374175801343, 316912650057057350374175801343,
     316912650057057350374175801343, 316912650057057350374175801343, 316912650057057350374175801343,
     316912650057057350374175801343, 316912650057057350374175801343, 316912650057057350374175801343],
      [316912650057057350374175801343, 316912650057057350374175801343, 4, 316912650057057350374175801343,
     316912650057057350374175801343, 316912650057057350374175801343, 4, 316912650057057350374175801343,
     316912650057057350374175801343, 316912650057057350374175801343, 316912650057057350374175801343,
     316912650057057350374175801343, 316912650057057350374175801343, 316912650057057350374175801343,
     316912650057057350374175801343, 316912650057057350374175801343, 316912650057057350374175801343,
     316912650057057350374175801343, 316912650057057350374175801343, 316912650057057350374175801343,
     316912650057057350374175801343, 316912650057057350374175801343, 316912650057057350374175801343,
     316912650057057350374175801343, 316912650057057350374175801343, 316912650057057350374175801343,
     316912650057057350374175801343, 316912650057057350374175801343, 316912650057057350374175801343,
     316912650057057350374175801343, 316912650057057350374175801343, 316912650057057350374175801343,
     316912650057057350374175801343, 316912650057057350374175801343, 316912650057057350374175801343,
     316912650057057350374175801343, 316912650057057350374175801343, 316912650057057350374175801343,
     316912650057057350374175801343, 316912650057057350374175801343, 316912650057057350374175801343,
     316912650057057350374175801343, 316912650057057350374175801343, 316912650057057350374175801343,
     316912650057057350374175801343, 316912650057057350374175801343, 316912650057057350374175801343,
     316912650057057350374175801343, 316912650057057350374175801343, 316912650057057350374175801343,
     316912650057057350374175801343, 4, 316912650057057350374175801343, 316912650057057350374175801343,
     316912650057057350374175801343, 316912650057057350374175801343, 316912650057057350374175801343,
     316912650057057350374175801343, 316912650057057350374175801343, 316912650057057350374175801343,
     316912650057057350374175801343, 316912650057057350374175801343, 316912650057057350374175801343,
     316912650057057350374175801343, 316912650057057350374175801343, 316912650057057350374175801343,
     316912650057057350374175801343, 316912650057057350374175801343, 316912650057057350374175801343,
     316912650057057350374175801343, 316912650057057350374175801343, 316912650057057350374175801343,
     316912650057057350374175801343, 316912650057057350374175801343, 316912650057057350374175801343,
     316912650057057350374175801343, 316912650057057350374175801343, 316912650057057350374175801343,
     316912650057057350374175801343, 316912650057057350374175801343, 316912650057057350374175801343,
     316912650057057350374175801343, 316912650057057350374175801343, 316912650057057350374175801343,
     316912650057057350374175801343, 316912650057057350374175801343, 316912650057057350374175801343,
     316912650057057350374175801343, 316912650057057350374175801343, 316912650057057350374175801343,
     316912650057057350374175801343, 316912650057057350374175801343, 316912650057057350374175801343,
     316912650057057350374175801343, 316912650057057350374175801343, 316912650057057350374175801343,
     316912650057057350374175801343, 316912650057057350374175801343],
      [316912650057057350374175801343, 316912650057057350374175801343, 4, 316912650057057350374175801343,
     316912650057057350374175801343, 316912650057057350374175801343, 316912650057057350374175801343,
     316912650057057350374175801343, 316912650057057350374175801343, 316912650057057350374175801343,
     316912650057057350374175801343, 316912650057057350374175801343, 316912650057057350374175801343,
     316912650057057350374175801343, 316912650057057350374175801343, 316912650057057350374175801343,
     316912650057057350374175801343, 316912650057057350374175801343, 316912650057057350374175801343,
     316912650057057350374175801343, 316912650057057350374175801343, 316912650057057350374175801343,
     316912650057057350374175801343, 316912650057057350374175801343, 316912650057057350374175801343,
     316912650057057350374175801343, 316912650057057350374175801343, 316912650057057350374175801343,
     316912650057057350374175801343, 316912650057057350374175801343, 316912650057057350374175801343,
     316912650057057350374175801343, 316912650057057350374175801343, 316912650057057350374175801343,
     316912650057057350374175801343, 316912650057057350374175801343, 316912650057057350374175801343,
     316912650057057350374175801343, 316912650057057350374175801343, 316912650057057350374175801343,
     316912650057057350374175801343, 316912650057057350374175801343, 316912650057057350374175801343,
     316912650057057350374175801343, 316912650057057350374175801343, 316912650057057350374175801343,
     316912650057057350374175801343, 316912650057057350374175801343, 316912650057057350374175801343,
     316912650057057350374175801343, 316912650057057350374175801343, 316912650057057350374175801343,
     316912650057057350374175801343, 316912650057057350374175801343, 316912650057057350374175801343,
     316912650057057350374175801343, 316912650057057350374175801343, 316912650057057350374175801343,
     316912650057057350374175801343, 316912650057057350374175801343, 316912650057057350374175801343,
     316912650057057350374175801343, 316912650057057350374175801343, 316912650057057350374175801343,
     316912650057057350374175801343, 316912650057057350374175801343, 316912650057057350374175801343,
     316912650057057350374175801343, 316912650057057350374175801343, 316912650057057350374175801343,
     316912650057057350374175801343, 316912650057057350374175801343, 316912650057057350374175801343,
     316912650057057350374175801343, 316912650057057350374175801343, 316912650057057350374175801343,
     316912650057057350374175801343, 316912650057057350374175801343, 316912650057057350374175801343,
     316912650057057350374175801343, 316912650057057350374175801343, 316912650057057350374175801343,
     316912650057057350374175801343, 316912650057057350374175801343, 316912650057057350374175801343,
     316912650057057350374175801343, 316912650057057350374175801343, 316912650057057350374175801343,
     316912650057057350374175801343, 316912650057057350374175801343, 316912650057057350374175801343,
     316912650057057350374175801343, 316912650057057350374175801343, 316912650057057350374175801343,
     316912650057057350374175801343, 316912650057057350374175801343, 316912650057057350374175801343,
     316912650057057350374175801343],
      [316912650057057350374175801343, 316912650057057350374175801343, 4, 316912650057057350374175801343,
     316912650057057350374175801343, 316912650057057350374175801343, 316912650057057350374175801343,
     316912650057057350374175801343, 4, 316912650057057350374175801343, 316912650057057350374175801343,
     316912650057057350374175801343, 316912650057057350374175801343, 316912650057057350374175801343,
     316912650057057350374175801343, 316912650057057350374175801343, 4, 316912650057057350374175801343,
     316912650057057350374175801343, 316912650057057350374175801343, 316912650057057350374175801343,
     316912650057057350374175801343, 316912650057057350374175801343, 316912650057057350374175801343, 4,
     316912650057057350374175801343, 4, 4, 4, 4, 316912650057057350374175801343, 316912650057057350374175801343,
     316912650057057350374175801343, 316912650057057350374175801343, 316912650057057350374175801343,
     316912650057057350374175801343, 316912650057057350374175801343, 316912650057057350374175801343,
     316912650057057350374175801343, 316912650057057350374175801343, 316912650057057350374175801343,
     316912650057057350374175801343, 316912650057057350374175801343, 316912650057057350374175801343,
     316912650057057350374175801343, 316912650057057350374175801343, 316912650057057350374175801343,
     316912650057057350374175801343, 316912650057057350374175801343, 316912650057057350374175801343,
     316912650057057350374175801343, 316912650057057350374175801343, 316912650057057350374175801343,
     316912650057057350374175801343, 316912650057057350374175801343, 316912650057057350374175801343,
     316912650057057350374175801343, 4, 316912650057057350374175801343, 316912650057057350374175801343,
     316912650057057350374175801343, 4, 316912650057057350374175801343, 316912650057057350374175801343,
     316912650057057350374175801343, 316912650057057350374175801343, 316912650057057350374175801343,
     316912650057057350374175801343, 316912650057057350374175801343, 316912650057057350374175801343,
     316912650057057350374175801343, 316912650057057350374175801343, 316912650057057350374175801343,
     316912650057057350374175801343, 316912650057057350374175801343, 316912650057057350374175801343,
     316912650057057350374175801343, 316912650057057350374175801343, 316912650057057350374175801343,
     316912650057057350374175801343, 316912650057057350374175801343, 316912650057057350374175801343,
     316912650057057350374175801343, 316912650057057350374175801343, 316912650057057350374175801343,
     316912650057057350374175801343, 316912650057057350374175801343, 316912650057057350374175801343,
     316912650057057350374175801343, 316912650057057350374175801343, 316912650057057350374175801343,
     316912650057057350374175801343, 316912650057057350374175801343, 316912650057057350374175801343,
     316912650057057350374175801343, 316912650057057350374175801343, 316912650057057350374175801343,
     316912650057057350374175801343],
      [316912650057057350374175801343, 316912650057057350374175801343, 4, 316912650057057350374175801343,
     316912650057057350374175801343, 316912650057057350374175801343, 316912650057057350374175801343,
     316912650057057350374175801343, 4, 316912650057057350374175801343, 316912650057057350374175801343,
     316912650057057350374175801343, 316912650057057350374175801343, 316912650057057350374175801343,
     316912650057057350374175801343, 316912650057057350374175801343, 4, 316912650057057350374175801343,
     316912650057057350374175801343, 316912650057057350374175801343, 316912650057057350374175801343,
     316912650057057350374175801343, 316912650057057350374175801343, 316912650057057350374175801343, 4,
     316912650057057350374175801343, 4, 4, 4, 4, 316912650057057350374175801343, 316912650057057350374175801343,
     316912650057057350374175801343, 316912650057057350374175801343, 316912650057057350374175801343,
     316912650057057350374175801343, 316912650057057350374175801343, 316912650057057350374175801343,
     316912650057057350374175801343, 316912650057057350374175801343, 316912650057057350374175801343,
     316912650057057350374175801343, 316912650057057350374175801343, 316912650057057350374175801343,
     316912650057057350374175801343, 316912650057057350374175801343, 316912650057057350374175801343,
     316912650057057350374175801343, 316912650057057350374175801343, 316912650057057350374175801343,
     316912650057057350374175801343, 316912650057057350374175801343, 316912650057057350374175801343,
     316912650057057350374175801343, 316912650057057350374175801343, 316912650057057350374175801343,
     316912650057057350374175801343, 4, 316912650057057350374175801343, 316912650057057350374175801343,
     316912650057057350374175801343, 4, 316912650057057350374175801343, 316912650057057350374175801343,
     316912650057057350374175801343, 316912650057057350374175801343, 316912650057057350374175801343,
     316912650057057350374175801343, 316912650057057350374175801343, 316912650057057350374175801343,
     316912650057057350374175801343, 316912650057057350374175801343, 316912650057057350374175801343,
     316912650057057350374175801343, 316912650057057350374175801343, 316912650057057350374175801343,
     316912650057057350374175801343, 316912650057057350374175801343, 316912650057057350374175801343,
     316912650057057350374175801343, 316912650057057350374175801343, 316912650057057350374175801343,
     316912650057057350374175801343, 316912650057057350374175801343, 316912650057057350374175801343,
     316912650057057350374175801343, 316912650057057350374175801343, 316912650057057350374175801343,
     316912650057057350374175801343, 316912650057057350374175801343, 316912650057057350374175801343,
     316912650057057350374175801343, 316912650057057350374175801343, 316912650057057350374175801343,
     316912650057057350374175801343, 316912650057057350374175801343, 316912650057057350374175801343,
     316912650057057350374175801343],
      [316912650057057350374175801343, 316912650057057350374175801343, 4, 316912650057057350374175801343,
     316912650057057350374175801343, 316912650057057350374175801343, 316912650057057350374175801343,
     316912650057057350374175801343, 4, 316912650057057350374175801343, 316912650057057350374175801343,
     316912650057057350374175801343, 316912650057057350374175801343, 316912650057057350374175801343,
     316912650057057350374175801343, 316912650057057350374175801343, 4, 316912650057057350374175801343,
     316912650057057350374175801343, 316912650057057350374175801343, 316912650057057350374175801343,
     316912650057057350374175801343, 316912650057057350374175801343, 316912650057057350374175801343, 4,
     316912650057057350374175801343, 4, 4, 4, 4, 316912650057057350374175801343, 316912650057057350374175801343,
     316912650057057350374175801343, 316912650057057350374175801343, 316912650057057350374175801343,
     316912650057057350374175801343, 316912650057057350374175801343, 316912650057057350374175801343,
     316912650057057350374175801343, 316912650057057350374175801343, 316912650057057350374175801343,
     316912650057057350374175801343, 316912650057057350374175801343, 316912650057057350374175801343,
     316912650057057350374175801343, 316912650057057350374175801343, 316912650057057350374175801343,
     316912650057057350374175801343, 316912650057057350374175801343, 316912650057057350374175801343,
     316912650057057350374175801343, 316912650057057350374175801343, 316912650057057350374175801343,
     316912650057057350374175801343, 316912650057057350374175801343, 316912650057057350374175801343,
     316912650057057350374175801343, 4, 316912650057057350374175801343, 316912650057057350374175801343,
     316912650057057350374175801343, 4, 316912650057057350374175801343, 316912650057057350374175801343,
     316912650057057350374175801343, 316912650057057350374175801343, 316912650057057350374175801343,
     316912650057057350374175801343, 316912650057057350374175801343, 316912650057057350374175801343,
     316912650057057350374175801343, 316912650057057350374175801343, 316912650057057350374175801343,
     316912650057057350374175801343, 316912650057057350374175801343, 316912650057057350374175801343,
     316912650057057350374175801343, 316912650057057350374175801343, 316912650057057350374175801343,
     316912650057057350374175801343, 316912650057057350374175801343, 316912650057057350374175801343,
     316912650057057350374175801343, 316912650057057350374175801343, 316912650057057350374175801343,
     316912650057057350374175801343, 316912650057057350374175801343, 316912650057057350374175801343,
     316912650057057350374175801343, 316912650057057350374175801343, 316912650057057350374175801343,
     316912650057057350374175801343, 316912650057057350374175801343, 316912650057057350374175801343,
     316912650057057350374175801343, 316912650057057350374175801343, 316912650057057350374175801343,
     316912650057057350374175801343],
      [316912650057057350374175801343, 316912650057057350374175801343, 4, 316912650057057350374175801343,
     316912650057057350374175801343, 316912650057057350374175801343, 316912650057057350374175801343,
     316912650057057350374175801343, 316912650057057350374175801343, 316912650057057350374175801343,
     316912650057057350374175801343, 316912650057057350374175801343, 316912650057057350374175801343,
     316912650057057350374175801343, 316912650057057350374175801343, 316912650057057350374175801343,
     316912650057057350374175801343, 316912650057057350374175801343, 316912650057057350374175801343,
     316912650057057350374175801343, 316912650057057350374175801343, 316912650057057350374175801343,
     316912650057057350374175801343, 316912650057057350374175801343, 316912650057057350374175801343,
     316912650057057350374175801343, 316912650057057350374175801343, 316912650057057350374175801343,
     316912650057057350374175801343, 316912650057057350374175801343, 316912650057057350374175801343,
     316912650057057350374175801343, 316912650057057350374175801343, 316912650057057350374175801343,
     316912650057057350374175801343, 316912650057057350374175801343, 316912650057057350374175801343,
     316912650057057350374175801343, 316912650057057350374175801343, 316912650057057350374175801343,
     316912650057057350374175801343, 316912650057057350374175801343, 316912650057057350374175801343,
     316912650057057350374175801343, 316912650057057350374175801343, 316912650057057350374175801343,
     316912650057057350374175801343, 316912650057057350374175801343, 316912650057057350374175801343,
     316912650057057350374175801343, 316912650057057350374175801343, 316912650057057350374175801343,
     316912650057057350374175801343, 316912650057057350374175801343, 316912650057057350374175801343,
     316912650057057350374175801343, 316912650057057350374175801343, 316912650057057350374175801343,
     316912650057057350374175801343, 316912650057057350374175801343, 316912650057057350374175801343,
     316912650057057350374175801343, 316912650057057350374175801343, 316912650057057350374175801343,
     316912650057057350374175801343, 316912650057057350374175801343, 316912650057057350374175801343,
     316912650057057350374175801343, 316912650057057350374175801343, 316912650057057350374175801343,
     316912650057057350374175801343, 316912650057057350374175801343, 316912650057057350374175801343,
     316912650057057350374175801343, 316912650057057350374175801343, 316912650057057350374175801343,
     316912650057057350374175801343, 316912650057057350374175801343, 316912650057057350374175801343,
     316912650057057350374175801343, 316912650057057350374175801343, 316912650057057350374175801343,
     316912650057057350374175801343, 316912650057057350374175801343, 316912650057057350374175801343,
     316912650057057350374175801343, 316912650057057350374175801343, 316912650057057350374175801343,
     316912650057057350374175801343, 316912650057057350374175801343, 316912650057057350374175801343,
     316912650057057350374175801343, 316912650057057350374175801343, 316912650057057350374175801343,
     316912650057057350374175801343, 316912650057057350374175801343, 316912650057057350374175801343,
     316912650057057350374175801343],
      [316912650057057350374175801343, 316912650057057350374175801343, 2449958198313025796,
     316912650057057350374175801343, 316912650057057350374175801343, 316912650057057350374175801343,
     316912650057057350374175801343, 316912650057057350374175801343, 316912650057057350374175801343,
     316912650057057350374175801343, 316912650057057350374175801343, 316912650057057350374175801343,
     316912650057057350374175801343, 316912650057057350374175801343, 316912650057057350374175801343,
     316912650057057350374175801343, 2449958198313025796, 316912650057057350374175801343,
     316912650057057350374175801343, 316912650057057350374175801343, 316912650057057350374175801343,
     316912650057057350374175801343, 316912650057057350374175801343, 316912650057057350374175801343,
     2449958198313025796, 316912650057057350374175801343, 2449958198313025796, 2449958198313025796,
     2449958198313025796, 2449958198313025796, 316912650057057350374175801343, 316912650057057350374175801343,
     316912650057057350374175801343, 316912650057057350374175801343, 316912650057057350374175801343,
     316912650057057350374175801343, 316912650057057350374175801343, 316912650057057350374175801343,
     316912650057057350374175801343, 316912650057057350374175801343, 316912650057057350374175801343,
     316912650057057350374175801343, 316912650057057350374175801343, 316912650057057350374175801343,
     316912650057057350374175801343, 316912650057057350374175801343, 316912650057057350374175801343,
     316912650057057350374175801343, 316912650057057350374175801343, 316912650057057350374175801343,
     316912650057057350374175801343, 316912650057057350374175801343, 316912650057057350374175801343,
     316912650057057350374175801343, 316912650057057350374175801343, 316912650057057350374175801343,
     316912650057057350374175801343, 2449958198313025796, 316912650057057350374175801343,
     316912650057057350374175801343, 316912650057057350374175801343, 2449958198313025796,
     316912650057057350374175801343, 316912650057057350374175801343, 316912650057057350374175801343,
     316912650057057350374175801343, 316912650057057350374175801343, 316912650057057350374175801343,
     316912650057057350374175801343, 316912650057057350374175801343, 316912650057057350374175801343,
     316912650057057350374175801343, 316912650057057350374175801343, 316912650057057350374175801343,
     316912650057057350374175801343, 316912650057057350374175801343, 316912650057057350374175801343,
     316912650057057350374175801343, 316912650057057350374175801343, 316912650057057350374175801343,
     316912650057057350374175801343, 316912650057057350374175801343, 316912650057057350374175801343,
     316912650057057350374175801343, 316912650057057350374175801343, 316912650057057350374175801343,
     316912650057057350374175801343, 316912650057057350374175801343, 316912650057057350374175801343,
     316912650057057350374175801343, 316912650057057350374175801343, 316912650057057350374175801343,
     316912650057057350374175801343, 316912650057057350374175801343, 316912650057057350374175801343,
     316912650057057350374175801343, 316912650057057350374175801343, 316912650057057350374175801343],
      [316912650057057350374175801343, 316912650057057350374175801343, 2449958198313025540,
     316912650057057350374175801343, 316912650057057350374175801343, 316912650057057350374175801343,
     316912650057057350374175801343, 316912650057057350374175801343, 2449958198313025540,
     316912650057057350374175801343, 316912650057057350374175801343, 316912650057057350374175801343,
     316912650057057350374175801343, 316912650057057350374175801343, 316912650057057350374175801343,
     316912650057057350374175801343, 2449958198313025540, 316912650057057350374175801343,
     316912650057057350374175801343, 316912650057057350374175801343, 316912650057057350374175801343,
     316912650057057350374175801343, 316912650057057350374175801343, 316912650057057350374175801343,
     2449958198313025540, 316912650057057350374175801343, 2449958198313025540, 2449958198313025540,
     2449958198313025540, 2449958198313025540, 316912650057057350374175801343, 316912650057057350374175801343,
     316912650057057350374175801343, 316912650057057350374175801343, 316912650057057350374175801343,
     316912650057057350374175801343, 316912650057057350374175801343, 316912650057057350374175801343,
     316912650057057350374175801343, 316912650057057350374175801343, 316912650057057350374175801343,
     316912650057057350374175801343, 316912650057057350374175801343, 316912650057057350374175801343,
     316912650057057350374175801343, 316912650057057350374175801343, 316912650057057350374175801343,
     316912650057057350374175801343, 316912650057057350374175801343, 316912650057057350374175801343,
     316912650057057350374175801343, 316912650057057350374175801343, 316912650057057350374175801343,
     316912650057057350374175801343, 316912650057057350374175801343, 316912650057057350374175801343,
     316912650057057350374175801343, 2449958198313025540, 316912650057057350374175801343,
     316912650057057350374175801343, 316912650057057350374175801343, 2449958198313025540,
     316912650057057350374175801343, 316912650057057350374175801343, 316912650057057350374175801343,
     316912650057057350374175801343, 316912650057057350374175801343, 316912650057057350374175801343,
     316912650057057350374175801343, 316912650057057350374175801343, 316912650057057350374175801343,
     316912650057057350374175801343, 316912650057057350374175801343, 316912650057057350374175801343,
     316912650057057350374175801343, 316912650057057350374175801343, 316912650057057350374175801343,
     316912650057057350374175801343, 316912650057057350374175801343, 316912650057057350374175801343,
     316912650057057350374175801343, 316912650057057350374175801343, 316912650057057350374175801343,
     316912650057057350374175801343, 316912650057057350374175801343, 316912650057057350374175801343,
     316912650057057350374175801343, 316912650057057350374175801343, 316912650057057350374175801343,
     316912650057057350374175801343, 316912650057057350374175801343, 316912650057057350374175801343,
     316912650057057350374175801343, 316912650057057350374175801343, 316912650057057350374175801343,
     316912650057057350374175801343, 316912650057057350374175801343, 316912650057057350374175801343],
      [316912650057057350374175801343, 316912650057057350374175801343, 256, 316912650057057350374175801343,
     316912650057057350374175801343, 316912650057057350374175801343, 316912650057057350374175801343,
     316912650057057350374175801343, 316912650057057350374175801343, 316912650057057350374175801343,
     316912650057057350374175801343, 316912650057057350374175801343, 316912650057057350374175801343,
     316912650057057350374175801343, 316912650057057350374175801343, 316912650057057350374175801343,
     316912650057057350374175801343, 316912650057057350374175801343, 316912650057057350374175801343,
     316912650057057350374175801343, 316912650057057350374175801343, 316912650057057350374175801343,
     316912650057057350374175801343, 316912650057057350374175801343, 316912650057057350374175801343,
     316912650057057350374175801343, 316912650057057350374175801343, 316912650057057350374175801343,
     316912650057057350374175801343, 316912650057057350374175801343, 316912650057057350374175801343,
     316912650057057350374175801343, 316912650057057350374175801343, 316912650057057350374175801343,
     316912650057057350374175801343, 316912650057057350374175801343, 316912650057057350374175801343,
     316912650057057350374175801343, 316912650057057350374175801343, 316912650057057350374175801343,
     316912650057057350374175801343, 316912650057057350374175801343, 316912650057057350374175801343,
     316912650057057350374175801343, 316912650057057350374175801343, 316912650057057350374175801343,
     316912650057057350374175801343, 316912650057057350374175801343, 316912650057057350374175801343,
     316912650057057350374175801343, 316912650057057350374175801343, 316912650057057350374175801343,
     316912650057057350374175801343, 316912650057057350374175801343, 316912650057057350374175801343,
     316912650057057350374175801343, 316912650057057350374175801343, 316912650057057350374175801343,
     316912650057057350374175801343, 316912650057057350374175801343, 316912650057057350374175801343,
     316912650057057350374175801343, 316912650057057350374175801343, 316912650057057350374175801343,
     316912650057057350374175801343, 316912650057057350374175801343, 316912650057057350374175801343,
     316912650057057350374175801343, 316912650057057350374175801343, 316912650057057350374175801343,
     316912650057057350374175801343, 316912650057057350374175801343, 316912650057057350374175801343,
     316912650057057350374175801343, 316912650057057350374175801343, 316912650057057350374175801343,
     316912650057057350374175801343, 316912650057057350374175801343, 316912650057057350374175801343,
     316912650057057350374175801343, 316912650057057350374175801343, 316912650057057350374175801343,
     316912650057057350374175801343, 316912650057057350374175801343, 316912650057057350374175801343,
     316912650057057350374175801343, 316912650057057350374175801343, 316912650057057350374175801343,
     316912650057057350374175801343, 316912650057057350374175801343, 316912650057057350374175801343,
     316912650057057350374175801343, 316912650057057350374175801343, 316912650057057350374175801343,
     316912650057057350374175801343, 316912650057057350374175801343, 316912650057057350374175801343,
     316912650057057350374175801343],
      [316912650057057350374175801343, 316912650057057350374175801343, 4, 316912650057057350374175801343, 4, 4, 4,
     316912650057057350374175801343, 134217728, 134217728, 316912650057057350374175801343, 4,
     316912650057057350374175801343, 134217728, 316912650057057350374175801343, 316912650057057350374175801343, 4,
     316912650057057350374175801343, 316912650057057350374175801343, 316912650057057350374175801343,
     316912650057057350374175801343, 316912650057057350374175801343, 316912650057057350374175801343,
     316912650057057350374175801343, 316912650057057350374175801343, 140737488355328, 316912650057057350374175801343,
     316912650057057350374175801343, 316912650057057350374175801343, 316912650057057350374175801343,
     316912650057057350374175801343, 316912650057057350374175801343, 316912650057057350374175801343,
     316912650057057350374175801343, 4, 316912650057057350374175801343, 316912650057057350374175801343,
     316912650057057350374175801343, 316912650057057350374175801343, 316912650057057350374175801343,
     288230376151711744, 316912650057057350374175801343, 316912650057057350374175801343, 36893488147419103232,
     316912650057057350374175801343, 4, 4, 316912650057057350374175801343, 316912650057057350374175801343,
     1180591620717411303424, 316912650057057350374175801343, 4, 316912650057057350374175801343,
     316912650057057350374175801343, 18889465931478580854784, 316912650057057350374175801343, 4, 4,
     316912650057057350374175801343, 316912650057057350374175801343, 36893488147419103232,
     316912650057057350374175801343, 316912650057057350374175801343, 316912650057057350374175801343,
     36893488147419103232, 316912650057057350374175801343, 316912650057057350374175801343,
     316912650057057350374175801343, 1180591620717411303424, 1180591620717411303424, 316912650057057350374175801343,
     316912650057057350374175801343, 316912650057057350374175801343, 309485009821345068724781056,
     316912650057057350374175801343, 316912650057057350374175801343, 316912650057057350374175801343,
     316912650057057350374175801343, 316912650057057350374175801343, 316912650057057350374175801343,
     316912650057057350374175801343, 316912650057057350374175801343, 316912650057057350374175801343,
     309485009821345068724781056, 309485009821345068724781056, 316912650057057350374175801343,
     316912650057057350374175801343, 309485009821345068724781056, 316912650057057350374175801343,
     316912650057057350374175801343, 316912650057057350374175801343, 316912650057057350374175801343,
     316912650057057350374175801343, 316912650057057350374175801343, 316912650057057350374175801343,
     316912650057057350374175801343, 316912650057057350374175801343, 316912650057057350374175801343],
      [316912650057057350374175801343, 316912650057057350374175801343, 4, 316912650057057350374175801343,
     316912650057057350374175801343, 316912650057057350374175801343, 316912650057057350374175801343,
     316912650057057350374175801343, 316912650057057350374175801343, 316912650057057350374175801343,
     316912650057057350374175801343, 316912650057057350374175801343, 316912650057057350374175801343,
     316912650057057350374175801343, 316912650057057350374175801343, 316912650057057350374175801343,
     316912650057057350374175801343, 316912650057057350374175801343, 316912650057057350374175801343,
     316912650057057350374175801343, 316912650057057350374175801343, 316912650057057350374175801343,
     316912650057057350374175801343, 316912650057057350374175801343, 4, 316912650057057350374175801343,
     316912650057057350374175801343, 316912650057057350374175801343, 316912650057057350374175801343,
     316912650057057350374175801343, 316912650057057350374175801343, 316912650057057350374175801343,
     316912650057057350374175801343, 316912650057057350374175801343, 316912650057057350374175801343,
     316912650057057350374175801343, 316912650057057350374175801343, 316912650057057350374175801343,
     316912650057057350374175801343, 316912650057057350374175801343, 316912650057057350374175801343,
     316912650057057350374175801343, 316912650057057350374175801343, 316912650057057350374175801343,
     316912650057057350374175801343, 316912650057057350374175801343, 316912650057057350374175801343,
     316912650057057350374175801343, 316912650057057350374175801343, 316912650057057350374175801343,
     316912650057057350374175801343, 316912650057057350374175801343, 316912650057057350374175801343,
     316912650057057350374175801343, 316912650057057350374175801343, 316912650057057350374175801343,
     316912650057057350374175801343, 316912650057057350374175801343, 316912650057057350374175801343,
     316912650057057350374175801343, 316912650057057350374175801343, 316912650057057350374175801343,
     316912650057057350374175801343, 316912650057057350374175801343, 316912650057057350374175801343,
     316912650057057350374175801343, 316912650057057350374175801343, 316912650057057350374175801343,
     316912650057057350374175801343, 316912650057057350374175801343, 316912650057057350374175801343,
     316912650057057350374175801343, 18889465931478580854784, 316912650057057350374175801343,
     316912650057057350374175801343, 316912650057057350374175801343, 316912650057057350374175801343,
     316912650057057350374175801343, 316912650057057350374175801343, 316912650057057350374175801343,
     316912650057057350374175801343, 316912650057057350374175801343, 316912650057057350374175801343,
     316912650057057350374175801343, 316912650057057350374175801343, 316912650057057350374175801343,
     316912650057057350374175801343, 316912650057057350374175801343, 316912650057057350374175801343,
     316912650057057350374175801343, 316912650057057350374175801343, 316912650057057350374175801343,
     316912650057057350374175801343, 316912650057057350374175801343, 316912650057057350374175801343,
     316912650057057350374175801343, 316912650057057350374175801343, 316912650057057350374175801343],
      [316912650057057350374175801343, 316912650057057350374175801343, 4, 4, 65536, 131072, 262144, 524288, 268435456,
     536870912, 65536, 65536, 1073741824, 536870912, 316912650057057350374175801343, 524288, 4,
     316912650057057350374175801343, 68719476736, 316912650057057350374175801343, 274877906944, 1099511627776, 4,
     2199023255552, 536870912, 316912650057057350374175801343, 536870912, 316912650057057350374175801343, 536870912,
     536870912, 316912650057057350374175801343, 316912650057057350374175801343, 536870912,
     316912650057057350374175801343, 316912650057057350374175801343, 316912650057057350374175801343, 68719476736,
     316912650057057350374175801343, 316912650057057350374175801343, 316912650057057350374175801343,
     316912650057057350374175801343, 536870912, 536870912, 316912650057057350374175801343,
     316912650057057350374175801343, 316912650057057350374175801343, 316912650057057350374175801343,
     316912650057057350374175801343, 316912650057057350374175801343, 316912650057057350374175801343, 524288,
     316912650057057350374175801343, 68719476736, 274877906944, 18889465931478580854784, 1099511627776,
     316912650057057350374175801343, 316912650057057350374175801343, 316912650057057350374175801343,
     316912650057057350374175801343, 316912650057057350374175801343, 536870912, 316912650057057350374175801343,
     316912650057057350374175801343, 316912650057057350374175801343, 316912650057057350374175801343, 536870912,
     316912650057057350374175801343, 316912650057057350374175801343, 316912650057057350374175801343,
     316912650057057350374175801343, 316912650057057350374175801343, 316912650057057350374175801343,
     316912650057057350374175801343, 316912650057057350374175801343, 316912650057057350374175801343,
     316912650057057350374175801343, 75557863725914323419136, 316912650057057350374175801343,
     316912650057057350374175801343, 316912650057057350374175801343, 316912650057057350374175801343,
     18889465931478580854784, 316912650057057350374175801343, 316912650057057350374175801343,
     316912650057057350374175801343, 316912650057057350374175801343, 316912650057057350374175801343,
     316912650057057350374175801343, 316912650057057350374175801343, 316912650057057350374175801343,
     1237940039285380274899124224, 316912650057057350374175801343, 316912650057057350374175801343,
     316912650057057350374175801343, 75557863725914323419136, 316912650057057350374175801343,
     1237940039285380274899124224],
      [316912650057057350374175801343, 316912650057057350374175801343, 4, 316912650057057350374175801343, 65536,
     316912650057057350374175801343, 4, 316912650057057350374175801343, 536870912, 536870912, 65536,
     316912650057057350374175801343, 316912650057057350374175801343, 4294967296, 316912650057057350374175801343,
     524288, 4, 316912650057057350374175801343, 68719476736, 316912650057057350374175801343, 274877906944,
     1099511627776, 4, 316912650057057350374175801343, 536870912, 316912650057057350374175801343, 536870912,
     316912650057057350374175801343, 536870912, 536870912, 316912650057057350374175801343,
     316912650057057350374175801343, 536870912, 316912650057057350374175801343, 316912650057057350374175801343,
     316912650057057350374175801343, 68719476736, 316912650057057350374175801343, 316912650057057350374175801343,
     316912650057057350374175801343, 316912650057057350374175801343, 536870912, 316912650057057350374175801343,
     316912650057057350374175801343, 316912650057057350374175801343, 316912650057057350374175801343,
     316912650057057350374175801343, 316912650057057350374175801343, 316912650057057350374175801343,
     316912650057057350374175801343, 316912650057057350374175801343, 316912650057057350374175801343,
     316912650057057350374175801343, 316912650057057350374175801343, 18889465931478580854784,
     316912650057057350374175801343, 316912650057057350374175801343, 316912650057057350374175801343,
     316912650057057350374175801343, 316912650057057350374175801343, 316912650057057350374175801343, 536870912,
     316912650057057350374175801343, 316912650057057350374175801343, 316912650057057350374175801343,
     316912650057057350374175801343, 316912650057057350374175801343, 316912650057057350374175801343,
     316912650057057350374175801343, 316912650057057350374175801343, 316912650057057350374175801343,
     316912650057057350374175801343, 316912650057057350374175801343, 316912650057057350374175801343,
     316912650057057350374175801343, 316912650057057350374175801343, 316912650057057350374175801343,
     75557863725914323419136, 316912650057057350374175801343, 316912650057057350374175801343, 8796093022208,
     316912650057057350374175801343, 316912650057057350374175801343, 316912650057057350374175801343,
     316912650057057350374175801343, 316912650057057350374175801343, 316912650057057350374175801343,
     316912650057057350374175801343, 316912650057057350374175801343, 316912650057057350374175801343,
     316912650057057350374175801343, 1237940039285380274899124224, 316912650057057350374175801343,
     316912650057057350374175801343, 19342813113834066795298816, 316912650057057350374175801343,
     316912650057057350374175801343, 316912650057057350374175801343],
      [316912650057057350374175801343, 316912650057057350374175801343, 4, 4, 4, 4, 4, 316912650057057350374175801343,
     16777216, 16777216, 4, 4, 316912650057057350374175801343, 16777216, 4, 8589934592, 4,
     316912650057057350374175801343, 34359738368, 316912650057057350374175801343, 137438953472, 549755813888, 4,
     316912650057057350374175801343, 17592186044416, 35184372088832, 17592186044416, 316912650057057350374175801343,
     17592186044416, 17592186044416, 316912650057057350374175801343, 316912650057057350374175801343, 17592186044416,
     316912650057057350374175801343, 2251799813685248, 316912650057057350374175801343, 34359738368,
     316912650057057350374175801343, 316912650057057350374175801343, 316912650057057350374175801343,
     144115188075855872, 17592186044416, 67108864, 18446744073709551616, 316912650057057350374175801343, 4, 4,
     316912650057057350374175801343, 67108864, 295147905179352825856, 316912650057057350374175801343, 4,
     316912650057057350374175801343, 316912650057057350374175801343, 4722366482869645213696,
     316912650057057350374175801343, 4, 4, 316912650057057350374175801343, 316912650057057350374175801343,
     18446744073709551616, 17592186044416, 316912650057057350374175801343, 316912650057057350374175801343,
     18446744073709551616, 316912650057057350374175801343, 316912650057057350374175801343, 70368744177664,
     295147905179352825856, 295147905179352825856, 316912650057057350374175801343, 4, 316912650057057350374175801343,
     154742504910672534362390528, 316912650057057350374175801343, 4, 316912650057057350374175801343,
     618970019642690137449562112, 316912650057057350374175801343, 8796093022208, 316912650057057350374175801343,
     590295810358705651712, 316912650057057350374175801343, 154742504910672534362390528, 154742504910672534362390528,
     316912650057057350374175801343, 316912650057057350374175801343, 154742504910672534362390528,
     316912650057057350374175801343, 316912650057057350374175801343, 316912650057057350374175801343,
     79228162514264337593543950336, 316912650057057350374175801343, 19342813113834066795298816,
     316912650057057350374175801343, 316912650057057350374175801343, 316912650057057350374175801343,
     316912650057057350374175801343],
      [316912650057057350374175801343, 316912650057057350374175801343, 4, 316912650057057350374175801343, 4,
     316912650057057350374175801343, 4, 316912650057057350374175801343, 316912650057057350374175801343,
     316912650057057350374175801343, 316912650057057350374175801343, 316912650057057350374175801343,
     316912650057057350374175801343, 316912650057057350374175801343, 316912650057057350374175801343,
     316912650057057350374175801343, 316912650057057350374175801343, 316912650057057350374175801343,
     316912650057057350374175801343, 316912650057057350374175801343, 316912650057057350374175801343,
     316912650057057350374175801343, 316912650057057350374175801343, 316912650057057350374175801343,
     316912650057057350374175801343, 316912650057057350374175801343, 316912650057057350374175801343,
     316912650057057350374175801343, 316912650057057350374175801343, 316912650057057350374175801343,
     316912650057057350374175801343, 316912650057057350374175801343, 316912650057057350374175801343,
     316912650057057350374175801343, 4, 316912650057057350374175801343, 316912650057057350374175801343,
     316912650057057350374175801343, 316912650057057350374175801343, 316912650057057350374175801343, 4,
     316912650057057350374175801343, 316912650057057350374175801343, 8796093022208, 316912650057057350374175801343,
     316912650057057350374175801343, 316912650057057350374175801343, 316912650057057350374175801343,
     316912650057057350374175801343, 590295810358705651712, 316912650057057350374175801343, 4,
     316912650057057350374175801343, 316912650057057350374175801343, 316912650057057350374175801343,
     316912650057057350374175801343, 4, 4, 316912650057057350374175801343, 316912650057057350374175801343,
     8796093022208, 316912650057057350374175801343, 316912650057057350374175801343, 302231454903657293676544,
     8796093022208, 316912650057057350374175801343, 316912650057057350374175801343, 316912650057057350374175801343,
     590295810358705651712, 590295810358705651712, 316912650057057350374175801343, 316912650057057350374175801343,
     316912650057057350374175801343, 316912650057057350374175801343, 316912650057057350374175801343,
     316912650057057350374175801343, 316912650057057350374175801343, 316912650057057350374175801343,
     316912650057057350374175801343, 316912650057057350374175801343, 316912650057057350374175801343,
     316912650057057350374175801343, 316912650057057350374175801343, 19342813113834066795298816,
     19342813113834066795298816, 316912650057057350374175801343, 4951760157141521099596496896,
     19342813113834066795298816, 316912650057057350374175801343, 316912650057057350374175801343,
     316912650057057350374175801343, 316912650057057350374175801343, 316912650057057350374175801343,
     316912650057057350374175801343, 316912650057057350374175801343, 316912650057057350374175801343,
     316912650057057350374175801343, 316912650057057350374175801343],
      [316912650057057350374175801343, 316912650057057350374175801343, 316912650057057350374175801343,
     316912650057057350374175801343, 316912650057057350374175801343, 316912650057057350374175801343,
     316912650057057350374175801343, 316912650057057350374175801343, 4, 4, 316912650057057350374175801343,
     316912650057057350374175801343, 316912650057057350374175801343, 4, 316912650057057350374175801343,
     316912650057057350374175801343, 316912650057057350374175801343, 316912650057057350374175801343,
     316912650057057350374175801343, 316912650057057350374175801343, 316912650057057350374175801343,
     316912650057057350374175801343, 316912650057057350374175801343, 316912650057057350374175801343,
     316912650057057350374175801343, 316912650057057350374175801343, 316912650057057350374175801343,
     316912650057057350374175801343, 316912650057057350374175801343, 316912650057057350374175801343,
     316912650057057350374175801343, 316912650057057350374175801343, 316912650057057350374175801343,
     316912650057057350374175801343, 316912650057057350374175801343, 316912650057057350374175801343,
     316912650057057350374175801343, 316912650057057350374175801343, 316912650057057350374175801343,
     316912650057057350374175801343, 316912650057057350374175801343, 316912650057057350374175801343,
     316912650057057350374175801343, 316912650057057350374175801343, 316912650057057350374175801343,
     316912650057057350374175801343, 316912650057057350374175801343, 316912650057057350374175801343,
     316912650057057350374175801343, 316912650057057350374175801343, 316912650057057350374175801343,
     316912650057057350374175801343, 316912650057057350374175801343, 316912650057057350374175801343,
     18889465931478580854784, 316912650057057350374175801343, 316912650057057350374175801343,
     316912650057057350374175801343, 316912650057057350374175801343, 316912650057057350374175801343,
     316912650057057350374175801343, 316912650057057350374175801343, 316912650057057350374175801343,
     316912650057057350374175801343, 316912650057057350374175801343, 316912650057057350374175801343,
     316912650057057350374175801343, 316912650057057350374175801343, 316912650057057350374175801343,
     316912650057057350374175801343, 316912650057057350374175801343, 316912650057057350374175801343,
     316912650057057350374175801343, 316912650057057350374175801343, 316912650057057350374175801343,
     316912650057057350374175801343, 316912650057057350374175801343, 316912650057057350374175801343,
     316912650057057350374175801343, 316912650057057350374175801343, 316912650057057350374175801343,
     316912650057057350374175801343, 316912650057057350374175801343, 316912650057057350374175801343,
     316912650057057350374175801343, 316912650057057350374175801343, 316912650057057350374175801343,
     316912650057057350374175801343, 316912650057057350374175801343, 316912650057057350374175801343,
     316912650057057350374175801343, 316912650057057350374175801343, 316912650057057350374175801343,
     316912650057057350374175801343, 316912650057057350374175801343, 316912650057057350374175801343,
     316912650057057350374175801343, 316912650057057350374175801343],
      [],
      [],
      [316912650057057350374175801343, 316912650057057350374175801343, 4, 316912650057057350374175801343,
     316912650057057350374175801343, 316912650057057350374175801343, 316912650057057350374175801343,
     316912650057057350374175801343, 316912650057057350374175801343, 316912650057057350374175801343,
     316912650057057350374175801343, 316912650057057350374175801343, 316912650057057350374175801343,
     316912650057057350374175801343, 316912650057057350374175801343, 316912650057057350374175801343,
     316912650057057350374175801343, 316912650057057350374175801343, 316912650057057350374175801343,
     316912650057057350374175801343, 316912650057057350374175801343, 316912650057057350374175801343,
     316912650057057350374175801343, 316912650057057350374175801343, 316912650057057350374175801343,
     316912650057057350374175801343, 316912650057057350374175801343, 316912650057057350374175801343,
     316912650057057350374175801343, 316912650057057350374175801343, 316912650057057350374175801343,
     316912650057057350374175801343, 316912650057057350374175801343, 316912650057057350374175801343,
     316912650057057350374175801343, 316912650057057350374175801343, 316912650057057350374175801343,
     316912650057057350374175801343, 316912650057057350374175801343, 316912650057057350374175801343,
     316912650057057350374175801343, 316912650057057350374175801343, 316912650057057350374175801343,
     316912650057057350374175801343, 316912650057057350374175801343, 316912650057057350374175801343,
     316912650057057350374175801343, 316912650057057350374175801343, 316912650057057350374175801343,
     316912650057057350374175801343, 316912650057057350374175801343, 316912650057057350374175801343,
     316912650057057350374175801343, 316912650057057350374175801343, 316912650057057350374175801343,
     316912650057057350374175801343, 316912650057057350374175801343, 316912650057057350374175801343,
     316912650057057350374175801343, 316912650057057350374175801343, 316912650057057350374175801343,
     316912650057057350374175801343, 316912650057057350374175801343, 316912650057057350374175801343,
     316912650057057350374175801343, 316912650057057350374175801343, 316912650057057350374175801343,
     316912650057057350374175801343, 316912650057057350374175801343, 316912650057057350374175801343,
     316912650057057350374175801343, 316912650057057350374175801343, 316912650057057350374175801343,
     316912650057057350374175801343, 316912650057057350374175801343, 316912650057057350374175801343,
     316912650057057350374175801343, 316912650057057350374175801343, 316912650057057350374175801343,
     316912650057057350374175801343, 316912650057057350374175801343, 316912650057057350374175801343,
     316912650057057350374175801343, 316912650057057350374175801343, 316912650057057350374175801343,
     316912650057057350374175801343, 316912650057057350374175801343, 316912650057057350374175801343,
     316912650057057350374175801343, 316912650057057350374175801343, 316912650057057350374175801343,
     316912650057057350374175801343, 316912650057057350374175801343, 316912650057057350374175801343,
     316912650057057350374175801343, 316912650057057350374175801343, 316912650057057350374175801343,
     316912650057057350374175801343],
      [],
      [],
      [316912650057057350374175801343, 316912650057057350374175801343, 65540, 316912650057057350374175801343,
     316912650057057350374175801343, 316912650057057350374175801343, 68719804420, 316912650057057350374175801343,
     316912650057057350374175801343, 316912650057057350374175801343, 316912650057057350374175801343,
     316912650057057350374175801343, 316912650057057350374175801343, 316912650057057350374175801343,
     316912650057057350374175801343, 316912650057057350374175801343, 316912650057057350374175801343,
     316912650057057350374175801343, 316912650057057350374175801343, 316912650057057350374175801343,
     316912650057057350374175801343, 316912650057057350374175801343, 316912650057057350374175801343,
     316912650057057350374175801343, 536870912, 316912650057057350374175801343, 536870912,
     316912650057057350374175801343, 536870912, 536870912, 316912650057057350374175801343,
     316912650057057350374175801343, 536870912, 316912650057057350374175801343, 316912650057057350374175801343,
     316912650057057350374175801343, 316912650057057350374175801343, 316912650057057350374175801343,
     316912650057057350374175801343, 316912650057057350374175801343, 316912650057057350374175801343,
     316912650057057350374175801343, 316912650057057350374175801343, 316912650057057350374175801343,
     316912650057057350374175801343, 316912650057057350374175801343, 316912650057057350374175801343,
     316912650057057350374175801343, 316912650057057350374175801343, 316912650057057350374175801343,
     316912650057057350374175801343, 316912650057057350374175801343, 316912650057057350374175801343,
     316912650057057350374175801343, 316912650057057350374175801343, 316912650057057350374175801343,
     316912650057057350374175801343, 316912650057057350374175801343, 316912650057057350374175801343,
     316912650057057350374175801343, 316912650057057350374175801343, 536870912, 316912650057057350374175801343,
     316912650057057350374175801343, 316912650057057350374175801343, 316912650057057350374175801343,
     316912650057057350374175801343, 316912650057057350374175801343, 316912650057057350374175801343,
     316912650057057350374175801343, 316912650057057350374175801343, 316912650057057350374175801343,
     316912650057057350374175801343, 316912650057057350374175801343, 316912650057057350374175801343,
     316912650057057350374175801343, 316912650057057350374175801343, 316912650057057350374175801343,
     316912650057057350374175801343, 316912650057057350374175801343, 316912650057057350374175801343,
     316912650057057350374175801343, 316912650057057350374175801343, 316912650057057350374175801343,
     316912650057057350374175801343, 316912650057057350374175801343, 316912650057057350374175801343,
     316912650057057350374175801343, 316912650057057350374175801343, 316912650057057350374175801343,
     316912650057057350374175801343, 316912650057057350374175801343, 316912650057057350374175801343,
     316912650057057350374175801343, 316912650057057350374175801343, 316912650057057350374175801343,
     316912650057057350374175801343, 316912650057057350374175801343],
      [],
      [],
      [],
      [],
      [316912650057057350374175801343, 316912650057057350374175801343, 4, 316912650057057350374175801343,
     316912650057057350374175801343, 316912650057057350374175801343, 316912650057057350374175801343,
     316912650057057350374175801343, 316912650057057350374175801343, 316912650057057350374175801343,
     316912650057057350374175801343, 316912650057057350374175801343, 316912650057057350374175801343,
     316912650057057350374175801343, 316912650057057350374175801343, 316912650057057350374175801343,
     316912650057057350374175801343, 316912650057057350374175801343, 316912650057057350374175801343,
     316912650057057350374175801343, 316912650057057350374175801343, 316912650057057350374175801343,
     316912650057057350374175801343, 316912650057057350374175801343, 316912650057057350374175801343,
     316912650057057350374175801343, 316912650057057350374175801343, 316912650057057350374175801343,
     316912650057057350374175801343, 316912650057057350374175801343, 316912650057057350374175801343,
     316912650057057350374175801343, 316912650057057350374175801343, 316912650057057350374175801343,
     316912650057057350374175801343, 316912650057057350374175801343, 316912650057057350374175801343,
     316912650057057350374175801343, 316912650057057350374175801343, 316912650057057350374175801343,
     144115188075855876, 316912650057057350374175801343, 316912650057057350374175801343, 18446752869802573824,
     316912650057057350374175801343, 316912650057057350374175801343, 316912650057057350374175801343,
     316912650057057350374175801343, 316912650057057350374175801343, 316912650057057350374175801343,
     316912650057057350374175801343, 4, 316912650057057350374175801343, 316912650057057350374175801343,
     316912650057057350374175801343, 316912650057057350374175801343, 316912650057057350374175801343,
     316912650057057350374175801343, 316912650057057350374175801343, 316912650057057350374175801343,
     316912650057057350374175801343, 316912650057057350374175801343, 316912650057057350374175801343,
     316912650057057350374175801343, 18446752869802573824, 316912650057057350374175801343,
     316912650057057350374175801343, 316912650057057350374175801343, 885443715538058477572, 885443715538058477572,
     316912650057057350374175801343, 316912650057057350374175801343, 316912650057057350374175801343,
     316912650057057350374175801343, 316912650057057350374175801343, 316912650057057350374175801343,
     316912650057057350374175801343, 316912650057057350374175801343, 316912650057057350374175801343,
     316912650057057350374175801343, 316912650057057350374175801343, 316912650057057350374175801343,
     316912650057057350374175801343, 316912650057057350374175801343, 174085318024506601157689344,
     316912650057057350374175801343, 316912650057057350374175801343, 174085318024506601157689344,
     316912650057057350374175801343, 316912650057057350374175801343, 316912650057057350374175801343,
     316912650057057350374175801343, 316912650057057350374175801343, 316912650057057350374175801343,
     316912650057057350374175801343, 316912650057057350374175801343, 316912650057057350374175801343,
     316912650057057350374175801343],
      [],
      [],
      [316912650057057350374175801343, 316912650057057350374175801343, 4, 316912650057057350374175801343,
     316912650057057350374175801343, 316912650057057350374175801343, 316912650057057350374175801343,
     316912650057057350374175801343, 316912650057057350374175801343, 316912650057057350374175801343,
     316912650057057350374175801343, 316912650057057350374175801343, 316912650057057350374175801343,
     316912650057057350374175801343, 316912650057057350374175801343, 316912650057057350374175801343,
     316912650057057350374175801343, 316912650057057350374175801343, 316912650057057350374175801343,
     316912650057057350374175801343, 316912650057057350374175801343, 316912650057057350374175801343,
     316912650057057350374175801343, 316912650057057350374175801343, 316912650057057350374175801343,
     316912650057057350374175801343, 316912650057057350374175801343, 316912650057057350374175801343,
     316912650057057350374175801343, 316912650057057350374175801343, 316912650057057350374175801343,
     316912650057057350374175801343, 316912650057057350374175801343, 316912650057057350374175801343,
     316912650057057350374175801343, 316912650057057350374175801343, 316912650057057350374175801343,
     316912650057057350374175801343, 316912650057057350374175801343, 316912650057057350374175801343,
     316912650057057350374175801343, 316912650057057350374175801343, 316912650057057350374175801343,
     18446752869802573824, 316912650057057350374175801343, 316912650057057350374175801343,
     316912650057057350374175801343, 316912650057057350374175801343, 316912650057057350374175801343,
     316912650057057350374175801343, 316912650057057350374175801343, 316912650057057350374175801343,
     316912650057057350374175801343, 316912650057057350374175801343, 316912650057057350374175801343,
     316912650057057350374175801343, 316912650057057350374175801343, 316912650057057350374175801343,
     316912650057057350374175801343, 316912650057057350374175801343, 316912650057057350374175801343,
     316912650057057350374175801343, 316912650057057350374175801343, 316912650057057350374175801343,
     18446752869802573824, 316912650057057350374175801343, 316912650057057350374175801343,
     316912650057057350374175801343, 316912650057057350374175801343, 316912650057057350374175801343,
     316912650057057350374175801343, 316912650057057350374175801343, 316912650057057350374175801343,
     316912650057057350374175801343, 316912650057057350374175801343, 316912650057057350374175801343,
     316912650057057350374175801343, 316912650057057350374175801343, 316912650057057350374175801343,
     316912650057057350374175801343, 316912650057057350374175801343, 316912650057057350374175801343,
     316912650057057350374175801343, 316912650057057350374175801343, 174085318024506601157689344,
     316912650057057350374175801343, 316912650057057350374175801343, 174085318024506601157689344,
     316912650057057350374175801343, 316912650057057350374175801343, 316912650057057350374175801343,
     316912650057057350374175801343, 316912650057057350374175801343, 316912650057057350374175801343,
     316912650057057350374175801343, 316912650057057350374175801343, 316912650057057350374175801343,
     316912650057057350374175801343],
      [],
      [],
      [],
      [316912650057057350374175801343, 316912650057057350374175801343, 4, 316912650057057350374175801343,
     316912650057057350374175801343, 316912650057057350374175801343, 316912650057057350374175801343,
     316912650057057350374175801343, 316912650057057350374175801343, 316912650057057350374175801343,
     316912650057057350374175801343, 316912650057057350374175801343, 316912650057057350374175801343,
     316912650057057350374175801343, 316912650057057350374175801343, 316912650057057350374175801343,
     316912650057057350374175801343, 316912650057057350374175801343, 316912650057057350374175801343,
     316912650057057350374175801343, 316912650057057350374175801343, 316912650057057350374175801343,
     316912650057057350374175801343, 316912650057057350374175801343, 316912650057057350374175801343,
     316912650057057350374175801343, 316912650057057350374175801343, 316912650057057350374175801343,
     316912650057057350374175801343, 316912650057057350374175801343, 316912650057057350374175801343,
     316912650057057350374175801343, 316912650057057350374175801343, 316912650057057350374175801343,
     316912650057057350374175801343, 316912650057057350374175801343, 316912650057057350374175801343,
     316912650057057350374175801343, 316912650057057350374175801343, 316912650057057350374175801343,
     316912650057057350374175801343, 316912650057057350374175801343, 316912650057057350374175801343,
     18446752869802573824, 316912650057057350374175801343, 316912650057057350374175801343,
     316912650057057350374175801343, 316912650057057350374175801343, 316912650057057350374175801343,
     316912650057057350374175801343, 316912650057057350374175801343, 316912650057057350374175801343,
     316912650057057350374175801343, 316912650057057350374175801343, 316912650057057350374175801343,
     316912650057057350374175801343, 316912650057057350374175801343, 316912650057057350374175801343,
     316912650057057350374175801343, 316912650057057350374175801343, 316912650057057350374175801343,
     316912650057057350374175801343, 316912650057057350374175801343, 316912650057057350374175801343,
     18446752869802573824, 316912650057057350374175801343, 316912650057057350374175801343,
     316912650057057350374175801343, 316912650057057350374175801343, 316912650057057350374175801343,
     316912650057057350374175801343, 316912650057057350374175801343, 316912650057057350374175801343,
     316912650057057350374175801343, 316912650057057350374175801343, 316912650057057350374175801343,
     316912650057057350374175801343, 316912650057057350374175801343, 316912650057057350374175801343,
     316912650057057350374175801343, 316912650057057350374175801343, 316912650057057350374175801343,
     316912650057057350374175801343, 316912650057057350374175801343, 174085318024506601157689344,
     316912650057057350374175801343, 316912650057057350374175801343, 174085318024506601157689344,
     316912650057057350374175801343, 316912650057057350374175801343, 316912650057057350374175801343,
     316912650057057350374175801343, 316912650057057350374175801343, 316912650057057350374175801343,
     316912650057057350374175801343, 316912650057057350374175801343, 316912650057057350374175801343,
     316912650057057350374175801343],
      [],
      [],
      [316912650057057350374175801343, 316912650057057350374175801343, 2449958198313025540,
     316912650057057350374175801343, 316912650057057350374175801343, 316912650057057350374175801343,
     316912650057057350374175801343, 316912650057057350374175801343, 316912650057057350374175801343,
     316912650057057350374175801343, 316912650057057350374175801343, 316912650057057350374175801343,
     316912650057057350374175801343, 316912650057057350374175801343, 316912650057057350374175801343,
     316912650057057350374175801343, 316912650057057350374175801343, 316912650057057350374175801343,
     316912650057057350374175801343, 316912650057057350374175801343, 316912650057057350374175801343,
     316912650057057350374175801343, 316912650057057350374175801343, 316912650057057350374175801343,
     316912650057057350374175801343, 316912650057057350374175801343, 316912650057057350374175801343,
     316912650057057350374175801343, 316912650057057350374175801343, 316912650057057350374175801343,
     316912650057057350374175801343, 316912650057057350374175801343, 316912650057057350374175801343,
     316912650057057350374175801343, 316912650057057350374175801343, 316912650057057350374175801343,
     316912650057057350374175801343, 316912650057057350374175801343, 316912650057057350374175801343,
     316912650057057350374175801343, 316912650057057350374175801343, 316912650057057350374175801343,
     316912650057057350374175801343, 316912650057057350374175801343, 316912650057057350374175801343,
     316912650057057350374175801343, 316912650057057350374175801343, 316912650057057350374175801343,
     316912650057057350374175801343, 316912650057057350374175801343, 316912650057057350374175801343,
     316912650057057350374175801343, 316912650057057350374175801343, 316912650057057350374175801343,
     316912650057057350374175801343, 316912650057057350374175801343, 316912650057057350374175801343,
     316912650057057350374175801343, 316912650057057350374175801343, 316912650057057350374175801343,
     316912650057057350374175801343, 316912650057057350374175801343, 316912650057057350374175801343,
     316912650057057350374175801343, 316912650057057350374175801343, 316912650057057350374175801343,
     316912650057057350374175801343, 316912650057057350374175801343, 316912650057057350374175801343,
     316912650057057350374175801343, 316912650057057350374175801343, 316912650057057350374175801343,
     316912650057057350374175801343, 316912650057057350374175801343, 316912650057057350374175801343,
     316912650057057350374175801343, 316912650057057350374175801343, 316912650057057350374175801343,
     316912650057057350374175801343, 316912650057057350374175801343, 316912650057057350374175801343,
     316912650057057350374175801343, 316912650057057350374175801343, 316912650057057350374175801343,
     316912650057057350374175801343, 316912650057057350374175801343, 316912650057057350374175801343,
     316912650057057350374175801343, 316912650057057350374175801343, 316912650057057350374175801343,
     316912650057057350374175801343, 316912650057057350374175801343, 316912650057057350374175801343,
     316912650057057350374175801343, 316912650057057350374175801343, 316912650057057350374175801343,
     316912650057057350374175801343, 316912650057057350374175801343],
      [],
      [],
      [316912650057057350374175801343, 316912650057057350374175801343, 316912650057057350374175801343,
     316912650057057350374175801343, 316912650057057350374175801343, 316912650057057350374175801343,
     316912650057057350374175801343, 316912650057057350374175801343, 316912650057057350374175801343, 4,
     316912650057057350374175801343, 316912650057057350374175801343, 316912650057057350374175801343,
     316912650057057350374175801343, 316912650057057350374175801343, 316912650057057350374175801343,
     316912650057057350374175801343, 316912650057057350374175801343, 316912650057057350374175801343,
     316912650057057350374175801343, 316912650057057350374175801343, 316912650057057350374175801343,
     316912650057057350374175801343, 316912650057057350374175801343, 316912650057057350374175801343,
     316912650057057350374175801343, 316912650057057350374175801343, 316912650057057350374175801343,
     316912650057057350374175801343, 316912650057057350374175801343, 316912650057057350374175801343,
     316912650057057350374175801343, 316912650057057350374175801343, 316912650057057350374175801343,
     316912650057057350374175801343, 316912650057057350374175801343, 316912650057057350374175801343,
     316912650057057350374175801343, 316912650057057350374175801343, 316912650057057350374175801343,
     316912650057057350374175801343, 316912650057057350374175801343, 316912650057057350374175801343,
     316912650057057350374175801343, 316912650057057350374175801343, 316912650057057350374175801343,
     316912650057057350374175801343, 316912650057057350374175801343, 316912650057057350374175801343,
     316912650057057350374175801343, 316912650057057350374175801343, 316912650057057350374175801343,
     316912650057057350374175801343, 316912650057057350374175801343, 316912650057057350374175801343,
     316912650057057350374175801343, 316912650057057350374175801343, 316912650057057350374175801343,
     316912650057057350374175801343, 316912650057057350374175801343, 316912650057057350374175801343,
     316912650057057350374175801343, 316912650057057350374175801343, 316912650057057350374175801343,
     316912650057057350374175801343, 316912650057057350374175801343, 316912650057057350374175801343,
     316912650057057350374175801343, 316912650057057350374175801343, 316912650057057350374175801343,
     316912650057057350374175801343, 316912650057057350374175801343, 316912650057057350374175801343,
     316912650057057350374175801343, 316912650057057350374175801343, 316912650057057350374175801343,
     316912650057057350374175801343, 316912650057057350374175801343, 316912650057057350374175801343,
     316912650057057350374175801343, 316912650057057350374175801343, 316912650057057350374175801343,
     316912650057057350374175801343, 316912650057057350374175801343, 316912650057057350374175801343,
     316912650057057350374175801343, 316912650057057350374175801343, 316912650057057350374175801343,
     316912650057057350374175801343, 316912650057057350374175801343, 316912650057057350374175801343,
     316912650057057350374175801343, 316912650057057350374175801343, 316912650057057350374175801343,
     316912650057057350374175801343, 316912650057057350374175801343, 316912650057057350374175801343,
     316912650057057350374175801343],
      [],
      [],
      [],
      [316912650057057350374175801343, 316912650057057350374175801343, 316912650057057350374175801343,
     316912650057057350374175801343, 316912650057057350374175801343, 316912650057057350374175801343,
     316912650057057350374175801343, 316912650057057350374175801343, 316912650057057350374175801343,
     316912650057057350374175801343, 316912650057057350374175801343, 316912650057057350374175801343,
     316912650057057350374175801343, 2449958198313025540, 316912650057057350374175801343,
     316912650057057350374175801343, 316912650057057350374175801343, 316912650057057350374175801343,
     316912650057057350374175801343, 316912650057057350374175801343, 316912650057057350374175801343,
     316912650057057350374175801343, 316912650057057350374175801343, 316912650057057350374175801343,
     316912650057057350374175801343, 316912650057057350374175801343, 316912650057057350374175801343,
     316912650057057350374175801343, 316912650057057350374175801343, 316912650057057350374175801343,
     316912650057057350374175801343, 316912650057057350374175801343, 316912650057057350374175801343,
     316912650057057350374175801343, 316912650057057350374175801343, 316912650057057350374175801343,
     316912650057057350374175801343, 316912650057057350374175801343, 316912650057057350374175801343,
     316912650057057350374175801343, 316912650057057350374175801343, 316912650057057350374175801343,
     316912650057057350374175801343, 316912650057057350374175801343, 316912650057057350374175801343,
     316912650057057350374175801343, 316912650057057350374175801343, 316912650057057350374175801343,
     316912650057057350374175801343, 316912650057057350374175801343, 316912650057057350374175801343,
     316912650057057350374175801343, 316912650057057350374175801343, 316912650057057350374175801343,
     316912650057057350374175801343, 316912650057057350374175801343, 316912650057057350374175801343,
     316912650057057350374175801343, 316912650057057350374175801343, 316912650057057350374175801343,
     316912650057057350374175801343, 316912650057057350374175801343, 316912650057057350374175801343,
     316912650057057350374175801343, 316912650057057350374175801343, 316912650057057350374175801343,
     316912650057057350374175801343, 316912650057057350374175801343, 316912650057057350374175801343,
     316912650057057350374175801343, 316912650057057350374175801343, 316912650057057350374175801343,
     316912650057057350374175801343, 316912650057057350374175801343, 316912650057057350374175801343,
     316912650057057350374175801343, 316912650057057350374175801343, 316912650057057350374175801343,
     316912650057057350374175801343, 316912650057057350374175801343, 316912650057057350374175801343,
     316912650057057350374175801343, 316912650057057350374175801343, 316912650057057350374175801343,
     316912650057057350374175801343, 316912650057057350374175801343, 316912650057057350374175801343,
     316912650057057350374175801343, 316912650057057350374175801343, 316912650057057350374175801343,
     316912650057057350374175801343, 316912650057057350374175801343, 316912650057057350374175801343,
     316912650057057350374175801343, 316912650057057350374175801343, 316912650057057350374175801343,
     316912650057057350374175801343, 316912650057057350374175801343],
      [],
      [316912650057057350374175801343, 316912650057057350374175801343, 67588, 316912650057057350374175801343,
     316912650057057350374175801343, 316912650057057350374175801343, 316912650057057350374175801343,
     316912650057057350374175801343, 316912650057057350374175801343, 316912650057057350374175801343,
     316912650057057350374175801343, 316912650057057350374175801343, 316912650057057350374175801343,
     316912650057057350374175801343, 316912650057057350374175801343, 316912650057057350374175801343,
     316912650057057350374175801343, 316912650057057350374175801343, 316912650057057350374175801343,
     316912650057057350374175801343, 316912650057057350374175801343, 316912650057057350374175801343,
     316912650057057350374175801343, 316912650057057350374175801343, 316912650057057350374175801343,
     316912650057057350374175801343, 316912650057057350374175801343, 316912650057057350374175801343,
     316912650057057350374175801343, 316912650057057350374175801343, 316912650057057350374175801343,
     316912650057057350374175801343, 316912650057057350374175801343, 316912650057057350374175801343,
     316912650057057350374175801343, 316912650057057350374175801343, 316912650057057350374175801343,
     316912650057057350374175801343, 316912650057057350374175801343, 316912650057057350374175801343,
     316912650057057350374175801343, 316912650057057350374175801343, 316912650057057350374175801343,
     316912650057057350374175801343, 316912650057057350374175801343, 316912650057057350374175801343,
     316912650057057350374175801343, 316912650057057350374175801343, 316912650057057350374175801343,
     316912650057057350374175801343, 316912650057057350374175801343, 316912650057057350374175801343,
     316912650057057350374175801343, 316912650057057350374175801343, 316912650057057350374175801343,
     316912650057057350374175801343, 316912650057057350374175801343, 316912650057057350374175801343,
     316912650057057350374175801343, 316912650057057350374175801343, 316912650057057350374175801343,
     316912650057057350374175801343, 316912650057057350374175801343, 316912650057057350374175801343,
     316912650057057350374175801343, 316912650057057350374175801343, 316912650057057350374175801343,
     316912650057057350374175801343, 316912650057057350374175801343, 316912650057057350374175801343,
     316912650057057350374175801343, 316912650057057350374175801343, 316912650057057350374175801343,
     316912650057057350374175801343, 316912650057057350374175801343, 316912650057057350374175801343,
     316912650057057350374175801343, 316912650057057350374175801343, 316912650057057350374175801343,
     316912650057057350374175801343, 316912650057057350374175801343, 316912650057057350374175801343,
     316912650057057350374175801343, 316912650057057350374175801343, 316912650057057350374175801343,
     316912650057057350374175801343, 316912650057057350374175801343, 316912650057057350374175801343,
     316912650057057350374175801343, 316912650057057350374175801343, 316912650057057350374175801343,
     316912650057057350374175801343, 316912650057057350374175801343, 316912650057057350374175801343,
     316912650057057350374175801343, 316912650057057350374175801343, 316912650057057350374175801343,
     316912650057057350374175801343],
      [316912650057057350374175801343, 316912650057057350374175801343, 316912650057057350374175801343,
     316912650057057350374175801343, 316912650057057350374175801343, 316912650057057350374175801343,
     316912650057057350374175801343, 316912650057057350374175801343, 316912650057057350374175801343,
     316912650057057350374175801343, 316912650057057350374175801343, 316912650057057350374175801343,
     316912650057057350374175801343, 316912650057057350374175801343, 316912650057057350374175801343,
     316912650057057350374175801343, 316912650057057350374175801343, 316912650057057350374175801343,
     316912650057057350374175801343, 316912650057057350374175801343, 316912650057057350374175801343,
     316912650057057350374175801343, 316912650057057350374175801343, 316912650057057350374175801343,
     316912650057057350374175801343, 316912650057057350374175801343, 316912650057057350374175801343,
     316912650057057350374175801343, 316912650057057350374175801343, 316912650057057350374175801343,
     316912650057057350374175801343, 316912650057057350374175801343, 316912650057057350374175801343,
     316912650057057350374175801343, 316912650057057350374175801343, 316912650057057350374175801343,
     316912650057057350374175801343, 316912650057057350374175801343, 316912650057057350374175801343,
     316912650057057350374175801343, 316912650057057350374175801343, 316912650057057350374175801343,
     316912650057057350374175801343, 316912650057057350374175801343, 316912650057057350374175801343,
     316912650057057350374175801343, 316912650057057350374175801343, 316912650057057350374175801343,
     316912650057057350374175801343, 316912650057057350374175801343, 316912650057057350374175801343,
     316912650057057350374175801343, 316912650057057350374175801343, 316912650057057350374175801343,
     316912650057057350374175801343, 316912650057057350374175801343, 316912650057057350374175801343,
     316912650057057350374175801343, 316912650057057350374175801343, 316912650057057350374175801343,
     316912650057057350374175801343, 316912650057057350374175801343, 316912650057057350374175801343,
     316912650057057350374175801343, 316912650057057350374175801343, 316912650057057350374175801343,
     316912650057057350374175801343, 316912650057057350374175801343, 316912650057057350374175801343,
     316912650057057350374175801343, 316912650057057350374175801343, 316912650057057350374175801343,
     316912650057057350374175801343, 316912650057057350374175801343, 174104207490438079738544128,
     316912650057057350374175801343, 316912650057057350374175801343, 316912650057057350374175801343,
     316912650057057350374175801343, 316912650057057350374175801343, 316912650057057350374175801343,
     316912650057057350374175801343, 316912650057057350374175801343, 316912650057057350374175801343,
     174104207490438079738544128, 316912650057057350374175801343, 316912650057057350374175801343,
     174104207490438079738544128, 316912650057057350374175801343, 316912650057057350374175801343,
     316912650057057350374175801343, 316912650057057350374175801343, 316912650057057350374175801343,
     316912650057057350374175801343, 316912650057057350374175801343, 316912650057057350374175801343,
     316912650057057350374175801343, 316912650057057350374175801343],
      [],
      [],
      [],
      [],
      [316912650057057350374175801343, 316912650057057350374175801343, 2449958198313025540,
     316912650057057350374175801343, 316912650057057350374175801343, 316912650057057350374175801343,
     316912650057057350374175801343, 316912650057057350374175801343, 316912650057057350374175801343,
     316912650057057350374175801343, 316912650057057350374175801343, 316912650057057350374175801343,
     316912650057057350374175801343, 316912650057057350374175801343, 316912650057057350374175801343,
     316912650057057350374175801343, 2449958198313025540, 316912650057057350374175801343,
     316912650057057350374175801343, 316912650057057350374175801343, 316912650057057350374175801343,
     316912650057057350374175801343, 316912650057057350374175801343, 316912650057057350374175801343,
     2449958198313025540, 316912650057057350374175801343, 2449958198313025540, 2449958198313025540,
     2449958198313025540, 2449958198313025540, 316912650057057350374175801343, 316912650057057350374175801343,
     316912650057057350374175801343, 316912650057057350374175801343, 316912650057057350374175801343,
     316912650057057350374175801343, 316912650057057350374175801343, 316912650057057350374175801343,
     316912650057057350374175801343, 316912650057057350374175801343, 316912650057057350374175801343,
     316912650057057350374175801343, 316912650057057350374175801343, 316912650057057350374175801343,
     316912650057057350374175801343, 316912650057057350374175801343, 316912650057057350374175801343,
     316912650057057350374175801343, 316912650057057350374175801343, 316912650057057350374175801343,
     316912650057057350374175801343, 316912650057057350374175801343, 316912650057057350374175801343,
     316912650057057350374175801343, 316912650057057350374175801343, 316912650057057350374175801343,
     316912650057057350374175801343, 2449958198313025540, 316912650057057350374175801343,
     316912650057057350374175801343, 316912650057057350374175801343, 2449958198313025540,
     316912650057057350374175801343, 316912650057057350374175801343, 316912650057057350374175801343,
     316912650057057350374175801343, 316912650057057350374175801343, 316912650057057350374175801343,
     316912650057057350374175801343, 316912650057057350374175801343, 316912650057057350374175801343,
     316912650057057350374175801343, 316912650057057350374175801343, 316912650057057350374175801343,
     316912650057057350374175801343, 316912650057057350374175801343, 316912650057057350374175801343,
     316912650057057350374175801343, 316912650057057350374175801343, 316912650057057350374175801343,
     316912650057057350374175801343, 316912650057057350374175801343, 316912650057057350374175801343,
     316912650057057350374175801343, 316912650057057350374175801343, 316912650057057350374175801343,
     316912650057057350374175801343, 316912650057057350374175801343, 316912650057057350374175801343,
     316912650057057350374175801343, 316912650057057350374175801343, 316912650057057350374175801343,
     316912650057057350374175801343, 316912650057057350374175801343, 316912650057057350374175801343,
     316912650057057350374175801343, 316912650057057350374175801343, 316912650057057350374175801343],
      [],
      [],
      [],
      [316912650057057350374175801343, 316912650057057350374175801343, 316912650057057350374175801343,
     316912650057057350374175801343, 316912650057057350374175801343, 316912650057057350374175801343,
     316912650057057350374175801343, 316912650057057350374175801343, 316912650057057350374175801343,
     316912650057057350374175801343, 316912650057057350374175801343, 316912650057057350374175801343,
     316912650057057350374175801343, 2449958198313025796, 316912650057057350374175801343,
     316912650057057350374175801343, 316912650057057350374175801343, 316912650057057350374175801343,
     316912650057057350374175801343, 316912650057057350374175801343, 316912650057057350374175801343,
     316912650057057350374175801343, 316912650057057350374175801343, 316912650057057350374175801343,
     316912650057057350374175801343, 316912650057057350374175801343, 316912650057057350374175801343,
     316912650057057350374175801343, 316912650057057350374175801343, 316912650057057350374175801343,
     316912650057057350374175801343, 316912650057057350374175801343, 316912650057057350374175801343,
     316912650057057350374175801343, 316912650057057350374175801343, 316912650057057350374175801343,
     316912650057057350374175801343, 316912650057057350374175801343, 316912650057057350374175801343,
     316912650057057350374175801343, 316912650057057350374175801343, 316912650057057350374175801343,
     316912650057057350374175801343, 316912650057057350374175801343, 316912650057057350374175801343,
     316912650057057350374175801343, 316912650057057350374175801343, 316912650057057350374175801343,
     316912650057057350374175801343, 316912650057057350374175801343, 316912650057057350374175801343,
     316912650057057350374175801343, 316912650057057350374175801343, 316912650057057350374175801343,
     316912650057057350374175801343, 316912650057057350374175801343, 316912650057057350374175801343,
     316912650057057350374175801343, 316912650057057350374175801343, 316912650057057350374175801343,
     316912650057057350374175801343, 316912650057057350374175801343, 316912650057057350374175801343,
     316912650057057350374175801343, 316912650057057350374175801343, 316912650057057350374175801343,
     316912650057057350374175801343, 316912650057057350374175801343, 316912650057057350374175801343,
     316912650057057350374175801343, 316912650057057350374175801343, 316912650057057350374175801343,
     316912650057057350374175801343, 316912650057057350374175801343, 316912650057057350374175801343,
     316912650057057350374175801343, 316912650057057350374175801343, 316912650057057350374175801343,
     316912650057057350374175801343, 316912650057057350374175801343, 316912650057057350374175801343,
     316912650057057350374175801343, 316912650057057350374175801343, 316912650057057350374175801343,
     316912650057057350374175801343, 316912650057057350374175801343, 316912650057057350374175801343,
     316912650057057350374175801343, 316912650057057350374175801343, 316912650057057350374175801343,
     316912650057057350374175801343, 316912650057057350374175801343, 316912650057057350374175801343,
     316912650057057350374175801343, 316912650057057350374175801343, 316912650057057350374175801343,
     316912650057057350374175801343, 316912650057057350374175801343],
      [],
      [316912650057057350374175801343, 316912650057057350374175801343, 4, 316912650057057350374175801343,
     316912650057057350374175801343, 316912650057057350374175801343, 316912650057057350374175801343,
     316912650057057350374175801343, 316912650057057350374175801343, 316912650057057350374175801343,
     316912650057057350374175801343, 316912650057057350374175801343, 316912650057057350374175801343,
     316912650057057350374175801343, 316912650057057350374175801343, 316912650057057350374175801343, 4,
     316912650057057350374175801343, 316912650057057350374175801343, 316912650057057350374175801343,
     316912650057057350374175801343, 316912650057057350374175801343, 316912650057057350374175801343,
     316912650057057350374175801343, 316912650057057350374175801343, 316912650057057350374175801343,
     316912650057057350374175801343, 316912650057057350374175801343, 4, 316912650057057350374175801343,
     316912650057057350374175801343, 316912650057057350374175801343, 316912650057057350374175801343,
     316912650057057350374175801343, 316912650057057350374175801343, 316912650057057350374175801343,
     316912650057057350374175801343, 316912650057057350374175801343, 316912650057057350374175801343,
     316912650057057350374175801343, 316912650057057350374175801343, 316912650057057350374175801343,
     316912650057057350374175801343, 316912650057057350374175801343, 316912650057057350374175801343,
     316912650057057350374175801343, 316912650057057350374175801343, 316912650057057350374175801343,
     316912650057057350374175801343, 316912650057057350374175801343, 316912650057057350374175801343,
     316912650057057350374175801343, 316912650057057350374175801343, 316912650057057350374175801343,
     316912650057057350374175801343, 316912650057057350374175801343, 316912650057057350374175801343,
     316912650057057350374175801343, 316912650057057350374175801343, 316912650057057350374175801343,
     316912650057057350374175801343, 316912650057057350374175801343, 316912650057057350374175801343,
     316912650057057350374175801343, 316912650057057350374175801343, 316912650057057350374175801343,
     316912650057057350374175801343, 316912650057057350374175801343, 316912650057057350374175801343,
     316912650057057350374175801343, 316912650057057350374175801343, 316912650057057350374175801343,
     316912650057057350374175801343, 316912650057057350374175801343, 316912650057057350374175801343,
     316912650057057350374175801343, 316912650057057350374175801343, 316912650057057350374175801343,
     316912650057057350374175801343, 316912650057057350374175801343, 316912650057057350374175801343,
     316912650057057350374175801343, 316912650057057350374175801343, 316912650057057350374175801343,
     316912650057057350374175801343, 316912650057057350374175801343, 316912650057057350374175801343,
     316912650057057350374175801343, 316912650057057350374175801343, 316912650057057350374175801343,
     316912650057057350374175801343, 316912650057057350374175801343, 316912650057057350374175801343,
     316912650057057350374175801343, 316912650057057350374175801343, 316912650057057350374175801343,
     316912650057057350374175801343, 316912650057057350374175801343],
      [],
      [316912650057057350374175801343, 316912650057057350374175801343, 4, 316912650057057350374175801343,
     316912650057057350374175801343, 316912650057057350374175801343, 4, 316912650057057350374175801343,
     316912650057057350374175801343, 316912650057057350374175801343, 316912650057057350374175801343,
     316912650057057350374175801343, 316912650057057350374175801343, 316912650057057350374175801343,
     316912650057057350374175801343, 316912650057057350374175801343, 316912650057057350374175801343,
     316912650057057350374175801343, 316912650057057350374175801343, 316912650057057350374175801343,
     316912650057057350374175801343, 316912650057057350374175801343, 316912650057057350374175801343,
     316912650057057350374175801343, 316912650057057350374175801343, 316912650057057350374175801343,
     316912650057057350374175801343, 316912650057057350374175801343, 316912650057057350374175801343,
     316912650057057350374175801343, 316912650057057350374175801343, 316912650057057350374175801343,
     316912650057057350374175801343, 316912650057057350374175801343, 316912650057057350374175801343,
     316912650057057350374175801343, 316912650057057350374175801343, 316912650057057350374175801343,
     316912650057057350374175801343, 316912650057057350374175801343, 316912650057057350374175801343,
     316912650057057350374175801343, 316912650057057350374175801343, 316912650057057350374175801343,
     316912650057057350374175801343, 316912650057057350374175801343, 316912650057057350374175801343,
     316912650057057350374175801343, 316912650057057350374175801343, 316912650057057350374175801343,
     316912650057057350374175801343, 4, 316912650057057350374175801343, 316912650057057350374175801343,
     316912650057057350374175801343, 316912650057057350374175801343, 316912650057057350374175801343,
     316912650057057350374175801343, 316912650057057350374175801343, 316912650057057350374175801343,
     316912650057057350374175801343, 316912650057057350374175801343, 316912650057057350374175801343,
     316912650057057350374175801343, 316912650057057350374175801343, 316912650057057350374175801343,
     316912650057057350374175801343, 316912650057057350374175801343, 316912650057057350374175801343,
     316912650057057350374175801343, 316912650057057350374175801343, 316912650057057350374175801343,
     316912650057057350374175801343, 316912650057057350374175801343, 316912650057057350374175801343,
     316912650057057350374175801343, 316912650057057350374175801343, 316912650057057350374175801343,
     316912650057057350374175801343, 316912650057057350374175801343, 316912650057057350374175801343,
     316912650057057350374175801343, 316912650057057350374175801343, 316912650057057350374175801343,
     316912650057057350374175801343, 316912650057057350374175801343, 316912650057057350374175801343,
     316912650057057350374175801343, 316912650057057350374175801343, 316912650057057350374175801343,
     316912650057057350374175801343, 316912650057057350374175801343, 316912650057057350374175801343,
     316912650057057350374175801343, 316912650057057350374175801343, 316912650057057350374175801343,
     316912650057057350374175801343, 316912650057057350374175801343],
      [],
      [316912650057057350374175801343, 316912650057057350374175801343, 4, 316912650057057350374175801343,
     316912650057057350374175801343, 316912650057057350374175801343, 316912650057057350374175801343,
     316912650057057350374175801343, 4, 316912650057057350374175801343, 316912650057057350374175801343,
     316912650057057350374175801343, 316912650057057350374175801343, 316912650057057350374175801343,
     316912650057057350374175801343, 316912650057057350374175801343, 4, 316912650057057350374175801343,
     316912650057057350374175801343, 316912650057057350374175801343, 316912650057057350374175801343,
     316912650057057350374175801343, 316912650057057350374175801343, 316912650057057350374175801343, 4,
     316912650057057350374175801343, 4, 4, 4, 4, 316912650057057350374175801343, 316912650057057350374175801343,
     316912650057057350374175801343, 316912650057057350374175801343, 316912650057057350374175801343,
     316912650057057350374175801343, 316912650057057350374175801343, 316912650057057350374175801343,
     316912650057057350374175801343, 316912650057057350374175801343, 316912650057057350374175801343,
     316912650057057350374175801343, 316912650057057350374175801343, 316912650057057350374175801343,
     316912650057057350374175801343, 316912650057057350374175801343, 316912650057057350374175801343,
     316912650057057350374175801343, 316912650057057350374175801343, 316912650057057350374175801343,
     316912650057057350374175801343, 316912650057057350374175801343, 316912650057057350374175801343,
     316912650057057350374175801343, 316912650057057350374175801343, 316912650057057350374175801343,
     316912650057057350374175801343, 4, 316912650057057350374175801343, 316912650057057350374175801343,
     316912650057057350374175801343, 4, 316912650057057350374175801343, 316912650057057350374175801343,
     316912650057057350374175801343, 316912650057057350374175801343, 316912650057057350374175801343,
     316912650057057350374175801343, 316912650057057350374175801343, 316912650057057350374175801343,
     316912650057057350374175801343, 316912650057057350374175801343, 316912650057057350374175801343,
     316912650057057350374175801343, 316912650057057350374175801343, 316912650057057350374175801343,
     316912650057057350374175801343, 316912650057057350374175801343, 316912650057057350374175801343,
     316912650057057350374175801343, 316912650057057350374175801343, 316912650057057350374175801343,
     316912650057057350374175801343, 316912650057057350374175801343, 316912650057057350374175801343,
     316912650057057350374175801343, 316912650057057350374175801343, 316912650057057350374175801343,
     316912650057057350374175801343, 316912650057057350374175801343, 316912650057057350374175801343,
     316912650057057350374175801343, 316912650057057350374175801343, 316912650057057350374175801343,
     316912650057057350374175801343, 316912650057057350374175801343, 316912650057057350374175801343,
     316912650057057350374175801343],
      [],
      [],
      [],
      [],
      [316912650057057350374175801343, 316912650057057350374175801343, 2449958198313025540,
     316912650057057350374175801343, 316912650057057350374175801343, 316912650057057350374175801343,
     316912650057057350374175801343, 316912650057057350374175801343, 2449958198313025540,
     316912650057057350374175801343, 316912650057057350374175801343, 316912650057057350374175801343,
     316912650057057350374175801343, 316912650057057350374175801343, 316912650057057350374175801343,
     316912650057057350374175801343, 316912650057057350374175801343, 316912650057057350374175801343,
     316912650057057350374175801343, 316912650057057350374175801343, 316912650057057350374175801343,
     316912650057057350374175801343, 316912650057057350374175801343, 316912650057057350374175801343,
     316912650057057350374175801343, 316912650057057350374175801343, 316912650057057350374175801343,
     316912650057057350374175801343, 316912650057057350374175801343, 316912650057057350374175801343,
     316912650057057350374175801343, 316912650057057350374175801343, 316912650057057350374175801343,
     316912650057057350374175801343, 316912650057057350374175801343, 316912650057057350374175801343,
     316912650057057350374175801343, 316912650057057350374175801343, 316912650057057350374175801343,
     316912650057057350374175801343, 316912650057057350374175801343, 316912650057057350374175801343,
     316912650057057350374175801343, 316912650057057350374175801343, 316912650057057350374175801343,
     316912650057057350374175801343, 316912650057057350374175801343, 316912650057057350374175801343,
     316912650057057350374175801343, 316912650057057350374175801343, 316912650057057350374175801343,
     316912650057057350374175801343, 316912650057057350374175801343, 316912650057057350374175801343,
     316912650057057350374175801343, 316912650057057350374175801343, 316912650057057350374175801343,
     316912650057057350374175801343, 316912650057057350374175801343, 316912650057057350374175801343,
     316912650057057350374175801343, 316912650057057350374175801343, 316912650057057350374175801343,
     316912650057057350374175801343, 316912650057057350374175801343, 316912650057057350374175801343,
     316912650057057350374175801343, 316912650057057350374175801343, 316912650057057350374175801343,
     316912650057057350374175801343, 316912650057057350374175801343, 316912650057057350374175801343,
     316912650057057350374175801343, 316912650057057350374175801343, 316912650057057350374175801343,
     316912650057057350374175801343, 316912650057057350374175801343, 316912650057057350374175801343,
     316912650057057350374175801343, 316912650057057350374175801343, 316912650057057350374175801343,
     316912650057057350374175801343, 316912650057057350374175801343, 316912650057057350374175801343,
     316912650057057350374175801343, 316912650057057350374175801343, 316912650057057350374175801343,
     316912650057057350374175801343, 316912650057057350374175801343, 316912650057057350374175801343,
     316912650057057350374175801343, 316912650057057350374175801343, 316912650057057350374175801343,
     316912650057057350374175801343, 316912650057057350374175801343, 316912650057057350374175801343,
     316912650057057350374175801343, 316912650057057350374175801343],
      [],
      [],
      [],
      [],
      [],
      [],
      [],
      [],
      []]

/-- for each state, the states with which it has no continuation in common -/
def sixteenthPassDoomed : List Nat :=
  [316912650057057350374175801343, 316912650057057350374175801341, 281631585611025323802591002627,
     281631585611025323802591002627, 281670271241864677954608992387, 281675106945183668867962540163,
     81089983908157597949687758851, 96509605981629001579333840435, 286972928063518005433753960451,
     287011613694357922535725371523, 281670271241864677954608992387, 281670271241864677954608992387,
     116317855538329550840009748019, 287011613694357922535725371523, 287014050509249496550974591107,
     116317855538538968222685687615, 281631585611025323803664744451, 316912650054533082760531988611,
     295682578575693882185368122243, 315674634459908243909000822783, 316912650057047217275013136191,
     297104360362301988022427497347, 281708956872704032106626973699, 316912649980746099885929844963,
     291615501715762676101285711875, 287014050509267511023390068867, 296877053873728805649791094787,
     281636422568722929904495661059, 296877052988285090110658875395, 296877053873728805649791094787,
     315674633574246104046306063235, 296881948680393965830550769667, 296877053873728805649791094787,
     237065517523150322497153400831, 286897970004899019812195045379, 316912650056985292745773872003,
     296920594172842988650542838659, 316912650057057350228146913279, 316912650057057350099297107967,
     316912650056985292230377796483, 286936679249876633529081565315, 296915757508590375744445517955,
     287011633469267569554512318595, 287014031619225118716454408323, 316912645334618792318285575043,
     281752501893058246746889162883, 287014050509249496550974591107, 311496358622142319016210789251,
     287016469248656863977988329603, 287014050509267796891229139587, 116317855538538968222685687615,
     281631585611025341978892599299, 316912650056834422123896959907, 316912650057047217275013136191,
     297099524582948716881242919043, 316912650056802896995223008227, 281631585611601784554894426115,
     281631585611025341978892599299, 311496358622142319016210789251, 296920634313034759789308736387,
     86428927397891513780805435395, 296877052988285090111699062787, 96509605981638008778589630003,
     316835278795160216371386577795, 281752483003033868912368980099, 311496358622142319016210789251,
     316907814277449626970721538243, 287014050511573356231627018371, 281752501893076547090985685123,
     287014050509267796895071113347, 311496358622142319016361784195, 287014050509249496550974591107,
     316912645334472425313081947011, 287014050508691050195035263107, 316738545828595891810991001731,
     287014050509249496550974591107, 315674634459908244183878729727, 116317855538547975421941477183,
     311496358622142319016210789251, 287014050511573356231627018371, 286975364877833681644505698307,
     287014050511573642104650249091, 316907814277449626970729926883, 86428927397891513780805435395,
     287014031619225118716454408323, 96509605981638008778589630003, 316835278795160216371386577795,
     281752483003033868912368980099, 311496358622142319016210789251, 237065517523150322634592354303,
     315674634459908244183878729727, 116317855538547975421941477183, 311496358622142319016210789251,
     287014050511573356231627018371, 286975364877833681644505698307, 116317855538547975421941477183,
     237065517523150322634592354303, 116317855538547975421941477183]

/-- the states where programs end -/
def sixteenthPassFinal : Nat := 2449958198313025796

/-! The states: SINK, START, LIB, LIBB, LIBC, LIBE, LIBL, LIBW, CON, LIBBC, LIBBW, CONB, CONC, CONE, CONW, COM, CONBC, CONBW, CONL, COMB, COMC, COME, COMW, COMBC, COMBW, COML -/

/-- for each state, the next state for each terminal -/
def seventeenthPassSteps : List (List Nat) :=
  [[0, 0, 0, 0, 0, 0, 0, 0, 0, 0, 0, 0, 0, 0, 0, 0, 0, 0, 0, 0, 0, 0, 0, 0, 0, 0, 0, 0, 0, 0, 0, 0, 0, 0, 0, 0, 0, 0,
     0, 0, 0, 0, 0, 0, 0, 0, 0, 0, 0, 0, 0, 0, 0, 0, 0, 0, 0, 0, 0],
      [0, 0, 0, 0, 0, 0, 0, 0, 0, 0, 0, 0, 0, 0, 0, 0, 0, 0, 0, 0, 0, 0, 0, 0, 0, 0, 0, 0, 0, 0, 0, 0, 0, 0, 0, 0, 0,
     0, 0, 0, 0, 0, 0, 0, 2, 0, 0, 0, 0, 0, 0, 0, 0, 0, 0, 0, 0, 0, 0],
      [2, 2, 0, 2, 2, 2, 2, 2, 2, 2, 3, 2, 4, 5, 2, 5, 2, 2, 2, 2, 2, 2, 2, 2, 2, 2, 6, 5, 2, 7, 2, 2, 2, 8, 0, 2, 2,
     2, 0, 2, 2, 2, 2, 2, 0, 2, 2, 2, 0, 2, 2, 2, 2, 2, 2, 2, 2, 2, 2],
      [3, 3, 3, 3, 3, 3, 3, 3, 3, 3, 3, 2, 9, 3, 3, 3, 3, 3, 3, 3, 3, 3, 3, 3, 3, 3, 0, 3, 3, 10, 3, 3, 3, 0, 3, 3, 3,
     3, 0, 3, 3, 3, 3, 3, 0, 3, 3, 3, 3, 3, 3, 3, 3, 3, 3, 3, 3, 3, 3],
      [0, 0, 0, 0, 0, 0, 0, 0, 0, 0, 0, 0, 0, 0, 0, 0, 0, 0, 0, 0, 0, 0, 0, 0, 0, 0, 0, 0, 0, 0, 2, 0, 0, 0, 0, 0, 0,
     0, 2, 0, 0, 0, 0, 0, 0, 0, 0, 0, 0, 0, 0, 0, 0, 0, 0, 0, 0, 0, 0],
      [2, 2, 0, 2, 2, 2, 2, 2, 2, 2, 3, 2, 0, 5, 2, 5, 2, 2, 2, 2, 2, 2, 2, 2, 2, 2, 6, 5, 2, 7, 2, 2, 2, 0, 0, 2, 2,
     2, 0, 2, 2, 2, 2, 2, 0, 2, 2, 2, 0, 2, 2, 2, 2, 2, 2, 2, 2, 2, 2],
      [0, 0, 0, 0, 0, 0, 0, 0, 0, 0, 0, 0, 0, 0, 0, 0, 0, 0, 0, 0, 0, 0, 0, 0, 0, 0, 0, 0, 0, 0, 0, 0, 0, 0, 0, 0, 0,
     0, 0, 0, 0, 0, 0, 0, 0, 0, 0, 0, 0, 0, 0, 0, 0, 0, 0, 2, 0, 0, 0],
      [2, 2, 0, 2, 2, 2, 2, 2, 2, 2, 3, 2, 0, 5, 2, 5, 2, 2, 2, 2, 2, 2, 2, 2, 2, 2, 6, 5, 2, 7, 2, 2, 2, 4, 0, 2, 2,
     2, 0, 2, 2, 2, 2, 2, 0, 2, 2, 2, 0, 2, 2, 2, 2, 2, 2, 2, 2, 2, 2],
      [8, 8, 0, 8, 8, 8, 8, 8, 8, 8, 11, 8, 12, 13, 8, 13, 8, 8, 8, 8, 8, 8, 8, 8, 8, 8, 0, 13, 8, 14, 8, 8, 8, 0, 15,
     8, 8, 8, 8, 8, 8, 8, 8, 8, 0, 8, 8, 8, 15, 8, 8, 8, 8, 8, 8, 8, 8, 8, 8],
      [0, 0, 0, 0, 0, 0, 0, 0, 0, 0, 0, 2, 0, 0, 0, 0, 0, 0, 0, 0, 0, 0, 0, 0, 0, 0, 0, 0, 0, 0, 3, 0, 0, 0, 0, 0, 0,
     0, 3, 0, 0, 0, 0, 0, 0, 0, 0, 0, 0, 0, 0, 0, 0, 0, 0, 3, 0, 0, 0],
      [3, 3, 0, 3, 3, 3, 3, 3, 3, 3, 3, 2, 9, 3, 3, 3, 3, 3, 3, 3, 3, 3, 3, 3, 3, 3, 0, 3, 3, 10, 3, 3, 3, 9, 3, 3, 3,
     3, 0, 3, 3, 3, 3, 3, 0, 3, 3, 3, 3, 3, 3, 3, 3, 3, 3, 3, 3, 3, 3],
      [11, 11, 11, 11, 11, 11, 11, 11, 11, 11, 11, 8, 16, 11, 11, 11, 11, 11, 11, 11, 11, 11, 11, 11, 11, 11, 0, 11,
     11, 17, 11, 11, 11, 0, 11, 11, 11, 11, 0, 11, 11, 11, 11, 11, 0, 11, 11, 11, 11, 11, 11, 11, 11, 11, 11, 11, 11,
     11, 11],
      [0, 0, 0, 0, 0, 0, 0, 0, 0, 0, 0, 0, 0, 0, 0, 0, 0, 0, 0, 0, 0, 0, 0, 0, 0, 0, 0, 0, 0, 0, 8, 0, 0, 0, 0, 0, 0,
     0, 8, 0, 0, 0, 0, 0, 0, 0, 0, 0, 0, 0, 0, 0, 0, 0, 0, 8, 0, 0, 0],
      [8, 8, 0, 8, 8, 8, 8, 8, 8, 8, 11, 8, 0, 13, 8, 13, 8, 8, 8, 8, 8, 8, 8, 8, 8, 8, 18, 13, 8, 14, 8, 8, 8, 0, 15,
     8, 8, 8, 8, 8, 8, 8, 8, 8, 0, 8, 8, 8, 15, 8, 8, 8, 8, 8, 8, 8, 8, 8, 8],
      [8, 8, 0, 8, 8, 8, 8, 8, 8, 8, 11, 8, 0, 13, 8, 13, 8, 8, 8, 8, 8, 8, 8, 8, 8, 8, 18, 13, 8, 14, 8, 8, 8, 12,
     15, 8, 8, 8, 8, 8, 8, 8, 8, 8, 0, 8, 8, 8, 15, 8, 8, 8, 8, 8, 8, 8, 8, 8, 8],
      [15, 15, 15, 15, 15, 15, 15, 15, 15, 15, 19, 15, 20, 21, 15, 21, 15, 15, 15, 15, 15, 15, 15, 15, 15, 15, 0, 21,
     15, 22, 15, 15, 15, 0, 15, 15, 15, 15, 0, 15, 15, 15, 15, 15, 0, 15, 15, 15, 15, 15, 15, 15, 15, 15, 15, 15, 15,
     15, 15],
      [0, 0, 0, 0, 0, 0, 0, 0, 0, 0, 0, 8, 0, 0, 0, 0, 0, 0, 0, 0, 0, 0, 0, 0, 0, 0, 0, 0, 0, 0, 11, 0, 0, 0, 0, 0, 0,
     0, 11, 0, 0, 0, 0, 0, 0, 0, 0, 0, 0, 0, 0, 0, 0, 0, 0, 11, 0, 0, 0],
      [11, 11, 0, 11, 11, 11, 11, 11, 11, 11, 11, 8, 16, 11, 11, 11, 11, 11, 11, 11, 11, 11, 11, 11, 11, 11, 0, 11,
     11, 17, 11, 11, 11, 16, 11, 11, 11, 11, 0, 11, 11, 11, 11, 11, 0, 11, 11, 11, 11, 11, 11, 11, 11, 11, 11, 11, 11,
     11, 11],
      [0, 0, 0, 0, 0, 0, 0, 0, 0, 0, 0, 0, 0, 0, 0, 0, 0, 0, 0, 0, 0, 0, 0, 0, 0, 0, 0, 0, 0, 0, 0, 0, 0, 0, 0, 0, 0,
     0, 0, 0, 0, 0, 0, 0, 0, 0, 0, 0, 0, 0, 0, 0, 0, 0, 0, 8, 0, 0, 0],
      [19, 19, 19, 19, 19, 19, 19, 19, 19, 19, 19, 15, 23, 19, 19, 19, 19, 19, 19, 19, 19, 19, 19, 19, 19, 19, 0, 19,
     19, 24, 19, 19, 19, 0, 19, 19, 19, 19, 0, 19, 19, 19, 19, 19, 0, 19, 19, 19, 19, 19, 19, 19, 19, 19, 19, 19, 19,
     19, 19],
      [0, 0, 0, 0, 0, 0, 0, 0, 0, 0, 0, 0, 0, 0, 0, 0, 0, 0, 0, 0, 0, 0, 0, 0, 0, 0, 0, 0, 0, 0, 15, 0, 0, 0, 0, 0, 0,
     0, 15, 0, 0, 0, 0, 0, 0, 0, 0, 0, 0, 0, 0, 0, 0, 0, 0, 15, 0, 0, 0],
      [15, 15, 0, 15, 15, 15, 15, 15, 15, 15, 19, 15, 0, 21, 15, 21, 15, 15, 15, 15, 15, 15, 15, 15, 15, 15, 25, 21,
     15, 22, 15, 15, 15, 0, 15, 15, 15, 15, 0, 15, 15, 15, 15, 15, 0, 15, 15, 15, 15, 15, 15, 15, 15, 15, 15, 15, 15,
     15, 15],
      [15, 15, 0, 15, 15, 15, 15, 15, 15, 15, 19, 15, 0, 21, 15, 21, 15, 15, 15, 15, 15, 15, 15, 15, 15, 15, 25, 21,
     15, 22, 15, 15, 15, 20, 15, 15, 15, 15, 0, 15, 15, 15, 15, 15, 0, 15, 15, 15, 15, 15, 15, 15, 15, 15, 15, 15, 15,
     15, 15],
      [0, 0, 0, 0, 0, 0, 0, 0, 0, 0, 0, 15, 0, 0, 0, 0, 0, 0, 0, 0, 0, 0, 0, 0, 0, 0, 0, 0, 0, 0, 19, 0, 0, 0, 0, 0,
     0, 0, 19, 0, 0, 0, 0, 0, 0, 0, 0, 0, 0, 0, 0, 0, 0, 0, 0, 19, 0, 0, 0],
      [19, 19, 0, 19, 19, 19, 19, 19, 19, 19, 19, 15, 23, 19, 19, 19, 19, 19, 19, 19, 19, 19, 19, 19, 19, 19, 0, 19,
     19, 24, 19, 19, 19, 23, 19, 19, 19, 19, 0, 19, 19, 19, 19, 19, 0, 19, 19, 19, 19, 19, 19, 19, 19, 19, 19, 19, 19,
     19, 19],
      [0, 0, 0, 0, 0, 0, 0, 0, 0, 0, 0, 0, 0, 0, 0, 0, 0, 0, 0, 0, 0, 0, 0, 0, 0, 0, 0, 0, 0, 0, 0, 0, 0, 0, 0, 0, 0,
     0, 0, 0, 0, 0, 0, 0, 0, 0, 0, 0, 0, 0, 0, 0, 0, 0, 0, 15, 0, 0, 0]]

/-- for each nonterminal and each state, the set of states (one bit each) behind it -/
def seventeenthPassSets : List (List Nat) :=
  [[67108863, 67108863, 4, 8, 67108863, 4, 67108863, 67108863, 256, 67108863, 67108863, 2048, 67108863, 256, 256,
     32768, 67108863, 67108863, 67108863, 524288, 67108863, 32768, 67108863, 67108863, 67108863, 67108863],
      [67108863, 67108863, 4, 8, 67108863, 4, 67108863, 67108863, 256, 67108863, 67108863, 2048, 67108863, 256, 256,
     32768, 67108863, 67108863, 67108863, 524288, 67108863, 32768, 67108863, 67108863, 67108863, 67108863],
      [67108863, 67108863, 4, 67108863, 67108863, 67108863, 67108863, 67108863, 67108863, 67108863, 67108863,
     67108863, 67108863, 67108863, 67108863, 67108863, 67108863, 67108863, 67108863, 67108863, 67108863, 67108863,
     67108863, 67108863, 67108863, 67108863],
      [67108863, 67108863, 4, 67108863, 67108863, 67108863, 67108863, 67108863, 67108863, 67108863, 67108863,
     67108863, 67108863, 67108863, 67108863, 67108863, 67108863, 67108863, 67108863, 67108863, 67108863, 67108863,
     67108863, 67108863, 67108863, 67108863],
      [67108863, 67108863, 4, 8, 67108863, 4, 67108863, 67108863, 256, 67108863, 67108863, 2048, 67108863, 256, 256,
     32768, 67108863, 67108863, 67108863, 524288, 67108863, 32768, 67108863, 67108863, 67108863, 67108863],
      [67108863, 67108863, 4, 8, 67108863, 4, 67108863, 67108863, 256, 67108863, 67108863, 2048, 67108863, 256, 256,
     32768, 67108863, 67108863, 67108863, 524288, 67108863, 32768, 67108863, 67108863, 67108863, 67108863],
      [67108863, 67108863, 4, 67108863, 67108863, 67108863, 67108863, 67108863, 256, 67108863, 67108863, 67108863,
     67108863, 67108863, 67108863, 32768, 67108863, 67108863, 67108863, 67108863, 67108863, 67108863, 67108863,
     67108863, 67108863, 67108863],
      [67108863, 67108863, 4, 8, 67108863, 67108863, 67108863, 67108863, 256, 67108863, 67108863, 2048, 67108863,
     67108863, 67108863, 32768, 67108863, 67108863, 67108863, 524288, 67108863, 67108863, 67108863, 67108863,
     67108863, 67108863],
      [67108863, 67108863, 4, 8, 67108863, 67108863, 67108863, 67108863, 256, 67108863, 67108863, 2048, 67108863,
     67108863, 67108863, 32768, 67108863, 67108863, 67108863, 524288, 67108863, 67108863, 67108863, 67108863,
     67108863, 67108863],
      [67108863, 67108863, 4, 8, 67108863, 67108863, 67108863, 67108863, 256, 67108863, 67108863, 2048, 67108863,
     67108863, 67108863, 32768, 67108863, 67108863, 67108863, 524288, 67108863, 67108863, 67108863, 67108863,
     67108863, 67108863],
      [67108863, 67108863, 4, 8, 67108863, 67108863, 67108863, 67108863, 256, 67108863, 67108863, 2048, 67108863,
     67108863, 67108863, 32768, 67108863, 67108863, 67108863, 524288, 67108863, 67108863, 67108863, 67108863,
     67108863, 67108863],
      [67108863, 67108863, 4, 8, 67108863, 67108863, 67108863, 67108863, 256, 67108863, 67108863, 2048, 67108863,
     67108863, 67108863, 32768, 67108863, 67108863, 67108863, 524288, 67108863, 67108863, 67108863, 67108863,
     67108863, 67108863],
      [67108863, 67108863, 67108863, 67108863, 4, 67108863, 67108863, 67108863, 67108863, 8, 67108863, 67108863, 256,
     67108863, 67108863, 67108863, 2048, 67108863, 67108863, 67108863, 32768, 67108863, 67108863, 524288, 67108863,
     67108863],
      [67108863, 67108863, 4, 8, 67108863, 67108863, 67108863, 67108863, 256, 67108863, 67108863, 2048, 67108863,
     67108863, 67108863, 32768, 67108863, 67108863, 67108863, 524288, 67108863, 67108863, 67108863, 67108863,
     67108863, 67108863],
      [67108863, 67108863, 67108863, 67108863, 4, 67108863, 67108863, 67108863, 67108863, 8, 67108863, 67108863, 256,
     67108863, 67108863, 67108863, 2048, 67108863, 67108863, 67108863, 32768, 67108863, 67108863, 524288, 67108863,
     67108863],
      [67108863, 67108863, 4, 8, 67108863, 67108863, 67108863, 67108863, 256, 67108863, 67108863, 2048, 67108863,
     67108863, 67108863, 32768, 67108863, 67108863, 67108863, 524288, 67108863, 67108863, 67108863, 67108863,
     67108863, 67108863],
      [67108863, 67108863, 4, 8, 67108863, 67108863, 67108863, 67108863, 256, 67108863, 67108863, 2048, 67108863,
     67108863, 67108863, 32768, 67108863, 67108863, 67108863, 524288, 67108863, 67108863, 67108863, 67108863,
     67108863, 67108863],
      [67108863, 67108863, 4, 8, 67108863, 67108863, 67108863, 67108863, 256, 67108863, 67108863, 2048, 67108863,
     67108863, 67108863, 32768, 67108863, 67108863, 67108863, 524288, 67108863, 67108863, 67108863, 67108863,
     67108863, 67108863],
      [67108863, 41216, 67108863, 67108863, 67108863, 67108863, 67108863, 67108863, 67108863, 67108863, 67108863,
     67108863, 67108863, 67108863, 67108863, 67108863, 67108863, 67108863, 67108863, 67108863, 67108863, 67108863,
     67108863, 67108863, 67108863, 67108863],
      [67108863, 67108863, 4, 67108863, 67108863, 67108863, 67108863, 67108863, 67108863, 67108863, 67108863,
     67108863, 67108863, 67108863, 67108863, 67108863, 67108863, 67108863, 67108863, 67108863, 67108863, 67108863,
     67108863, 67108863, 67108863, 67108863],
      [67108863, 67108863, 4, 67108863, 67108863, 67108863, 67108863, 67108863, 67108863, 67108863, 67108863,
     67108863, 67108863, 67108863, 67108863, 67108863, 67108863, 67108863, 67108863, 67108863, 67108863, 67108863,
     67108863, 67108863, 67108863, 67108863],
      [67108863, 67108863, 67108863, 67108863, 67108863, 67108863, 67108863, 67108863, 256, 67108863, 67108863,
     67108863, 256, 67108863, 67108863, 32768, 67108863, 67108863, 67108863, 67108863, 32768, 67108863, 67108863,
     67108863, 67108863, 67108863],
      [67108863, 67108863, 4, 67108863, 67108863, 67108863, 67108863, 67108863, 256, 67108863, 67108863, 67108863,
     67108863, 67108863, 67108863, 32768, 67108863, 67108863, 67108863, 67108863, 67108863, 67108863, 67108863,
     67108863, 67108863, 67108863],
      [67108863, 67108863, 4, 67108863, 67108863, 4, 67108863, 67108863, 67108863, 67108863, 67108863, 67108863,
     67108863, 67108863, 67108863, 67108863, 67108863, 67108863, 67108863, 67108863, 67108863, 67108863, 67108863,
     67108863, 67108863, 67108863],
      [67108863, 67108863, 4, 8, 67108863, 67108863, 67108863, 67108863, 256, 67108863, 67108863, 2048, 67108863,
     67108863, 67108863, 32768, 67108863, 67108863, 67108863, 524288, 67108863, 67108863, 67108863, 67108863,
     67108863, 67108863],
      [67108863, 67108863, 4, 67108863, 67108863, 67108863, 67108863, 67108863, 256, 67108863, 67108863, 67108863,
     67108863, 67108863, 67108863, 32768, 67108863, 67108863, 67108863, 67108863, 67108863, 67108863, 67108863,
     67108863, 67108863, 67108863],
      [67108863, 67108863, 67108863, 67108863, 67108863, 4, 67108863, 67108863, 67108863, 67108863, 67108863,
     67108863, 67108863, 256, 256, 67108863, 67108863, 67108863, 67108863, 67108863, 67108863, 32768, 67108863,
     67108863, 67108863, 67108863],
      [67108863, 67108863, 4, 67108863, 67108863, 67108863, 67108863, 4, 256, 67108863, 67108863, 67108863, 67108863,
     67108863, 256, 32768, 67108863, 67108863, 67108863, 67108863, 67108863, 67108863, 32768, 67108863, 67108863,
     67108863],
      [67108863, 67108863, 4, 67108863, 67108863, 67108863, 67108863, 67108863, 256, 67108863, 67108863, 67108863,
     67108863, 67108863, 67108863, 32768, 67108863, 67108863, 67108863, 67108863, 67108863, 67108863, 67108863,
     67108863, 67108863, 67108863],
      [67108863, 67108863, 4, 67108863, 67108863, 67108863, 67108863, 67108863, 256, 67108863, 67108863, 67108863,
     67108863, 67108863, 67108863, 32768, 67108863, 67108863, 67108863, 67108863, 67108863, 67108863, 67108863,
     67108863, 67108863, 67108863],
      [67108863, 67108863, 67108863, 8, 67108863, 67108863, 67108863, 67108863, 67108863, 67108863, 67108863, 2048,
     67108863, 67108863, 67108863, 67108863, 67108863, 67108863, 67108863, 524288, 67108863, 67108863, 67108863,
     67108863, 67108863, 67108863],
      [67108863, 67108863, 67108863, 8, 67108863, 67108863, 67108863, 67108863, 67108863, 67108863, 67108863, 2048,
     67108863, 67108863, 67108863, 67108863, 67108863, 67108863, 67108863, 524288, 67108863, 67108863, 67108863,
     67108863, 67108863, 67108863],
      [67108863, 67108863, 67108863, 67108863, 67108863, 4, 67108863, 67108863, 67108863, 67108863, 67108863,
     67108863, 67108863, 256, 256, 67108863, 67108863, 67108863, 67108863, 67108863, 67108863, 32768, 67108863,
     67108863, 67108863, 67108863],
      [67108863, 67108863, 67108863, 8, 67108863, 4, 67108863, 67108863, 67108863, 67108863, 67108863, 2048, 67108863,
     256, 256, 67108863, 67108863, 67108863, 67108863, 524288, 67108863, 32768, 67108863, 67108863, 67108863,
     67108863],
      [67108863, 67108863, 67108863, 67108863, 67108863, 67108863, 67108863, 67108863, 67108863, 67108863, 67108863,
     67108863, 67108863, 67108863, 67108863, 32768, 67108863, 67108863, 67108863, 67108863, 67108863, 32768, 67108863,
     67108863, 67108863, 67108863],
      [67108863, 67108863, 67108863, 67108863, 67108863, 67108863, 67108863, 67108863, 67108863, 67108863, 67108863,
     67108863, 67108863, 67108863, 67108863, 32768, 67108863, 67108863, 67108863, 67108863, 67108863, 67108863,
     67108863, 67108863, 67108863, 67108863],
      [67108863, 67108863, 67108863, 67108863, 67108863, 67108863, 67108863, 67108863, 67108863, 67108863, 67108863,
     67108863, 67108863, 67108863, 67108863, 32768, 67108863, 67108863, 67108863, 67108863, 67108863, 32768, 67108863,
     67108863, 67108863, 67108863],
      [67108863, 67108863, 67108863, 67108863, 67108863, 67108863, 67108863, 67108863, 67108863, 67108863, 67108863,
     67108863, 67108863, 67108863, 67108863, 32768, 67108863, 67108863, 67108863, 67108863, 67108863, 67108863,
     67108863, 67108863, 67108863, 67108863],
      [67108863, 67108863, 67108863, 67108863, 67108863, 67108863, 67108863, 67108863, 67108863, 67108863, 67108863,
     67108863, 67108863, 67108863, 67108863, 32768, 67108863, 67108863, 67108863, 67108863, 67108863, 32768, 67108863,
     67108863, 67108863, 67108863],
      [67108863, 67108863, 67108863, 67108863, 67108863, 67108863, 67108863, 67108863, 67108863, 67108863, 67108863,
     67108863, 67108863, 67108863, 67108863, 2129920, 67108863, 67108863, 67108863, 67108863, 67108863, 2129920,
     2129920, 67108863, 67108863, 67108863],
      [67108863, 67108863, 67108863, 67108863, 67108863, 67108863, 67108863, 67108863, 67108863, 67108863, 67108863,
     67108863, 67108863, 67108863, 67108863, 32768, 67108863, 67108863, 67108863, 67108863, 67108863, 32768, 67108863,
     67108863, 67108863, 67108863],
      [67108863, 67108863, 67108863, 67108863, 67108863, 67108863, 67108863, 67108863, 67108863, 67108863, 67108863,
     67108863, 67108863, 67108863, 67108863, 32768, 67108863, 67108863, 67108863, 67108863, 67108863, 67108863,
     67108863, 67108863, 67108863, 67108863],
      [67108863, 67108863, 67108863, 67108863, 67108863, 67108863, 67108863, 67108863, 256, 67108863, 67108863,
     67108863, 256, 67108863, 67108863, 32768, 67108863, 67108863, 67108863, 67108863, 32768, 67108863, 67108863,
     67108863, 67108863, 67108863],
      [67108863, 67108863, 67108863, 67108863, 67108863, 67108863, 67108863, 67108863, 256, 67108863, 67108863,
     67108863, 67108863, 67108863, 67108863, 32768, 67108863, 67108863, 67108863, 67108863, 67108863, 67108863,
     67108863, 67108863, 67108863, 67108863],
      [67108863, 67108863, 67108863, 67108863, 67108863, 67108863, 67108863, 67108863, 256, 67108863, 67108863,
     67108863, 67108863, 67108863, 67108863, 32768, 67108863, 67108863, 67108863, 67108863, 67108863, 67108863,
     67108863, 67108863, 67108863, 67108863],
      [67108863, 67108863, 67108863, 67108863, 67108863, 67108863, 67108863, 67108863, 32768, 67108863, 67108863,
     67108863, 67108863, 32768, 67108863, 32768, 67108863, 67108863, 67108863, 67108863, 67108863, 67108863, 67108863,
     67108863, 67108863, 67108863],
      [67108863, 67108863, 67108863, 67108863, 67108863, 67108863, 67108863, 67108863, 32768, 67108863, 67108863,
     67108863, 67108863, 32768, 67108863, 32768, 67108863, 67108863, 67108863, 67108863, 67108863, 67108863, 67108863,
     67108863, 67108863, 67108863],
      [67108863, 67108863, 67108863, 67108863, 67108863, 67108863, 67108863, 67108863, 32768, 67108863, 67108863,
     67108863, 67108863, 32768, 67108863, 32768, 67108863, 67108863, 67108863, 67108863, 67108863, 67108863, 67108863,
     67108863, 67108863, 67108863],
      [67108863, 67108863, 67108863, 67108863, 67108863, 67108863, 67108863, 67108863, 67108863, 67108863, 67108863,
     67108863, 67108863, 67108863, 67108863, 32768, 67108863, 67108863, 67108863, 67108863, 67108863, 67108863,
     67108863, 67108863, 67108863, 67108863],
      [67108863, 67108863, 41216, 67108863, 67108863, 67108863, 67108863, 67108863, 67108863, 67108863, 67108863,
     67108863, 67108863, 67108863, 67108863, 67108863, 67108863, 67108863, 67108863, 67108863, 67108863, 67108863,
     67108863, 67108863, 67108863, 67108863],
      [67108863, 67108863, 67108863, 67108863, 67108863, 67108863, 67108863, 67108863, 256, 67108863, 67108863,
     67108863, 67108863, 256, 67108863, 67108863, 67108863, 67108863, 67108863, 67108863, 67108863, 67108863,
     67108863, 67108863, 67108863, 67108863],
      [67108863, 67108863, 67108863, 67108863, 67108863, 67108863, 67108863, 67108863, 8192, 67108863, 67108863,
     67108863, 67108863, 67108863, 67108863, 67108863, 67108863, 67108863, 67108863, 67108863, 67108863, 67108863,
     67108863, 67108863, 67108863, 67108863],
      [67108863, 67108863, 4, 8, 67108863, 4, 67108863, 67108863, 256, 67108863, 67108863, 2048, 67108863, 256, 256,
     32768, 67108863, 67108863, 67108863, 524288, 67108863, 32768, 67108863, 67108863, 67108863, 67108863],
      [67108863, 67108863, 4, 8, 67108863, 67108863, 67108863, 67108863, 256, 67108863, 67108863, 2048, 67108863,
     67108863, 67108863, 32768, 67108863, 67108863, 67108863, 524288, 67108863, 67108863, 67108863, 67108863,
     67108863, 67108863],
      [67108863, 67108863, 4, 8, 67108863, 4, 4, 67108863, 256, 67108863, 67108863, 2048, 256, 256, 256, 32768,
     67108863, 67108863, 256, 524288, 32768, 32768, 67108863, 67108863, 67108863, 32768],
      [67108863, 67108863, 4, 8, 67108863, 4, 67108863, 4, 256, 67108863, 8, 2048, 67108863, 256, 256, 32768,
     67108863, 2048, 67108863, 524288, 67108863, 32768, 32768, 67108863, 524288, 67108863],
      [67108863, 67108863, 4, 8, 67108863, 4, 67108863, 67108863, 256, 67108863, 67108863, 2048, 67108863, 256, 256,
     32768, 67108863, 67108863, 67108863, 524288, 67108863, 32768, 67108863, 67108863, 67108863, 67108863],
      [67108863, 67108863, 4, 8, 67108863, 67108863, 67108863, 67108863, 256, 67108863, 67108863, 2048, 67108863,
     67108863, 67108863, 32768, 67108863, 67108863, 67108863, 524288, 67108863, 67108863, 67108863, 67108863,
     67108863, 67108863],
      [67108863, 67108863, 67108863, 8, 67108863, 4, 67108863, 67108863, 67108863, 67108863, 67108863, 2048, 67108863,
     256, 256, 67108863, 67108863, 67108863, 67108863, 524288, 67108863, 32768, 67108863, 67108863, 67108863,
     67108863],
      [],
      [],
      [67108863, 67108863, 4, 67108863, 67108863, 67108863, 67108863, 67108863, 67108863, 67108863, 67108863,
     67108863, 67108863, 67108863, 67108863, 67108863, 67108863, 67108863, 67108863, 67108863, 67108863, 67108863,
     67108863, 67108863, 67108863, 67108863],
      [],
      [],
      [67108863, 67108863, 4, 67108863, 67108863, 67108863, 67108863, 67108863, 256, 67108863, 67108863, 67108863,
     67108863, 67108863, 67108863, 32768, 67108863, 67108863, 67108863, 67108863, 67108863, 67108863, 67108863,
     67108863, 67108863, 67108863],
      [],
      [],
      [],
      [],
      [67108863, 67108863, 4, 8, 67108863, 67108863, 67108863, 67108863, 256, 67108863, 67108863, 2048, 67108863,
     67108863, 67108863, 32768, 67108863, 67108863, 67108863, 524288, 67108863, 67108863, 67108863, 67108863,
     67108863, 67108863],
      [],
      [],
      [67108863, 67108863, 4, 8, 67108863, 67108863, 67108863, 67108863, 256, 67108863, 67108863, 2048, 67108863,
     67108863, 67108863, 32768, 67108863, 67108863, 67108863, 524288, 67108863, 67108863, 67108863, 67108863,
     67108863, 67108863],
      [],
      [],
      [],
      [67108863, 67108863, 4, 8, 67108863, 67108863, 67108863, 67108863, 256, 67108863, 67108863, 2048, 67108863,
     67108863, 67108863, 32768, 67108863, 67108863, 67108863, 524288, 67108863, 67108863, 67108863, 67108863,
     67108863, 67108863],
      [],
      [],
      [67108863, 67108863, 4, 67108863, 67108863, 67108863, 67108863, 67108863, 67108863, 67108863, 67108863,
     67108863, 67108863, 67108863, 67108863, 67108863, 67108863, 67108863, 67108863, 67108863, 67108863, 67108863,
     67108863, 67108863, 67108863, 67108863],
      [],
      [],
      [67108863, 67108863, 67108863, 67108863, 67108863, 4, 67108863, 67108863, 67108863, 67108863, 67108863,
     67108863, 67108863, 67108863, 67108863, 67108863, 67108863, 67108863, 67108863, 67108863, 67108863, 67108863,
     67108863, 67108863, 67108863, 67108863],
      [],
      [],
      [],
      [67108863, 67108863, 67108863, 67108863, 67108863, 67108863, 67108863, 4, 67108863, 67108863, 67108863,
     67108863, 67108863, 67108863, 256, 67108863, 67108863, 67108863, 67108863, 67108863, 67108863, 67108863, 32768,
     67108863, 67108863, 67108863],
      [],
      [67108863, 67108863, 4, 67108863, 67108863, 67108863, 67108863, 67108863, 256, 67108863, 67108863, 67108863,
     67108863, 67108863, 67108863, 32768, 67108863, 67108863, 67108863, 67108863, 67108863, 67108863, 67108863,
     67108863, 67108863, 67108863],
      [67108863, 67108863, 67108863, 8, 67108863, 67108863, 67108863, 67108863, 67108863, 67108863, 67108863, 2048,
     67108863, 67108863, 67108863, 67108863, 67108863, 67108863, 67108863, 524288, 67108863, 67108863, 67108863,
     67108863, 67108863, 67108863],
      [],
      [],
      [],
      [],
      [67108863, 67108863, 67108863, 67108863, 67108863, 67108863, 67108863, 67108863, 67108863, 67108863, 67108863,
     67108863, 67108863, 67108863, 67108863, 32768, 67108863, 67108863, 67108863, 67108863, 67108863, 67108863,
     67108863, 67108863, 67108863, 67108863],
      [],
      [],
      [],
      [67108863, 67108863, 67108863, 67108863, 67108863, 67108863, 67108863, 67108863, 67108863, 67108863, 67108863,
     67108863, 67108863, 67108863, 67108863, 67108863, 67108863, 67108863, 67108863, 67108863, 67108863, 67108863,
     2129920, 67108863, 67108863, 67108863],
      [],
      [67108863, 67108863, 67108863, 67108863, 67108863, 67108863, 67108863, 67108863, 67108863, 67108863, 67108863,
     67108863, 67108863, 67108863, 67108863, 32768, 67108863, 67108863, 67108863, 67108863, 67108863, 67108863,
     67108863, 67108863, 67108863, 67108863],
      [],
      [67108863, 67108863, 67108863, 67108863, 67108863, 67108863, 67108863, 67108863, 256, 67108863, 67108863,
     67108863, 67108863, 67108863, 67108863, 32768, 67108863, 67108863, 67108863, 67108863, 67108863, 67108863,
     67108863, 67108863, 67108863, 67108863],
      [],
      [67108863, 67108863, 67108863, 67108863, 67108863, 67108863, 67108863, 67108863, 32768, 67108863, 67108863,
     67108863, 67108863, 32768, 67108863, 67108863, 67108863, 67108863, 67108863, 67108863, 67108863, 67108863,
     67108863, 67108863, 67108863, 67108863],
      [],
      [],
      [],
      [],
      [67108863, 67108863, 67108863, 67108863, 67108863, 67108863, 67108863, 67108863, 256, 67108863, 67108863,
     67108863, 67108863, 256, 67108863, 67108863, 67108863, 67108863, 67108863, 67108863, 67108863, 67108863,
     67108863, 67108863, 67108863, 67108863],
      [],
      [],
      [],
      [],
      [],
      [],
      [],
      [],
      []]

/-- for each state, the states with which it has no continuation in common -/
def seventeenthPassDoomed : List Nat :=
  [67108863, 67108861, 45988099, 67107075, 67107139, 67107075, 67107091, 67107075, 1791, 67107075, 67107075, 1791,
     1791, 1791, 1787, 1791, 1791, 1787, 1791, 1791, 1791, 1791, 1787, 1791, 1787, 1791]

/-- the states where programs end -/
def seventeenthPassFinal : Nat := 41216

/-- for each nonterminal, each state and whether the counter is known to be zero: the states behind it -/
def levelsTable : List (List (Option (List Nat))) :=
  [[some [0], some [0], none, none, some [0], some [0], none, none],
      [some [0], some [0], none, none, some [0], some [0], none, none],
      [none, some [0], none, none, none, none, none, none],
      [none, some [0], none, none, none, none, none, none],
      [some [0], some [0], none, none, some [0], some [0], none, none],
      [some [0], some [0], none, none, some [0], some [0], none, none],
      [some [0, 2], some [0, 2], none, none, none, none, none, none],
      [some [0, 2], some [0, 2], none, none, none, none, none, none],
      [some [0, 2], some [0, 2], none, none, none, none, none, none],
      [some [0, 2], some [0, 2], none, none, none, none, none, none],
      [some [0, 2], some [0, 2], none, none, some [0, 2], some [0, 2], none, none],
      [some [0], some [0], none, none, some [0], some [0], none, none],
      [none, none, some [0, 2], none, none, none, none, none],
      [some [0, 2], none, none, none, some [0, 2], none, none, none],
      [none, none, some [0, 2], none, none, none, none, none],
      [some [0, 2], some [0, 2], none, none, none, none, none, none],
      [some [0, 2], some [0, 2], none, none, some [0, 2], some [0, 2], none, none],
      [some [0, 2], none, none, none, some [0, 2], none, none, none],
      [none, some [0, 2], none, none, none, none, none, none],
      [none, some [0, 2], none, none, none, none, none, none],
      [none, some [0, 2], none, none, none, some [0, 2], none, none],
      [some [0, 2], some [0, 2], some [0, 2], none, none, none, none, none],
      [some [0, 2], some [0, 2], none, none, none, none, none, none],
      [none, some [0, 2], none, none, none, some [0, 2], none, none],
      [some [0, 2], none, none, none, none, none, none, none],
      [some [0], some [0], none, none, none, none, none, none],
      [some [0, 2], some [0, 2], none, none, none, none, none, none],
      [some [0, 2], none, none, none, some [0, 2], none, some [0, 2], none],
      [some [0, 2], none, none, none, none, none, none, none],
      [some [0, 2], none, none, none, some [0, 2], none, none, none],
      [some [0, 2], none, none, none, some [0, 2], none, none, none],
      [some [0, 2], none, none, none, none, none, none, none],
      [some [0, 2], some [0, 2], none, none, none, none, none, none],
      [some [0, 2], some [0, 2], none, none, none, none, none, none],
      [some [0, 2], some [0, 2], none, none, none, some [0, 2], none, none],
      [some [0, 2], some [0, 2], none, none, some [0, 2], some [0, 2], none, none],
      [some [0, 2], none, none, none, none, some [0, 2], none, none],
      [some [2], some [2], none, none, none, none, none, none],
      [some [0], some [0], none, none, none, some [0], none, none],
      [some [0, 2], none, none, none, some [0, 2], none, some [0, 2], none],
      [some [0], some [0], none, none, none, some [0], none, none],
      [some [0], some [0], none, none, none, none, none, none],
      [some [0, 2], none, some [0, 2], none, none, none, none, none],
      [some [0, 2], none, none, none, some [0, 2], none, none, none],
      [none, some [2], none, none, none, none, none, none],
      [none, some [0], none, none, none, some [0], none, none],
      [none, some [0], none, none, none, some [0], none, none],
      [none, some [0], none, none, none, some [0], none, none],
      [none, none, none, none, none, some [0], none, none],
      [none, some [0, 2], none, none, none, some [0, 2], none, none],
      [none, some [0, 2], none, none, none, some [0, 2], none, none],
      [none, none, none, none, none, some [0], none, none],
      [some [0], some [0], none, none, some [0], some [0], none, none],
      [some [0], some [0], none, none, none, none, none, none],
      [some [0], some [0], some [0], none, some [0], some [0], none, none],
      [some [0], some [0], none, none, some [0], some [0], some [0], none],
      [some [0], some [0], none, none, some [0], some [0], none, none],
      [some [0], some [0], none, none, some [0], some [0], none, none],
      [some [0], some [0], none, none, none, none, none, none],
      [],
      [],
      [none, some [0], none, none, none, none, none, none],
      [],
      [],
      [some [0], some [0], none, none, none, none, none, none],
      [],
      [],
      [],
      [],
      [some [0, 2], some [0, 2], none, none, none, none, none, none],
      [],
      [],
      [some [0, 2], none, none, none, some [0, 2], none, none, none],
      [],
      [],
      [],
      [some [0, 2], none, none, none, none, none, none, none],
      [],
      [],
      [none, some [0, 2], none, none, none, none, none, none],
      [],
      [],
      [none, some [0, 2], none, none, none, none, none, none],
      [],
      [],
      [],
      [none, none, none, none, none, none, some [0, 2], none],
      [],
      [some [0, 2], none, none, none, none, none, none, none],
      [some [0, 2], none, none, none, some [0, 2], none, none, none],
      [],
      [],
      [],
      [],
      [some [0, 2], some [0, 2], none, none, some [0, 2], some [0, 2], none, none],
      [],
      [],
      [],
      [none, none, none, none, none, none, some [0, 2], none],
      [],
      [some [0], some [0], none, none, none, none, none, none],
      [],
      [some [0, 2], none, none, none, some [0, 2], none, none, none],
      [],
      [none, some [0], none, none, none, some [0], none, none],
      [],
      [],
      [],
      [],
      [none, some [0, 2], none, none, none, some [0, 2], none, none],
      [],
      [],
      [],
      [],
      [],
      [],
      [],
      [],
      []]

end Verif.LR
