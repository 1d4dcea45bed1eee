/-
Finite automata and a counter machine, written by tools/keywords.py.  Nothing about them is assumed: Proofs/Mistaken checks what is used.
State 0 is where no program gets, state 1 is the start.
-/
namespace Verif.LR

/-! The states: SINK, START, Q1, Q2, Q3, Q0, Q4, Q5, Q6, Q7, Q8, Q9, Qa, Qb, Qc, Qd, Qe, Qf, Qg, Qh, Qi, Qj, Qk, Ql, Qm, Qn, Qo, Qp, Qq, Qr, Qs, Qt, Qu, Qv, Qw, Qx, Qy, Qz, QA, QB, QC, QD, QE, QF, QG, QH, QI -/

/-- for each state, the next state for each terminal -/
def fifteenthPassSteps : List (List Nat) :=
  [[0, 0, 0, 0, 0, 0, 0, 0, 0, 0, 0, 0, 0, 0, 0, 0, 0, 0, 0, 0, 0, 0, 0, 0, 0, 0, 0, 0, 0, 0, 0, 0, 0, 0, 0, 0, 0, 0,
     0, 0, 0, 0, 0, 0, 0, 0, 0, 0, 0, 0, 0, 0, 0, 0, 0, 0, 0, 0, 0],
      [0, 0, 2, 3, 4, 5, 0, 0, 5, 5, 0, 0, 5, 6, 0, 3, 0, 0, 0, 0, 0, 5, 0, 0, 5, 5, 5, 6, 0, 3, 7, 0, 0, 5, 3, 0, 0,
     5, 5, 0, 0, 0, 0, 0, 5, 5, 8, 5, 3, 0, 5, 5, 5, 5, 0, 5, 0, 5, 3],
      [0, 0, 0, 0, 0, 0, 0, 0, 0, 0, 0, 0, 0, 0, 0, 0, 0, 0, 0, 0, 0, 0, 9, 0, 0, 0, 0, 0, 10, 0, 0, 0, 0, 0, 0, 11,
     11, 12, 0, 13, 0, 13, 14, 0, 0, 0, 0, 0, 0, 0, 0, 12, 0, 0, 0, 12, 15, 12, 0],
      [0, 0, 0, 0, 16, 5, 0, 0, 3, 10, 8, 0, 5, 6, 16, 3, 0, 0, 0, 8, 0, 0, 5, 6, 8, 0, 5, 0, 8, 0, 7, 5, 5, 3, 0, 0,
     0, 8, 10, 0, 0, 0, 0, 6, 0, 0, 0, 0, 0, 6, 8, 8, 0, 5, 5, 8, 8, 8, 3],
      [0, 0, 2, 0, 4, 17, 0, 0, 8, 0, 0, 0, 0, 0, 0, 0, 0, 0, 0, 0, 0, 0, 0, 0, 0, 0, 0, 0, 0, 0, 13, 0, 0, 0, 0, 0,
     0, 18, 0, 0, 0, 0, 0, 0, 0, 0, 0, 0, 0, 0, 0, 18, 0, 0, 0, 15, 13, 18, 0],
      [0, 0, 2, 3, 4, 5, 0, 0, 5, 5, 0, 0, 5, 6, 0, 3, 0, 0, 0, 0, 0, 5, 0, 0, 5, 5, 5, 6, 0, 3, 7, 0, 0, 5, 3, 0, 0,
     5, 5, 0, 0, 0, 0, 0, 5, 5, 8, 5, 3, 0, 5, 5, 5, 5, 0, 5, 0, 5, 3],
      [0, 0, 2, 0, 0, 17, 8, 0, 6, 0, 8, 0, 0, 19, 0, 0, 0, 0, 11, 8, 0, 0, 9, 6, 0, 0, 5, 0, 8, 0, 13, 5, 5, 0, 3,
     11, 11, 20, 5, 6, 0, 13, 14, 0, 0, 0, 0, 0, 3, 6, 20, 20, 0, 5, 7, 21, 21, 20, 0],
      [0, 0, 2, 0, 0, 5, 0, 0, 22, 23, 0, 7, 16, 6, 16, 3, 0, 0, 0, 0, 0, 0, 0, 0, 0, 0, 5, 6, 0, 0, 7, 0, 0, 5, 3, 0,
     0, 24, 5, 0, 0, 0, 0, 6, 0, 5, 0, 0, 3, 0, 10, 24, 0, 5, 0, 15, 15, 24, 10],
      [0, 0, 2, 0, 4, 5, 0, 0, 16, 10, 8, 21, 5, 6, 16, 3, 0, 0, 0, 0, 0, 0, 0, 0, 0, 0, 5, 6, 0, 3, 7, 0, 0, 5, 3, 0,
     0, 24, 5, 0, 0, 0, 0, 6, 0, 5, 0, 0, 3, 0, 10, 24, 10, 5, 0, 15, 15, 24, 10],
      [0, 0, 0, 0, 0, 0, 0, 0, 3, 0, 0, 0, 0, 0, 0, 0, 0, 0, 0, 0, 0, 0, 5, 0, 0, 0, 0, 0, 0, 0, 0, 0, 0, 0, 0, 0, 0,
     24, 0, 0, 0, 0, 0, 6, 0, 0, 0, 0, 0, 6, 10, 24, 0, 25, 25, 25, 25, 24, 10],
      [0, 0, 2, 0, 4, 5, 0, 0, 16, 10, 0, 7, 16, 6, 16, 3, 0, 0, 0, 0, 0, 0, 9, 0, 0, 0, 5, 6, 10, 3, 7, 0, 0, 5, 3,
     11, 11, 24, 5, 5, 0, 13, 11, 6, 0, 5, 0, 0, 3, 0, 10, 24, 0, 5, 0, 26, 26, 24, 10],
      [0, 0, 2, 0, 0, 0, 0, 0, 0, 0, 0, 0, 0, 0, 0, 0, 27, 0, 0, 0, 0, 0, 0, 0, 0, 0, 0, 0, 0, 0, 7, 0, 0, 0, 0, 0, 0,
     24, 0, 0, 13, 0, 0, 0, 0, 0, 0, 0, 0, 0, 0, 24, 0, 0, 0, 13, 13, 24, 0],
      [0, 0, 2, 9, 4, 17, 8, 0, 0, 0, 0, 0, 0, 0, 0, 28, 0, 11, 11, 0, 0, 0, 0, 0, 0, 0, 0, 0, 0, 0, 13, 0, 0, 0, 0,
     0, 0, 24, 0, 0, 0, 0, 0, 0, 0, 0, 0, 0, 0, 0, 0, 24, 0, 0, 0, 29, 29, 24, 0],
      [0, 0, 2, 0, 0, 17, 8, 0, 0, 0, 0, 0, 0, 0, 0, 0, 0, 0, 0, 0, 0, 0, 0, 0, 0, 0, 0, 0, 0, 0, 13, 0, 0, 0, 3, 0,
     0, 0, 0, 0, 0, 0, 0, 0, 0, 0, 0, 0, 3, 0, 0, 0, 0, 0, 0, 6, 0, 0, 0],
      [0, 0, 2, 0, 0, 17, 0, 0, 0, 0, 0, 0, 0, 0, 0, 0, 0, 0, 0, 0, 0, 0, 0, 0, 0, 0, 0, 0, 0, 0, 13, 0, 0, 0, 0, 0,
     0, 24, 0, 0, 0, 0, 0, 0, 0, 0, 0, 0, 0, 0, 0, 24, 0, 0, 0, 13, 13, 24, 0],
      [0, 0, 2, 9, 13, 5, 0, 6, 16, 13, 0, 7, 0, 6, 0, 0, 0, 0, 0, 0, 0, 0, 0, 0, 0, 0, 5, 6, 0, 5, 7, 0, 0, 5, 3, 0,
     0, 24, 5, 0, 0, 0, 0, 6, 0, 5, 0, 5, 3, 0, 8, 24, 0, 5, 0, 15, 15, 24, 8],
      [0, 0, 0, 0, 0, 0, 0, 0, 3, 10, 0, 0, 5, 0, 0, 0, 0, 0, 0, 0, 0, 0, 5, 0, 0, 0, 0, 0, 0, 0, 0, 0, 0, 0, 0, 0, 0,
     10, 10, 0, 0, 0, 0, 6, 0, 0, 0, 0, 0, 0, 10, 10, 0, 5, 0, 5, 0, 10, 10],
      [0, 0, 0, 0, 0, 0, 0, 0, 0, 0, 0, 0, 0, 0, 0, 0, 0, 0, 0, 0, 0, 6, 0, 0, 0, 0, 0, 0, 0, 0, 0, 0, 0, 0, 0, 0, 0,
     30, 0, 0, 0, 0, 0, 0, 0, 0, 0, 0, 0, 0, 30, 30, 0, 5, 0, 6, 0, 30, 0],
      [0, 0, 2, 0, 0, 5, 0, 0, 31, 32, 8, 7, 16, 6, 16, 3, 0, 0, 0, 0, 0, 5, 0, 0, 0, 0, 5, 6, 0, 0, 7, 0, 0, 5, 3, 0,
     0, 33, 5, 0, 0, 0, 0, 6, 0, 5, 0, 0, 3, 0, 33, 33, 0, 5, 0, 34, 15, 33, 10],
      [0, 0, 0, 0, 0, 17, 0, 0, 0, 0, 0, 0, 0, 0, 0, 0, 0, 0, 0, 0, 0, 0, 9, 0, 0, 0, 0, 0, 10, 0, 13, 0, 0, 0, 0, 11,
     11, 12, 0, 6, 0, 13, 14, 0, 0, 0, 0, 0, 0, 0, 0, 12, 0, 0, 0, 12, 0, 12, 0],
      [0, 0, 2, 0, 4, 5, 0, 0, 35, 20, 8, 0, 0, 6, 0, 0, 0, 0, 0, 0, 0, 0, 0, 0, 0, 0, 5, 6, 0, 3, 7, 0, 0, 5, 3, 0,
     0, 24, 5, 0, 0, 0, 0, 6, 0, 5, 0, 0, 3, 0, 10, 24, 10, 5, 0, 15, 15, 24, 0],
      [0, 0, 2, 0, 0, 5, 8, 0, 22, 0, 8, 0, 0, 6, 0, 28, 0, 11, 11, 0, 0, 0, 0, 0, 0, 0, 5, 6, 0, 0, 7, 0, 0, 5, 3, 0,
     0, 24, 5, 0, 0, 0, 0, 0, 0, 5, 0, 0, 3, 0, 0, 24, 0, 0, 0, 15, 15, 24, 0],
      [0, 0, 0, 0, 0, 0, 0, 0, 3, 15, 0, 0, 0, 0, 0, 0, 0, 0, 0, 0, 0, 0, 5, 0, 0, 0, 0, 0, 0, 0, 0, 0, 0, 0, 0, 0, 0,
     8, 0, 0, 0, 0, 0, 6, 0, 0, 0, 0, 0, 0, 8, 8, 0, 5, 0, 0, 0, 8, 10],
      [0, 0, 2, 0, 0, 5, 0, 0, 22, 10, 0, 7, 16, 6, 16, 3, 0, 0, 0, 0, 0, 0, 9, 0, 0, 0, 5, 6, 10, 3, 7, 0, 0, 5, 3,
     11, 11, 24, 5, 5, 0, 13, 11, 6, 0, 5, 0, 0, 3, 0, 10, 24, 0, 5, 0, 26, 0, 24, 10],
      [0, 0, 2, 0, 4, 5, 0, 0, 16, 10, 0, 7, 16, 6, 16, 3, 0, 0, 0, 0, 0, 0, 0, 0, 0, 0, 5, 6, 0, 3, 7, 0, 0, 5, 3, 0,
     0, 24, 5, 0, 0, 0, 0, 6, 0, 5, 0, 0, 3, 0, 10, 24, 10, 5, 0, 29, 29, 24, 10],
      [0, 0, 8, 0, 4, 0, 0, 0, 0, 0, 0, 7, 0, 0, 0, 0, 0, 0, 0, 0, 0, 0, 0, 0, 0, 0, 0, 0, 0, 0, 0, 0, 0, 0, 0, 0, 0,
     13, 0, 0, 0, 0, 0, 0, 0, 0, 0, 0, 0, 0, 0, 13, 0, 0, 0, 13, 0, 13, 0],
      [0, 0, 2, 16, 0, 0, 8, 0, 0, 0, 0, 0, 0, 0, 0, 28, 0, 11, 11, 0, 0, 0, 0, 0, 0, 0, 0, 0, 0, 6, 7, 0, 0, 0, 0, 0,
     0, 24, 0, 0, 0, 0, 0, 0, 0, 0, 0, 0, 0, 0, 0, 24, 0, 0, 0, 29, 29, 24, 0],
      [0, 0, 0, 0, 0, 0, 0, 0, 0, 0, 0, 0, 0, 0, 0, 0, 0, 0, 0, 0, 0, 0, 0, 0, 0, 0, 0, 0, 0, 0, 0, 0, 0, 0, 0, 0, 0,
     4, 0, 0, 8, 0, 0, 0, 0, 0, 0, 0, 0, 0, 0, 4, 0, 0, 0, 36, 5, 4, 0],
      [0, 0, 0, 0, 0, 0, 0, 0, 0, 0, 8, 0, 0, 0, 0, 0, 0, 0, 0, 8, 0, 0, 0, 6, 0, 0, 5, 0, 8, 0, 0, 5, 5, 0, 0, 0, 0,
     29, 0, 0, 0, 0, 0, 0, 0, 0, 0, 0, 0, 6, 29, 29, 0, 4, 13, 29, 29, 29, 0],
      [0, 0, 2, 0, 4, 17, 0, 0, 0, 0, 8, 0, 0, 0, 0, 0, 0, 0, 0, 0, 0, 0, 0, 0, 0, 0, 0, 0, 0, 0, 13, 0, 0, 0, 0, 0,
     0, 24, 0, 0, 0, 0, 0, 0, 0, 0, 0, 0, 0, 0, 0, 24, 10, 0, 0, 15, 15, 24, 0],
      [0, 0, 0, 0, 4, 0, 0, 0, 5, 0, 0, 0, 0, 19, 0, 0, 0, 0, 0, 0, 0, 5, 0, 0, 0, 0, 0, 0, 0, 0, 0, 0, 0, 0, 0, 0, 0,
     5, 0, 0, 0, 0, 0, 0, 0, 0, 0, 0, 0, 0, 5, 5, 0, 5, 0, 5, 0, 5, 0],
      [0, 0, 0, 0, 0, 0, 0, 0, 3, 0, 0, 0, 0, 0, 0, 0, 0, 0, 0, 0, 0, 5, 5, 0, 0, 0, 0, 0, 0, 0, 0, 0, 0, 0, 0, 0, 0,
     37, 0, 0, 0, 0, 0, 6, 0, 0, 0, 0, 0, 0, 37, 37, 0, 5, 0, 5, 0, 37, 10],
      [0, 0, 2, 0, 0, 5, 0, 0, 31, 32, 0, 7, 16, 6, 16, 3, 0, 0, 0, 0, 0, 5, 9, 0, 0, 0, 5, 6, 10, 3, 7, 0, 0, 5, 3,
     11, 11, 38, 5, 5, 0, 13, 11, 6, 0, 5, 0, 0, 3, 0, 33, 38, 0, 5, 0, 39, 0, 38, 10],
      [0, 0, 2, 0, 4, 5, 0, 0, 31, 32, 0, 7, 16, 6, 16, 3, 0, 0, 0, 0, 0, 5, 0, 0, 0, 0, 5, 6, 0, 3, 7, 0, 0, 5, 3, 0,
     0, 33, 5, 0, 0, 0, 0, 6, 0, 5, 0, 0, 3, 0, 33, 33, 0, 5, 0, 5, 0, 33, 10],
      [0, 0, 2, 0, 0, 5, 0, 0, 5, 5, 0, 0, 0, 6, 0, 0, 0, 0, 0, 0, 0, 5, 0, 0, 0, 0, 5, 6, 0, 0, 7, 0, 0, 5, 3, 0, 0,
     5, 5, 0, 0, 0, 0, 0, 0, 5, 0, 0, 3, 0, 5, 5, 0, 5, 0, 40, 15, 5, 0],
      [0, 0, 0, 0, 4, 0, 0, 0, 35, 0, 0, 0, 0, 0, 0, 0, 0, 0, 0, 0, 0, 0, 0, 0, 0, 0, 0, 0, 0, 3, 0, 0, 0, 0, 0, 0, 0,
     41, 0, 0, 0, 0, 0, 6, 0, 0, 0, 0, 0, 0, 41, 41, 0, 5, 0, 0, 0, 41, 0],
      [0, 0, 0, 0, 11, 0, 0, 0, 0, 0, 0, 0, 0, 0, 0, 0, 0, 0, 0, 0, 0, 0, 0, 0, 0, 0, 0, 0, 0, 0, 0, 0, 0, 0, 0, 0, 0,
     0, 0, 0, 0, 0, 0, 0, 0, 0, 0, 5, 0, 0, 0, 0, 0, 0, 0, 0, 0, 0, 0],
      [0, 0, 0, 0, 4, 0, 0, 0, 31, 33, 0, 0, 0, 0, 16, 0, 0, 0, 0, 0, 0, 5, 0, 0, 0, 0, 0, 0, 0, 3, 0, 0, 0, 0, 0, 0,
     0, 33, 0, 0, 0, 0, 0, 6, 0, 0, 0, 0, 0, 0, 33, 33, 0, 5, 0, 5, 0, 33, 10],
      [0, 0, 2, 0, 4, 5, 0, 0, 31, 32, 0, 7, 16, 6, 16, 3, 0, 0, 0, 0, 0, 5, 0, 0, 0, 0, 5, 6, 0, 3, 7, 0, 0, 5, 3, 0,
     0, 33, 5, 0, 0, 0, 0, 6, 0, 5, 0, 0, 3, 0, 33, 33, 0, 5, 0, 42, 29, 33, 10],
      [0, 0, 2, 0, 0, 0, 8, 0, 5, 5, 0, 0, 0, 6, 0, 28, 0, 11, 11, 0, 0, 5, 0, 0, 0, 0, 0, 0, 0, 0, 7, 0, 0, 0, 0, 0,
     0, 5, 0, 0, 0, 0, 0, 0, 0, 0, 0, 0, 0, 0, 5, 5, 0, 5, 0, 42, 29, 5, 0],
      [0, 0, 2, 0, 0, 5, 0, 0, 5, 43, 0, 0, 0, 6, 0, 0, 0, 0, 0, 0, 0, 5, 0, 0, 0, 0, 5, 6, 0, 0, 7, 0, 0, 5, 3, 0, 0,
     5, 5, 0, 0, 0, 0, 0, 0, 5, 0, 0, 3, 0, 5, 5, 0, 5, 0, 40, 15, 5, 0],
      [0, 0, 0, 0, 4, 0, 0, 0, 44, 10, 0, 0, 0, 0, 0, 0, 0, 0, 0, 0, 0, 0, 0, 0, 0, 0, 0, 0, 0, 3, 0, 0, 0, 0, 0, 0,
     0, 41, 0, 0, 0, 0, 0, 45, 0, 0, 0, 0, 0, 0, 41, 41, 0, 5, 0, 0, 0, 41, 0],
      [0, 0, 2, 0, 0, 17, 0, 0, 5, 5, 0, 0, 0, 6, 0, 0, 0, 0, 0, 0, 0, 5, 0, 0, 0, 0, 0, 0, 0, 0, 13, 0, 0, 0, 0, 0,
     0, 5, 0, 0, 0, 0, 0, 0, 0, 0, 0, 0, 0, 0, 5, 5, 0, 5, 0, 40, 15, 5, 0],
      [0, 0, 2, 0, 0, 17, 0, 0, 5, 5, 0, 0, 0, 6, 0, 0, 0, 0, 0, 0, 0, 5, 0, 0, 0, 0, 0, 0, 0, 0, 13, 0, 0, 0, 0, 0,
     0, 5, 0, 0, 0, 0, 0, 0, 0, 0, 0, 0, 0, 0, 5, 5, 0, 5, 0, 5, 0, 5, 0],
      [0, 0, 0, 0, 0, 0, 0, 0, 35, 0, 0, 0, 0, 0, 0, 0, 0, 0, 0, 0, 0, 0, 0, 0, 0, 0, 0, 0, 0, 0, 0, 0, 0, 0, 0, 0, 0,
     46, 0, 0, 0, 0, 0, 6, 0, 0, 0, 0, 0, 0, 46, 46, 0, 5, 0, 0, 0, 46, 0],
      [0, 0, 0, 0, 0, 0, 0, 0, 6, 0, 0, 0, 0, 0, 0, 0, 0, 0, 0, 0, 0, 0, 0, 0, 0, 0, 0, 0, 0, 0, 0, 0, 0, 0, 0, 0, 0,
     35, 0, 0, 0, 0, 0, 0, 0, 0, 0, 0, 0, 0, 35, 35, 0, 5, 0, 0, 0, 35, 0],
      [0, 0, 0, 0, 4, 0, 0, 0, 44, 41, 0, 0, 0, 0, 0, 0, 0, 0, 0, 0, 0, 0, 0, 0, 0, 0, 0, 0, 0, 3, 0, 0, 0, 0, 0, 0,
     0, 41, 0, 0, 0, 0, 0, 45, 0, 0, 0, 0, 0, 0, 41, 41, 0, 5, 0, 0, 0, 41, 0]]

/-- for each nonterminal and each state, the set of states (one bit each) behind it -/
def fifteenthPassSets : List (List Nat) :=
  [[140737488355327, 140737488355327, 4096, 256, 262144, 32, 1048576, 16777216, 16777216, 16777216, 16777216,
     16777216, 16777216, 140737488355327, 16777216, 16777216, 1024, 1073741824, 8589934592, 4096, 16777216, 16777216,
     256, 16777216, 16777216, 8192, 16777216, 16, 536870912, 16777216, 32, 137438953472, 274877906944, 8589934592, 32,
     2199023255552, 140737488355327, 8589934592, 8589934592, 32, 32, 2199023255552, 32, 32, 70368744177664,
     34359738368, 2199023255552],
      [140737488355327, 140737488355327, 4096, 256, 262144, 32, 1048576, 16777216, 16777216, 16777216, 16777216,
     16777216, 16777216, 140737488355327, 16777216, 16777216, 1024, 1073741824, 8589934592, 4096, 16777216, 16777216,
     256, 16777216, 16777216, 8192, 16777216, 16, 536870912, 16777216, 32, 137438953472, 274877906944, 8589934592, 32,
     2199023255552, 140737488355327, 8589934592, 8589934592, 32, 32, 2199023255552, 32, 32, 70368744177664,
     34359738368, 2199023255552],
      [140737488355327, 140737488355327, 140737488355327, 140737488355327, 140737488355327, 32, 140737488355327,
     140737488355327, 140737488355327, 140737488355327, 140737488355327, 140737488355327, 140737488355327,
     140737488355327, 140737488355327, 140737488355327, 140737488355327, 140737488355327, 140737488355327,
     140737488355327, 140737488355327, 140737488355327, 140737488355327, 140737488355327, 140737488355327,
     140737488355327, 140737488355327, 140737488355327, 140737488355327, 140737488355327, 140737488355327,
     140737488355327, 140737488355327, 140737488355327, 140737488355327, 140737488355327, 140737488355327,
     140737488355327, 140737488355327, 140737488355327, 140737488355327, 140737488355327, 140737488355327,
     140737488355327, 140737488355327, 140737488355327, 140737488355327],
      [140737488355327, 140737488355327, 140737488355327, 140737488355327, 140737488355327, 32, 140737488355327,
     140737488355327, 140737488355327, 140737488355327, 140737488355327, 140737488355327, 140737488355327,
     140737488355327, 140737488355327, 140737488355327, 140737488355327, 140737488355327, 140737488355327,
     140737488355327, 140737488355327, 140737488355327, 140737488355327, 140737488355327, 140737488355327,
     140737488355327, 140737488355327, 140737488355327, 140737488355327, 140737488355327, 140737488355327,
     140737488355327, 140737488355327, 140737488355327, 140737488355327, 140737488355327, 140737488355327,
     140737488355327, 140737488355327, 140737488355327, 140737488355327, 140737488355327, 140737488355327,
     140737488355327, 140737488355327, 140737488355327, 140737488355327],
      [140737488355327, 140737488355327, 140737488355327, 262400, 140737488355327, 262176, 1310720, 17040384,
     17040384, 17040384, 17040384, 140737488355327, 140737488355327, 140737488355327, 140737488355327, 17039616,
     263168, 1074003968, 8590196736, 140737488355327, 17040384, 140737488355327, 262400, 17040384, 17040384,
     140737488355327, 140737488355327, 140737488355327, 537133056, 140737488355327, 262176, 137439215616,
     283468103680, 8590196736, 262176, 2199023517696, 140737488355327, 8590196736, 8590196736, 262176, 262176,
     2199023517696, 262176, 262176, 70368744439808, 34360000512, 2199023517696],
      [140737488355327, 140737488355327, 36864, 33024, 140737488355327, 140737488355327, 2129920, 32768, 32768,
     33587200, 67141632, 40960, 536903680, 140737488355327, 40960, 32768, 140737488355327, 140737488355327,
     17179901952, 140737488355327, 32768, 32768, 140737488355327, 140737488355327, 536903680, 140737488355327,
     536903680, 68719509536, 536903680, 32768, 140737488355327, 140737488355327, 140737488355327, 140737488355327,
     1099511660544, 140737488355327, 140737488355327, 140737488355327, 4398583414784, 4398583414784, 1099511660544,
     140737488355327, 1099511660544, 140737488355327, 140737488355327, 140737488355327, 140737488355327],
      [140737488355327, 140737488355327, 140737488355327, 140737488355327, 140737488355327, 140737488355327,
     140737488355327, 32768, 140737488355327, 140737488355327, 140737488355327, 140737488355327, 140737488355327,
     140737488355327, 140737488355327, 140737488355327, 140737488355327, 140737488355327, 140737488355327,
     140737488355327, 140737488355327, 32768, 140737488355327, 140737488355327, 140737488355327, 140737488355327,
     140737488355327, 140737488355327, 140737488355327, 140737488355327, 140737488355327, 140737488355327,
     140737488355327, 140737488355327, 140737488355327, 140737488355327, 140737488355327, 140737488355327,
     140737488355327, 140737488355327, 140737488355327, 140737488355327, 140737488355327, 140737488355327,
     140737488355327, 140737488355327, 140737488355327],
      [140737488355327, 140737488355327, 140737488355327, 287788238216, 140737488355327, 140737488355327,
     140737488355327, 140737488355327, 140737488355327, 287788237952, 140737488355327, 140737488355327,
     140737488355327, 140737488355327, 140737488355327, 140737488355327, 287788237952, 140737488355327,
     140737488355327, 140737488355327, 140737488355327, 140737488355327, 287788238208, 140737488355327,
     140737488355327, 140737488355327, 140737488355327, 140737488355327, 140737488355327, 140737488355327,
     140737488355327, 425227191424, 140737488355327, 140737488355327, 140737488355327, 140737488355327,
     140737488355327, 140737488355327, 140737488355327, 140737488355327, 140737488355327, 140737488355327,
     140737488355327, 140737488355327, 140737488355327, 140737488355327, 140737488355327],
      [140737488355327, 140737488355327, 140737488355327, 287788237952, 140737488355327, 140737488355327,
     140737488355327, 140737488355327, 140737488355327, 287788237952, 140737488355327, 140737488355327,
     140737488355327, 140737488355327, 140737488355327, 140737488355327, 287788237952, 140737488355327,
     140737488355327, 140737488355327, 140737488355327, 140737488355327, 287788237952, 140737488355327,
     140737488355327, 140737488355327, 140737488355327, 140737488355327, 140737488355327, 140737488355327,
     140737488355327, 287788237952, 140737488355327, 140737488355327, 140737488355327, 140737488355327,
     140737488355327, 140737488355327, 140737488355327, 140737488355327, 140737488355327, 140737488355327,
     140737488355327, 140737488355327, 140737488355327, 140737488355327, 140737488355327],
      [140737488355327, 140737488355327, 140737488355327, 287788238216, 140737488355327, 140737488355327,
     140737488355327, 140737488355327, 140737488355327, 287788237952, 140737488355327, 140737488355327,
     140737488355327, 140737488355327, 140737488355327, 140737488355327, 287788237952, 140737488355327,
     140737488355327, 140737488355327, 140737488355327, 140737488355327, 287788238208, 140737488355327,
     140737488355327, 140737488355327, 140737488355327, 140737488355327, 140737488355327, 140737488355327,
     140737488355327, 425227191424, 140737488355327, 140737488355327, 140737488355327, 140737488355327,
     140737488355327, 140737488355327, 140737488355327, 140737488355327, 140737488355327, 140737488355327,
     140737488355327, 140737488355327, 140737488355327, 140737488355327, 140737488355327],
      [140737488355327, 140737488355327, 140737488355327, 140737488355327, 140737488355327, 140737488355327,
     140737488355327, 287788237952, 287788237952, 140737488355327, 287788237952, 140737488355327, 140737488355327,
     140737488355327, 140737488355327, 287788238208, 140737488355327, 140737488355327, 287788237952, 140737488355327,
     140737488355327, 140737488355327, 140737488355327, 287788237952, 287788237952, 140737488355327, 140737488355327,
     140737488355327, 140737488355327, 140737488355327, 140737488355327, 140737488355327, 287788237952, 287788237952,
     140737488355327, 140737488355327, 140737488355327, 287788237952, 287788237952, 140737488355327, 140737488355327,
     140737488355327, 140737488355327, 140737488355327, 140737488355327, 140737488355327, 140737488355327],
      [140737488355327, 140737488355327, 140737488355327, 128, 140737488355327, 128, 128, 128, 128, 128, 128,
     140737488355327, 140737488355327, 140737488355327, 140737488355327, 128, 128, 140737488355327, 128,
     140737488355327, 128, 140737488355327, 128, 128, 128, 140737488355327, 140737488355327, 140737488355327,
     140737488355327, 140737488355327, 140737488355327, 128, 128, 128, 140737488355327, 128, 140737488355327, 128,
     128, 140737488355327, 140737488355327, 140737488355327, 140737488355327, 140737488355327, 128, 128,
     140737488355327],
      [140737488355327, 140737488355327, 140737488355327, 287788237952, 140737488355327, 140737488355327,
     140737488355327, 140737488355327, 140737488355327, 140737488355327, 140737488355327, 140737488355327,
     140737488355327, 140737488355327, 140737488355327, 140737488355327, 140737488355327, 140737488355327,
     140737488355327, 140737488355327, 140737488355327, 140737488355327, 140737488355327, 140737488355327,
     140737488355327, 140737488355327, 140737488355327, 140737488355327, 140737488355327, 140737488355327,
     140737488355327, 140737488355327, 140737488355327, 140737488355327, 140737488355327, 140737488355327,
     140737488355327, 140737488355327, 140737488355327, 140737488355327, 140737488355327, 140737488355327,
     140737488355327, 140737488355327, 140737488355327, 140737488355327, 140737488355327],
      [140737488355327, 140737488355327, 140737488355327, 140737488355327, 140737488355327, 140737488355327,
     140737488355327, 287788237952, 140737488355327, 140737488355327, 287788237952, 140737488355327, 140737488355327,
     140737488355327, 140737488355327, 140737488355327, 140737488355327, 140737488355327, 287788237952,
     140737488355327, 140737488355327, 140737488355327, 140737488355327, 287788237952, 287788237952, 140737488355327,
     140737488355327, 140737488355327, 140737488355327, 140737488355327, 140737488355327, 140737488355327,
     287788237952, 287788237952, 140737488355327, 140737488355327, 140737488355327, 140737488355327, 287788237952,
     140737488355327, 140737488355327, 140737488355327, 140737488355327, 140737488355327, 140737488355327,
     140737488355327, 140737488355327],
      [140737488355327, 140737488355327, 140737488355327, 287788237952, 140737488355327, 140737488355327,
     140737488355327, 140737488355327, 140737488355327, 140737488355327, 140737488355327, 140737488355327,
     140737488355327, 140737488355327, 140737488355327, 140737488355327, 287788237952, 140737488355327,
     140737488355327, 140737488355327, 140737488355327, 140737488355327, 140737488355327, 140737488355327,
     140737488355327, 140737488355327, 140737488355327, 140737488355327, 140737488355327, 140737488355327,
     140737488355327, 140737488355327, 140737488355327, 140737488355327, 140737488355327, 140737488355327,
     140737488355327, 140737488355327, 140737488355327, 140737488355327, 140737488355327, 140737488355327,
     140737488355327, 140737488355327, 140737488355327, 140737488355327, 140737488355327],
      [140737488355327, 140737488355327, 140737488355327, 140737488355327, 140737488355327, 140737488355327,
     4304666752, 140737488355327, 140737488355327, 140737488355327, 140737488355327, 140737488355327, 140737488355327,
     140737488355327, 140737488355327, 140737488355327, 140737488355327, 140737488355327, 140737488355327,
     140737488355327, 140737488355327, 140737488355327, 140737488355327, 140737488355327, 140737488355327,
     140737488355327, 140737488355327, 140737488355327, 140737488355327, 140737488355327, 140737488355327,
     140737488355327, 140737488355327, 140737488355327, 140737488355327, 140737488355327, 140737488355327,
     140737488355327, 140737488355327, 140737488355327, 140737488355327, 140737488355327, 140737488355327,
     140737488355327, 140737488355327, 38664405120, 140737488355327],
      [140737488355327, 140737488355327, 140737488355327, 287788238208, 140737488355327, 140737488355327,
     140737488355327, 287788237952, 140737488355327, 140737488355327, 140737488355327, 140737488355327,
     140737488355327, 140737488355327, 140737488355327, 140737488355327, 287788237952, 140737488355327, 287788237952,
     140737488355327, 287788237952, 140737488355327, 287788238208, 287788237952, 140737488355327, 140737488355327,
     140737488355327, 140737488355327, 140737488355327, 140737488355327, 140737488355327, 425227191424, 287788237952,
     140737488355327, 140737488355327, 2486811493504, 140737488355327, 140737488355327, 140737488355327,
     140737488355327, 140737488355327, 140737488355327, 140737488355327, 140737488355327, 70656532415616,
     140737488355327, 140737488355327],
      [140737488355327, 140737488355327, 140737488355327, 140737488355327, 140737488355327, 140737488355327,
     140737488355327, 287788237952, 287788237952, 140737488355327, 287788237952, 140737488355327, 140737488355327,
     140737488355327, 140737488355327, 140737488355327, 140737488355327, 140737488355327, 287788237952,
     140737488355327, 140737488355327, 140737488355327, 140737488355327, 287788237952, 287788237952, 140737488355327,
     140737488355327, 140737488355327, 140737488355327, 140737488355327, 140737488355327, 140737488355327,
     287788237952, 287788237952, 140737488355327, 140737488355327, 140737488355327, 287788237952, 287788237952,
     140737488355327, 140737488355327, 2486811493504, 140737488355327, 140737488355327, 140737488355327,
     140737488355327, 2486811493504],
      [140737488355327, 1404482921952, 140737488355327, 140737488355327, 140737488355327, 140737488355327,
     140737488355327, 140737488355327, 140737488355327, 140737488355327, 140737488355327, 140737488355327,
     140737488355327, 140737488355327, 140737488355327, 140737488355327, 140737488355327, 140737488355327,
     140737488355327, 140737488355327, 140737488355327, 140737488355327, 140737488355327, 140737488355327,
     140737488355327, 140737488355327, 140737488355327, 140737488355327, 140737488355327, 140737488355327,
     140737488355327, 140737488355327, 140737488355327, 140737488355327, 140737488355327, 140737488355327,
     140737488355327, 140737488355327, 140737488355327, 140737488355327, 140737488355327, 140737488355327,
     140737488355327, 140737488355327, 140737488355327, 140737488355327, 140737488355327],
      [140737488355327, 140737488355327, 140737488355327, 140737488355327, 140737488355327, 1404482913696,
     140737488355327, 140737488355327, 140737488355327, 140737488355327, 140737488355327, 140737488355327,
     140737488355327, 140737488355327, 140737488355327, 140737488355327, 140737488355327, 140737488355327,
     140737488355327, 140737488355327, 140737488355327, 140737488355327, 140737488355327, 140737488355327,
     140737488355327, 140737488355327, 140737488355327, 140737488355327, 140737488355327, 140737488355327,
     140737488355327, 140737488355327, 140737488355327, 140737488355327, 140737488355327, 140737488355327,
     140737488355327, 140737488355327, 140737488355327, 140737488355327, 140737488355327, 140737488355327,
     140737488355327, 140737488355327, 140737488355327, 140737488355327, 140737488355327],
      [140737488355327, 140737488355327, 140737488355327, 140737488355327, 140737488355327, 1404482913696,
     140737488355327, 1404482913696, 1404482913696, 140737488355327, 1404482913696, 140737488355327, 140737488355327,
     140737488355327, 140737488355327, 1404482913696, 140737488355327, 140737488355327, 1404482913696,
     140737488355327, 1404482913696, 1404482913696, 140737488355327, 1404482913696, 1404482913696, 140737488355327,
     140737488355327, 140737488355327, 140737488355327, 140737488355327, 140737488355327, 140737488355327,
     1404482913696, 1404482913696, 1404482913696, 140737488355327, 140737488355327, 140737488355327, 1404482913696,
     140737488355327, 1404482913696, 140737488355327, 140737488355327, 140737488355327, 140737488355327,
     140737488355327, 140737488355327],
      [140737488355327, 140737488355327, 140737488355327, 140737488355327, 140737488355327, 287788238216,
     140737488355327, 140737488355327, 140737488355327, 140737488355327, 140737488355327, 140737488355327,
     140737488355327, 140737488355327, 140737488355327, 140737488355327, 287788238216, 140737488355327,
     140737488355327, 140737488355327, 140737488355327, 140737488355327, 140737488355327, 140737488355327,
     140737488355327, 140737488355327, 140737488355327, 140737488355327, 140737488355327, 140737488355327,
     140737488355327, 140737488355327, 140737488355327, 140737488355327, 140737488355327, 140737488355327,
     140737488355327, 140737488355327, 140737488355327, 140737488355327, 140737488355327, 140737488355327,
     140737488355327, 140737488355327, 140737488355327, 140737488355327, 140737488355327],
      [140737488355327, 140737488355327, 140737488355327, 140737488355327, 140737488355327, 287788238216,
     140737488355327, 140737488355327, 140737488355327, 140737488355327, 140737488355327, 140737488355327,
     140737488355327, 140737488355327, 140737488355327, 140737488355327, 140737488355327, 140737488355327,
     140737488355327, 140737488355327, 140737488355327, 140737488355327, 140737488355327, 140737488355327,
     140737488355327, 140737488355327, 140737488355327, 140737488355327, 140737488355327, 140737488355327,
     140737488355327, 140737488355327, 140737488355327, 140737488355327, 140737488355327, 140737488355327,
     140737488355327, 140737488355327, 140737488355327, 140737488355327, 140737488355327, 140737488355327,
     140737488355327, 140737488355327, 140737488355327, 140737488355327, 140737488355327],
      [140737488355327, 140737488355327, 140737488355327, 287788237984, 140737488355327, 287788237984,
     140737488355327, 287788237984, 140737488355327, 140737488355327, 287788237984, 140737488355327, 140737488355327,
     140737488355327, 140737488355327, 140737488355327, 140737488355327, 140737488355327, 287788237984,
     140737488355327, 140737488355327, 140737488355327, 140737488355327, 287788237984, 287788237984, 140737488355327,
     140737488355327, 140737488355327, 140737488355327, 140737488355327, 140737488355327, 140737488355327,
     287788237984, 287788237984, 140737488355327, 140737488355327, 140737488355327, 140737488355327, 287788237984,
     140737488355327, 140737488355327, 140737488355327, 140737488355327, 140737488355327, 140737488355327,
     140737488355327, 140737488355327],
      [140737488355327, 140737488355327, 140737488355327, 287788238208, 140737488355327, 140737488355327,
     140737488355327, 140737488355327, 140737488355327, 140737488355327, 140737488355327, 140737488355327,
     140737488355327, 140737488355327, 140737488355327, 140737488355327, 287788237952, 140737488355327,
     140737488355327, 140737488355327, 140737488355327, 140737488355327, 287788238208, 140737488355327,
     140737488355327, 140737488355327, 140737488355327, 140737488355327, 140737488355327, 140737488355327,
     140737488355327, 425227191424, 140737488355327, 140737488355327, 140737488355327, 2486811493504, 140737488355327,
     140737488355327, 140737488355327, 140737488355327, 140737488355327, 140737488355327, 140737488355327,
     140737488355327, 72855555671168, 140737488355327, 140737488355327],
      [140737488355327, 140737488355327, 140737488355327, 140737488355327, 140737488355327, 140737488355327,
     140737488355327, 140737488355327, 2097280, 140737488355327, 140737488355327, 140737488355327, 140737488355327,
     140737488355327, 140737488355327, 140737488355327, 140737488355327, 140737488355327, 2097280, 140737488355327,
     2097280, 2097280, 140737488355327, 140737488355327, 140737488355327, 140737488355327, 140737488355327,
     140737488355327, 140737488355327, 2097280, 140737488355327, 140737488355327, 140737488355327, 140737488355327,
     140737488355327, 140737488355327, 140737488355327, 140737488355327, 140737488355327, 140737488355327,
     140737488355327, 140737488355327, 140737488355327, 140737488355327, 140737488355327, 140737488355327,
     140737488355327],
      [140737488355327, 140737488355327, 140737488355327, 1404482913696, 140737488355327, 140737488355327,
     1404482913696, 140737488355327, 140737488355327, 140737488355327, 140737488355327, 140737488355327,
     140737488355327, 140737488355327, 140737488355327, 140737488355327, 140737488355327, 140737488355327,
     140737488355327, 140737488355327, 140737488355327, 140737488355327, 140737488355327, 140737488355327,
     140737488355327, 140737488355327, 140737488355327, 140737488355327, 1405019792816, 140737488355327,
     140737488355327, 140737488355327, 140737488355327, 140737488355327, 140737488355327, 140737488355327,
     140737488355327, 140737488355327, 140737488355327, 140737488355327, 140737488355327, 140737488355327,
     140737488355327, 140737488355327, 140737488355327, 140737488355327, 140737488355327],
      [140737488355327, 140737488355327, 140737488355327, 140737488355327, 140737488355327, 1404482913696,
     140737488355327, 1404482913696, 1404482913696, 140737488355327, 1404482913696, 140737488355327, 140737488355327,
     140737488355327, 140737488355327, 1404482913696, 140737488355327, 140737488355327, 1404482913696,
     140737488355327, 1404482913696, 1404482913696, 140737488355327, 1404482913696, 1404482913696, 140737488355327,
     140737488355327, 140737488355327, 140737488355327, 140737488355327, 140737488355327, 140737488355327,
     1404482913696, 1404482913696, 1404482913696, 140737488355327, 140737488355327, 140737488355327, 1404482913696,
     140737488355327, 1404482913696, 140737488355327, 140737488355327, 140737488355327, 140737488355327,
     140737488355327, 140737488355327],
      [140737488355327, 140737488355327, 140737488355327, 140737488355327, 140737488355327, 15148349915168,
     140737488355327, 140737488355327, 140737488355327, 140737488355327, 140737488355327, 140737488355327,
     140737488355327, 140737488355327, 140737488355327, 140737488355327, 140737488355327, 15149423657056,
     140737488355327, 140737488355327, 140737488355327, 140737488355327, 140737488355327, 140737488355327,
     140737488355327, 140737488355327, 140737488355327, 140737488355327, 140737488355327, 140737488355327,
     140737488355327, 15285788868640, 140737488355327, 140737488355327, 140737488355327, 140737488355327,
     140737488355327, 140737488355327, 140737488355327, 140737488355327, 140737488355327, 140737488355327,
     140737488355327, 140737488355327, 140737488355327, 140737488355327, 140737488355327],
      [140737488355327, 140737488355327, 140737488355327, 140737488355327, 140737488355327, 8800388251680,
     140737488355327, 140737488355327, 140737488355327, 140737488355327, 140737488355327, 140737488355327,
     140737488355327, 140737488355327, 140737488355327, 140737488355327, 140737488355327, 140737488355327,
     8826158055456, 140737488355327, 140737488355327, 140737488355327, 140737488355327, 140737488355327,
     140737488355327, 140737488355327, 140737488355327, 140737488355327, 140737488355327, 140737488355327,
     8800388251680, 140737488355327, 9633611907104, 8808978186272, 9899899879456, 140737488355327, 140737488355327,
     8808978186272, 13207024697376, 13198434762784, 9899899879456, 140737488355327, 9899899879456, 8800388251680,
     140737488355327, 140737488355327, 140737488355327],
      [140737488355327, 140737488355327, 140737488355327, 140737488355327, 140737488355327, 140737488355327,
     140737488355327, 287821825152, 140737488355327, 140737488355327, 287821825152, 140737488355327, 140737488355327,
     140737488355327, 140737488355327, 287821825152, 140737488355327, 140737488355327, 287821825152, 140737488355327,
     140737488355327, 140737488355327, 140737488355327, 287821825152, 287821825152, 287821825152, 140737488355327,
     140737488355327, 140737488355327, 140737488355327, 140737488355327, 140737488355327, 287821825152, 287821825152,
     140737488355327, 140737488355327, 140737488355327, 140737488355327, 287821825152, 140737488355327,
     140737488355327, 140737488355327, 140737488355327, 140737488355327, 140737488355327, 140737488355327,
     140737488355327],
      [140737488355327, 140737488355327, 287821825152, 140737488355327, 140737488355327, 140737488355327,
     140737488355327, 140737488355327, 287821825152, 140737488355327, 140737488355327, 140737488355327,
     140737488355327, 140737488355327, 140737488355327, 140737488355327, 140737488355327, 140737488355327,
     140737488355327, 140737488355327, 140737488355327, 140737488355327, 140737488355327, 140737488355327,
     140737488355327, 140737488355327, 140737488355327, 140737488355327, 140737488355327, 140737488355327,
     140737488355327, 140737488355327, 140737488355327, 140737488355327, 140737488355327, 140737488355327,
     140737488355327, 140737488355327, 140737488355327, 140737488355327, 140737488355327, 140737488355327,
     140737488355327, 140737488355327, 140737488355327, 140737488355327, 140737488355327],
      [140737488355327, 140737488355327, 140737488355327, 287788271008, 140737488355327, 140737488355327,
     287790367904, 140737488355327, 140737488355327, 140737488355327, 140737488355327, 140737488355327,
     140737488355327, 140737488355327, 140737488355327, 140737488355327, 140737488355327, 140737488355327,
     140737488355327, 140737488355327, 140737488355327, 140737488355327, 140737488355327, 140737488355327,
     140737488355327, 140737488355327, 140737488355327, 140737488355327, 288325149840, 140737488355327,
     140737488355327, 140737488355327, 140737488355327, 140737488355327, 140737488355327, 140737488355327,
     140737488355327, 140737488355327, 140737488355327, 140737488355327, 140737488355327, 140737488355327,
     140737488355327, 140737488355327, 140737488355327, 140737488355327, 140737488355327],
      [140737488355327, 140737488355327, 140737488355327, 287788237984, 140737488355327, 140737488355327,
     287788237984, 140737488355327, 140737488355327, 287821792384, 140737488355327, 140737488355327, 140737488355327,
     140737488355327, 140737488355327, 140737488355327, 140737488355327, 140737488355327, 140737488355327,
     140737488355327, 140737488355327, 140737488355327, 140737488355327, 140737488355327, 140737488355327,
     140737488355327, 140737488355327, 140737488355327, 287788246160, 140737488355327, 140737488355327,
     140737488355327, 140737488355327, 140737488355327, 140737488355327, 140737488355327, 140737488355327,
     140737488355327, 140737488355327, 140737488355327, 140737488355327, 140737488355327, 140737488355327,
     140737488355327, 140737488355327, 140737488355327, 140737488355327],
      [140737488355327, 140737488355327, 1405019813360, 140737488355327, 140737488355327, 140737488355327,
     1405019809264, 140737488355327, 140737488355327, 140737488355327, 1405086903792, 140737488355327,
     140737488355327, 140737488355327, 140737488355327, 140737488355327, 140737488355327, 140737488355327,
     140737488355327, 1405019813360, 140737488355327, 140737488355327, 140737488355327, 1405086903792,
     140737488355327, 140737488355327, 140737488355327, 140737488355327, 140737488355327, 140737488355327,
     140737488355327, 140737488355327, 6352822119920, 140737488355327, 140737488355327, 140737488355327,
     140737488355327, 140737488355327, 140737488355327, 140737488355327, 140737488355327, 140737488355327,
     140737488355327, 140737488355327, 140737488355327, 140737488355327, 140737488355327],
      [140737488355327, 140737488355327, 140737488355327, 140737488355327, 1405019813360, 1405019813360,
     1405019813360, 1405019813360, 1405019813360, 140737488355327, 1405019813360, 1405019813360, 1405019813360,
     1405019813360, 1405019813360, 1405019813360, 140737488355327, 140737488355327, 1405019813360, 140737488355327,
     1405019813360, 1405019813360, 140737488355327, 1405019813360, 1405019813360, 140737488355327, 1405019813360,
     140737488355327, 140737488355327, 1405019813360, 140737488355327, 140737488355327, 1405019813360, 1405019813360,
     1405019813360, 140737488355327, 140737488355327, 140737488355327, 1405019813360, 1405019813360, 1405019813360,
     140737488355327, 1405019813360, 140737488355327, 140737488355327, 140737488355327, 140737488355327],
      [140737488355327, 140737488355327, 140737488355327, 140737488355327, 140737488355327, 140737488355327,
     1405019813360, 140737488355327, 140737488355327, 140737488355327, 1405086924272, 140737488355327,
     140737488355327, 140737488355327, 140737488355327, 140737488355327, 140737488355327, 140737488355327,
     140737488355327, 1405019813360, 140737488355327, 140737488355327, 140737488355327, 1405086924272,
     140737488355327, 140737488355327, 140737488355327, 140737488355327, 140737488355327, 140737488355327,
     140737488355327, 140737488355327, 6352822140400, 140737488355327, 140737488355327, 140737488355327,
     140737488355327, 140737488355327, 140737488355327, 140737488355327, 140737488355327, 140737488355327,
     140737488355327, 140737488355327, 140737488355327, 140737488355327, 140737488355327],
      [140737488355327, 140737488355327, 140737488355327, 140737488355327, 8192, 140737488355327, 140737488355327,
     140737488355327, 140737488355327, 140737488355327, 140737488355327, 140737488355327, 140737488355327,
     140737488355327, 140737488355327, 140737488355327, 140737488355327, 140737488355327, 140737488355327,
     140737488355327, 140737488355327, 140737488355327, 140737488355327, 140737488355327, 140737488355327,
     140737488355327, 140737488355327, 140737488355327, 140737488355327, 140737488355327, 140737488355327,
     140737488355327, 140737488355327, 140737488355327, 140737488355327, 140737488355327, 140737488355327,
     140737488355327, 140737488355327, 140737488355327, 140737488355327, 140737488355327, 140737488355327,
     140737488355327, 140737488355327, 140737488355327, 140737488355327],
      [140737488355327, 140737488355327, 4096, 256, 140737488355327, 140737488355327, 3145728, 140737488355327,
     140737488355327, 140737488355327, 83886080, 140737488355327, 140737488355327, 140737488355327, 140737488355327,
     16809984, 140737488355327, 140737488355327, 140737488355327, 4096, 140737488355327, 140737488355327,
     140737488355327, 83886080, 140737488355327, 8192, 140737488355327, 140737488355327, 140737488355327,
     140737488355327, 140737488355327, 140737488355327, 824633720832, 140737488355327, 140737488355327,
     140737488355327, 140737488355327, 140737488355327, 140737488355327, 140737488355327, 140737488355327,
     140737488355327, 140737488355327, 140737488355327, 140737488355327, 140737488355327, 140737488355327],
      [140737488355327, 140737488355327, 140737488355327, 140737488355327, 1405020337648, 1405019813360,
     1405020337648, 1405019813360, 1405019813360, 140737488355327, 1405019813360, 140737488355327, 1405020337648,
     1405020337648, 1405020337648, 1405019813360, 140737488355327, 140737488355327, 1405019813360, 1405020337648,
     1405019813360, 1405019813360, 140737488355327, 1405019813360, 1405019813360, 140737488355327, 140737488355327,
     140737488355327, 140737488355327, 1405020337648, 140737488355327, 140737488355327, 1405019813360, 1405019813360,
     1405019813360, 140737488355327, 140737488355327, 140737488355327, 1405019813360, 140737488355327, 1405019813360,
     140737488355327, 140737488355327, 140737488355327, 140737488355327, 140737488355327, 140737488355327],
      [140737488355327, 140737488355327, 41152, 140737488355327, 140737488355327, 140737488355327, 41152,
     140737488355327, 140737488355327, 140737488355327, 41152, 140737488355327, 140737488355327, 140737488355327,
     140737488355327, 140737488355327, 140737488355327, 140737488355327, 140737488355327, 41152, 140737488355327,
     140737488355327, 140737488355327, 41152, 140737488355327, 140737488355327, 140737488355327, 140737488355327,
     140737488355327, 140737488355327, 140737488355327, 140737488355327, 41152, 140737488355327, 140737488355327,
     140737488355327, 140737488355327, 140737488355327, 140737488355327, 140737488355327, 140737488355327,
     140737488355327, 140737488355327, 140737488355327, 140737488355327, 140737488355327, 140737488355327],
      [140737488355327, 140737488355327, 140737488355327, 140737488355327, 140737488355327, 140737488355327, 64,
     140737488355327, 140737488355327, 140737488355327, 140737488355327, 140737488355327, 64, 64, 140737488355327,
     140737488355327, 140737488355327, 140737488355327, 140737488355327, 140737488355327, 140737488355327, 64,
     140737488355327, 140737488355327, 140737488355327, 140737488355327, 64, 140737488355327, 140737488355327,
     140737488355327, 140737488355327, 140737488355327, 140737488355327, 140737488355327, 140737488355327,
     140737488355327, 140737488355327, 140737488355327, 140737488355327, 64, 140737488355327, 140737488355327,
     140737488355327, 140737488355327, 140737488355327, 140737488355327, 140737488355327],
      [140737488355327, 140737488355327, 140737488355327, 140737488355327, 140737488355327, 287788238216,
     140737488355327, 140737488355327, 140737488355327, 140737488355327, 140737488355327, 140737488355327,
     140737488355327, 140737488355327, 140737488355327, 140737488355327, 287788238216, 140737488355327,
     140737488355327, 140737488355327, 140737488355327, 140737488355327, 140737488355327, 140737488355327,
     140737488355327, 140737488355327, 140737488355327, 140737488355327, 140737488355327, 140737488355327,
     140737488355327, 140737488355327, 140737488355327, 140737488355327, 140737488355327, 140737488355327,
     140737488355327, 140737488355327, 140737488355327, 140737488355327, 140737488355327, 140737488355327,
     140737488355327, 140737488355327, 140737488355327, 140737488355327, 140737488355327],
      [140737488355327, 140737488355327, 140737488355327, 287788238216, 140737488355327, 287788238216,
     140737488355327, 287788238216, 287788238216, 140737488355327, 287788238216, 140737488355327, 140737488355327,
     140737488355327, 140737488355327, 140737488355327, 287788238216, 140737488355327, 287788238216, 140737488355327,
     140737488355327, 140737488355327, 140737488355327, 287788238216, 287788238216, 140737488355327, 140737488355327,
     140737488355327, 140737488355327, 140737488355327, 140737488355327, 140737488355327, 287788238216, 287788238216,
     140737488355327, 140737488355327, 140737488355327, 140737488355327, 287788238216, 140737488355327,
     140737488355327, 140737488355327, 140737488355327, 140737488355327, 140737488355327, 140737488355327,
     140737488355327],
      [140737488355327, 140737488355327, 140737488355327, 140737488355327, 140737488355327, 4303356960,
     140737488355327, 140737488355327, 4303356928, 140737488355327, 140737488355327, 140737488355327, 140737488355327,
     140737488355327, 140737488355327, 140737488355327, 140737488355327, 140737488355327, 140737488355327,
     140737488355327, 140737488355327, 140737488355327, 140737488355327, 140737488355327, 140737488355327,
     140737488355327, 140737488355327, 140737488355327, 140737488355327, 140737488355327, 140737488355327,
     140737488355327, 140737488355327, 140737488355327, 140737488355327, 140737488355327, 140737488355327,
     140737488355327, 140737488355327, 140737488355327, 140737488355327, 140737488355327, 140737488355327,
     140737488355327, 140737488355327, 140737488355327, 140737488355327],
      [140737488355327, 140737488355327, 140737488355327, 140737488355327, 140737488355327, 8320, 8320, 8320, 8320,
     140737488355327, 8320, 140737488355327, 140737488355327, 8320, 140737488355327, 8320, 140737488355327,
     140737488355327, 8320, 140737488355327, 8320, 8320, 140737488355327, 8320, 8320, 140737488355327,
     140737488355327, 140737488355327, 140737488355327, 140737488355327, 140737488355327, 140737488355327, 8320, 8320,
     8320, 140737488355327, 140737488355327, 140737488355327, 8320, 140737488355327, 8320, 140737488355327,
     140737488355327, 140737488355327, 140737488355327, 140737488355327, 140737488355327],
      [140737488355327, 140737488355327, 140737488355327, 140737488355327, 140737488355327, 8320, 8320, 8320, 8320,
     140737488355327, 8320, 140737488355327, 140737488355327, 8320, 140737488355327, 8320, 140737488355327,
     140737488355327, 8320, 140737488355327, 8320, 8320, 140737488355327, 8320, 8320, 140737488355327,
     140737488355327, 140737488355327, 140737488355327, 140737488355327, 140737488355327, 140737488355327, 8320, 8320,
     8320, 140737488355327, 140737488355327, 140737488355327, 8320, 140737488355327, 8320, 140737488355327,
     140737488355327, 140737488355327, 140737488355327, 140737488355327, 140737488355327],
      [140737488355327, 140737488355327, 140737488355327, 140737488355327, 140737488355327, 8320, 8320, 8320, 8320,
     140737488355327, 8320, 140737488355327, 140737488355327, 8320, 140737488355327, 8320, 140737488355327,
     140737488355327, 8320, 140737488355327, 8320, 8320, 140737488355327, 8320, 8320, 140737488355327,
     140737488355327, 140737488355327, 140737488355327, 140737488355327, 140737488355327, 140737488355327, 8320, 8320,
     8320, 140737488355327, 140737488355327, 140737488355327, 8320, 140737488355327, 8320, 140737488355327,
     140737488355327, 140737488355327, 140737488355327, 140737488355327, 140737488355327],
      [140737488355327, 140737488355327, 140737488355327, 140737488355327, 140737488355327, 140737488355327,
     140737488355327, 140737488355327, 140737488355327, 140737488355327, 8320, 140737488355327, 140737488355327,
     140737488355327, 140737488355327, 140737488355327, 140737488355327, 140737488355327, 140737488355327,
     140737488355327, 140737488355327, 140737488355327, 140737488355327, 8320, 140737488355327, 140737488355327,
     140737488355327, 140737488355327, 140737488355327, 140737488355327, 140737488355327, 140737488355327, 8320,
     140737488355327, 140737488355327, 140737488355327, 140737488355327, 140737488355327, 140737488355327,
     140737488355327, 140737488355327, 140737488355327, 140737488355327, 140737488355327, 140737488355327,
     140737488355327, 140737488355327],
      [140737488355327, 140737488355327, 140737488355327, 140737488355327, 140737488355327, 1404482921952,
     140737488355327, 1404482921952, 1404482921952, 140737488355327, 1404482921952, 140737488355327, 140737488355327,
     140737488355327, 140737488355327, 1404482921952, 140737488355327, 140737488355327, 1404482921952,
     140737488355327, 1404482921952, 1404482921952, 140737488355327, 1404482921952, 1404482921952, 140737488355327,
     140737488355327, 140737488355327, 140737488355327, 140737488355327, 140737488355327, 140737488355327,
     1404482921952, 1404482921952, 1404482921952, 140737488355327, 140737488355327, 140737488355327, 1404482921952,
     140737488355327, 1404482921952, 140737488355327, 140737488355327, 140737488355327, 140737488355327,
     140737488355327, 140737488355327],
      [140737488355327, 140737488355327, 140737488355327, 140737488355327, 140737488355327, 1404482913696,
     1404482913696, 1404482913696, 1404482913696, 140737488355327, 1404482913696, 140737488355327, 140737488355327,
     140737488355327, 140737488355327, 1404482913696, 140737488355327, 140737488355327, 1404482913696,
     140737488355327, 1404482913696, 1404482913696, 140737488355327, 1404482913696, 1404482913696, 140737488355327,
     140737488355327, 140737488355327, 140737488355327, 140737488355327, 140737488355327, 140737488355327,
     1404482913696, 1404482913696, 1404482913696, 140737488355327, 140737488355327, 140737488355327, 1404482913696,
     140737488355327, 1404482913696, 140737488355327, 140737488355327, 140737488355327, 140737488355327,
     140737488355327, 140737488355327],
      [140737488355327, 140737488355327, 140737488355327, 140737488355327, 140737488355327, 64, 140737488355327,
     140737488355327, 140737488355327, 140737488355327, 64, 140737488355327, 140737488355327, 140737488355327,
     140737488355327, 140737488355327, 140737488355327, 140737488355327, 140737488355327, 140737488355327,
     140737488355327, 140737488355327, 140737488355327, 64, 140737488355327, 140737488355327, 140737488355327,
     140737488355327, 140737488355327, 140737488355327, 140737488355327, 140737488355327, 64, 140737488355327,
     140737488355327, 140737488355327, 140737488355327, 140737488355327, 140737488355327, 140737488355327,
     140737488355327, 140737488355327, 140737488355327, 140737488355327, 140737488355327, 140737488355327,
     140737488355327],
      [140737488355327, 140737488355327, 140737488355327, 32, 140737488355327, 32, 32, 32, 32, 33554432, 32,
     140737488355327, 140737488355327, 140737488355327, 140737488355327, 32, 32, 32, 32, 140737488355327, 32,
     140737488355327, 32, 32, 32, 140737488355327, 140737488355327, 140737488355327, 16, 140737488355327, 32, 32, 32,
     32, 32, 32, 140737488355327, 32, 32, 32, 32, 32, 32, 32, 32, 32, 32],
      [140737488355327, 140737488355327, 140737488355327, 140737488355327, 140737488355327, 32, 140737488355327,
     140737488355327, 1024, 140737488355327, 140737488355327, 140737488355327, 140737488355327, 140737488355327,
     140737488355327, 140737488355327, 140737488355327, 140737488355327, 140737488355327, 140737488355327, 1024,
     140737488355327, 140737488355327, 140737488355327, 1024, 140737488355327, 140737488355327, 140737488355327,
     140737488355327, 1024, 140737488355327, 140737488355327, 140737488355327, 140737488355327, 140737488355327,
     140737488355327, 140737488355327, 140737488355327, 140737488355327, 140737488355327, 140737488355327,
     140737488355327, 140737488355327, 140737488355327, 140737488355327, 140737488355327, 140737488355327],
      [140737488355327, 140737488355327, 4096, 256, 32768, 32, 2097152, 32768, 32768, 33554432, 67108864, 8192,
     536870912, 64, 8192, 32768, 32, 64, 17179869184, 4096, 32768, 32768, 140737488355327, 67108864, 536870912, 8192,
     536870912, 68719476736, 536870912, 32768, 32, 32, 549755813888, 32, 1099511627776, 140737488355327,
     140737488355327, 32, 4398046511104, 4398046511104, 1099511627776, 140737488355327, 1099511627776, 32,
     140737488355327, 140737488355327, 140737488355327],
      [140737488355327, 140737488355327, 32768, 256, 8192, 140737488355327, 2097152, 32768, 32768, 33554432, 67108864,
     8192, 536870912, 140737488355327, 8192, 32768, 140737488355327, 140737488355327, 32768, 140737488355327, 32768,
     32768, 140737488355327, 140737488355327, 536870912, 140737488355327, 536870912, 32, 536870912, 32768,
     140737488355327, 140737488355327, 140737488355327, 140737488355327, 32768, 140737488355327, 140737488355327,
     140737488355327, 536870912, 536870912, 32768, 140737488355327, 32768, 140737488355327, 140737488355327,
     140737488355327, 140737488355327],
      [140737488355327, 140737488355327, 4096, 256, 262144, 32, 1048576, 16777216, 16777216, 16777216, 16777216,
     16777216, 16777216, 140737488355327, 16777216, 16777216, 1024, 1073741824, 8589934592, 4096, 16777216, 16777216,
     256, 16777216, 16777216, 8192, 16777216, 16, 536870912, 16777216, 32, 137438953472, 274877906944, 8589934592, 32,
     2199023255552, 140737488355327, 8589934592, 8589934592, 32, 32, 2199023255552, 32, 32, 70368744177664,
     34359738368, 2199023255552],
      [140737488355327, 140737488355327, 140737488355327, 8, 140737488355327, 8, 140737488355327, 1024, 1024, 1024,
     1024, 140737488355327, 140737488355327, 140737488355327, 140737488355327, 256, 1024, 140737488355327, 1024,
     140737488355327, 140737488355327, 140737488355327, 1024, 1024, 1024, 140737488355327, 140737488355327,
     140737488355327, 140737488355327, 140737488355327, 140737488355327, 1024, 1024, 1024, 140737488355327,
     140737488355327, 140737488355327, 1024, 1024, 140737488355327, 140737488355327, 140737488355327, 140737488355327,
     140737488355327, 140737488355327, 140737488355327, 140737488355327],
      [140737488355327, 140737488355327, 140737488355327, 32, 140737488355327, 140737488355327, 128, 140737488355327,
     140737488355327, 33554432, 140737488355327, 140737488355327, 140737488355327, 140737488355327, 140737488355327,
     140737488355327, 140737488355327, 140737488355327, 140737488355327, 140737488355327, 140737488355327,
     140737488355327, 140737488355327, 140737488355327, 140737488355327, 140737488355327, 140737488355327,
     140737488355327, 8192, 140737488355327, 140737488355327, 140737488355327, 140737488355327, 140737488355327,
     140737488355327, 140737488355327, 140737488355327, 140737488355327, 140737488355327, 140737488355327,
     140737488355327, 140737488355327, 140737488355327, 140737488355327, 140737488355327, 140737488355327,
     140737488355327],
      [],
      [],
      [140737488355327, 140737488355327, 140737488355327, 140737488355327, 140737488355327, 32, 140737488355327,
     140737488355327, 140737488355327, 140737488355327, 140737488355327, 140737488355327, 140737488355327,
     140737488355327, 140737488355327, 140737488355327, 140737488355327, 140737488355327, 140737488355327,
     140737488355327, 140737488355327, 140737488355327, 140737488355327, 140737488355327, 140737488355327,
     140737488355327, 140737488355327, 140737488355327, 140737488355327, 140737488355327, 140737488355327,
     140737488355327, 140737488355327, 140737488355327, 140737488355327, 140737488355327, 140737488355327,
     140737488355327, 140737488355327, 140737488355327, 140737488355327, 140737488355327, 140737488355327,
     140737488355327, 140737488355327, 140737488355327, 140737488355327],
      [],
      [],
      [140737488355327, 140737488355327, 140737488355327, 140737488355327, 140737488355327, 140737488355327,
     140737488355327, 32768, 32768, 140737488355327, 140737488355327, 140737488355327, 536903680, 140737488355327,
     140737488355327, 32768, 140737488355327, 140737488355327, 1116691529728, 140737488355327, 32768, 32768,
     140737488355327, 140737488355327, 536903680, 140737488355327, 536903680, 140737488355327, 140737488355327, 32768,
     140737488355327, 140737488355327, 140737488355327, 140737488355327, 140737488355327, 140737488355327,
     140737488355327, 140737488355327, 5498095042560, 5498095042560, 140737488355327, 140737488355327,
     140737488355327, 140737488355327, 140737488355327, 140737488355327, 140737488355327],
      [],
      [],
      [],
      [],
      [140737488355327, 140737488355327, 140737488355327, 140737488355327, 140737488355327, 140737488355327,
     140737488355327, 140737488355327, 287788237952, 140737488355327, 287788237952, 140737488355327, 140737488355327,
     140737488355327, 140737488355327, 287788238208, 140737488355327, 140737488355327, 287788237952, 140737488355327,
     140737488355327, 140737488355327, 140737488355327, 140737488355327, 287788237952, 140737488355327,
     140737488355327, 140737488355327, 140737488355327, 140737488355327, 140737488355327, 140737488355327,
     140737488355327, 140737488355327, 140737488355327, 140737488355327, 140737488355327, 287788237952,
     140737488355327, 140737488355327, 140737488355327, 140737488355327, 140737488355327, 140737488355327,
     140737488355327, 140737488355327, 140737488355327],
      [],
      [],
      [140737488355327, 140737488355327, 140737488355327, 140737488355327, 140737488355327, 140737488355327,
     140737488355327, 287788237952, 140737488355327, 140737488355327, 287788237952, 140737488355327, 140737488355327,
     140737488355327, 140737488355327, 140737488355327, 140737488355327, 140737488355327, 287788237952,
     140737488355327, 140737488355327, 140737488355327, 140737488355327, 287788237952, 287788237952, 140737488355327,
     140737488355327, 140737488355327, 140737488355327, 140737488355327, 140737488355327, 140737488355327,
     287788237952, 287788237952, 140737488355327, 140737488355327, 140737488355327, 140737488355327, 287788237952,
     140737488355327, 140737488355327, 140737488355327, 140737488355327, 140737488355327, 140737488355327,
     140737488355327, 140737488355327],
      [],
      [],
      [],
      [140737488355327, 140737488355327, 140737488355327, 140737488355327, 140737488355327, 140737488355327,
     140737488355327, 140737488355327, 287788237952, 140737488355327, 287788237952, 140737488355327, 140737488355327,
     140737488355327, 140737488355327, 140737488355327, 140737488355327, 140737488355327, 287788237952,
     140737488355327, 140737488355327, 140737488355327, 140737488355327, 140737488355327, 140737488355327,
     140737488355327, 140737488355327, 140737488355327, 140737488355327, 140737488355327, 140737488355327,
     140737488355327, 140737488355327, 140737488355327, 140737488355327, 140737488355327, 140737488355327,
     287788237952, 140737488355327, 140737488355327, 140737488355327, 2486811493504, 140737488355327, 140737488355327,
     140737488355327, 140737488355327, 2486811493504],
      [],
      [],
      [140737488355327, 140737488355327, 140737488355327, 140737488355327, 140737488355327, 1404482913696,
     140737488355327, 140737488355327, 140737488355327, 140737488355327, 140737488355327, 140737488355327,
     140737488355327, 140737488355327, 140737488355327, 140737488355327, 140737488355327, 140737488355327,
     140737488355327, 140737488355327, 140737488355327, 140737488355327, 140737488355327, 140737488355327,
     140737488355327, 140737488355327, 140737488355327, 140737488355327, 140737488355327, 140737488355327,
     140737488355327, 140737488355327, 140737488355327, 140737488355327, 140737488355327, 140737488355327,
     140737488355327, 140737488355327, 140737488355327, 140737488355327, 140737488355327, 140737488355327,
     140737488355327, 140737488355327, 140737488355327, 140737488355327, 140737488355327],
      [],
      [],
      [140737488355327, 140737488355327, 140737488355327, 287788237984, 140737488355327, 140737488355327,
     140737488355327, 140737488355327, 140737488355327, 140737488355327, 140737488355327, 140737488355327,
     140737488355327, 140737488355327, 140737488355327, 140737488355327, 140737488355327, 140737488355327,
     140737488355327, 140737488355327, 140737488355327, 140737488355327, 140737488355327, 140737488355327,
     140737488355327, 140737488355327, 140737488355327, 140737488355327, 140737488355327, 140737488355327,
     140737488355327, 140737488355327, 140737488355327, 140737488355327, 140737488355327, 140737488355327,
     140737488355327, 140737488355327, 140737488355327, 140737488355327, 140737488355327, 140737488355327,
     140737488355327, 140737488355327, 140737488355327, 140737488355327, 140737488355327],
      [],
      [],
      [],
      [140737488355327, 140737488355327, 140737488355327, 140737488355327, 140737488355327, 1404482913696,
     140737488355327, 140737488355327, 140737488355327, 140737488355327, 140737488355327, 140737488355327,
     140737488355327, 140737488355327, 140737488355327, 140737488355327, 140737488355327, 140737488355327,
     140737488355327, 140737488355327, 140737488355327, 140737488355327, 140737488355327, 140737488355327,
     140737488355327, 140737488355327, 140737488355327, 140737488355327, 140737488355327, 140737488355327,
     140737488355327, 140737488355327, 140737488355327, 140737488355327, 140737488355327, 140737488355327,
     140737488355327, 140737488355327, 140737488355327, 140737488355327, 140737488355327, 140737488355327,
     140737488355327, 140737488355327, 140737488355327, 140737488355327, 140737488355327],
      [],
      [140737488355327, 140737488355327, 140737488355327, 140737488355327, 140737488355327, 15148349915168,
     140737488355327, 140737488355327, 140737488355327, 140737488355327, 140737488355327, 140737488355327,
     140737488355327, 140737488355327, 140737488355327, 140737488355327, 140737488355327, 140737488355327,
     15148349915168, 140737488355327, 140737488355327, 140737488355327, 140737488355327, 140737488355327,
     140737488355327, 140737488355327, 140737488355327, 140737488355327, 140737488355327, 140737488355327,
     15148349915168, 140737488355327, 140737488355327, 140737488355327, 140737488355327, 140737488355327,
     140737488355327, 15148349915168, 140737488355327, 140737488355327, 140737488355327, 140737488355327,
     140737488355327, 140737488355327, 140737488355327, 140737488355327, 140737488355327],
      [140737488355327, 140737488355327, 140737488355327, 140737488355327, 140737488355327, 140737488355327,
     140737488355327, 287821825152, 140737488355327, 140737488355327, 287821825152, 140737488355327, 140737488355327,
     140737488355327, 140737488355327, 287821825152, 140737488355327, 140737488355327, 287821825152, 140737488355327,
     140737488355327, 140737488355327, 140737488355327, 287821825152, 287821825152, 287821825152, 140737488355327,
     140737488355327, 140737488355327, 140737488355327, 140737488355327, 140737488355327, 287821825152, 287821825152,
     140737488355327, 140737488355327, 140737488355327, 140737488355327, 287821825152, 140737488355327,
     140737488355327, 140737488355327, 140737488355327, 140737488355327, 140737488355327, 140737488355327,
     140737488355327],
      [],
      [],
      [],
      [],
      [140737488355327, 140737488355327, 140737488355327, 140737488355327, 1405019813360, 1405019813360,
     1405019813360, 1405019813360, 1405019813360, 140737488355327, 1405019813360, 1405019813360, 1405019813360,
     1405019813360, 1405019813360, 1405019813360, 140737488355327, 140737488355327, 1405019813360, 140737488355327,
     1405019813360, 1405019813360, 140737488355327, 1405019813360, 1405019813360, 140737488355327, 1405019813360,
     140737488355327, 140737488355327, 1405019813360, 140737488355327, 140737488355327, 1405019813360, 1405019813360,
     1405019813360, 140737488355327, 140737488355327, 140737488355327, 1405019813360, 1405019813360, 1405019813360,
     140737488355327, 1405019813360, 140737488355327, 140737488355327, 140737488355327, 140737488355327],
      [],
      [],
      [],
      [140737488355327, 140737488355327, 140737488355327, 140737488355327, 140737488355327, 1405020337648,
     1405020337648, 140737488355327, 140737488355327, 140737488355327, 140737488355327, 140737488355327,
     140737488355327, 140737488355327, 140737488355327, 140737488355327, 140737488355327, 140737488355327,
     140737488355327, 140737488355327, 140737488355327, 140737488355327, 140737488355327, 140737488355327,
     140737488355327, 140737488355327, 140737488355327, 140737488355327, 140737488355327, 140737488355327,
     140737488355327, 140737488355327, 140737488355327, 140737488355327, 140737488355327, 140737488355327,
     140737488355327, 140737488355327, 140737488355327, 140737488355327, 140737488355327, 140737488355327,
     140737488355327, 140737488355327, 140737488355327, 140737488355327, 140737488355327],
      [],
      [140737488355327, 140737488355327, 140737488355327, 140737488355327, 140737488355327, 140737488355327, 64,
     140737488355327, 140737488355327, 140737488355327, 140737488355327, 140737488355327, 64, 64, 140737488355327,
     140737488355327, 140737488355327, 140737488355327, 140737488355327, 140737488355327, 140737488355327, 64,
     140737488355327, 140737488355327, 140737488355327, 140737488355327, 64, 140737488355327, 140737488355327,
     140737488355327, 140737488355327, 140737488355327, 140737488355327, 140737488355327, 140737488355327,
     140737488355327, 140737488355327, 140737488355327, 140737488355327, 64, 140737488355327, 140737488355327,
     140737488355327, 140737488355327, 140737488355327, 140737488355327, 140737488355327],
      [],
      [140737488355327, 140737488355327, 140737488355327, 287788238216, 140737488355327, 287788238216,
     140737488355327, 287788238216, 287788238216, 140737488355327, 287788238216, 140737488355327, 140737488355327,
     140737488355327, 140737488355327, 140737488355327, 287788238216, 140737488355327, 287788238216, 140737488355327,
     140737488355327, 140737488355327, 140737488355327, 287788238216, 287788238216, 140737488355327, 140737488355327,
     140737488355327, 140737488355327, 140737488355327, 140737488355327, 140737488355327, 287788238216, 287788238216,
     140737488355327, 140737488355327, 140737488355327, 140737488355327, 287788238216, 140737488355327,
     140737488355327, 140737488355327, 140737488355327, 140737488355327, 140737488355327, 140737488355327,
     140737488355327],
      [],
      [140737488355327, 140737488355327, 140737488355327, 140737488355327, 140737488355327, 8320, 8320, 8320, 8320,
     140737488355327, 8320, 140737488355327, 140737488355327, 140737488355327, 140737488355327, 8320, 140737488355327,
     140737488355327, 8320, 140737488355327, 8320, 8320, 140737488355327, 8320, 8320, 140737488355327,
     140737488355327, 140737488355327, 140737488355327, 140737488355327, 140737488355327, 140737488355327, 8320, 8320,
     8320, 140737488355327, 140737488355327, 140737488355327, 8320, 140737488355327, 8320, 140737488355327,
     140737488355327, 140737488355327, 140737488355327, 140737488355327, 140737488355327],
      [],
      [],
      [],
      [],
      [140737488355327, 140737488355327, 140737488355327, 140737488355327, 140737488355327, 1404482913696,
     1404482913696, 140737488355327, 140737488355327, 140737488355327, 1404482913696, 140737488355327,
     140737488355327, 140737488355327, 140737488355327, 140737488355327, 140737488355327, 140737488355327,
     140737488355327, 140737488355327, 140737488355327, 140737488355327, 140737488355327, 1404482913696,
     140737488355327, 140737488355327, 140737488355327, 140737488355327, 140737488355327, 140737488355327,
     140737488355327, 140737488355327, 1404482913696, 140737488355327, 140737488355327, 140737488355327,
     140737488355327, 140737488355327, 140737488355327, 140737488355327, 140737488355327, 140737488355327,
     140737488355327, 140737488355327, 140737488355327, 140737488355327, 140737488355327],
      [],
      [],
      [],
      [],
      [],
      [],
      [],
      [],
      []]

/-- for each state, the states with which it has no continuation in common -/
def fifteenthPassDoomed : List Nat :=
  [140737488355327, 1, 68719476737, 1, 1, 1, 68719476737, 68719476737, 1, 68719476737, 1, 68719476737, 1,
     125447543193601, 68719476737, 1, 68719476737, 68719476737, 68719476737, 68719476737, 1, 68719476737, 68719484929,
     68719476737, 1, 52776558133249, 68719476737, 68719484929, 68719476737, 1, 1, 68719476737, 68719476737, 1,
     68719476737, 8193, 67644072880837, 1, 1, 68719476737, 68719476737, 8193, 68719476737, 68719476737, 68753039361,
     68753039361, 8193]

/-- the states where programs end -/
def fifteenthPassFinal : Nat := 1404482921952

/-- for each nonterminal, each state and whether the counter is known to be zero: the states behind it -/
def definitionsTable : List (List (Option (List Nat))) :=
  [[some [0], some [0], some [0], some [0], some [2], some [2], some [2], some [2]],
      [some [0], some [0], some [0], some [0], some [2], some [2], some [2], some [2]],
      [none, some [0], none, none, none, none, none, none],
      [none, some [0], none, none, none, none, none, none],
      [some [0], some [0], some [0], some [0], some [2], some [2], some [2], some [2]],
      [some [0], some [0], some [0], some [0], some [2], some [2], some [2], some [2]],
      [some [0, 1], some [0, 1], none, none, some [2, 3], some [2, 3], none, none],
      [some [0, 1], some [0, 1], none, none, some [2, 3], some [2, 3], none, none],
      [some [0, 1], some [0, 1], none, none, some [2, 3], some [2, 3], none, none],
      [some [0, 1], some [0, 1], none, none, some [2, 3], some [2, 3], none, none],
      [some [0, 1], some [0, 1], some [0, 1], some [0, 1], some [2, 3], some [2, 3], some [2, 3], some
     [2, 3]],
      [some [0], some [0], some [0], some [0], some [2], some [2], some [2], some [2]],
      [some [0, 1], some [0, 1], none, none, some [2, 3], some [2, 3], none, none],
      [some [0, 1], some [0, 1], some [0, 1], some [0, 1], some [2, 3], some [2, 3], some [2, 3], some
     [2, 3]],
      [some [0, 1], some [0, 1], none, none, some [2, 3], some [2, 3], none, none],
      [some [0, 1], some [0, 1], none, none, some [2, 3], some [2, 3], none, none],
      [some [0, 1], some [0, 1], some [0, 1], some [0, 1], some [2, 3], some [2, 3], some [2, 3], some
     [2, 3]],
      [some [0, 1], some [0, 1], some [0, 1], some [0, 1], some [2, 3], some [2, 3], some [2, 3], some
     [2, 3]],
      [none, some [0, 1, 2, 3], none, none, none, none, none, none],
      [none, some [0, 1, 2, 3], none, none, none, none, none, none],
      [none, some [0, 1, 2, 3], none, some [0, 1, 2, 3], none, some [0, 1, 2, 3], none, some [0, 1, 2,
     3]],
      [none, some [0, 1], none, none, none, some [2, 3], none, none],
      [some [0, 1], some [0, 1], none, none, some [2, 3], some [2, 3], none, none],
      [none, none, none, none, none, some [2, 3], none, some [2, 3]],
      [some [0, 1], some [0, 1], none, none, some [2, 3], some [2, 3], none, none],
      [some [0], some [0], none, none, some [2], some [2], none, none],
      [some [0, 1], some [0, 1], none, none, some [0, 1, 2, 3], some [0, 1, 2, 3], none, none],
      [some [0, 1], some [0, 1], some [0, 1], some [0, 1], none, none, none, none],
      [some [0, 1], none, none, none, none, none, none, none],
      [some [0, 1], none, some [0, 1], none, none, none, none, none],
      [some [0, 1], some [0, 1], some [0, 1], some [0, 1], some [2, 3], some [2, 3], some [2, 3], some
     [2, 3]],
      [some [0, 1], some [0, 1], none, none, some [2, 3], some [2, 3], none, none],
      [some [0, 1], some [0, 1], none, none, some [2, 3], some [2, 3], none, none],
      [some [0, 1], some [0, 1], none, none, some [2, 3], some [2, 3], none, none],
      [none, some [0, 1], none, some [0, 1], none, some [0, 1, 2, 3], none, some [0, 1, 2, 3]],
      [none, some [0, 1], none, some [0, 1], none, some [0, 1, 2, 3], none, some [0, 1, 2, 3]],
      [none, some [0, 1], none, some [0, 1], none, none, none, some [0, 1, 2, 3]],
      [none, some [1], none, none, none, some [3], none, none],
      [none, some [0], none, some [0], none, some [2], none, some [2]],
      [none, some [0, 1], none, some [0, 1], none, none, none, none],
      [none, some [0], none, some [0], none, some [2], none, some [2]],
      [none, some [0], none, none, none, some [2], none, none],
      [none, some [0, 1], none, none, none, some [2, 3], none, none],
      [none, some [0, 1], none, some [0, 1], none, some [2, 3], none, some [2, 3]],
      [none, some [1], none, none, none, some [3], none, none],
      [none, some [0], none, some [0], none, some [0, 2], none, some [0, 2]],
      [none, some [0], none, some [0], none, some [0, 2], none, some [0, 2]],
      [none, some [0], none, some [0], none, some [0, 2], none, some [0, 2]],
      [none, none, none, some [0], none, none, none, some [0, 2]],
      [none, some [0, 1], none, some [0, 1], none, some [0, 1, 2, 3], none, some [0, 1, 2, 3]],
      [none, some [0, 1], none, some [0, 1], none, some [0, 1, 2, 3], none, some [0, 1, 2, 3]],
      [none, none, none, some [0], none, none, none, some [0, 2]],
      [some [0], some [0], some [0], some [0], some [2], some [2], some [2], some [2]],
      [some [0], some [0], none, none, some [2], some [2], none, none],
      [some [0], some [0], some [0], some [0], some [2], some [2], some [2], some [2]],
      [some [0], some [0], some [0], some [0], some [2], some [2], some [2], some [2]],
      [some [0], some [0], some [0], some [0], some [2], some [2], some [2], some [2]],
      [some [0], some [0], some [0], some [0], some [2], some [2], some [2], some [2]],
      [some [0], some [0], none, none, some [2], some [2], none, none],
      [],
      [],
      [none, some [0], none, none, none, none, none, none],
      [],
      [],
      [some [0], some [0], none, none, some [2], some [2], none, none],
      [],
      [],
      [],
      [],
      [some [0, 1], some [0, 1], none, none, some [2, 3], some [2, 3], none, none],
      [],
      [],
      [some [0, 1], some [0, 1], some [0, 1], some [0, 1], some [2, 3], some [2, 3], some [2, 3], some
     [2, 3]],
      [],
      [],
      [],
      [some [0, 1], some [0, 1], none, none, some [2, 3], some [2, 3], none, none],
      [],
      [],
      [none, some [0, 1, 2, 3], none, none, none, none, none, none],
      [],
      [],
      [none, none, none, none, none, some [2, 3], none, none],
      [],
      [],
      [],
      [some [0, 1], some [0, 1], none, none, none, none, none, none],
      [],
      [some [0, 1], none, none, none, none, none, none, none],
      [some [0, 1], some [0, 1], some [0, 1], some [0, 1], some [2, 3], some [2, 3], some [2, 3], some
     [2, 3]],
      [],
      [],
      [],
      [],
      [none, some [0, 1], none, some [0, 1], none, some [0, 1, 2, 3], none, some [0, 1, 2, 3]],
      [],
      [],
      [],
      [none, some [0, 1], none, none, none, none, none, none],
      [],
      [none, some [0], none, none, none, some [2], none, none],
      [],
      [none, some [0, 1], none, some [0, 1], none, some [2, 3], none, some [2, 3]],
      [],
      [none, some [0], none, some [0], none, some [0, 2], none, some [0, 2]],
      [],
      [],
      [],
      [],
      [none, some [0, 1], none, some [0, 1], none, some [0, 1, 2, 3], none, some [0, 1, 2, 3]],
      [],
      [],
      [],
      [],
      [],
      [],
      [],
      [],
      []]

end Verif.LR
