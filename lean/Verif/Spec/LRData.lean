import Verif.Spec.LRCheck
/-
LALR(1) tables for the grammar of parser.lalrpop, written by tools/lr_tables.py.  Nothing about them is assumed: that they
fit the grammar is checked (`Props/LR`).
-/
namespace Verif.LR

/-- the productions of `desugared`, written out -/
def lrRules : List Rule :=
  [⟨118, [.n 18]⟩, ⟨0, [.t 51]⟩, ⟨1, [.n 0]⟩, ⟨1, [.t 37]⟩, ⟨1, [.n 56]⟩, ⟨2, [.n 1]⟩, ⟨2, [.n 1, .t 47, .n 1]⟩,
   ⟨3, [.n 3, .t 25, .n 2]⟩, ⟨3, [.t 25, .n 61]⟩, ⟨4, [.n 1]⟩, ⟨4, [.n 1, .t 4, .n 1]⟩, ⟨4, [.n 52, .t 4, .n 1]⟩,
   ⟨4, [.t 50]⟩, ⟨5, [.n 54]⟩, ⟨5, [.n 55]⟩, ⟨5, [.n 1, .t 4, .n 54]⟩, ⟨6, [.n 6, .n 5]⟩, ⟨6, [.n 5]⟩,
   ⟨6, [.t 8, .t 9]⟩, ⟨7, [.n 4]⟩, ⟨7, [.n 4, .n 69]⟩, ⟨7, [.t 43, .n 15, .n 16]⟩, ⟨7, [.t 8, .n 9, .t 9]⟩,
   ⟨7, [.n 11]⟩, ⟨7, [.t 22, .n 57, .t 4, .n 7]⟩, ⟨7, [.n 57]⟩, ⟨8, [.n 7, .t 14, .n 8]⟩, ⟨8, [.n 7, .t 14, .n 7]⟩,
   ⟨9, [.n 8]⟩, ⟨9, [.n 7]⟩, ⟨10, [.t 8, .n 9, .t 9]⟩, ⟨10, [.n 4]⟩, ⟨10, [.n 57]⟩, ⟨10, [.n 11]⟩,
   ⟨10, [.t 43, .n 15, .n 16]⟩, ⟨11, [.n 1, .t 29, .t 30]⟩, ⟨11, [.n 1, .t 29, .t 33, .t 30]⟩,
   ⟨11, [.n 1, .t 29, .t 33, .n 12, .t 30]⟩, ⟨11, [.n 1, .t 29, .t 24, .t 30]⟩, ⟨11, [.n 1, .t 29, .n 55, .t 30]⟩,
   ⟨12, [.n 14]⟩, ⟨12, [.n 14, .n 72]⟩, ⟨13, [.t 12, .n 14]⟩, ⟨14, [.t 38, .n 5, .t 3, .n 9]⟩, ⟨15, [.n 4]⟩,
   ⟨15, [.t 8, .n 4, .t 9]⟩, ⟨15, [.t 8, .n 11, .t 9]⟩, ⟨15, [.n 11]⟩, ⟨16, [.n 4]⟩, ⟨16, [.t 43, .n 15, .n 16]⟩,
   ⟨16, [.t 8, .n 24, .t 9]⟩, ⟨16, [.n 11]⟩, ⟨17, [.t 8, .n 24, .t 9]⟩, ⟨17, [.n 4]⟩, ⟨17, [.t 43, .n 15, .n 16]⟩,
   ⟨18, [.t 44, .n 53, .n 49]⟩, ⟨18, [.t 44, .n 53, .n 19, .n 49]⟩, ⟨18, [.t 44, .n 53, .n 3, .n 49]⟩,
   ⟨18, [.t 44, .n 53, .n 3, .n 19, .n 49]⟩, ⟨19, [.t 24, .n 1]⟩, ⟨19, [.t 24, .n 1, .n 79]⟩,
   ⟨20, [.t 26, .n 54, .t 15, .n 26]⟩, ⟨20, [.t 26, .n 54, .n 22, .t 15, .n 26]⟩, ⟨20, [.t 45, .n 1]⟩,
   ⟨20, [.t 45, .n 1, .t 15, .n 82]⟩, ⟨21, [.n 54, .n 22]⟩, ⟨22, [.t 3, .n 9]⟩, ⟨23, [.t 5, .n 1]⟩,
   ⟨23, [.t 5, .n 1, .t 46, .n 69]⟩, ⟨24, [.n 4, .n 76]⟩, ⟨24, [.n 16]⟩, ⟨25, [.t 10, .t 11]⟩,
   ⟨25, [.t 10, .n 69, .t 11]⟩, ⟨26, [.t 26, .n 54, .t 15, .n 26, .t 27, .n 26]⟩,
   ⟨26, [.t 26, .n 54, .n 22, .t 15, .n 26, .t 27, .n 26]⟩, ⟨26, [.t 31, .t 8, .n 54, .n 22, .t 9, .t 13, .n 26]⟩,
   ⟨26, [.n 5, .n 64]⟩, ⟨26, [.n 32]⟩, ⟨26, [.t 23, .n 54, .n 6]⟩, ⟨26, [.t 23, .n 54, .n 25, .n 6]⟩,
   ⟨26, [.t 10, .n 31, .t 11]⟩, ⟨26, [.t 10, .n 31, .n 89, .t 11]⟩, ⟨26, [.t 28, .n 5, .t 29, .n 86, .t 30]⟩,
   ⟨26, [.n 4]⟩, ⟨26, [.n 4, .n 64]⟩, ⟨26, [.n 4, .n 25]⟩, ⟨26, [.n 4, .n 25, .n 64]⟩,
   ⟨26, [.t 32, .n 57, .t 13, .n 26]⟩, ⟨26, [.t 19, .n 5, .n 69]⟩, ⟨27, [.t 5, .n 28, .t 13, .n 26]⟩,
   ⟨28, [.t 21]⟩, ⟨28, [.n 54]⟩, ⟨28, [.n 4]⟩, ⟨28, [.n 4, .n 88]⟩, ⟨29, [.t 21]⟩, ⟨29, [.n 54]⟩, ⟨29, [.n 4]⟩,
   ⟨29, [.t 8, .n 28, .t 9]⟩, ⟨30, [.t 2, .n 31]⟩, ⟨31, [.n 5, .t 3, .n 33]⟩, ⟨31, [.n 5, .t 3, .n 5]⟩,
   ⟨32, [.n 5]⟩, ⟨32, [.n 33]⟩, ⟨33, [.n 1, .n 53]⟩, ⟨33, [.n 52]⟩, ⟨33, [.n 58]⟩, ⟨33, [.t 49, .n 15, .n 16]⟩,
   ⟨34, [.n 54, .t 17, .n 5]⟩, ⟨34, [.n 40]⟩, ⟨34, [.n 54, .t 18, .n 5]⟩, ⟨34, [.n 54, .t 15, .n 26]⟩,
   ⟨34, [.n 54, .t 17, .t 16, .n 1]⟩, ⟨34, [.n 54, .t 17, .t 16, .n 1, .n 37]⟩,
   ⟨34, [.n 54, .t 17, .n 54, .n 100]⟩, ⟨34, [.n 54, .t 17, .t 40, .n 54, .n 100]⟩,
   ⟨34, [.n 54, .n 100, .t 18, .n 5]⟩, ⟨34, [.t 41, .n 54, .n 100]⟩, ⟨34, [.t 39]⟩, ⟨34, [.t 35, .n 5]⟩,
   ⟨34, [.t 36, .n 5]⟩, ⟨34, [.t 42]⟩, ⟨34, [.t 42, .n 5]⟩, ⟨34, [.t 28, .n 5, .t 29, .n 98, .t 30]⟩,
   ⟨34, [.n 38]⟩, ⟨34, [.n 38, .n 64]⟩, ⟨34, [.t 22, .n 5, .n 38]⟩, ⟨35, [.t 2, .n 34]⟩, ⟨36, [.n 34]⟩,
   ⟨36, [.n 34, .n 94]⟩, ⟨37, [.t 8, .n 64, .t 9]⟩, ⟨38, [.n 1]⟩, ⟨38, [.n 54]⟩, ⟨39, [.t 5, .n 28, .t 13]⟩,
   ⟨39, [.t 5, .n 28, .t 13, .n 36]⟩, ⟨40, [.n 54, .t 17, .t 16, .n 54, .t 4, .n 5]⟩,
   ⟨40, [.n 54, .t 17, .t 16, .n 55, .t 4, .n 55]⟩, ⟨40, [.n 54, .t 17, .t 16, .n 54, .t 4, .n 54, .n 100]⟩,
   ⟨40, [.n 54, .t 17, .t 16, .t 40, .n 54, .t 4, .n 54, .n 100]⟩, ⟨40, [.n 54, .t 17, .t 16, .n 5, .t 47, .n 11]⟩,
   ⟨41, [.t 6, .n 5, .t 7]⟩, ⟨42, [.n 21]⟩, ⟨43, [.t 12, .n 42]⟩, ⟨44, [.t 8, .t 9]⟩, ⟨44, [.t 8, .n 102, .t 9]⟩,
   ⟨44, [.t 8, .n 42, .t 9]⟩, ⟨44, [.t 8, .n 42, .n 102, .t 9]⟩, ⟨45, [.n 46]⟩, ⟨45, [.n 47]⟩,
   ⟨46, [.t 34, .n 38, .n 44, .n 48]⟩, ⟨47, [.t 48, .n 38, .n 44, .n 48]⟩, ⟨48, [.t 30]⟩, ⟨48, [.n 36, .t 30]⟩,
   ⟨49, [.t 33, .n 1, .n 44]⟩, ⟨49, [.t 33, .n 1, .n 44, .n 104]⟩, ⟨49, [.t 33, .n 1, .n 44, .n 109]⟩,
   ⟨49, [.t 33, .n 1, .n 44, .n 109, .n 104]⟩, ⟨49, [.t 33, .n 1, .n 44, .n 51]⟩,
   ⟨49, [.t 33, .n 1, .n 44, .n 51, .n 104]⟩, ⟨49, [.t 33, .n 1, .n 44, .n 51, .n 109]⟩,
   ⟨49, [.t 33, .n 1, .n 44, .n 51, .n 109, .n 104]⟩, ⟨50, [.t 38, .n 21, .t 15, .n 26]⟩,
   ⟨51, [.t 29, .n 26, .t 13]⟩, ⟨52, [.t 53]⟩, ⟨53, [.t 52]⟩, ⟨54, [.t 55]⟩, ⟨55, [.t 56]⟩, ⟨56, [.t 57]⟩,
   ⟨57, [.t 58]⟩, ⟨58, [.t 54]⟩, ⟨61, [.n 2]⟩, ⟨61, [.n 61, .n 2]⟩, ⟨69, [.n 10]⟩, ⟨69, [.n 69, .n 10]⟩,
   ⟨72, [.n 13]⟩, ⟨72, [.n 72, .n 13]⟩, ⟨79, [.n 20]⟩, ⟨79, [.n 79, .n 20]⟩, ⟨82, [.n 23]⟩, ⟨82, [.n 82, .n 23]⟩,
   ⟨76, [.n 17]⟩, ⟨76, [.n 76, .n 17]⟩, ⟨64, [.n 5]⟩, ⟨64, [.n 64, .n 5]⟩, ⟨89, [.n 30]⟩, ⟨89, [.n 89, .n 30]⟩,
   ⟨86, [.n 27]⟩, ⟨86, [.n 86, .n 27]⟩, ⟨88, [.n 29]⟩, ⟨88, [.n 88, .n 29]⟩, ⟨100, [.n 41]⟩,
   ⟨100, [.n 100, .n 41]⟩, ⟨98, [.n 39]⟩, ⟨98, [.n 98, .n 39]⟩, ⟨94, [.n 35]⟩, ⟨94, [.n 94, .n 35]⟩,
   ⟨102, [.n 43]⟩, ⟨102, [.n 102, .n 43]⟩, ⟨109, [.n 50]⟩, ⟨109, [.n 109, .n 50]⟩, ⟨104, [.n 45]⟩,
   ⟨104, [.n 104, .n 45]⟩]

/-- for every nonterminal the terminals it can begin with -/
def lrFirst : List Nat :=
  [4503599627370496, 292734250656989184, 292734250656989184, 67108864, 313000448980156416, 508907032770772992,
   508907032770773504, 889478793478013440, 889478793478013440, 889478793478013440, 889478793469624832,
   292734250656989184, 549755813888, 8192, 549755813888, 313000448980156928, 313018041166201344,
   313018041166201344, 35184372088832, 33554432, 70368878395392, 72057594037927936, 16, 64, 313018041166201344,
   2048, 566327941593565184, 64, 385058043022278656, 385058043022279168, 8, 508907032770772992, 564076128206061568,
   347903346092277760, 364806345049767936, 8, 364806345049767936, 512, 364791844694917120, 64, 72057594037927936,
   128, 72057594037927936, 8192, 512, 562984313159680, 34359738368, 562949953421312, 364806347197251584,
   17179869184, 549755813888, 1073741824, 18014398509481984, 9007199254740992, 72057594037927936,
   144115188075855872, 288230376151711744, 576460752303423488, 36028797018963968, 0, 0, 292734250656989184, 0, 0,
   508907032770772992, 0, 0, 0, 0, 889478793469624832, 0, 0, 8192, 0, 0, 0, 313018041166201344, 0, 0,
   70368878395392, 0, 0, 64, 0, 0, 0, 64, 0, 385058043022279168, 8, 0, 0, 0, 0, 8, 0, 0, 0, 64, 0, 128, 0, 8192, 0,
   562984313159680, 0, 0, 0, 0, 549755813888, 0, 0, 0, 0, 0, 0, 0, 0, 35184372088832]

/-- productions that show, in this order, that the nonterminals are productive -/
def lrOrder : List Nat :=
  [1, 2, 5, 9, 18, 19, 27, 28, 30, 35, 44, 48, 53, 59, 63, 66, 67, 70, 71, 83, 90, 94, 106, 117, 126, 127, 130,
   132, 142, 150, 152, 161, 162, 163, 164, 165, 166, 167, 168, 169, 171, 175, 177, 179, 187, 191, 193, 8, 13, 43,
   55, 65, 89, 99, 101, 134, 139, 140, 141, 148, 149, 160, 181, 185, 189, 195, 197, 0, 40, 42, 98, 129, 146, 173,
   183, 199]

/-- ranks against cycles of unit productions -/
def lrRanks : List Nat :=
  [1, 2, 3, 0, 3, 2, 3, 4, 0, 5, 4, 0, 1, 0, 0, 4, 4, 4, 0, 0, 0, 0, 0, 0, 5, 0, 4, 0, 4, 4, 0, 0, 3, 2, 4, 0, 5,
   0, 3, 0, 0, 0, 1, 0, 0, 1, 0, 0, 1, 0, 0, 0, 1, 1, 1, 1, 1, 1, 1, 0, 0, 4, 0, 0, 3, 0, 0, 0, 0, 5, 0, 0, 1, 0,
   0, 0, 5, 0, 0, 1, 0, 0, 1, 0, 0, 0, 1, 0, 5, 1, 0, 0, 0, 0, 1, 0, 0, 0, 1, 0, 1, 0, 1, 0, 2, 0, 0, 0, 0, 1, 0,
   0, 0, 0, 0, 0, 0, 0, 1]

def lrMaxRank : Nat := 5

def lrStates0 : List State :=
  [⟨[⟨0, 0, 1⟩, ⟨55, 0, 1⟩, ⟨56, 0, 1⟩, ⟨57, 0, 1⟩, ⟨58, 0, 1⟩],
    [(.n 18, 1), (.t 44, 2)]⟩,
   ⟨[⟨0, 1, 1⟩],
    []⟩,
   ⟨[⟨55, 1, 1⟩, ⟨56, 1, 1⟩, ⟨57, 1, 1⟩, ⟨58, 1, 1⟩, ⟨163, 0, 17280532480⟩],
    [(.n 53, 3), (.t 52, 4)]⟩,
   ⟨[⟨55, 2, 1⟩, ⟨56, 2, 1⟩, ⟨57, 2, 1⟩, ⟨58, 2, 1⟩, ⟨152, 0, 1⟩, ⟨153, 0, 1⟩, ⟨154, 0, 1⟩, ⟨155, 0, 1⟩,
     ⟨156, 0, 1⟩, ⟨157, 0, 1⟩, ⟨158, 0, 1⟩, ⟨159, 0, 1⟩, ⟨59, 0, 17179869184⟩, ⟨60, 0, 17179869184⟩,
     ⟨7, 0, 17280532480⟩, ⟨8, 0, 17280532480⟩],
    [(.n 49, 5), (.n 19, 6), (.n 3, 7), (.t 33, 8), (.t 24, 9), (.t 25, 10)]⟩,
   ⟨[⟨163, 1, 633922643841097⟩],
    []⟩,
   ⟨[⟨55, 3, 1⟩],
    []⟩,
   ⟨[⟨56, 3, 1⟩, ⟨152, 0, 1⟩, ⟨153, 0, 1⟩, ⟨154, 0, 1⟩, ⟨155, 0, 1⟩, ⟨156, 0, 1⟩, ⟨157, 0, 1⟩, ⟨158, 0, 1⟩,
     ⟨159, 0, 1⟩],
    [(.n 49, 11), (.t 33, 8)]⟩,
   ⟨[⟨57, 3, 1⟩, ⟨58, 3, 1⟩, ⟨7, 1, 17280532480⟩, ⟨152, 0, 1⟩, ⟨153, 0, 1⟩, ⟨154, 0, 1⟩, ⟨155, 0, 1⟩, ⟨156, 0, 1⟩,
     ⟨157, 0, 1⟩, ⟨158, 0, 1⟩, ⟨159, 0, 1⟩, ⟨59, 0, 17179869184⟩, ⟨60, 0, 17179869184⟩],
    [(.n 49, 12), (.n 19, 13), (.t 25, 14), (.t 33, 8), (.t 24, 9)]⟩,
   ⟨[⟨152, 1, 1⟩, ⟨153, 1, 1⟩, ⟨154, 1, 1⟩, ⟨155, 1, 1⟩, ⟨156, 1, 1⟩, ⟨157, 1, 1⟩, ⟨158, 1, 1⟩, ⟨159, 1, 1⟩,
     ⟨2, 0, 512⟩, ⟨3, 0, 512⟩, ⟨4, 0, 512⟩, ⟨1, 0, 512⟩, ⟨166, 0, 512⟩],
    [(.n 1, 15), (.n 0, 16), (.t 37, 17), (.n 56, 18), (.t 51, 19), (.t 57, 20)]⟩,
   ⟨[⟨59, 1, 17179869184⟩, ⟨60, 1, 17179869184⟩, ⟨2, 0, 70386058264576⟩, ⟨3, 0, 70386058264576⟩,
     ⟨4, 0, 70386058264576⟩, ⟨1, 0, 70386058264576⟩, ⟨166, 0, 70386058264576⟩],
    [(.n 1, 21), (.n 0, 16), (.t 37, 17), (.n 56, 18), (.t 51, 19), (.t 57, 20)]⟩,
   ⟨[⟨8, 1, 17280532480⟩, ⟨169, 0, 292734267937521664⟩, ⟨170, 0, 292734267937521664⟩, ⟨5, 0, 292734267937521664⟩,
     ⟨6, 0, 292734267937521664⟩, ⟨2, 0, 293015742914232320⟩, ⟨3, 0, 293015742914232320⟩,
     ⟨4, 0, 293015742914232320⟩, ⟨1, 0, 293015742914232320⟩, ⟨166, 0, 293015742914232320⟩],
    [(.n 61, 22), (.n 2, 23), (.n 1, 24), (.n 0, 16), (.t 37, 17), (.n 56, 18), (.t 51, 19), (.t 57, 20)]⟩,
   ⟨[⟨56, 4, 1⟩],
    []⟩,
   ⟨[⟨57, 4, 1⟩],
    []⟩,
   ⟨[⟨58, 4, 1⟩, ⟨152, 0, 1⟩, ⟨153, 0, 1⟩, ⟨154, 0, 1⟩, ⟨155, 0, 1⟩, ⟨156, 0, 1⟩, ⟨157, 0, 1⟩, ⟨158, 0, 1⟩,
     ⟨159, 0, 1⟩],
    [(.n 49, 25), (.t 33, 8)]⟩,
   ⟨[⟨7, 2, 17280532480⟩, ⟨5, 0, 17280532480⟩, ⟨6, 0, 17280532480⟩, ⟨2, 0, 281492257243136⟩,
     ⟨3, 0, 281492257243136⟩, ⟨4, 0, 281492257243136⟩, ⟨1, 0, 281492257243136⟩, ⟨166, 0, 281492257243136⟩],
    [(.n 2, 26), (.n 1, 24), (.n 0, 16), (.t 37, 17), (.n 56, 18), (.t 51, 19), (.t 57, 20)]⟩,
   ⟨[⟨152, 2, 1⟩, ⟨153, 2, 1⟩, ⟨154, 2, 1⟩, ⟨155, 2, 1⟩, ⟨156, 2, 1⟩, ⟨157, 2, 1⟩, ⟨158, 2, 1⟩, ⟨159, 2, 1⟩,
     ⟨142, 0, 563535142715393⟩, ⟨143, 0, 563535142715393⟩, ⟨144, 0, 563535142715393⟩, ⟨145, 0, 563535142715393⟩],
    [(.n 44, 27), (.t 8, 28)]⟩,
   ⟨[⟨2, 1, 1115714911025102441⟩],
    []⟩,
   ⟨[⟨3, 1, 1115714911025102441⟩],
    []⟩,
   ⟨[⟨4, 1, 1115714911025102441⟩],
    []⟩,
   ⟨[⟨1, 1, 1115714911025102441⟩],
    []⟩,
   ⟨[⟨166, 1, 1115714911025102441⟩],
    []⟩,
   ⟨[⟨59, 2, 17179869184⟩, ⟨60, 2, 17179869184⟩, ⟨175, 0, 70386058264576⟩, ⟨176, 0, 70386058264576⟩,
     ⟨61, 0, 70386058264576⟩, ⟨62, 0, 70386058264576⟩, ⟨63, 0, 70386058264576⟩, ⟨64, 0, 70386058264576⟩],
    [(.n 79, 29), (.n 20, 30), (.t 26, 31), (.t 45, 32)]⟩,
   ⟨[⟨8, 2, 17280532480⟩, ⟨170, 1, 292734267937521664⟩, ⟨5, 0, 292734267937521664⟩, ⟨6, 0, 292734267937521664⟩,
     ⟨2, 0, 293015742914232320⟩, ⟨3, 0, 293015742914232320⟩, ⟨4, 0, 293015742914232320⟩,
     ⟨1, 0, 293015742914232320⟩, ⟨166, 0, 293015742914232320⟩],
    [(.n 2, 33), (.n 1, 24), (.n 0, 16), (.t 37, 17), (.n 56, 18), (.t 51, 19), (.t 57, 20)]⟩,
   ⟨[⟨169, 1, 292734267937521664⟩],
    []⟩,
   ⟨[⟨5, 1, 292734267937521664⟩, ⟨6, 1, 292734267937521664⟩],
    [(.t 47, 34)]⟩,
   ⟨[⟨58, 5, 1⟩],
    []⟩,
   ⟨[⟨7, 3, 17280532480⟩],
    []⟩,
   ⟨[⟨152, 3, 1⟩, ⟨153, 3, 1⟩, ⟨154, 3, 1⟩, ⟨155, 3, 1⟩, ⟨156, 3, 1⟩, ⟨157, 3, 1⟩, ⟨158, 3, 1⟩, ⟨159, 3, 1⟩,
     ⟨199, 0, 562984313159681⟩, ⟨200, 0, 562984313159681⟩, ⟨197, 0, 563534068973569⟩, ⟨198, 0, 563534068973569⟩,
     ⟨161, 0, 563534068973569⟩, ⟨146, 0, 562984313159681⟩, ⟨147, 0, 562984313159681⟩, ⟨160, 0, 563534068973569⟩,
     ⟨148, 0, 562984313159681⟩, ⟨149, 0, 562984313159681⟩],
    [(.n 104, 35), (.n 109, 36), (.n 51, 37), (.n 45, 38), (.n 50, 39), (.t 29, 40), (.n 46, 41), (.n 47, 42),
     (.t 38, 43), (.t 34, 44), (.t 48, 45)]⟩,
   ⟨[⟨142, 1, 365369882339966977⟩, ⟨143, 1, 365369882339966977⟩, ⟨144, 1, 365369882339966977⟩,
     ⟨145, 1, 365369882339966977⟩, ⟨195, 0, 9216⟩, ⟨196, 0, 9216⟩, ⟨140, 0, 9216⟩, ⟨141, 0, 9216⟩, ⟨65, 0, 9216⟩,
     ⟨164, 0, 16⟩],
    [(.t 9, 46), (.n 102, 47), (.n 42, 48), (.n 43, 49), (.n 21, 50), (.t 12, 51), (.n 54, 52), (.t 55, 53)]⟩,
   ⟨[⟨60, 3, 17179869184⟩, ⟨176, 1, 70386058264576⟩, ⟨61, 0, 70386058264576⟩, ⟨62, 0, 70386058264576⟩,
     ⟨63, 0, 70386058264576⟩, ⟨64, 0, 70386058264576⟩],
    [(.n 20, 54), (.t 26, 31), (.t 45, 32)]⟩,
   ⟨[⟨175, 1, 70386058264576⟩],
    []⟩,
   ⟨[⟨61, 1, 70386058264576⟩, ⟨62, 1, 70386058264576⟩, ⟨164, 0, 65552⟩],
    [(.n 54, 55), (.t 55, 53)]⟩,
   ⟨[⟨63, 1, 70386058264576⟩, ⟨64, 1, 70386058264576⟩, ⟨2, 0, 70386058330112⟩, ⟨3, 0, 70386058330112⟩,
     ⟨4, 0, 70386058330112⟩, ⟨1, 0, 70386058330112⟩, ⟨166, 0, 70386058330112⟩],
    [(.n 1, 56), (.n 0, 16), (.t 37, 17), (.n 56, 18), (.t 51, 19), (.t 57, 20)]⟩,
   ⟨[⟨170, 2, 292734267937521664⟩],
    []⟩,
   ⟨[⟨6, 2, 292734267937521664⟩, ⟨2, 0, 292734267937521664⟩, ⟨3, 0, 292734267937521664⟩,
     ⟨4, 0, 292734267937521664⟩, ⟨1, 0, 292734267937521664⟩, ⟨166, 0, 292734267937521664⟩],
    [(.n 1, 57), (.n 0, 16), (.t 37, 17), (.n 56, 18), (.t 51, 19), (.t 57, 20)]⟩,
   ⟨[⟨153, 4, 1⟩, ⟨200, 1, 562984313159681⟩, ⟨146, 0, 562984313159681⟩, ⟨147, 0, 562984313159681⟩,
     ⟨148, 0, 562984313159681⟩, ⟨149, 0, 562984313159681⟩],
    [(.n 45, 58), (.n 46, 41), (.n 47, 42), (.t 34, 44), (.t 48, 45)]⟩,
   ⟨[⟨154, 4, 1⟩, ⟨155, 4, 1⟩, ⟨198, 1, 563534068973569⟩, ⟨199, 0, 562984313159681⟩, ⟨200, 0, 562984313159681⟩,
     ⟨160, 0, 563534068973569⟩, ⟨146, 0, 562984313159681⟩, ⟨147, 0, 562984313159681⟩, ⟨148, 0, 562984313159681⟩,
     ⟨149, 0, 562984313159681⟩],
    [(.n 104, 59), (.n 50, 60), (.n 45, 38), (.t 38, 43), (.n 46, 41), (.n 47, 42), (.t 34, 44), (.t 48, 45)]⟩,
   ⟨[⟨156, 4, 1⟩, ⟨157, 4, 1⟩, ⟨158, 4, 1⟩, ⟨159, 4, 1⟩, ⟨199, 0, 562984313159681⟩, ⟨200, 0, 562984313159681⟩,
     ⟨197, 0, 563534068973569⟩, ⟨198, 0, 563534068973569⟩, ⟨146, 0, 562984313159681⟩, ⟨147, 0, 562984313159681⟩,
     ⟨160, 0, 563534068973569⟩, ⟨148, 0, 562984313159681⟩, ⟨149, 0, 562984313159681⟩],
    [(.n 104, 61), (.n 109, 62), (.n 45, 38), (.n 50, 39), (.n 46, 41), (.n 47, 42), (.t 38, 43), (.t 34, 44),
     (.t 48, 45)]⟩,
   ⟨[⟨199, 1, 562984313159681⟩],
    []⟩,
   ⟨[⟨197, 1, 563534068973569⟩],
    []⟩]

def lrStates1 : List State :=
  [⟨[⟨161, 1, 563534068973569⟩, ⟨73, 0, 16384⟩, ⟨74, 0, 16384⟩, ⟨75, 0, 16384⟩, ⟨76, 0, 16384⟩, ⟨77, 0, 16384⟩,
     ⟨78, 0, 16384⟩, ⟨79, 0, 16384⟩, ⟨80, 0, 16384⟩, ⟨81, 0, 16384⟩, ⟨82, 0, 16384⟩, ⟨83, 0, 16384⟩,
     ⟨84, 0, 16384⟩, ⟨85, 0, 16384⟩, ⟨86, 0, 16384⟩, ⟨87, 0, 16384⟩, ⟨88, 0, 16384⟩, ⟨13, 0, 508907032770789376⟩,
     ⟨14, 0, 508907032770789376⟩, ⟨15, 0, 508907032770789376⟩, ⟨101, 0, 16384⟩, ⟨102, 0, 16384⟩,
     ⟨9, 0, 508907032770791424⟩, ⟨10, 0, 508907032770791424⟩, ⟨11, 0, 508907032770791424⟩,
     ⟨12, 0, 508907032770791424⟩, ⟨164, 0, 508907032770789376⟩, ⟨165, 0, 508907032770789376⟩,
     ⟨2, 0, 517914232025532448⟩, ⟨3, 0, 517914232025532448⟩, ⟨4, 0, 517914232025532448⟩, ⟨103, 0, 16384⟩,
     ⟨104, 0, 16384⟩, ⟨105, 0, 16384⟩, ⟨106, 0, 16384⟩, ⟨162, 0, 16416⟩, ⟨1, 0, 517914232025532448⟩,
     ⟨166, 0, 517914232025532448⟩, ⟨168, 0, 16384⟩],
    [(.n 26, 63), (.t 26, 64), (.t 31, 65), (.n 5, 66), (.n 32, 67), (.t 23, 68), (.t 10, 69), (.t 28, 70),
     (.n 4, 71), (.t 32, 72), (.t 19, 73), (.n 54, 74), (.n 55, 75), (.n 1, 76), (.n 33, 77), (.n 52, 78),
     (.t 50, 79), (.t 55, 53), (.t 56, 80), (.n 0, 16), (.t 37, 17), (.n 56, 18), (.n 58, 81), (.t 49, 82),
     (.t 53, 83), (.t 51, 19), (.t 57, 20), (.t 54, 84)]⟩,
   ⟨[⟨146, 1, 562984313159681⟩],
    []⟩,
   ⟨[⟨147, 1, 562984313159681⟩],
    []⟩,
   ⟨[⟨160, 1, 563534068973569⟩, ⟨65, 0, 65536⟩, ⟨164, 0, 16⟩],
    [(.n 21, 85), (.n 54, 52), (.t 55, 53)]⟩,
   ⟨[⟨148, 1, 562984313159681⟩, ⟨130, 0, 512⟩, ⟨131, 0, 512⟩, ⟨2, 0, 512⟩, ⟨3, 0, 512⟩, ⟨4, 0, 512⟩, ⟨164, 0, 512⟩,
     ⟨1, 0, 512⟩, ⟨166, 0, 512⟩],
    [(.n 38, 86), (.n 1, 87), (.n 54, 88), (.n 0, 16), (.t 37, 17), (.n 56, 18), (.t 55, 53), (.t 51, 19),
     (.t 57, 20)]⟩,
   ⟨[⟨149, 1, 562984313159681⟩, ⟨130, 0, 512⟩, ⟨131, 0, 512⟩, ⟨2, 0, 512⟩, ⟨3, 0, 512⟩, ⟨4, 0, 512⟩, ⟨164, 0, 512⟩,
     ⟨1, 0, 512⟩, ⟨166, 0, 512⟩],
    [(.n 38, 89), (.n 1, 87), (.n 54, 88), (.n 0, 16), (.t 37, 17), (.n 56, 18), (.t 55, 53), (.t 51, 19),
     (.t 57, 20)]⟩,
   ⟨[⟨142, 2, 365369882339966977⟩],
    []⟩,
   ⟨[⟨143, 2, 365369882339966977⟩, ⟨196, 1, 9216⟩, ⟨141, 0, 9216⟩],
    [(.t 9, 90), (.n 43, 91), (.t 12, 51)]⟩,
   ⟨[⟨144, 2, 365369882339966977⟩, ⟨145, 2, 365369882339966977⟩, ⟨195, 0, 9216⟩, ⟨196, 0, 9216⟩, ⟨141, 0, 9216⟩],
    [(.t 9, 92), (.n 102, 93), (.n 43, 49), (.t 12, 51)]⟩,
   ⟨[⟨195, 1, 9216⟩],
    []⟩,
   ⟨[⟨140, 1, 9216⟩],
    []⟩,
   ⟨[⟨141, 1, 9216⟩, ⟨140, 0, 9216⟩, ⟨65, 0, 9216⟩, ⟨164, 0, 16⟩],
    [(.n 42, 94), (.n 21, 50), (.n 54, 52), (.t 55, 53)]⟩,
   ⟨[⟨65, 1, 74752⟩, ⟨66, 0, 74752⟩],
    [(.n 22, 95), (.t 3, 96)]⟩,
   ⟨[⟨164, 1, 1106566974182088697⟩],
    []⟩,
   ⟨[⟨176, 2, 70386058264576⟩],
    []⟩,
   ⟨[⟨61, 2, 70386058264576⟩, ⟨62, 2, 70386058264576⟩, ⟨66, 0, 65536⟩],
    [(.t 15, 97), (.n 22, 98), (.t 3, 96)]⟩,
   ⟨[⟨63, 2, 70386058264576⟩, ⟨64, 2, 70386058264576⟩],
    [(.t 15, 99)]⟩,
   ⟨[⟨6, 3, 292734267937521664⟩],
    []⟩,
   ⟨[⟨200, 2, 562984313159681⟩],
    []⟩,
   ⟨[⟨155, 5, 1⟩, ⟨200, 1, 562984313159681⟩, ⟨146, 0, 562984313159681⟩, ⟨147, 0, 562984313159681⟩,
     ⟨148, 0, 562984313159681⟩, ⟨149, 0, 562984313159681⟩],
    [(.n 45, 58), (.n 46, 41), (.n 47, 42), (.t 34, 44), (.t 48, 45)]⟩,
   ⟨[⟨198, 2, 563534068973569⟩],
    []⟩,
   ⟨[⟨157, 5, 1⟩, ⟨200, 1, 562984313159681⟩, ⟨146, 0, 562984313159681⟩, ⟨147, 0, 562984313159681⟩,
     ⟨148, 0, 562984313159681⟩, ⟨149, 0, 562984313159681⟩],
    [(.n 45, 58), (.n 46, 41), (.n 47, 42), (.t 34, 44), (.t 48, 45)]⟩,
   ⟨[⟨158, 5, 1⟩, ⟨159, 5, 1⟩, ⟨198, 1, 563534068973569⟩, ⟨199, 0, 562984313159681⟩, ⟨200, 0, 562984313159681⟩,
     ⟨160, 0, 563534068973569⟩, ⟨146, 0, 562984313159681⟩, ⟨147, 0, 562984313159681⟩, ⟨148, 0, 562984313159681⟩,
     ⟨149, 0, 562984313159681⟩],
    [(.n 104, 100), (.n 50, 60), (.n 45, 38), (.t 38, 43), (.n 46, 41), (.n 47, 42), (.t 34, 44), (.t 48, 45)]⟩,
   ⟨[⟨161, 2, 563534068973569⟩],
    [(.t 13, 101)]⟩,
   ⟨[⟨73, 1, 633922543173705⟩, ⟨74, 1, 633922543173705⟩, ⟨164, 0, 65552⟩],
    [(.n 54, 102), (.t 55, 53)]⟩,
   ⟨[⟨75, 1, 633922543173705⟩],
    [(.t 8, 103)]⟩,
   ⟨[⟨76, 1, 633922543173705⟩, ⟨101, 1, 633922543173705⟩, ⟨181, 0, 509540955313946697⟩,
     ⟨182, 0, 509540955313946697⟩, ⟨13, 0, 509540955313946697⟩, ⟨14, 0, 509540955313946697⟩,
     ⟨15, 0, 509540955313946697⟩, ⟨164, 0, 509540955313946697⟩, ⟨165, 0, 509540955313946697⟩, ⟨2, 0, 32⟩,
     ⟨3, 0, 32⟩, ⟨4, 0, 32⟩, ⟨1, 0, 32⟩, ⟨166, 0, 32⟩],
    [(.n 64, 104), (.n 5, 105), (.n 54, 74), (.n 55, 75), (.n 1, 106), (.t 55, 53), (.t 56, 80), (.n 0, 16),
     (.t 37, 17), (.n 56, 18), (.t 51, 19), (.t 57, 20)]⟩,
   ⟨[⟨77, 1, 633922543173705⟩],
    []⟩,
   ⟨[⟨78, 1, 633922543173705⟩, ⟨79, 1, 633922543173705⟩, ⟨164, 0, 508907032770775552⟩],
    [(.n 54, 107), (.t 55, 53)]⟩,
   ⟨[⟨80, 1, 633922543173705⟩, ⟨81, 1, 633922543173705⟩, ⟨99, 0, 4104⟩, ⟨100, 0, 4104⟩, ⟨13, 0, 16⟩, ⟨14, 0, 16⟩,
     ⟨15, 0, 16⟩, ⟨164, 0, 16⟩, ⟨165, 0, 16⟩, ⟨2, 0, 32⟩, ⟨3, 0, 32⟩, ⟨4, 0, 32⟩, ⟨1, 0, 32⟩, ⟨166, 0, 32⟩],
    [(.n 31, 108), (.n 5, 109), (.n 54, 74), (.n 55, 75), (.n 1, 106), (.t 55, 53), (.t 56, 80), (.n 0, 16),
     (.t 37, 17), (.n 56, 18), (.t 51, 19), (.t 57, 20)]⟩,
   ⟨[⟨82, 1, 633922543173705⟩, ⟨13, 0, 1073741824⟩, ⟨14, 0, 1073741824⟩, ⟨15, 0, 1073741824⟩, ⟨164, 0, 1073741824⟩,
     ⟨165, 0, 1073741824⟩, ⟨2, 0, 32⟩, ⟨3, 0, 32⟩, ⟨4, 0, 32⟩, ⟨1, 0, 32⟩, ⟨166, 0, 32⟩],
    [(.n 5, 110), (.n 54, 74), (.n 55, 75), (.n 1, 106), (.t 55, 53), (.t 56, 80), (.n 0, 16), (.t 37, 17),
     (.n 56, 18), (.t 51, 19), (.t 57, 20)]⟩,
   ⟨[⟨83, 1, 633922543173705⟩, ⟨84, 1, 633922543173705⟩, ⟨85, 1, 633922543173705⟩, ⟨86, 1, 633922543173705⟩,
     ⟨181, 0, 509540955313946697⟩, ⟨182, 0, 509540955313946697⟩, ⟨71, 0, 509540955313946697⟩,
     ⟨72, 0, 509540955313946697⟩, ⟨13, 0, 509540955313946697⟩, ⟨14, 0, 509540955313946697⟩,
     ⟨15, 0, 509540955313946697⟩, ⟨164, 0, 509540955313946697⟩, ⟨165, 0, 509540955313946697⟩, ⟨2, 0, 32⟩,
     ⟨3, 0, 32⟩, ⟨4, 0, 32⟩, ⟨1, 0, 32⟩, ⟨166, 0, 32⟩],
    [(.n 64, 111), (.n 25, 112), (.n 5, 105), (.t 10, 113), (.n 54, 74), (.n 55, 75), (.n 1, 106), (.t 55, 53),
     (.t 56, 80), (.n 0, 16), (.t 37, 17), (.n 56, 18), (.t 51, 19), (.t 57, 20)]⟩,
   ⟨[⟨87, 1, 633922543173705⟩, ⟨167, 0, 16384⟩],
    [(.n 57, 114), (.t 58, 115)]⟩,
   ⟨[⟨88, 1, 633922543173705⟩, ⟨13, 0, 889478793469624832⟩, ⟨14, 0, 889478793469624832⟩,
     ⟨15, 0, 889478793469624832⟩, ⟨164, 0, 889478793469624832⟩, ⟨165, 0, 889478793469624832⟩, ⟨2, 0, 32⟩,
     ⟨3, 0, 32⟩, ⟨4, 0, 32⟩, ⟨1, 0, 32⟩, ⟨166, 0, 32⟩],
    [(.n 5, 116), (.n 54, 74), (.n 55, 75), (.n 1, 106), (.t 55, 53), (.t 56, 80), (.n 0, 16), (.t 37, 17),
     (.n 56, 18), (.t 51, 19), (.t 57, 20)]⟩,
   ⟨[⟨13, 1, 1106285499200329561⟩],
    []⟩,
   ⟨[⟨14, 1, 1106285499200329561⟩],
    []⟩,
   ⟨[⟨15, 1, 509540955313946697⟩, ⟨9, 1, 509540955313948745⟩, ⟨10, 1, 509540955313948745⟩,
     ⟨103, 1, 633922543173705⟩, ⟨163, 0, 633922543173705⟩],
    [(.t 4, 117), (.n 53, 118), (.t 52, 4)]⟩,
   ⟨[⟨102, 1, 633922543173705⟩],
    []⟩,
   ⟨[⟨11, 1, 509540955313948745⟩, ⟨104, 1, 633922543173705⟩],
    [(.t 4, 119)]⟩,
   ⟨[⟨12, 1, 1106285498130890313⟩],
    []⟩]

def lrStates2 : List State :=
  [⟨[⟨165, 1, 1106566974177040249⟩],
    []⟩,
   ⟨[⟨105, 1, 633922543177801⟩],
    []⟩,
   ⟨[⟨106, 1, 633922543177801⟩, ⟨44, 0, 313018041166201344⟩, ⟨45, 0, 313018041166201344⟩,
     ⟨46, 0, 313018041166201344⟩, ⟨47, 0, 313018041166201344⟩, ⟨9, 0, 313018041166201344⟩,
     ⟨10, 0, 313018041166201344⟩, ⟨11, 0, 313018041166201344⟩, ⟨12, 0, 313018041166201344⟩,
     ⟨35, 0, 313018041166201344⟩, ⟨36, 0, 313018041166201344⟩, ⟨37, 0, 313018041166201344⟩,
     ⟨38, 0, 313018041166201344⟩, ⟨39, 0, 313018041166201344⟩, ⟨2, 0, 313018042239943200⟩,
     ⟨3, 0, 313018042239943200⟩, ⟨4, 0, 313018042239943200⟩, ⟨162, 0, 32⟩, ⟨1, 0, 313018042239943200⟩,
     ⟨166, 0, 313018042239943200⟩],
    [(.n 15, 120), (.n 4, 121), (.t 8, 122), (.n 11, 123), (.n 1, 124), (.n 52, 125), (.t 50, 79), (.n 0, 16),
     (.t 37, 17), (.n 56, 18), (.t 53, 83), (.t 51, 19), (.t 57, 20)]⟩,
   ⟨[⟨162, 1, 633922543177833⟩],
    []⟩,
   ⟨[⟨168, 1, 633922543177801⟩],
    []⟩,
   ⟨[⟨160, 2, 563534068973569⟩],
    [(.t 15, 126)]⟩,
   ⟨[⟨148, 2, 562984313159681⟩, ⟨142, 0, 364806347197251584⟩, ⟨143, 0, 364806347197251584⟩,
     ⟨144, 0, 364806347197251584⟩, ⟨145, 0, 364806347197251584⟩],
    [(.n 44, 127), (.t 8, 28)]⟩,
   ⟨[⟨130, 1, 508907034918257224⟩],
    []⟩,
   ⟨[⟨131, 1, 2147484232⟩],
    []⟩,
   ⟨[⟨149, 2, 562984313159681⟩, ⟨142, 0, 364806347197251584⟩, ⟨143, 0, 364806347197251584⟩,
     ⟨144, 0, 364806347197251584⟩, ⟨145, 0, 364806347197251584⟩],
    [(.n 44, 128), (.t 8, 28)]⟩,
   ⟨[⟨143, 3, 365369882339966977⟩],
    []⟩,
   ⟨[⟨196, 2, 9216⟩],
    []⟩,
   ⟨[⟨144, 3, 365369882339966977⟩],
    []⟩,
   ⟨[⟨145, 3, 365369882339966977⟩, ⟨196, 1, 9216⟩, ⟨141, 0, 9216⟩],
    [(.t 9, 129), (.n 43, 91), (.t 12, 51)]⟩,
   ⟨[⟨141, 2, 9216⟩],
    []⟩,
   ⟨[⟨65, 2, 74752⟩],
    []⟩,
   ⟨[⟨66, 1, 74752⟩, ⟨28, 0, 74752⟩, ⟨29, 0, 74752⟩, ⟨26, 0, 74752⟩, ⟨27, 0, 74752⟩, ⟨19, 0, 107520⟩,
     ⟨20, 0, 107520⟩, ⟨21, 0, 107520⟩, ⟨22, 0, 107520⟩, ⟨23, 0, 107520⟩, ⟨24, 0, 107520⟩, ⟨25, 0, 107520⟩,
     ⟨9, 0, 889478793469732352⟩, ⟨10, 0, 889478793469732352⟩, ⟨11, 0, 889478793469732352⟩,
     ⟨12, 0, 889478793469732352⟩, ⟨35, 0, 107520⟩, ⟨36, 0, 107520⟩, ⟨37, 0, 107520⟩, ⟨38, 0, 107520⟩,
     ⟨39, 0, 107520⟩, ⟨167, 0, 107520⟩, ⟨2, 0, 889478794543474208⟩, ⟨3, 0, 889478794543474208⟩,
     ⟨4, 0, 889478794543474208⟩, ⟨162, 0, 32⟩, ⟨1, 0, 889478794543474208⟩, ⟨166, 0, 889478794543474208⟩],
    [(.n 9, 130), (.n 8, 131), (.n 7, 132), (.n 4, 133), (.t 43, 134), (.t 8, 135), (.n 11, 136), (.t 22, 137),
     (.n 57, 138), (.n 1, 124), (.n 52, 125), (.t 50, 79), (.t 58, 115), (.n 0, 16), (.t 37, 17), (.n 56, 18),
     (.t 53, 83), (.t 51, 19), (.t 57, 20)]⟩,
   ⟨[⟨61, 3, 70386058264576⟩, ⟨73, 0, 70386058264576⟩, ⟨74, 0, 70386058264576⟩, ⟨75, 0, 70386058264576⟩,
     ⟨76, 0, 70386058264576⟩, ⟨77, 0, 70386058264576⟩, ⟨78, 0, 70386058264576⟩, ⟨79, 0, 70386058264576⟩,
     ⟨80, 0, 70386058264576⟩, ⟨81, 0, 70386058264576⟩, ⟨82, 0, 70386058264576⟩, ⟨83, 0, 70386058264576⟩,
     ⟨84, 0, 70386058264576⟩, ⟨85, 0, 70386058264576⟩, ⟨86, 0, 70386058264576⟩, ⟨87, 0, 70386058264576⟩,
     ⟨88, 0, 70386058264576⟩, ⟨13, 0, 508977418829037568⟩, ⟨14, 0, 508977418829037568⟩,
     ⟨15, 0, 508977418829037568⟩, ⟨101, 0, 70386058264576⟩, ⟨102, 0, 70386058264576⟩, ⟨9, 0, 508977418829039616⟩,
     ⟨10, 0, 508977418829039616⟩, ⟨11, 0, 508977418829039616⟩, ⟨12, 0, 508977418829039616⟩,
     ⟨164, 0, 508977418829037568⟩, ⟨165, 0, 508977418829037568⟩, ⟨2, 0, 517984618083780640⟩,
     ⟨3, 0, 517984618083780640⟩, ⟨4, 0, 517984618083780640⟩, ⟨103, 0, 70386058264576⟩, ⟨104, 0, 70386058264576⟩,
     ⟨105, 0, 70386058264576⟩, ⟨106, 0, 70386058264576⟩, ⟨162, 0, 70386058264608⟩, ⟨1, 0, 517984618083780640⟩,
     ⟨166, 0, 517984618083780640⟩, ⟨168, 0, 70386058264576⟩],
    [(.n 26, 139), (.t 26, 64), (.t 31, 65), (.n 5, 66), (.n 32, 67), (.t 23, 68), (.t 10, 69), (.t 28, 70),
     (.n 4, 71), (.t 32, 72), (.t 19, 73), (.n 54, 74), (.n 55, 75), (.n 1, 76), (.n 33, 77), (.n 52, 78),
     (.t 50, 79), (.t 55, 53), (.t 56, 80), (.n 0, 16), (.t 37, 17), (.n 56, 18), (.n 58, 81), (.t 49, 82),
     (.t 53, 83), (.t 51, 19), (.t 57, 20), (.t 54, 84)]⟩,
   ⟨[⟨62, 3, 70386058264576⟩],
    [(.t 15, 140)]⟩,
   ⟨[⟨64, 3, 70386058264576⟩, ⟨177, 0, 70386058264640⟩, ⟨178, 0, 70386058264640⟩, ⟨67, 0, 70386058264640⟩,
     ⟨68, 0, 70386058264640⟩],
    [(.n 82, 141), (.n 23, 142), (.t 5, 143)]⟩,
   ⟨[⟨159, 6, 1⟩, ⟨200, 1, 562984313159681⟩, ⟨146, 0, 562984313159681⟩, ⟨147, 0, 562984313159681⟩,
     ⟨148, 0, 562984313159681⟩, ⟨149, 0, 562984313159681⟩],
    [(.n 45, 58), (.n 46, 41), (.n 47, 42), (.t 34, 44), (.t 48, 45)]⟩,
   ⟨[⟨161, 3, 563534068973569⟩],
    []⟩,
   ⟨[⟨73, 2, 633922543173705⟩, ⟨74, 2, 633922543173705⟩, ⟨66, 0, 65536⟩],
    [(.t 15, 144), (.n 22, 145), (.t 3, 96)]⟩,
   ⟨[⟨75, 2, 633922543173705⟩, ⟨164, 0, 16⟩],
    [(.n 54, 146), (.t 55, 53)]⟩,
   ⟨[⟨76, 2, 633922543173705⟩, ⟨182, 1, 509540955313946697⟩, ⟨13, 0, 509540955313946697⟩,
     ⟨14, 0, 509540955313946697⟩, ⟨15, 0, 509540955313946697⟩, ⟨164, 0, 509540955313946697⟩,
     ⟨165, 0, 509540955313946697⟩, ⟨2, 0, 32⟩, ⟨3, 0, 32⟩, ⟨4, 0, 32⟩, ⟨1, 0, 32⟩, ⟨166, 0, 32⟩],
    [(.n 5, 147), (.n 54, 74), (.n 55, 75), (.n 1, 106), (.t 55, 53), (.t 56, 80), (.n 0, 16), (.t 37, 17),
     (.n 56, 18), (.t 51, 19), (.t 57, 20)]⟩,
   ⟨[⟨181, 1, 509540955313947721⟩],
    []⟩,
   ⟨[⟨15, 1, 1106285499200325465⟩],
    [(.t 4, 148)]⟩,
   ⟨[⟨78, 2, 633922543173705⟩, ⟨79, 2, 633922543173705⟩, ⟨16, 0, 509540955313946697⟩, ⟨17, 0, 509540955313946697⟩,
     ⟨18, 0, 509540955313946697⟩, ⟨71, 0, 508907032770773504⟩, ⟨72, 0, 508907032770773504⟩,
     ⟨13, 0, 509540955313946697⟩, ⟨14, 0, 509540955313946697⟩, ⟨15, 0, 509540955313946697⟩,
     ⟨164, 0, 509540955313946697⟩, ⟨165, 0, 509540955313946697⟩, ⟨2, 0, 32⟩, ⟨3, 0, 32⟩, ⟨4, 0, 32⟩, ⟨1, 0, 32⟩,
     ⟨166, 0, 32⟩],
    [(.n 6, 149), (.n 25, 150), (.n 5, 151), (.t 8, 152), (.t 10, 113), (.n 54, 74), (.n 55, 75), (.n 1, 106),
     (.t 55, 53), (.t 56, 80), (.n 0, 16), (.t 37, 17), (.n 56, 18), (.t 51, 19), (.t 57, 20)]⟩,
   ⟨[⟨80, 2, 633922543173705⟩, ⟨81, 2, 633922543173705⟩, ⟨183, 0, 4104⟩, ⟨184, 0, 4104⟩, ⟨98, 0, 4104⟩],
    [(.t 11, 153), (.n 89, 154), (.n 30, 155), (.t 2, 156)]⟩,
   ⟨[⟨99, 1, 4104⟩, ⟨100, 1, 4104⟩],
    [(.t 3, 157)]⟩,
   ⟨[⟨82, 2, 633922543173705⟩],
    [(.t 29, 158)]⟩,
   ⟨[⟨84, 2, 633922543173705⟩, ⟨182, 1, 509540955313946697⟩, ⟨13, 0, 509540955313946697⟩,
     ⟨14, 0, 509540955313946697⟩, ⟨15, 0, 509540955313946697⟩, ⟨164, 0, 509540955313946697⟩,
     ⟨165, 0, 509540955313946697⟩, ⟨2, 0, 32⟩, ⟨3, 0, 32⟩, ⟨4, 0, 32⟩, ⟨1, 0, 32⟩, ⟨166, 0, 32⟩],
    [(.n 5, 147), (.n 54, 74), (.n 55, 75), (.n 1, 106), (.t 55, 53), (.t 56, 80), (.n 0, 16), (.t 37, 17),
     (.n 56, 18), (.t 51, 19), (.t 57, 20)]⟩,
   ⟨[⟨85, 2, 633922543173705⟩, ⟨86, 2, 633922543173705⟩, ⟨181, 0, 509540955313946697⟩,
     ⟨182, 0, 509540955313946697⟩, ⟨13, 0, 509540955313946697⟩, ⟨14, 0, 509540955313946697⟩,
     ⟨15, 0, 509540955313946697⟩, ⟨164, 0, 509540955313946697⟩, ⟨165, 0, 509540955313946697⟩, ⟨2, 0, 32⟩,
     ⟨3, 0, 32⟩, ⟨4, 0, 32⟩, ⟨1, 0, 32⟩, ⟨166, 0, 32⟩],
    [(.n 64, 159), (.n 5, 105), (.n 54, 74), (.n 55, 75), (.n 1, 106), (.t 55, 53), (.t 56, 80), (.n 0, 16),
     (.t 37, 17), (.n 56, 18), (.t 51, 19), (.t 57, 20)]⟩,
   ⟨[⟨71, 1, 509540955313947209⟩, ⟨72, 1, 509540955313947209⟩, ⟨171, 0, 889478793469628928⟩,
     ⟨172, 0, 889478793469628928⟩, ⟨30, 0, 889478793469628928⟩, ⟨31, 0, 889478793469628928⟩,
     ⟨32, 0, 889478793469628928⟩, ⟨33, 0, 889478793469628928⟩, ⟨34, 0, 889478793469628928⟩,
     ⟨9, 0, 889478793469628928⟩, ⟨10, 0, 889478793469628928⟩, ⟨11, 0, 889478793469628928⟩,
     ⟨12, 0, 889478793469628928⟩, ⟨167, 0, 889478793469628928⟩, ⟨35, 0, 889478793469628928⟩,
     ⟨36, 0, 889478793469628928⟩, ⟨37, 0, 889478793469628928⟩, ⟨38, 0, 889478793469628928⟩,
     ⟨39, 0, 889478793469628928⟩, ⟨2, 0, 889478794543370784⟩, ⟨3, 0, 889478794543370784⟩,
     ⟨4, 0, 889478794543370784⟩, ⟨162, 0, 32⟩, ⟨1, 0, 889478794543370784⟩, ⟨166, 0, 889478794543370784⟩],
    [(.t 11, 160), (.n 69, 161), (.n 10, 162), (.t 8, 163), (.n 4, 164), (.n 57, 165), (.n 11, 166), (.t 43, 167),
     (.n 1, 124), (.n 52, 125), (.t 50, 79), (.t 58, 115), (.n 0, 16), (.t 37, 17), (.n 56, 18), (.t 53, 83),
     (.t 51, 19), (.t 57, 20)]⟩,
   ⟨[⟨87, 2, 633922543173705⟩],
    [(.t 13, 168)]⟩,
   ⟨[⟨167, 1, 890112716012910185⟩],
    []⟩,
   ⟨[⟨88, 2, 633922543173705⟩, ⟨171, 0, 890112716012798537⟩, ⟨172, 0, 890112716012798537⟩,
     ⟨30, 0, 890112716012798537⟩, ⟨31, 0, 890112716012798537⟩, ⟨32, 0, 890112716012798537⟩,
     ⟨33, 0, 890112716012798537⟩, ⟨34, 0, 890112716012798537⟩, ⟨9, 0, 890112716012798537⟩,
     ⟨10, 0, 890112716012798537⟩, ⟨11, 0, 890112716012798537⟩, ⟨12, 0, 890112716012798537⟩,
     ⟨167, 0, 890112716012798537⟩, ⟨35, 0, 890112716012798537⟩, ⟨36, 0, 890112716012798537⟩,
     ⟨37, 0, 890112716012798537⟩, ⟨38, 0, 890112716012798537⟩, ⟨39, 0, 890112716012798537⟩,
     ⟨2, 0, 890112717086540393⟩, ⟨3, 0, 890112717086540393⟩, ⟨4, 0, 890112717086540393⟩, ⟨162, 0, 32⟩,
     ⟨1, 0, 890112717086540393⟩, ⟨166, 0, 890112717086540393⟩],
    [(.n 69, 169), (.n 10, 162), (.t 8, 163), (.n 4, 164), (.n 57, 165), (.n 11, 166), (.t 43, 167), (.n 1, 124),
     (.n 52, 125), (.t 50, 79), (.t 58, 115), (.n 0, 16), (.t 37, 17), (.n 56, 18), (.t 53, 83), (.t 51, 19),
     (.t 57, 20)]⟩,
   ⟨[⟨15, 2, 509540955313946697⟩, ⟨10, 2, 509540955313948745⟩, ⟨164, 0, 509540955313946697⟩,
     ⟨2, 0, 509540955313948745⟩, ⟨3, 0, 509540955313948745⟩, ⟨4, 0, 509540955313948745⟩,
     ⟨1, 0, 509540955313948745⟩, ⟨166, 0, 509540955313948745⟩],
    [(.n 54, 170), (.n 1, 171), (.t 55, 53), (.n 0, 16), (.t 37, 17), (.n 56, 18), (.t 51, 19), (.t 57, 20)]⟩,
   ⟨[⟨103, 2, 633922543177801⟩],
    []⟩,
   ⟨[⟨11, 2, 1106285498130890313⟩, ⟨2, 0, 1106285498130890313⟩, ⟨3, 0, 1106285498130890313⟩,
     ⟨4, 0, 1106285498130890313⟩, ⟨1, 0, 1106285498130890313⟩, ⟨166, 0, 1106285498130890313⟩],
    [(.n 1, 172), (.n 0, 16), (.t 37, 17), (.n 56, 18), (.t 51, 19), (.t 57, 20)]⟩]

def lrStates3 : List State :=
  [⟨[⟨106, 2, 633922543177801⟩, ⟨48, 0, 633922543177801⟩, ⟨49, 0, 633922543177801⟩, ⟨50, 0, 633922543177801⟩,
     ⟨51, 0, 633922543177801⟩, ⟨9, 0, 633922543177801⟩, ⟨10, 0, 633922543177801⟩, ⟨11, 0, 633922543177801⟩,
     ⟨12, 0, 633922543177801⟩, ⟨35, 0, 633922543177801⟩, ⟨36, 0, 633922543177801⟩, ⟨37, 0, 633922543177801⟩,
     ⟨38, 0, 633922543177801⟩, ⟨39, 0, 633922543177801⟩, ⟨2, 0, 633923616919657⟩, ⟨3, 0, 633923616919657⟩,
     ⟨4, 0, 633923616919657⟩, ⟨162, 0, 32⟩, ⟨1, 0, 633923616919657⟩, ⟨166, 0, 633923616919657⟩],
    [(.n 16, 173), (.n 4, 174), (.t 43, 175), (.t 8, 176), (.n 11, 177), (.n 1, 124), (.n 52, 125), (.t 50, 79),
     (.n 0, 16), (.t 37, 17), (.n 56, 18), (.t 53, 83), (.t 51, 19), (.t 57, 20)]⟩,
   ⟨[⟨44, 1, 313018041166201344⟩],
    []⟩,
   ⟨[⟨45, 1, 313018041166201344⟩, ⟨46, 1, 313018041166201344⟩, ⟨9, 0, 1024⟩, ⟨10, 0, 1024⟩, ⟨11, 0, 1024⟩,
     ⟨12, 0, 1024⟩, ⟨35, 0, 1024⟩, ⟨36, 0, 1024⟩, ⟨37, 0, 1024⟩, ⟨38, 0, 1024⟩, ⟨39, 0, 1024⟩, ⟨2, 0, 1073742880⟩,
     ⟨3, 0, 1073742880⟩, ⟨4, 0, 1073742880⟩, ⟨162, 0, 32⟩, ⟨1, 0, 1073742880⟩, ⟨166, 0, 1073742880⟩],
    [(.n 4, 178), (.n 11, 179), (.n 1, 124), (.n 52, 125), (.t 50, 79), (.n 0, 16), (.t 37, 17), (.n 56, 18),
     (.t 53, 83), (.t 51, 19), (.t 57, 20)]⟩,
   ⟨[⟨47, 1, 313018041166201344⟩],
    []⟩,
   ⟨[⟨9, 1, 890112716012910153⟩, ⟨10, 1, 890112716012910153⟩, ⟨35, 1, 890112716012910153⟩,
     ⟨36, 1, 890112716012910153⟩, ⟨37, 1, 890112716012910153⟩, ⟨38, 1, 890112716012910153⟩,
     ⟨39, 1, 890112716012910153⟩],
    [(.t 4, 180), (.t 29, 181)]⟩,
   ⟨[⟨11, 1, 962170310055032393⟩],
    [(.t 4, 119)]⟩,
   ⟨[⟨160, 3, 563534068973569⟩, ⟨73, 0, 563534068973569⟩, ⟨74, 0, 563534068973569⟩, ⟨75, 0, 563534068973569⟩,
     ⟨76, 0, 563534068973569⟩, ⟨77, 0, 563534068973569⟩, ⟨78, 0, 563534068973569⟩, ⟨79, 0, 563534068973569⟩,
     ⟨80, 0, 563534068973569⟩, ⟨81, 0, 563534068973569⟩, ⟨82, 0, 563534068973569⟩, ⟨83, 0, 563534068973569⟩,
     ⟨84, 0, 563534068973569⟩, ⟨85, 0, 563534068973569⟩, ⟨86, 0, 563534068973569⟩, ⟨87, 0, 563534068973569⟩,
     ⟨88, 0, 563534068973569⟩, ⟨13, 0, 509470566839746561⟩, ⟨14, 0, 509470566839746561⟩,
     ⟨15, 0, 509470566839746561⟩, ⟨101, 0, 563534068973569⟩, ⟨102, 0, 563534068973569⟩, ⟨9, 0, 509470566839748609⟩,
     ⟨10, 0, 509470566839748609⟩, ⟨11, 0, 509470566839748609⟩, ⟨12, 0, 509470566839748609⟩,
     ⟨164, 0, 509470566839746561⟩, ⟨165, 0, 509470566839746561⟩, ⟨2, 0, 518477766094489633⟩,
     ⟨3, 0, 518477766094489633⟩, ⟨4, 0, 518477766094489633⟩, ⟨103, 0, 563534068973569⟩, ⟨104, 0, 563534068973569⟩,
     ⟨105, 0, 563534068973569⟩, ⟨106, 0, 563534068973569⟩, ⟨162, 0, 563534068973601⟩, ⟨1, 0, 518477766094489633⟩,
     ⟨166, 0, 518477766094489633⟩, ⟨168, 0, 563534068973569⟩],
    [(.n 26, 182), (.t 26, 64), (.t 31, 65), (.n 5, 66), (.n 32, 67), (.t 23, 68), (.t 10, 69), (.t 28, 70),
     (.n 4, 71), (.t 32, 72), (.t 19, 73), (.n 54, 74), (.n 55, 75), (.n 1, 76), (.n 33, 77), (.n 52, 78),
     (.t 50, 79), (.t 55, 53), (.t 56, 80), (.n 0, 16), (.t 37, 17), (.n 56, 18), (.n 58, 81), (.t 49, 82),
     (.t 53, 83), (.t 51, 19), (.t 57, 20), (.t 54, 84)]⟩,
   ⟨[⟨148, 3, 562984313159681⟩, ⟨150, 0, 562984313159681⟩, ⟨151, 0, 562984313159681⟩, ⟨127, 0, 2147483648⟩,
     ⟨128, 0, 2147483648⟩, ⟨107, 0, 2147483656⟩, ⟨108, 0, 2147483656⟩, ⟨109, 0, 2147483656⟩, ⟨110, 0, 2147483656⟩,
     ⟨111, 0, 2147483656⟩, ⟨112, 0, 2147483656⟩, ⟨113, 0, 2147483656⟩, ⟨114, 0, 2147483656⟩, ⟨115, 0, 2147483656⟩,
     ⟨116, 0, 2147483656⟩, ⟨117, 0, 2147483656⟩, ⟨118, 0, 2147483656⟩, ⟨119, 0, 2147483656⟩, ⟨120, 0, 2147483656⟩,
     ⟨121, 0, 2147483656⟩, ⟨122, 0, 2147483656⟩, ⟨123, 0, 2147483656⟩, ⟨124, 0, 2147483656⟩, ⟨125, 0, 2147483656⟩,
     ⟨164, 0, 508907034919108744⟩, ⟨134, 0, 2147483656⟩, ⟨135, 0, 2147483656⟩, ⟨136, 0, 2147483656⟩,
     ⟨137, 0, 2147483656⟩, ⟨138, 0, 2147483656⟩, ⟨130, 0, 508907034918256648⟩, ⟨131, 0, 508907034918256648⟩,
     ⟨2, 0, 508907034918256648⟩, ⟨3, 0, 508907034918256648⟩, ⟨4, 0, 508907034918256648⟩,
     ⟨1, 0, 508907034918256648⟩, ⟨166, 0, 508907034918256648⟩],
    [(.n 48, 183), (.t 30, 184), (.n 36, 185), (.n 34, 186), (.n 54, 187), (.n 40, 188), (.t 41, 189),
     (.t 39, 190), (.t 35, 191), (.t 36, 192), (.t 42, 193), (.t 28, 194), (.n 38, 195), (.t 22, 196), (.t 55, 53),
     (.n 1, 87), (.n 0, 16), (.t 37, 17), (.n 56, 18), (.t 51, 19), (.t 57, 20)]⟩,
   ⟨[⟨149, 3, 562984313159681⟩, ⟨150, 0, 562984313159681⟩, ⟨151, 0, 562984313159681⟩, ⟨127, 0, 2147483648⟩,
     ⟨128, 0, 2147483648⟩, ⟨107, 0, 2147483656⟩, ⟨108, 0, 2147483656⟩, ⟨109, 0, 2147483656⟩, ⟨110, 0, 2147483656⟩,
     ⟨111, 0, 2147483656⟩, ⟨112, 0, 2147483656⟩, ⟨113, 0, 2147483656⟩, ⟨114, 0, 2147483656⟩, ⟨115, 0, 2147483656⟩,
     ⟨116, 0, 2147483656⟩, ⟨117, 0, 2147483656⟩, ⟨118, 0, 2147483656⟩, ⟨119, 0, 2147483656⟩, ⟨120, 0, 2147483656⟩,
     ⟨121, 0, 2147483656⟩, ⟨122, 0, 2147483656⟩, ⟨123, 0, 2147483656⟩, ⟨124, 0, 2147483656⟩, ⟨125, 0, 2147483656⟩,
     ⟨164, 0, 508907034919108744⟩, ⟨134, 0, 2147483656⟩, ⟨135, 0, 2147483656⟩, ⟨136, 0, 2147483656⟩,
     ⟨137, 0, 2147483656⟩, ⟨138, 0, 2147483656⟩, ⟨130, 0, 508907034918256648⟩, ⟨131, 0, 508907034918256648⟩,
     ⟨2, 0, 508907034918256648⟩, ⟨3, 0, 508907034918256648⟩, ⟨4, 0, 508907034918256648⟩,
     ⟨1, 0, 508907034918256648⟩, ⟨166, 0, 508907034918256648⟩],
    [(.n 48, 197), (.t 30, 184), (.n 36, 185), (.n 34, 186), (.n 54, 187), (.n 40, 188), (.t 41, 189),
     (.t 39, 190), (.t 35, 191), (.t 36, 192), (.t 42, 193), (.t 28, 194), (.n 38, 195), (.t 22, 196), (.t 55, 53),
     (.n 1, 87), (.n 0, 16), (.t 37, 17), (.n 56, 18), (.t 51, 19), (.t 57, 20)]⟩,
   ⟨[⟨145, 4, 365369882339966977⟩],
    []⟩,
   ⟨[⟨66, 2, 74752⟩],
    []⟩,
   ⟨[⟨28, 1, 2147558400⟩],
    []⟩,
   ⟨[⟨29, 1, 2147558400⟩, ⟨26, 1, 2147558400⟩, ⟨27, 1, 2147558400⟩],
    [(.t 14, 198)]⟩,
   ⟨[⟨19, 1, 2147591168⟩, ⟨20, 1, 2147591168⟩, ⟨171, 0, 889478795617216000⟩, ⟨172, 0, 889478795617216000⟩,
     ⟨30, 0, 889478795617216000⟩, ⟨31, 0, 889478795617216000⟩, ⟨32, 0, 889478795617216000⟩,
     ⟨33, 0, 889478795617216000⟩, ⟨34, 0, 889478795617216000⟩, ⟨9, 0, 889478795617216000⟩,
     ⟨10, 0, 889478795617216000⟩, ⟨11, 0, 889478795617216000⟩, ⟨12, 0, 889478795617216000⟩,
     ⟨167, 0, 889478795617216000⟩, ⟨35, 0, 889478795617216000⟩, ⟨36, 0, 889478795617216000⟩,
     ⟨37, 0, 889478795617216000⟩, ⟨38, 0, 889478795617216000⟩, ⟨39, 0, 889478795617216000⟩,
     ⟨2, 0, 889478796690957856⟩, ⟨3, 0, 889478796690957856⟩, ⟨4, 0, 889478796690957856⟩, ⟨162, 0, 32⟩,
     ⟨1, 0, 889478796690957856⟩, ⟨166, 0, 889478796690957856⟩],
    [(.n 69, 199), (.n 10, 162), (.t 8, 163), (.n 4, 164), (.n 57, 165), (.n 11, 166), (.t 43, 167), (.n 1, 124),
     (.n 52, 125), (.t 50, 79), (.t 58, 115), (.n 0, 16), (.t 37, 17), (.n 56, 18), (.t 53, 83), (.t 51, 19),
     (.t 57, 20)]⟩,
   ⟨[⟨21, 1, 2147591168⟩, ⟨44, 0, 313018041166201344⟩, ⟨45, 0, 313018041166201344⟩, ⟨46, 0, 313018041166201344⟩,
     ⟨47, 0, 313018041166201344⟩, ⟨9, 0, 313018041166201344⟩, ⟨10, 0, 313018041166201344⟩,
     ⟨11, 0, 313018041166201344⟩, ⟨12, 0, 313018041166201344⟩, ⟨35, 0, 313018041166201344⟩,
     ⟨36, 0, 313018041166201344⟩, ⟨37, 0, 313018041166201344⟩, ⟨38, 0, 313018041166201344⟩,
     ⟨39, 0, 313018041166201344⟩, ⟨2, 0, 313018042239943200⟩, ⟨3, 0, 313018042239943200⟩,
     ⟨4, 0, 313018042239943200⟩, ⟨162, 0, 32⟩, ⟨1, 0, 313018042239943200⟩, ⟨166, 0, 313018042239943200⟩],
    [(.n 15, 200), (.n 4, 121), (.t 8, 122), (.n 11, 123), (.n 1, 124), (.n 52, 125), (.t 50, 79), (.n 0, 16),
     (.t 37, 17), (.n 56, 18), (.t 53, 83), (.t 51, 19), (.t 57, 20)]⟩,
   ⟨[⟨22, 1, 2147591168⟩, ⟨28, 0, 1024⟩, ⟨29, 0, 1024⟩, ⟨26, 0, 1024⟩, ⟨27, 0, 1024⟩, ⟨19, 0, 33792⟩,
     ⟨20, 0, 33792⟩, ⟨21, 0, 33792⟩, ⟨22, 0, 33792⟩, ⟨23, 0, 33792⟩, ⟨24, 0, 33792⟩, ⟨25, 0, 33792⟩,
     ⟨9, 0, 889478793469658624⟩, ⟨10, 0, 889478793469658624⟩, ⟨11, 0, 889478793469658624⟩,
     ⟨12, 0, 889478793469658624⟩, ⟨35, 0, 33792⟩, ⟨36, 0, 33792⟩, ⟨37, 0, 33792⟩, ⟨38, 0, 33792⟩, ⟨39, 0, 33792⟩,
     ⟨167, 0, 33792⟩, ⟨2, 0, 889478794543400480⟩, ⟨3, 0, 889478794543400480⟩, ⟨4, 0, 889478794543400480⟩,
     ⟨162, 0, 32⟩, ⟨1, 0, 889478794543400480⟩, ⟨166, 0, 889478794543400480⟩],
    [(.n 9, 201), (.n 8, 131), (.n 7, 132), (.n 4, 133), (.t 43, 134), (.t 8, 135), (.n 11, 136), (.t 22, 137),
     (.n 57, 138), (.n 1, 124), (.n 52, 125), (.t 50, 79), (.t 58, 115), (.n 0, 16), (.t 37, 17), (.n 56, 18),
     (.t 53, 83), (.t 51, 19), (.t 57, 20)]⟩,
   ⟨[⟨23, 1, 2147591168⟩],
    []⟩,
   ⟨[⟨24, 1, 2147591168⟩, ⟨167, 0, 32⟩],
    [(.n 57, 202), (.t 58, 115)]⟩,
   ⟨[⟨25, 1, 2147591168⟩],
    []⟩,
   ⟨[⟨61, 4, 70386058264576⟩],
    []⟩,
   ⟨[⟨62, 4, 70386058264576⟩, ⟨73, 0, 70386058264576⟩, ⟨74, 0, 70386058264576⟩, ⟨75, 0, 70386058264576⟩,
     ⟨76, 0, 70386058264576⟩, ⟨77, 0, 70386058264576⟩, ⟨78, 0, 70386058264576⟩, ⟨79, 0, 70386058264576⟩,
     ⟨80, 0, 70386058264576⟩, ⟨81, 0, 70386058264576⟩, ⟨82, 0, 70386058264576⟩, ⟨83, 0, 70386058264576⟩,
     ⟨84, 0, 70386058264576⟩, ⟨85, 0, 70386058264576⟩, ⟨86, 0, 70386058264576⟩, ⟨87, 0, 70386058264576⟩,
     ⟨88, 0, 70386058264576⟩, ⟨13, 0, 508977418829037568⟩, ⟨14, 0, 508977418829037568⟩,
     ⟨15, 0, 508977418829037568⟩, ⟨101, 0, 70386058264576⟩, ⟨102, 0, 70386058264576⟩, ⟨9, 0, 508977418829039616⟩,
     ⟨10, 0, 508977418829039616⟩, ⟨11, 0, 508977418829039616⟩, ⟨12, 0, 508977418829039616⟩,
     ⟨164, 0, 508977418829037568⟩, ⟨165, 0, 508977418829037568⟩, ⟨2, 0, 517984618083780640⟩,
     ⟨3, 0, 517984618083780640⟩, ⟨4, 0, 517984618083780640⟩, ⟨103, 0, 70386058264576⟩, ⟨104, 0, 70386058264576⟩,
     ⟨105, 0, 70386058264576⟩, ⟨106, 0, 70386058264576⟩, ⟨162, 0, 70386058264608⟩, ⟨1, 0, 517984618083780640⟩,
     ⟨166, 0, 517984618083780640⟩, ⟨168, 0, 70386058264576⟩],
    [(.n 26, 203), (.t 26, 64), (.t 31, 65), (.n 5, 66), (.n 32, 67), (.t 23, 68), (.t 10, 69), (.t 28, 70),
     (.n 4, 71), (.t 32, 72), (.t 19, 73), (.n 54, 74), (.n 55, 75), (.n 1, 76), (.n 33, 77), (.n 52, 78),
     (.t 50, 79), (.t 55, 53), (.t 56, 80), (.n 0, 16), (.t 37, 17), (.n 56, 18), (.n 58, 81), (.t 49, 82),
     (.t 53, 83), (.t 51, 19), (.t 57, 20), (.t 54, 84)]⟩,
   ⟨[⟨64, 4, 70386058264576⟩, ⟨178, 1, 70386058264640⟩, ⟨67, 0, 70386058264640⟩, ⟨68, 0, 70386058264640⟩],
    [(.n 23, 204), (.t 5, 143)]⟩,
   ⟨[⟨177, 1, 70386058264640⟩],
    []⟩,
   ⟨[⟨67, 1, 70386058264640⟩, ⟨68, 1, 70386058264640⟩, ⟨2, 0, 211123546619968⟩, ⟨3, 0, 211123546619968⟩,
     ⟨4, 0, 211123546619968⟩, ⟨1, 0, 211123546619968⟩, ⟨166, 0, 211123546619968⟩],
    [(.n 1, 205), (.n 0, 16), (.t 37, 17), (.n 56, 18), (.t 51, 19), (.t 57, 20)]⟩,
   ⟨[⟨73, 3, 633922543173705⟩, ⟨73, 0, 268435456⟩, ⟨74, 0, 268435456⟩, ⟨75, 0, 268435456⟩, ⟨76, 0, 268435456⟩,
     ⟨77, 0, 268435456⟩, ⟨78, 0, 268435456⟩, ⟨79, 0, 268435456⟩, ⟨80, 0, 268435456⟩, ⟨81, 0, 268435456⟩,
     ⟨82, 0, 268435456⟩, ⟨83, 0, 268435456⟩, ⟨84, 0, 268435456⟩, ⟨85, 0, 268435456⟩, ⟨86, 0, 268435456⟩,
     ⟨87, 0, 268435456⟩, ⟨88, 0, 268435456⟩, ⟨13, 0, 508907033039208448⟩, ⟨14, 0, 508907033039208448⟩,
     ⟨15, 0, 508907033039208448⟩, ⟨101, 0, 268435456⟩, ⟨102, 0, 268435456⟩, ⟨9, 0, 508907033039210496⟩,
     ⟨10, 0, 508907033039210496⟩, ⟨11, 0, 508907033039210496⟩, ⟨12, 0, 508907033039210496⟩,
     ⟨164, 0, 508907033039208448⟩, ⟨165, 0, 508907033039208448⟩, ⟨2, 0, 517914232293951520⟩,
     ⟨3, 0, 517914232293951520⟩, ⟨4, 0, 517914232293951520⟩, ⟨103, 0, 268435456⟩, ⟨104, 0, 268435456⟩,
     ⟨105, 0, 268435456⟩, ⟨106, 0, 268435456⟩, ⟨162, 0, 268435488⟩, ⟨1, 0, 517914232293951520⟩,
     ⟨166, 0, 517914232293951520⟩, ⟨168, 0, 268435456⟩],
    [(.n 26, 206), (.t 26, 64), (.t 31, 65), (.n 5, 66), (.n 32, 67), (.t 23, 68), (.t 10, 69), (.t 28, 70),
     (.n 4, 71), (.t 32, 72), (.t 19, 73), (.n 54, 74), (.n 55, 75), (.n 1, 76), (.n 33, 77), (.n 52, 78),
     (.t 50, 79), (.t 55, 53), (.t 56, 80), (.n 0, 16), (.t 37, 17), (.n 56, 18), (.n 58, 81), (.t 49, 82),
     (.t 53, 83), (.t 51, 19), (.t 57, 20), (.t 54, 84)]⟩,
   ⟨[⟨74, 3, 633922543173705⟩],
    [(.t 15, 207)]⟩,
   ⟨[⟨75, 3, 633922543173705⟩, ⟨66, 0, 1024⟩],
    [(.n 22, 208), (.t 3, 96)]⟩,
   ⟨[⟨182, 2, 509540955313947721⟩],
    []⟩,
   ⟨[⟨15, 2, 1106566974177040217⟩, ⟨164, 0, 1106566974177040217⟩],
    [(.n 54, 170), (.t 55, 53)]⟩,
   ⟨[⟨78, 3, 633922543173705⟩, ⟨16, 1, 509540955313946697⟩, ⟨13, 0, 509540955313946697⟩,
     ⟨14, 0, 509540955313946697⟩, ⟨15, 0, 509540955313946697⟩, ⟨164, 0, 509540955313946697⟩,
     ⟨165, 0, 509540955313946697⟩, ⟨2, 0, 32⟩, ⟨3, 0, 32⟩, ⟨4, 0, 32⟩, ⟨1, 0, 32⟩, ⟨166, 0, 32⟩],
    [(.n 5, 209), (.n 54, 74), (.n 55, 75), (.n 1, 106), (.t 55, 53), (.t 56, 80), (.n 0, 16), (.t 37, 17),
     (.n 56, 18), (.t 51, 19), (.t 57, 20)]⟩,
   ⟨[⟨79, 3, 633922543173705⟩, ⟨16, 0, 509540955313946697⟩, ⟨17, 0, 509540955313946697⟩,
     ⟨18, 0, 509540955313946697⟩, ⟨13, 0, 509540955313946697⟩, ⟨14, 0, 509540955313946697⟩,
     ⟨15, 0, 509540955313946697⟩, ⟨164, 0, 509540955313946697⟩, ⟨165, 0, 509540955313946697⟩, ⟨2, 0, 32⟩,
     ⟨3, 0, 32⟩, ⟨4, 0, 32⟩, ⟨1, 0, 32⟩, ⟨166, 0, 32⟩],
    [(.n 6, 210), (.n 5, 151), (.t 8, 152), (.n 54, 74), (.n 55, 75), (.n 1, 106), (.t 55, 53), (.t 56, 80),
     (.n 0, 16), (.t 37, 17), (.n 56, 18), (.t 51, 19), (.t 57, 20)]⟩,
   ⟨[⟨17, 1, 509540955313946697⟩],
    []⟩,
   ⟨[⟨18, 1, 509540955313946697⟩],
    [(.t 9, 211)]⟩,
   ⟨[⟨80, 3, 633922543173705⟩],
    []⟩,
   ⟨[⟨81, 3, 633922543173705⟩, ⟨184, 1, 4104⟩, ⟨98, 0, 4104⟩],
    [(.t 11, 212), (.n 30, 213), (.t 2, 156)]⟩,
   ⟨[⟨183, 1, 4104⟩],
    []⟩,
   ⟨[⟨98, 1, 4104⟩, ⟨99, 0, 4104⟩, ⟨100, 0, 4104⟩, ⟨13, 0, 16⟩, ⟨14, 0, 16⟩, ⟨15, 0, 16⟩, ⟨164, 0, 16⟩,
     ⟨165, 0, 16⟩, ⟨2, 0, 32⟩, ⟨3, 0, 32⟩, ⟨4, 0, 32⟩, ⟨1, 0, 32⟩, ⟨166, 0, 32⟩],
    [(.n 31, 214), (.n 5, 109), (.n 54, 74), (.n 55, 75), (.n 1, 106), (.t 55, 53), (.t 56, 80), (.n 0, 16),
     (.t 37, 17), (.n 56, 18), (.t 51, 19), (.t 57, 20)]⟩,
   ⟨[⟨99, 2, 4104⟩, ⟨100, 2, 4104⟩, ⟨103, 0, 4104⟩, ⟨104, 0, 4104⟩, ⟨105, 0, 4104⟩, ⟨106, 0, 4104⟩, ⟨13, 0, 4104⟩,
     ⟨14, 0, 4104⟩, ⟨15, 0, 4104⟩, ⟨2, 0, 9007199254741024⟩, ⟨3, 0, 9007199254741024⟩, ⟨4, 0, 9007199254741024⟩,
     ⟨162, 0, 4104⟩, ⟨168, 0, 4104⟩, ⟨164, 0, 4104⟩, ⟨165, 0, 4104⟩, ⟨1, 0, 9007199254741024⟩,
     ⟨166, 0, 9007199254741024⟩],
    [(.n 33, 215), (.n 5, 216), (.n 1, 217), (.n 52, 218), (.n 58, 81), (.t 49, 82), (.n 54, 74), (.n 55, 75),
     (.n 0, 16), (.t 37, 17), (.n 56, 18), (.t 53, 83), (.t 54, 84), (.t 55, 53), (.t 56, 80), (.t 51, 19),
     (.t 57, 20)]⟩,
   ⟨[⟨82, 3, 633922543173705⟩, ⟨185, 0, 2147483712⟩, ⟨186, 0, 2147483712⟩, ⟨89, 0, 2147483712⟩],
    [(.n 86, 219), (.n 27, 220), (.t 5, 221)]⟩,
   ⟨[⟨86, 3, 633922543173705⟩, ⟨182, 1, 509540955313946697⟩, ⟨13, 0, 509540955313946697⟩,
     ⟨14, 0, 509540955313946697⟩, ⟨15, 0, 509540955313946697⟩, ⟨164, 0, 509540955313946697⟩,
     ⟨165, 0, 509540955313946697⟩, ⟨2, 0, 32⟩, ⟨3, 0, 32⟩, ⟨4, 0, 32⟩, ⟨1, 0, 32⟩, ⟨166, 0, 32⟩],
    [(.n 5, 147), (.n 54, 74), (.n 55, 75), (.n 1, 106), (.t 55, 53), (.t 56, 80), (.n 0, 16), (.t 37, 17),
     (.n 56, 18), (.t 51, 19), (.t 57, 20)]⟩]

def lrStates4 : List State :=
  [⟨[⟨71, 2, 509540955313947209⟩],
    []⟩,
   ⟨[⟨72, 2, 509540955313947209⟩, ⟨172, 1, 889478793469628928⟩, ⟨30, 0, 889478793469628928⟩,
     ⟨31, 0, 889478793469628928⟩, ⟨32, 0, 889478793469628928⟩, ⟨33, 0, 889478793469628928⟩,
     ⟨34, 0, 889478793469628928⟩, ⟨9, 0, 889478793469628928⟩, ⟨10, 0, 889478793469628928⟩,
     ⟨11, 0, 889478793469628928⟩, ⟨12, 0, 889478793469628928⟩, ⟨167, 0, 889478793469628928⟩,
     ⟨35, 0, 889478793469628928⟩, ⟨36, 0, 889478793469628928⟩, ⟨37, 0, 889478793469628928⟩,
     ⟨38, 0, 889478793469628928⟩, ⟨39, 0, 889478793469628928⟩, ⟨2, 0, 889478794543370784⟩,
     ⟨3, 0, 889478794543370784⟩, ⟨4, 0, 889478794543370784⟩, ⟨162, 0, 32⟩, ⟨1, 0, 889478794543370784⟩,
     ⟨166, 0, 889478794543370784⟩],
    [(.t 11, 222), (.n 10, 223), (.t 8, 163), (.n 4, 164), (.n 57, 165), (.n 11, 166), (.t 43, 167), (.n 1, 124),
     (.n 52, 125), (.t 50, 79), (.t 58, 115), (.n 0, 16), (.t 37, 17), (.n 56, 18), (.t 53, 83), (.t 51, 19),
     (.t 57, 20)]⟩,
   ⟨[⟨171, 1, 890112716012910153⟩],
    []⟩,
   ⟨[⟨30, 1, 890112716012910153⟩, ⟨28, 0, 1024⟩, ⟨29, 0, 1024⟩, ⟨26, 0, 1024⟩, ⟨27, 0, 1024⟩, ⟨19, 0, 33792⟩,
     ⟨20, 0, 33792⟩, ⟨21, 0, 33792⟩, ⟨22, 0, 33792⟩, ⟨23, 0, 33792⟩, ⟨24, 0, 33792⟩, ⟨25, 0, 33792⟩,
     ⟨9, 0, 889478793469658624⟩, ⟨10, 0, 889478793469658624⟩, ⟨11, 0, 889478793469658624⟩,
     ⟨12, 0, 889478793469658624⟩, ⟨35, 0, 33792⟩, ⟨36, 0, 33792⟩, ⟨37, 0, 33792⟩, ⟨38, 0, 33792⟩, ⟨39, 0, 33792⟩,
     ⟨167, 0, 33792⟩, ⟨2, 0, 889478794543400480⟩, ⟨3, 0, 889478794543400480⟩, ⟨4, 0, 889478794543400480⟩,
     ⟨162, 0, 32⟩, ⟨1, 0, 889478794543400480⟩, ⟨166, 0, 889478794543400480⟩],
    [(.n 9, 224), (.n 8, 131), (.n 7, 132), (.n 4, 133), (.t 43, 134), (.t 8, 135), (.n 11, 136), (.t 22, 137),
     (.n 57, 138), (.n 1, 124), (.n 52, 125), (.t 50, 79), (.t 58, 115), (.n 0, 16), (.t 37, 17), (.n 56, 18),
     (.t 53, 83), (.t 51, 19), (.t 57, 20)]⟩,
   ⟨[⟨31, 1, 890112716012910153⟩],
    []⟩,
   ⟨[⟨32, 1, 890112716012910153⟩],
    []⟩,
   ⟨[⟨33, 1, 890112716012910153⟩],
    []⟩,
   ⟨[⟨34, 1, 890112716012910153⟩, ⟨44, 0, 313018041166201344⟩, ⟨45, 0, 313018041166201344⟩,
     ⟨46, 0, 313018041166201344⟩, ⟨47, 0, 313018041166201344⟩, ⟨9, 0, 313018041166201344⟩,
     ⟨10, 0, 313018041166201344⟩, ⟨11, 0, 313018041166201344⟩, ⟨12, 0, 313018041166201344⟩,
     ⟨35, 0, 313018041166201344⟩, ⟨36, 0, 313018041166201344⟩, ⟨37, 0, 313018041166201344⟩,
     ⟨38, 0, 313018041166201344⟩, ⟨39, 0, 313018041166201344⟩, ⟨2, 0, 313018042239943200⟩,
     ⟨3, 0, 313018042239943200⟩, ⟨4, 0, 313018042239943200⟩, ⟨162, 0, 32⟩, ⟨1, 0, 313018042239943200⟩,
     ⟨166, 0, 313018042239943200⟩],
    [(.n 15, 225), (.n 4, 121), (.t 8, 122), (.n 11, 123), (.n 1, 124), (.n 52, 125), (.t 50, 79), (.n 0, 16),
     (.t 37, 17), (.n 56, 18), (.t 53, 83), (.t 51, 19), (.t 57, 20)]⟩,
   ⟨[⟨87, 3, 633922543173705⟩, ⟨73, 0, 633922543173705⟩, ⟨74, 0, 633922543173705⟩, ⟨75, 0, 633922543173705⟩,
     ⟨76, 0, 633922543173705⟩, ⟨77, 0, 633922543173705⟩, ⟨78, 0, 633922543173705⟩, ⟨79, 0, 633922543173705⟩,
     ⟨80, 0, 633922543173705⟩, ⟨81, 0, 633922543173705⟩, ⟨82, 0, 633922543173705⟩, ⟨83, 0, 633922543173705⟩,
     ⟨84, 0, 633922543173705⟩, ⟨85, 0, 633922543173705⟩, ⟨86, 0, 633922543173705⟩, ⟨87, 0, 633922543173705⟩,
     ⟨88, 0, 633922543173705⟩, ⟨13, 0, 509540955313946697⟩, ⟨14, 0, 509540955313946697⟩,
     ⟨15, 0, 509540955313946697⟩, ⟨101, 0, 633922543173705⟩, ⟨102, 0, 633922543173705⟩, ⟨9, 0, 509540955313948745⟩,
     ⟨10, 0, 509540955313948745⟩, ⟨11, 0, 509540955313948745⟩, ⟨12, 0, 509540955313948745⟩,
     ⟨164, 0, 509540955313946697⟩, ⟨165, 0, 509540955313946697⟩, ⟨2, 0, 518548154568689769⟩,
     ⟨3, 0, 518548154568689769⟩, ⟨4, 0, 518548154568689769⟩, ⟨103, 0, 633922543173705⟩, ⟨104, 0, 633922543173705⟩,
     ⟨105, 0, 633922543173705⟩, ⟨106, 0, 633922543173705⟩, ⟨162, 0, 633922543173737⟩, ⟨1, 0, 518548154568689769⟩,
     ⟨166, 0, 518548154568689769⟩, ⟨168, 0, 633922543173705⟩],
    [(.n 26, 226), (.t 26, 64), (.t 31, 65), (.n 5, 66), (.n 32, 67), (.t 23, 68), (.t 10, 69), (.t 28, 70),
     (.n 4, 71), (.t 32, 72), (.t 19, 73), (.n 54, 74), (.n 55, 75), (.n 1, 76), (.n 33, 77), (.n 52, 78),
     (.t 50, 79), (.t 55, 53), (.t 56, 80), (.n 0, 16), (.t 37, 17), (.n 56, 18), (.n 58, 81), (.t 49, 82),
     (.t 53, 83), (.t 51, 19), (.t 57, 20), (.t 54, 84)]⟩,
   ⟨[⟨88, 3, 633922543173705⟩, ⟨172, 1, 890112716012798537⟩, ⟨30, 0, 890112716012798537⟩,
     ⟨31, 0, 890112716012798537⟩, ⟨32, 0, 890112716012798537⟩, ⟨33, 0, 890112716012798537⟩,
     ⟨34, 0, 890112716012798537⟩, ⟨9, 0, 890112716012798537⟩, ⟨10, 0, 890112716012798537⟩,
     ⟨11, 0, 890112716012798537⟩, ⟨12, 0, 890112716012798537⟩, ⟨167, 0, 890112716012798537⟩,
     ⟨35, 0, 890112716012798537⟩, ⟨36, 0, 890112716012798537⟩, ⟨37, 0, 890112716012798537⟩,
     ⟨38, 0, 890112716012798537⟩, ⟨39, 0, 890112716012798537⟩, ⟨2, 0, 890112717086540393⟩,
     ⟨3, 0, 890112717086540393⟩, ⟨4, 0, 890112717086540393⟩, ⟨162, 0, 32⟩, ⟨1, 0, 890112717086540393⟩,
     ⟨166, 0, 890112717086540393⟩],
    [(.n 10, 223), (.t 8, 163), (.n 4, 164), (.n 57, 165), (.n 11, 166), (.t 43, 167), (.n 1, 124), (.n 52, 125),
     (.t 50, 79), (.t 58, 115), (.n 0, 16), (.t 37, 17), (.n 56, 18), (.t 53, 83), (.t 51, 19), (.t 57, 20)]⟩,
   ⟨[⟨15, 3, 1106566974177040217⟩],
    []⟩,
   ⟨[⟨10, 3, 1106285498130890313⟩],
    []⟩,
   ⟨[⟨11, 3, 1106285498130890313⟩],
    []⟩,
   ⟨[⟨106, 3, 633922543177801⟩],
    []⟩,
   ⟨[⟨48, 1, 890112716012910153⟩],
    []⟩,
   ⟨[⟨49, 1, 890112716012910153⟩, ⟨44, 0, 313018041166201344⟩, ⟨45, 0, 313018041166201344⟩,
     ⟨46, 0, 313018041166201344⟩, ⟨47, 0, 313018041166201344⟩, ⟨9, 0, 313018041166201344⟩,
     ⟨10, 0, 313018041166201344⟩, ⟨11, 0, 313018041166201344⟩, ⟨12, 0, 313018041166201344⟩,
     ⟨35, 0, 313018041166201344⟩, ⟨36, 0, 313018041166201344⟩, ⟨37, 0, 313018041166201344⟩,
     ⟨38, 0, 313018041166201344⟩, ⟨39, 0, 313018041166201344⟩, ⟨2, 0, 313018042239943200⟩,
     ⟨3, 0, 313018042239943200⟩, ⟨4, 0, 313018042239943200⟩, ⟨162, 0, 32⟩, ⟨1, 0, 313018042239943200⟩,
     ⟨166, 0, 313018042239943200⟩],
    [(.n 15, 227), (.n 4, 121), (.t 8, 122), (.n 11, 123), (.n 1, 124), (.n 52, 125), (.t 50, 79), (.n 0, 16),
     (.t 37, 17), (.n 56, 18), (.t 53, 83), (.t 51, 19), (.t 57, 20)]⟩,
   ⟨[⟨50, 1, 890112716012910153⟩, ⟨69, 0, 1024⟩, ⟨70, 0, 1024⟩, ⟨9, 0, 313018041166202368⟩,
     ⟨10, 0, 313018041166202368⟩, ⟨11, 0, 313018041166202368⟩, ⟨12, 0, 313018041166202368⟩, ⟨48, 0, 1024⟩,
     ⟨49, 0, 1024⟩, ⟨50, 0, 1024⟩, ⟨51, 0, 1024⟩, ⟨2, 0, 313018042239944224⟩, ⟨3, 0, 313018042239944224⟩,
     ⟨4, 0, 313018042239944224⟩, ⟨162, 0, 32⟩, ⟨35, 0, 1024⟩, ⟨36, 0, 1024⟩, ⟨37, 0, 1024⟩, ⟨38, 0, 1024⟩,
     ⟨39, 0, 1024⟩, ⟨1, 0, 313018042239944224⟩, ⟨166, 0, 313018042239944224⟩],
    [(.n 24, 228), (.n 4, 229), (.n 16, 230), (.n 1, 124), (.n 52, 125), (.t 50, 79), (.t 43, 175), (.t 8, 176),
     (.n 11, 177), (.n 0, 16), (.t 37, 17), (.n 56, 18), (.t 53, 83), (.t 51, 19), (.t 57, 20)]⟩,
   ⟨[⟨51, 1, 890112716012910153⟩],
    []⟩,
   ⟨[⟨45, 2, 313018041166201344⟩],
    [(.t 9, 231)]⟩,
   ⟨[⟨46, 2, 313018041166201344⟩],
    [(.t 9, 232)]⟩,
   ⟨[⟨10, 2, 962170310055032393⟩, ⟨2, 0, 962170310055032393⟩, ⟨3, 0, 962170310055032393⟩,
     ⟨4, 0, 962170310055032393⟩, ⟨1, 0, 962170310055032393⟩, ⟨166, 0, 962170310055032393⟩],
    [(.n 1, 171), (.n 0, 16), (.t 37, 17), (.n 56, 18), (.t 51, 19), (.t 57, 20)]⟩,
   ⟨[⟨35, 2, 890112716012910153⟩, ⟨36, 2, 890112716012910153⟩, ⟨37, 2, 890112716012910153⟩,
     ⟨38, 2, 890112716012910153⟩, ⟨39, 2, 890112716012910153⟩, ⟨165, 0, 2147483648⟩],
    [(.t 30, 233), (.t 33, 234), (.t 24, 235), (.n 55, 236), (.t 56, 80)]⟩,
   ⟨[⟨160, 4, 563534068973569⟩],
    []⟩,
   ⟨[⟨148, 4, 562984313159681⟩],
    []⟩,
   ⟨[⟨150, 1, 562984313159681⟩],
    []⟩,
   ⟨[⟨151, 1, 562984313159681⟩],
    [(.t 30, 237)]⟩,
   ⟨[⟨127, 1, 2147483712⟩, ⟨128, 1, 2147483712⟩, ⟨193, 0, 2147483720⟩, ⟨194, 0, 2147483720⟩, ⟨126, 0, 2147483720⟩],
    [(.n 94, 238), (.n 35, 239), (.t 2, 240)]⟩,
   ⟨[⟨107, 1, 2147483720⟩, ⟨109, 1, 2147483720⟩, ⟨110, 1, 2147483720⟩, ⟨111, 1, 2147483720⟩, ⟨112, 1, 2147483720⟩,
     ⟨113, 1, 2147483720⟩, ⟨114, 1, 2147483720⟩, ⟨115, 1, 2147483720⟩, ⟨134, 1, 2147483720⟩, ⟨135, 1, 2147483720⟩,
     ⟨136, 1, 2147483720⟩, ⟨137, 1, 2147483720⟩, ⟨138, 1, 2147483720⟩, ⟨131, 1, 508907034918256712⟩,
     ⟨189, 0, 524416⟩, ⟨190, 0, 524416⟩, ⟨139, 0, 524416⟩],
    [(.t 17, 241), (.t 18, 242), (.t 15, 243), (.n 100, 244), (.n 41, 245), (.t 6, 246)]⟩,
   ⟨[⟨108, 1, 2147483720⟩],
    []⟩,
   ⟨[⟨116, 1, 2147483720⟩, ⟨164, 0, 128⟩],
    [(.n 54, 247), (.t 55, 53)]⟩,
   ⟨[⟨117, 1, 2147483720⟩],
    []⟩,
   ⟨[⟨118, 1, 2147483720⟩, ⟨13, 0, 2147483720⟩, ⟨14, 0, 2147483720⟩, ⟨15, 0, 2147483720⟩, ⟨164, 0, 2147483720⟩,
     ⟨165, 0, 2147483720⟩, ⟨2, 0, 32⟩, ⟨3, 0, 32⟩, ⟨4, 0, 32⟩, ⟨1, 0, 32⟩, ⟨166, 0, 32⟩],
    [(.n 5, 248), (.n 54, 74), (.n 55, 75), (.n 1, 106), (.t 55, 53), (.t 56, 80), (.n 0, 16), (.t 37, 17),
     (.n 56, 18), (.t 51, 19), (.t 57, 20)]⟩,
   ⟨[⟨119, 1, 2147483720⟩, ⟨13, 0, 2147483720⟩, ⟨14, 0, 2147483720⟩, ⟨15, 0, 2147483720⟩, ⟨164, 0, 2147483720⟩,
     ⟨165, 0, 2147483720⟩, ⟨2, 0, 32⟩, ⟨3, 0, 32⟩, ⟨4, 0, 32⟩, ⟨1, 0, 32⟩, ⟨166, 0, 32⟩],
    [(.n 5, 249), (.n 54, 74), (.n 55, 75), (.n 1, 106), (.t 55, 53), (.t 56, 80), (.n 0, 16), (.t 37, 17),
     (.n 56, 18), (.t 51, 19), (.t 57, 20)]⟩,
   ⟨[⟨120, 1, 2147483720⟩, ⟨121, 1, 2147483720⟩, ⟨13, 0, 2147483720⟩, ⟨14, 0, 2147483720⟩, ⟨15, 0, 2147483720⟩,
     ⟨164, 0, 2147483720⟩, ⟨165, 0, 2147483720⟩, ⟨2, 0, 32⟩, ⟨3, 0, 32⟩, ⟨4, 0, 32⟩, ⟨1, 0, 32⟩, ⟨166, 0, 32⟩],
    [(.n 5, 250), (.n 54, 74), (.n 55, 75), (.n 1, 106), (.t 55, 53), (.t 56, 80), (.n 0, 16), (.t 37, 17),
     (.n 56, 18), (.t 51, 19), (.t 57, 20)]⟩,
   ⟨[⟨122, 1, 2147483720⟩, ⟨13, 0, 1073741824⟩, ⟨14, 0, 1073741824⟩, ⟨15, 0, 1073741824⟩, ⟨164, 0, 1073741824⟩,
     ⟨165, 0, 1073741824⟩, ⟨2, 0, 32⟩, ⟨3, 0, 32⟩, ⟨4, 0, 32⟩, ⟨1, 0, 32⟩, ⟨166, 0, 32⟩],
    [(.n 5, 251), (.n 54, 74), (.n 55, 75), (.n 1, 106), (.t 55, 53), (.t 56, 80), (.n 0, 16), (.t 37, 17),
     (.n 56, 18), (.t 51, 19), (.t 57, 20)]⟩,
   ⟨[⟨123, 1, 2147483720⟩, ⟨124, 1, 2147483720⟩, ⟨181, 0, 508907034918256712⟩, ⟨182, 0, 508907034918256712⟩,
     ⟨13, 0, 508907034918256712⟩, ⟨14, 0, 508907034918256712⟩, ⟨15, 0, 508907034918256712⟩,
     ⟨164, 0, 508907034918256712⟩, ⟨165, 0, 508907034918256712⟩, ⟨2, 0, 32⟩, ⟨3, 0, 32⟩, ⟨4, 0, 32⟩, ⟨1, 0, 32⟩,
     ⟨166, 0, 32⟩],
    [(.n 64, 252), (.n 5, 105), (.n 54, 74), (.n 55, 75), (.n 1, 106), (.t 55, 53), (.t 56, 80), (.n 0, 16),
     (.t 37, 17), (.n 56, 18), (.t 51, 19), (.t 57, 20)]⟩,
   ⟨[⟨125, 1, 2147483720⟩, ⟨13, 0, 364791844694917120⟩, ⟨14, 0, 364791844694917120⟩, ⟨15, 0, 364791844694917120⟩,
     ⟨164, 0, 364791844694917120⟩, ⟨165, 0, 364791844694917120⟩, ⟨2, 0, 32⟩, ⟨3, 0, 32⟩, ⟨4, 0, 32⟩, ⟨1, 0, 32⟩,
     ⟨166, 0, 32⟩],
    [(.n 5, 253), (.n 54, 74), (.n 55, 75), (.n 1, 106), (.t 55, 53), (.t 56, 80), (.n 0, 16), (.t 37, 17),
     (.n 56, 18), (.t 51, 19), (.t 57, 20)]⟩,
   ⟨[⟨149, 4, 562984313159681⟩],
    []⟩,
   ⟨[⟨26, 2, 2147558400⟩, ⟨27, 2, 2147558400⟩, ⟨26, 0, 2147558400⟩, ⟨27, 0, 2147558400⟩, ⟨19, 0, 2147591168⟩,
     ⟨20, 0, 2147591168⟩, ⟨21, 0, 2147591168⟩, ⟨22, 0, 2147591168⟩, ⟨23, 0, 2147591168⟩, ⟨24, 0, 2147591168⟩,
     ⟨25, 0, 2147591168⟩, ⟨9, 0, 889478795617216000⟩, ⟨10, 0, 889478795617216000⟩, ⟨11, 0, 889478795617216000⟩,
     ⟨12, 0, 889478795617216000⟩, ⟨35, 0, 2147591168⟩, ⟨36, 0, 2147591168⟩, ⟨37, 0, 2147591168⟩,
     ⟨38, 0, 2147591168⟩, ⟨39, 0, 2147591168⟩, ⟨167, 0, 2147591168⟩, ⟨2, 0, 889478796690957856⟩,
     ⟨3, 0, 889478796690957856⟩, ⟨4, 0, 889478796690957856⟩, ⟨162, 0, 32⟩, ⟨1, 0, 889478796690957856⟩,
     ⟨166, 0, 889478796690957856⟩],
    [(.n 8, 254), (.n 7, 255), (.n 4, 133), (.t 43, 134), (.t 8, 135), (.n 11, 136), (.t 22, 137), (.n 57, 138),
     (.n 1, 124), (.n 52, 125), (.t 50, 79), (.t 58, 115), (.n 0, 16), (.t 37, 17), (.n 56, 18), (.t 53, 83),
     (.t 51, 19), (.t 57, 20)]⟩,
   ⟨[⟨20, 2, 2147591168⟩, ⟨172, 1, 889478795617216000⟩, ⟨30, 0, 889478795617216000⟩, ⟨31, 0, 889478795617216000⟩,
     ⟨32, 0, 889478795617216000⟩, ⟨33, 0, 889478795617216000⟩, ⟨34, 0, 889478795617216000⟩,
     ⟨9, 0, 889478795617216000⟩, ⟨10, 0, 889478795617216000⟩, ⟨11, 0, 889478795617216000⟩,
     ⟨12, 0, 889478795617216000⟩, ⟨167, 0, 889478795617216000⟩, ⟨35, 0, 889478795617216000⟩,
     ⟨36, 0, 889478795617216000⟩, ⟨37, 0, 889478795617216000⟩, ⟨38, 0, 889478795617216000⟩,
     ⟨39, 0, 889478795617216000⟩, ⟨2, 0, 889478796690957856⟩, ⟨3, 0, 889478796690957856⟩,
     ⟨4, 0, 889478796690957856⟩, ⟨162, 0, 32⟩, ⟨1, 0, 889478796690957856⟩, ⟨166, 0, 889478796690957856⟩],
    [(.n 10, 223), (.t 8, 163), (.n 4, 164), (.n 57, 165), (.n 11, 166), (.t 43, 167), (.n 1, 124), (.n 52, 125),
     (.t 50, 79), (.t 58, 115), (.n 0, 16), (.t 37, 17), (.n 56, 18), (.t 53, 83), (.t 51, 19), (.t 57, 20)]⟩]

def lrStates5 : List State :=
  [⟨[⟨21, 2, 2147591168⟩, ⟨48, 0, 2147591168⟩, ⟨49, 0, 2147591168⟩, ⟨50, 0, 2147591168⟩, ⟨51, 0, 2147591168⟩,
     ⟨9, 0, 2147591168⟩, ⟨10, 0, 2147591168⟩, ⟨11, 0, 2147591168⟩, ⟨12, 0, 2147591168⟩, ⟨35, 0, 2147591168⟩,
     ⟨36, 0, 2147591168⟩, ⟨37, 0, 2147591168⟩, ⟨38, 0, 2147591168⟩, ⟨39, 0, 2147591168⟩, ⟨2, 0, 3221333024⟩,
     ⟨3, 0, 3221333024⟩, ⟨4, 0, 3221333024⟩, ⟨162, 0, 32⟩, ⟨1, 0, 3221333024⟩, ⟨166, 0, 3221333024⟩],
    [(.n 16, 256), (.n 4, 174), (.t 43, 175), (.t 8, 176), (.n 11, 177), (.n 1, 124), (.n 52, 125), (.t 50, 79),
     (.n 0, 16), (.t 37, 17), (.n 56, 18), (.t 53, 83), (.t 51, 19), (.t 57, 20)]⟩,
   ⟨[⟨22, 2, 2147591168⟩],
    [(.t 9, 257)]⟩,
   ⟨[⟨24, 2, 2147591168⟩],
    [(.t 4, 258)]⟩,
   ⟨[⟨62, 5, 70386058264576⟩],
    []⟩,
   ⟨[⟨178, 2, 70386058264640⟩],
    []⟩,
   ⟨[⟨67, 2, 70386058264640⟩, ⟨68, 2, 70386058264640⟩],
    [(.t 46, 259)]⟩,
   ⟨[⟨73, 4, 633922543173705⟩],
    [(.t 27, 260)]⟩,
   ⟨[⟨74, 4, 633922543173705⟩, ⟨73, 0, 268435456⟩, ⟨74, 0, 268435456⟩, ⟨75, 0, 268435456⟩, ⟨76, 0, 268435456⟩,
     ⟨77, 0, 268435456⟩, ⟨78, 0, 268435456⟩, ⟨79, 0, 268435456⟩, ⟨80, 0, 268435456⟩, ⟨81, 0, 268435456⟩,
     ⟨82, 0, 268435456⟩, ⟨83, 0, 268435456⟩, ⟨84, 0, 268435456⟩, ⟨85, 0, 268435456⟩, ⟨86, 0, 268435456⟩,
     ⟨87, 0, 268435456⟩, ⟨88, 0, 268435456⟩, ⟨13, 0, 508907033039208448⟩, ⟨14, 0, 508907033039208448⟩,
     ⟨15, 0, 508907033039208448⟩, ⟨101, 0, 268435456⟩, ⟨102, 0, 268435456⟩, ⟨9, 0, 508907033039210496⟩,
     ⟨10, 0, 508907033039210496⟩, ⟨11, 0, 508907033039210496⟩, ⟨12, 0, 508907033039210496⟩,
     ⟨164, 0, 508907033039208448⟩, ⟨165, 0, 508907033039208448⟩, ⟨2, 0, 517914232293951520⟩,
     ⟨3, 0, 517914232293951520⟩, ⟨4, 0, 517914232293951520⟩, ⟨103, 0, 268435456⟩, ⟨104, 0, 268435456⟩,
     ⟨105, 0, 268435456⟩, ⟨106, 0, 268435456⟩, ⟨162, 0, 268435488⟩, ⟨1, 0, 517914232293951520⟩,
     ⟨166, 0, 517914232293951520⟩, ⟨168, 0, 268435456⟩],
    [(.n 26, 261), (.t 26, 64), (.t 31, 65), (.n 5, 66), (.n 32, 67), (.t 23, 68), (.t 10, 69), (.t 28, 70),
     (.n 4, 71), (.t 32, 72), (.t 19, 73), (.n 54, 74), (.n 55, 75), (.n 1, 76), (.n 33, 77), (.n 52, 78),
     (.t 50, 79), (.t 55, 53), (.t 56, 80), (.n 0, 16), (.t 37, 17), (.n 56, 18), (.n 58, 81), (.t 49, 82),
     (.t 53, 83), (.t 51, 19), (.t 57, 20), (.t 54, 84)]⟩,
   ⟨[⟨75, 4, 633922543173705⟩],
    [(.t 9, 262)]⟩,
   ⟨[⟨16, 2, 509540955313946697⟩],
    []⟩,
   ⟨[⟨79, 4, 633922543173705⟩, ⟨16, 1, 509540955313946697⟩, ⟨13, 0, 509540955313946697⟩,
     ⟨14, 0, 509540955313946697⟩, ⟨15, 0, 509540955313946697⟩, ⟨164, 0, 509540955313946697⟩,
     ⟨165, 0, 509540955313946697⟩, ⟨2, 0, 32⟩, ⟨3, 0, 32⟩, ⟨4, 0, 32⟩, ⟨1, 0, 32⟩, ⟨166, 0, 32⟩],
    [(.n 5, 209), (.n 54, 74), (.n 55, 75), (.n 1, 106), (.t 55, 53), (.t 56, 80), (.n 0, 16), (.t 37, 17),
     (.n 56, 18), (.t 51, 19), (.t 57, 20)]⟩,
   ⟨[⟨18, 2, 509540955313946697⟩],
    []⟩,
   ⟨[⟨81, 4, 633922543173705⟩],
    []⟩,
   ⟨[⟨184, 2, 4104⟩],
    []⟩,
   ⟨[⟨98, 2, 4104⟩],
    []⟩,
   ⟨[⟨99, 3, 4104⟩],
    []⟩,
   ⟨[⟨100, 3, 4104⟩],
    []⟩,
   ⟨[⟨103, 1, 4104⟩, ⟨15, 1, 4104⟩, ⟨163, 0, 4104⟩],
    [(.n 53, 118), (.t 4, 148), (.t 52, 4)]⟩,
   ⟨[⟨104, 1, 4104⟩],
    []⟩,
   ⟨[⟨82, 4, 633922543173705⟩, ⟨186, 1, 2147483712⟩, ⟨89, 0, 2147483712⟩],
    [(.t 30, 263), (.n 27, 264), (.t 5, 221)]⟩,
   ⟨[⟨185, 1, 2147483712⟩],
    []⟩,
   ⟨[⟨89, 1, 2147483712⟩, ⟨90, 0, 16384⟩, ⟨91, 0, 16384⟩, ⟨92, 0, 16384⟩, ⟨93, 0, 16384⟩, ⟨164, 0, 16384⟩,
     ⟨9, 0, 385058043022295552⟩, ⟨10, 0, 385058043022295552⟩, ⟨11, 0, 385058043022295552⟩,
     ⟨12, 0, 385058043022295552⟩, ⟨2, 0, 385058043022295584⟩, ⟨3, 0, 385058043022295584⟩,
     ⟨4, 0, 385058043022295584⟩, ⟨162, 0, 32⟩, ⟨1, 0, 385058043022295584⟩, ⟨166, 0, 385058043022295584⟩],
    [(.n 28, 265), (.t 21, 266), (.n 54, 267), (.n 4, 268), (.t 55, 53), (.n 1, 269), (.n 52, 125), (.t 50, 79),
     (.n 0, 16), (.t 37, 17), (.n 56, 18), (.t 53, 83), (.t 51, 19), (.t 57, 20)]⟩,
   ⟨[⟨72, 3, 509540955313947209⟩],
    []⟩,
   ⟨[⟨172, 2, 890112716012910153⟩],
    []⟩,
   ⟨[⟨30, 2, 890112716012910153⟩],
    [(.t 9, 270)]⟩,
   ⟨[⟨34, 2, 890112716012910153⟩, ⟨48, 0, 890112716012910153⟩, ⟨49, 0, 890112716012910153⟩,
     ⟨50, 0, 890112716012910153⟩, ⟨51, 0, 890112716012910153⟩, ⟨9, 0, 890112716012910153⟩,
     ⟨10, 0, 890112716012910153⟩, ⟨11, 0, 890112716012910153⟩, ⟨12, 0, 890112716012910153⟩,
     ⟨35, 0, 890112716012910153⟩, ⟨36, 0, 890112716012910153⟩, ⟨37, 0, 890112716012910153⟩,
     ⟨38, 0, 890112716012910153⟩, ⟨39, 0, 890112716012910153⟩, ⟨2, 0, 890112717086652009⟩,
     ⟨3, 0, 890112717086652009⟩, ⟨4, 0, 890112717086652009⟩, ⟨162, 0, 32⟩, ⟨1, 0, 890112717086652009⟩,
     ⟨166, 0, 890112717086652009⟩],
    [(.n 16, 271), (.n 4, 174), (.t 43, 175), (.t 8, 176), (.n 11, 177), (.n 1, 124), (.n 52, 125), (.t 50, 79),
     (.n 0, 16), (.t 37, 17), (.n 56, 18), (.t 53, 83), (.t 51, 19), (.t 57, 20)]⟩,
   ⟨[⟨87, 4, 633922543173705⟩],
    []⟩,
   ⟨[⟨49, 2, 890112716012910153⟩, ⟨48, 0, 890112716012910153⟩, ⟨49, 0, 890112716012910153⟩,
     ⟨50, 0, 890112716012910153⟩, ⟨51, 0, 890112716012910153⟩, ⟨9, 0, 890112716012910153⟩,
     ⟨10, 0, 890112716012910153⟩, ⟨11, 0, 890112716012910153⟩, ⟨12, 0, 890112716012910153⟩,
     ⟨35, 0, 890112716012910153⟩, ⟨36, 0, 890112716012910153⟩, ⟨37, 0, 890112716012910153⟩,
     ⟨38, 0, 890112716012910153⟩, ⟨39, 0, 890112716012910153⟩, ⟨2, 0, 890112717086652009⟩,
     ⟨3, 0, 890112717086652009⟩, ⟨4, 0, 890112717086652009⟩, ⟨162, 0, 32⟩, ⟨1, 0, 890112717086652009⟩,
     ⟨166, 0, 890112717086652009⟩],
    [(.n 16, 272), (.n 4, 174), (.t 43, 175), (.t 8, 176), (.n 11, 177), (.n 1, 124), (.n 52, 125), (.t 50, 79),
     (.n 0, 16), (.t 37, 17), (.n 56, 18), (.t 53, 83), (.t 51, 19), (.t 57, 20)]⟩,
   ⟨[⟨50, 2, 890112716012910153⟩],
    [(.t 9, 273)]⟩,
   ⟨[⟨69, 1, 1024⟩, ⟨48, 1, 1024⟩, ⟨179, 0, 313018041166202368⟩, ⟨180, 0, 313018041166202368⟩,
     ⟨52, 0, 313018041166202368⟩, ⟨53, 0, 313018041166202368⟩, ⟨54, 0, 313018041166202368⟩,
     ⟨9, 0, 313018041166202368⟩, ⟨10, 0, 313018041166202368⟩, ⟨11, 0, 313018041166202368⟩,
     ⟨12, 0, 313018041166202368⟩, ⟨2, 0, 313018041166202400⟩, ⟨3, 0, 313018041166202400⟩,
     ⟨4, 0, 313018041166202400⟩, ⟨162, 0, 32⟩, ⟨1, 0, 313018041166202400⟩, ⟨166, 0, 313018041166202400⟩],
    [(.n 76, 274), (.n 17, 275), (.t 8, 276), (.n 4, 277), (.t 43, 278), (.n 1, 269), (.n 52, 125), (.t 50, 79),
     (.n 0, 16), (.t 37, 17), (.n 56, 18), (.t 53, 83), (.t 51, 19), (.t 57, 20)]⟩,
   ⟨[⟨70, 1, 1024⟩],
    []⟩,
   ⟨[⟨45, 3, 313018041166201344⟩],
    []⟩,
   ⟨[⟨46, 3, 313018041166201344⟩],
    []⟩,
   ⟨[⟨35, 3, 890112716012910153⟩],
    []⟩,
   ⟨[⟨36, 3, 890112716012910153⟩, ⟨37, 3, 890112716012910153⟩, ⟨40, 0, 2147483648⟩, ⟨41, 0, 2147483648⟩,
     ⟨43, 0, 2147491840⟩],
    [(.t 30, 279), (.n 12, 280), (.n 14, 281), (.t 38, 282)]⟩,
   ⟨[⟨38, 3, 890112716012910153⟩],
    [(.t 30, 283)]⟩,
   ⟨[⟨39, 3, 890112716012910153⟩],
    [(.t 30, 284)]⟩,
   ⟨[⟨151, 2, 562984313159681⟩],
    []⟩,
   ⟨[⟨128, 2, 2147483712⟩, ⟨194, 1, 2147483720⟩, ⟨126, 0, 2147483720⟩],
    [(.n 35, 285), (.t 2, 240)]⟩,
   ⟨[⟨193, 1, 2147483720⟩],
    []⟩]

def lrStates6 : List State :=
  [⟨[⟨126, 1, 2147483720⟩, ⟨107, 0, 2147483720⟩, ⟨108, 0, 2147483720⟩, ⟨109, 0, 2147483720⟩, ⟨110, 0, 2147483720⟩,
     ⟨111, 0, 2147483720⟩, ⟨112, 0, 2147483720⟩, ⟨113, 0, 2147483720⟩, ⟨114, 0, 2147483720⟩, ⟨115, 0, 2147483720⟩,
     ⟨116, 0, 2147483720⟩, ⟨117, 0, 2147483720⟩, ⟨118, 0, 2147483720⟩, ⟨119, 0, 2147483720⟩, ⟨120, 0, 2147483720⟩,
     ⟨121, 0, 2147483720⟩, ⟨122, 0, 2147483720⟩, ⟨123, 0, 2147483720⟩, ⟨124, 0, 2147483720⟩, ⟨125, 0, 2147483720⟩,
     ⟨164, 0, 508907034919108808⟩, ⟨134, 0, 2147483720⟩, ⟨135, 0, 2147483720⟩, ⟨136, 0, 2147483720⟩,
     ⟨137, 0, 2147483720⟩, ⟨138, 0, 2147483720⟩, ⟨130, 0, 508907034918256712⟩, ⟨131, 0, 508907034918256712⟩,
     ⟨2, 0, 508907034918256712⟩, ⟨3, 0, 508907034918256712⟩, ⟨4, 0, 508907034918256712⟩,
     ⟨1, 0, 508907034918256712⟩, ⟨166, 0, 508907034918256712⟩],
    [(.n 34, 286), (.n 54, 187), (.n 40, 188), (.t 41, 189), (.t 39, 190), (.t 35, 191), (.t 36, 192),
     (.t 42, 193), (.t 28, 194), (.n 38, 195), (.t 22, 196), (.t 55, 53), (.n 1, 87), (.n 0, 16), (.t 37, 17),
     (.n 56, 18), (.t 51, 19), (.t 57, 20)]⟩,
   ⟨[⟨107, 2, 2147483720⟩, ⟨111, 2, 2147483720⟩, ⟨112, 2, 2147483720⟩, ⟨113, 2, 2147483720⟩, ⟨114, 2, 2147483720⟩,
     ⟨134, 2, 2147483720⟩, ⟨135, 2, 2147483720⟩, ⟨136, 2, 2147483720⟩, ⟨137, 2, 2147483720⟩, ⟨138, 2, 2147483720⟩,
     ⟨13, 0, 2147483720⟩, ⟨14, 0, 2147483720⟩, ⟨15, 0, 2147483720⟩, ⟨164, 0, 2147483848⟩, ⟨165, 0, 2147483720⟩,
     ⟨2, 0, 32⟩, ⟨3, 0, 32⟩, ⟨4, 0, 32⟩, ⟨1, 0, 32⟩, ⟨166, 0, 32⟩],
    [(.n 5, 287), (.t 16, 288), (.n 54, 289), (.t 40, 290), (.n 55, 75), (.n 1, 106), (.t 55, 53), (.t 56, 80),
     (.n 0, 16), (.t 37, 17), (.n 56, 18), (.t 51, 19), (.t 57, 20)]⟩,
   ⟨[⟨109, 2, 2147483720⟩, ⟨13, 0, 2147483720⟩, ⟨14, 0, 2147483720⟩, ⟨15, 0, 2147483720⟩, ⟨164, 0, 2147483720⟩,
     ⟨165, 0, 2147483720⟩, ⟨2, 0, 32⟩, ⟨3, 0, 32⟩, ⟨4, 0, 32⟩, ⟨1, 0, 32⟩, ⟨166, 0, 32⟩],
    [(.n 5, 291), (.n 54, 74), (.n 55, 75), (.n 1, 106), (.t 55, 53), (.t 56, 80), (.n 0, 16), (.t 37, 17),
     (.n 56, 18), (.t 51, 19), (.t 57, 20)]⟩,
   ⟨[⟨110, 2, 2147483720⟩, ⟨73, 0, 2147483720⟩, ⟨74, 0, 2147483720⟩, ⟨75, 0, 2147483720⟩, ⟨76, 0, 2147483720⟩,
     ⟨77, 0, 2147483720⟩, ⟨78, 0, 2147483720⟩, ⟨79, 0, 2147483720⟩, ⟨80, 0, 2147483720⟩, ⟨81, 0, 2147483720⟩,
     ⟨82, 0, 2147483720⟩, ⟨83, 0, 2147483720⟩, ⟨84, 0, 2147483720⟩, ⟨85, 0, 2147483720⟩, ⟨86, 0, 2147483720⟩,
     ⟨87, 0, 2147483720⟩, ⟨88, 0, 2147483720⟩, ⟨13, 0, 508907034918256712⟩, ⟨14, 0, 508907034918256712⟩,
     ⟨15, 0, 508907034918256712⟩, ⟨101, 0, 2147483720⟩, ⟨102, 0, 2147483720⟩, ⟨9, 0, 508907034918258760⟩,
     ⟨10, 0, 508907034918258760⟩, ⟨11, 0, 508907034918258760⟩, ⟨12, 0, 508907034918258760⟩,
     ⟨164, 0, 508907034918256712⟩, ⟨165, 0, 508907034918256712⟩, ⟨2, 0, 517914234172999784⟩,
     ⟨3, 0, 517914234172999784⟩, ⟨4, 0, 517914234172999784⟩, ⟨103, 0, 2147483720⟩, ⟨104, 0, 2147483720⟩,
     ⟨105, 0, 2147483720⟩, ⟨106, 0, 2147483720⟩, ⟨162, 0, 2147483752⟩, ⟨1, 0, 517914234172999784⟩,
     ⟨166, 0, 517914234172999784⟩, ⟨168, 0, 2147483720⟩],
    [(.n 26, 292), (.t 26, 64), (.t 31, 65), (.n 5, 66), (.n 32, 67), (.t 23, 68), (.t 10, 69), (.t 28, 70),
     (.n 4, 71), (.t 32, 72), (.t 19, 73), (.n 54, 74), (.n 55, 75), (.n 1, 76), (.n 33, 77), (.n 52, 78),
     (.t 50, 79), (.t 55, 53), (.t 56, 80), (.n 0, 16), (.t 37, 17), (.n 56, 18), (.n 58, 81), (.t 49, 82),
     (.t 53, 83), (.t 51, 19), (.t 57, 20), (.t 54, 84)]⟩,
   ⟨[⟨115, 2, 2147483720⟩, ⟨190, 1, 524416⟩, ⟨139, 0, 524416⟩],
    [(.t 18, 293), (.n 41, 294), (.t 6, 246)]⟩,
   ⟨[⟨189, 1, 2148008136⟩],
    []⟩,
   ⟨[⟨139, 1, 2148008136⟩, ⟨13, 0, 256⟩, ⟨14, 0, 256⟩, ⟨15, 0, 256⟩, ⟨164, 0, 256⟩, ⟨165, 0, 256⟩, ⟨2, 0, 32⟩,
     ⟨3, 0, 32⟩, ⟨4, 0, 32⟩, ⟨1, 0, 32⟩, ⟨166, 0, 32⟩],
    [(.n 5, 295), (.n 54, 74), (.n 55, 75), (.n 1, 106), (.t 55, 53), (.t 56, 80), (.n 0, 16), (.t 37, 17),
     (.n 56, 18), (.t 51, 19), (.t 57, 20)]⟩,
   ⟨[⟨116, 2, 2147483720⟩, ⟨189, 0, 2147483848⟩, ⟨190, 0, 2147483848⟩, ⟨139, 0, 2147483848⟩],
    [(.n 100, 296), (.n 41, 245), (.t 6, 246)]⟩,
   ⟨[⟨118, 2, 2147483720⟩],
    []⟩,
   ⟨[⟨119, 2, 2147483720⟩],
    []⟩,
   ⟨[⟨121, 2, 2147483720⟩],
    []⟩,
   ⟨[⟨122, 2, 2147483720⟩],
    [(.t 29, 297)]⟩,
   ⟨[⟨124, 2, 2147483720⟩, ⟨182, 1, 508907034918256712⟩, ⟨13, 0, 508907034918256712⟩, ⟨14, 0, 508907034918256712⟩,
     ⟨15, 0, 508907034918256712⟩, ⟨164, 0, 508907034918256712⟩, ⟨165, 0, 508907034918256712⟩, ⟨2, 0, 32⟩,
     ⟨3, 0, 32⟩, ⟨4, 0, 32⟩, ⟨1, 0, 32⟩, ⟨166, 0, 32⟩],
    [(.n 5, 147), (.n 54, 74), (.n 55, 75), (.n 1, 106), (.t 55, 53), (.t 56, 80), (.n 0, 16), (.t 37, 17),
     (.n 56, 18), (.t 51, 19), (.t 57, 20)]⟩,
   ⟨[⟨125, 2, 2147483720⟩, ⟨130, 0, 2147483720⟩, ⟨131, 0, 2147483720⟩, ⟨2, 0, 2147483720⟩, ⟨3, 0, 2147483720⟩,
     ⟨4, 0, 2147483720⟩, ⟨164, 0, 2147483720⟩, ⟨1, 0, 2147483720⟩, ⟨166, 0, 2147483720⟩],
    [(.n 38, 298), (.n 1, 87), (.n 54, 88), (.n 0, 16), (.t 37, 17), (.n 56, 18), (.t 55, 53), (.t 51, 19),
     (.t 57, 20)]⟩,
   ⟨[⟨26, 3, 2147558400⟩],
    []⟩,
   ⟨[⟨27, 3, 2147558400⟩, ⟨26, 1, 2147558400⟩, ⟨27, 1, 2147558400⟩],
    [(.t 14, 198)]⟩,
   ⟨[⟨21, 3, 2147591168⟩],
    []⟩,
   ⟨[⟨22, 3, 2147591168⟩],
    []⟩,
   ⟨[⟨24, 3, 2147591168⟩, ⟨19, 0, 2147591168⟩, ⟨20, 0, 2147591168⟩, ⟨21, 0, 2147591168⟩, ⟨22, 0, 2147591168⟩,
     ⟨23, 0, 2147591168⟩, ⟨24, 0, 2147591168⟩, ⟨25, 0, 2147591168⟩, ⟨9, 0, 889478795617216000⟩,
     ⟨10, 0, 889478795617216000⟩, ⟨11, 0, 889478795617216000⟩, ⟨12, 0, 889478795617216000⟩, ⟨35, 0, 2147591168⟩,
     ⟨36, 0, 2147591168⟩, ⟨37, 0, 2147591168⟩, ⟨38, 0, 2147591168⟩, ⟨39, 0, 2147591168⟩, ⟨167, 0, 2147591168⟩,
     ⟨2, 0, 889478796690957856⟩, ⟨3, 0, 889478796690957856⟩, ⟨4, 0, 889478796690957856⟩, ⟨162, 0, 32⟩,
     ⟨1, 0, 889478796690957856⟩, ⟨166, 0, 889478796690957856⟩],
    [(.n 7, 299), (.n 4, 133), (.t 43, 134), (.t 8, 135), (.n 11, 136), (.t 22, 137), (.n 57, 138), (.n 1, 124),
     (.n 52, 125), (.t 50, 79), (.t 58, 115), (.n 0, 16), (.t 37, 17), (.n 56, 18), (.t 53, 83), (.t 51, 19),
     (.t 57, 20)]⟩,
   ⟨[⟨68, 3, 70386058264640⟩, ⟨171, 0, 889549179527889472⟩, ⟨172, 0, 889549179527889472⟩,
     ⟨30, 0, 889549179527889472⟩, ⟨31, 0, 889549179527889472⟩, ⟨32, 0, 889549179527889472⟩,
     ⟨33, 0, 889549179527889472⟩, ⟨34, 0, 889549179527889472⟩, ⟨9, 0, 889549179527889472⟩,
     ⟨10, 0, 889549179527889472⟩, ⟨11, 0, 889549179527889472⟩, ⟨12, 0, 889549179527889472⟩,
     ⟨167, 0, 889549179527889472⟩, ⟨35, 0, 889549179527889472⟩, ⟨36, 0, 889549179527889472⟩,
     ⟨37, 0, 889549179527889472⟩, ⟨38, 0, 889549179527889472⟩, ⟨39, 0, 889549179527889472⟩,
     ⟨2, 0, 889549180601631328⟩, ⟨3, 0, 889549180601631328⟩, ⟨4, 0, 889549180601631328⟩, ⟨162, 0, 32⟩,
     ⟨1, 0, 889549180601631328⟩, ⟨166, 0, 889549180601631328⟩],
    [(.n 69, 300), (.n 10, 162), (.t 8, 163), (.n 4, 164), (.n 57, 165), (.n 11, 166), (.t 43, 167), (.n 1, 124),
     (.n 52, 125), (.t 50, 79), (.t 58, 115), (.n 0, 16), (.t 37, 17), (.n 56, 18), (.t 53, 83), (.t 51, 19),
     (.t 57, 20)]⟩,
   ⟨[⟨73, 5, 633922543173705⟩, ⟨73, 0, 633922543173705⟩, ⟨74, 0, 633922543173705⟩, ⟨75, 0, 633922543173705⟩,
     ⟨76, 0, 633922543173705⟩, ⟨77, 0, 633922543173705⟩, ⟨78, 0, 633922543173705⟩, ⟨79, 0, 633922543173705⟩,
     ⟨80, 0, 633922543173705⟩, ⟨81, 0, 633922543173705⟩, ⟨82, 0, 633922543173705⟩, ⟨83, 0, 633922543173705⟩,
     ⟨84, 0, 633922543173705⟩, ⟨85, 0, 633922543173705⟩, ⟨86, 0, 633922543173705⟩, ⟨87, 0, 633922543173705⟩,
     ⟨88, 0, 633922543173705⟩, ⟨13, 0, 509540955313946697⟩, ⟨14, 0, 509540955313946697⟩,
     ⟨15, 0, 509540955313946697⟩, ⟨101, 0, 633922543173705⟩, ⟨102, 0, 633922543173705⟩, ⟨9, 0, 509540955313948745⟩,
     ⟨10, 0, 509540955313948745⟩, ⟨11, 0, 509540955313948745⟩, ⟨12, 0, 509540955313948745⟩,
     ⟨164, 0, 509540955313946697⟩, ⟨165, 0, 509540955313946697⟩, ⟨2, 0, 518548154568689769⟩,
     ⟨3, 0, 518548154568689769⟩, ⟨4, 0, 518548154568689769⟩, ⟨103, 0, 633922543173705⟩, ⟨104, 0, 633922543173705⟩,
     ⟨105, 0, 633922543173705⟩, ⟨106, 0, 633922543173705⟩, ⟨162, 0, 633922543173737⟩, ⟨1, 0, 518548154568689769⟩,
     ⟨166, 0, 518548154568689769⟩, ⟨168, 0, 633922543173705⟩],
    [(.n 26, 301), (.t 26, 64), (.t 31, 65), (.n 5, 66), (.n 32, 67), (.t 23, 68), (.t 10, 69), (.t 28, 70),
     (.n 4, 71), (.t 32, 72), (.t 19, 73), (.n 54, 74), (.n 55, 75), (.n 1, 76), (.n 33, 77), (.n 52, 78),
     (.t 50, 79), (.t 55, 53), (.t 56, 80), (.n 0, 16), (.t 37, 17), (.n 56, 18), (.n 58, 81), (.t 49, 82),
     (.t 53, 83), (.t 51, 19), (.t 57, 20), (.t 54, 84)]⟩,
   ⟨[⟨74, 5, 633922543173705⟩],
    [(.t 27, 302)]⟩,
   ⟨[⟨75, 5, 633922543173705⟩],
    [(.t 13, 303)]⟩,
   ⟨[⟨82, 5, 633922543173705⟩],
    []⟩,
   ⟨[⟨186, 2, 2147483712⟩],
    []⟩,
   ⟨[⟨89, 2, 2147483712⟩],
    [(.t 13, 304)]⟩,
   ⟨[⟨90, 1, 17408⟩],
    []⟩,
   ⟨[⟨91, 1, 17408⟩],
    []⟩,
   ⟨[⟨92, 1, 17408⟩, ⟨93, 1, 17408⟩, ⟨187, 0, 385058043022296576⟩, ⟨188, 0, 385058043022296576⟩,
     ⟨94, 0, 385058043022296576⟩, ⟨95, 0, 385058043022296576⟩, ⟨96, 0, 385058043022296576⟩,
     ⟨97, 0, 385058043022296576⟩, ⟨164, 0, 385058043022296576⟩, ⟨9, 0, 385058043022296576⟩,
     ⟨10, 0, 385058043022296576⟩, ⟨11, 0, 385058043022296576⟩, ⟨12, 0, 385058043022296576⟩,
     ⟨2, 0, 385058043022296608⟩, ⟨3, 0, 385058043022296608⟩, ⟨4, 0, 385058043022296608⟩, ⟨162, 0, 32⟩,
     ⟨1, 0, 385058043022296608⟩, ⟨166, 0, 385058043022296608⟩],
    [(.n 88, 305), (.n 29, 306), (.t 21, 307), (.n 54, 308), (.n 4, 309), (.t 8, 310), (.t 55, 53), (.n 1, 269),
     (.n 52, 125), (.t 50, 79), (.n 0, 16), (.t 37, 17), (.n 56, 18), (.t 53, 83), (.t 51, 19), (.t 57, 20)]⟩,
   ⟨[⟨9, 1, 385075635208340992⟩, ⟨10, 1, 385075635208340992⟩],
    [(.t 4, 180)]⟩,
   ⟨[⟨30, 3, 890112716012910153⟩],
    []⟩,
   ⟨[⟨34, 3, 890112716012910153⟩],
    []⟩,
   ⟨[⟨49, 3, 890112716012910153⟩],
    []⟩,
   ⟨[⟨50, 3, 890112716012910153⟩],
    []⟩,
   ⟨[⟨69, 2, 1024⟩, ⟨180, 1, 313018041166202368⟩, ⟨52, 0, 313018041166202368⟩, ⟨53, 0, 313018041166202368⟩,
     ⟨54, 0, 313018041166202368⟩, ⟨9, 0, 313018041166202368⟩, ⟨10, 0, 313018041166202368⟩,
     ⟨11, 0, 313018041166202368⟩, ⟨12, 0, 313018041166202368⟩, ⟨2, 0, 313018041166202400⟩,
     ⟨3, 0, 313018041166202400⟩, ⟨4, 0, 313018041166202400⟩, ⟨162, 0, 32⟩, ⟨1, 0, 313018041166202400⟩,
     ⟨166, 0, 313018041166202400⟩],
    [(.n 17, 311), (.t 8, 276), (.n 4, 277), (.t 43, 278), (.n 1, 269), (.n 52, 125), (.t 50, 79), (.n 0, 16),
     (.t 37, 17), (.n 56, 18), (.t 53, 83), (.t 51, 19), (.t 57, 20)]⟩,
   ⟨[⟨179, 1, 313018041166202368⟩],
    []⟩,
   ⟨[⟨52, 1, 313018041166202368⟩, ⟨69, 0, 1024⟩, ⟨70, 0, 1024⟩, ⟨9, 0, 313018041166202368⟩,
     ⟨10, 0, 313018041166202368⟩, ⟨11, 0, 313018041166202368⟩, ⟨12, 0, 313018041166202368⟩, ⟨48, 0, 1024⟩,
     ⟨49, 0, 1024⟩, ⟨50, 0, 1024⟩, ⟨51, 0, 1024⟩, ⟨2, 0, 313018042239944224⟩, ⟨3, 0, 313018042239944224⟩,
     ⟨4, 0, 313018042239944224⟩, ⟨162, 0, 32⟩, ⟨35, 0, 1024⟩, ⟨36, 0, 1024⟩, ⟨37, 0, 1024⟩, ⟨38, 0, 1024⟩,
     ⟨39, 0, 1024⟩, ⟨1, 0, 313018042239944224⟩, ⟨166, 0, 313018042239944224⟩],
    [(.n 24, 312), (.n 4, 229), (.n 16, 230), (.n 1, 124), (.n 52, 125), (.t 50, 79), (.t 43, 175), (.t 8, 176),
     (.n 11, 177), (.n 0, 16), (.t 37, 17), (.n 56, 18), (.t 53, 83), (.t 51, 19), (.t 57, 20)]⟩,
   ⟨[⟨53, 1, 313018041166202368⟩],
    []⟩,
   ⟨[⟨54, 1, 313018041166202368⟩, ⟨44, 0, 313018041166201344⟩, ⟨45, 0, 313018041166201344⟩,
     ⟨46, 0, 313018041166201344⟩, ⟨47, 0, 313018041166201344⟩, ⟨9, 0, 313018041166201344⟩,
     ⟨10, 0, 313018041166201344⟩, ⟨11, 0, 313018041166201344⟩, ⟨12, 0, 313018041166201344⟩,
     ⟨35, 0, 313018041166201344⟩, ⟨36, 0, 313018041166201344⟩, ⟨37, 0, 313018041166201344⟩,
     ⟨38, 0, 313018041166201344⟩, ⟨39, 0, 313018041166201344⟩, ⟨2, 0, 313018042239943200⟩,
     ⟨3, 0, 313018042239943200⟩, ⟨4, 0, 313018042239943200⟩, ⟨162, 0, 32⟩, ⟨1, 0, 313018042239943200⟩,
     ⟨166, 0, 313018042239943200⟩],
    [(.n 15, 313), (.n 4, 121), (.t 8, 122), (.n 11, 123), (.n 1, 124), (.n 52, 125), (.t 50, 79), (.n 0, 16),
     (.t 37, 17), (.n 56, 18), (.t 53, 83), (.t 51, 19), (.t 57, 20)]⟩,
   ⟨[⟨36, 4, 890112716012910153⟩],
    []⟩]

def lrStates7 : List State :=
  [⟨[⟨37, 4, 890112716012910153⟩],
    [(.t 30, 314)]⟩,
   ⟨[⟨40, 1, 2147483648⟩, ⟨41, 1, 2147483648⟩, ⟨173, 0, 2147491840⟩, ⟨174, 0, 2147491840⟩, ⟨42, 0, 2147491840⟩],
    [(.n 72, 315), (.n 13, 316), (.t 12, 317)]⟩,
   ⟨[⟨43, 1, 2147491840⟩, ⟨13, 0, 16⟩, ⟨14, 0, 16⟩, ⟨15, 0, 16⟩, ⟨164, 0, 16⟩, ⟨165, 0, 16⟩, ⟨2, 0, 32⟩,
     ⟨3, 0, 32⟩, ⟨4, 0, 32⟩, ⟨1, 0, 32⟩, ⟨166, 0, 32⟩],
    [(.n 5, 318), (.n 54, 74), (.n 55, 75), (.n 1, 106), (.t 55, 53), (.t 56, 80), (.n 0, 16), (.t 37, 17),
     (.n 56, 18), (.t 51, 19), (.t 57, 20)]⟩,
   ⟨[⟨38, 4, 890112716012910153⟩],
    []⟩,
   ⟨[⟨39, 4, 890112716012910153⟩],
    []⟩,
   ⟨[⟨194, 2, 2147483720⟩],
    []⟩,
   ⟨[⟨126, 2, 2147483720⟩],
    []⟩,
   ⟨[⟨107, 3, 2147483720⟩],
    []⟩,
   ⟨[⟨111, 3, 2147483720⟩, ⟨112, 3, 2147483720⟩, ⟨134, 3, 2147483720⟩, ⟨135, 3, 2147483720⟩, ⟨136, 3, 2147483720⟩,
     ⟨137, 3, 2147483720⟩, ⟨138, 3, 2147483720⟩, ⟨2, 0, 2147484264⟩, ⟨3, 0, 2147484264⟩, ⟨4, 0, 2147484264⟩,
     ⟨164, 0, 281474976710688⟩, ⟨165, 0, 281474976710688⟩, ⟨13, 0, 281474976710656⟩, ⟨14, 0, 281474976710656⟩,
     ⟨15, 0, 281474976710656⟩, ⟨1, 0, 2147484264⟩, ⟨166, 0, 2147484264⟩],
    [(.n 1, 319), (.n 54, 320), (.n 55, 321), (.t 40, 322), (.n 5, 323), (.n 0, 16), (.t 37, 17), (.n 56, 18),
     (.t 55, 53), (.t 56, 80), (.t 51, 19), (.t 57, 20)]⟩,
   ⟨[⟨113, 3, 2147483720⟩, ⟨13, 1, 2147483720⟩, ⟨189, 0, 2147483848⟩, ⟨190, 0, 2147483848⟩, ⟨139, 0, 2147483848⟩],
    [(.n 100, 324), (.n 41, 245), (.t 6, 246)]⟩,
   ⟨[⟨114, 3, 2147483720⟩, ⟨164, 0, 128⟩],
    [(.n 54, 325), (.t 55, 53)]⟩,
   ⟨[⟨109, 3, 2147483720⟩],
    []⟩,
   ⟨[⟨110, 3, 2147483720⟩],
    []⟩,
   ⟨[⟨115, 3, 2147483720⟩, ⟨13, 0, 2147483720⟩, ⟨14, 0, 2147483720⟩, ⟨15, 0, 2147483720⟩, ⟨164, 0, 2147483720⟩,
     ⟨165, 0, 2147483720⟩, ⟨2, 0, 32⟩, ⟨3, 0, 32⟩, ⟨4, 0, 32⟩, ⟨1, 0, 32⟩, ⟨166, 0, 32⟩],
    [(.n 5, 326), (.n 54, 74), (.n 55, 75), (.n 1, 106), (.t 55, 53), (.t 56, 80), (.n 0, 16), (.t 37, 17),
     (.n 56, 18), (.t 51, 19), (.t 57, 20)]⟩,
   ⟨[⟨190, 2, 2148008136⟩],
    []⟩,
   ⟨[⟨139, 2, 2148008136⟩],
    [(.t 7, 327)]⟩,
   ⟨[⟨116, 3, 2147483720⟩, ⟨190, 1, 2147483848⟩, ⟨139, 0, 2147483848⟩],
    [(.n 41, 294), (.t 6, 246)]⟩,
   ⟨[⟨122, 3, 2147483720⟩, ⟨191, 0, 2147483712⟩, ⟨192, 0, 2147483712⟩, ⟨132, 0, 2147483712⟩, ⟨133, 0, 2147483712⟩],
    [(.n 98, 328), (.n 39, 329), (.t 5, 330)]⟩,
   ⟨[⟨125, 3, 2147483720⟩],
    []⟩,
   ⟨[⟨24, 4, 2147591168⟩],
    []⟩,
   ⟨[⟨68, 4, 70386058264640⟩, ⟨172, 1, 889549179527889472⟩, ⟨30, 0, 889549179527889472⟩,
     ⟨31, 0, 889549179527889472⟩, ⟨32, 0, 889549179527889472⟩, ⟨33, 0, 889549179527889472⟩,
     ⟨34, 0, 889549179527889472⟩, ⟨9, 0, 889549179527889472⟩, ⟨10, 0, 889549179527889472⟩,
     ⟨11, 0, 889549179527889472⟩, ⟨12, 0, 889549179527889472⟩, ⟨167, 0, 889549179527889472⟩,
     ⟨35, 0, 889549179527889472⟩, ⟨36, 0, 889549179527889472⟩, ⟨37, 0, 889549179527889472⟩,
     ⟨38, 0, 889549179527889472⟩, ⟨39, 0, 889549179527889472⟩, ⟨2, 0, 889549180601631328⟩,
     ⟨3, 0, 889549180601631328⟩, ⟨4, 0, 889549180601631328⟩, ⟨162, 0, 32⟩, ⟨1, 0, 889549180601631328⟩,
     ⟨166, 0, 889549180601631328⟩],
    [(.n 10, 223), (.t 8, 163), (.n 4, 164), (.n 57, 165), (.n 11, 166), (.t 43, 167), (.n 1, 124), (.n 52, 125),
     (.t 50, 79), (.t 58, 115), (.n 0, 16), (.t 37, 17), (.n 56, 18), (.t 53, 83), (.t 51, 19), (.t 57, 20)]⟩,
   ⟨[⟨73, 6, 633922543173705⟩],
    []⟩,
   ⟨[⟨74, 6, 633922543173705⟩, ⟨73, 0, 633922543173705⟩, ⟨74, 0, 633922543173705⟩, ⟨75, 0, 633922543173705⟩,
     ⟨76, 0, 633922543173705⟩, ⟨77, 0, 633922543173705⟩, ⟨78, 0, 633922543173705⟩, ⟨79, 0, 633922543173705⟩,
     ⟨80, 0, 633922543173705⟩, ⟨81, 0, 633922543173705⟩, ⟨82, 0, 633922543173705⟩, ⟨83, 0, 633922543173705⟩,
     ⟨84, 0, 633922543173705⟩, ⟨85, 0, 633922543173705⟩, ⟨86, 0, 633922543173705⟩, ⟨87, 0, 633922543173705⟩,
     ⟨88, 0, 633922543173705⟩, ⟨13, 0, 509540955313946697⟩, ⟨14, 0, 509540955313946697⟩,
     ⟨15, 0, 509540955313946697⟩, ⟨101, 0, 633922543173705⟩, ⟨102, 0, 633922543173705⟩, ⟨9, 0, 509540955313948745⟩,
     ⟨10, 0, 509540955313948745⟩, ⟨11, 0, 509540955313948745⟩, ⟨12, 0, 509540955313948745⟩,
     ⟨164, 0, 509540955313946697⟩, ⟨165, 0, 509540955313946697⟩, ⟨2, 0, 518548154568689769⟩,
     ⟨3, 0, 518548154568689769⟩, ⟨4, 0, 518548154568689769⟩, ⟨103, 0, 633922543173705⟩, ⟨104, 0, 633922543173705⟩,
     ⟨105, 0, 633922543173705⟩, ⟨106, 0, 633922543173705⟩, ⟨162, 0, 633922543173737⟩, ⟨1, 0, 518548154568689769⟩,
     ⟨166, 0, 518548154568689769⟩, ⟨168, 0, 633922543173705⟩],
    [(.n 26, 331), (.t 26, 64), (.t 31, 65), (.n 5, 66), (.n 32, 67), (.t 23, 68), (.t 10, 69), (.t 28, 70),
     (.n 4, 71), (.t 32, 72), (.t 19, 73), (.n 54, 74), (.n 55, 75), (.n 1, 76), (.n 33, 77), (.n 52, 78),
     (.t 50, 79), (.t 55, 53), (.t 56, 80), (.n 0, 16), (.t 37, 17), (.n 56, 18), (.n 58, 81), (.t 49, 82),
     (.t 53, 83), (.t 51, 19), (.t 57, 20), (.t 54, 84)]⟩,
   ⟨[⟨75, 6, 633922543173705⟩, ⟨73, 0, 633922543173705⟩, ⟨74, 0, 633922543173705⟩, ⟨75, 0, 633922543173705⟩,
     ⟨76, 0, 633922543173705⟩, ⟨77, 0, 633922543173705⟩, ⟨78, 0, 633922543173705⟩, ⟨79, 0, 633922543173705⟩,
     ⟨80, 0, 633922543173705⟩, ⟨81, 0, 633922543173705⟩, ⟨82, 0, 633922543173705⟩, ⟨83, 0, 633922543173705⟩,
     ⟨84, 0, 633922543173705⟩, ⟨85, 0, 633922543173705⟩, ⟨86, 0, 633922543173705⟩, ⟨87, 0, 633922543173705⟩,
     ⟨88, 0, 633922543173705⟩, ⟨13, 0, 509540955313946697⟩, ⟨14, 0, 509540955313946697⟩,
     ⟨15, 0, 509540955313946697⟩, ⟨101, 0, 633922543173705⟩, ⟨102, 0, 633922543173705⟩, ⟨9, 0, 509540955313948745⟩,
     ⟨10, 0, 509540955313948745⟩, ⟨11, 0, 509540955313948745⟩, ⟨12, 0, 509540955313948745⟩,
     ⟨164, 0, 509540955313946697⟩, ⟨165, 0, 509540955313946697⟩, ⟨2, 0, 518548154568689769⟩,
     ⟨3, 0, 518548154568689769⟩, ⟨4, 0, 518548154568689769⟩, ⟨103, 0, 633922543173705⟩, ⟨104, 0, 633922543173705⟩,
     ⟨105, 0, 633922543173705⟩, ⟨106, 0, 633922543173705⟩, ⟨162, 0, 633922543173737⟩, ⟨1, 0, 518548154568689769⟩,
     ⟨166, 0, 518548154568689769⟩, ⟨168, 0, 633922543173705⟩],
    [(.n 26, 332), (.t 26, 64), (.t 31, 65), (.n 5, 66), (.n 32, 67), (.t 23, 68), (.t 10, 69), (.t 28, 70),
     (.n 4, 71), (.t 32, 72), (.t 19, 73), (.n 54, 74), (.n 55, 75), (.n 1, 76), (.n 33, 77), (.n 52, 78),
     (.t 50, 79), (.t 55, 53), (.t 56, 80), (.n 0, 16), (.t 37, 17), (.n 56, 18), (.n 58, 81), (.t 49, 82),
     (.t 53, 83), (.t 51, 19), (.t 57, 20), (.t 54, 84)]⟩,
   ⟨[⟨89, 3, 2147483712⟩, ⟨73, 0, 2147483712⟩, ⟨74, 0, 2147483712⟩, ⟨75, 0, 2147483712⟩, ⟨76, 0, 2147483712⟩,
     ⟨77, 0, 2147483712⟩, ⟨78, 0, 2147483712⟩, ⟨79, 0, 2147483712⟩, ⟨80, 0, 2147483712⟩, ⟨81, 0, 2147483712⟩,
     ⟨82, 0, 2147483712⟩, ⟨83, 0, 2147483712⟩, ⟨84, 0, 2147483712⟩, ⟨85, 0, 2147483712⟩, ⟨86, 0, 2147483712⟩,
     ⟨87, 0, 2147483712⟩, ⟨88, 0, 2147483712⟩, ⟨13, 0, 508907034918256704⟩, ⟨14, 0, 508907034918256704⟩,
     ⟨15, 0, 508907034918256704⟩, ⟨101, 0, 2147483712⟩, ⟨102, 0, 2147483712⟩, ⟨9, 0, 508907034918258752⟩,
     ⟨10, 0, 508907034918258752⟩, ⟨11, 0, 508907034918258752⟩, ⟨12, 0, 508907034918258752⟩,
     ⟨164, 0, 508907034918256704⟩, ⟨165, 0, 508907034918256704⟩, ⟨2, 0, 517914234172999776⟩,
     ⟨3, 0, 517914234172999776⟩, ⟨4, 0, 517914234172999776⟩, ⟨103, 0, 2147483712⟩, ⟨104, 0, 2147483712⟩,
     ⟨105, 0, 2147483712⟩, ⟨106, 0, 2147483712⟩, ⟨162, 0, 2147483744⟩, ⟨1, 0, 517914234172999776⟩,
     ⟨166, 0, 517914234172999776⟩, ⟨168, 0, 2147483712⟩],
    [(.n 26, 333), (.t 26, 64), (.t 31, 65), (.n 5, 66), (.n 32, 67), (.t 23, 68), (.t 10, 69), (.t 28, 70),
     (.n 4, 71), (.t 32, 72), (.t 19, 73), (.n 54, 74), (.n 55, 75), (.n 1, 76), (.n 33, 77), (.n 52, 78),
     (.t 50, 79), (.t 55, 53), (.t 56, 80), (.n 0, 16), (.t 37, 17), (.n 56, 18), (.n 58, 81), (.t 49, 82),
     (.t 53, 83), (.t 51, 19), (.t 57, 20), (.t 54, 84)]⟩,
   ⟨[⟨93, 2, 17408⟩, ⟨188, 1, 385058043022296576⟩, ⟨94, 0, 385058043022296576⟩, ⟨95, 0, 385058043022296576⟩,
     ⟨96, 0, 385058043022296576⟩, ⟨97, 0, 385058043022296576⟩, ⟨164, 0, 385058043022296576⟩,
     ⟨9, 0, 385058043022296576⟩, ⟨10, 0, 385058043022296576⟩, ⟨11, 0, 385058043022296576⟩,
     ⟨12, 0, 385058043022296576⟩, ⟨2, 0, 385058043022296608⟩, ⟨3, 0, 385058043022296608⟩,
     ⟨4, 0, 385058043022296608⟩, ⟨162, 0, 32⟩, ⟨1, 0, 385058043022296608⟩, ⟨166, 0, 385058043022296608⟩],
    [(.n 29, 334), (.t 21, 307), (.n 54, 308), (.n 4, 309), (.t 8, 310), (.t 55, 53), (.n 1, 269), (.n 52, 125),
     (.t 50, 79), (.n 0, 16), (.t 37, 17), (.n 56, 18), (.t 53, 83), (.t 51, 19), (.t 57, 20)]⟩,
   ⟨[⟨187, 1, 385058043022296576⟩],
    []⟩,
   ⟨[⟨94, 1, 385058043022296576⟩],
    []⟩,
   ⟨[⟨95, 1, 385058043022296576⟩],
    []⟩,
   ⟨[⟨96, 1, 385058043022296576⟩],
    []⟩,
   ⟨[⟨97, 1, 385058043022296576⟩, ⟨90, 0, 1024⟩, ⟨91, 0, 1024⟩, ⟨92, 0, 1024⟩, ⟨93, 0, 1024⟩, ⟨164, 0, 1024⟩,
     ⟨9, 0, 385058043022280192⟩, ⟨10, 0, 385058043022280192⟩, ⟨11, 0, 385058043022280192⟩,
     ⟨12, 0, 385058043022280192⟩, ⟨2, 0, 385058043022280224⟩, ⟨3, 0, 385058043022280224⟩,
     ⟨4, 0, 385058043022280224⟩, ⟨162, 0, 32⟩, ⟨1, 0, 385058043022280224⟩, ⟨166, 0, 385058043022280224⟩],
    [(.n 28, 335), (.t 21, 266), (.n 54, 267), (.n 4, 268), (.t 55, 53), (.n 1, 269), (.n 52, 125), (.t 50, 79),
     (.n 0, 16), (.t 37, 17), (.n 56, 18), (.t 53, 83), (.t 51, 19), (.t 57, 20)]⟩,
   ⟨[⟨180, 2, 313018041166202368⟩],
    []⟩,
   ⟨[⟨52, 2, 313018041166202368⟩],
    [(.t 9, 336)]⟩,
   ⟨[⟨54, 2, 313018041166202368⟩, ⟨48, 0, 313018041166202368⟩, ⟨49, 0, 313018041166202368⟩,
     ⟨50, 0, 313018041166202368⟩, ⟨51, 0, 313018041166202368⟩, ⟨9, 0, 313018041166202368⟩,
     ⟨10, 0, 313018041166202368⟩, ⟨11, 0, 313018041166202368⟩, ⟨12, 0, 313018041166202368⟩,
     ⟨35, 0, 313018041166202368⟩, ⟨36, 0, 313018041166202368⟩, ⟨37, 0, 313018041166202368⟩,
     ⟨38, 0, 313018041166202368⟩, ⟨39, 0, 313018041166202368⟩, ⟨2, 0, 313018042239944224⟩,
     ⟨3, 0, 313018042239944224⟩, ⟨4, 0, 313018042239944224⟩, ⟨162, 0, 32⟩, ⟨1, 0, 313018042239944224⟩,
     ⟨166, 0, 313018042239944224⟩],
    [(.n 16, 337), (.n 4, 174), (.t 43, 175), (.t 8, 176), (.n 11, 177), (.n 1, 124), (.n 52, 125), (.t 50, 79),
     (.n 0, 16), (.t 37, 17), (.n 56, 18), (.t 53, 83), (.t 51, 19), (.t 57, 20)]⟩,
   ⟨[⟨37, 5, 890112716012910153⟩],
    []⟩,
   ⟨[⟨41, 2, 2147483648⟩, ⟨174, 1, 2147491840⟩, ⟨42, 0, 2147491840⟩],
    [(.n 13, 338), (.t 12, 317)]⟩,
   ⟨[⟨173, 1, 2147491840⟩],
    []⟩,
   ⟨[⟨42, 1, 2147491840⟩, ⟨43, 0, 2147491840⟩],
    [(.n 14, 339), (.t 38, 282)]⟩,
   ⟨[⟨43, 2, 2147491840⟩],
    [(.t 3, 340)]⟩,
   ⟨[⟨111, 4, 2147483720⟩, ⟨112, 4, 2147483720⟩, ⟨15, 1, 281474976710656⟩, ⟨129, 0, 2147483720⟩],
    [(.n 37, 341), (.t 4, 148), (.t 8, 342)]⟩]

def lrStates8 : List State :=
  [⟨[⟨134, 4, 2147483720⟩, ⟨136, 4, 2147483720⟩, ⟨13, 1, 281474976710656⟩],
    [(.t 4, 343)]⟩,
   ⟨[⟨135, 4, 2147483720⟩, ⟨14, 1, 281474976710656⟩],
    [(.t 4, 344)]⟩,
   ⟨[⟨137, 4, 2147483720⟩, ⟨164, 0, 32⟩],
    [(.n 54, 345), (.t 55, 53)]⟩,
   ⟨[⟨138, 4, 2147483720⟩],
    [(.t 47, 346)]⟩,
   ⟨[⟨113, 4, 2147483720⟩, ⟨190, 1, 2147483848⟩, ⟨139, 0, 2147483848⟩],
    [(.n 41, 294), (.t 6, 246)]⟩,
   ⟨[⟨114, 4, 2147483720⟩, ⟨189, 0, 2147483848⟩, ⟨190, 0, 2147483848⟩, ⟨139, 0, 2147483848⟩],
    [(.n 100, 347), (.n 41, 245), (.t 6, 246)]⟩,
   ⟨[⟨115, 4, 2147483720⟩],
    []⟩,
   ⟨[⟨139, 3, 2148008136⟩],
    []⟩,
   ⟨[⟨122, 4, 2147483720⟩, ⟨192, 1, 2147483712⟩, ⟨132, 0, 2147483712⟩, ⟨133, 0, 2147483712⟩],
    [(.t 30, 348), (.n 39, 349), (.t 5, 330)]⟩,
   ⟨[⟨191, 1, 2147483712⟩],
    []⟩,
   ⟨[⟨132, 1, 2147483712⟩, ⟨133, 1, 2147483712⟩, ⟨90, 0, 16384⟩, ⟨91, 0, 16384⟩, ⟨92, 0, 16384⟩, ⟨93, 0, 16384⟩,
     ⟨164, 0, 16384⟩, ⟨9, 0, 385058043022295552⟩, ⟨10, 0, 385058043022295552⟩, ⟨11, 0, 385058043022295552⟩,
     ⟨12, 0, 385058043022295552⟩, ⟨2, 0, 385058043022295584⟩, ⟨3, 0, 385058043022295584⟩,
     ⟨4, 0, 385058043022295584⟩, ⟨162, 0, 32⟩, ⟨1, 0, 385058043022295584⟩, ⟨166, 0, 385058043022295584⟩],
    [(.n 28, 350), (.t 21, 266), (.n 54, 267), (.n 4, 268), (.t 55, 53), (.n 1, 269), (.n 52, 125), (.t 50, 79),
     (.n 0, 16), (.t 37, 17), (.n 56, 18), (.t 53, 83), (.t 51, 19), (.t 57, 20)]⟩,
   ⟨[⟨74, 7, 633922543173705⟩],
    []⟩,
   ⟨[⟨75, 7, 633922543173705⟩],
    []⟩,
   ⟨[⟨89, 4, 2147483712⟩],
    []⟩,
   ⟨[⟨188, 2, 385058043022296576⟩],
    []⟩,
   ⟨[⟨97, 2, 385058043022296576⟩],
    [(.t 9, 351)]⟩,
   ⟨[⟨52, 3, 313018041166202368⟩],
    []⟩,
   ⟨[⟨54, 3, 313018041166202368⟩],
    []⟩,
   ⟨[⟨174, 2, 2147491840⟩],
    []⟩,
   ⟨[⟨42, 2, 2147491840⟩],
    []⟩,
   ⟨[⟨43, 3, 2147491840⟩, ⟨28, 0, 2147491840⟩, ⟨29, 0, 2147491840⟩, ⟨26, 0, 2147491840⟩, ⟨27, 0, 2147491840⟩,
     ⟨19, 0, 2147524608⟩, ⟨20, 0, 2147524608⟩, ⟨21, 0, 2147524608⟩, ⟨22, 0, 2147524608⟩, ⟨23, 0, 2147524608⟩,
     ⟨24, 0, 2147524608⟩, ⟨25, 0, 2147524608⟩, ⟨9, 0, 889478795617149440⟩, ⟨10, 0, 889478795617149440⟩,
     ⟨11, 0, 889478795617149440⟩, ⟨12, 0, 889478795617149440⟩, ⟨35, 0, 2147524608⟩, ⟨36, 0, 2147524608⟩,
     ⟨37, 0, 2147524608⟩, ⟨38, 0, 2147524608⟩, ⟨39, 0, 2147524608⟩, ⟨167, 0, 2147524608⟩,
     ⟨2, 0, 889478796690891296⟩, ⟨3, 0, 889478796690891296⟩, ⟨4, 0, 889478796690891296⟩, ⟨162, 0, 32⟩,
     ⟨1, 0, 889478796690891296⟩, ⟨166, 0, 889478796690891296⟩],
    [(.n 9, 352), (.n 8, 131), (.n 7, 132), (.n 4, 133), (.t 43, 134), (.t 8, 135), (.n 11, 136), (.t 22, 137),
     (.n 57, 138), (.n 1, 124), (.n 52, 125), (.t 50, 79), (.t 58, 115), (.n 0, 16), (.t 37, 17), (.n 56, 18),
     (.t 53, 83), (.t 51, 19), (.t 57, 20)]⟩,
   ⟨[⟨112, 5, 2147483720⟩],
    []⟩,
   ⟨[⟨129, 1, 2147483720⟩, ⟨181, 0, 508907032770774016⟩, ⟨182, 0, 508907032770774016⟩, ⟨13, 0, 508907032770774016⟩,
     ⟨14, 0, 508907032770774016⟩, ⟨15, 0, 508907032770774016⟩, ⟨164, 0, 508907032770774016⟩,
     ⟨165, 0, 508907032770774016⟩, ⟨2, 0, 32⟩, ⟨3, 0, 32⟩, ⟨4, 0, 32⟩, ⟨1, 0, 32⟩, ⟨166, 0, 32⟩],
    [(.n 64, 353), (.n 5, 105), (.n 54, 74), (.n 55, 75), (.n 1, 106), (.t 55, 53), (.t 56, 80), (.n 0, 16),
     (.t 37, 17), (.n 56, 18), (.t 51, 19), (.t 57, 20)]⟩,
   ⟨[⟨134, 5, 2147483720⟩, ⟨136, 5, 2147483720⟩, ⟨13, 0, 2147483720⟩, ⟨14, 0, 2147483720⟩, ⟨15, 0, 2147483720⟩,
     ⟨164, 0, 2147483848⟩, ⟨165, 0, 2147483720⟩, ⟨2, 0, 32⟩, ⟨3, 0, 32⟩, ⟨4, 0, 32⟩, ⟨1, 0, 32⟩, ⟨166, 0, 32⟩],
    [(.n 5, 354), (.n 54, 355), (.n 55, 75), (.n 1, 106), (.t 55, 53), (.t 56, 80), (.n 0, 16), (.t 37, 17),
     (.n 56, 18), (.t 51, 19), (.t 57, 20)]⟩,
   ⟨[⟨135, 5, 2147483720⟩, ⟨165, 0, 2147483720⟩],
    [(.n 55, 356), (.t 56, 80)]⟩,
   ⟨[⟨137, 5, 2147483720⟩],
    [(.t 4, 357)]⟩,
   ⟨[⟨138, 5, 2147483720⟩, ⟨35, 0, 2147483720⟩, ⟨36, 0, 2147483720⟩, ⟨37, 0, 2147483720⟩, ⟨38, 0, 2147483720⟩,
     ⟨39, 0, 2147483720⟩, ⟨2, 0, 1073741824⟩, ⟨3, 0, 1073741824⟩, ⟨4, 0, 1073741824⟩, ⟨1, 0, 1073741824⟩,
     ⟨166, 0, 1073741824⟩],
    [(.n 11, 358), (.n 1, 359), (.n 0, 16), (.t 37, 17), (.n 56, 18), (.t 51, 19), (.t 57, 20)]⟩,
   ⟨[⟨114, 5, 2147483720⟩, ⟨190, 1, 2147483848⟩, ⟨139, 0, 2147483848⟩],
    [(.n 41, 294), (.t 6, 246)]⟩,
   ⟨[⟨122, 5, 2147483720⟩],
    []⟩,
   ⟨[⟨192, 2, 2147483712⟩],
    []⟩,
   ⟨[⟨132, 2, 2147483712⟩, ⟨133, 2, 2147483712⟩],
    [(.t 13, 360)]⟩,
   ⟨[⟨97, 3, 385058043022296576⟩],
    []⟩,
   ⟨[⟨43, 4, 2147491840⟩],
    []⟩,
   ⟨[⟨129, 2, 2147483720⟩, ⟨182, 1, 508907032770774016⟩, ⟨13, 0, 508907032770774016⟩, ⟨14, 0, 508907032770774016⟩,
     ⟨15, 0, 508907032770774016⟩, ⟨164, 0, 508907032770774016⟩, ⟨165, 0, 508907032770774016⟩, ⟨2, 0, 32⟩,
     ⟨3, 0, 32⟩, ⟨4, 0, 32⟩, ⟨1, 0, 32⟩, ⟨166, 0, 32⟩],
    [(.t 9, 361), (.n 5, 147), (.n 54, 74), (.n 55, 75), (.n 1, 106), (.t 55, 53), (.t 56, 80), (.n 0, 16),
     (.t 37, 17), (.n 56, 18), (.t 51, 19), (.t 57, 20)]⟩,
   ⟨[⟨134, 6, 2147483720⟩],
    []⟩,
   ⟨[⟨136, 6, 2147483720⟩, ⟨13, 1, 2147483720⟩, ⟨189, 0, 2147483848⟩, ⟨190, 0, 2147483848⟩, ⟨139, 0, 2147483848⟩],
    [(.n 100, 362), (.n 41, 245), (.t 6, 246)]⟩,
   ⟨[⟨135, 6, 2147483720⟩],
    []⟩,
   ⟨[⟨137, 6, 2147483720⟩, ⟨164, 0, 128⟩],
    [(.n 54, 363), (.t 55, 53)]⟩,
   ⟨[⟨138, 6, 2147483720⟩],
    []⟩,
   ⟨[⟨35, 1, 2147483720⟩, ⟨36, 1, 2147483720⟩, ⟨37, 1, 2147483720⟩, ⟨38, 1, 2147483720⟩, ⟨39, 1, 2147483720⟩],
    [(.t 29, 181)]⟩]

def lrStates9 : List State :=
  [⟨[⟨132, 3, 2147483712⟩, ⟨133, 3, 2147483712⟩, ⟨127, 0, 2147483712⟩, ⟨128, 0, 2147483712⟩, ⟨107, 0, 2147483720⟩,
     ⟨108, 0, 2147483720⟩, ⟨109, 0, 2147483720⟩, ⟨110, 0, 2147483720⟩, ⟨111, 0, 2147483720⟩, ⟨112, 0, 2147483720⟩,
     ⟨113, 0, 2147483720⟩, ⟨114, 0, 2147483720⟩, ⟨115, 0, 2147483720⟩, ⟨116, 0, 2147483720⟩, ⟨117, 0, 2147483720⟩,
     ⟨118, 0, 2147483720⟩, ⟨119, 0, 2147483720⟩, ⟨120, 0, 2147483720⟩, ⟨121, 0, 2147483720⟩, ⟨122, 0, 2147483720⟩,
     ⟨123, 0, 2147483720⟩, ⟨124, 0, 2147483720⟩, ⟨125, 0, 2147483720⟩, ⟨164, 0, 508907034919108808⟩,
     ⟨134, 0, 2147483720⟩, ⟨135, 0, 2147483720⟩, ⟨136, 0, 2147483720⟩, ⟨137, 0, 2147483720⟩, ⟨138, 0, 2147483720⟩,
     ⟨130, 0, 508907034918256712⟩, ⟨131, 0, 508907034918256712⟩, ⟨2, 0, 508907034918256712⟩,
     ⟨3, 0, 508907034918256712⟩, ⟨4, 0, 508907034918256712⟩, ⟨1, 0, 508907034918256712⟩,
     ⟨166, 0, 508907034918256712⟩],
    [(.n 36, 364), (.n 34, 186), (.n 54, 187), (.n 40, 188), (.t 41, 189), (.t 39, 190), (.t 35, 191),
     (.t 36, 192), (.t 42, 193), (.t 28, 194), (.n 38, 195), (.t 22, 196), (.t 55, 53), (.n 1, 87), (.n 0, 16),
     (.t 37, 17), (.n 56, 18), (.t 51, 19), (.t 57, 20)]⟩,
   ⟨[⟨129, 3, 2147483720⟩],
    []⟩,
   ⟨[⟨136, 7, 2147483720⟩, ⟨190, 1, 2147483848⟩, ⟨139, 0, 2147483848⟩],
    [(.n 41, 294), (.t 6, 246)]⟩,
   ⟨[⟨137, 7, 2147483720⟩, ⟨189, 0, 2147483848⟩, ⟨190, 0, 2147483848⟩, ⟨139, 0, 2147483848⟩],
    [(.n 100, 365), (.n 41, 245), (.t 6, 246)]⟩,
   ⟨[⟨133, 4, 2147483712⟩],
    []⟩,
   ⟨[⟨137, 8, 2147483720⟩, ⟨190, 1, 2147483848⟩, ⟨139, 0, 2147483848⟩],
    [(.n 41, 294), (.t 6, 246)]⟩]

def lrStates : List State :=
  lrStates0 ++ lrStates1 ++ lrStates2 ++ lrStates3 ++ lrStates4 ++ lrStates5 ++ lrStates6 ++ lrStates7 ++ lrStates8 ++ lrStates9

end Verif.LR
