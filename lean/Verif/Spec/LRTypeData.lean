import Verif.Spec.LRData
/-
LALR(1) tables for the same grammar with the start symbol `ScillaType`, written by tools/lr_tables.py.
-/
namespace Verif.LR

/-- for every nonterminal the terminals it can begin with -/
def lrTypeFirst : List Nat :=
  [4503599627370496, 292734250656989184, 292734250656989184, 67108864, 313000448980156416, 508907032770772992,
   508907032770773504, 889478793478013440, 889478793478013440, 889478793478013440, 889478793469624832,
   292734250656989184, 549755813888, 8192, 549755813888, 313000448980156928, 313018041166201344,
   313018041166201344, 35184372088832, 33554432, 70368878395392, 72057594037927936, 16, 64, 313018041166201344,
   2048, 566327941593565184, 64, 385058043022278656, 385058043022279168, 8, 508907032770772992, 564076128206061568,
   347903346092277760, 364806345049767936, 8, 364806345049767936, 512, 364791844694917120, 64, 72057594037927936,
   128, 72057594037927936, 8192, 512, 562984313159680, 34359738368, 562949953421312, 364806347197251584,
   17179869184, 549755813888, 1073741824, 18014398509481984, 9007199254740992, 72057594037927936,
   144115188075855872, 288230376151711744, 576460752303423488, 36028797018963968, 0, 0, 292734250656989184, 0, 0,
   508907032770772992, 0, 0, 0, 0, 889478793469624832, 0, 0, 8192, 0, 0, 0, 313018041166201344, 0, 0,
   70368878395392, 0, 0, 64, 0, 0, 0, 64, 0, 385058043022279168, 8, 0, 0, 0, 0, 8, 0, 0, 0, 64, 0, 128, 0, 8192, 0,
   562984313159680, 0, 0, 0, 0, 549755813888, 0, 0, 0, 0, 0, 0, 0, 0, 889478793478013440]

def lrTypeStates0 : List State :=
  [⟨[⟨0, 0, 1⟩, ⟨28, 0, 1⟩, ⟨29, 0, 1⟩, ⟨26, 0, 1⟩, ⟨27, 0, 1⟩, ⟨19, 0, 32769⟩, ⟨20, 0, 32769⟩, ⟨21, 0, 32769⟩,
     ⟨22, 0, 32769⟩, ⟨23, 0, 32769⟩, ⟨24, 0, 32769⟩, ⟨25, 0, 32769⟩, ⟨9, 0, 889478793469657601⟩,
     ⟨10, 0, 889478793469657601⟩, ⟨11, 0, 889478793469657601⟩, ⟨12, 0, 889478793469657601⟩, ⟨35, 0, 32769⟩,
     ⟨36, 0, 32769⟩, ⟨37, 0, 32769⟩, ⟨38, 0, 32769⟩, ⟨39, 0, 32769⟩, ⟨167, 0, 32769⟩, ⟨2, 0, 889478794543399457⟩,
     ⟨3, 0, 889478794543399457⟩, ⟨4, 0, 889478794543399457⟩, ⟨162, 0, 32⟩, ⟨1, 0, 889478794543399457⟩,
     ⟨166, 0, 889478794543399457⟩],
    [(.n 9, 1), (.n 8, 2), (.n 7, 3), (.n 4, 4), (.t 43, 5), (.t 8, 6), (.n 11, 7), (.t 22, 8), (.n 57, 9),
     (.n 1, 10), (.n 52, 11), (.t 50, 12), (.t 58, 13), (.n 0, 14), (.t 37, 15), (.n 56, 16), (.t 53, 17),
     (.t 51, 18), (.t 57, 19)]⟩,
   ⟨[⟨0, 1, 1⟩],
    []⟩,
   ⟨[⟨28, 1, 2147492865⟩],
    []⟩,
   ⟨[⟨29, 1, 2147492865⟩, ⟨26, 1, 2147492865⟩, ⟨27, 1, 2147492865⟩],
    [(.t 14, 20)]⟩,
   ⟨[⟨19, 1, 2147525633⟩, ⟨20, 1, 2147525633⟩, ⟨171, 0, 889478795617150465⟩, ⟨172, 0, 889478795617150465⟩,
     ⟨30, 0, 889478795617150465⟩, ⟨31, 0, 889478795617150465⟩, ⟨32, 0, 889478795617150465⟩,
     ⟨33, 0, 889478795617150465⟩, ⟨34, 0, 889478795617150465⟩, ⟨9, 0, 889478795617150465⟩,
     ⟨10, 0, 889478795617150465⟩, ⟨11, 0, 889478795617150465⟩, ⟨12, 0, 889478795617150465⟩,
     ⟨167, 0, 889478795617150465⟩, ⟨35, 0, 889478795617150465⟩, ⟨36, 0, 889478795617150465⟩,
     ⟨37, 0, 889478795617150465⟩, ⟨38, 0, 889478795617150465⟩, ⟨39, 0, 889478795617150465⟩,
     ⟨2, 0, 889478796690892321⟩, ⟨3, 0, 889478796690892321⟩, ⟨4, 0, 889478796690892321⟩, ⟨162, 0, 32⟩,
     ⟨1, 0, 889478796690892321⟩, ⟨166, 0, 889478796690892321⟩],
    [(.n 69, 21), (.n 10, 22), (.t 8, 23), (.n 4, 24), (.n 57, 25), (.n 11, 26), (.t 43, 27), (.n 1, 10),
     (.n 52, 11), (.t 50, 12), (.t 58, 13), (.n 0, 14), (.t 37, 15), (.n 56, 16), (.t 53, 17), (.t 51, 18),
     (.t 57, 19)]⟩,
   ⟨[⟨21, 1, 2147525633⟩, ⟨44, 0, 313018041166201344⟩, ⟨45, 0, 313018041166201344⟩, ⟨46, 0, 313018041166201344⟩,
     ⟨47, 0, 313018041166201344⟩, ⟨9, 0, 313018041166201344⟩, ⟨10, 0, 313018041166201344⟩,
     ⟨11, 0, 313018041166201344⟩, ⟨12, 0, 313018041166201344⟩, ⟨35, 0, 313018041166201344⟩,
     ⟨36, 0, 313018041166201344⟩, ⟨37, 0, 313018041166201344⟩, ⟨38, 0, 313018041166201344⟩,
     ⟨39, 0, 313018041166201344⟩, ⟨2, 0, 313018042239943200⟩, ⟨3, 0, 313018042239943200⟩,
     ⟨4, 0, 313018042239943200⟩, ⟨162, 0, 32⟩, ⟨1, 0, 313018042239943200⟩, ⟨166, 0, 313018042239943200⟩],
    [(.n 15, 28), (.n 4, 29), (.t 8, 30), (.n 11, 31), (.n 1, 10), (.n 52, 11), (.t 50, 12), (.n 0, 14),
     (.t 37, 15), (.n 56, 16), (.t 53, 17), (.t 51, 18), (.t 57, 19)]⟩,
   ⟨[⟨22, 1, 2147525633⟩, ⟨28, 0, 1024⟩, ⟨29, 0, 1024⟩, ⟨26, 0, 1024⟩, ⟨27, 0, 1024⟩, ⟨19, 0, 33792⟩,
     ⟨20, 0, 33792⟩, ⟨21, 0, 33792⟩, ⟨22, 0, 33792⟩, ⟨23, 0, 33792⟩, ⟨24, 0, 33792⟩, ⟨25, 0, 33792⟩,
     ⟨9, 0, 889478793469658624⟩, ⟨10, 0, 889478793469658624⟩, ⟨11, 0, 889478793469658624⟩,
     ⟨12, 0, 889478793469658624⟩, ⟨35, 0, 33792⟩, ⟨36, 0, 33792⟩, ⟨37, 0, 33792⟩, ⟨38, 0, 33792⟩, ⟨39, 0, 33792⟩,
     ⟨167, 0, 33792⟩, ⟨2, 0, 889478794543400480⟩, ⟨3, 0, 889478794543400480⟩, ⟨4, 0, 889478794543400480⟩,
     ⟨162, 0, 32⟩, ⟨1, 0, 889478794543400480⟩, ⟨166, 0, 889478794543400480⟩],
    [(.n 9, 32), (.n 8, 2), (.n 7, 3), (.n 4, 4), (.t 43, 5), (.t 8, 6), (.n 11, 7), (.t 22, 8), (.n 57, 9),
     (.n 1, 10), (.n 52, 11), (.t 50, 12), (.t 58, 13), (.n 0, 14), (.t 37, 15), (.n 56, 16), (.t 53, 17),
     (.t 51, 18), (.t 57, 19)]⟩,
   ⟨[⟨23, 1, 2147525633⟩],
    []⟩,
   ⟨[⟨24, 1, 2147525633⟩, ⟨167, 0, 32⟩],
    [(.n 57, 33), (.t 58, 13)]⟩,
   ⟨[⟨25, 1, 2147525633⟩],
    []⟩,
   ⟨[⟨9, 1, 889478795617150465⟩, ⟨10, 1, 889478795617150465⟩, ⟨35, 1, 889478795617150465⟩,
     ⟨36, 1, 889478795617150465⟩, ⟨37, 1, 889478795617150465⟩, ⟨38, 1, 889478795617150465⟩,
     ⟨39, 1, 889478795617150465⟩],
    [(.t 4, 34), (.t 29, 35)]⟩,
   ⟨[⟨11, 1, 889478795617150465⟩],
    [(.t 4, 36)]⟩,
   ⟨[⟨12, 1, 889478795617150465⟩],
    []⟩,
   ⟨[⟨167, 1, 889478795617150497⟩],
    []⟩,
   ⟨[⟨2, 1, 889478796690892321⟩],
    []⟩,
   ⟨[⟨3, 1, 889478796690892321⟩],
    []⟩,
   ⟨[⟨4, 1, 889478796690892321⟩],
    []⟩,
   ⟨[⟨162, 1, 32⟩],
    []⟩,
   ⟨[⟨1, 1, 889478796690892321⟩],
    []⟩,
   ⟨[⟨166, 1, 889478796690892321⟩],
    []⟩,
   ⟨[⟨26, 2, 2147492865⟩, ⟨27, 2, 2147492865⟩, ⟨26, 0, 2147492865⟩, ⟨27, 0, 2147492865⟩, ⟨19, 0, 2147525633⟩,
     ⟨20, 0, 2147525633⟩, ⟨21, 0, 2147525633⟩, ⟨22, 0, 2147525633⟩, ⟨23, 0, 2147525633⟩, ⟨24, 0, 2147525633⟩,
     ⟨25, 0, 2147525633⟩, ⟨9, 0, 889478795617150465⟩, ⟨10, 0, 889478795617150465⟩, ⟨11, 0, 889478795617150465⟩,
     ⟨12, 0, 889478795617150465⟩, ⟨35, 0, 2147525633⟩, ⟨36, 0, 2147525633⟩, ⟨37, 0, 2147525633⟩,
     ⟨38, 0, 2147525633⟩, ⟨39, 0, 2147525633⟩, ⟨167, 0, 2147525633⟩, ⟨2, 0, 889478796690892321⟩,
     ⟨3, 0, 889478796690892321⟩, ⟨4, 0, 889478796690892321⟩, ⟨162, 0, 32⟩, ⟨1, 0, 889478796690892321⟩,
     ⟨166, 0, 889478796690892321⟩],
    [(.n 8, 37), (.n 7, 38), (.n 4, 4), (.t 43, 5), (.t 8, 6), (.n 11, 7), (.t 22, 8), (.n 57, 9), (.n 1, 10),
     (.n 52, 11), (.t 50, 12), (.t 58, 13), (.n 0, 14), (.t 37, 15), (.n 56, 16), (.t 53, 17), (.t 51, 18),
     (.t 57, 19)]⟩,
   ⟨[⟨20, 2, 2147525633⟩, ⟨172, 1, 889478795617150465⟩, ⟨30, 0, 889478795617150465⟩, ⟨31, 0, 889478795617150465⟩,
     ⟨32, 0, 889478795617150465⟩, ⟨33, 0, 889478795617150465⟩, ⟨34, 0, 889478795617150465⟩,
     ⟨9, 0, 889478795617150465⟩, ⟨10, 0, 889478795617150465⟩, ⟨11, 0, 889478795617150465⟩,
     ⟨12, 0, 889478795617150465⟩, ⟨167, 0, 889478795617150465⟩, ⟨35, 0, 889478795617150465⟩,
     ⟨36, 0, 889478795617150465⟩, ⟨37, 0, 889478795617150465⟩, ⟨38, 0, 889478795617150465⟩,
     ⟨39, 0, 889478795617150465⟩, ⟨2, 0, 889478796690892321⟩, ⟨3, 0, 889478796690892321⟩,
     ⟨4, 0, 889478796690892321⟩, ⟨162, 0, 32⟩, ⟨1, 0, 889478796690892321⟩, ⟨166, 0, 889478796690892321⟩],
    [(.n 10, 39), (.t 8, 23), (.n 4, 24), (.n 57, 25), (.n 11, 26), (.t 43, 27), (.n 1, 10), (.n 52, 11),
     (.t 50, 12), (.t 58, 13), (.n 0, 14), (.t 37, 15), (.n 56, 16), (.t 53, 17), (.t 51, 18), (.t 57, 19)]⟩,
   ⟨[⟨171, 1, 889478795617150465⟩],
    []⟩,
   ⟨[⟨30, 1, 889478795617150465⟩, ⟨28, 0, 1024⟩, ⟨29, 0, 1024⟩, ⟨26, 0, 1024⟩, ⟨27, 0, 1024⟩, ⟨19, 0, 33792⟩,
     ⟨20, 0, 33792⟩, ⟨21, 0, 33792⟩, ⟨22, 0, 33792⟩, ⟨23, 0, 33792⟩, ⟨24, 0, 33792⟩, ⟨25, 0, 33792⟩,
     ⟨9, 0, 889478793469658624⟩, ⟨10, 0, 889478793469658624⟩, ⟨11, 0, 889478793469658624⟩,
     ⟨12, 0, 889478793469658624⟩, ⟨35, 0, 33792⟩, ⟨36, 0, 33792⟩, ⟨37, 0, 33792⟩, ⟨38, 0, 33792⟩, ⟨39, 0, 33792⟩,
     ⟨167, 0, 33792⟩, ⟨2, 0, 889478794543400480⟩, ⟨3, 0, 889478794543400480⟩, ⟨4, 0, 889478794543400480⟩,
     ⟨162, 0, 32⟩, ⟨1, 0, 889478794543400480⟩, ⟨166, 0, 889478794543400480⟩],
    [(.n 9, 40), (.n 8, 2), (.n 7, 3), (.n 4, 4), (.t 43, 5), (.t 8, 6), (.n 11, 7), (.t 22, 8), (.n 57, 9),
     (.n 1, 10), (.n 52, 11), (.t 50, 12), (.t 58, 13), (.n 0, 14), (.t 37, 15), (.n 56, 16), (.t 53, 17),
     (.t 51, 18), (.t 57, 19)]⟩,
   ⟨[⟨31, 1, 889478795617150465⟩],
    []⟩,
   ⟨[⟨32, 1, 889478795617150465⟩],
    []⟩,
   ⟨[⟨33, 1, 889478795617150465⟩],
    []⟩,
   ⟨[⟨34, 1, 889478795617150465⟩, ⟨44, 0, 313018041166201344⟩, ⟨45, 0, 313018041166201344⟩,
     ⟨46, 0, 313018041166201344⟩, ⟨47, 0, 313018041166201344⟩, ⟨9, 0, 313018041166201344⟩,
     ⟨10, 0, 313018041166201344⟩, ⟨11, 0, 313018041166201344⟩, ⟨12, 0, 313018041166201344⟩,
     ⟨35, 0, 313018041166201344⟩, ⟨36, 0, 313018041166201344⟩, ⟨37, 0, 313018041166201344⟩,
     ⟨38, 0, 313018041166201344⟩, ⟨39, 0, 313018041166201344⟩, ⟨2, 0, 313018042239943200⟩,
     ⟨3, 0, 313018042239943200⟩, ⟨4, 0, 313018042239943200⟩, ⟨162, 0, 32⟩, ⟨1, 0, 313018042239943200⟩,
     ⟨166, 0, 313018042239943200⟩],
    [(.n 15, 41), (.n 4, 29), (.t 8, 30), (.n 11, 31), (.n 1, 10), (.n 52, 11), (.t 50, 12), (.n 0, 14),
     (.t 37, 15), (.n 56, 16), (.t 53, 17), (.t 51, 18), (.t 57, 19)]⟩,
   ⟨[⟨21, 2, 2147525633⟩, ⟨48, 0, 2147525633⟩, ⟨49, 0, 2147525633⟩, ⟨50, 0, 2147525633⟩, ⟨51, 0, 2147525633⟩,
     ⟨9, 0, 2147525633⟩, ⟨10, 0, 2147525633⟩, ⟨11, 0, 2147525633⟩, ⟨12, 0, 2147525633⟩, ⟨35, 0, 2147525633⟩,
     ⟨36, 0, 2147525633⟩, ⟨37, 0, 2147525633⟩, ⟨38, 0, 2147525633⟩, ⟨39, 0, 2147525633⟩, ⟨2, 0, 3221267489⟩,
     ⟨3, 0, 3221267489⟩, ⟨4, 0, 3221267489⟩, ⟨162, 0, 32⟩, ⟨1, 0, 3221267489⟩, ⟨166, 0, 3221267489⟩],
    [(.n 16, 42), (.n 4, 43), (.t 43, 44), (.t 8, 45), (.n 11, 46), (.n 1, 10), (.n 52, 11), (.t 50, 12),
     (.n 0, 14), (.t 37, 15), (.n 56, 16), (.t 53, 17), (.t 51, 18), (.t 57, 19)]⟩,
   ⟨[⟨44, 1, 313018041166201344⟩],
    []⟩,
   ⟨[⟨45, 1, 313018041166201344⟩, ⟨46, 1, 313018041166201344⟩, ⟨9, 0, 1024⟩, ⟨10, 0, 1024⟩, ⟨11, 0, 1024⟩,
     ⟨12, 0, 1024⟩, ⟨35, 0, 1024⟩, ⟨36, 0, 1024⟩, ⟨37, 0, 1024⟩, ⟨38, 0, 1024⟩, ⟨39, 0, 1024⟩, ⟨2, 0, 1073742880⟩,
     ⟨3, 0, 1073742880⟩, ⟨4, 0, 1073742880⟩, ⟨162, 0, 32⟩, ⟨1, 0, 1073742880⟩, ⟨166, 0, 1073742880⟩],
    [(.n 4, 47), (.n 11, 48), (.n 1, 10), (.n 52, 11), (.t 50, 12), (.n 0, 14), (.t 37, 15), (.n 56, 16),
     (.t 53, 17), (.t 51, 18), (.t 57, 19)]⟩,
   ⟨[⟨47, 1, 313018041166201344⟩],
    []⟩,
   ⟨[⟨22, 2, 2147525633⟩],
    [(.t 9, 49)]⟩,
   ⟨[⟨24, 2, 2147525633⟩],
    [(.t 4, 50)]⟩,
   ⟨[⟨10, 2, 889478795617150465⟩, ⟨2, 0, 889478795617150465⟩, ⟨3, 0, 889478795617150465⟩,
     ⟨4, 0, 889478795617150465⟩, ⟨1, 0, 889478795617150465⟩, ⟨166, 0, 889478795617150465⟩],
    [(.n 1, 51), (.n 0, 14), (.t 37, 15), (.n 56, 16), (.t 51, 18), (.t 57, 19)]⟩,
   ⟨[⟨35, 2, 889478795617150465⟩, ⟨36, 2, 889478795617150465⟩, ⟨37, 2, 889478795617150465⟩,
     ⟨38, 2, 889478795617150465⟩, ⟨39, 2, 889478795617150465⟩, ⟨165, 0, 2147483648⟩],
    [(.t 30, 52), (.t 33, 53), (.t 24, 54), (.n 55, 55), (.t 56, 56)]⟩,
   ⟨[⟨11, 2, 889478795617150465⟩, ⟨2, 0, 889478795617150465⟩, ⟨3, 0, 889478795617150465⟩,
     ⟨4, 0, 889478795617150465⟩, ⟨1, 0, 889478795617150465⟩, ⟨166, 0, 889478795617150465⟩],
    [(.n 1, 57), (.n 0, 14), (.t 37, 15), (.n 56, 16), (.t 51, 18), (.t 57, 19)]⟩,
   ⟨[⟨26, 3, 2147492865⟩],
    []⟩,
   ⟨[⟨27, 3, 2147492865⟩, ⟨26, 1, 2147492865⟩, ⟨27, 1, 2147492865⟩],
    [(.t 14, 20)]⟩,
   ⟨[⟨172, 2, 889478795617150465⟩],
    []⟩]

def lrTypeStates1 : List State :=
  [⟨[⟨30, 2, 889478795617150465⟩],
    [(.t 9, 58)]⟩,
   ⟨[⟨34, 2, 889478795617150465⟩, ⟨48, 0, 889478795617150465⟩, ⟨49, 0, 889478795617150465⟩,
     ⟨50, 0, 889478795617150465⟩, ⟨51, 0, 889478795617150465⟩, ⟨9, 0, 889478795617150465⟩,
     ⟨10, 0, 889478795617150465⟩, ⟨11, 0, 889478795617150465⟩, ⟨12, 0, 889478795617150465⟩,
     ⟨35, 0, 889478795617150465⟩, ⟨36, 0, 889478795617150465⟩, ⟨37, 0, 889478795617150465⟩,
     ⟨38, 0, 889478795617150465⟩, ⟨39, 0, 889478795617150465⟩, ⟨2, 0, 889478796690892321⟩,
     ⟨3, 0, 889478796690892321⟩, ⟨4, 0, 889478796690892321⟩, ⟨162, 0, 32⟩, ⟨1, 0, 889478796690892321⟩,
     ⟨166, 0, 889478796690892321⟩],
    [(.n 16, 59), (.n 4, 43), (.t 43, 44), (.t 8, 45), (.n 11, 46), (.n 1, 10), (.n 52, 11), (.t 50, 12),
     (.n 0, 14), (.t 37, 15), (.n 56, 16), (.t 53, 17), (.t 51, 18), (.t 57, 19)]⟩,
   ⟨[⟨21, 3, 2147525633⟩],
    []⟩,
   ⟨[⟨48, 1, 889478795617150465⟩],
    []⟩,
   ⟨[⟨49, 1, 889478795617150465⟩, ⟨44, 0, 313018041166201344⟩, ⟨45, 0, 313018041166201344⟩,
     ⟨46, 0, 313018041166201344⟩, ⟨47, 0, 313018041166201344⟩, ⟨9, 0, 313018041166201344⟩,
     ⟨10, 0, 313018041166201344⟩, ⟨11, 0, 313018041166201344⟩, ⟨12, 0, 313018041166201344⟩,
     ⟨35, 0, 313018041166201344⟩, ⟨36, 0, 313018041166201344⟩, ⟨37, 0, 313018041166201344⟩,
     ⟨38, 0, 313018041166201344⟩, ⟨39, 0, 313018041166201344⟩, ⟨2, 0, 313018042239943200⟩,
     ⟨3, 0, 313018042239943200⟩, ⟨4, 0, 313018042239943200⟩, ⟨162, 0, 32⟩, ⟨1, 0, 313018042239943200⟩,
     ⟨166, 0, 313018042239943200⟩],
    [(.n 15, 60), (.n 4, 29), (.t 8, 30), (.n 11, 31), (.n 1, 10), (.n 52, 11), (.t 50, 12), (.n 0, 14),
     (.t 37, 15), (.n 56, 16), (.t 53, 17), (.t 51, 18), (.t 57, 19)]⟩,
   ⟨[⟨50, 1, 889478795617150465⟩, ⟨69, 0, 1024⟩, ⟨70, 0, 1024⟩, ⟨9, 0, 313018041166202368⟩,
     ⟨10, 0, 313018041166202368⟩, ⟨11, 0, 313018041166202368⟩, ⟨12, 0, 313018041166202368⟩, ⟨48, 0, 1024⟩,
     ⟨49, 0, 1024⟩, ⟨50, 0, 1024⟩, ⟨51, 0, 1024⟩, ⟨2, 0, 313018042239944224⟩, ⟨3, 0, 313018042239944224⟩,
     ⟨4, 0, 313018042239944224⟩, ⟨162, 0, 32⟩, ⟨35, 0, 1024⟩, ⟨36, 0, 1024⟩, ⟨37, 0, 1024⟩, ⟨38, 0, 1024⟩,
     ⟨39, 0, 1024⟩, ⟨1, 0, 313018042239944224⟩, ⟨166, 0, 313018042239944224⟩],
    [(.n 24, 61), (.n 4, 62), (.n 16, 63), (.n 1, 10), (.n 52, 11), (.t 50, 12), (.t 43, 44), (.t 8, 45),
     (.n 11, 46), (.n 0, 14), (.t 37, 15), (.n 56, 16), (.t 53, 17), (.t 51, 18), (.t 57, 19)]⟩,
   ⟨[⟨51, 1, 889478795617150465⟩],
    []⟩,
   ⟨[⟨45, 2, 313018041166201344⟩],
    [(.t 9, 64)]⟩,
   ⟨[⟨46, 2, 313018041166201344⟩],
    [(.t 9, 65)]⟩,
   ⟨[⟨22, 3, 2147525633⟩],
    []⟩,
   ⟨[⟨24, 3, 2147525633⟩, ⟨19, 0, 2147525633⟩, ⟨20, 0, 2147525633⟩, ⟨21, 0, 2147525633⟩, ⟨22, 0, 2147525633⟩,
     ⟨23, 0, 2147525633⟩, ⟨24, 0, 2147525633⟩, ⟨25, 0, 2147525633⟩, ⟨9, 0, 889478795617150465⟩,
     ⟨10, 0, 889478795617150465⟩, ⟨11, 0, 889478795617150465⟩, ⟨12, 0, 889478795617150465⟩, ⟨35, 0, 2147525633⟩,
     ⟨36, 0, 2147525633⟩, ⟨37, 0, 2147525633⟩, ⟨38, 0, 2147525633⟩, ⟨39, 0, 2147525633⟩, ⟨167, 0, 2147525633⟩,
     ⟨2, 0, 889478796690892321⟩, ⟨3, 0, 889478796690892321⟩, ⟨4, 0, 889478796690892321⟩, ⟨162, 0, 32⟩,
     ⟨1, 0, 889478796690892321⟩, ⟨166, 0, 889478796690892321⟩],
    [(.n 7, 66), (.n 4, 4), (.t 43, 5), (.t 8, 6), (.n 11, 7), (.t 22, 8), (.n 57, 9), (.n 1, 10), (.n 52, 11),
     (.t 50, 12), (.t 58, 13), (.n 0, 14), (.t 37, 15), (.n 56, 16), (.t 53, 17), (.t 51, 18), (.t 57, 19)]⟩,
   ⟨[⟨10, 3, 889478795617150465⟩],
    []⟩,
   ⟨[⟨35, 3, 889478795617150465⟩],
    []⟩,
   ⟨[⟨36, 3, 889478795617150465⟩, ⟨37, 3, 889478795617150465⟩, ⟨40, 0, 2147483648⟩, ⟨41, 0, 2147483648⟩,
     ⟨43, 0, 2147491840⟩],
    [(.t 30, 67), (.n 12, 68), (.n 14, 69), (.t 38, 70)]⟩,
   ⟨[⟨38, 3, 889478795617150465⟩],
    [(.t 30, 71)]⟩,
   ⟨[⟨39, 3, 889478795617150465⟩],
    [(.t 30, 72)]⟩,
   ⟨[⟨165, 1, 2147483664⟩],
    []⟩,
   ⟨[⟨11, 3, 889478795617150465⟩],
    []⟩,
   ⟨[⟨30, 3, 889478795617150465⟩],
    []⟩,
   ⟨[⟨34, 3, 889478795617150465⟩],
    []⟩,
   ⟨[⟨49, 2, 889478795617150465⟩, ⟨48, 0, 889478795617150465⟩, ⟨49, 0, 889478795617150465⟩,
     ⟨50, 0, 889478795617150465⟩, ⟨51, 0, 889478795617150465⟩, ⟨9, 0, 889478795617150465⟩,
     ⟨10, 0, 889478795617150465⟩, ⟨11, 0, 889478795617150465⟩, ⟨12, 0, 889478795617150465⟩,
     ⟨35, 0, 889478795617150465⟩, ⟨36, 0, 889478795617150465⟩, ⟨37, 0, 889478795617150465⟩,
     ⟨38, 0, 889478795617150465⟩, ⟨39, 0, 889478795617150465⟩, ⟨2, 0, 889478796690892321⟩,
     ⟨3, 0, 889478796690892321⟩, ⟨4, 0, 889478796690892321⟩, ⟨162, 0, 32⟩, ⟨1, 0, 889478796690892321⟩,
     ⟨166, 0, 889478796690892321⟩],
    [(.n 16, 73), (.n 4, 43), (.t 43, 44), (.t 8, 45), (.n 11, 46), (.n 1, 10), (.n 52, 11), (.t 50, 12),
     (.n 0, 14), (.t 37, 15), (.n 56, 16), (.t 53, 17), (.t 51, 18), (.t 57, 19)]⟩,
   ⟨[⟨50, 2, 889478795617150465⟩],
    [(.t 9, 74)]⟩,
   ⟨[⟨69, 1, 1024⟩, ⟨48, 1, 1024⟩, ⟨179, 0, 313018041166202368⟩, ⟨180, 0, 313018041166202368⟩,
     ⟨52, 0, 313018041166202368⟩, ⟨53, 0, 313018041166202368⟩, ⟨54, 0, 313018041166202368⟩,
     ⟨9, 0, 313018041166202368⟩, ⟨10, 0, 313018041166202368⟩, ⟨11, 0, 313018041166202368⟩,
     ⟨12, 0, 313018041166202368⟩, ⟨2, 0, 313018041166202400⟩, ⟨3, 0, 313018041166202400⟩,
     ⟨4, 0, 313018041166202400⟩, ⟨162, 0, 32⟩, ⟨1, 0, 313018041166202400⟩, ⟨166, 0, 313018041166202400⟩],
    [(.n 76, 75), (.n 17, 76), (.t 8, 77), (.n 4, 78), (.t 43, 79), (.n 1, 80), (.n 52, 11), (.t 50, 12),
     (.n 0, 14), (.t 37, 15), (.n 56, 16), (.t 53, 17), (.t 51, 18), (.t 57, 19)]⟩,
   ⟨[⟨70, 1, 1024⟩],
    []⟩,
   ⟨[⟨45, 3, 313018041166201344⟩],
    []⟩,
   ⟨[⟨46, 3, 313018041166201344⟩],
    []⟩,
   ⟨[⟨24, 4, 2147525633⟩],
    []⟩,
   ⟨[⟨36, 4, 889478795617150465⟩],
    []⟩,
   ⟨[⟨37, 4, 889478795617150465⟩],
    [(.t 30, 81)]⟩,
   ⟨[⟨40, 1, 2147483648⟩, ⟨41, 1, 2147483648⟩, ⟨173, 0, 2147491840⟩, ⟨174, 0, 2147491840⟩, ⟨42, 0, 2147491840⟩],
    [(.n 72, 82), (.n 13, 83), (.t 12, 84)]⟩,
   ⟨[⟨43, 1, 2147491840⟩, ⟨13, 0, 16⟩, ⟨14, 0, 16⟩, ⟨15, 0, 16⟩, ⟨164, 0, 16⟩, ⟨165, 0, 16⟩, ⟨2, 0, 32⟩,
     ⟨3, 0, 32⟩, ⟨4, 0, 32⟩, ⟨1, 0, 32⟩, ⟨166, 0, 32⟩],
    [(.n 5, 85), (.n 54, 86), (.n 55, 87), (.n 1, 88), (.t 55, 89), (.t 56, 56), (.n 0, 14), (.t 37, 15),
     (.n 56, 16), (.t 51, 18), (.t 57, 19)]⟩,
   ⟨[⟨38, 4, 889478795617150465⟩],
    []⟩,
   ⟨[⟨39, 4, 889478795617150465⟩],
    []⟩,
   ⟨[⟨49, 3, 889478795617150465⟩],
    []⟩,
   ⟨[⟨50, 3, 889478795617150465⟩],
    []⟩,
   ⟨[⟨69, 2, 1024⟩, ⟨180, 1, 313018041166202368⟩, ⟨52, 0, 313018041166202368⟩, ⟨53, 0, 313018041166202368⟩,
     ⟨54, 0, 313018041166202368⟩, ⟨9, 0, 313018041166202368⟩, ⟨10, 0, 313018041166202368⟩,
     ⟨11, 0, 313018041166202368⟩, ⟨12, 0, 313018041166202368⟩, ⟨2, 0, 313018041166202400⟩,
     ⟨3, 0, 313018041166202400⟩, ⟨4, 0, 313018041166202400⟩, ⟨162, 0, 32⟩, ⟨1, 0, 313018041166202400⟩,
     ⟨166, 0, 313018041166202400⟩],
    [(.n 17, 90), (.t 8, 77), (.n 4, 78), (.t 43, 79), (.n 1, 80), (.n 52, 11), (.t 50, 12), (.n 0, 14),
     (.t 37, 15), (.n 56, 16), (.t 53, 17), (.t 51, 18), (.t 57, 19)]⟩,
   ⟨[⟨179, 1, 313018041166202368⟩],
    []⟩,
   ⟨[⟨52, 1, 313018041166202368⟩, ⟨69, 0, 1024⟩, ⟨70, 0, 1024⟩, ⟨9, 0, 313018041166202368⟩,
     ⟨10, 0, 313018041166202368⟩, ⟨11, 0, 313018041166202368⟩, ⟨12, 0, 313018041166202368⟩, ⟨48, 0, 1024⟩,
     ⟨49, 0, 1024⟩, ⟨50, 0, 1024⟩, ⟨51, 0, 1024⟩, ⟨2, 0, 313018042239944224⟩, ⟨3, 0, 313018042239944224⟩,
     ⟨4, 0, 313018042239944224⟩, ⟨162, 0, 32⟩, ⟨35, 0, 1024⟩, ⟨36, 0, 1024⟩, ⟨37, 0, 1024⟩, ⟨38, 0, 1024⟩,
     ⟨39, 0, 1024⟩, ⟨1, 0, 313018042239944224⟩, ⟨166, 0, 313018042239944224⟩],
    [(.n 24, 91), (.n 4, 62), (.n 16, 63), (.n 1, 10), (.n 52, 11), (.t 50, 12), (.t 43, 44), (.t 8, 45),
     (.n 11, 46), (.n 0, 14), (.t 37, 15), (.n 56, 16), (.t 53, 17), (.t 51, 18), (.t 57, 19)]⟩,
   ⟨[⟨53, 1, 313018041166202368⟩],
    []⟩,
   ⟨[⟨54, 1, 313018041166202368⟩, ⟨44, 0, 313018041166201344⟩, ⟨45, 0, 313018041166201344⟩,
     ⟨46, 0, 313018041166201344⟩, ⟨47, 0, 313018041166201344⟩, ⟨9, 0, 313018041166201344⟩,
     ⟨10, 0, 313018041166201344⟩, ⟨11, 0, 313018041166201344⟩, ⟨12, 0, 313018041166201344⟩,
     ⟨35, 0, 313018041166201344⟩, ⟨36, 0, 313018041166201344⟩, ⟨37, 0, 313018041166201344⟩,
     ⟨38, 0, 313018041166201344⟩, ⟨39, 0, 313018041166201344⟩, ⟨2, 0, 313018042239943200⟩,
     ⟨3, 0, 313018042239943200⟩, ⟨4, 0, 313018042239943200⟩, ⟨162, 0, 32⟩, ⟨1, 0, 313018042239943200⟩,
     ⟨166, 0, 313018042239943200⟩],
    [(.n 15, 92), (.n 4, 29), (.t 8, 30), (.n 11, 31), (.n 1, 10), (.n 52, 11), (.t 50, 12), (.n 0, 14),
     (.t 37, 15), (.n 56, 16), (.t 53, 17), (.t 51, 18), (.t 57, 19)]⟩]

def lrTypeStates2 : List State :=
  [⟨[⟨9, 1, 313018041166202368⟩, ⟨10, 1, 313018041166202368⟩],
    [(.t 4, 34)]⟩,
   ⟨[⟨37, 5, 889478795617150465⟩],
    []⟩,
   ⟨[⟨41, 2, 2147483648⟩, ⟨174, 1, 2147491840⟩, ⟨42, 0, 2147491840⟩],
    [(.n 13, 93), (.t 12, 84)]⟩,
   ⟨[⟨173, 1, 2147491840⟩],
    []⟩,
   ⟨[⟨42, 1, 2147491840⟩, ⟨43, 0, 2147491840⟩],
    [(.n 14, 94), (.t 38, 70)]⟩,
   ⟨[⟨43, 2, 2147491840⟩],
    [(.t 3, 95)]⟩,
   ⟨[⟨13, 1, 16⟩],
    []⟩,
   ⟨[⟨14, 1, 16⟩],
    []⟩,
   ⟨[⟨15, 1, 16⟩],
    [(.t 4, 96)]⟩,
   ⟨[⟨164, 1, 16⟩],
    []⟩,
   ⟨[⟨180, 2, 313018041166202368⟩],
    []⟩,
   ⟨[⟨52, 2, 313018041166202368⟩],
    [(.t 9, 97)]⟩,
   ⟨[⟨54, 2, 313018041166202368⟩, ⟨48, 0, 313018041166202368⟩, ⟨49, 0, 313018041166202368⟩,
     ⟨50, 0, 313018041166202368⟩, ⟨51, 0, 313018041166202368⟩, ⟨9, 0, 313018041166202368⟩,
     ⟨10, 0, 313018041166202368⟩, ⟨11, 0, 313018041166202368⟩, ⟨12, 0, 313018041166202368⟩,
     ⟨35, 0, 313018041166202368⟩, ⟨36, 0, 313018041166202368⟩, ⟨37, 0, 313018041166202368⟩,
     ⟨38, 0, 313018041166202368⟩, ⟨39, 0, 313018041166202368⟩, ⟨2, 0, 313018042239944224⟩,
     ⟨3, 0, 313018042239944224⟩, ⟨4, 0, 313018042239944224⟩, ⟨162, 0, 32⟩, ⟨1, 0, 313018042239944224⟩,
     ⟨166, 0, 313018042239944224⟩],
    [(.n 16, 98), (.n 4, 43), (.t 43, 44), (.t 8, 45), (.n 11, 46), (.n 1, 10), (.n 52, 11), (.t 50, 12),
     (.n 0, 14), (.t 37, 15), (.n 56, 16), (.t 53, 17), (.t 51, 18), (.t 57, 19)]⟩,
   ⟨[⟨174, 2, 2147491840⟩],
    []⟩,
   ⟨[⟨42, 2, 2147491840⟩],
    []⟩,
   ⟨[⟨43, 3, 2147491840⟩, ⟨28, 0, 2147491840⟩, ⟨29, 0, 2147491840⟩, ⟨26, 0, 2147491840⟩, ⟨27, 0, 2147491840⟩,
     ⟨19, 0, 2147524608⟩, ⟨20, 0, 2147524608⟩, ⟨21, 0, 2147524608⟩, ⟨22, 0, 2147524608⟩, ⟨23, 0, 2147524608⟩,
     ⟨24, 0, 2147524608⟩, ⟨25, 0, 2147524608⟩, ⟨9, 0, 889478795617149440⟩, ⟨10, 0, 889478795617149440⟩,
     ⟨11, 0, 889478795617149440⟩, ⟨12, 0, 889478795617149440⟩, ⟨35, 0, 2147524608⟩, ⟨36, 0, 2147524608⟩,
     ⟨37, 0, 2147524608⟩, ⟨38, 0, 2147524608⟩, ⟨39, 0, 2147524608⟩, ⟨167, 0, 2147524608⟩,
     ⟨2, 0, 889478796690891296⟩, ⟨3, 0, 889478796690891296⟩, ⟨4, 0, 889478796690891296⟩, ⟨162, 0, 32⟩,
     ⟨1, 0, 889478796690891296⟩, ⟨166, 0, 889478796690891296⟩],
    [(.n 9, 99), (.n 8, 2), (.n 7, 3), (.n 4, 4), (.t 43, 5), (.t 8, 6), (.n 11, 7), (.t 22, 8), (.n 57, 9),
     (.n 1, 10), (.n 52, 11), (.t 50, 12), (.t 58, 13), (.n 0, 14), (.t 37, 15), (.n 56, 16), (.t 53, 17),
     (.t 51, 18), (.t 57, 19)]⟩,
   ⟨[⟨15, 2, 16⟩, ⟨164, 0, 16⟩],
    [(.n 54, 100), (.t 55, 89)]⟩,
   ⟨[⟨52, 3, 313018041166202368⟩],
    []⟩,
   ⟨[⟨54, 3, 313018041166202368⟩],
    []⟩,
   ⟨[⟨43, 4, 2147491840⟩],
    []⟩,
   ⟨[⟨15, 3, 16⟩],
    []⟩]

def lrTypeStates : List State :=
  lrTypeStates0 ++ lrTypeStates1 ++ lrTypeStates2

end Verif.LR
