import Verif.Sm2.Asm.Machine
/-!
The routines of `sm2/sm2p256_amd64.s` as instruction lists, with macros expanded and register names resolved; written
by `tools/asm2lean.py` from the source. The comment after each group of instructions gives its source line(s). A `CALL` is the list of
the routine called; a loop is given as the parts before it, its body (ended by `JNE`) and after it.
-/
namespace Verif.Sm2.Asm

/-- sm2/sm2p256_amd64.s:27-44 `p256const2+0` -/
abbrev const2 : Nat := 0xffffffff00000000

/-- sm2/sm2p256_amd64.s:27-44 `p256const3+0` -/
abbrev const3 : Nat := 0xfffffffeffffffff

/-- sm2/sm2p256_amd64.s:27-44 `p256Gmone+0` -/
abbrev one0 : Nat := 0x1

/-- sm2/sm2p256_amd64.s:27-44 `p256Gmone+8` -/
abbrev one1 : Nat := 0xffffffff

/-- sm2/sm2p256_amd64.s:27-44 `p256Gmone+16` -/
abbrev one2 : Nat := 0x0

/-- sm2/sm2p256_amd64.s:27-44 `p256Gmone+24` -/
abbrev one3 : Nat := 0x100000000

/-- sm2/sm2p256_amd64.s:27-44 `p256Gmord+0` -/
abbrev ord0 : Nat := 0x53bbf40939d54123

/-- sm2/sm2p256_amd64.s:27-44 `p256Gmord+8` -/
abbrev ord1 : Nat := 0x7203df6b21c6052b

/-- sm2/sm2p256_amd64.s:27-44 `p256Gmord+16` -/
abbrev ord2 : Nat := 0xffffffffffffffff

/-- sm2/sm2p256_amd64.s:27-44 `p256Gmord+24` -/
abbrev ord3 : Nat := 0xfffffffeffffffff

/-- sm2/sm2p256_amd64.s:27-44 `p256GmordK0+0` -/
abbrev ordK0 : Nat := 0x327f9e8872350975

/-- sm2/sm2p256_amd64.s:57-75 `sm2p256BigToLittle` -/
def sm2p256BigToLittle : List Instr :=
  [.movq (.arg 0) (.reg .DI), .movq (.arg 24) (.reg .SI), .movq (.mem .SI 0) (.reg .R8), .movq (.mem .SI 8) (.reg .R9), .movq (.mem .SI 16) (.reg .R10), -- 57-62
   .movq (.mem .SI 24) (.reg .R11), .bswapq .R8, .bswapq .R9, .bswapq .R10, .bswapq .R11, -- 63-68
   .movq (.reg .R11) (.mem .DI 0), .movq (.reg .R10) (.mem .DI 8), .movq (.reg .R9) (.mem .DI 16), .movq (.reg .R8) (.mem .DI 24) -- 70-73
  ]

/-- sm2/sm2p256_amd64.s:80-130 `sm2p256MovCond` -/
def sm2p256MovCond : List Instr :=
  [.movq (.arg 0) (.reg .DI), .movq (.arg 24) (.reg .SI), .movq (.arg 48) (.reg .CX), .movqx (.arg 72) .X12, .pxor .X13 .X13, -- 80-85
   .pshufd0 .X12 .X12, .pcmpeql .X13 .X12, .movou (.reg .X12) (.reg .X0), .pandn (.mem .SI 0) .X0, .movou (.reg .X12) (.reg .X1), -- 86-91
   .pandn (.mem .SI 16) .X1, .movou (.reg .X12) (.reg .X2), .pandn (.mem .SI 32) .X2, .movou (.reg .X12) (.reg .X3), .pandn (.mem .SI 48) .X3, -- 92-96
   .movou (.reg .X12) (.reg .X4), .pandn (.mem .SI 64) .X4, .movou (.reg .X12) (.reg .X5), .pandn (.mem .SI 80) .X5, .movou (.mem .CX 0) (.reg .X6), -- 97-102
   .movou (.mem .CX 16) (.reg .X7), .movou (.mem .CX 32) (.reg .X8), .movou (.mem .CX 48) (.reg .X9), .movou (.mem .CX 64) (.reg .X10), .movou (.mem .CX 80) (.reg .X11), -- 103-107
   .pand .X12 .X6, .pand .X12 .X7, .pand .X12 .X8, .pand .X12 .X9, .pand .X12 .X10, -- 109-113
   .pand .X12 .X11, .pxor .X6 .X0, .pxor .X7 .X1, .pxor .X8 .X2, .pxor .X9 .X3, -- 114-119
   .pxor .X10 .X4, .pxor .X11 .X5, .movou (.reg .X0) (.mem .DI 0), .movou (.reg .X1) (.mem .DI 16), .movou (.reg .X2) (.mem .DI 32), -- 120-125
   .movou (.reg .X3) (.mem .DI 48), .movou (.reg .X4) (.mem .DI 64), .movou (.reg .X5) (.mem .DI 80) -- 126-128
  ]

/-- sm2/sm2p256_amd64.s:134-163 `sm2p256NegCond` -/
def sm2p256NegCond : List Instr :=
  [.movq (.arg 0) (.reg .DI), .movq (.arg 24) (.reg .R14), .movq (.imm 18446744073709551615) (.reg .R8), .movq (.imm const2) (.reg .R9), .movq (.imm 18446744073709551615) (.reg .R10), -- 134-139
   .movq (.imm const3) (.reg .R11), .movq (.mem .DI 0) (.reg .R13), .movq (.mem .DI 8) (.reg .SI), .movq (.mem .DI 16) (.reg .CX), .movq (.mem .DI 24) (.reg .R15), -- 140-145
   .subq (.reg .R13) .R8, .sbbq (.reg .SI) .R9, .sbbq (.reg .CX) .R10, .sbbq (.reg .R15) .R11, .testq (.reg .R14) .R14, -- 147-152
   .cmoveq .R13 .R8, .cmoveq .SI .R9, .cmoveq .CX .R10, .cmoveq .R15 .R11, .movq (.reg .R8) (.mem .DI 0), -- 153-158
   .movq (.reg .R9) (.mem .DI 8), .movq (.reg .R10) (.mem .DI 16), .movq (.reg .R11) (.mem .DI 24) -- 159-161
  ]

/-- sm2/sm2p256_amd64.s:167-334 `sm2p256Sqr` -/
def sm2p256Sqr : List Instr :=
  [.movq (.arg 0) (.reg .DI), .movq (.arg 24) (.reg .SI), .movq (.mem .SI 0) (.reg .R14), .movq (.mem .SI 8) (.reg .AX), .mulq (.reg .R14), -- 167-173
   .movq (.reg .AX) (.reg .R9), .movq (.reg .DX) (.reg .R10), .movq (.mem .SI 16) (.reg .AX), .mulq (.reg .R14), .addq (.reg .AX) .R10, -- 174-179
   .adcq (.imm 0) .DX, .movq (.reg .DX) (.reg .R11), .movq (.mem .SI 24) (.reg .AX), .mulq (.reg .R14), .addq (.reg .AX) .R11, -- 180-185
   .adcq (.imm 0) .DX, .movq (.reg .DX) (.reg .R12), .movq (.mem .SI 8) (.reg .R14), .movq (.mem .SI 16) (.reg .AX), .mulq (.reg .R14), -- 186-192
   .addq (.reg .AX) .R11, .adcq (.imm 0) .DX, .movq (.reg .DX) (.reg .R15), .movq (.mem .SI 24) (.reg .AX), .mulq (.reg .R14), -- 193-198
   .addq (.reg .R15) .R12, .adcq (.imm 0) .DX, .addq (.reg .AX) .R12, .adcq (.imm 0) .DX, .movq (.reg .DX) (.reg .R13), -- 199-203
   .movq (.mem .SI 16) (.reg .R14), .movq (.mem .SI 24) (.reg .AX), .mulq (.reg .R14), .addq (.reg .AX) .R13, .adcq (.imm 0) .DX, -- 205-210
   .movq (.reg .DX) (.reg .CX), .xorq (.reg .R15) .R15, .addq (.reg .R9) .R9, .adcq (.reg .R10) .R10, .adcq (.reg .R11) .R11, -- 211-216
   .adcq (.reg .R12) .R12, .adcq (.reg .R13) .R13, .adcq (.reg .CX) .CX, .adcq (.imm 0) .R15, .movq (.mem .SI 0) (.reg .AX), -- 217-222
   .mulq (.reg .AX), .movq (.reg .AX) (.reg .R8), .movq (.reg .DX) (.reg .R14), .movq (.mem .SI 8) (.reg .AX), .mulq (.reg .AX), -- 223-228
   .addq (.reg .R14) .R9, .adcq (.reg .AX) .R10, .adcq (.imm 0) .DX, .movq (.reg .DX) (.reg .R14), .movq (.mem .SI 16) (.reg .AX), -- 229-234
   .mulq (.reg .AX), .addq (.reg .R14) .R11, .adcq (.reg .AX) .R12, .adcq (.imm 0) .DX, .movq (.reg .DX) (.reg .R14), -- 235-239
   .movq (.mem .SI 24) (.reg .AX), .mulq (.reg .AX), .addq (.reg .R14) .R13, .adcq (.reg .AX) .CX, .adcq (.reg .DX) .R15, -- 241-245
   .movq (.reg .R15) (.reg .SI), .movq (.reg .R8) (.reg .AX), .movq (.reg .R8) (.reg .R15), .shlq 32 .R8, .shrq 32 .R15, -- 246-251
   .addq (.reg .AX) .R9, .adcq (.imm 0) .R10, .subq (.reg .R8) .R9, .sbbq (.reg .R15) .R10, .sbbq (.imm 0) .R11, -- 252-256
   .mulq (.imm const2), .addq (.reg .AX) .R11, .adcq (.imm 0) .DX, .movq (.reg .DX) (.reg .R8), .movq (.reg .R9) (.reg .AX), -- 257-263
   .movq (.reg .R9) (.reg .R15), .shlq 32 .R9, .shrq 32 .R15, .addq (.reg .AX) .R10, .adcq (.imm 0) .R11, -- 264-268
   .subq (.reg .R9) .R10, .sbbq (.reg .R15) .R11, .sbbq (.imm 0) .R8, .mulq (.imm const2), .addq (.reg .AX) .R8, -- 269-273
   .adcq (.imm 0) .DX, .movq (.reg .DX) (.reg .R9), .movq (.reg .R10) (.reg .AX), .movq (.reg .R10) (.reg .R15), .shlq 32 .R10, -- 274-279
   .shrq 32 .R15, .addq (.reg .AX) .R11, .adcq (.imm 0) .R8, .subq (.reg .R10) .R11, .sbbq (.reg .R15) .R8, -- 280-284
   .sbbq (.imm 0) .R9, .mulq (.imm const2), .addq (.reg .AX) .R9, .adcq (.imm 0) .DX, .movq (.reg .DX) (.reg .R10), -- 285-289
   .xorq (.reg .R14) .R14, .movq (.reg .R11) (.reg .AX), .movq (.reg .R11) (.reg .R15), .shlq 32 .R11, .shrq 32 .R15, -- 291-295
   .addq (.reg .AX) .R8, .adcq (.imm 0) .R9, .subq (.reg .R11) .R8, .sbbq (.reg .R15) .R9, .sbbq (.imm 0) .R10, -- 296-300
   .mulq (.imm const2), .addq (.reg .AX) .R10, .adcq (.imm 0) .DX, .movq (.reg .DX) (.reg .R11), .adcq (.reg .R12) .R8, -- 301-306
   .adcq (.reg .R13) .R9, .adcq (.reg .CX) .R10, .adcq (.reg .SI) .R11, .adcq (.imm 0) .R14, .movq (.reg .R8) (.reg .R12), -- 307-312
   .movq (.reg .R9) (.reg .R13), .movq (.reg .R10) (.reg .CX), .movq (.reg .R11) (.reg .R15), .subq (.imm 18446744073709551615) .R8, .sbbq (.imm const2) .R9, -- 313-319
   .sbbq (.imm 18446744073709551615) .R10, .sbbq (.imm const3) .R11, .sbbq (.imm 0) .R14, .cmovcs .R12 .R8, .cmovcs .R13 .R9, -- 320-325
   .cmovcs .CX .R10, .cmovcs .R15 .R11, .movq (.reg .R8) (.mem .DI 0), .movq (.reg .R9) (.mem .DI 8), .movq (.reg .R10) (.mem .DI 16), -- 326-331
   .movq (.reg .R11) (.mem .DI 24) -- 332
  ]

/-- sm2/sm2p256_amd64.s:338-554 `sm2p256Mul` -/
def sm2p256Mul : List Instr :=
  [.movq (.arg 0) (.reg .DI), .movq (.arg 24) (.reg .SI), .movq (.arg 48) (.reg .CX), .movq (.mem .CX 0) (.reg .R14), .movq (.mem .SI 0) (.reg .AX), -- 338-344
   .mulq (.reg .R14), .movq (.reg .AX) (.reg .R8), .movq (.reg .DX) (.reg .R9), .movq (.mem .SI 8) (.reg .AX), .mulq (.reg .R14), -- 345-350
   .addq (.reg .AX) .R9, .adcq (.imm 0) .DX, .movq (.reg .DX) (.reg .R10), .movq (.mem .SI 16) (.reg .AX), .mulq (.reg .R14), -- 351-356
   .addq (.reg .AX) .R10, .adcq (.imm 0) .DX, .movq (.reg .DX) (.reg .R11), .movq (.mem .SI 24) (.reg .AX), .mulq (.reg .R14), -- 357-362
   .addq (.reg .AX) .R11, .adcq (.imm 0) .DX, .movq (.reg .DX) (.reg .R12), .xorq (.reg .R13) .R13, .movq (.reg .R8) (.reg .AX), -- 363-369
   .movq (.reg .R8) (.reg .R15), .shlq 32 .R8, .shrq 32 .R15, .addq (.reg .AX) .R9, .adcq (.imm 0) .R10, -- 370-375
   .subq (.reg .R8) .R9, .sbbq (.reg .R15) .R10, .sbbq (.imm 0) .R11, .mulq (.imm const2), .addq (.reg .AX) .R11, -- 376-380
   .adcq (.reg .DX) .R12, .adcq (.imm 0) .R13, .xorq (.reg .R8) .R8, .movq (.mem .CX 8) (.reg .R14), .movq (.mem .SI 0) (.reg .AX), -- 381-388
   .mulq (.reg .R14), .addq (.reg .AX) .R9, .adcq (.imm 0) .DX, .movq (.reg .DX) (.reg .R15), .movq (.mem .SI 8) (.reg .AX), -- 389-394
   .mulq (.reg .R14), .addq (.reg .R15) .R10, .adcq (.imm 0) .DX, .addq (.reg .AX) .R10, .adcq (.imm 0) .DX, -- 395-399
   .movq (.reg .DX) (.reg .R15), .movq (.mem .SI 16) (.reg .AX), .mulq (.reg .R14), .addq (.reg .R15) .R11, .adcq (.imm 0) .DX, -- 400-405
   .addq (.reg .AX) .R11, .adcq (.imm 0) .DX, .movq (.reg .DX) (.reg .R15), .movq (.mem .SI 24) (.reg .AX), .mulq (.reg .R14), -- 406-411
   .addq (.reg .R15) .R12, .adcq (.imm 0) .DX, .addq (.reg .AX) .R12, .adcq (.reg .DX) .R13, .adcq (.imm 0) .R8, -- 412-416
   .movq (.reg .R9) (.reg .AX), .movq (.reg .R9) (.reg .R15), .shlq 32 .R9, .shrq 32 .R15, .addq (.reg .AX) .R10, -- 419-424
   .adcq (.imm 0) .R11, .subq (.reg .R9) .R10, .sbbq (.reg .R15) .R11, .sbbq (.imm 0) .R12, .mulq (.imm const2), -- 425-429
   .addq (.reg .AX) .R12, .adcq (.reg .DX) .R13, .adcq (.imm 0) .R8, .xorq (.reg .R9) .R9, .movq (.mem .CX 16) (.reg .R14), -- 430-436
   .movq (.mem .SI 0) (.reg .AX), .mulq (.reg .R14), .addq (.reg .AX) .R10, .adcq (.imm 0) .DX, .movq (.reg .DX) (.reg .R15), -- 438-442
   .movq (.mem .SI 8) (.reg .AX), .mulq (.reg .R14), .addq (.reg .R15) .R11, .adcq (.imm 0) .DX, .addq (.reg .AX) .R11, -- 444-448
   .adcq (.imm 0) .DX, .movq (.reg .DX) (.reg .R15), .movq (.mem .SI 16) (.reg .AX), .mulq (.reg .R14), .addq (.reg .R15) .R12, -- 449-454
   .adcq (.imm 0) .DX, .addq (.reg .AX) .R12, .adcq (.imm 0) .DX, .movq (.reg .DX) (.reg .R15), .movq (.mem .SI 24) (.reg .AX), -- 455-460
   .mulq (.reg .R14), .addq (.reg .R15) .R13, .adcq (.imm 0) .DX, .addq (.reg .AX) .R13, .adcq (.reg .DX) .R8, -- 461-465
   .adcq (.imm 0) .R9, .movq (.reg .R10) (.reg .AX), .movq (.reg .R10) (.reg .R15), .shlq 32 .R10, .shrq 32 .R15, -- 466-473
   .addq (.reg .AX) .R11, .adcq (.imm 0) .R12, .subq (.reg .R10) .R11, .sbbq (.reg .R15) .R12, .sbbq (.imm 0) .R13, -- 474-478
   .mulq (.imm const2), .addq (.reg .AX) .R13, .adcq (.reg .DX) .R8, .adcq (.imm 0) .R9, .xorq (.reg .R10) .R10, -- 479-484
   .movq (.mem .CX 24) (.reg .R14), .movq (.mem .SI 0) (.reg .AX), .mulq (.reg .R14), .addq (.reg .AX) .R11, .adcq (.imm 0) .DX, -- 486-491
   .movq (.reg .DX) (.reg .R15), .movq (.mem .SI 8) (.reg .AX), .mulq (.reg .R14), .addq (.reg .R15) .R12, .adcq (.imm 0) .DX, -- 492-497
   .addq (.reg .AX) .R12, .adcq (.imm 0) .DX, .movq (.reg .DX) (.reg .R15), .movq (.mem .SI 16) (.reg .AX), .mulq (.reg .R14), -- 498-503
   .addq (.reg .R15) .R13, .adcq (.imm 0) .DX, .addq (.reg .AX) .R13, .adcq (.imm 0) .DX, .movq (.reg .DX) (.reg .R15), -- 504-508
   .movq (.mem .SI 24) (.reg .AX), .mulq (.reg .R14), .addq (.reg .R15) .R8, .adcq (.imm 0) .DX, .addq (.reg .AX) .R8, -- 510-514
   .adcq (.reg .DX) .R9, .adcq (.imm 0) .R10, .movq (.reg .R11) (.reg .AX), .movq (.reg .R11) (.reg .R15), .shlq 32 .R11, -- 515-521
   .shrq 32 .R15, .addq (.reg .AX) .R12, .adcq (.imm 0) .R13, .subq (.reg .R11) .R12, .sbbq (.reg .R15) .R13, -- 522-526
   .sbbq (.imm 0) .R8, .mulq (.imm const2), .addq (.reg .AX) .R8, .adcq (.reg .DX) .R9, .adcq (.imm 0) .R10, -- 527-531
   .movq (.reg .R12) (.reg .SI), .movq (.reg .R13) (.reg .R11), .movq (.reg .R8) (.reg .R14), .movq (.reg .R9) (.reg .R15), .subq (.imm 18446744073709551615) .R12, -- 533-538
   .sbbq (.imm const2) .R13, .sbbq (.imm 18446744073709551615) .R8, .sbbq (.imm const3) .R9, .sbbq (.imm 0) .R10, .cmovcs .SI .R12, -- 539-544
   .cmovcs .R11 .R13, .cmovcs .R14 .R8, .cmovcs .R15 .R9, .movq (.reg .R12) (.mem .DI 0), .movq (.reg .R13) (.mem .DI 8), -- 545-550
   .movq (.reg .R8) (.mem .DI 16), .movq (.reg .R9) (.mem .DI 24) -- 551-552
  ]

/-- sm2/sm2p256_amd64.s:558-651 `sm2p256FromMont` -/
def sm2p256FromMont : List Instr :=
  [.movq (.arg 0) (.reg .DI), .movq (.arg 24) (.reg .SI), .movq (.mem .SI 0) (.reg .R8), .movq (.mem .SI 8) (.reg .R9), .movq (.mem .SI 16) (.reg .R10), -- 558-563
   .movq (.mem .SI 24) (.reg .R11), .xorq (.reg .R12) .R12, .movq (.reg .R8) (.reg .AX), .movq (.reg .R8) (.reg .R15), .shlq 32 .R8, -- 564-572
   .shrq 32 .R15, .addq (.reg .AX) .R9, .adcq (.imm 0) .R10, .subq (.reg .R8) .R9, .sbbq (.reg .R15) .R10, -- 573-577
   .sbbq (.imm 0) .R11, .mulq (.imm const2), .addq (.reg .AX) .R11, .adcq (.reg .DX) .R12, .xorq (.reg .R13) .R13, -- 578-582
   .movq (.reg .R9) (.reg .AX), .movq (.reg .R9) (.reg .R15), .shlq 32 .R9, .shrq 32 .R15, .addq (.reg .AX) .R10, -- 585-590
   .adcq (.imm 0) .R11, .subq (.reg .R9) .R10, .sbbq (.reg .R15) .R11, .sbbq (.imm 0) .R12, .mulq (.imm const2), -- 591-595
   .addq (.reg .AX) .R12, .adcq (.reg .DX) .R13, .xorq (.reg .R8) .R8, .movq (.reg .R10) (.reg .AX), .movq (.reg .R10) (.reg .R15), -- 596-602
   .shlq 32 .R10, .shrq 32 .R15, .addq (.reg .AX) .R11, .adcq (.imm 0) .R12, .subq (.reg .R10) .R11, -- 604-608
   .sbbq (.reg .R15) .R12, .sbbq (.imm 0) .R13, .mulq (.imm const2), .addq (.reg .AX) .R13, .adcq (.reg .DX) .R8, -- 609-613
   .xorq (.reg .R9) .R9, .movq (.reg .R11) (.reg .AX), .movq (.reg .R11) (.reg .R15), .shlq 32 .R11, .shrq 32 .R15, -- 614-620
   .addq (.reg .AX) .R12, .adcq (.imm 0) .R13, .subq (.reg .R11) .R12, .sbbq (.reg .R15) .R13, .sbbq (.imm 0) .R8, -- 621-625
   .mulq (.imm const2), .addq (.reg .AX) .R8, .adcq (.reg .DX) .R9, .movq (.reg .R12) (.reg .SI), .movq (.reg .R13) (.reg .R11), -- 626-632
   .movq (.reg .R8) (.reg .R14), .movq (.reg .R9) (.reg .R15), .subq (.imm 18446744073709551615) .R12, .sbbq (.imm const2) .R13, .sbbq (.imm 18446744073709551615) .R8, -- 633-638
   .sbbq (.imm const3) .R9, .cmovcs .SI .R12, .cmovcs .R11 .R13, .cmovcs .R14 .R8, .cmovcs .R15 .R9, -- 639-644
   .movq (.reg .R12) (.mem .DI 0), .movq (.reg .R13) (.mem .DI 8), .movq (.reg .R8) (.mem .DI 16), .movq (.reg .R9) (.mem .DI 24) -- 646-649
  ]

/-- sm2/sm2p256_amd64.s:658-716 `sm2p256Select`, before the loop -/
def sm2p256SelectPre : List Instr :=
  [.movq (.arg 48) (.reg .AX), .movq (.arg 24) (.reg .DI), .movq (.arg 0) (.reg .DX), .pxor .X15 .X15, .pcmpeql .X14 .X14, -- 658-663
   .psubl .X14 .X15, .movlx .AX .X14, .pshufd0 .X14 .X14, .pxor .X0 .X0, .pxor .X1 .X1, -- 664-669
   .pxor .X2 .X2, .pxor .X3 .X3, .pxor .X4 .X4, .pxor .X5 .X5, .movq (.imm 16) (.reg .AX), -- 670-674
   .movou (.reg .X15) (.reg .X13) -- 676
  ]

/-- sm2/sm2p256_amd64.s:658-716 `sm2p256Select`, the loop body -/
def sm2p256SelectBody : List Instr :=
  [.movou (.reg .X13) (.reg .X12), .paddl .X15 .X13, .pcmpeql .X14 .X12, .movou (.mem .DI 0) (.reg .X6), .movou (.mem .DI 16) (.reg .X7), -- 680-685
   .movou (.mem .DI 32) (.reg .X8), .movou (.mem .DI 48) (.reg .X9), .movou (.mem .DI 64) (.reg .X10), .movou (.mem .DI 80) (.reg .X11), .addq (.imm 96) .DI, -- 686-690
   .pand .X12 .X6, .pand .X12 .X7, .pand .X12 .X8, .pand .X12 .X9, .pand .X12 .X10, -- 692-696
   .pand .X12 .X11, .pxor .X6 .X0, .pxor .X7 .X1, .pxor .X8 .X2, .pxor .X9 .X3, -- 697-702
   .pxor .X10 .X4, .pxor .X11 .X5, .decq .AX -- 703-706
  ]

/-- sm2/sm2p256_amd64.s:658-716 `sm2p256Select`, after the loop -/
def sm2p256SelectPost : List Instr :=
  [.movou (.reg .X0) (.mem .DX 0), .movou (.reg .X1) (.mem .DX 16), .movou (.reg .X2) (.mem .DX 32), .movou (.reg .X3) (.mem .DX 48), .movou (.reg .X4) (.mem .DX 64), -- 709-713
   .movou (.reg .X5) (.mem .DX 80) -- 714
  ]

/-- sm2/sm2p256_amd64.s:721-789 `sm2p256SelectBase`, before the loop -/
def sm2p256SelectBasePre : List Instr :=
  [.movq (.arg 48) (.reg .AX), .movq (.arg 24) (.reg .DI), .movq (.arg 0) (.reg .DX), .pxor .X15 .X15, .pcmpeql .X14 .X14, -- 721-726
   .psubl .X14 .X15, .movlx .AX .X14, .pshufd0 .X14 .X14, .pxor .X0 .X0, .pxor .X1 .X1, -- 727-732
   .pxor .X2 .X2, .pxor .X3 .X3, .movq (.imm 32) (.reg .AX), .movou (.reg .X15) (.reg .X13) -- 733-737
  ]

/-- sm2/sm2p256_amd64.s:721-789 `sm2p256SelectBase`, the loop body -/
def sm2p256SelectBaseBody : List Instr :=
  [.movou (.reg .X13) (.reg .X12), .paddl .X15 .X13, .pcmpeql .X14 .X12, .movou (.mem .DI 0) (.reg .X4), .movou (.mem .DI 16) (.reg .X5), -- 741-746
   .movou (.mem .DI 32) (.reg .X6), .movou (.mem .DI 48) (.reg .X7), .movou (.mem .DI 64) (.reg .X8), .movou (.mem .DI 80) (.reg .X9), .movou (.mem .DI 96) (.reg .X10), -- 747-752
   .movou (.mem .DI 112) (.reg .X11), .addq (.imm 128) .DI, .pand .X12 .X4, .pand .X12 .X5, .pand .X12 .X6, -- 753-759
   .pand .X12 .X7, .movou (.reg .X13) (.reg .X12), .paddl .X15 .X13, .pcmpeql .X14 .X12, .pand .X12 .X8, -- 760-766
   .pand .X12 .X9, .pand .X12 .X10, .pand .X12 .X11, .pxor .X4 .X0, .pxor .X5 .X1, -- 767-772
   .pxor .X6 .X2, .pxor .X7 .X3, .pxor .X8 .X0, .pxor .X9 .X1, .pxor .X10 .X2, -- 773-778
   .pxor .X11 .X3, .decq .AX -- 779-781
  ]

/-- sm2/sm2p256_amd64.s:721-789 `sm2p256SelectBase`, after the loop -/
def sm2p256SelectBasePost : List Instr :=
  [.movou (.reg .X0) (.mem .DX 0), .movou (.reg .X1) (.mem .DX 16), .movou (.reg .X2) (.mem .DX 32), .movou (.reg .X3) (.mem .DX 48) -- 784-787
  ]

/-- sm2/sm2p256_amd64.s:793-1076 `sm2p256OrdMul` -/
def sm2p256OrdMul : List Instr :=
  [.movq (.arg 0) (.reg .DI), .movq (.arg 24) (.reg .SI), .movq (.arg 48) (.reg .CX), .movq (.mem .CX 0) (.reg .R14), .movq (.mem .SI 0) (.reg .AX), -- 793-799
   .mulq (.reg .R14), .movq (.reg .AX) (.reg .R8), .movq (.reg .DX) (.reg .R9), .movq (.mem .SI 8) (.reg .AX), .mulq (.reg .R14), -- 800-805
   .addq (.reg .AX) .R9, .adcq (.imm 0) .DX, .movq (.reg .DX) (.reg .R10), .movq (.mem .SI 16) (.reg .AX), .mulq (.reg .R14), -- 806-811
   .addq (.reg .AX) .R10, .adcq (.imm 0) .DX, .movq (.reg .DX) (.reg .R11), .movq (.mem .SI 24) (.reg .AX), .mulq (.reg .R14), -- 812-817
   .addq (.reg .AX) .R11, .adcq (.imm 0) .DX, .movq (.reg .DX) (.reg .R12), .xorq (.reg .R13) .R13, .movq (.reg .R8) (.reg .AX), -- 818-823
   .mulq (.imm ordK0), .movq (.reg .AX) (.reg .R14), .movq (.imm ord0) (.reg .AX), .mulq (.reg .R14), .addq (.reg .AX) .R8, -- 824-829
   .adcq (.imm 0) .DX, .movq (.reg .DX) (.reg .R15), .movq (.imm ord1) (.reg .AX), .mulq (.reg .R14), .addq (.reg .R15) .R9, -- 830-835
   .adcq (.imm 0) .DX, .addq (.reg .AX) .R9, .adcq (.imm 0) .DX, .movq (.reg .DX) (.reg .R15), .movq (.imm ord2) (.reg .AX), -- 836-841
   .mulq (.reg .R14), .addq (.reg .R15) .R10, .adcq (.imm 0) .DX, .addq (.reg .AX) .R10, .adcq (.imm 0) .DX, -- 842-846
   .movq (.reg .DX) (.reg .R15), .movq (.imm ord3) (.reg .AX), .mulq (.reg .R14), .addq (.reg .R15) .R11, .adcq (.imm 0) .DX, -- 847-852
   .addq (.reg .AX) .R11, .adcq (.reg .DX) .R12, .adcq (.imm 0) .R13, .movq (.mem .CX 8) (.reg .R14), .movq (.mem .SI 0) (.reg .AX), -- 853-859
   .mulq (.reg .R14), .addq (.reg .AX) .R9, .adcq (.imm 0) .DX, .movq (.reg .DX) (.reg .R15), .movq (.mem .SI 8) (.reg .AX), -- 860-865
   .mulq (.reg .R14), .addq (.reg .R15) .R10, .adcq (.imm 0) .DX, .addq (.reg .AX) .R10, .adcq (.imm 0) .DX, -- 866-870
   .movq (.reg .DX) (.reg .R15), .movq (.mem .SI 16) (.reg .AX), .mulq (.reg .R14), .addq (.reg .R15) .R11, .adcq (.imm 0) .DX, -- 871-876
   .addq (.reg .AX) .R11, .adcq (.imm 0) .DX, .movq (.reg .DX) (.reg .R15), .movq (.mem .SI 24) (.reg .AX), .mulq (.reg .R14), -- 877-882
   .addq (.reg .R15) .R12, .adcq (.imm 0) .DX, .addq (.reg .AX) .R12, .adcq (.reg .DX) .R13, .adcq (.imm 0) .R8, -- 883-887
   .movq (.reg .R9) (.reg .AX), .mulq (.imm ordK0), .movq (.reg .AX) (.reg .R14), .movq (.imm ord0) (.reg .AX), .mulq (.reg .R14), -- 889-894
   .addq (.reg .AX) .R9, .adcq (.imm 0) .DX, .movq (.reg .DX) (.reg .R15), .movq (.imm ord1) (.reg .AX), .mulq (.reg .R14), -- 895-900
   .addq (.reg .R15) .R10, .adcq (.imm 0) .DX, .addq (.reg .AX) .R10, .adcq (.imm 0) .DX, .movq (.reg .DX) (.reg .R15), -- 901-905
   .movq (.imm ord2) (.reg .AX), .mulq (.reg .R14), .addq (.reg .R15) .R11, .adcq (.imm 0) .DX, .addq (.reg .AX) .R11, -- 907-911
   .adcq (.imm 0) .DX, .movq (.reg .DX) (.reg .R15), .movq (.imm ord3) (.reg .AX), .mulq (.reg .R14), .addq (.reg .R15) .R12, -- 912-917
   .adcq (.imm 0) .DX, .addq (.reg .AX) .R12, .adcq (.reg .DX) .R13, .adcq (.imm 0) .R8, .movq (.mem .CX 16) (.reg .R14), -- 918-923
   .movq (.mem .SI 0) (.reg .AX), .mulq (.reg .R14), .addq (.reg .AX) .R10, .adcq (.imm 0) .DX, .movq (.reg .DX) (.reg .R15), -- 925-929
   .movq (.mem .SI 8) (.reg .AX), .mulq (.reg .R14), .addq (.reg .R15) .R11, .adcq (.imm 0) .DX, .addq (.reg .AX) .R11, -- 931-935
   .adcq (.imm 0) .DX, .movq (.reg .DX) (.reg .R15), .movq (.mem .SI 16) (.reg .AX), .mulq (.reg .R14), .addq (.reg .R15) .R12, -- 936-941
   .adcq (.imm 0) .DX, .addq (.reg .AX) .R12, .adcq (.imm 0) .DX, .movq (.reg .DX) (.reg .R15), .movq (.mem .SI 24) (.reg .AX), -- 942-947
   .mulq (.reg .R14), .addq (.reg .R15) .R13, .adcq (.imm 0) .DX, .addq (.reg .AX) .R13, .adcq (.reg .DX) .R8, -- 948-952
   .adcq (.imm 0) .R9, .movq (.reg .R10) (.reg .AX), .mulq (.imm ordK0), .movq (.reg .AX) (.reg .R14), .movq (.imm ord0) (.reg .AX), -- 953-959
   .mulq (.reg .R14), .addq (.reg .AX) .R10, .adcq (.imm 0) .DX, .movq (.reg .DX) (.reg .R15), .movq (.imm ord1) (.reg .AX), -- 960-965
   .mulq (.reg .R14), .addq (.reg .R15) .R11, .adcq (.imm 0) .DX, .addq (.reg .AX) .R11, .adcq (.imm 0) .DX, -- 966-970
   .movq (.reg .DX) (.reg .R15), .movq (.imm ord2) (.reg .AX), .mulq (.reg .R14), .addq (.reg .R15) .R12, .adcq (.imm 0) .DX, -- 971-976
   .addq (.reg .AX) .R12, .adcq (.imm 0) .DX, .movq (.reg .DX) (.reg .R15), .movq (.imm ord3) (.reg .AX), .mulq (.reg .R14), -- 977-982
   .addq (.reg .R15) .R13, .adcq (.imm 0) .DX, .addq (.reg .AX) .R13, .adcq (.reg .DX) .R8, .adcq (.imm 0) .R9, -- 983-987
   .movq (.mem .CX 24) (.reg .R14), .movq (.mem .SI 0) (.reg .AX), .mulq (.reg .R14), .addq (.reg .AX) .R11, .adcq (.imm 0) .DX, -- 989-994
   .movq (.reg .DX) (.reg .R15), .movq (.mem .SI 8) (.reg .AX), .mulq (.reg .R14), .addq (.reg .R15) .R12, .adcq (.imm 0) .DX, -- 995-1000
   .addq (.reg .AX) .R12, .adcq (.imm 0) .DX, .movq (.reg .DX) (.reg .R15), .movq (.mem .SI 16) (.reg .AX), .mulq (.reg .R14), -- 1001-1006
   .addq (.reg .R15) .R13, .adcq (.imm 0) .DX, .addq (.reg .AX) .R13, .adcq (.imm 0) .DX, .movq (.reg .DX) (.reg .R15), -- 1007-1011
   .movq (.mem .SI 24) (.reg .AX), .mulq (.reg .R14), .addq (.reg .R15) .R8, .adcq (.imm 0) .DX, .addq (.reg .AX) .R8, -- 1013-1017
   .adcq (.reg .DX) .R9, .adcq (.imm 0) .R10, .movq (.reg .R11) (.reg .AX), .mulq (.imm ordK0), .movq (.reg .AX) (.reg .R14), -- 1018-1023
   .movq (.imm ord0) (.reg .AX), .mulq (.reg .R14), .addq (.reg .AX) .R11, .adcq (.imm 0) .DX, .movq (.reg .DX) (.reg .R15), -- 1025-1029
   .movq (.imm ord1) (.reg .AX), .mulq (.reg .R14), .addq (.reg .R15) .R12, .adcq (.imm 0) .DX, .addq (.reg .AX) .R12, -- 1031-1035
   .adcq (.imm 0) .DX, .movq (.reg .DX) (.reg .R15), .movq (.imm ord2) (.reg .AX), .mulq (.reg .R14), .addq (.reg .R15) .R13, -- 1036-1041
   .adcq (.imm 0) .DX, .addq (.reg .AX) .R13, .adcq (.imm 0) .DX, .movq (.reg .DX) (.reg .R15), .movq (.imm ord3) (.reg .AX), -- 1042-1047
   .mulq (.reg .R14), .addq (.reg .R15) .R8, .adcq (.imm 0) .DX, .addq (.reg .AX) .R8, .adcq (.reg .DX) .R9, -- 1048-1052
   .adcq (.imm 0) .R10, .movq (.reg .R12) (.reg .SI), .movq (.reg .R13) (.reg .R11), .movq (.reg .R8) (.reg .R14), .movq (.reg .R9) (.reg .R15), -- 1053-1058
   .subq (.imm ord0) .R12, .sbbq (.imm ord1) .R13, .sbbq (.imm ord2) .R8, .sbbq (.imm ord3) .R9, .sbbq (.imm 0) .R10, -- 1060-1064
   .cmovcs .SI .R12, .cmovcs .R11 .R13, .cmovcs .R14 .R8, .cmovcs .R15 .R9, .movq (.reg .R12) (.mem .DI 0), -- 1066-1071
   .movq (.reg .R13) (.mem .DI 8), .movq (.reg .R8) (.mem .DI 16), .movq (.reg .R9) (.mem .DI 24) -- 1072-1074
  ]

/-- sm2/sm2p256_amd64.s:1080-1330 `sm2p256OrdSqr`, before the loop -/
def sm2p256OrdSqrPre : List Instr :=
  [.movq (.arg 0) (.reg .DI), .movq (.arg 24) (.reg .SI), .movq (.arg 48) (.reg .BX) -- 1080-1082
  ]

/-- sm2/sm2p256_amd64.s:1080-1330 `sm2p256OrdSqr`, the loop body -/
def sm2p256OrdSqrBody : List Instr :=
  [.movq (.mem .SI 0) (.reg .R14), .movq (.mem .SI 8) (.reg .AX), .mulq (.reg .R14), .movq (.reg .AX) (.reg .R9), .movq (.reg .DX) (.reg .R10), -- 1087-1092
   .movq (.mem .SI 16) (.reg .AX), .mulq (.reg .R14), .addq (.reg .AX) .R10, .adcq (.imm 0) .DX, .movq (.reg .DX) (.reg .R11), -- 1094-1098
   .movq (.mem .SI 24) (.reg .AX), .mulq (.reg .R14), .addq (.reg .AX) .R11, .adcq (.imm 0) .DX, .movq (.reg .DX) (.reg .R12), -- 1100-1104
   .movq (.mem .SI 8) (.reg .R14), .movq (.mem .SI 16) (.reg .AX), .mulq (.reg .R14), .addq (.reg .AX) .R11, .adcq (.imm 0) .DX, -- 1106-1111
   .movq (.reg .DX) (.reg .R15), .movq (.mem .SI 24) (.reg .AX), .mulq (.reg .R14), .addq (.reg .R15) .R12, .adcq (.imm 0) .DX, -- 1112-1117
   .addq (.reg .AX) .R12, .adcq (.imm 0) .DX, .movq (.reg .DX) (.reg .R13), .movq (.mem .SI 16) (.reg .R14), .movq (.mem .SI 24) (.reg .AX), -- 1118-1124
   .mulq (.reg .R14), .addq (.reg .AX) .R13, .adcq (.imm 0) .DX, .movq (.reg .DX) (.reg .CX), .xorq (.reg .R15) .R15, -- 1125-1129
   .addq (.reg .R9) .R9, .adcq (.reg .R10) .R10, .adcq (.reg .R11) .R11, .adcq (.reg .R12) .R12, .adcq (.reg .R13) .R13, -- 1131-1135
   .adcq (.reg .CX) .CX, .adcq (.imm 0) .R15, .movq (.mem .SI 0) (.reg .AX), .mulq (.reg .AX), .movq (.reg .AX) (.reg .R8), -- 1136-1141
   .movq (.reg .DX) (.reg .R14), .movq (.mem .SI 8) (.reg .AX), .mulq (.reg .AX), .addq (.reg .R14) .R9, .adcq (.reg .AX) .R10, -- 1142-1147
   .adcq (.imm 0) .DX, .movq (.reg .DX) (.reg .R14), .movq (.mem .SI 16) (.reg .AX), .mulq (.reg .AX), .addq (.reg .R14) .R11, -- 1148-1153
   .adcq (.reg .AX) .R12, .adcq (.imm 0) .DX, .movq (.reg .DX) (.reg .R14), .movq (.mem .SI 24) (.reg .AX), .mulq (.reg .AX), -- 1154-1159
   .addq (.reg .R14) .R13, .adcq (.reg .AX) .CX, .adcq (.reg .DX) .R15, .movq (.reg .R15) (.reg .SI), .movq (.reg .R8) (.reg .AX), -- 1160-1165
   .mulq (.imm ordK0), .movq (.reg .AX) (.reg .R14), .movq (.imm ord0) (.reg .AX), .mulq (.reg .R14), .addq (.reg .AX) .R8, -- 1166-1171
   .adcq (.imm 0) .DX, .movq (.reg .DX) (.reg .R15), .movq (.imm ord1) (.reg .AX), .mulq (.reg .R14), .addq (.reg .R15) .R9, -- 1172-1177
   .adcq (.imm 0) .DX, .addq (.reg .AX) .R9, .movq (.reg .R14) (.reg .R15), .adcq (.reg .DX) .R10, .adcq (.imm 0) .R15, -- 1178-1183
   .subq (.reg .R14) .R10, .sbbq (.imm 0) .R15, .movq (.reg .R14) (.reg .AX), .movq (.reg .R14) (.reg .DX), .movq (.reg .R14) (.reg .R8), -- 1184-1189
   .shlq 32 .AX, .shrq 32 .DX, .subq (.reg .AX) .R11, .sbbq (.reg .DX) .R8, .movq (.reg .R9) (.reg .AX), -- 1190-1198
   .mulq (.imm ordK0), .movq (.reg .AX) (.reg .R14), .movq (.imm ord0) (.reg .AX), .mulq (.reg .R14), .addq (.reg .AX) .R9, -- 1199-1204
   .adcq (.imm 0) .DX, .movq (.reg .DX) (.reg .R15), .movq (.imm ord1) (.reg .AX), .mulq (.reg .R14), .addq (.reg .R15) .R10, -- 1205-1210
   .adcq (.imm 0) .DX, .addq (.reg .AX) .R10, .movq (.reg .R14) (.reg .R15), .adcq (.reg .DX) .R11, .adcq (.imm 0) .R15, -- 1211-1216
   .subq (.reg .R14) .R11, .sbbq (.imm 0) .R15, .movq (.reg .R14) (.reg .AX), .movq (.reg .R14) (.reg .DX), .movq (.reg .R14) (.reg .R9), -- 1217-1222
   .shlq 32 .AX, .shrq 32 .DX, .subq (.reg .AX) .R8, .sbbq (.reg .DX) .R9, .movq (.reg .R10) (.reg .AX), -- 1223-1231
   .mulq (.imm ordK0), .movq (.reg .AX) (.reg .R14), .movq (.imm ord0) (.reg .AX), .mulq (.reg .R14), .addq (.reg .AX) .R10, -- 1232-1237
   .adcq (.imm 0) .DX, .movq (.reg .DX) (.reg .R15), .movq (.imm ord1) (.reg .AX), .mulq (.reg .R14), .addq (.reg .R15) .R11, -- 1238-1243
   .adcq (.imm 0) .DX, .addq (.reg .AX) .R11, .movq (.reg .R14) (.reg .R15), .adcq (.reg .DX) .R8, .adcq (.imm 0) .R15, -- 1244-1249
   .subq (.reg .R14) .R8, .sbbq (.imm 0) .R15, .movq (.reg .R14) (.reg .AX), .movq (.reg .R14) (.reg .DX), .movq (.reg .R14) (.reg .R10), -- 1250-1255
   .shlq 32 .AX, .shrq 32 .DX, .subq (.reg .AX) .R9, .sbbq (.reg .DX) .R10, .movq (.reg .R11) (.reg .AX), -- 1256-1264
   .mulq (.imm ordK0), .movq (.reg .AX) (.reg .R14), .movq (.imm ord0) (.reg .AX), .mulq (.reg .R14), .addq (.reg .AX) .R11, -- 1265-1270
   .adcq (.imm 0) .DX, .movq (.reg .DX) (.reg .R15), .movq (.imm ord1) (.reg .AX), .mulq (.reg .R14), .addq (.reg .R15) .R8, -- 1271-1276
   .adcq (.imm 0) .DX, .addq (.reg .AX) .R8, .adcq (.imm 0) .DX, .movq (.reg .DX) (.reg .R15), .movq (.reg .R14) (.reg .R15), -- 1277-1282
   .adcq (.reg .DX) .R9, .adcq (.imm 0) .R15, .subq (.reg .R14) .R9, .sbbq (.imm 0) .R15, .movq (.reg .R14) (.reg .AX), -- 1283-1288
   .movq (.reg .R14) (.reg .DX), .movq (.reg .R14) (.reg .R11), .shlq 32 .AX, .shrq 32 .DX, .subq (.reg .AX) .R10, -- 1289-1296
   .sbbq (.reg .DX) .R11, .xorq (.reg .R14) .R14, .adcq (.reg .R12) .R8, .adcq (.reg .R13) .R9, .adcq (.reg .CX) .R10, -- 1297-1302
   .adcq (.reg .SI) .R11, .adcq (.imm 0) .R14, .movq (.reg .R8) (.reg .R12), .movq (.reg .R9) (.reg .R13), .movq (.reg .R10) (.reg .CX), -- 1303-1308
   .movq (.reg .R11) (.reg .R15), .subq (.imm ord0) .R8, .sbbq (.imm ord1) .R9, .sbbq (.imm ord2) .R10, .sbbq (.imm ord3) .R11, -- 1309-1314
   .sbbq (.imm 0) .R14, .cmovcs .R12 .R8, .cmovcs .R13 .R9, .cmovcs .CX .R10, .cmovcs .R15 .R11, -- 1315-1320
   .movq (.reg .R8) (.mem .DI 0), .movq (.reg .R9) (.mem .DI 8), .movq (.reg .R10) (.mem .DI 16), .movq (.reg .R11) (.mem .DI 24), .movq (.reg .DI) (.reg .SI), -- 1322-1326
   .decq .BX -- 1327
  ]

/-- sm2/sm2p256_amd64.s:1080-1330 `sm2p256OrdSqr`, after the loop -/
def sm2p256OrdSqrPost : List Instr :=
  []

/-- sm2/sm2p256_amd64.s:1362-1385 `p256GmSubInternal` -/
def p256GmSubInternal : List Instr :=
  [.xorq (.reg .AX) .AX, .subq (.reg .R14) .R10, .sbbq (.reg .R15) .R11, .sbbq (.reg .DI) .R12, .sbbq (.reg .SI) .R13, -- 1362-1366
   .sbbq (.imm 0) .AX, .movq (.reg .R10) (.reg .BX), .movq (.reg .R11) (.reg .CX), .movq (.reg .R12) (.reg .R8), .movq (.reg .R13) (.reg .R9), -- 1367-1372
   .addq (.imm 18446744073709551615) .R10, .adcq (.imm const2) .R11, .adcq (.imm 18446744073709551615) .R12, .adcq (.imm const3) .R13, .andq (.imm 1) .AX, -- 1374-1378
   .cmoveq .BX .R10, .cmoveq .CX .R11, .cmoveq .R8 .R12, .cmoveq .R9 .R13 -- 1380-1383
  ]

/-- sm2/sm2p256_amd64.s:1388-1637 `p256GmMulInternal` -/
def p256GmMulInternal : List Instr :=
  [.movq (.reg .R10) (.reg .AX), .mulq (.reg .R14), .movq (.reg .AX) (.reg .BX), .movq (.reg .DX) (.reg .CX), .movq (.reg .R10) (.reg .AX), -- 1388-1393
   .mulq (.reg .R15), .addq (.reg .AX) .CX, .adcq (.imm 0) .DX, .movq (.reg .DX) (.reg .R8), .movq (.reg .R10) (.reg .AX), -- 1394-1399
   .mulq (.reg .DI), .addq (.reg .AX) .R8, .adcq (.imm 0) .DX, .movq (.reg .DX) (.reg .R9), .movq (.reg .R10) (.reg .AX), -- 1400-1405
   .mulq (.reg .SI), .addq (.reg .AX) .R9, .adcq (.imm 0) .DX, .movq (.reg .DX) (.reg .R10), .movq (.reg .R11) (.reg .AX), -- 1406-1411
   .mulq (.reg .R14), .addq (.reg .AX) .CX, .adcq (.imm 0) .DX, .movq (.reg .DX) (.reg .BP), .movq (.reg .R11) (.reg .AX), -- 1412-1417
   .mulq (.reg .R15), .addq (.reg .BP) .R8, .adcq (.imm 0) .DX, .addq (.reg .AX) .R8, .adcq (.imm 0) .DX, -- 1418-1422
   .movq (.reg .DX) (.reg .BP), .movq (.reg .R11) (.reg .AX), .mulq (.reg .DI), .addq (.reg .BP) .R9, .adcq (.imm 0) .DX, -- 1423-1428
   .addq (.reg .AX) .R9, .adcq (.imm 0) .DX, .movq (.reg .DX) (.reg .BP), .movq (.reg .R11) (.reg .AX), .mulq (.reg .SI), -- 1429-1434
   .addq (.reg .BP) .R10, .adcq (.imm 0) .DX, .addq (.reg .AX) .R10, .adcq (.imm 0) .DX, .movq (.reg .DX) (.reg .R11), -- 1435-1439
   .movq (.reg .R12) (.reg .AX), .mulq (.reg .R14), .addq (.reg .AX) .R8, .adcq (.imm 0) .DX, .movq (.reg .DX) (.reg .BP), -- 1441-1445
   .movq (.reg .R12) (.reg .AX), .mulq (.reg .R15), .addq (.reg .BP) .R9, .adcq (.imm 0) .DX, .addq (.reg .AX) .R9, -- 1447-1451
   .adcq (.imm 0) .DX, .movq (.reg .DX) (.reg .BP), .movq (.reg .R12) (.reg .AX), .mulq (.reg .DI), .addq (.reg .BP) .R10, -- 1452-1457
   .adcq (.imm 0) .DX, .addq (.reg .AX) .R10, .adcq (.imm 0) .DX, .movq (.reg .DX) (.reg .BP), .movq (.reg .R12) (.reg .AX), -- 1458-1463
   .mulq (.reg .SI), .addq (.reg .BP) .R11, .adcq (.imm 0) .DX, .addq (.reg .AX) .R11, .adcq (.imm 0) .DX, -- 1464-1468
   .movq (.reg .DX) (.reg .R12), .movq (.reg .R13) (.reg .AX), .mulq (.reg .R14), .addq (.reg .AX) .R9, .adcq (.imm 0) .DX, -- 1469-1474
   .movq (.reg .DX) (.reg .BP), .movq (.reg .R13) (.reg .AX), .mulq (.reg .R15), .addq (.reg .BP) .R10, .adcq (.imm 0) .DX, -- 1475-1480
   .addq (.reg .AX) .R10, .adcq (.imm 0) .DX, .movq (.reg .DX) (.reg .BP), .movq (.reg .R13) (.reg .AX), .mulq (.reg .DI), -- 1481-1486
   .addq (.reg .BP) .R11, .adcq (.imm 0) .DX, .addq (.reg .AX) .R11, .adcq (.imm 0) .DX, .movq (.reg .DX) (.reg .BP), -- 1487-1491
   .movq (.reg .R13) (.reg .AX), .mulq (.reg .SI), .addq (.reg .BP) .R12, .adcq (.imm 0) .DX, .addq (.reg .AX) .R12, -- 1493-1497
   .adcq (.imm 0) .DX, .movq (.reg .DX) (.reg .R13), .movq (.reg .BX) (.reg .AX), .movq (.reg .BX) (.reg .BP), .shlq 32 .BX, -- 1498-1515
   .shrq 32 .BP, .addq (.reg .AX) .CX, .adcq (.imm 0) .R8, .subq (.reg .BX) .CX, .sbbq (.reg .BP) .R8, -- 1516-1520
   .sbbq (.imm 0) .R9, .mulq (.imm const2), .addq (.reg .AX) .R9, .adcq (.imm 0) .DX, .movq (.reg .DX) (.reg .BX), -- 1521-1525
   .movq (.reg .CX) (.reg .AX), .movq (.reg .CX) (.reg .BP), .shlq 32 .CX, .shrq 32 .BP, .addq (.reg .AX) .R8, -- 1539-1544
   .adcq (.imm 0) .R9, .subq (.reg .CX) .R8, .sbbq (.reg .BP) .R9, .sbbq (.imm 0) .BX, .mulq (.imm const2), -- 1545-1549
   .addq (.reg .AX) .BX, .adcq (.imm 0) .DX, .movq (.reg .DX) (.reg .CX), .movq (.reg .R8) (.reg .AX), .movq (.reg .R8) (.reg .BP), -- 1550-1566
   .shlq 32 .R8, .shrq 32 .BP, .addq (.reg .AX) .R9, .adcq (.imm 0) .BX, .subq (.reg .R8) .R9, -- 1568-1572
   .sbbq (.reg .BP) .BX, .sbbq (.imm 0) .CX, .mulq (.imm const2), .addq (.reg .AX) .CX, .adcq (.imm 0) .DX, -- 1573-1577
   .movq (.reg .DX) (.reg .R8), .movq (.reg .R9) (.reg .AX), .movq (.reg .R9) (.reg .BP), .shlq 32 .R9, .shrq 32 .BP, -- 1578-1595
   .addq (.reg .AX) .BX, .adcq (.imm 0) .CX, .subq (.reg .R9) .BX, .sbbq (.reg .BP) .CX, .sbbq (.imm 0) .R8, -- 1596-1600
   .mulq (.imm const2), .addq (.reg .AX) .R8, .adcq (.imm 0) .DX, .movq (.reg .DX) (.reg .R9), .movq (.imm 0) (.reg .BP), -- 1601-1606
   .adcq (.reg .BX) .R10, .adcq (.reg .CX) .R11, .adcq (.reg .R8) .R12, .adcq (.reg .R9) .R13, .adcq (.imm 0) .BP, -- 1609-1613
   .movq (.reg .R10) (.reg .BX), .movq (.reg .R11) (.reg .CX), .movq (.reg .R12) (.reg .R8), .movq (.reg .R13) (.reg .R9), .subq (.imm 18446744073709551615) .R10, -- 1615-1626
   .sbbq (.imm const2) .R11, .sbbq (.imm 18446744073709551615) .R12, .sbbq (.imm const3) .R13, .sbbq (.imm 0) .BP, .cmovcs .BX .R10, -- 1627-1632
   .cmovcs .CX .R11, .cmovcs .R8 .R12, .cmovcs .R9 .R13 -- 1633-1635
  ]

/-- sm2/sm2p256_amd64.s:1641-1846 `p256GmSqrInternal` -/
def p256GmSqrInternal : List Instr :=
  [.movq (.reg .R10) (.reg .AX), .mulq (.reg .R11), .movq (.reg .AX) (.reg .CX), .movq (.reg .DX) (.reg .R8), .movq (.reg .R10) (.reg .AX), -- 1641-1646
   .mulq (.reg .R12), .addq (.reg .AX) .R8, .adcq (.imm 0) .DX, .movq (.reg .DX) (.reg .R9), .movq (.reg .R10) (.reg .AX), -- 1647-1652
   .mulq (.reg .R13), .addq (.reg .AX) .R9, .adcq (.imm 0) .DX, .movq (.reg .DX) (.reg .R14), .movq (.reg .R11) (.reg .AX), -- 1653-1658
   .mulq (.reg .R12), .addq (.reg .AX) .R9, .adcq (.imm 0) .DX, .movq (.reg .DX) (.reg .BP), .movq (.reg .R11) (.reg .AX), -- 1659-1664
   .mulq (.reg .R13), .addq (.reg .BP) .R14, .adcq (.imm 0) .DX, .addq (.reg .AX) .R14, .adcq (.imm 0) .DX, -- 1665-1669
   .movq (.reg .DX) (.reg .R15), .movq (.reg .R12) (.reg .AX), .mulq (.reg .R13), .addq (.reg .AX) .R15, .adcq (.imm 0) .DX, -- 1670-1675
   .movq (.reg .DX) (.reg .DI), .xorq (.reg .SI) .SI, .addq (.reg .CX) .CX, .adcq (.reg .R8) .R8, .adcq (.reg .R9) .R9, -- 1676-1681
   .adcq (.reg .R14) .R14, .adcq (.reg .R15) .R15, .adcq (.reg .DI) .DI, .adcq (.imm 0) .SI, .movq (.reg .R10) (.reg .AX), -- 1682-1687
   .mulq (.reg .AX), .movq (.reg .AX) (.reg .BX), .movq (.reg .DX) (.reg .R10), .movq (.reg .R11) (.reg .AX), .mulq (.reg .AX), -- 1688-1693
   .addq (.reg .R10) .CX, .adcq (.reg .AX) .R8, .adcq (.imm 0) .DX, .movq (.reg .DX) (.reg .R10), .movq (.reg .R12) (.reg .AX), -- 1694-1699
   .mulq (.reg .AX), .addq (.reg .R10) .R9, .adcq (.reg .AX) .R14, .adcq (.imm 0) .DX, .movq (.reg .DX) (.reg .R10), -- 1700-1704
   .movq (.reg .R13) (.reg .AX), .mulq (.reg .AX), .addq (.reg .R10) .R15, .adcq (.reg .AX) .DI, .adcq (.reg .DX) .SI, -- 1706-1710
   .movq (.reg .BX) (.reg .AX), .movq (.reg .BX) (.reg .BP), .shlq 32 .BX, .shrq 32 .BP, .addq (.reg .AX) .CX, -- 1723-1728
   .adcq (.imm 0) .R8, .subq (.reg .BX) .CX, .sbbq (.reg .BP) .R8, .sbbq (.imm 0) .R9, .mulq (.imm const2), -- 1729-1733
   .addq (.reg .AX) .R9, .adcq (.imm 0) .DX, .movq (.reg .DX) (.reg .BX), .movq (.reg .CX) (.reg .AX), .movq (.reg .CX) (.reg .BP), -- 1734-1751
   .shlq 32 .CX, .shrq 32 .BP, .addq (.reg .AX) .R8, .adcq (.imm 0) .R9, .subq (.reg .CX) .R8, -- 1753-1757
   .sbbq (.reg .BP) .R9, .sbbq (.imm 0) .BX, .mulq (.imm const2), .addq (.reg .AX) .BX, .adcq (.imm 0) .DX, -- 1758-1763
   .movq (.reg .DX) (.reg .CX), .movq (.reg .R8) (.reg .AX), .movq (.reg .R8) (.reg .BP), .shlq 32 .R8, .shrq 32 .BP, -- 1764-1782
   .addq (.reg .AX) .R9, .adcq (.imm 0) .BX, .subq (.reg .R8) .R9, .sbbq (.reg .BP) .BX, .sbbq (.imm 0) .CX, -- 1783-1787
   .mulq (.imm const2), .addq (.reg .AX) .CX, .adcq (.imm 0) .DX, .movq (.reg .DX) (.reg .R8), .movq (.reg .R9) (.reg .AX), -- 1788-1805
   .movq (.reg .R9) (.reg .BP), .shlq 32 .R9, .shrq 32 .BP, .addq (.reg .AX) .BX, .adcq (.imm 0) .CX, -- 1806-1811
   .subq (.reg .R9) .BX, .sbbq (.reg .BP) .CX, .sbbq (.imm 0) .R8, .mulq (.imm const2), .addq (.reg .AX) .R8, -- 1812-1817
   .adcq (.imm 0) .DX, .movq (.reg .DX) (.reg .R9), .movq (.imm 0) (.reg .BP), .adcq (.reg .BX) .R14, .adcq (.reg .CX) .R15, -- 1818-1825
   .adcq (.reg .R8) .DI, .adcq (.reg .R9) .SI, .adcq (.imm 0) .BP, .movq (.reg .R14) (.reg .R10), .movq (.reg .R15) (.reg .R11), -- 1826-1831
   .movq (.reg .DI) (.reg .R12), .movq (.reg .SI) (.reg .R13), .subq (.imm 18446744073709551615) .R10, .sbbq (.imm const2) .R11, .sbbq (.imm 18446744073709551615) .R12, -- 1832-1837
   .sbbq (.imm const3) .R13, .sbbq (.imm 0) .BP, .cmovcs .R14 .R10, .cmovcs .R15 .R11, .cmovcs .DI .R12, -- 1838-1843
   .cmovcs .SI .R13 -- 1844
  ]

/-- sm2/sm2p256_amd64.s:2177-2200 `sm2p256IsZero` -/
def sm2p256IsZero : List Instr :=
  [.xorq (.reg .AX) .AX, .movq (.imm 1) (.reg .R15), .movq (.reg .R10) (.reg .R14), .orq (.reg .R11) .R14, .orq (.reg .R12) .R14, -- 2177-2183
   .orq (.reg .R13) .R14, .cmoveq .R15 .AX, .xorq (.imm 18446744073709551615) .R10, .xorq (.imm const2) .R11, .xorq (.imm const3) .R13, -- 2184-2193
   .orq (.reg .R11) .R10, .orq (.reg .R12) .R10, .orq (.reg .R13) .R10, .cmoveq .R15 .AX -- 2194-2199
  ]

/-- sm2/sm2p256_amd64.s:1919-2153 `sm2p256PointAddAffineAsm` -/
def sm2p256PointAddAffineAsm : List Instr :=
  [.movq (.arg 0) (.reg .AX), .movq (.arg 24) (.reg .BX), .movq (.arg 48) (.reg .CX), .movq (.arg 72) (.reg .DX), .movq (.arg 80) (.reg .R15), -- 1919-1923
   .movq (.arg 88) (.reg .DI), .movou (.mem .BX 0) (.reg .X0), .movou (.mem .BX 16) (.reg .X1), .movou (.mem .BX 32) (.reg .X2), .movou (.mem .BX 48) (.reg .X3), -- 1924-1929
   .movou (.mem .BX 64) (.reg .X4), .movou (.mem .BX 80) (.reg .X5), .movou (.reg .X0) (.stk 0), .movou (.reg .X1) (.stk 16), .movou (.reg .X2) (.stk 32), -- 1930-1935
   .movou (.reg .X3) (.stk 48), .movou (.reg .X4) (.stk 64), .movou (.reg .X5) (.stk 80), .movou (.mem .CX 0) (.reg .X0), .movou (.mem .CX 16) (.reg .X1), -- 1936-1941
   .movou (.reg .X0) (.stk 96), .movou (.reg .X1) (.stk 112), .movq (.reg .AX) (.stk 480), .movlst .R15 488, .movlst .DI 492, -- 1943-1948
   .movq (.mem .CX 32) (.reg .R10), .movq (.mem .CX 40) (.reg .R11), .movq (.mem .CX 48) (.reg .R12), .movq (.mem .CX 56) (.reg .R13), .movq (.imm 18446744073709551615) (.reg .BX), -- 1950-1954
   .movq (.imm const2) (.reg .CX), .movq (.imm 18446744073709551615) (.reg .R8), .movq (.imm const3) (.reg .R9), .xorq (.reg .AX) .AX, .subq (.reg .R10) .BX, -- 1955-1960
   .sbbq (.reg .R11) .CX, .sbbq (.reg .R12) .R8, .sbbq (.reg .R13) .R9, .sbbq (.imm 0) .AX, .movq (.reg .BX) (.reg .R14), -- 1961-1965
   .movq (.reg .CX) (.reg .R15), .movq (.reg .R8) (.reg .DI), .movq (.reg .R9) (.reg .SI), .addq (.imm 18446744073709551615) .BX, .adcq (.imm const2) .CX, -- 1966-1971
   .adcq (.imm 18446744073709551615) .R8, .adcq (.imm const3) .R9, .adcq (.imm 0) .AX, .cmovne .R14 .BX, .cmovne .R15 .CX, -- 1972-1976
   .cmovne .DI .R8, .cmovne .SI .R9, .testq (.reg .DX) .DX, .cmoveq .R10 .BX, .cmoveq .R11 .CX, -- 1977-1982
   .cmoveq .R12 .R8, .cmoveq .R13 .R9, .movq (.reg .BX) (.stk 128), .movq (.reg .CX) (.stk 136), .movq (.reg .R8) (.stk 144), -- 1983-1988
   .movq (.reg .R9) (.stk 152), .movq (.stk 64) (.reg .R10), .movq (.stk 72) (.reg .R11), .movq (.stk 80) (.reg .R12), .movq (.stk 88) (.reg .R13) -- 1989-1991
  ] ++
  p256GmSqrInternal ++
  [.movq (.reg .R10) (.stk 288), .movq (.reg .R11) (.stk 296), .movq (.reg .R12) (.stk 304), .movq (.reg .R13) (.stk 312), .movq (.stk 96) (.reg .R14), -- 1993-1995
   .movq (.stk 104) (.reg .R15), .movq (.stk 112) (.reg .DI), .movq (.stk 120) (.reg .SI) -- 1995
  ] ++
  p256GmMulInternal ++
  [.movq (.stk 0) (.reg .R14), .movq (.stk 8) (.reg .R15), .movq (.stk 16) (.reg .DI), .movq (.stk 24) (.reg .SI) -- 1998
  ] ++
  p256GmSubInternal ++
  [.movq (.reg .R10) (.stk 320), .movq (.reg .R11) (.stk 328), .movq (.reg .R12) (.stk 336), .movq (.reg .R13) (.stk 344), .movq (.stk 64) (.reg .R14), -- 2000-2002
   .movq (.stk 72) (.reg .R15), .movq (.stk 80) (.reg .DI), .movq (.stk 88) (.reg .SI) -- 2002
  ] ++
  p256GmMulInternal ++
  [.movq (.reg .R10) (.stk 224), .movq (.reg .R11) (.stk 232), .movq (.reg .R12) (.stk 240), .movq (.reg .R13) (.stk 248), .movq (.stk 288) (.reg .R10), -- 2004-2006
   .movq (.stk 296) (.reg .R11), .movq (.stk 304) (.reg .R12), .movq (.stk 312) (.reg .R13) -- 2006
  ] ++
  p256GmMulInternal ++
  [.movq (.stk 128) (.reg .R14), .movq (.stk 136) (.reg .R15), .movq (.stk 144) (.reg .DI), .movq (.stk 152) (.reg .SI) -- 2009
  ] ++
  p256GmMulInternal ++
  [.movq (.reg .R10) (.stk 256), .movq (.reg .R11) (.stk 264), .movq (.reg .R12) (.stk 272), .movq (.reg .R13) (.stk 280), .movq (.stk 32) (.reg .R14), -- 2011-2013
   .movq (.stk 40) (.reg .R15), .movq (.stk 48) (.reg .DI), .movq (.stk 56) (.reg .SI) -- 2013
  ] ++
  p256GmSubInternal ++
  [.movq (.reg .R10) (.stk 352), .movq (.reg .R11) (.stk 360), .movq (.reg .R12) (.stk 368), .movq (.reg .R13) (.stk 376) -- 2015
  ] ++
  p256GmSqrInternal ++
  [.movq (.reg .R10) (.stk 416), .movq (.reg .R11) (.stk 424), .movq (.reg .R12) (.stk 432), .movq (.reg .R13) (.stk 440), .movq (.stk 320) (.reg .R10), -- 2018-2020
   .movq (.stk 328) (.reg .R11), .movq (.stk 336) (.reg .R12), .movq (.stk 344) (.reg .R13) -- 2020
  ] ++
  p256GmSqrInternal ++
  [.movq (.reg .R10) (.stk 384), .movq (.reg .R11) (.stk 392), .movq (.reg .R12) (.stk 400), .movq (.reg .R13) (.stk 408), .movq (.stk 320) (.reg .R14), -- 2022-2024
   .movq (.stk 328) (.reg .R15), .movq (.stk 336) (.reg .DI), .movq (.stk 344) (.reg .SI) -- 2024
  ] ++
  p256GmMulInternal ++
  [.movq (.reg .R10) (.stk 448), .movq (.reg .R11) (.stk 456), .movq (.reg .R12) (.stk 464), .movq (.reg .R13) (.stk 472), .movq (.stk 32) (.reg .R14), -- 2026-2028
   .movq (.stk 40) (.reg .R15), .movq (.stk 48) (.reg .DI), .movq (.stk 56) (.reg .SI) -- 2028
  ] ++
  p256GmMulInternal ++
  [.movq (.reg .R10) (.stk 256), .movq (.reg .R11) (.stk 264), .movq (.reg .R12) (.stk 272), .movq (.reg .R13) (.stk 280), .movq (.stk 0) (.reg .R10), -- 2030-2032
   .movq (.stk 8) (.reg .R11), .movq (.stk 16) (.reg .R12), .movq (.stk 24) (.reg .R13), .movq (.stk 384) (.reg .R14), .movq (.stk 392) (.reg .R15), -- 2032-2033
   .movq (.stk 400) (.reg .DI), .movq (.stk 408) (.reg .SI) -- 2033
  ] ++
  p256GmMulInternal ++
  [.movq (.reg .R10) (.stk 320), .movq (.reg .R11) (.stk 328), .movq (.reg .R12) (.stk 336), .movq (.reg .R13) (.stk 344), .xorq (.reg .AX) .AX, -- 2035-2037
   .addq (.reg .R10) .R10, .adcq (.reg .R11) .R11, .adcq (.reg .R12) .R12, .adcq (.reg .R13) .R13, .adcq (.imm 0) .AX, -- 2037
   .movq (.reg .R10) (.reg .R14), .movq (.reg .R11) (.reg .R15), .movq (.reg .R12) (.reg .DI), .movq (.reg .R13) (.reg .SI), .subq (.imm 18446744073709551615) .R14, -- 2037
   .sbbq (.imm const2) .R15, .sbbq (.imm 18446744073709551615) .DI, .sbbq (.imm const3) .SI, .sbbq (.imm 0) .AX, .cmovcs .R10 .R14, -- 2037
   .cmovcs .R11 .R15, .cmovcs .R12 .DI, .cmovcs .R13 .SI, .movq (.stk 416) (.reg .R10), .movq (.stk 424) (.reg .R11), -- 2037-2038
   .movq (.stk 432) (.reg .R12), .movq (.stk 440) (.reg .R13) -- 2038
  ] ++
  p256GmSubInternal ++
  [.movq (.stk 448) (.reg .R14), .movq (.stk 456) (.reg .R15), .movq (.stk 464) (.reg .DI), .movq (.stk 472) (.reg .SI) -- 2041
  ] ++
  p256GmSubInternal ++
  [.movq (.reg .R10) (.stk 160), .movq (.reg .R11) (.stk 168), .movq (.reg .R12) (.stk 176), .movq (.reg .R13) (.stk 184), .movq (.reg .R10) (.reg .R14), -- 2043-2045
   .movq (.reg .R11) (.reg .R15), .movq (.reg .R12) (.reg .DI), .movq (.reg .R13) (.reg .SI), .movq (.stk 320) (.reg .R10), .movq (.stk 328) (.reg .R11), -- 2046-2049
   .movq (.stk 336) (.reg .R12), .movq (.stk 344) (.reg .R13) -- 2049
  ] ++
  p256GmSubInternal ++
  [.movq (.stk 352) (.reg .R14), .movq (.stk 360) (.reg .R15), .movq (.stk 368) (.reg .DI), .movq (.stk 376) (.reg .SI) -- 2052
  ] ++
  p256GmMulInternal ++
  [.movq (.stk 256) (.reg .R14), .movq (.stk 264) (.reg .R15), .movq (.stk 272) (.reg .DI), .movq (.stk 280) (.reg .SI) -- 2055
  ] ++
  p256GmSubInternal ++
  [.movq (.reg .R10) (.stk 192), .movq (.reg .R11) (.stk 200), .movq (.reg .R12) (.stk 208), .movq (.reg .R13) (.stk 216), .movq (.stk 480) (.reg .AX), -- 2057-2059
   .movlld 488 .BX, .movlld 492 .CX, .movou (.stk 160) (.reg .X0), .movou (.stk 176) (.reg .X1), .movou (.stk 192) (.reg .X2), -- 2060-2065
   .movou (.stk 208) (.reg .X3), .movou (.stk 224) (.reg .X4), .movou (.stk 240) (.reg .X5), .movlx .BX .X6, .movlx .CX .X7, -- 2066-2071
   .pxor .X8 .X8, .pcmpeql .X9 .X9, .pshufd0 .X6 .X6, .pshufd0 .X7 .X7, .pcmpeql .X8 .X6, -- 2073-2079
   .pcmpeql .X8 .X7, .movou (.reg .X6) (.reg .X15), .pandn (.reg .X9) .X15, .movou (.stk 0) (.reg .X9), .movou (.stk 16) (.reg .X10), -- 2080-2086
   .movou (.stk 32) (.reg .X11), .movou (.stk 48) (.reg .X12), .movou (.stk 64) (.reg .X13), .movou (.stk 80) (.reg .X14), .pand .X15 .X0, -- 2087-2092
   .pand .X15 .X1, .pand .X15 .X2, .pand .X15 .X3, .pand .X15 .X4, .pand .X15 .X5, -- 2093-2097
   .pand .X6 .X9, .pand .X6 .X10, .pand .X6 .X11, .pand .X6 .X12, .pand .X6 .X13, -- 2099-2103
   .pand .X6 .X14, .pxor .X9 .X0, .pxor .X10 .X1, .pxor .X11 .X2, .pxor .X12 .X3, -- 2104-2109
   .pxor .X13 .X4, .pxor .X14 .X5, .pcmpeql .X9 .X9, .movou (.reg .X7) (.reg .X15), .pandn (.reg .X9) .X15, -- 2110-2115
   .movou (.stk 96) (.reg .X9), .movou (.stk 112) (.reg .X10), .movou (.stk 128) (.reg .X11), .movou (.stk 144) (.reg .X12), .movou (.imm one0 one1) (.reg .X13), -- 2117-2121
   .movou (.imm one2 one3) (.reg .X14), .pand .X15 .X0, .pand .X15 .X1, .pand .X15 .X2, .pand .X15 .X3, -- 2122-2127
   .pand .X15 .X4, .pand .X15 .X5, .pand .X7 .X9, .pand .X7 .X10, .pand .X7 .X11, -- 2128-2133
   .pand .X7 .X12, .pand .X7 .X13, .pand .X7 .X14, .pxor .X9 .X0, .pxor .X10 .X1, -- 2134-2139
   .pxor .X11 .X2, .pxor .X12 .X3, .pxor .X13 .X4, .pxor .X14 .X5, .movou (.reg .X0) (.mem .AX 0), -- 2140-2145
   .movou (.reg .X1) (.mem .AX 16), .movou (.reg .X2) (.mem .AX 32), .movou (.reg .X3) (.mem .AX 48), .movou (.reg .X4) (.mem .AX 64), .movou (.reg .X5) (.mem .AX 80), -- 2146-2150
   .movq (.imm 0) (.stk 480) -- 2151
  ]

/-- sm2/sm2p256_amd64.s:2231-2374 `sm2p256PointAddAsm` -/
def sm2p256PointAddAsm : List Instr :=
  [.movq (.arg 0) (.reg .AX), .movq (.arg 24) (.reg .BX), .movq (.arg 48) (.reg .CX), .movou (.mem .BX 0) (.reg .X0), .movou (.mem .BX 16) (.reg .X1), -- 2231-2236
   .movou (.mem .BX 32) (.reg .X2), .movou (.mem .BX 48) (.reg .X3), .movou (.mem .BX 64) (.reg .X4), .movou (.mem .BX 80) (.reg .X5), .movou (.reg .X0) (.stk 0), -- 2237-2242
   .movou (.reg .X1) (.stk 16), .movou (.reg .X2) (.stk 32), .movou (.reg .X3) (.stk 48), .movou (.reg .X4) (.stk 64), .movou (.reg .X5) (.stk 80), -- 2243-2247
   .movou (.mem .CX 0) (.reg .X0), .movou (.mem .CX 16) (.reg .X1), .movou (.mem .CX 32) (.reg .X2), .movou (.mem .CX 48) (.reg .X3), .movou (.mem .CX 64) (.reg .X4), -- 2249-2253
   .movou (.mem .CX 80) (.reg .X5), .movou (.reg .X0) (.stk 96), .movou (.reg .X1) (.stk 112), .movou (.reg .X2) (.stk 128), .movou (.reg .X3) (.stk 144), -- 2254-2259
   .movou (.reg .X4) (.stk 160), .movou (.reg .X5) (.stk 176), .movq (.reg .AX) (.stk 640), .movq (.stk 160) (.reg .R10), .movq (.stk 168) (.reg .R11), -- 2260-2265
   .movq (.stk 176) (.reg .R12), .movq (.stk 184) (.reg .R13) -- 2265
  ] ++
  p256GmSqrInternal ++
  [.movq (.reg .R10) (.stk 448), .movq (.reg .R11) (.stk 456), .movq (.reg .R12) (.stk 464), .movq (.reg .R13) (.stk 472), .movq (.stk 160) (.reg .R14), -- 2267-2268
   .movq (.stk 168) (.reg .R15), .movq (.stk 176) (.reg .DI), .movq (.stk 184) (.reg .SI) -- 2268
  ] ++
  p256GmMulInternal ++
  [.movq (.stk 32) (.reg .R14), .movq (.stk 40) (.reg .R15), .movq (.stk 48) (.reg .DI), .movq (.stk 56) (.reg .SI) -- 2270
  ] ++
  p256GmMulInternal ++
  [.movq (.reg .R10) (.stk 352), .movq (.reg .R11) (.stk 360), .movq (.reg .R12) (.stk 368), .movq (.reg .R13) (.stk 376), .movq (.stk 64) (.reg .R10), -- 2272-2274
   .movq (.stk 72) (.reg .R11), .movq (.stk 80) (.reg .R12), .movq (.stk 88) (.reg .R13) -- 2274
  ] ++
  p256GmSqrInternal ++
  [.movq (.reg .R10) (.stk 416), .movq (.reg .R11) (.stk 424), .movq (.reg .R12) (.stk 432), .movq (.reg .R13) (.stk 440), .movq (.stk 64) (.reg .R14), -- 2276-2277
   .movq (.stk 72) (.reg .R15), .movq (.stk 80) (.reg .DI), .movq (.stk 88) (.reg .SI) -- 2277
  ] ++
  p256GmMulInternal ++
  [.movq (.stk 128) (.reg .R14), .movq (.stk 136) (.reg .R15), .movq (.stk 144) (.reg .DI), .movq (.stk 152) (.reg .SI) -- 2279
  ] ++
  p256GmMulInternal ++
  [.movq (.reg .R10) (.stk 384), .movq (.reg .R11) (.stk 392), .movq (.reg .R12) (.stk 400), .movq (.reg .R13) (.stk 408), .movq (.stk 352) (.reg .R14), -- 2281-2283
   .movq (.stk 360) (.reg .R15), .movq (.stk 368) (.reg .DI), .movq (.stk 376) (.reg .SI) -- 2283
  ] ++
  p256GmSubInternal ++
  [.movq (.reg .R10) (.stk 512), .movq (.reg .R11) (.stk 520), .movq (.reg .R12) (.stk 528), .movq (.reg .R13) (.stk 536) -- 2285
  ] ++
  sm2p256IsZero ++
  [.movq (.reg .AX) (.stk 648), .movq (.stk 448) (.reg .R10), .movq (.stk 456) (.reg .R11), .movq (.stk 464) (.reg .R12), .movq (.stk 472) (.reg .R13), -- 2287-2289
   .movq (.stk 0) (.reg .R14), .movq (.stk 8) (.reg .R15), .movq (.stk 16) (.reg .DI), .movq (.stk 24) (.reg .SI) -- 2290
  ] ++
  p256GmMulInternal ++
  [.movq (.reg .R10) (.stk 288), .movq (.reg .R11) (.stk 296), .movq (.reg .R12) (.stk 304), .movq (.reg .R13) (.stk 312), .movq (.stk 416) (.reg .R10), -- 2292-2293
   .movq (.stk 424) (.reg .R11), .movq (.stk 432) (.reg .R12), .movq (.stk 440) (.reg .R13), .movq (.stk 96) (.reg .R14), .movq (.stk 104) (.reg .R15), -- 2293-2294
   .movq (.stk 112) (.reg .DI), .movq (.stk 120) (.reg .SI) -- 2294
  ] ++
  p256GmMulInternal ++
  [.movq (.reg .R10) (.stk 320), .movq (.reg .R11) (.stk 328), .movq (.reg .R12) (.stk 336), .movq (.reg .R13) (.stk 344), .movq (.stk 288) (.reg .R14), -- 2296-2298
   .movq (.stk 296) (.reg .R15), .movq (.stk 304) (.reg .DI), .movq (.stk 312) (.reg .SI) -- 2298
  ] ++
  p256GmSubInternal ++
  [.movq (.reg .R10) (.stk 480), .movq (.reg .R11) (.stk 488), .movq (.reg .R12) (.stk 496), .movq (.reg .R13) (.stk 504) -- 2300
  ] ++
  sm2p256IsZero ++
  [.andq (.stk 648) .AX, .movq (.reg .AX) (.stk 648), .movq (.stk 512) (.reg .R10), .movq (.stk 520) (.reg .R11), .movq (.stk 528) (.reg .R12), -- 2302-2305
   .movq (.stk 536) (.reg .R13) -- 2305
  ] ++
  p256GmSqrInternal ++
  [.movq (.reg .R10) (.stk 576), .movq (.reg .R11) (.stk 584), .movq (.reg .R12) (.stk 592), .movq (.reg .R13) (.stk 600), .movq (.stk 480) (.reg .R10), -- 2307-2309
   .movq (.stk 488) (.reg .R11), .movq (.stk 496) (.reg .R12), .movq (.stk 504) (.reg .R13) -- 2309
  ] ++
  p256GmSqrInternal ++
  [.movq (.reg .R10) (.stk 544), .movq (.reg .R11) (.stk 552), .movq (.reg .R12) (.stk 560), .movq (.reg .R13) (.stk 568), .movq (.stk 480) (.reg .R14), -- 2311-2313
   .movq (.stk 488) (.reg .R15), .movq (.stk 496) (.reg .DI), .movq (.stk 504) (.reg .SI) -- 2313
  ] ++
  p256GmMulInternal ++
  [.movq (.reg .R10) (.stk 608), .movq (.reg .R11) (.stk 616), .movq (.reg .R12) (.stk 624), .movq (.reg .R13) (.stk 632), .movq (.stk 352) (.reg .R14), -- 2315-2317
   .movq (.stk 360) (.reg .R15), .movq (.stk 368) (.reg .DI), .movq (.stk 376) (.reg .SI) -- 2317
  ] ++
  p256GmMulInternal ++
  [.movq (.reg .R10) (.stk 384), .movq (.reg .R11) (.stk 392), .movq (.reg .R12) (.stk 400), .movq (.reg .R13) (.stk 408), .movq (.stk 64) (.reg .R10), -- 2319-2321
   .movq (.stk 72) (.reg .R11), .movq (.stk 80) (.reg .R12), .movq (.stk 88) (.reg .R13), .movq (.stk 160) (.reg .R14), .movq (.stk 168) (.reg .R15), -- 2321-2322
   .movq (.stk 176) (.reg .DI), .movq (.stk 184) (.reg .SI) -- 2322
  ] ++
  p256GmMulInternal ++
  [.movq (.stk 480) (.reg .R14), .movq (.stk 488) (.reg .R15), .movq (.stk 496) (.reg .DI), .movq (.stk 504) (.reg .SI) -- 2324
  ] ++
  p256GmMulInternal ++
  [.movq (.reg .R10) (.stk 256), .movq (.reg .R11) (.stk 264), .movq (.reg .R12) (.stk 272), .movq (.reg .R13) (.stk 280), .movq (.stk 544) (.reg .R10), -- 2326-2328
   .movq (.stk 552) (.reg .R11), .movq (.stk 560) (.reg .R12), .movq (.stk 568) (.reg .R13), .movq (.stk 288) (.reg .R14), .movq (.stk 296) (.reg .R15), -- 2328-2329
   .movq (.stk 304) (.reg .DI), .movq (.stk 312) (.reg .SI) -- 2329
  ] ++
  p256GmMulInternal ++
  [.movq (.reg .R10) (.stk 320), .movq (.reg .R11) (.stk 328), .movq (.reg .R12) (.stk 336), .movq (.reg .R13) (.stk 344), .xorq (.reg .AX) .AX, -- 2331-2333
   .addq (.reg .R10) .R10, .adcq (.reg .R11) .R11, .adcq (.reg .R12) .R12, .adcq (.reg .R13) .R13, .adcq (.imm 0) .AX, -- 2333
   .movq (.reg .R10) (.reg .R14), .movq (.reg .R11) (.reg .R15), .movq (.reg .R12) (.reg .DI), .movq (.reg .R13) (.reg .SI), .subq (.imm 18446744073709551615) .R14, -- 2333
   .sbbq (.imm const2) .R15, .sbbq (.imm 18446744073709551615) .DI, .sbbq (.imm const3) .SI, .sbbq (.imm 0) .AX, .cmovcs .R10 .R14, -- 2333
   .cmovcs .R11 .R15, .cmovcs .R12 .DI, .cmovcs .R13 .SI, .movq (.stk 576) (.reg .R10), .movq (.stk 584) (.reg .R11), -- 2333-2334
   .movq (.stk 592) (.reg .R12), .movq (.stk 600) (.reg .R13) -- 2334
  ] ++
  p256GmSubInternal ++
  [.movq (.stk 608) (.reg .R14), .movq (.stk 616) (.reg .R15), .movq (.stk 624) (.reg .DI), .movq (.stk 632) (.reg .SI) -- 2337
  ] ++
  p256GmSubInternal ++
  [.movq (.reg .R10) (.stk 192), .movq (.reg .R11) (.stk 200), .movq (.reg .R12) (.stk 208), .movq (.reg .R13) (.stk 216), .movq (.reg .R10) (.reg .R14), -- 2339-2341
   .movq (.reg .R11) (.reg .R15), .movq (.reg .R12) (.reg .DI), .movq (.reg .R13) (.reg .SI), .movq (.stk 320) (.reg .R10), .movq (.stk 328) (.reg .R11), -- 2342-2345
   .movq (.stk 336) (.reg .R12), .movq (.stk 344) (.reg .R13) -- 2345
  ] ++
  p256GmSubInternal ++
  [.movq (.stk 512) (.reg .R14), .movq (.stk 520) (.reg .R15), .movq (.stk 528) (.reg .DI), .movq (.stk 536) (.reg .SI) -- 2348
  ] ++
  p256GmMulInternal ++
  [.movq (.stk 384) (.reg .R14), .movq (.stk 392) (.reg .R15), .movq (.stk 400) (.reg .DI), .movq (.stk 408) (.reg .SI) -- 2351
  ] ++
  p256GmSubInternal ++
  [.movq (.reg .R10) (.stk 224), .movq (.reg .R11) (.stk 232), .movq (.reg .R12) (.stk 240), .movq (.reg .R13) (.stk 248), .movou (.stk 192) (.reg .X0), -- 2353-2355
   .movou (.stk 208) (.reg .X1), .movou (.stk 224) (.reg .X2), .movou (.stk 240) (.reg .X3), .movou (.stk 256) (.reg .X4), .movou (.stk 272) (.reg .X5), -- 2356-2360
   .movq (.stk 640) (.reg .AX), .movq (.imm 0) (.stk 640), .movou (.reg .X0) (.mem .AX 0), .movou (.reg .X1) (.mem .AX 16), .movou (.reg .X2) (.mem .AX 32), -- 2362-2366
   .movou (.reg .X3) (.mem .AX 48), .movou (.reg .X4) (.mem .AX 64), .movou (.reg .X5) (.mem .AX 80), .movq (.stk 648) (.reg .AX), .movq (.reg .AX) (.arg 72) -- 2367-2372
  ]

/-- sm2/sm2p256_amd64.s:2410-2529 `sm2p256PointDoubleAsm` -/
def sm2p256PointDoubleAsm : List Instr :=
  [.movq (.arg 0) (.reg .AX), .movq (.arg 24) (.reg .BX), .movou (.mem .BX 0) (.reg .X0), .movou (.mem .BX 16) (.reg .X1), .movou (.mem .BX 32) (.reg .X2), -- 2410-2415
   .movou (.mem .BX 48) (.reg .X3), .movou (.mem .BX 64) (.reg .X4), .movou (.mem .BX 80) (.reg .X5), .movou (.reg .X0) (.stk 0), .movou (.reg .X1) (.stk 16), -- 2416-2421
   .movou (.reg .X2) (.stk 32), .movou (.reg .X3) (.stk 48), .movou (.reg .X4) (.stk 64), .movou (.reg .X5) (.stk 80), .movq (.reg .AX) (.stk 224), -- 2422-2427
   .movq (.stk 64) (.reg .R10), .movq (.stk 72) (.reg .R11), .movq (.stk 80) (.reg .R12), .movq (.stk 88) (.reg .R13) -- 2429
  ] ++
  p256GmSqrInternal ++
  [.movq (.reg .R10) (.stk 160), .movq (.reg .R11) (.stk 168), .movq (.reg .R12) (.stk 176), .movq (.reg .R13) (.stk 184), .movq (.stk 0) (.reg .R14), -- 2431-2433
   .movq (.stk 8) (.reg .R15), .movq (.stk 16) (.reg .DI), .movq (.stk 24) (.reg .SI), .xorq (.reg .AX) .AX, .addq (.reg .R14) .R10, -- 2433-2434
   .adcq (.reg .R15) .R11, .adcq (.reg .DI) .R12, .adcq (.reg .SI) .R13, .adcq (.imm 0) .AX, .movq (.reg .R10) (.reg .R14), -- 2434
   .movq (.reg .R11) (.reg .R15), .movq (.reg .R12) (.reg .DI), .movq (.reg .R13) (.reg .SI), .subq (.imm 18446744073709551615) .R14, .sbbq (.imm const2) .R15, -- 2434
   .sbbq (.imm 18446744073709551615) .DI, .sbbq (.imm const3) .SI, .sbbq (.imm 0) .AX, .cmovcs .R10 .R14, .cmovcs .R11 .R15, -- 2434
   .cmovcs .R12 .DI, .cmovcs .R13 .SI, .movq (.reg .R14) (.stk 128), .movq (.reg .R15) (.stk 136), .movq (.reg .DI) (.stk 144), -- 2434-2435
   .movq (.reg .SI) (.stk 152), .movq (.stk 64) (.reg .R10), .movq (.stk 72) (.reg .R11), .movq (.stk 80) (.reg .R12), .movq (.stk 88) (.reg .R13), -- 2435-2437
   .movq (.stk 32) (.reg .R14), .movq (.stk 40) (.reg .R15), .movq (.stk 48) (.reg .DI), .movq (.stk 56) (.reg .SI) -- 2438
  ] ++
  p256GmMulInternal ++
  [.xorq (.reg .AX) .AX, .addq (.reg .R10) .R10, .adcq (.reg .R11) .R11, .adcq (.reg .R12) .R12, .adcq (.reg .R13) .R13, -- 2440
   .adcq (.imm 0) .AX, .movq (.reg .R10) (.reg .R14), .movq (.reg .R11) (.reg .R15), .movq (.reg .R12) (.reg .DI), .movq (.reg .R13) (.reg .SI), -- 2440
   .subq (.imm 18446744073709551615) .R14, .sbbq (.imm const2) .R15, .sbbq (.imm 18446744073709551615) .DI, .sbbq (.imm const3) .SI, .sbbq (.imm 0) .AX, -- 2440
   .cmovcs .R10 .R14, .cmovcs .R11 .R15, .cmovcs .R12 .DI, .cmovcs .R13 .SI, .movq (.stk 224) (.reg .AX), -- 2440-2441
   .movq (.reg .R14) (.mem .AX 64), .movq (.reg .R15) (.mem .AX 72), .movq (.reg .DI) (.mem .AX 80), .movq (.reg .SI) (.mem .AX 88), .movq (.stk 0) (.reg .R10), -- 2443-2448
   .movq (.stk 8) (.reg .R11), .movq (.stk 16) (.reg .R12), .movq (.stk 24) (.reg .R13), .movq (.stk 160) (.reg .R14), .movq (.stk 168) (.reg .R15), -- 2448-2449
   .movq (.stk 176) (.reg .DI), .movq (.stk 184) (.reg .SI) -- 2449
  ] ++
  p256GmSubInternal ++
  [.movq (.stk 128) (.reg .R14), .movq (.stk 136) (.reg .R15), .movq (.stk 144) (.reg .DI), .movq (.stk 152) (.reg .SI) -- 2451
  ] ++
  p256GmMulInternal ++
  [.movq (.reg .R10) (.stk 128), .movq (.reg .R11) (.stk 136), .movq (.reg .R12) (.stk 144), .movq (.reg .R13) (.stk 152), .xorq (.reg .AX) .AX, -- 2453-2455
   .addq (.reg .R10) .R10, .adcq (.reg .R11) .R11, .adcq (.reg .R12) .R12, .adcq (.reg .R13) .R13, .adcq (.imm 0) .AX, -- 2455
   .movq (.reg .R10) (.reg .R14), .movq (.reg .R11) (.reg .R15), .movq (.reg .R12) (.reg .DI), .movq (.reg .R13) (.reg .SI), .subq (.imm 18446744073709551615) .R14, -- 2455
   .sbbq (.imm const2) .R15, .sbbq (.imm 18446744073709551615) .DI, .sbbq (.imm const3) .SI, .sbbq (.imm 0) .AX, .cmovcs .R10 .R14, -- 2455
   .cmovcs .R11 .R15, .cmovcs .R12 .DI, .cmovcs .R13 .SI, .movq (.stk 128) (.reg .R10), .movq (.stk 136) (.reg .R11), -- 2455-2456
   .movq (.stk 144) (.reg .R12), .movq (.stk 152) (.reg .R13), .xorq (.reg .AX) .AX, .addq (.reg .R14) .R10, .adcq (.reg .R15) .R11, -- 2456-2457
   .adcq (.reg .DI) .R12, .adcq (.reg .SI) .R13, .adcq (.imm 0) .AX, .movq (.reg .R10) (.reg .R14), .movq (.reg .R11) (.reg .R15), -- 2457
   .movq (.reg .R12) (.reg .DI), .movq (.reg .R13) (.reg .SI), .subq (.imm 18446744073709551615) .R14, .sbbq (.imm const2) .R15, .sbbq (.imm 18446744073709551615) .DI, -- 2457
   .sbbq (.imm const3) .SI, .sbbq (.imm 0) .AX, .cmovcs .R10 .R14, .cmovcs .R11 .R15, .cmovcs .R12 .DI, -- 2457
   .cmovcs .R13 .SI, .movq (.reg .R14) (.stk 128), .movq (.reg .R15) (.stk 136), .movq (.reg .DI) (.stk 144), .movq (.reg .SI) (.stk 152), -- 2457-2458
   .movq (.stk 32) (.reg .R10), .movq (.stk 40) (.reg .R11), .movq (.stk 48) (.reg .R12), .movq (.stk 56) (.reg .R13), .xorq (.reg .AX) .AX, -- 2460-2461
   .addq (.reg .R10) .R10, .adcq (.reg .R11) .R11, .adcq (.reg .R12) .R12, .adcq (.reg .R13) .R13, .adcq (.imm 0) .AX, -- 2461
   .movq (.reg .R10) (.reg .R14), .movq (.reg .R11) (.reg .R15), .movq (.reg .R12) (.reg .DI), .movq (.reg .R13) (.reg .SI), .subq (.imm 18446744073709551615) .R14, -- 2461
   .sbbq (.imm const2) .R15, .sbbq (.imm 18446744073709551615) .DI, .sbbq (.imm const3) .SI, .sbbq (.imm 0) .AX, .cmovcs .R10 .R14, -- 2461
   .cmovcs .R11 .R15, .cmovcs .R12 .DI, .cmovcs .R13 .SI, .movq (.reg .R14) (.reg .R10), .movq (.reg .R15) (.reg .R11), -- 2461-2462
   .movq (.reg .DI) (.reg .R12), .movq (.reg .SI) (.reg .R13) -- 2462
  ] ++
  p256GmSqrInternal ++
  [.movq (.reg .R10) (.stk 96), .movq (.reg .R11) (.stk 104), .movq (.reg .R12) (.stk 112), .movq (.reg .R13) (.stk 120) -- 2464
  ] ++
  p256GmSqrInternal ++
  [.xorq (.reg .AX) .AX, .movq (.reg .R10) (.reg .R14), .movq (.reg .R11) (.reg .R15), .movq (.reg .R12) (.reg .DI), .movq (.reg .R13) (.reg .SI), -- 2467-2471
   .addq (.imm 18446744073709551615) .R10, .adcq (.imm const2) .R11, .adcq (.imm 18446744073709551615) .R12, .adcq (.imm const3) .R13, .adcq (.imm 0) .AX, -- 2473-2477
   .testq (.imm 1) .R14, .cmoveq .R14 .R10, .cmoveq .R15 .R11, .cmoveq .DI .R12, .cmoveq .SI .R13, -- 2478-2483
   .andq (.reg .R14) .AX, .shrd 1 .R10 .R11, .shrd 1 .R11 .R12, .shrd 1 .R12 .R13, .shrd 1 .R13 .AX, -- 2484-2489
   .movq (.reg .R10) (.stk 32), .movq (.reg .R11) (.stk 40), .movq (.reg .R12) (.stk 48), .movq (.reg .R13) (.stk 56), .movq (.stk 0) (.reg .R10), -- 2490-2492
   .movq (.stk 8) (.reg .R11), .movq (.stk 16) (.reg .R12), .movq (.stk 24) (.reg .R13), .movq (.stk 96) (.reg .R14), .movq (.stk 104) (.reg .R15), -- 2492-2493
   .movq (.stk 112) (.reg .DI), .movq (.stk 120) (.reg .SI) -- 2493
  ] ++
  p256GmMulInternal ++
  [.movq (.reg .R10) (.stk 96), .movq (.reg .R11) (.stk 104), .movq (.reg .R12) (.stk 112), .movq (.reg .R13) (.stk 120), .xorq (.reg .AX) .AX, -- 2495-2496
   .addq (.reg .R10) .R10, .adcq (.reg .R11) .R11, .adcq (.reg .R12) .R12, .adcq (.reg .R13) .R13, .adcq (.imm 0) .AX, -- 2496
   .movq (.reg .R10) (.reg .R14), .movq (.reg .R11) (.reg .R15), .movq (.reg .R12) (.reg .DI), .movq (.reg .R13) (.reg .SI), .subq (.imm 18446744073709551615) .R14, -- 2496
   .sbbq (.imm const2) .R15, .sbbq (.imm 18446744073709551615) .DI, .sbbq (.imm const3) .SI, .sbbq (.imm 0) .AX, .cmovcs .R10 .R14, -- 2496
   .cmovcs .R11 .R15, .cmovcs .R12 .DI, .cmovcs .R13 .SI, .movq (.reg .R14) (.stk 192), .movq (.reg .R15) (.stk 200), -- 2496-2497
   .movq (.reg .DI) (.stk 208), .movq (.reg .SI) (.stk 216), .movq (.stk 128) (.reg .R10), .movq (.stk 136) (.reg .R11), .movq (.stk 144) (.reg .R12), -- 2497-2499
   .movq (.stk 152) (.reg .R13) -- 2499
  ] ++
  p256GmSqrInternal ++
  [.movq (.stk 192) (.reg .R14), .movq (.stk 200) (.reg .R15), .movq (.stk 208) (.reg .DI), .movq (.stk 216) (.reg .SI) -- 2501
  ] ++
  p256GmSubInternal ++
  [.movq (.stk 224) (.reg .AX), .movq (.reg .R10) (.mem .AX 0), .movq (.reg .R11) (.mem .AX 8), .movq (.reg .R12) (.mem .AX 16), .movq (.reg .R13) (.mem .AX 24), -- 2504-2509
   .movq (.reg .R10) (.reg .R14), .movq (.reg .R11) (.reg .R15), .movq (.reg .R12) (.reg .DI), .movq (.reg .R13) (.reg .SI), .movq (.stk 96) (.reg .R10), -- 2511-2512
   .movq (.stk 104) (.reg .R11), .movq (.stk 112) (.reg .R12), .movq (.stk 120) (.reg .R13) -- 2512
  ] ++
  p256GmSubInternal ++
  [.movq (.stk 128) (.reg .R14), .movq (.stk 136) (.reg .R15), .movq (.stk 144) (.reg .DI), .movq (.stk 152) (.reg .SI) -- 2515
  ] ++
  p256GmMulInternal ++
  [.movq (.stk 32) (.reg .R14), .movq (.stk 40) (.reg .R15), .movq (.stk 48) (.reg .DI), .movq (.stk 56) (.reg .SI) -- 2518
  ] ++
  p256GmSubInternal ++
  [.movq (.stk 224) (.reg .AX), .movq (.reg .R10) (.mem .AX 32), .movq (.reg .R11) (.mem .AX 40), .movq (.reg .R12) (.mem .AX 48), .movq (.reg .R13) (.mem .AX 56), -- 2520-2525
   .movq (.imm 0) (.stk 224) -- 2527
  ]

end Verif.Sm2.Asm
