/-!
An interpreter for the part of the amd64 instruction set used by `sm2/sm2p256_amd64.s`.

Words are natural numbers below `2^64` (`St.Wf`); every instruction reduces its result. Operands are written
in the order of Go's assembler: source first, destination last. What is simplified:

* `heap` is the memory behind the pointers passed to the routine, one 64-bit word per 8-aligned address (all
  pointers used are to `[]uint64`); the routine's own stack frame is the separate `stk`, its arguments are `args`.
* A flag the manual leaves undefined (`ZF` after `MULQ`, both flags after a double shift), and the flags after a
  single shift, keep their old value here: no routine reads one (checked by `tools/asm2lean.py`).
* `CALL` of an internal routine is modelled by the instructions of that routine in place; `RET` is the end of the list.
-/
namespace Verif.Sm2.Asm

/-- `2^64` -/
abbrev B : Nat := 18446744073709551616

/-- the general registers -/
inductive Reg | AX | BX | CX | DX | SI | DI | BP | R8 | R9 | R10 | R11 | R12 | R13 | R14 | R15
deriving DecidableEq, Repr

/-- the 128-bit registers -/
inductive XReg | X0 | X1 | X2 | X3 | X4 | X5 | X6 | X7 | X8 | X9 | X10 | X11 | X12 | X13 | X14 | X15
deriving DecidableEq, Repr

/-- a 64-bit source operand: register, constant (immediate or `DATA` symbol), memory at `off(base)`, stack slot `off(SP)`, argument `off(FP)` -/
inductive Src
  | reg (r : Reg) | imm (n : Nat) | mem (base : Reg) (off : Nat) | stk (off : Nat) | arg (off : Nat)
deriving DecidableEq, Repr

/-- a destination of `MOVQ` -/
inductive Dst
  | reg (r : Reg) | mem (base : Reg) (off : Nat) | stk (off : Nat) | arg (off : Nat)
deriving DecidableEq, Repr

/-- a 128-bit operand: register, two constants (low, high), memory, stack -/
inductive XOp
  | reg (x : XReg) | imm (lo hi : Nat) | mem (base : Reg) (off : Nat) | stk (off : Nat)
deriving DecidableEq, Repr

inductive Instr
  | movq (s : Src) (d : Dst)
  | mulq (s : Src)
  | addq (s : Src) (d : Reg) | adcq (s : Src) (d : Reg)
  | subq (s : Src) (d : Reg) | sbbq (s : Src) (d : Reg)
  | andq (s : Src) (d : Reg) | orq (s : Src) (d : Reg) | xorq (s : Src) (d : Reg)
  | testq (s : Src) (d : Reg)
  | shlq (k : Nat) (d : Reg) | shrq (k : Nat) (d : Reg)
  /-- `SHRQ $k, d:h`: `d` gets the low word of `(h:d) >> k` -/
  | shrd (k : Nat) (d h : Reg)
  | cmovcs (s d : Reg) | cmoveq (s d : Reg) | cmovne (s d : Reg)
  | decq (d : Reg)
  | bswapq (d : Reg)
  /-- `MOVQ s, X` and `MOVL r, X`: the low word, zero-extended -/
  | movqx (s : Src) (x : XReg) | movlx (r : Reg) (x : XReg)
  /-- `MOVL r, off(SP)` and back -/
  | movlst (r : Reg) (off : Nat) | movlld (off : Nat) (r : Reg)
  | movou (s d : XOp)
  | pxor (s d : XReg) | pand (s d : XReg) | pandn (s : XOp) (d : XReg)
  | pcmpeql (s d : XReg) | paddl (s d : XReg) | psubl (s d : XReg)
  /-- `PSHUFD $0, s, d`: the lowest 32-bit lane in every lane -/
  | pshufd0 (s d : XReg)
deriving DecidableEq, Repr

/-- machine state -/
structure St where
  r : Reg → Nat
  x : XReg → Nat × Nat
  cf : Bool
  zf : Bool
  heap : Nat → Nat
  stk : Nat → Nat
  args : Nat → Nat

/-- function update -/
def upd {α β : Type} [DecidableEq α] (f : α → β) (a : α) (v : β) : α → β := fun a' => if a' = a then v else f a'

theorem upd_apply {α β : Type} [DecidableEq α] (f : α → β) (a : α) (v : β) (a' : α) : upd f a v a' = if a' = a then v else f a' := rfl

def Src.get (s : St) : Src → Nat
  | .reg r => s.r r
  | .imm n => n
  | .mem b o => s.heap (s.r b + o)
  | .stk o => s.stk o
  | .arg o => s.args o

def XOp.get (s : St) : XOp → Nat × Nat
  | .reg x => s.x x
  | .imm a b => (a, b)
  | .mem b o => (s.heap (s.r b + o), s.heap (s.r b + o + 8))
  | .stk o => (s.stk o, s.stk (o + 8))

def St.setR (s : St) (d : Reg) (v : Nat) : St := { s with r := upd s.r d v }

def St.put (s : St) (v : Nat) : Dst → St
  | .reg r => s.setR r v
  | .mem b o => { s with heap := upd s.heap (s.r b + o) v }
  | .stk o => { s with stk := upd s.stk o v }
  | .arg o => { s with args := upd s.args o v }

def St.setX (s : St) (x : XReg) (v : Nat × Nat) : St := { s with x := upd s.x x v }

def St.putX (s : St) (v : Nat × Nat) : XOp → St
  | .reg x => s.setX x v
  | .imm _ _ => s
  | .mem b o => { s with heap := upd (upd s.heap (s.r b + o) v.1) (s.r b + o + 8) v.2 }
  | .stk o => { s with stk := upd (upd s.stk o v.1) (o + 8) v.2 }

/-- `a + b + c` with the flags -/
def St.addTo (s : St) (d : Reg) (v : Nat) : St :=
  { s with r := upd s.r d (v % B), cf := decide (B ≤ v), zf := decide (v % B = 0) }

/-- `a - b` (with `b` the subtrahend plus borrow) with the flags -/
def St.subTo (s : St) (d : Reg) (a b : Nat) : St :=
  { s with r := upd s.r d ((a + B - b) % B), cf := decide (a < b), zf := decide ((a + B - b) % B = 0) }

/-- a logical operation: `CF` is cleared -/
def St.logic (s : St) (d : Reg) (v : Nat) : St := { s with r := upd s.r d v, cf := false, zf := decide (v = 0) }

/-- per 32-bit lane of a word -/
def lanes (f : Nat → Nat → Nat) (a b : Nat) : Nat :=
  f (a % 4294967296) (b % 4294967296) % 4294967296 + 4294967296 * (f (a / 4294967296) (b / 4294967296) % 4294967296)

def eqLane (a b : Nat) : Nat := if a = b then 4294967295 else 0

/-- complement of a word -/
def notW (a : Nat) : Nat := 18446744073709551615 - a

/-- byte reversal of a word -/
def bswap (a : Nat) : Nat :=
  (a % 256) * 2 ^ 56 + (a / 2 ^ 8 % 256) * 2 ^ 48 + (a / 2 ^ 16 % 256) * 2 ^ 40 + (a / 2 ^ 24 % 256) * 2 ^ 32 +
  (a / 2 ^ 32 % 256) * 2 ^ 24 + (a / 2 ^ 40 % 256) * 2 ^ 16 + (a / 2 ^ 48 % 256) * 2 ^ 8 + a / 2 ^ 56 % 256

def carry (s : St) : Nat := if s.cf then 1 else 0

/-- `2^k` -/
def p2 (k : Nat) : Nat := 2 ^ k

theorem p2_32 : p2 32 = 4294967296 := rfl
theorem p2_1 : p2 1 = 2 := rfl

/-- one instruction -/
def step (s : St) : Instr → St
  | .movq a d => s.put (a.get s) d
  | .mulq a =>
    let m := s.r .AX * a.get s
    { s with r := upd (upd s.r .AX (m % B)) .DX (m / B), cf := decide (B ≤ m) }
  | .addq a d => s.addTo d (s.r d + a.get s)
  | .adcq a d => s.addTo d (s.r d + a.get s + carry s)
  | .subq a d => s.subTo d (s.r d) (a.get s)
  | .sbbq a d => s.subTo d (s.r d) (a.get s + carry s)
  | .andq a d => s.logic d (s.r d &&& a.get s)
  | .orq a d => s.logic d (s.r d ||| a.get s)
  | .xorq a d => s.logic d (s.r d ^^^ a.get s)
  | .testq a d => { s with cf := false, zf := decide (s.r d &&& a.get s = 0) }
  | .shlq k d => s.setR d (s.r d * p2 k % B)
  | .shrq k d => s.setR d (s.r d / p2 k)
  | .shrd k d h => s.setR d ((s.r d + s.r h * B) / p2 k % B)
  | .cmovcs a d => if s.cf then s.setR d (s.r a) else s
  | .cmoveq a d => if s.zf then s.setR d (s.r a) else s
  | .cmovne a d => if s.zf then s else s.setR d (s.r a)
  | .decq d => { s with r := upd s.r d ((s.r d + B - 1) % B), zf := decide ((s.r d + B - 1) % B = 0) }
  | .bswapq d => s.setR d (bswap (s.r d))
  | .movqx a x => s.setX x (a.get s, 0)
  | .movlx r x => s.setX x (s.r r % 4294967296, 0)
  | .movlst r o =>
    let w := s.stk (o - o % 8)
    let v := s.r r % 4294967296
    { s with stk := upd s.stk (o - o % 8) (if o % 8 = 0 then w / 4294967296 * 4294967296 + v else v * 4294967296 + w % 4294967296) }
  | .movlld o r =>
    let w := s.stk (o - o % 8)
    s.setR r (if o % 8 = 0 then w % 4294967296 else w / 4294967296)
  | .movou a d => s.putX (a.get s) d
  | .pxor a d => s.setX d ((s.x d).1 ^^^ (s.x a).1, (s.x d).2 ^^^ (s.x a).2)
  | .pand a d => s.setX d ((s.x d).1 &&& (s.x a).1, (s.x d).2 &&& (s.x a).2)
  | .pandn a d => s.setX d (notW (s.x d).1 &&& (a.get s).1, notW (s.x d).2 &&& (a.get s).2)
  | .pcmpeql a d => s.setX d (lanes eqLane (s.x d).1 (s.x a).1, lanes eqLane (s.x d).2 (s.x a).2)
  | .paddl a d => s.setX d (lanes (· + ·) (s.x d).1 (s.x a).1, lanes (· + ·) (s.x d).2 (s.x a).2)
  | .psubl a d => s.setX d (lanes (fun p q => p + 4294967296 - q) (s.x d).1 (s.x a).1, lanes (fun p q => p + 4294967296 - q) (s.x d).2 (s.x a).2)
  | .pshufd0 a d => s.setX d ((s.x a).1 % 4294967296 * 4294967297, (s.x a).1 % 4294967296 * 4294967297)

/-- a straight-line program -/
def exec (c : List Instr) (s : St) : St := c.foldl step s

/-- `body` ended by `JNE` back to its start: run it until `ZF` is set, at most `fuel` times -/
def doWhile (body : List Instr) : Nat → St → St
  | 0, s => s
  | fuel + 1, s => if (exec body s).zf then exec body s else doWhile body fuel (exec body s)

@[simp] theorem exec_nil (s : St) : exec [] s = s := rfl
@[simp] theorem exec_cons (i : Instr) (c : List Instr) (s : St) : exec (i :: c) s = exec c (step s i) := rfl
theorem exec_append (c d : List Instr) (s : St) : exec (c ++ d) s = exec d (exec c s) := List.foldl_append ..

end Verif.Sm2.Asm
