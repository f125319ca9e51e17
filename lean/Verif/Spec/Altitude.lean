import Verif.Spec.Bits
/-!
# Altitude and identity codes of ICAO Annex 10

Standards-side *encoders*, written from Annex 10 vol. IV (3.1.1.7.12.2.3 and its appendix) and not from the decoder.
-/
namespace Spec

/-- The twelve Mode C pulses. -/
structure Pulses where
  d1 : Bool
  d2 : Bool
  d4 : Bool
  a1 : Bool
  a2 : Bool
  a4 : Bool
  b1 : Bool
  b2 : Bool
  b4 : Bool
  c1 : Bool
  c2 : Bool
  c4 : Bool
  deriving DecidableEq, Repr

/-- The pulses in transmission-independent order, to compare codes pulse by pulse. -/
def Pulses.toList (p : Pulses) : List Bool :=
  [p.d1, p.d2, p.d4, p.a1, p.a2, p.a4, p.b1, p.b2, p.b4, p.c1, p.c2, p.c4]

/-- Number of pulses in which two codes differ. -/
def Pulses.distance (p q : Pulses) : Nat :=
  ((p.toList.zip q.toList).filter (fun x => x.1 != x.2)).length

/-- The binary-reflected Gray code of a number. -/
def gray (n : Nat) : Nat := n ^^^ (n / 2)

/-- C1 C2 C4 of the five 100-ft steps inside a 500-ft block, in ascending order (001 011 010 110 100). -/
def cPulses : Nat → Bool × Bool × Bool
  | 0 => (false, false, true)
  | 1 => (false, true, true)
  | 2 => (false, true, false)
  | 3 => (true, true, false)
  | _ => (true, false, false)

/-- Mode C code of the altitude `100 * k - 1200` ft: D1 D2 D4 A1 A2 A4 B1 B2 B4 is the Gray code of the number of the
500-ft block, C1 C2 C4 the step inside the block, run backwards in odd blocks. -/
def modeC (k : Nat) : Pulses :=
  let block := k / 5
  let step := if block % 2 = 0 then k % 5 else 4 - k % 5
  let g := gray block
  let c := cPulses step
  { d1 := g.testBit 8, d2 := g.testBit 7, d4 := g.testBit 6, a1 := g.testBit 5, a2 := g.testBit 4,
    a4 := g.testBit 3, b1 := g.testBit 2, b2 := g.testBit 1, b4 := g.testBit 0,
    c1 := c.1, c2 := c.2.1, c4 := c.2.2 }

/-- The Mode C pulses of a 13-bit altitude code (AC field), whose bits are, most significant first,
C1 A1 C2 A2 C4 A4 M B1 Q B2 D2 B4 D4 (there is no D1 in this field). -/
def pulsesAC13 (c : Nat) : Pulses :=
  { d1 := false
    c1 := c.testBit 12, a1 := c.testBit 11, c2 := c.testBit 10, a2 := c.testBit 9, c4 := c.testBit 8,
    a4 := c.testBit 7, b1 := c.testBit 5, b2 := c.testBit 3, d2 := c.testBit 2, b4 := c.testBit 1,
    d4 := c.testBit 0 }

/-- M bit of a 13-bit altitude code. -/
def mBit (c : Nat) : Bool := c.testBit 6
/-- Q bit of a 13-bit altitude code. -/
def qBit (c : Nat) : Bool := c.testBit 4

/-- The 11-bit number of a 13-bit altitude code, M and Q removed. -/
def n25AC13 (c : Nat) : Nat := c / 128 % 64 * 32 + c / 32 % 2 * 16 + c % 16

/-- The 13-bit altitude code that carries the 11-bit number `n` in 25-ft coding (Q = 1, M = 0). -/
def encode25 (n : Nat) : Nat := n / 32 % 64 * 128 + n / 16 % 2 * 32 + 16 + n % 16

/-- The four digits A, B, C, D of a 13-bit identity code, whose bits are, most significant first,
C1 A1 C2 A2 C4 A4 (zero) B1 D1 B2 D2 B4 D4; in each digit the pulses have weights 1, 2, 4. -/
def squawk (c : Nat) : List Nat :=
  let p (i : Nat) : Nat := c / 2 ^ i % 2
  [4 * p 7 + 2 * p 9 + p 11, 4 * p 1 + 2 * p 3 + p 5, 4 * p 8 + 2 * p 10 + p 12, 4 * p 0 + 2 * p 2 + p 4]

/-- The 13-bit identity code of the squawk `a b c d` (digits 0..7). -/
def squawkCode (a b c d : Nat) : Nat :=
  c % 2 * 4096 + a % 2 * 2048 + c / 2 % 2 * 1024 + a / 2 % 2 * 512 + c / 4 % 2 * 256 + a / 4 % 2 * 128
    + b % 2 * 32 + d % 2 * 16 + b / 2 % 2 * 8 + d / 2 % 2 * 4 + b / 4 % 2 * 2 + d / 4 % 2

/-- Octal digits as text. -/
def digitsText (l : List Nat) : List Char := l.map (fun n => Char.ofNat (48 + n))

end Spec
