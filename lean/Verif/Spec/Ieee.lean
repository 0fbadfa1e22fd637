import Verif.Model.Base

/-!
# IEEE 754 arithmetic

The theorems hold for every `FloatOps`. This file defines the one of the usual machines: binary32 and binary64 with
rounding to nearest, ties to even, on bit patterns. It is used to show that the assumptions that some theorems make
about the floating-point unit are met by it, to derive consequences of the theorems for it, and to run the
unit tests of the repository in the model (`Verif/Test`).
-/

namespace Aitisa

/-- A binary interchange format: `p` bits of precision (with the hidden bit) and `w` bits of exponent. -/
structure Fmt where
  p : Nat
  w : Nat

def b32 : Fmt := ⟨24, 8⟩
def b64 : Fmt := ⟨53, 11⟩

/-- The exponent of the last bit of the smallest numbers. -/
def Fmt.emin (F : Fmt) : Int := 3 - 2 ^ (F.w - 1) - F.p

/-- The bits of plus infinity. -/
def Fmt.infBits (F : Fmt) : Nat := (2 ^ F.w - 1) * 2 ^ (F.p - 1)

/-- The bits of minus zero, the weight of the sign bit. -/
def Fmt.signBit (F : Fmt) : Nat := 2 ^ (F.p + F.w - 1)

/-- The bits of the NaN that operations return. -/
def Fmt.nanBits (F : Fmt) : Nat := F.infBits + 2 ^ (F.p - 2)

/-- A datum: not a number, an infinity or `(-1)^s * m * 2^e`. -/
inductive Datum where
  | nan
  | inf (s : Bool)
  | fin (s : Bool) (m : Nat) (e : Int)

/-- The datum of a bit pattern. -/
def Fmt.decode (F : Fmt) (b : Nat) : Datum :=
  let s := decide (F.signBit ≤ b)
  let x := b / 2 ^ (F.p - 1) % 2 ^ F.w
  let f := b % 2 ^ (F.p - 1)
  if x = 2 ^ F.w - 1 then (if f = 0 then .inf s else .nan)
  else if x = 0 then .fin s f F.emin
  else .fin s (2 ^ (F.p - 1) + f) (F.emin + (x - 1 : Nat))

/-- `m / 2^d` rounded to nearest, ties to even. -/
def roundShift (m d : Nat) : Nat :=
  let q := m / 2 ^ d
  let r := m % 2 ^ d
  if 2 * r < 2 ^ d then q else if 2 ^ d < 2 * r then q + 1 else q + q % 2

def Fmt.signed (F : Fmt) (s : Bool) (n : Nat) : Nat := (if s then F.signBit else 0) + n

/-- The bits of `(-1)^s * m * 2^e`, rounded. -/
def Fmt.round (F : Fmt) (s : Bool) (m : Nat) (e : Int) : Nat :=
  if m = 0 then F.signed s 0
  else
    let e' := max (e + (Nat.log2 m + 1 : Nat) - F.p) F.emin
    let q := if e' ≤ e then m * 2 ^ (e - e').toNat else roundShift m (e' - e).toNat
    F.signed s (min ((e' - F.emin).toNat * 2 ^ (F.p - 1) + q) F.infBits)

/-- `(-1)^s * m` as an integer. -/
def sgn (s : Bool) (m : Nat) : Int := if s then -(m : Int) else m

def Fmt.add (F : Fmt) (a b : Nat) : Nat :=
  match F.decode a, F.decode b with
  | .nan, _ | _, .nan => F.nanBits
  | .inf s, .inf t => if s = t then F.signed s F.infBits else F.nanBits
  | .inf s, .fin .. | .fin .., .inf s => F.signed s F.infBits
  | .fin s m e, .fin t n f =>
    let g := min e f
    let v := sgn s (m * 2 ^ (e - g).toNat) + sgn t (n * 2 ^ (f - g).toNat)
    if v = 0 then F.signed (s && t) 0 else F.round (decide (v < 0)) v.natAbs g

/-- The sum of two data, rounded (`Fmt.add` is this for two bit patterns). -/
def Fmt.sum (F : Fmt) : Datum → Datum → Nat
  | .nan, _ | _, .nan => F.nanBits
  | .inf s, .inf t => if s = t then F.signed s F.infBits else F.nanBits
  | .inf s, .fin .. | .fin .., .inf s => F.signed s F.infBits
  | .fin s m e, .fin t n f =>
    let g := min e f
    let v := sgn s (m * 2 ^ (e - g).toNat) + sgn t (n * 2 ^ (f - g).toNat)
    if v = 0 then F.signed (s && t) 0 else F.round (decide (v < 0)) v.natAbs g

/-- The product of two data, not rounded. -/
def Datum.times : Datum → Datum → Datum
  | .nan, _ | _, .nan => .nan
  | .inf s, .inf t => .inf (s != t)
  | .inf s, .fin t n _ | .fin t n _, .inf s => if n = 0 then .nan else .inf (s != t)
  | .fin s m e, .fin t n f => .fin (s != t) (m * n) (e + f)

/-- `z + a * b`, rounded once (fused multiply-add). -/
def Fmt.fma (F : Fmt) (z a b : Nat) : Nat := F.sum (F.decode z) ((F.decode a).times (F.decode b))

/-- The sign bit flipped. -/
def Fmt.neg (F : Fmt) (a : Nat) : Nat := if F.signBit ≤ a then a - F.signBit else a + F.signBit

def Fmt.sub (F : Fmt) (a b : Nat) : Nat :=
  match F.decode b with
  | .nan => F.nanBits
  | _ => F.add a (F.neg b)

def Fmt.mul (F : Fmt) (a b : Nat) : Nat :=
  match F.decode a, F.decode b with
  | .nan, _ | _, .nan => F.nanBits
  | .inf s, .inf t => F.signed (s != t) F.infBits
  | .inf s, .fin t n _ | .fin t n _, .inf s => if n = 0 then F.nanBits else F.signed (s != t) F.infBits
  | .fin s m e, .fin t n f => F.round (s != t) (m * n) (e + f)

def Fmt.div (F : Fmt) (a b : Nat) : Nat :=
  match F.decode a, F.decode b with
  | .nan, _ | _, .nan => F.nanBits
  | .inf _, .inf _ => F.nanBits
  | .inf s, .fin t _ _ => F.signed (s != t) F.infBits
  | .fin s _ _, .inf t => F.signed (s != t) 0
  | .fin s m e, .fin t n f =>
    if n = 0 then (if m = 0 then F.nanBits else F.signed (s != t) F.infBits)
    else
      let k := F.p + 3 + Nat.log2 n
      let q := m * 2 ^ k / n
      F.round (s != t) (2 * q + (if m * 2 ^ k % n = 0 then 0 else 1)) (e - f - (k + 1 : Nat))

/-- The largest `r + x`, `x < 2^k`, whose square is at most `n`. -/
def isqrt (n : Nat) : Nat → Nat → Nat
  | 0, r => r
  | k + 1, r => isqrt n k (if (r + 2 ^ k) * (r + 2 ^ k) ≤ n then r + 2 ^ k else r)

def Fmt.sqrt (F : Fmt) (a : Nat) : Nat :=
  match F.decode a with
  | .nan => F.nanBits
  | .inf s => if s then F.nanBits else F.infBits
  | .fin s m e =>
    if m = 0 then a
    else if s then F.nanBits
    else
      let e0 := e % 2
      let n := m * 2 ^ (e0.toNat + 2 * (F.p + 2))
      let r := isqrt n (Nat.log2 n / 2 + 1) 0
      F.round false (2 * r + (if r * r = n then 0 else 1)) ((e - e0) / 2 - (F.p + 3 : Nat))

/-- Numbers compare as their bits read in sign-magnitude. -/
def Fmt.key (F : Fmt) (b : Nat) : Int := if F.signBit ≤ b then -((b - F.signBit : Nat) : Int) else b

def Fmt.isNaN (F : Fmt) (b : Nat) : Bool := decide (F.infBits < b % F.signBit)

def Fmt.lt (F : Fmt) (a b : Nat) : Bool := !F.isNaN a && !F.isNaN b && decide (F.key a < F.key b)

def Fmt.ofInt (F : Fmt) (n : Int) : Nat := F.round (decide (n < 0)) n.natAbs 0

def Fmt.trunc (F : Fmt) (b : Nat) : Option Int :=
  match F.decode b with
  | .fin s m e => some (sgn s (if 0 ≤ e then m * 2 ^ e.toNat else m / 2 ^ (-e).toNat))
  | _ => none

/-- Conversion between formats. -/
def Fmt.convert (F G : Fmt) (b : Nat) : Nat :=
  match F.decode b with
  | .nan => G.nanBits
  | .inf s => G.signed s G.infBits
  | .fin s m e => G.round s m e

/-- The number a bit pattern stands for, as a multiple of the smallest positive number `2^emin`; nothing for NaN and infinities. -/
def Fmt.units (F : Fmt) (b : Nat) : Option Int :=
  match F.decode b with
  | .fin s m e => some (sgn s m * 2 ^ (e - F.emin).toNat)
  | _ => none

/-- The bit pattern stands for the integer `n`. -/
def Fmt.IsInt (F : Fmt) (b : Nat) (n : Int) : Prop := F.units b = some (n * 2 ^ (-F.emin).toNat)

/-- `2^200 * exp (y / 2^200)` for `0 <= y < 2^200`: the first terms of the series. -/
def expSeries (y : Nat) : Nat → Nat → Nat → Nat → Nat
  | 0, _, _, acc => acc
  | k + 1, i, term, acc => expSeries y k (i + 1) (term * y / 2 ^ 200 / i) (acc + term * y / 2 ^ 200 / i)

/-- Squares a number with 200 bits behind the point `k` times. -/
def expSquare : Nat → Nat → Nat
  | 0, y => y
  | k + 1, y => expSquare k (y * y / 2 ^ 200)

/-- An approximation of the exponential function (C does not say how accurate `exp` is; theorems
are about every function with the properties `ExpOK`, `ExpMono` of `Spec/Range.lean`, which this one has). -/
def exp64 (b : Nat) : Nat :=
  match b64.decode b with
  | .nan => b64.nanBits
  | .inf s => if s then 0 else b64.infBits
  | .fin s m e =>
    if m = 0 then b64.ofInt 1
    else if 1024 ≤ (if 0 ≤ e then m * 2 ^ e.toNat else m / 2 ^ (-e).toNat) then (if s then 0 else b64.infBits)
    else
      -- `x / 1024` with 200 bits behind the point
      let y := if -190 ≤ e then m * 2 ^ (e + 190).toNat else m / 2 ^ (-190 - e).toNat
      let r := expSquare 10 (expSeries y 40 1 (2 ^ 200) (2 ^ 200))
      if s then b64.round false (2 ^ 2400 / r) (-2200) else b64.round false r (-200)

/-- The floating-point unit of the usual machines. -/
def ieee : FloatOps where
  add32 a b := .ofNat 32 (b32.add a.toNat b.toNat)
  sub32 a b := .ofNat 32 (b32.sub a.toNat b.toNat)
  mul32 a b := .ofNat 32 (b32.mul a.toNat b.toNat)
  div32 a b := .ofNat 32 (b32.div a.toNat b.toNat)
  add64 a b := .ofNat 64 (b64.add a.toNat b.toNat)
  sub64 a b := .ofNat 64 (b64.sub a.toNat b.toNat)
  mul64 a b := .ofNat 64 (b64.mul a.toNat b.toNat)
  div64 a b := .ofNat 64 (b64.div a.toNat b.toNat)
  mac32 z a b := .ofNat 32 (b32.add z.toNat (BitVec.ofNat 32 (b32.mul a.toNat b.toNat)).toNat)
  mac64 z a b := .ofNat 64 (b64.add z.toNat (BitVec.ofNat 64 (b64.mul a.toNat b.toNat)).toNat)
  lt32 a b := b32.lt a.toNat b.toNat
  lt64 a b := b64.lt a.toNat b.toNat
  neg32 a := .ofNat 32 (b32.neg a.toNat)
  neg64 a := .ofNat 64 (b64.neg a.toNat)
  exp64 a := .ofNat 64 (exp64 a.toNat)
  sqrt64 a := .ofNat 64 (b64.sqrt a.toNat)
  widen a := .ofNat 64 (b32.convert b64 a.toNat)
  narrow a := .ofNat 32 (b64.convert b32 a.toNat)
  ofInt32 n := .ofNat 32 (b32.ofInt n)
  ofInt64 n := .ofNat 64 (b64.ofInt n)
  trunc32 a := b32.trunc a.toNat
  trunc64 a := b64.trunc a.toNat

/-- The same machine with fused multiply-add: `z + a * b` is rounded once. -/
def fused : FloatOps := { ieee with
  mac32 := fun z a b => .ofNat 32 (b32.fma z.toNat a.toNat b.toNat)
  mac64 := fun z a b => .ofNat 64 (b64.fma z.toNat a.toNat b.toNat) }

/-- A machine with IEEE arithmetic: like `ieee`, except that each `z + a * b` is rounded once or twice, as the compiler likes, and that nothing is said
about `exp`. -/
structure Machine (fp : FloatOps) : Prop where
  rest : fp = { ieee with mac32 := fp.mac32, mac64 := fp.mac64, exp64 := fp.exp64 }
  mac32 : ∀ z a b, fp.mac32 z a b = ieee.mac32 z a b ∨ fp.mac32 z a b = fused.mac32 z a b
  mac64 : ∀ z a b, fp.mac64 z a b = ieee.mac64 z a b ∨ fp.mac64 z a b = fused.mac64 z a b

end Aitisa
