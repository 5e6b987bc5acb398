/-!
Model of the functions of `UnitConverter` (canopen_motor_node). Numbers are exact rationals; every arithmetic result goes
through the parameter `rd`: the identity for exact arithmetic, `roundDouble` for IEEE double precision.
-/

namespace Verif.Conv

/-- Exponent of the last significant bit of a positive rational in double precision: the unique `e` with
`2^52 ≤ q / 2^e < 2^53`. Helper of `roundDouble`, found from the logarithms of numerator and denominator
(arithmetic of canopen_motor_node/include/canopen_motor_node/unit_converter.h:64-84). -/
def ulpExp (q : Rat) : Int :=
  let e : Int := (Nat.log2 q.num.natAbs : Int) - (Nat.log2 q.den : Int) - 52
  if q < 2 ^ (52 : Nat) * (2 : Rat) ^ e then e - 1 else e

/-- Round to the nearest integer, ties to even. Helper of `roundDouble` (arithmetic of
canopen_motor_node/include/canopen_motor_node/unit_converter.h:64-84). -/
def roundEven (q : Rat) : Int :=
  let f := q.floor
  if q - f < 1/2 then f else if 1/2 < q - f then f + 1 else if f % 2 = 0 then f else f + 1

/-- Rounding of an arithmetic result to an IEEE double (the C++ type used in
canopen_motor_node/include/canopen_motor_node/unit_converter.h:64-84). Simplified: no subnormal numbers, no overflow. -/
def roundDouble (q : Rat) : Rat :=
  if q = 0 then 0
  else if 0 < q then (roundEven (q / (2 : Rat) ^ ulpExp q) : Rat) * (2 : Rat) ^ ulpExp q
  else - ((roundEven ((-q) / (2 : Rat) ^ ulpExp (-q)) : Rat) * (2 : Rat) ^ ulpExp (-q))

/-- First loop of `norm` (canopen_motor_node/include/canopen_motor_node/unit_converter.h:65); the first argument bounds
the number of iterations, `none` means that the loop has not finished yet. -/
def normDown (rd : Rat → Rat) (min max : Rat) : Nat → Rat → Option Rat
  | 0, _ => none
  | n + 1, v => if max ≤ v then normDown rd min max n (rd (v - rd (max - min))) else some v

/-- Second loop of `norm` (canopen_motor_node/include/canopen_motor_node/unit_converter.h:66). -/
def normUp (rd : Rat → Rat) (min max : Rat) : Nat → Rat → Option Rat
  | 0, _ => none
  | n + 1, v => if v < min then normUp rd min max n (rd (v + rd (max - min))) else some v

/-- `norm` (canopen_motor_node/include/canopen_motor_node/unit_converter.h:64-68), with at most `n` iterations of each loop. -/
def norm (rd : Rat → Rat) (n : Nat) (v min max : Rat) : Option Rat :=
  (normDown rd min max n v).bind (normUp rd min max n)

/-- `smooth` (canopen_motor_node/include/canopen_motor_node/unit_converter.h:69-73), exact arithmetic; `none` is NaN,
infinities are left out. -/
def smooth (val old : Option Rat) (alpha : Rat) : Option Rat :=
  match val, old with
  | none, _ => some 0
  | some v, none => some v
  | some v, some o => some (alpha * v + (1 - alpha) * o)

/-- The loop of `avg` (canopen_motor_node/include/canopen_motor_node/unit_converter.h:76-82): sum and number of the values
before the first NaN. -/
def avgLoop : List (Option Rat) → Rat → Nat → Rat × Nat
  | [], s, i => (s, i)
  | none :: _, s, i => (s, i)
  | some v :: rest, s, i => avgLoop rest (s + v) (i + 1)

/-- `avg` (canopen_motor_node/include/canopen_motor_node/unit_converter.h:74-84), exact arithmetic. -/
def avg (vals : List (Option Rat)) : Rat :=
  let (s, i) := avgLoop vals 0 0
  s / ((i + 1 : Nat) : Rat)

/-- Repeated smoothing of a stored variable, as by an expression `x = smooth(in, x, alpha)` that is evaluated every cycle
(canopen_motor_node/include/canopen_motor_node/unit_converter.h:39 and 69-73); the variable is NaN after `reset`, lines 34-38. -/
def smoothRun (alpha : Rat) : Option Rat → List (Option Rat) → Option Rat
  | x, [] => x
  | x, v :: vs => smoothRun alpha (smooth v x alpha) vs

end Verif.Conv
