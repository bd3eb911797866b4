import Verif.Spec.Rpc00b
import Mathlib.Data.Int.Log
import Mathlib.Algebra.Order.Round

/-! Specification used by the floating point properties: conditioning of a rational function, binary rounding. -/

namespace Shareloc
variable {K : Type*} [Field K] [LinearOrder K] [IsStrictOrderedRing K]

/-- A rational function is conditioned by `κ` at a point: the sums of the absolute values of the terms of its numerator
and of its denominator are at most `κ` times the absolute value of its denominator, which is not zero. -/
structure Conditioned (κ : K) (num den : Coef K) (x y z : K) : Prop where
  defined : rpcPoly den x y z ≠ 0
  num_le : rpcPoly (fun i => |num i|) |x| |y| |z| ≤ κ * |rpcPoly den x y z|
  den_le : rpcPoly (fun i => |den i|) |x| |y| |z| ≤ κ * |rpcPoly den x y z|

/-- Both coordinates of an inverse model are conditioned by `κ` at a ground point. -/
def GroundConditioned (κ : K) (r : Rpc K) (q : RatCoefs K) (lon lat alt : K) : Prop :=
  Conditioned κ q.numA q.denA ((lon - r.offX) / r.scX) ((lat - r.offY) / r.scY) ((alt - r.offAlt) / r.scAlt) ∧
  Conditioned κ q.numB q.denB ((lon - r.offX) / r.scX) ((lat - r.offY) / r.scY) ((alt - r.offAlt) / r.scAlt)

/-- Both coordinates of a direct model are conditioned by `κ` at an image point and altitude. -/
def ImageConditioned (κ : K) (r : Rpc K) (q : RatCoefs K) (row col alt : K) : Prop :=
  Conditioned κ q.numA q.denA ((col - r.offCol) / r.scCol) ((row - r.offRow) / r.scRow) ((alt - r.offAlt) / r.scAlt) ∧
  Conditioned κ q.numB q.denB ((col - r.offCol) / r.scCol) ((row - r.offRow) / r.scRow) ((alt - r.offAlt) / r.scAlt)

/-- The unit roundoff of doubles. -/
def doubleUnit : K := 1 / 2 ^ 53

/-- Rounding to the nearest binary number of 53 bits (unbounded exponent). -/
def rnd53 [FloorRing K] (x : K) : K :=
  if x = 0 then 0 else
    let ulp : K := (2 : K) ^ (Int.log 2 |x| - 52)
    (round (x / ulp) : K) * ulp

/-- A rounding keeps the numbers that have 53 bits: true of all the rounding modes of doubles (no overflow or underflow). -/
def Keeps53 (rnd : K → K) : Prop := ∀ a e : ℤ, |a| ≤ 2 ^ 53 → rnd ((a : K) * 2 ^ e) = (a : K) * 2 ^ e

/-- The numbers `start`, `start + step`, ..., `start + step * n` are multiples of a power of two, with quotients of at most 53
bits: so are whole numbers, halves, quarters, ... that are not too large. -/
def Dyadic53 (start step : K) (n : ℕ) : Prop :=
  ∃ e a b : ℤ, start = (a : K) * 2 ^ e ∧ step = (b : K) * 2 ^ e ∧ |a| + n * |b| ≤ 2 ^ 53

/-- One axis of a geotransform (step, rotation term, origin) and its first `n + 1` nodes are made of multiples of a power of two,
with quotients of at most 52 bits. -/
def DyadicAxis (step rot origin : K) (n : ℕ) : Prop :=
  ∃ e a b c : ℤ, step = (a : K) * 2 ^ e ∧ rot = (b : K) * 2 ^ e ∧ origin = (c : K) * 2 ^ e ∧
    (n + 1) * |a| + |b| + |c| ≤ 2 ^ 52

end Shareloc
