import Verif.Model.AutoDiff
import Verif.Lemmas.RealFns

/-!
# Arithmetic with infinities and NaN

Numbers of the code with the special values of IEEE arithmetic, for programs under automatic differentiation. Simplified: finite
numbers are exact reals, so there is neither rounding nor overflow, and there is one zero, with `1/0 = +∞`.
-/

namespace Hydrax

/-- A number, an infinity or NaN. -/
inductive XR where
  | num (r : ℝ)
  | pinf
  | ninf
  | nan

namespace XR

/-- `-x`. -/
noncomputable def neg : XR → XR
  | num a => num (-a)
  | pinf => ninf
  | ninf => pinf
  | nan => nan

/-- `x + y`. -/
noncomputable def add : XR → XR → XR
  | num a, num b => num (a + b)
  | nan, _ => nan
  | _, nan => nan
  | pinf, ninf => nan
  | ninf, pinf => nan
  | pinf, _ => pinf
  | ninf, _ => ninf
  | _, pinf => pinf
  | _, ninf => ninf

open Classical in
/-- An infinity with the sign of `a`; NaN if `a` is zero. -/
noncomputable def signedInf (a : ℝ) : XR := if a = 0 then nan else if 0 < a then pinf else ninf

/-- `x * y`. -/
noncomputable def mul : XR → XR → XR
  | num a, num b => num (a * b)
  | nan, _ => nan
  | _, nan => nan
  | num a, pinf => signedInf a
  | num a, ninf => signedInf (-a)
  | pinf, num b => signedInf b
  | ninf, num b => signedInf (-b)
  | pinf, pinf => pinf
  | ninf, ninf => pinf
  | pinf, ninf => ninf
  | ninf, pinf => ninf

open Classical in
/-- `x / y`. -/
noncomputable def div : XR → XR → XR
  | num a, num b => if b = 0 then signedInf a else num (a / b)
  | nan, _ => nan
  | _, nan => nan
  | num _, _ => num 0
  | pinf, num b => if b < 0 then ninf else pinf
  | ninf, num b => if b < 0 then pinf else ninf
  | _, _ => nan

/-- `exp x`. -/
noncomputable def exp : XR → XR
  | num a => num (Real.exp a)
  | pinf => pinf
  | ninf => num 0
  | nan => nan

open Classical in
/-- `log x`. -/
noncomputable def log : XR → XR
  | num a => if 0 < a then num (Real.log a) else if a = 0 then ninf else nan
  | pinf => pinf
  | _ => nan

open Classical in
/-- `sqrt x`. -/
noncomputable def sqrt : XR → XR
  | num a => if 0 ≤ a then num (Real.sqrt a) else nan
  | pinf => pinf
  | _ => nan

/-- `maximum(x, y)`; NaN if either is. -/
noncomputable def max : XR → XR → XR
  | num a, num b => num (Max.max a b)
  | nan, _ => nan
  | _, nan => nan
  | pinf, _ => pinf
  | _, pinf => pinf
  | ninf, y => y
  | x, ninf => x

/-- `minimum(x, y)`; NaN if either is. -/
noncomputable def min (x y : XR) : XR := neg (max (neg x) (neg y))

open Classical in
/-- `x >= y`; false if either is NaN. -/
noncomputable def ge : XR → XR → Bool
  | num a, num b => decide (b ≤ a)
  | nan, _ => false
  | _, nan => false
  | pinf, _ => true
  | _, ninf => true
  | _, _ => false

open Classical in
/-- `x == y`; false if either is NaN. -/
noncomputable def eq : XR → XR → Bool
  | num a, num b => decide (a = b)
  | pinf, pinf => true
  | ninf, ninf => true
  | _, _ => false

/-- `isnan(x) | isinf(x)`. -/
def bad : XR → Bool
  | num _ => false
  | _ => true

end XR

/-- Arithmetic with infinities and NaN. -/
noncomputable def ieeeAd : AdOps XR where
  zero := .num 0
  half := .num (1 / 2)
  one := .num 1
  neg := XR.neg
  add := XR.add
  sub := fun a b => XR.add a (XR.neg b)
  mul := XR.mul
  div := XR.div
  exp := XR.exp
  log := XR.log
  sqrt := XR.sqrt
  max := XR.max
  min := XR.min
  ge := XR.ge
  eq := XR.eq

/-- The search for the lateral rate (triaxial_test.py:77-100) for the residual `f`, with the derivative taken by reverse mode. -/
noncomputable def lateralSearch (f : Ex XR (Fin 1)) : ℕ → XR
  | 0 => .num 0
  | k + 1 =>
    let x := lateralSearch f k
    let R := f.eval ieeeAd (fun _ => x)
    let J := adGrad ieeeAd f (fun _ => x) 0
    let xNew := XR.add x (XR.mul (.num (4 / 5)) (XR.div (XR.neg R) J))
    if xNew.bad then x else xNew

end Hydrax
