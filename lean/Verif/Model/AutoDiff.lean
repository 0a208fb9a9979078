import Verif.Model.CamClay
import Verif.Model.Uepi

/-!
# Automatic differentiation

Programs that the code hands to JAX for differentiation, as expressions over the primitives they use: `jax.jacfwd` of the
residuals (modifiedcamclay.py:500, UEPI_MCC.py:433), `jax.grad` of the lateral stress (triaxial_test.py:82), of distances
(sdfobject.py:150) and of the loss (mcc_trx_inverse.py:199, 318). JAX is not part of the repository: the rules below are the
documented ones of its primitives. Simplified: shared subexpressions are written out, `x**2` is `x*x`, tangents of constants are
zeros, and both branches of a `where` are evaluated, as they are under `vmap`.
-/

namespace Hydrax

/-- Arithmetic in which programs run. `half` and `one` are the factors of the rule for `maximum`. -/
structure AdOps (V : Type*) where
  zero : V
  half : V
  one : V
  neg : V → V
  add : V → V → V
  sub : V → V → V
  mul : V → V → V
  div : V → V → V
  exp : V → V
  log : V → V
  sqrt : V → V
  max : V → V → V
  min : V → V → V
  ge : V → V → Bool
  eq : V → V → Bool

/-- Exact arithmetic. -/
def fieldAd {K : Type*} [Field K] [LinearOrder K] (fn : MathFns K) : AdOps K where
  zero := 0
  half := 1 / 2
  one := 1
  neg := fun a => -a
  add := fun a b => a + b
  sub := fun a b => a - b
  mul := fun a b => a * b
  div := fun a b => a / b
  exp := fn.exp
  log := fn.log
  sqrt := fn.sqrt
  max := fun a b => Max.max a b
  min := fun a b => Min.min a b
  ge := fun a b => decide (b ≤ a)
  eq := fun a b => decide (a = b)

/-- Programs with inputs named by `ι`. `sel c d a b` is `jnp.where(c >= d, a, b)`, `stop` is `jax.lax.stop_gradient`. -/
inductive Ex (V : Type*) (ι : Type*) where
  | var (i : ι)
  | const (c : V)
  | neg (a : Ex V ι)
  | add (a b : Ex V ι)
  | sub (a b : Ex V ι)
  | mul (a b : Ex V ι)
  | div (a b : Ex V ι)
  | exp (a : Ex V ι)
  | log (a : Ex V ι)
  | sqrt (a : Ex V ι)
  | max (a b : Ex V ι)
  | min (a b : Ex V ι)
  | sel (c d a b : Ex V ι)
  | stop (a : Ex V ι)

section
variable {V ι : Type*} (o : AdOps V)

/-- `_balanced_eq(x, z, y)` of JAX: the weight of `x` in the derivative of `z = maximum(x, y)`. -/
def AdOps.bal (x z y : V) : V := if o.eq x z then (if o.eq y z then o.half else o.one) else o.zero

/-- The value of a program. -/
def Ex.eval (x : ι → V) : Ex V ι → V
  | .var i => x i
  | .const c => c
  | .neg a => o.neg (a.eval x)
  | .add a b => o.add (a.eval x) (b.eval x)
  | .sub a b => o.sub (a.eval x) (b.eval x)
  | .mul a b => o.mul (a.eval x) (b.eval x)
  | .div a b => o.div (a.eval x) (b.eval x)
  | .exp a => o.exp (a.eval x)
  | .log a => o.log (a.eval x)
  | .sqrt a => o.sqrt (a.eval x)
  | .max a b => o.max (a.eval x) (b.eval x)
  | .min a b => o.min (a.eval x) (b.eval x)
  | .sel c d a b => if o.ge (c.eval x) (d.eval x) then a.eval x else b.eval x
  | .stop a => a.eval x

/-- Forward mode: the tangent of a program along `v` (`jax.jvp`). -/
def Ex.tan (x v : ι → V) : Ex V ι → V
  | .var i => v i
  | .const _ => o.zero
  | .neg a => o.neg (a.tan x v)
  | .add a b => o.add (a.tan x v) (b.tan x v)
  | .sub a b => o.sub (a.tan x v) (b.tan x v)
  | .mul a b => o.add (o.mul (a.tan x v) (b.eval o x)) (o.mul (a.eval o x) (b.tan x v))
  | .div a b => o.add (o.div (a.tan x v) (b.eval o x))
      (o.mul (o.mul (o.neg (b.tan x v)) (a.eval o x)) (o.div o.one (o.mul (b.eval o x) (b.eval o x))))
  | .exp a => o.mul (a.tan x v) (o.exp (a.eval o x))
  | .log a => o.div (a.tan x v) (a.eval o x)
  | .sqrt a => o.mul (a.tan x v) (o.div o.half (o.sqrt (a.eval o x)))
  | .max a b => o.add (o.mul (a.tan x v) (o.bal (a.eval o x) (o.max (a.eval o x) (b.eval o x)) (b.eval o x)))
      (o.mul (b.tan x v) (o.bal (b.eval o x) (o.max (a.eval o x) (b.eval o x)) (a.eval o x)))
  | .min a b => o.add (o.mul (a.tan x v) (o.bal (a.eval o x) (o.min (a.eval o x) (b.eval o x)) (b.eval o x)))
      (o.mul (b.tan x v) (o.bal (b.eval o x) (o.min (a.eval o x) (b.eval o x)) (a.eval o x)))
  | .sel c d a b => if o.ge (c.eval o x) (d.eval o x) then a.tan x v else b.tan x v
  | .stop _ => o.zero

/-- Reverse mode: what a cotangent `w` of the program gives to each input (`jax.vjp`). -/
def Ex.cot [DecidableEq ι] (x : ι → V) : Ex V ι → V → ι → V
  | .var i, w => fun k => if k = i then w else o.zero
  | .const _, _ => fun _ => o.zero
  | .neg a, w => a.cot x (o.neg w)
  | .add a b, w => fun k => o.add (a.cot x w k) (b.cot x w k)
  | .sub a b, w => fun k => o.add (a.cot x w k) (b.cot x (o.neg w) k)
  | .mul a b, w => fun k => o.add (a.cot x (o.mul w (b.eval o x)) k) (b.cot x (o.mul (a.eval o x) w) k)
  | .div a b, w => fun k => o.add (a.cot x (o.div w (b.eval o x)) k)
      (b.cot x (o.neg (o.mul (o.mul w (o.div o.one (o.mul (b.eval o x) (b.eval o x)))) (a.eval o x))) k)
  | .exp a, w => a.cot x (o.mul w (o.exp (a.eval o x)))
  | .log a, w => a.cot x (o.div w (a.eval o x))
  | .sqrt a, w => a.cot x (o.mul w (o.div o.half (o.sqrt (a.eval o x))))
  | .max a b, w => fun k => o.add
      (a.cot x (o.mul w (o.bal (a.eval o x) (o.max (a.eval o x) (b.eval o x)) (b.eval o x))) k)
      (b.cot x (o.mul w (o.bal (b.eval o x) (o.max (a.eval o x) (b.eval o x)) (a.eval o x))) k)
  | .min a b, w => fun k => o.add
      (a.cot x (o.mul w (o.bal (a.eval o x) (o.min (a.eval o x) (b.eval o x)) (b.eval o x))) k)
      (b.cot x (o.mul w (o.bal (b.eval o x) (o.min (a.eval o x) (b.eval o x)) (a.eval o x))) k)
  | .sel c d a b, w => fun k => o.add
      (a.cot x (if o.ge (c.eval o x) (d.eval o x) then w else o.zero) k)
      (b.cot x (if o.ge (c.eval o x) (d.eval o x) then o.zero else w) k)
  | .stop _, _ => fun _ => o.zero

/-- `jax.jacfwd`: one forward sweep per input. -/
def jacfwd {n m : ℕ} (f : Fin m → Ex V (Fin n)) (x : Fin n → V) : Matrix (Fin m) (Fin n) V :=
  Matrix.of fun i j => (f i).tan o x (fun k => if k = j then o.one else o.zero)

/-- `jax.grad`: one reverse sweep. -/
def adGrad [DecidableEq ι] (f : Ex V ι) (x : ι → V) : ι → V := f.cot o x o.one

end

/-- Change of the arithmetic of a program. -/
def Ex.map {V W ι : Type*} (f : V → W) : Ex V ι → Ex W ι
  | .var i => .var i
  | .const c => .const (f c)
  | .neg a => .neg (a.map f)
  | .add a b => .add (a.map f) (b.map f)
  | .sub a b => .sub (a.map f) (b.map f)
  | .mul a b => .mul (a.map f) (b.map f)
  | .div a b => .div (a.map f) (b.map f)
  | .exp a => .exp (a.map f)
  | .log a => .log (a.map f)
  | .sqrt a => .sqrt (a.map f)
  | .max a b => .max (a.map f) (b.map f)
  | .min a b => .min (a.map f) (b.map f)
  | .sel c d a b => .sel (c.map f) (d.map f) (a.map f) (b.map f)
  | .stop a => .stop (a.map f)

/-- A program whose inputs are the values of other programs. -/
def Ex.subst {V ι κ : Type*} (s : ι → Ex V κ) : Ex V ι → Ex V κ
  | .var i => s i
  | .const c => .const c
  | .neg a => .neg (a.subst s)
  | .add a b => .add (a.subst s) (b.subst s)
  | .sub a b => .sub (a.subst s) (b.subst s)
  | .mul a b => .mul (a.subst s) (b.subst s)
  | .div a b => .div (a.subst s) (b.subst s)
  | .exp a => .exp (a.subst s)
  | .log a => .log (a.subst s)
  | .sqrt a => .sqrt (a.subst s)
  | .max a b => .max (a.subst s) (b.subst s)
  | .min a b => .min (a.subst s) (b.subst s)
  | .sel c d a b => .sel (c.subst s) (d.subst s) (a.subst s) (b.subst s)
  | .stop a => .stop (a.subst s)

/-! ### The programs of the code -/

section
variable {K : Type*} [Field K] [LinearOrder K]

/-- `jnp.clip` as a program. -/
def clipProg {ι : Type*} (lo hi : Option K) (e : Ex K ι) : Ex K ι :=
  let y := match lo with
    | some a => Ex.max e (.const a)
    | none => e
  match hi with
  | some b => Ex.min y (.const b)
  | none => y

/-- `p_next` of `residuals` as a program in `(pmulti, u_p_c)` (modifiedcamclay.py:458-460). -/
def mccPProg (fn : MathFns K) (pr : MCCParams K) (t : MCCTrial K) (pcPrev : K) : Ex K (Fin 2) :=
  let deV := if t.yf > 0 then t.deV else 0
  let pPrev := if t.yf > 0 then t.pPrev else 1
  let pcP := if t.yf > 0 then pcPrev else 2
  .mul (.const pPrev) (.exp (.div (.sub (.const deV) (.mul (.const pr.cp) (.sub (.var 1) (.const (fn.log pcP))))) (.const pr.kap)))

/-- `1 + 6 G_next pmulti` (modifiedcamclay.py:462-466) with `get_K` and `get_G` (70-81). -/
def mccDenProg (fn : MathFns K) (pr : MCCParams K) (t : MCCTrial K) (pcPrev : K) : Ex K (Fin 2) :=
  let Kb := clipProg pr.KMin pr.KMax (.mul (.const (1 / pr.kap)) (.max (mccPProg fn pr t pcPrev) (.const 1)))
  let G := Ex.mul (.const (3 * (1 - 2 * pr.nu) / (2 * (1 + pr.nu)))) Kb
  .add (.const 1) (.mul (.mul (.const 6) G) (.var 0))

/-- The residuals of the Cam-Clay law as programs in `(pmulti, u_p_c)` (modifiedcamclay.py:454-488), the function given to
`jax.jacfwd` (497-500). Everything that does not depend on the two unknowns is a constant. -/
def mccProg (fn : MathFns K) (pr : MCCParams K) (t : MCCTrial K) (pcPrev : K) : Fin 2 → Ex K (Fin 2) :=
  let pcP := if t.yf > 0 then pcPrev else 2
  let qTr := max (if t.yf > 0 then t.qTr else 1) (1 / 10 ^ 6)
  let dpv := Ex.mul (.const pr.cp) (.sub (.var 1) (.const (fn.log pcP)))
  let p := mccPProg fn pr t pcPrev
  let q := Ex.mul (.const qTr) (.div (.const 1) (mccDenProg fn pr t pcPrev))
  let fr := Ex.mul (.mul (.var 0) (.sub (.mul (.const 2) p) (.exp (.var 1)))) (.const (pr.M ^ 2))
  let yf := Ex.sub (.add (.div (.mul q q) (.const (pr.M * pr.M))) (.mul p p)) (.mul (.exp (.var 1)) p)
  ![.div yf (.const t.KTr), .div (.sub fr dpv) (.const 1)]

/-- `jax.jacfwd` of the Cam-Clay residuals as the operation used by the Newton loop. -/
def mccAdOps (fn : MathFns K) (pr : MCCParams K) (t : MCCTrial K) (pcPrev : K) (bad : (Fin 2 → K) → Bool) : NewtonOps K :=
  ⟨fun _ => jacfwd (fieldAd fn) (mccProg fn pr t pcPrev), bad⟩

/-- `factor` of the inertial law (UEPI_MCC.py:393): its denominator. -/
def uepiDenProg (t : UepiTrial K) : Ex K (Fin 2) := .add (.const 1) (.mul (.const (6 * t.Gc)) (.var 0))

/-- `I_p_next` as a program in `(pmulti, u_p_s)` (UEPI_MCC.py:390-404) with `get_plastic_inertial_number` (88-91). -/
def uepiIProg (pr : UepiParams K) (t : UepiTrial K) (dt : K) : Ex K (Fin 2) :=
  let qTr := max t.qTr (1 / 10 ^ 6)
  let q := Ex.mul (.const qTr) (.div (.const 1) (uepiDenProg t))
  let dsp := Ex.mul (.mul (.const 2) (.var 0)) q
  .mul (.mul (.div dsp (.const dt)) (.const pr.d))
    (.sqrt (.div (.const pr.rhoP) (.max (.max (.exp (.var 1)) (.const pr.pRef)) (.const (1 / 10 ^ 12)))))

/-- `deps_p_v` (UEPI_MCC.py:406-410). -/
def uepiDpvProg (fn : MathFns K) (pr : UepiParams K) (t : UepiTrial K) (st : UepiState K) (dt : K) : Ex K (Fin 2) :=
  .sub (.mul (.const (pr.lam - pr.kap)) (.sub (.var 1) (.const (fn.log (max st.ps 1)))))
    (.div (.sub (uepiIProg pr t dt) (.const st.I)) (.const pr.Iv))

/-- The residuals of the inertial law as programs in `(pmulti, u_p_s)` (UEPI_MCC.py:387-423), the function given to `jax.jacfwd`
(430-433). -/
def uepiProg (fn : MathFns K) (pr : UepiParams K) (t : UepiTrial K) (st : UepiState K) (dt : K) : Fin 2 → Ex K (Fin 2) :=
  let qTr := max t.qTr (1 / 10 ^ 6)
  let q := Ex.mul (.const qTr) (.div (.const 1) (uepiDenProg t))
  let I := uepiIProg pr t dt
  let dpv := uepiDpvProg fn pr t st dt
  let ps := Ex.exp (.var 1)
  let p := Ex.mul (.const (max t.pPrev 1)) (.exp (.div (.sub (.const t.deV) dpv) (.const pr.kap)))
  let fr := Ex.mul (.mul (.var 0) (.mul (.const 2) (.sub p ps))) (.const (pr.Mcsl ^ 2))
  let MI := Ex.add (.const 1) (.mul I (.div (.const (pr.Minf / pr.Mcsl - 1)) (.add (.const pr.IM) I)))
  let Miss := Ex.mul (.const pr.Mcsl) MI
  let yf := Ex.sub (.add (.div (.mul q q) (.mul Miss Miss)) (.mul p p)) (.mul (.mul ps (.const 2)) p)
  ![yf, .mul (.sub fr dpv) (.const (10 ^ 4))]

/-- `jax.jacfwd` of the residuals of the inertial law as the operation used by its Newton loop. -/
def uepiAdOps (fn : MathFns K) (pr : UepiParams K) (t : UepiTrial K) (st : UepiState K) (dt : K) (bad : (Fin 2 → K) → Bool) :
    NewtonOps K :=
  ⟨fun _ => jacfwd (fieldAd fn) (uepiProg fn pr t st dt), bad⟩

/-- `safe_inv_scalar_clamped` as a program (math_helpers.py:595-622). `jnp.abs` is applied to a negative number, so it is a
change of sign. -/
def safeInvProg {ι : Type*} (clip : K) (d : Ex K ι) : Ex K ι :=
  let ds := Ex.add d (.mul (.const (1 / 10 ^ 20)) (.sel d (.const 0) (.const 1) (.const (-1))))
  let inv := Ex.div (.const 1) ds
  let g := Ex.div (.const (-1)) (.mul ds ds)
  let scale := Ex.min (.const 1) (.div (.const clip) (.add (.neg g) (.const (1 / 10 ^ 12))))
  let slope := Ex.stop (.mul g scale)
  .add (.mul d slope) (.stop (.sub inv (.mul d slope)))

/-- `get_double_contraction(A, A)` for the tensor of the inputs (math_helpers.py:54-60). -/
def contrProg (zero : K) : Ex K (Fin 3 × Fin 3) :=
  [((0 : Fin 3), (0 : Fin 3)), (0, 1), (0, 2), (1, 0), (1, 1), (1, 2), (2, 0), (2, 1), (2, 2)].foldr
    (fun k e => .add (.mul (.var k) (.var k)) e) (.const zero)

/-- `get_q_vm(dev_stress=s)` (math_helpers.py:105-139) as a program in the components of `s`. -/
def qProg : Ex K (Fin 3 × Fin 3) := .sqrt (.mul (.const 3) (.mul (.const (1 / 2)) (contrProg 0)))

/-- `sqrt_J2_tr` of the Drucker-Prager law (druckerprager.py:144). -/
def dpSqrtProg : Ex K (Fin 3 × Fin 3) := .sqrt (.max (.mul (.const (1 / 2)) (contrProg 0)) (.const (1 / 10 ^ 12)))

/-- `dot_gamma` of the mu(I) law (mu_i_rheology.py:152). -/
def dotGammaProg : Ex K (Fin 3 × Fin 3) := .sqrt (.mul (.const 2) (contrProg 0))

/-- `get_shear_strain_vm(dev_strain=e)` (math_helpers.py:195-222). -/
def shearVmProg : Ex K (Fin 3 × Fin 3) := .sqrt (.add (.mul (.const (2 / 3)) (contrProg 0)) (.const (1 / 10 ^ 16)))

/-- `safe_norm` (math_helpers.py:639-644) of the inputs. -/
def safeNormProg {n : ℕ} (eps : K) : Ex K (Fin n) :=
  .sqrt (.add ((List.finRange n).foldr (fun k e => .add (.mul (.var k) (.var k)) e) (.const 0)) (.const eps))

/-- `q_tr_safe` of the Cam-Clay law (modifiedcamclay.py:443-449) with `is_ep` (430) the sign of the number `yf`. -/
def qSafeProg (yf : K) : Ex K (Fin 3 × Fin 3) :=
  .max (.sel (.const (-yf)) (.const 0) (.const 1) qProg) (.const (1 / 10 ^ 6))

/-- The deviatoric strain increment of a triaxial step in its lateral rate (triaxial_test.py:61-64, modifiedcamclay.py:387-422). -/
def triaxDevProg (dt rate : K) : Fin 3 × Fin 3 → Ex K (Fin 1) := fun i =>
  let x := Ex.mul (.var 0) (.const dt)
  let m := Ex.div (.add (.add x x) (.const (rate * dt))) (.const 3)
  if i.1 = i.2 then (if i.1 = 2 then .sub (.const (rate * dt)) m else .sub x m) else .const 0

end

/-- The deviatoric trial stress `2 G deps + s_prev` (modifiedcamclay.py:65-67, 426) from programs for the two factors. -/
def trialDevProg {V ι : Type*} (G2 : Ex V ι) (e : Fin 3 × Fin 3 → Ex V ι) (s : Fin 3 × Fin 3 → V) (i : Fin 3 × Fin 3) : Ex V ι :=
  .add (.mul G2 (e i)) (.const (s i))

end Hydrax
