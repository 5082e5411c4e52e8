import Verif.Model.Rev
import Verif.Model.Num
import Verif.Model.Trig

/-!
# Reverse functions `sin_rev`, `cos_rev` and `tan_rev`

`p1788/flavor/infsup/setbased/mpfr_bin_ieee754_flavor_rev_func_impl.hpp:665-1367`.
The mixed-type, decorated and unary versions are those of `Verif.Model.Rev`
(`sin_rev`: 808-906, `cos_rev`: 1055-1153, `tan_rev`: 1266-1364).
-/

namespace P1788

/-- Underflow of MPFR itself (directed modes): a non-zero result below the least positive number of the format. -/
def Fmt.underflow (φ : Fmt) (m : Rnd) : FP → FP
  | .fin v =>
    if 0 < v ∧ v < 2 ^ φ.qmin then (if m = .U then .fin (2 ^ φ.qmin) else .fin 0)
    else if -2 ^ φ.qmin < v ∧ v < 0 then (if m = .D then .fin (-2 ^ φ.qmin) else .nzero)
    else .fin v
  | a => a

/-- Correct rounding by an MPFR function without subsequent `mpfr_subnormalize`. E.g. `_rev_func_impl.hpp:695-696`. -/
noncomputable def Fmt.rndMP (φ : Fmt) (m : Rnd) (w : ℝ) : FP := φ.underflow m (φ.roundNS m w)

/-- `mpfr_asin`, `mpfr_acos`, `mpfr_atan` (the function `f`, with limits `vn`, `vp` at the infinities) without subsequent
`mpfr_subnormalize`, on the arguments on which they are called here.
`_rev_func_impl.hpp:695-696, 942-943, 1177-1178`. -/
noncomputable def Fmt.arcNS (φ : Fmt) (m : Rnd) (f : ℝ → ℝ) (vn vp : ℝ) : FP → FP
  | .nan => .nan
  | .ninf => φ.rndMP m vn
  | .pinf => φ.rndMP m vp
  | .nzero => if f 0 = 0 then .nzero else φ.rndMP m (f 0)
  | .fin q => φ.rndMP m (f q)

/-- `mpfr_fma` of finite numbers without subsequent `mpfr_subnormalize`. `_rev_func_impl.hpp:735-736, 745-746`. -/
noncomputable def Fmt.fmaNS (φ : Fmt) (m : Rnd) (a b c : FP) : FP :=
  if a.q * b.q + c.q = 0 then
    (if a.q * b.q = 0 ∧ (a.signbit != b.signbit) = c.signbit then FP.mkZero c.signbit else FP.mkZero (decide (m = .D)))
  else φ.roundNS m ((a.q * b.q + c.q : ℚ) : ℝ)

/-- The quotient returned by `mpfr_remquo`: the low bits of the integer `q` (as many as a `long` has, minus one), with
the sign of `q`. `_rev_func_impl.hpp:725, 773, 972, 1020`. -/
def quoLow (q : ℤ) : ℤ := q.sign * ((q.natAbs % 2 ^ 63 : ℕ) : ℤ)

/-- `mpfr_remquo(tmp, &n, x, y, ..); if (tmp < 0) --n;`, e.g. `_rev_func_impl.hpp:724-727`.  The remainder of two numbers of
the format is exact, its sign is that of `x - q * y`.  (The `long` arithmetic on `n` is modelled in `ℤ`; it could only
overflow if the low 63 bits of the quotient are all ones.) -/
def floorQuo (x y : ℚ) : ℤ :=
  let q := roundInt .N (x / y)
  if x - q * y < 0 then quoLow q - 1 else quoLow q

/-- `mpfr_remquo(tmp, &n, x, y, ..); if (tmp > 0) ++n;`, e.g. `_rev_func_impl.hpp:772-775`. -/
def ceilQuo (x y : ℚ) : ℤ :=
  let q := roundInt .N (x / y)
  if 0 < x - q * y then quoLow q + 1 else quoLow q

/-- `tmp.set(k, MPFR_RNDN)`, two `mpfr_fma` and the conversion to the number type: the branch moved by `k * pi`, e.g.
`_rev_func_impl.hpp:733-739`.  `a`, `b`: the bounds of pi used for the lower and the upper bound. -/
noncomputable def Fmt.shiftBox (φ : Fmt) (k : ℤ) (a b cl cu : FP) : Itv :=
  let t := φ.round .N (k : ℚ)
  ⟨φ.conv .D (φ.fmaNS .D t a cl), φ.conv .U (φ.fmaNS .U t b cu)⟩

/-- The mirrored branch (`tmp` is minus the number of periods), e.g. `_rev_func_impl.hpp:743-749`. -/
noncomputable def Fmt.mirrorBox (φ : Fmt) (k : ℤ) (a b cl cu : FP) : Itv :=
  let t := φ.round .N (k : ℚ)
  ⟨(φ.conv .D (φ.fmaNS .U t a cu)).neg, (φ.conv .U (φ.fmaNS .D t b cl)).neg⟩

/-- The branches of `sin_rev` (`_rev_func_impl.hpp:731-750`, `779-798`). -/
noncomputable def Fmt.sinBox (φ : Fmt) (cl cu : FP) (k : ℤ) (a b : FP) : Itv :=
  if k % 2 = 0 then φ.shiftBox k a b cl cu else φ.mirrorBox (-k) a b cl cu

/-- The branches of `cos_rev` (`_rev_func_impl.hpp:978-997`, `1026-1045`). -/
noncomputable def Fmt.cosBox (φ : Fmt) (cl cu : FP) (k : ℤ) (a b : FP) : Itv :=
  if k % 2 = 0 then φ.shiftBox k a b cl cu else φ.mirrorBox (-k - 1) a b cl cu

/-- The branches of `tan_rev` (`_rev_func_impl.hpp:1214-1220`, `1250-1256`). -/
noncomputable def Fmt.tanBox (φ : Fmt) (cl cu : FP) (k : ℤ) (a b : FP) : Itv := φ.shiftBox k a b cl cu

/-- `for (i = 0; is_empty(box) && i <= 1; i++) box = intersection(.., x)`. `_rev_func_impl.hpp:729-751, 777-799`. -/
def Itv.firstOf (b b' x : Itv) : Itv := if (b.inter x).isEmpty then b'.inter x else b.inter x

/-- The left box of the result, e.g. `_rev_func_impl.hpp:714-754`. -/
noncomputable def Fmt.leftBox (φ : Fmt) (box : ℤ → FP → FP → Itv) (x : Itv) : Itv :=
  if x.lo.feq .ninf = true then ⟨.ninf, .fin (-φ.maxFin)⟩
  else if x.lo < .fin 0 then
    let n := floorQuo x.lo.q (φ.constPi .D).q
    (box n (φ.constPi .U) (φ.constPi .D)).firstOf (box (n + 1) (φ.constPi .U) (φ.constPi .D)) x
  else
    let n := floorQuo x.lo.q (φ.constPi .U).q
    (box n (φ.constPi .D) (φ.constPi .U)).firstOf (box (n + 1) (φ.constPi .D) (φ.constPi .U)) x

/-- The right box of the result, e.g. `_rev_func_impl.hpp:762-802`; `quo` is `ceilQuo` in `sin_rev` and `tan_rev`,
`floorQuo` in `cos_rev`. -/
noncomputable def Fmt.rightBox (φ : Fmt) (quo : ℚ → ℚ → ℤ) (box : ℤ → FP → FP → Itv) (x : Itv) : Itv :=
  if x.hi.feq .pinf = true then ⟨.fin φ.maxFin, .pinf⟩
  else if .fin 0 < x.hi then
    let n := quo x.hi.q (φ.constPi .D).q
    (box n (φ.constPi .D) (φ.constPi .U)).firstOf (box (n - 1) (φ.constPi .D) (φ.constPi .U)) x
  else
    let n := quo x.hi.q (φ.constPi .U).q
    (box n (φ.constPi .U) (φ.constPi .D)).firstOf (box (n - 1) (φ.constPi .U) (φ.constPi .D)) x

/-- `sin_rev` ( bare interval ), `_rev_func_impl.hpp:667-806`. -/
noncomputable def Itv.sinRev (φ : Fmt) (c x : Itv) : Itv :=
  if !c.isValid || !x.isValid || x.isEmpty then Itv.empty
  else
    let cc := c.inter ⟨.fin (-1), .fin 1⟩
    if cc.isEmpty then cc
    else if cc.equal ⟨.fin (-1), .fin 1⟩ then x
    else
      let box := φ.sinBox (φ.arcNS .D Real.arcsin 0 0 cc.lo) (φ.arcNS .U Real.arcsin 0 0 cc.hi)
      (φ.leftBox box x).hull (φ.rightBox ceilQuo box x)

/-- `cos_rev` ( bare interval ), `_rev_func_impl.hpp:914-1053`. -/
noncomputable def Itv.cosRev (φ : Fmt) (c x : Itv) : Itv :=
  if !c.isValid || !x.isValid || x.isEmpty then Itv.empty
  else
    let cc := c.inter ⟨.fin (-1), .fin 1⟩
    if cc.isEmpty then cc
    else if cc.equal ⟨.fin (-1), .fin 1⟩ then x
    else
      let box := φ.cosBox (φ.arcNS .D Real.arccos 0 0 cc.hi) (φ.arcNS .U Real.arccos 0 0 cc.lo)
      (φ.leftBox box x).hull (φ.rightBox floorQuo box x)

/-- `tan_rev` ( bare interval ), `_rev_func_impl.hpp:1158-1264`. -/
noncomputable def Itv.tanRev (φ : Fmt) (c x : Itv) : Itv :=
  if !c.isValid || !x.isValid || c.isEmpty || x.isEmpty then Itv.empty
  else
    let box := φ.tanBox (φ.arcNS .D Real.arctan (-(Real.pi / 2)) (Real.pi / 2) c.lo)
      (φ.arcNS .U Real.arctan (-(Real.pi / 2)) (Real.pi / 2) c.hi)
    (φ.leftBox box x).hull (φ.rightBox ceilQuo box x)

end P1788
