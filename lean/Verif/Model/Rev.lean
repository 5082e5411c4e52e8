import Verif.Model.MulRev

/-!
# Reverse functions `sqr_rev`, `abs_rev`, `pown_rev` and `cosh_rev`

`p1788/flavor/infsup/setbased/mpfr_bin_ieee754_flavor_rev_func_impl.hpp`.
-/

namespace P1788
open Classical

/-- The stored result of a rounded operation differs from the exact value `v`: the ternary value is non-zero.
E.g. `_rev_func_impl.hpp:67-75`. -/
noncomputable def FP.differs (r : FP) (v : ℝ) : Bool :=
  match r with
  | .fin q => decide ((q:ℝ) ≠ v)
  | .nzero => decide (v ≠ 0)
  | _ => true

/-- Ternary value (`true`: non-zero) of a rounded unary function; zeros, infinities and NaN are exact
(used for `mpfr_sqrt` and `mpfr_root`, for which this holds). E.g. `_rev_func_impl.hpp:67-75`. -/
noncomputable def Fmt.unX (φ : Fmt) (m : Rnd) (f : ℝ → ℝ) (a : FP) : Bool :=
  match a with
  | .fin q => (φ.round m (f q)).differs (f q)
  | _ => false

/-- Ternary value of `subnormalize(mpfr_sqrt(..))`. `_rev_func_impl.hpp:67-75`. -/
noncomputable def Fmt.sqrtX (φ : Fmt) (m : Rnd) (a : FP) : Bool := φ.unX m Real.sqrt a

/-- Ternary value of `subnormalize(mpfr_acosh(..))`. `_rev_func_impl.hpp:1393-1401`. -/
noncomputable def Fmt.acoshX (φ : Fmt) (m : Rnd) (a : FP) : Bool := φ.unX m Real.arcosh a

/-- The last part of `sqr_rev`, `cosh_rev` and of `pown_rev` for negative even exponents: the branch `p` and its mirror
image, each dropped if it only touches `x` in a rounded bound, cut with `x`; `_rev_func_impl.hpp:77-90`. -/
def Itv.revHull (p x : Itv) (tl tu : Bool) : Itv :=
  ((p.dropIf x tl tu).inter x).hull (((Fmt.negI p).dropIf x tu tl).inter x)

/-- `sqr_rev` ( bare interval ), `_rev_func_impl.hpp:43-91`. -/
noncomputable def Itv.sqrRev (φ : Fmt) (c x : Itv) : Itv :=
  if !c.isValid || !x.isValid || c.isEmpty || x.isEmpty || c.hi.ltb (.fin 0) then Itv.empty
  else if c.lo < .fin 0 then
    (Itv.mk (.fin 0) (φ.sqrt .U c.hi)).revHull x false (φ.sqrtX .U c.hi)
  else
    (Itv.mk (φ.sqrt .D c.lo) (φ.sqrt .U c.hi)).revHull x (φ.sqrtX .D c.lo) (φ.sqrtX .U c.hi)

/-- `cosh_rev` ( bare interval ), `_rev_func_impl.hpp:1369-1417`. -/
noncomputable def Itv.coshRev (φ : Fmt) (c x : Itv) : Itv :=
  if !c.isValid || !x.isValid || c.isEmpty || x.isEmpty || c.hi.ltb (.fin 1) then Itv.empty
  else if c.lo < .fin 1 then
    (Itv.mk (.fin 0) (φ.acosh .U c.hi)).revHull x false (φ.acoshX .U c.hi)
  else
    (Itv.mk (φ.acosh .D c.lo) (φ.acosh .U c.hi)).revHull x (φ.acoshX .D c.lo) (φ.acoshX .U c.hi)

/-- `abs_rev` ( bare interval ), `_rev_func_impl.hpp:198-214`; `std::max(0.0, c.first)` is `0.0 < c.first ? c.first : 0.0`.
(The call only compiles for `T = double`.) -/
def Itv.absRev (c x : Itv) : Itv :=
  if !c.isValid || !x.isValid || c.isEmpty || x.isEmpty then Itv.empty
  else if c.hi < .fin 0 then Itv.empty
  else
    let p : Itv := ⟨if .fin 0 < c.lo then c.lo else .fin 0, c.hi⟩
    (p.inter x).hull ((Fmt.negI p).inter x)

/-- The real `n`-th root as computed by `mpfr_root` (negative arguments only for odd `n`).
`_rev_func_impl.hpp:329, 334, 365, 370`. -/
noncomputable def rootR (n : ℕ) (c : ℝ) : ℝ := if c < 0 then -((-c) ^ ((n:ℝ)⁻¹)) else c ^ ((n:ℝ)⁻¹)

/-- `subnormalize(mpfr_root(x, a, n, m), m)`.  Where the code does not call `subnormalize` (`pown_rev_inf/sup`) the roots
have `n = 1` (exact) or lie in the normal range, so that it has no effect. `_rev_func_impl.hpp:329, 334, 365, 370`. -/
noncomputable def Fmt.root (φ : Fmt) (m : Rnd) (n : ℕ) (a : FP) : FP :=
  match a with
  | .nan => .nan
  | .ninf => if n % 2 = 0 then .nan else .ninf
  | .pinf => .pinf
  | .nzero => .nzero
  | .fin q => if q < 0 ∧ n % 2 = 0 then .nan else φ.round m (rootR n q)

/-- `mpfr_nextabove` followed by `subnormalize(0, MPFR_RNDU)`: the least number of the format above `a`.
`_rev_func_impl.hpp:343, 388`. -/
def Fmt.nextUp (φ : Fmt) (a : FP) : FP :=
  match a with
  | .nan => .nan
  | .ninf => .fin (-φ.maxFin)
  | .pinf => .pinf
  | .nzero => .fin (2 ^ φ.qmin)
  | .fin q => φ.round .U (q + 2 ^ (φ.qmin - 1))

/-- `mpfr_nextbelow` followed by `subnormalize(0, MPFR_RNDD)`. `_rev_func_impl.hpp:352, 379`. -/
def Fmt.nextDown (φ : Fmt) (a : FP) : FP := (φ.nextUp a.neg).neg

/-- `mpfr_regular_p`: neither NaN, infinite nor zero. `_rev_func_impl.hpp:345, 381`. -/
def FP.regular : FP → Bool
  | .fin q => decide (q ≠ 0)
  | _ => false

/-- `t1 = mpfr_pow_si(cm, x, p, m); t = mpfr_cmp(c, cm); if (t == 0) t = t1;`, `_rev_func_impl.hpp:346-348, 382-384`:
the sign of `t` for regular `x` and `m` one of the directed modes.  (`mpfr_pow_si` is not followed by `subnormalize` in
the code.  The power of the model is rounded to the format; since `c` belongs to the format, both have the same relation
to `c`.) -/
def Fmt.revSgn (φ : Fmt) (m : Rnd) (c x : FP) (p : ℤ) : ℤ :=
  let cm := φ.powSi m x p
  if c < cm then -1
  else if cm < c then 1
  else if cm = .fin (x.q ^ p) then 0
  else (match m with | .D => -1 | _ => 1)

/-- `for (;;) { x = nxt(x); if (!go(x)) break; } return done(x) ? (x, 0) : (back(x), ±1)`: the loop is given by the number
of its iterations; a loop that does not end would yield NaN (`revInfLoop_spec`, `revSupLoop_spec` show that this does not
happen). `_rev_func_impl.hpp:340-354, 376-390`. -/
noncomputable def FP.loop (nxt back : FP → FP) (go done : FP → Prop) (x : FP) : FP × Bool :=
  if h : ∃ k : ℕ, ¬go (nxt^[k+1] x) then
    let y := nxt^[Nat.find h + 1] x
    if done y then (y, false) else (back y, true)
  else (.nan, true)

/-- The loop of `pown_rev_inf`, `_rev_func_impl.hpp:340-354`: `x` is increased until it is no longer regular or `x ^ p`
is at most `c`; then either `x ^ p = c` (result 0) or `x` is decreased again (result -1). -/
noncomputable def Fmt.revInfLoop (φ : Fmt) (c x : FP) (p : ℤ) : FP × Bool :=
  FP.loop φ.nextUp φ.nextDown (fun y => y.regular = true ∧ φ.revSgn .U c y p < 0)
    (fun y => y.regular = true ∧ φ.revSgn .U c y p = 0) x

/-- `pown_rev_inf`, `_rev_func_impl.hpp:321-355`, for `p < 0` with `-p` not overflowing: the lower bound and its ternary
value (`true`: non-zero).  For `p = -1` the quotient is not subnormalised before it is converted to the number type with the
same rounding mode, which gives the same number. -/
noncomputable def Fmt.pownRevInf (φ : Fmt) (c : FP) (p : ℤ) : FP × Bool :=
  let n := (-p).toNat
  let r := φ.root .U n c
  let t1 := match c with | .fin q => r.differs (rootR n q) | _ => false
  let x := φ.div .D (.fin 1) r
  let t := φ.divX .D (.fin 1) r || t1
  if p = -1 ∨ t = false then (x, t) else φ.revInfLoop c x p

/-- The loop of `pown_rev_sup`, `_rev_func_impl.hpp:376-390`. -/
noncomputable def Fmt.revSupLoop (φ : Fmt) (c x : FP) (p : ℤ) : FP × Bool :=
  FP.loop φ.nextDown φ.nextUp (fun y => y.regular = true ∧ 0 < φ.revSgn .D c y p)
    (fun y => y.regular = true ∧ φ.revSgn .D c y p = 0) x

/-- `pown_rev_sup`, `_rev_func_impl.hpp:357-391`. -/
noncomputable def Fmt.pownRevSup (φ : Fmt) (c : FP) (p : ℤ) : FP × Bool :=
  let n := (-p).toNat
  let r := φ.root .D n c
  let t1 := match c with | .fin q => r.differs (rootR n q) | _ => false
  let x := φ.div .U (.fin 1) r
  let t := φ.divX .U (.fin 1) r || t1
  if p = -1 ∨ t = false then (x, t) else φ.revSupLoop c x p

/-- `pown_rev` ( bare interval ), `_rev_func_impl.hpp:393-555`, without the undefined `-p` for `p = INT_MIN`. -/
noncomputable def Itv.pownRevV (φ : Fmt) (c x : Itv) (p : ℤ) : Itv :=
  if !c.isValid || !x.isValid || c.isEmpty || x.isEmpty then Itv.empty
  else if p = 0 then (if c.isMember (.fin 1) then x else Itv.empty)
  else if p = 1 then x.inter c
  else if p % 2 = 0 then
    if p < 0 then
      if c.hi ≤ .fin 0 then Itv.empty
      else
        let cl : FP := if c.lo ≤ .fin 0 then .fin 0 else c.lo
        let xu := φ.pownRevSup cl p
        let xl := φ.pownRevInf c.hi p
        (Itv.mk xl.1 xu.1).revHull x xl.2 xu.2
    else if c.hi < .fin 0 then Itv.empty
    else if c.lo ≤ .fin 0 then
      let cu := φ.root .U p.toNat c.hi
      x.inter ⟨cu.neg, cu⟩
    else
      let cl := φ.root .D p.toNat c.lo
      let cu := φ.root .U p.toNat c.hi
      (x.inter ⟨cu.neg, cl.neg⟩).hull (x.inter ⟨cl, cu⟩)
  else if p < 0 then
    if c.lo.feq (.fin 0) = true ∧ c.hi.feq (.fin 0) = true then Itv.empty
    else if .fin 0 ≤ c.lo ∨ c.hi ≤ .fin 0 then
      let xu := if c.lo.feq (.fin 0) = true then (FP.pinf, false) else φ.pownRevSup c.lo p
      let xl := if c.hi.feq (.fin 0) = true then (FP.ninf, false) else φ.pownRevInf c.hi p
      x.inter ((Itv.mk xl.1 xu.1).dropIf x xl.2 xu.2)
    else
      let xu := φ.pownRevSup c.lo p
      let xl := φ.pownRevInf c.hi p
      (x.inter ((Itv.mk .ninf xu.1).dropIf x false xu.2)).hull (x.inter ((Itv.mk xl.1 .pinf).dropIf x xl.2 false))
  else x.inter ⟨φ.root .D p.toNat c.lo, φ.root .U p.toNat c.hi⟩

/-- The value `INT_MIN` of the type of the exponent. `_rev_func_impl.hpp:393-395`. -/
def intMin : ℤ := -2147483648

/-- `pown_rev` ( bare interval ), `_rev_func_impl.hpp:393-555`.  For `p = INT_MIN` the expression `-p` in `pown_rev_inf` and
`pown_rev_sup` (lines 327 and 363) overflows: undefined behaviour, `none`.  It is reached unless an earlier test returns. -/
noncomputable def Itv.pownRev (φ : Fmt) (c x : Itv) (p : ℤ) : Option Itv :=
  if p = intMin ∧ (!c.isValid || !x.isValid || c.isEmpty || x.isEmpty) = false ∧ ¬c.hi ≤ .fin 0 then none
  else some (c.pownRevV φ x p)

/-! ## Mixed-type, decorated and unary versions

All reverse functions use the same wrappers; the line numbers are those of `sqr_rev`. -/

/-- Mixed-type version of a reverse function, `_rev_func_impl.hpp:93-120`. -/
def Itv.revMixed (f : Fmt → Itv → Itv → Itv) (T T1 T2 : NumTy) (c x : Itv) : Itv :=
  if !c.isValid || !x.isValid || c.isEmpty || x.isEmpty then Itv.empty
  else
    let TMax := (T.maxPrec [T1, T2]).fmt
    T.fmt.convertHull (f TMax (TMax.convertHull c) (TMax.convertHull x))

/-- Decorated version of a reverse function, `_rev_func_impl.hpp:122-133`. -/
def DItv.rev (f : Itv → Itv → Itv) (c x : DItv) : DItv :=
  if !c.isValid || !x.isValid || c.isNai || x.isNai then DItv.nai
  else ⟨f c.itv x.itv, .trv⟩

/-- Decorated mixed-type version of a reverse function, `_rev_func_impl.hpp:135-151`. -/
def DItv.revMixed (f : Fmt → Itv → Itv → Itv) (T T1 T2 : NumTy) (c x : DItv) : DItv :=
  DItv.rev (Itv.revMixed f T T1 T2) c x

/-- Unary versions, `_rev_func_impl.hpp:154-192`: `x = entire()` resp. `entire_dec()`. -/
def Itv.rev1 (f : Itv → Itv → Itv) (c : Itv) : Itv := f c .entire
/-- The decorated unary versions, `_rev_func_impl.hpp:154-192`. -/
def DItv.rev1 (f : DItv → DItv → DItv) (c : DItv) : DItv := f c DItv.entire

/-- `pown_rev` ( bare interval ) mixed type, `_rev_func_impl.hpp:557-586`. -/
noncomputable def Itv.pownRevMixed (T T1 T2 : NumTy) (c x : Itv) (p : ℤ) : Option Itv :=
  if !c.isValid || !x.isValid || c.isEmpty || x.isEmpty then some Itv.empty
  else
    let TMax := (T.maxPrec [T1, T2]).fmt
    ((TMax.convertHull c).pownRev TMax (TMax.convertHull x) p).map T.fmt.convertHull

/-- `pown_rev` ( decorated interval ), `_rev_func_impl.hpp:588-600`. -/
noncomputable def DItv.pownRev (φ : Fmt) (c x : DItv) (p : ℤ) : Option DItv :=
  if !c.isValid || !x.isValid || c.isNai || x.isNai then some DItv.nai
  else (c.itv.pownRev φ x.itv p).map (fun r => ⟨r, .trv⟩)

/-- `pown_rev` ( decorated interval ) mixed type, `_rev_func_impl.hpp:602-619`. -/
noncomputable def DItv.pownRevMixed (T T1 T2 : NumTy) (c x : DItv) (p : ℤ) : Option DItv :=
  if !c.isValid || !x.isValid || c.isNai || x.isNai then some DItv.nai
  else (Itv.pownRevMixed T T1 T2 c.itv x.itv p).map (fun r => ⟨r, .trv⟩)

/-- Unary versions of `pown_rev`, `_rev_func_impl.hpp:622-660`. -/
noncomputable def Itv.pownRev1 (φ : Fmt) (c : Itv) (p : ℤ) : Option Itv := c.pownRev φ .entire p
/-- The decorated unary version of `pown_rev`, `_rev_func_impl.hpp:622-660`. -/
noncomputable def DItv.pownRev1 (φ : Fmt) (c : DItv) (p : ℤ) : Option DItv := c.pownRev φ DItv.entire p

end P1788
