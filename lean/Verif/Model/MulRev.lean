import Verif.Model.Cancel

/-!
# Reverse multiplication

`p1788/flavor/infsup/setbased/mpfr_bin_ieee754_flavor_mul_rev_to_pair_func_impl.hpp` and the `mul_rev` part of
`mpfr_bin_ieee754_flavor_rev_func_impl.hpp`.
-/

namespace P1788

/-- `x.subnormalize(mpfr_div(x, a, b, m), m) != 0`: the ternary value of the rounded division is non-zero, i.e. the
stored result differs from the exact quotient (MPFR manual; divisions with a zero or infinite operand are exact).
`_mul_rev_to_pair_func_impl.hpp:43-200`. -/
def Fmt.divX (φ : Fmt) (m : Rnd) (a b : FP) : Bool :=
  match a, b with
  | .nan, _ => false
  | _, .nan => false
  | a, b =>
    if a.isInf || b.isInf || a.isZero || b.isZero then false
    else match φ.div m a b with
      | .fin r => decide (r ≠ a.q / b.q)
      | _ => true

/-- The result of the private `mul_rev_to_pair`: two intervals and the ternary flags `t_fl`, `t_fu`, `t_sl`, `t_su`
(`true` means non-zero). `mpfr_bin_ieee754_flavor.hpp:127-160`. -/
structure RevPair where
  fst : Itv
  snd : Itv
  fl : Bool := false
  fu : Bool := false
  sl : Bool := false
  su : Bool := false

/-- `mul_rev_to_pair` ( bare interval ) private, `_mul_rev_to_pair_func_impl.hpp:42-245`. -/
def Fmt.mulRevPairT (φ : Fmt) (b c : Itv) : RevPair :=
  if !b.isValid || !c.isValid || b.isEmpty || c.isEmpty then ⟨.empty, .empty, false, false, false, false⟩
  else if c.isEntire then ⟨.entire, .empty, false, false, false, false⟩
  else if Fmt.isZeroItv c then
    ⟨if b.isMember (.fin 0) then .entire else ⟨.fin 0, .fin 0⟩, .empty, false, false, false, false⟩
  else if c.hi ≤ .fin 0 then
    if Fmt.isZeroItv b then
      ⟨if c.isMember (.fin 0) then .entire else .empty, .empty, false, false, false, false⟩
    else if b.lo < .fin 0 ∧ .fin 0 < b.hi ∧ c.hi < .fin 0 then
      ⟨⟨.ninf, φ.div .U c.hi b.hi⟩, ⟨φ.div .D c.hi b.lo, .pinf⟩,
        false, φ.divX .U c.hi b.hi, φ.divX .D c.hi b.lo, false⟩
    else if b.hi < .fin 0 then
      ⟨⟨φ.div .D c.hi b.lo, φ.div .U c.lo b.hi⟩, .empty, φ.divX .D c.hi b.lo, φ.divX .U c.lo b.hi, false, false⟩
    else if b.hi.feq (.fin 0) = true ∧ c.hi < .fin 0 then
      ⟨⟨φ.div .D c.hi b.lo, .pinf⟩, .empty, φ.divX .D c.hi b.lo, false, false, false⟩
    else if .fin 0 < b.lo then
      ⟨⟨φ.div .D c.lo b.lo, φ.div .U c.hi b.hi⟩, .empty, φ.divX .D c.lo b.lo, φ.divX .U c.hi b.hi, false, false⟩
    else if b.lo.feq (.fin 0) = true ∧ c.hi < .fin 0 then
      ⟨⟨.ninf, φ.div .U c.hi b.hi⟩, .empty, false, φ.divX .U c.hi b.hi, false, false⟩
    else ⟨.entire, .empty, false, false, false, false⟩
  else if .fin 0 ≤ c.lo then
    if Fmt.isZeroItv b then
      ⟨if c.isMember (.fin 0) then .entire else .empty, .empty, false, false, false, false⟩
    else if b.lo < .fin 0 ∧ .fin 0 < b.hi ∧ .fin 0 < c.lo then
      ⟨⟨.ninf, φ.div .U c.lo b.lo⟩, ⟨φ.div .D c.lo b.hi, .pinf⟩,
        false, φ.divX .U c.lo b.lo, φ.divX .D c.lo b.hi, false⟩
    else if b.hi < .fin 0 then
      ⟨⟨φ.div .D c.hi b.hi, φ.div .U c.lo b.lo⟩, .empty, φ.divX .D c.hi b.hi, φ.divX .U c.lo b.lo, false, false⟩
    else if b.hi.feq (.fin 0) = true ∧ .fin 0 < c.lo then
      ⟨⟨.ninf, φ.div .U c.lo b.lo⟩, .empty, false, φ.divX .U c.lo b.lo, false, false⟩
    else if .fin 0 < b.lo then
      ⟨⟨φ.div .D c.lo b.hi, φ.div .U c.hi b.lo⟩, .empty, φ.divX .D c.lo b.hi, φ.divX .U c.hi b.lo, false, false⟩
    else if b.lo.feq (.fin 0) = true ∧ .fin 0 < c.lo then
      ⟨⟨φ.div .D c.lo b.hi, .pinf⟩, .empty, φ.divX .D c.lo b.hi, false, false, false⟩
    else ⟨.entire, .empty, false, false, false, false⟩
  else if Fmt.isZeroItv b then ⟨.entire, .empty, false, false, false, false⟩
  else if b.hi < .fin 0 then
    ⟨⟨φ.div .D c.hi b.hi, φ.div .U c.lo b.hi⟩, .empty, φ.divX .D c.hi b.hi, φ.divX .U c.lo b.hi, false, false⟩
  else if .fin 0 < b.lo then
    ⟨⟨φ.div .D c.lo b.lo, φ.div .U c.hi b.lo⟩, .empty, φ.divX .D c.lo b.lo, φ.divX .U c.hi b.lo, false, false⟩
  else ⟨.entire, .empty, false, false, false, false⟩

/-- `mul_rev_to_pair` ( bare interval ), `_mul_rev_to_pair_func_impl.hpp:247-255`. -/
def Itv.mulRevToPair (φ : Fmt) (b c : Itv) : Itv × Itv :=
  ((φ.mulRevPairT b c).fst, (φ.mulRevPairT b c).snd)

/-- `mul_rev_to_pair` ( bare interval ) mixed type, `_mul_rev_to_pair_func_impl.hpp:259-284`.  The validity test at 269-270
only builds a temporary (the `return` is missing), so it has no effect. -/
def Itv.mulRevToPairMixed (T T1 T2 : NumTy) (b c : Itv) : Itv × Itv :=
  let TMax := (T.maxPrec [T1, T2]).fmt
  let res := (TMax.convertHull b).mulRevToPair TMax (TMax.convertHull c)
  (T.fmt.convertHull res.1, T.fmt.convertHull res.2)

/-- `mul_rev_to_pair` ( decorated interval ), `_mul_rev_to_pair_func_impl.hpp:287-307`. -/
def DItv.mulRevToPair (φ : Fmt) (b c : DItv) : DItv × DItv :=
  if !b.isValid || !c.isValid || b.isNai || c.isNai then (DItv.nai, DItv.nai)
  else
    let bare := b.itv.mulRevToPair φ c.itv
    let dec := Dec.min (Dec.min b.dec c.dec)
      (if DItv.isMember (.fin 0) b || bare.1.isEmpty then .trv else if bare.1.isCommon then .com else .dac)
    (⟨bare.1, dec⟩, ⟨bare.2, .trv⟩)

/-- `mul_rev_to_pair` ( decorated interval ) mixed type, `_mul_rev_to_pair_func_impl.hpp:309-335`; the NaI test at 319-321
has no effect either. -/
def DItv.mulRevToPairMixed (T T1 T2 : NumTy) (b c : DItv) : DItv × DItv :=
  let TMax := (T.maxPrec [T1, T2]).fmt
  let res := (TMax.convertHullD b).mulRevToPair TMax (TMax.convertHullD c)
  (T.fmt.convertHullD res.1, T.fmt.convertHullD res.2)

/-- `if ((r.second == x.first && t_u != 0) || (x.second == r.first && t_l != 0)) r = empty();` as it occurs in the
reverse functions, e.g. `_rev_func_impl.hpp:1535-1537`. -/
def Itv.dropIf (r x : Itv) (tl tu : Bool) : Itv :=
  if (r.hi.feq x.lo && tu) || (x.hi.feq r.lo && tl) then Itv.empty else r

/-- `mul_rev` ( bare interval ), `_rev_func_impl.hpp:1523-1545`. -/
def Itv.mulRev (φ : Fmt) (b c x : Itv) : Itv :=
  if !b.isValid || !c.isValid || !x.isValid then Itv.empty
  else
    let tmp := φ.mulRevPairT b c
    ((tmp.fst.dropIf x tmp.fl tmp.fu).inter x).hull ((tmp.snd.dropIf x tmp.sl tmp.su).inter x)

/-- `mul_rev` ( bare interval ) mixed type, `_rev_func_impl.hpp:1548-1577`. -/
def Itv.mulRevMixed (T T1 T2 T3 : NumTy) (b c x : Itv) : Itv :=
  if !b.isValid || !c.isValid || !x.isValid then Itv.empty
  else
    let TMax := (T.maxPrec [T1, T2, T3]).fmt
    T.fmt.convertHull ((TMax.convertHull b).mulRev TMax (TMax.convertHull c) (TMax.convertHull x))

/-- `mul_rev` ( decorated interval ), `_rev_func_impl.hpp:1580-1591`. -/
def DItv.mulRev (φ : Fmt) (b c x : DItv) : DItv :=
  if !b.isValid || !c.isValid || !x.isValid || b.isNai || c.isNai || x.isNai then DItv.nai
  else ⟨b.itv.mulRev φ c.itv x.itv, .trv⟩

/-- `mul_rev` ( decorated interval ) mixed type, `_rev_func_impl.hpp:1594-1611`. -/
def DItv.mulRevMixed (T T1 T2 T3 : NumTy) (b c x : DItv) : DItv :=
  if !b.isValid || !c.isValid || !x.isValid || b.isNai || c.isNai || x.isNai then DItv.nai
  else ⟨Itv.mulRevMixed T T1 T2 T3 b.itv c.itv x.itv, .trv⟩

/-- `mul_rev` ( bare interval ) with `x = entire()`, `_rev_func_impl.hpp:1615-1622`. -/
def Itv.mulRev2 (φ : Fmt) (b c : Itv) : Itv := b.mulRev φ c .entire

/-- `mul_rev` ( decorated interval ) with `x = entire_dec()`, `_rev_func_impl.hpp:1637-1644`. -/
def DItv.mulRev2 (φ : Fmt) (b c : DItv) : DItv := b.mulRev φ c DItv.entire

/-- `mul_rev` ( bare interval ) mixed type with `x = entire()`, `_rev_func_impl.hpp:1625-1635`. -/
def Itv.mulRev2Mixed (T T1 T2 : NumTy) (b c : Itv) : Itv := Itv.mulRevMixed T T1 T2 T b c .entire

/-- `mul_rev` ( decorated interval ) mixed type with `x = entire_dec()`, `_rev_func_impl.hpp:1646-1657`. -/
def DItv.mulRev2Mixed (T T1 T2 : NumTy) (b c : DItv) : DItv := DItv.mulRevMixed T T1 T2 T b c DItv.entire

end P1788
