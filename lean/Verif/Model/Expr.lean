import Verif.Model.Dec

/-!
# Arithmetic expressions over the interval operations

A table of the forward elementary functions of `p1788/infsup/base_interval_elem_func_impl.hpp` (the public functions,
each of which forwards to the flavor function of the same name), in their bare and decorated versions, and the
evaluation of expression trees built from them, as a program does when it computes with intervals.
-/

namespace P1788

/-- The unary forward functions. Declared in `base_interval.hpp:363-701`. -/
inductive Op1 where
  | pos | neg | recip | sqr | sqrt | abs | pown (p : ℤ)
  | exp | exp2 | exp10 | log | log2 | log10
  | sin | cos | tan | asin | acos | atan
  | sinh | cosh | tanh | asinh | acosh | atanh
  | sign | ceil | floor | trunc | roundEven | roundAway
  deriving DecidableEq

/-- The binary forward functions. Declared in `base_interval.hpp:363-701`. -/
inductive Op2 where
  | add | sub | mul | div | pow | atan2 | min | max
  deriving DecidableEq

/-- Expressions over variables `ι`; `fma` is the only ternary function.
Not part of the library: a program that calls it. -/
inductive Expr (ι : Type) where
  | var (i : ι)
  | un (op : Op1) (e : Expr ι)
  | bin (op : Op2) (e₁ e₂ : Expr ι)
  | fma (e₁ e₂ e₃ : Expr ι)

/-- The bare interval version of a unary function (see the definitions for the lines modelled). -/
noncomputable def Op1.bare (φ : Fmt) : Op1 → Itv → Itv
  | .pos => Fmt.posI | .neg => Fmt.negI | .recip => φ.recipI | .sqr => φ.sqrI | .sqrt => φ.sqrtI
  | .abs => Fmt.absI | .pown p => fun x => φ.pownI x p
  | .exp => φ.expI | .exp2 => φ.exp2I | .exp10 => φ.exp10I | .log => φ.logI | .log2 => φ.log2I | .log10 => φ.log10I
  | .sin => φ.sinI | .cos => φ.cosI | .tan => φ.tanI | .asin => φ.asinI | .acos => φ.acosI | .atan => φ.atanI
  | .sinh => φ.sinhI | .cosh => φ.coshI | .tanh => φ.tanhI | .asinh => φ.asinhI | .acosh => φ.acoshI
  | .atanh => φ.atanhI
  | .sign => Fmt.signI | .ceil => Fmt.ceilI | .floor => Fmt.floorI | .trunc => Fmt.truncI
  | .roundEven => Fmt.roundEvenI | .roundAway => Fmt.roundAwayI

/-- The decorated version of a unary function. See `Dec.lean` for the lines modelled. -/
noncomputable def Op1.decd (φ : Fmt) : Op1 → DItv → DItv
  | .pos => Fmt.posD | .neg => Fmt.negD | .recip => φ.recipD | .sqr => φ.sqrD | .sqrt => φ.sqrtD
  | .abs => Fmt.absD | .pown p => fun x => φ.pownD x p
  | .exp => φ.expD | .exp2 => φ.exp2D | .exp10 => φ.exp10D | .log => φ.logD | .log2 => φ.log2D | .log10 => φ.log10D
  | .sin => φ.sinD | .cos => φ.cosD | .tan => φ.tanD | .asin => φ.asinD | .acos => φ.acosD | .atan => φ.atanD
  | .sinh => φ.sinhD | .cosh => φ.coshD | .tanh => φ.tanhD | .asinh => φ.asinhD | .acosh => φ.acoshD
  | .atanh => φ.atanhD
  | .sign => Fmt.signD | .ceil => Fmt.ceilD | .floor => Fmt.floorD | .trunc => Fmt.truncD
  | .roundEven => φ.roundEvenD | .roundAway => φ.roundAwayD

/-- The bare interval version of a binary function. See the definitions for the lines modelled. -/
noncomputable def Op2.bare (φ : Fmt) : Op2 → Itv → Itv → Itv
  | .add => φ.addI | .sub => φ.subI | .mul => φ.mulI | .div => φ.divI | .pow => φ.powI | .atan2 => φ.atan2I
  | .min => Fmt.minI | .max => Fmt.maxI

/-- The decorated version of a binary function. See `Dec.lean` for the lines modelled. -/
noncomputable def Op2.decd (φ : Fmt) : Op2 → DItv → DItv → DItv
  | .add => φ.addD | .sub => φ.subD | .mul => φ.mulD | .div => φ.divD | .pow => φ.powD | .atan2 => φ.atan2D
  | .min => Fmt.minD | .max => Fmt.maxD

namespace Expr
variable {ι : Type}

/-- Evaluation on bare intervals. Not part of the library: a program that calls it. -/
noncomputable def eval (φ : Fmt) (X : ι → Itv) : Expr ι → Itv
  | var i => X i
  | un op e => op.bare φ (e.eval φ X)
  | bin op e₁ e₂ => op.bare φ (e₁.eval φ X) (e₂.eval φ X)
  | fma e₁ e₂ e₃ => φ.fmaI (e₁.eval φ X) (e₂.eval φ X) (e₃.eval φ X)

/-- Evaluation on decorated intervals. Not part of the library: a program that calls it. -/
noncomputable def evalD (φ : Fmt) (X : ι → DItv) : Expr ι → DItv
  | var i => X i
  | un op e => op.decd φ (e.evalD φ X)
  | bin op e₁ e₂ => op.decd φ (e₁.evalD φ X) (e₂.evalD φ X)
  | fma e₁ e₂ e₃ => φ.fmaD (e₁.evalD φ X) (e₂.evalD φ X) (e₃.evalD φ X)

end Expr
end P1788
