import Verif.Props.C33

/-! # C25, continued: mixed types -/

namespace P1788
variable {T T1 T2 : NumTy}

/-- The intersection and the convex hull of intervals of types `T1` and `T2` are the tightest intervals of the result
type `T`; the decorated versions have the same intervals and the decoration `trv`. -/
theorem C25_mixed {x y : Itv} (hx : x.Ok T1.fmt) (hy : y.Ok T2.fmt) :
    Tightest T.fmt (Itv.interMixed T T1 T2 x y) (x.set ∩ y.set) ∧
    Tightest T.fmt (Itv.hullMixed T T1 T2 x y) (x.set ∪ y.set) := C33_set_ops hx hy

theorem C25_mixed_decorated {x y : DItv} (hx : x.Ok T1.fmt) (hy : y.Ok T2.fmt) (hn : ¬ x.IsNaI) (hm : ¬ y.IsNaI) :
    Tightest T.fmt (DItv.interMixed T T1 T2 x y).itv (x.set ∩ y.set) ∧ (DItv.interMixed T T1 T2 x y).dec = .trv ∧
    Tightest T.fmt (DItv.hullMixed T T1 T2 x y).itv (x.set ∪ y.set) ∧ (DItv.hullMixed T T1 T2 x y).dec = .trv :=
  C33_set_ops_dec hx hy hn hm

/-- The intersection of two `double` intervals, rounded outward to `float`. -/
example : Itv.interMixed .float .double .double ⟨.fin 1, .fin 3⟩ ⟨.fin (1 + 1 / 2 ^ 40), .fin 5⟩ = ⟨.fin 1, .fin 3⟩ := by
  decide +kernel

end P1788
