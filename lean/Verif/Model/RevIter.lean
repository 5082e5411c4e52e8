import Verif.Model.Rev

/-!
# `pown_rev` with its loops executed step by step

`FP.loop` of `Model/Rev.lean` gives the loops of `pown_rev_inf` and `pown_rev_sup` by the number of their iterations.  Here
they are executed: `fuel` is the number of iterations that are allowed, and the result is `none` if the loop has not ended
by then.
-/

namespace P1788

/-- `for (;;) { x = nxt(x); if (!go(x)) break; } return done(x) ? (x, 0) : (back(x), ±1)` with at most `fuel` iterations.
`_rev_func_impl.hpp:340-354, 376-390`. -/
def FP.loopN (nxt back : FP → FP) (go done : FP → Prop) [DecidablePred go] [DecidablePred done] :
    ℕ → FP → Option (FP × Bool)
  | 0, _ => none
  | fuel + 1, x =>
    let y := nxt x
    if go y then FP.loopN nxt back go done fuel y
    else some (if done y then (y, false) else (back y, true))

/-- The loop of `pown_rev_inf`, `_rev_func_impl.hpp:340-354`. -/
def Fmt.revInfLoopN (φ : Fmt) (fuel : ℕ) (c x : FP) (p : ℤ) : Option (FP × Bool) :=
  FP.loopN φ.nextUp φ.nextDown (fun y => y.regular = true ∧ φ.revSgn .U c y p < 0)
    (fun y => y.regular = true ∧ φ.revSgn .U c y p = 0) fuel x

/-- `pown_rev_inf`, `_rev_func_impl.hpp:321-355`. -/
noncomputable def Fmt.pownRevInfN (φ : Fmt) (fuel : ℕ) (c : FP) (p : ℤ) : Option (FP × Bool) :=
  let n := (-p).toNat
  let r := φ.root .U n c
  let t1 := match c with | .fin q => r.differs (rootR n q) | _ => false
  let x := φ.div .D (.fin 1) r
  let t := φ.divX .D (.fin 1) r || t1
  if p = -1 ∨ t = false then some (x, t) else φ.revInfLoopN fuel c x p

/-- The loop of `pown_rev_sup`, `_rev_func_impl.hpp:376-390`. -/
def Fmt.revSupLoopN (φ : Fmt) (fuel : ℕ) (c x : FP) (p : ℤ) : Option (FP × Bool) :=
  FP.loopN φ.nextDown φ.nextUp (fun y => y.regular = true ∧ 0 < φ.revSgn .D c y p)
    (fun y => y.regular = true ∧ φ.revSgn .D c y p = 0) fuel x

/-- `pown_rev_sup`, `_rev_func_impl.hpp:357-391`. -/
noncomputable def Fmt.pownRevSupN (φ : Fmt) (fuel : ℕ) (c : FP) (p : ℤ) : Option (FP × Bool) :=
  let n := (-p).toNat
  let r := φ.root .D n c
  let t1 := match c with | .fin q => r.differs (rootR n q) | _ => false
  let x := φ.div .U (.fin 1) r
  let t := φ.divX .U (.fin 1) r || t1
  if p = -1 ∨ t = false then some (x, t) else φ.revSupLoopN fuel c x p

/-- `pown_rev` ( bare interval ), `_rev_func_impl.hpp:393-555`, without the undefined `-p` for `p = INT_MIN`: `none` if one of
the loops takes more than `fuel` iterations. -/
noncomputable def Itv.pownRevVN (φ : Fmt) (fuel : ℕ) (c x : Itv) (p : ℤ) : Option Itv :=
  if !c.isValid || !x.isValid || c.isEmpty || x.isEmpty then some Itv.empty
  else if p = 0 then some (if c.isMember (.fin 1) then x else Itv.empty)
  else if p = 1 then some (x.inter c)
  else if p % 2 = 0 then
    if p < 0 then
      if c.hi ≤ .fin 0 then some Itv.empty
      else do
        let cl : FP := if c.lo ≤ .fin 0 then .fin 0 else c.lo
        let xu ← φ.pownRevSupN fuel cl p
        let xl ← φ.pownRevInfN fuel c.hi p
        some ((Itv.mk xl.1 xu.1).revHull x xl.2 xu.2)
    else if c.hi < .fin 0 then some Itv.empty
    else if c.lo ≤ .fin 0 then
      let cu := φ.root .U p.toNat c.hi
      some (x.inter ⟨cu.neg, cu⟩)
    else
      let cl := φ.root .D p.toNat c.lo
      let cu := φ.root .U p.toNat c.hi
      some ((x.inter ⟨cu.neg, cl.neg⟩).hull (x.inter ⟨cl, cu⟩))
  else if p < 0 then
    if c.lo.feq (.fin 0) = true ∧ c.hi.feq (.fin 0) = true then some Itv.empty
    else if .fin 0 ≤ c.lo ∨ c.hi ≤ .fin 0 then do
      let xu ← if c.lo.feq (.fin 0) = true then some (FP.pinf, false) else φ.pownRevSupN fuel c.lo p
      let xl ← if c.hi.feq (.fin 0) = true then some (FP.ninf, false) else φ.pownRevInfN fuel c.hi p
      some (x.inter ((Itv.mk xl.1 xu.1).dropIf x xl.2 xu.2))
    else do
      let xu ← φ.pownRevSupN fuel c.lo p
      let xl ← φ.pownRevInfN fuel c.hi p
      some ((x.inter ((Itv.mk .ninf xu.1).dropIf x false xu.2)).hull (x.inter ((Itv.mk xl.1 .pinf).dropIf x xl.2 false)))
  else some (x.inter ⟨φ.root .D p.toNat c.lo, φ.root .U p.toNat c.hi⟩)

end P1788
