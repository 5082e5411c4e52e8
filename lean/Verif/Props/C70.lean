import Verif.Lemmas.RevIter
import Mathlib.NumberTheory.Real.Irrational

/-!
# C70: `pown_rev` searches for each bound in at most five steps

The property is stated about `Itv.pownRevVN fuel`, in which the loops of `pown_rev` are executed step by step and at most
`fuel` times; `none` is a loop that is still running.
-/

namespace P1788

variable {c x : Itv}

theorem pownRevInfN_pinf {φ : Fmt} {fuel : ℕ} {p : ℤ} : φ.pownRevInfN fuel .pinf p = some (φ.pownRevInf .pinf p) := by
  simp [Fmt.pownRevInf, Fmt.pownRevInfN, Fmt.root, Fmt.div, Fmt.divX, FP.isInf, FP.isZero, FP.signbit, FP.mkZero]

theorem pownRevSupN_ninf {φ : Fmt} {fuel : ℕ} {p : ℤ} (hp : p < 0) (ho : p % 2 ≠ 0) :
    φ.pownRevSupN fuel .ninf p = some (φ.pownRevSup .ninf p) := by
  have h : ¬((-p).toNat % 2 = 0) := (neg_toNat hp).2.2.mp ho
  simp [Fmt.pownRevSup, Fmt.pownRevSupN, Fmt.root, h, Fmt.div, Fmt.divX, FP.isInf, FP.isZero, FP.signbit, FP.mkZero]

theorem pownRevSupN_zero {φ : Fmt} {fuel : ℕ} {p : ℤ} (hp : p < 0) :
    φ.pownRevSupN fuel (.fin 0) p = some (φ.pownRevSup (.fin 0) p) := by
  have h := rootR_zero (neg_toNat hp).1
  have e : φ.root .D (-p).toNat (.fin 0) = .fin 0 := by simp [Fmt.root, h]
  unfold Fmt.pownRevSup Fmt.pownRevSupN
  simp only [e]
  simp [Fmt.div, Fmt.divX, FP.isInf, FP.isZero, FP.signbit, FP.mkInf, FP.differs, h]

/-- The upper bound of the solutions for the lower bound of `c`. -/
theorem supN_lo {φ : Fmt} (hφ : Roomy φ) {fuel : ℕ} (hf : 5 ≤ fuel) {p : ℤ} (hp : p < 0) {a : FP} (ha : a.In φ)
    (hn : a ≠ .nan) (ht : a.toE ≠ ⊤) (h0 : a.toE ≠ 0) (hs : 0 < a.toE ∨ p % 2 ≠ 0) :
    φ.pownRevSupN fuel a p = some (φ.pownRevSup a p) := by
  cases a with
  | nan => exact absurd rfl hn
  | pinf => simp at ht
  | nzero => simp at h0
  | ninf => exact pownRevSupN_ninf hp (hs.resolve_left (by simp))
  | fin q =>
    have hq : q ≠ 0 := by rintro rfl; simp at h0
    refine pownRevSupN_fin hf hφ ha hq hp (hs.imp (fun h => ?_) id)
    rw [FP.toE_fin] at h
    have : (0:ℝ) < q := by exact_mod_cast h
    exact_mod_cast this

/-- The lower bound of the solutions for the upper bound of `c`. -/
theorem infN_hi {φ : Fmt} (hφ : Roomy φ) {fuel : ℕ} (hf : 5 ≤ fuel) {p : ℤ} (hp : p < 0) {a : FP} (ha : a.In φ)
    (hn : a ≠ .nan) (hb : a.toE ≠ ⊥) (h0 : a.toE ≠ 0) (hs : 0 < a.toE ∨ p % 2 ≠ 0) :
    φ.pownRevInfN fuel a p = some (φ.pownRevInf a p) := by
  cases a with
  | nan => exact absurd rfl hn
  | ninf => simp at hb
  | nzero => simp at h0
  | pinf => exact pownRevInfN_pinf
  | fin q =>
    have hq : q ≠ 0 := by rintro rfl; simp at h0
    refine pownRevInfN_fin hf hφ ha hq hp (hs.imp (fun h => ?_) id)
    rw [FP.toE_fin] at h
    have : (0:ℝ) < q := by exact_mod_cast h
    exact_mod_cast this

theorem not_zero_of_feq {a : FP} (hn : a ≠ .nan) (h : ¬a.feq (.fin 0) = true) : a.toE ≠ 0 := by
  cases a with
  | nan => exact absurd rfl hn
  | fin q =>
    intro h0
    rw [FP.toE_fin] at h0
    have : q = 0 := by exact_mod_cast h0
    exact h (by subst this; decide)
  | nzero => exact absurd (by decide) h
  | _ => simp

/-- Every call of `pown_rev` returns: for all bound types, all valid intervals and all exponents, each of the searches for a
bound has ended after five steps, and the result is the one of `C30`. -/
theorem C70_five_steps (T : NumTy) {fuel : ℕ} (hf : 5 ≤ fuel) (hc : c.Ok T.fmt) (hx : x.Ok T.fmt) (p : ℤ) :
    c.pownRevVN T.fmt fuel x p = some (c.pownRevV T.fmt x p) := by
  have hφ := T.roomy
  unfold Itv.pownRevVN Itv.pownRevV
  by_cases b0 : (!c.isValid || !x.isValid || c.isEmpty || x.isEmpty) = true
  · rw [if_pos b0, if_pos b0]
  rw [if_neg b0, if_neg b0]
  have nc : c.NE T.fmt := by
    rcases hc.cases with rfl | nc
    · simp at b0
    · exact nc
  by_cases b1 : p = 0
  · rw [if_pos b1, if_pos b1]
  rw [if_neg b1, if_neg b1]
  by_cases b2 : p = 1
  · rw [if_pos b2, if_pos b2]
  rw [if_neg b2, if_neg b2]
  have z : (FP.fin 0).toE = 0 := by simp
  have zn : (FP.fin 0) ≠ .nan := by simp
  by_cases b3 : p % 2 = 0
  · rw [if_pos b3, if_pos b3]
    by_cases b4 : p < 0
    · rw [if_pos b4, if_pos b4]
      by_cases b5 : c.hi ≤ .fin 0
      · rw [if_pos b5, if_pos b5]
      rw [if_neg b5, if_neg b5]
      rw [FP.le_iff nc.hi_ne zn, z, not_le] at b5
      have e1 : T.fmt.pownRevSupN fuel (if c.lo ≤ .fin 0 then .fin 0 else c.lo) p =
          some (T.fmt.pownRevSup (if c.lo ≤ .fin 0 then .fin 0 else c.lo) p) := by
        by_cases b6 : c.lo ≤ .fin 0
        · rw [if_pos b6]; exact pownRevSupN_zero b4
        · rw [if_neg b6]
          rw [FP.le_iff nc.lo_ne zn, z, not_le] at b6
          exact supN_lo hφ hf b4 nc.lo_in nc.lo_ne nc.lo_top b6.ne' (Or.inl b6)
      have e2 := infN_hi hφ hf b4 nc.hi_in nc.hi_ne nc.hi_bot b5.ne' (Or.inl b5)
      simp only [e1, e2, Option.bind_eq_bind, Option.bind_some]
    · rw [if_neg b4, if_neg b4]
      by_cases b5 : c.hi < .fin 0
      · rw [if_pos b5, if_pos b5]
      rw [if_neg b5, if_neg b5]
      by_cases b6 : c.lo ≤ .fin 0
      · rw [if_pos b6, if_pos b6]
      rw [if_neg b6, if_neg b6]
  rw [if_neg b3, if_neg b3]
  by_cases b4 : p < 0
  · rw [if_pos b4, if_pos b4]
    by_cases b5 : c.lo.feq (.fin 0) = true ∧ c.hi.feq (.fin 0) = true
    · rw [if_pos b5, if_pos b5]
    rw [if_neg b5, if_neg b5]
    have s1 : ¬c.lo.feq (.fin 0) = true → T.fmt.pownRevSupN fuel c.lo p = some (T.fmt.pownRevSup c.lo p) :=
      fun h => supN_lo hφ hf b4 nc.lo_in nc.lo_ne nc.lo_top (not_zero_of_feq nc.lo_ne h) (Or.inr b3)
    have s2 : ¬c.hi.feq (.fin 0) = true → T.fmt.pownRevInfN fuel c.hi p = some (T.fmt.pownRevInf c.hi p) :=
      fun h => infN_hi hφ hf b4 nc.hi_in nc.hi_ne nc.hi_bot (not_zero_of_feq nc.hi_ne h) (Or.inr b3)
    by_cases b6 : .fin 0 ≤ c.lo ∨ c.hi ≤ .fin 0
    · rw [if_pos b6, if_pos b6]
      by_cases b7 : c.lo.feq (.fin 0) = true
      · by_cases b8 : c.hi.feq (.fin 0) = true
        · exact absurd ⟨b7, b8⟩ b5
        · simp only [b7, b8, s2 b8, if_true, Option.bind_eq_bind, Option.bind_some]; simp
      · by_cases b8 : c.hi.feq (.fin 0) = true
        · simp only [b7, b8, s1 b7, if_true, Option.bind_eq_bind, Option.bind_some]; simp
        · simp only [b7, b8, s1 b7, s2 b8, Option.bind_eq_bind, Option.bind_some]; simp
    · rw [if_neg b6, if_neg b6]
      push Not at b6
      have t1 : ¬c.lo.feq (.fin 0) = true := by
        intro h
        apply b6.1
        rw [FP.feq_iff nc.lo_ne zn] at h
        rw [FP.le_iff zn nc.lo_ne, h]
      have t2 : ¬c.hi.feq (.fin 0) = true := by
        intro h
        apply b6.2
        rw [FP.feq_iff nc.hi_ne zn] at h
        rw [FP.le_iff nc.hi_ne zn, h]
      simp only [s1 t1, s2 t2, Option.bind_eq_bind, Option.bind_some]
  · rw [if_neg b4, if_neg b4]

/-- In terms of the function of `C30`: for every exponent of type `int` for which `-p` is defined, `pown_rev` with its loops
executed gives the same result if five or more steps are allowed.  (At `INT_MIN` the call is undefined, see
`C30_pown_rev_int_min`.) -/
theorem C70_same_result (T : NumTy) {fuel : ℕ} (hf : 5 ≤ fuel) (hc : c.Ok T.fmt) (hx : x.Ok T.fmt) {p : ℤ} (hp : -2 ^ 31 < p) :
    c.pownRevVN T.fmt fuel x p = c.pownRev T.fmt x p := by
  rw [C70_five_steps T hf hc hx]
  unfold Itv.pownRev
  rw [if_neg]
  rintro ⟨h, -⟩
  rw [h] at hp
  norm_num [intMin] at hp

/-- The loops are run: `pown_rev([3,3], entire, -2)` needs at least one step. -/
example : (Itv.mk (.fin 3) (.fin 3)).pownRevVN binary64 0 Itv.entire (-2) = none := by
  have hi : Irrational (rootR 2 ((3:ℚ):ℝ)) := by
    have h := Nat.Prime.irrational_sqrt (p := 3) Nat.prime_three
    have e : rootR 2 ((3:ℚ):ℝ) = Real.sqrt ((3:ℕ):ℝ) := by
      rw [eq_comm, Real.sqrt_eq_iff_mul_self_eq (by norm_num) (rootR_pos (by norm_num)).le, ← pow_two,
        rootR_pow (by norm_num) (Or.inl (by norm_num))]
      norm_num
    rwa [e]
  have hd : (binary64.root .D 2 (.fin 3)).differs (rootR 2 ((3:ℚ):ℝ)) = true := by
    obtain ⟨r, h, -⟩ := root_round (φ := binary64) (m := .D) (by simp) (n := 2) (by norm_num) (c := 3)
      ⟨3, 0, by norm_num, by norm_num [binary64], by decide, by decide⟩ (by norm_num) (Or.inl (by norm_num))
    rw [h]
    have : rootR 2 ((3:ℚ):ℝ) ≠ (r:ℝ) := fun e => hi ⟨r, e.symm⟩
    unfold FP.differs
    exact decide_eq_true this.symm
  have v1 : (Itv.mk (.fin 3) (.fin 3)).isValid = true := by decide +kernel
  have v2 : (Itv.mk (.fin 3) (.fin 3)).isEmpty = false := by decide +kernel
  have v3 : Itv.entire.isValid = true := by decide +kernel
  have v4 : Itv.entire.isEmpty = false := by decide +kernel
  have v5 : ¬(FP.fin 3 ≤ FP.fin 0) := by decide +kernel
  have hs : binary64.pownRevSupN 0 (.fin 3) (-2) = none := by
    unfold Fmt.pownRevSupN
    have : (-(-2:ℤ)).toNat = 2 := rfl
    simp only [this, hd, Bool.or_true]
    simp [Fmt.revSupLoopN, FP.loopN]
  unfold Itv.pownRevVN
  simp [v1, v2, v3, v4, v5, hs]

end P1788
