import Verif.Props.C37

/-!
# C37, continued: `sum_sqr` and `dot` with NaN, infinities and products that underflow
-/

namespace P1788
variable {φ : Fmt}

/-- The product of `a` and `b` is not a number: one of them is NaN, or they are zero and an infinity. -/
def NoProduct (a b : FP) : Prop :=
  a = .nan ∨ b = .nan ∨ (a.toE = 0 ∧ (b = .pinf ∨ b = .ninf)) ∨ ((a = .pinf ∨ a = .ninf) ∧ b.toE = 0)

theorem sign_cases37 (q : ℚ) : q = 0 ∨ (0 < q ∧ (0:ℝ) < q) ∨ (q < 0 ∧ (q:ℝ) < 0) := by
  rcases lt_trichotomy q 0 with h | h | h
  · exact Or.inr (Or.inr ⟨h, by exact_mod_cast h⟩)
  · exact Or.inl h
  · exact Or.inr (Or.inl ⟨h, by exact_mod_cast h⟩)

theorem mul2_pinf_left {b : FP} (h : b ≠ .nan) : φ.mul2 .pinf b = if b.isZero then .nan else FP.mkInf b.signbit := by
  cases b <;> first | rfl | exact absurd rfl h

theorem mul2_ninf_left {b : FP} (h : b ≠ .nan) : φ.mul2 .ninf b = if b.isZero then .nan else FP.mkInf !b.signbit := by
  cases b <;> first | rfl | exact absurd rfl h

theorem mul2_pinf_right {a : FP} (h : a ≠ .nan) : φ.mul2 a .pinf = if a.isZero then .nan else FP.mkInf a.signbit := by
  cases a <;> first | rfl | exact absurd rfl h

theorem mul2_ninf_right {a : FP} (h : a ≠ .nan) : φ.mul2 a .ninf = if a.isZero then .nan else FP.mkInf !a.signbit := by
  cases a <;> first | rfl | exact absurd rfl h

theorem isZero_iff37 {a : FP} (h : a ≠ .nan) : a.isZero = true ↔ a.toE = 0 := by
  cases a <;> simp_all [FP.isZero]

/-- The sign of a number other than zero. -/
theorem sign37 {a : FP} (h : a ≠ .nan) (h0 : a.toE ≠ 0) :
    (a.signbit = false ∧ 0 < a.toE) ∨ (a.signbit = true ∧ a.toE < 0) := by
  cases a with
  | nan => exact absurd rfl h
  | ninf => simp [FP.signbit]
  | pinf => simp [FP.signbit]
  | nzero => simp at h0
  | fin q =>
    rcases sign_cases37 q with rfl | ⟨h1, h2⟩ | ⟨h1, h2⟩
    · simp at h0
    · left; simp [FP.signbit, h1.le, h2]
    · right; simp [FP.signbit, h1, h2]

theorem mul2_nan {a b : FP} (h : NoProduct a b) : φ.mul2 a b = .nan := by
  by_cases ha : a = .nan
  · subst ha; rfl
  by_cases hb : b = .nan
  · subst hb; cases a <;> rfl
  rcases h with h | h | ⟨h, rfl | rfl⟩ | ⟨rfl | rfl, h⟩
  · exact absurd h ha
  · exact absurd h hb
  · rw [mul2_pinf_right ha, if_pos ((isZero_iff37 ha).mpr h)]
  · rw [mul2_ninf_right ha, if_pos ((isZero_iff37 ha).mpr h)]
  · rw [mul2_pinf_left hb, if_pos ((isZero_iff37 hb).mpr h)]
  · rw [mul2_ninf_left hb, if_pos ((isZero_iff37 hb).mpr h)]

/-- Infinite products other than by overflow. -/
theorem mul2_inf {a b : FP} (h : ¬ NoProduct a b) :
    (a.toE * b.toE = ⊤ → φ.mul2 a b = .pinf) ∧ (a.toE * b.toE = ⊥ → φ.mul2 a b = .ninf) := by
  unfold NoProduct at h
  push Not at h
  obtain ⟨ha, hb, h1, h2⟩ := h
  by_cases ia : a = .pinf ∨ a = .ninf
  · have b0 := h2 ia
    have z : ¬ b.isZero = true := fun h => b0 ((isZero_iff37 hb).mp h)
    rcases ia with rfl | rfl <;> rcases sign37 hb b0 with ⟨s, p⟩ | ⟨s, p⟩
    · rw [mul2_pinf_left hb, if_neg z, s, FP.toE, EReal.top_mul_of_pos p]; simp [FP.mkInf]
    · rw [mul2_pinf_left hb, if_neg z, s, FP.toE, EReal.top_mul_of_neg p]; simp [FP.mkInf]
    · rw [mul2_ninf_left hb, if_neg z, s, FP.toE, EReal.bot_mul_of_pos p]; simp [FP.mkInf]
    · rw [mul2_ninf_left hb, if_neg z, s, FP.toE, EReal.bot_mul_of_neg p]; simp [FP.mkInf]
  by_cases ib : b = .pinf ∨ b = .ninf
  · have a0 : a.toE ≠ 0 := fun h => by rcases ib with ib | ib; exacts [(h1 h).1 ib, (h1 h).2 ib]
    have z : ¬ a.isZero = true := fun h => a0 ((isZero_iff37 ha).mp h)
    rcases ib with rfl | rfl <;> rcases sign37 ha a0 with ⟨s, p⟩ | ⟨s, p⟩
    · rw [mul2_pinf_right ha, if_neg z, s, show FP.pinf.toE = ⊤ from rfl, EReal.mul_top_of_pos p]; simp [FP.mkInf]
    · rw [mul2_pinf_right ha, if_neg z, s, show FP.pinf.toE = ⊤ from rfl, EReal.mul_top_of_neg p]; simp [FP.mkInf]
    · rw [mul2_ninf_right ha, if_neg z, s, show FP.ninf.toE = ⊥ from rfl, EReal.mul_bot_of_pos p]; simp [FP.mkInf]
    · rw [mul2_ninf_right ha, if_neg z, s, show FP.ninf.toE = ⊥ from rfl, EReal.mul_bot_of_neg p]; simp [FP.mkInf]
  push Not at ia ib
  rw [toE_q ⟨ha, ia⟩, toE_q ⟨hb, ib⟩, ← EReal.coe_mul]
  exact ⟨fun h => absurd h (EReal.coe_ne_top _), fun h => absurd h (EReal.coe_ne_bot _)⟩

/-- The product of two finite numbers. -/
theorem mul2_core {a b : FP} (ha : a ≠ .nan ∧ a ≠ .pinf ∧ a ≠ .ninf) (hb : b ≠ .nan ∧ b ≠ .pinf ∧ b ≠ .ninf) :
    φ.mul2 a b = (let v := a.q * b.q
      let s := a.signbit != b.signbit
      if 2 ^ φ.emax ≤ |v| then FP.mkInf s
      else if |v| ≤ 2 ^ (φ.qmin - 1) then FP.mkZero s
      else if |v| < 2 ^ φ.qmin then .fin (if s then -2 ^ φ.qmin else 2 ^ φ.qmin)
      else .fin v) := by
  cases a <;> cases b <;> first
    | rfl
    | exact absurd rfl ha.1
    | exact absurd rfl ha.2.1
    | exact absurd rfl ha.2.2
    | exact absurd rfl hb.1
    | exact absurd rfl hb.2.1
    | exact absurd rfl hb.2.2

theorem signbit_q37 {a : FP} (ha : a ≠ .nan ∧ a ≠ .pinf ∧ a ≠ .ninf) (h0 : a.q ≠ 0) : a.signbit = decide (a.q < 0) := by
  cases a with
  | nan => exact absurd rfl ha.1
  | pinf => exact absurd rfl ha.2.1
  | ninf => exact absurd rfl ha.2.2
  | nzero => exact absurd rfl h0
  | fin q => rfl

/-- The sign of a product other than zero. -/
theorem signprod37 {a b : FP} (ha : a ≠ .nan ∧ a ≠ .pinf ∧ a ≠ .ninf) (hb : b ≠ .nan ∧ b ≠ .pinf ∧ b ≠ .ninf)
    (h : a.q * b.q ≠ 0) : (a.signbit != b.signbit) = decide (a.q * b.q < 0) := by
  have h1 := left_ne_zero_of_mul h
  have h2 := right_ne_zero_of_mul h
  rw [signbit_q37 ha h1, signbit_q37 hb h2]
  rcases lt_or_gt_of_ne h1 with p | p <;> rcases lt_or_gt_of_ne h2 with r | r
  · simp [p, r, not_lt.mpr (mul_pos_of_neg_of_neg p r).le]
  · simp [p, not_lt.mpr r.le, mul_neg_of_neg_of_pos p r]
  · simp [r, not_lt.mpr p.le, mul_neg_of_pos_of_neg p r]
  · simp [not_lt.mpr r.le, not_lt.mpr p.le, not_lt.mpr (mul_pos p r).le]

/-- A product of finite numbers that does not overflow is finite and at most half the least positive number away from
the exact one. -/
theorem mul2_near {a b : FP} (ha : a ≠ .nan ∧ a ≠ .pinf ∧ a ≠ .ninf) (hb : b ≠ .nan ∧ b ≠ .pinf ∧ b ≠ .ninf)
    (h : |a.q * b.q| < 2 ^ φ.emax) : (φ.mul2 a b ≠ .nan ∧ φ.mul2 a b ≠ .pinf ∧ φ.mul2 a b ≠ .ninf) ∧
      |(φ.mul2 a b).q - a.q * b.q| ≤ 2 ^ (φ.qmin - 1) := by
  rw [mul2_core ha hb]
  simp only []
  rw [if_neg (not_le.mpr h)]
  split_ifs with h1 h2 h3
  · have z : ∀ s, (FP.mkZero s ≠ .nan ∧ FP.mkZero s ≠ .pinf ∧ FP.mkZero s ≠ .ninf) ∧ (FP.mkZero s).q = 0 := by
      intro s; cases s <;> simp [FP.mkZero, FP.q]
    rw [(z _).2, zero_sub, abs_neg]
    exact ⟨(z _).1, h1⟩
  all_goals
    have h0 : a.q * b.q ≠ 0 := by
      intro h0
      rw [h0, abs_zero] at h1
      exact h1 (two_zpow_pos _).le
    have e : (2:ℚ) ^ φ.qmin = 2 * 2 ^ (φ.qmin - 1) := by
      rw [← zpow_one_add₀ (by norm_num)]; congr 1; ring
  · rw [signprod37 ha hb h0, decide_eq_true_eq] at h3
    rw [abs_of_neg h3] at h1 h2
    refine ⟨⟨by simp, by simp, by simp⟩, ?_⟩
    change |-2 ^ φ.qmin - a.q * b.q| ≤ _
    rw [abs_le]; constructor <;> linarith
  · rw [signprod37 ha hb h0, decide_eq_true_eq] at h3
    rw [abs_of_nonneg (not_lt.mp h3)] at h1 h2
    refine ⟨⟨by simp, by simp, by simp⟩, ?_⟩
    change |2 ^ φ.qmin - a.q * b.q| ≤ _
    rw [abs_le]; constructor <;> linarith
  · refine ⟨⟨by simp, by simp, by simp⟩, ?_⟩
    change |a.q * b.q - a.q * b.q| ≤ _
    rw [sub_self, abs_zero]
    exact (two_zpow_pos _).le

/-- No product is NaN but by `NoProduct`. -/
theorem mul2_ne_nan {a b : FP} (h : ¬ NoProduct a b) : φ.mul2 a b ≠ .nan := by
  unfold NoProduct at h
  push Not at h
  obtain ⟨ha, hb, h1, h2⟩ := h
  have hm : ∀ s, FP.mkInf s ≠ .nan := by intro s; cases s <;> simp [FP.mkInf]
  by_cases ia : a = .pinf ∨ a = .ninf
  · have z : ¬ b.isZero = true := fun h => h2 ia ((isZero_iff37 hb).mp h)
    rcases ia with rfl | rfl
    · rw [mul2_pinf_left hb, if_neg z]; exact hm _
    · rw [mul2_ninf_left hb, if_neg z]; exact hm _
  by_cases ib : b = .pinf ∨ b = .ninf
  · have a0 : a.toE ≠ 0 := fun h => by rcases ib with ib | ib; exacts [(h1 h).1 ib, (h1 h).2 ib]
    have z : ¬ a.isZero = true := fun h => a0 ((isZero_iff37 ha).mp h)
    rcases ib with rfl | rfl
    · rw [mul2_pinf_right ha, if_neg z]; exact hm _
    · rw [mul2_ninf_right ha, if_neg z]; exact hm _
  push Not at ia ib
  rw [mul2_core ⟨ha, ia⟩ ⟨hb, ib⟩]
  simp only []
  split_ifs
  · exact hm _
  · cases a.signbit != b.signbit <;> simp [FP.mkZero]
  · simp
  · simp
  · simp

/-- A product is infinite only if it is so exactly or overflows; the sign is right in either case. -/
theorem mul2_inf_only {a b : FP} (h : ¬ NoProduct a b) :
    (φ.mul2 a b = .pinf → a.toE * b.toE = ⊤ ∨ (2 ^ φ.emax ≤ a.q * b.q ∧ a.toE * b.toE = ((a.q * b.q : ℝ) : EReal))) ∧
    (φ.mul2 a b = .ninf → a.toE * b.toE = ⊥ ∨ (a.q * b.q ≤ - 2 ^ φ.emax ∧ a.toE * b.toE = ((a.q * b.q : ℝ) : EReal))) := by
  obtain ⟨k1, k2⟩ := mul2_inf (φ := φ) h
  have h' := h
  unfold NoProduct at h
  push Not at h
  obtain ⟨ha, hb, h1, h2⟩ := h
  by_cases hi : a.toE * b.toE = ⊤
  · refine ⟨fun _ => Or.inl hi, fun e => ?_⟩
    rw [k1 hi] at e; exact absurd e (by simp)
  by_cases hj : a.toE * b.toE = ⊥
  · refine ⟨fun e => ?_, fun _ => Or.inl hj⟩
    rw [k2 hj] at e; exact absurd e (by simp)
  have ia : a ≠ .pinf ∧ a ≠ .ninf := by
    constructor <;> rintro rfl
    all_goals
      rcases sign37 hb (h2 (by simp)) with ⟨-, p⟩ | ⟨-, p⟩
    · exact hi (EReal.top_mul_of_pos p)
    · exact hj (EReal.top_mul_of_neg p)
    · exact hj (EReal.bot_mul_of_pos p)
    · exact hi (EReal.bot_mul_of_neg p)
  have ib : b ≠ .pinf ∧ b ≠ .ninf := by
    constructor <;> rintro rfl
    all_goals
      rcases sign37 ha (fun h => by simpa using h1 h) with ⟨-, p⟩ | ⟨-, p⟩
    · exact hi (EReal.mul_top_of_pos p)
    · exact hj (EReal.mul_top_of_neg p)
    · exact hj (EReal.mul_bot_of_pos p)
    · exact hi (EReal.mul_bot_of_neg p)
  have et : a.toE * b.toE = ((a.q * b.q : ℝ) : EReal) := by
    rw [toE_q ⟨ha, ia⟩, toE_q ⟨hb, ib⟩, ← EReal.coe_mul]
  rcases lt_or_ge |a.q * b.q| (2 ^ φ.emax) with hlt | hge
  · have := (mul2_near ⟨ha, ia⟩ ⟨hb, ib⟩ hlt).1
    exact ⟨fun e => absurd e this.2.1, fun e => absurd e this.2.2⟩
  have h0 : a.q * b.q ≠ 0 := by
    intro h0
    rw [h0, abs_zero] at hge
    exact absurd hge (not_le.mpr (two_zpow_pos _))
  rw [mul2_core ⟨ha, ia⟩ ⟨hb, ib⟩]
  simp only []
  rw [if_pos hge, signprod37 ⟨ha, ia⟩ ⟨hb, ib⟩ h0]
  rcases lt_or_gt_of_ne h0 with p | p
  · rw [abs_of_neg p] at hge
    simp only [p, decide_true, FP.mkInf, if_true]
    exact ⟨fun e => absurd e (by simp), fun _ => Or.inr ⟨by linarith, et⟩⟩
  · rw [abs_of_pos p] at hge
    simp only [not_lt.mpr p.le, decide_false, FP.mkInf]
    exact ⟨fun _ => Or.inr ⟨hge, et⟩, fun e => absurd e (by simp)⟩

/-- **NaN and infinities in `sum_sqr`**: NaN if an element is NaN, otherwise `+∞` if one is infinite. -/
theorem C37_sum_sqr_special (m : RMode) (l : List FP) :
    (.nan ∈ l → φ.sumSqr m l = .nan) ∧ (.nan ∉ l → .pinf ∈ l ∨ .ninf ∈ l → φ.sumSqr m l = .pinf) := by
  have key : φ.sumSqr m l = φ.sum m (l.map fun a => φ.mul2 a a) := rfl
  obtain ⟨h1, h2, -⟩ := C37_sum_special (φ := φ) m (l.map fun a => φ.mul2 a a)
  have np : ∀ a : FP, a ≠ .nan → ¬ NoProduct a a := by
    intro a ha h; cases a <;> simp [NoProduct] at h ha
  rw [key]
  refine ⟨fun h => h1 (Or.inl (List.mem_map.mpr ⟨_, h, rfl⟩)), fun h h' => h2 ?_ ?_ ?_⟩
  · rw [List.mem_map]; rintro ⟨a, ha, h0⟩
    exact mul2_ne_nan (np a fun e => h (e ▸ ha)) h0
  · rw [List.mem_map]; rcases h' with h' | h'; exacts [⟨_, h', rfl⟩, ⟨_, h', rfl⟩]
  · rw [List.mem_map]; rintro ⟨a, ha, h0⟩
    rcases (mul2_inf_only (np a fun e => h (e ▸ ha))).2 h0 with e | ⟨e, -⟩
    · cases a with
      | nan => exact h ha
      | pinf => rw [show FP.pinf.toE = ⊤ from rfl, EReal.top_mul_top] at e; exact absurd e (by simp)
      | ninf => rw [show FP.ninf.toE = ⊥ from rfl, EReal.bot_mul_bot] at e; exact absurd e (by simp)
      | nzero => rw [show FP.nzero.toE = ((0:ℝ):EReal) from rfl, ← EReal.coe_mul] at e; exact EReal.coe_ne_bot _ e
      | fin q => rw [show (FP.fin q).toE = ((q:ℝ):EReal) from rfl, ← EReal.coe_mul] at e; exact EReal.coe_ne_bot _ e
    · have := mul_self_nonneg a.q
      have := two_zpow_pos φ.emax
      linarith

/-- **Only the first elements count**: of a longer second range `dot` uses as many elements as the first has. -/
theorem C37_dot_long (m : RMode) (a b c : List FP) (h : a.length = b.length) : φ.dot m a (b ++ c) = φ.dot m a b := by
  unfold Fmt.dot
  rw [if_neg (by simp; omega), if_neg (by omega)]
  have : List.zipWith φ.mul2 a (b ++ c) = List.zipWith φ.mul2 a b := by
    have := List.zipWith_append (f := φ.mul2) (l₁ := a) (l₁' := []) (l₂ := b) (l₂' := c) h
    simpa using this
  rw [this]

theorem mem_zipWith37 {f : FP → FP → FP} {a b : List FP} {c : FP} :
    c ∈ List.zipWith f a b ↔ ∃ p ∈ a.zip b, f p.1 p.2 = c := by
  rw [← List.map_uncurry_zip_eq_zipWith, List.mem_map]; rfl

/-- **NaN and infinities in `dot`**.  The result is NaN if one of the products is not a number or if there are
infinite products of both signs.  If there are infinite products of one sign only and no finite product overflows, the
result is that infinity. -/
theorem C37_dot_special (m : RMode) {a b : List FP} (hl : a.length ≤ b.length) :
    ((∃ p ∈ a.zip b, NoProduct p.1 p.2) → φ.dot m a b = some .nan) ∧
    ((∀ p ∈ a.zip b, ¬ NoProduct p.1 p.2) → (∃ p ∈ a.zip b, p.1.toE * p.2.toE = ⊤) →
      (∃ p ∈ a.zip b, p.1.toE * p.2.toE = ⊥) → φ.dot m a b = some .nan) ∧
    ((∀ p ∈ a.zip b, ¬ NoProduct p.1 p.2) →
      (∀ p ∈ a.zip b, ∀ v : ℝ, p.1.toE * p.2.toE = (v : EReal) → |v| < 2 ^ φ.emax) →
      ((∃ p ∈ a.zip b, p.1.toE * p.2.toE = ⊤) → (∀ p ∈ a.zip b, p.1.toE * p.2.toE ≠ ⊥) → φ.dot m a b = some .pinf) ∧
      ((∃ p ∈ a.zip b, p.1.toE * p.2.toE = ⊥) → (∀ p ∈ a.zip b, p.1.toE * p.2.toE ≠ ⊤) → φ.dot m a b = some .ninf)) := by
  have key : φ.dot m a b = some (φ.sum m (List.zipWith φ.mul2 a b)) := by
    unfold Fmt.dot; rw [if_neg (by omega)]; rfl
  obtain ⟨k1, k2, k3⟩ := C37_sum_special (φ := φ) m (List.zipWith φ.mul2 a b)
  rw [key]
  have nn : (∀ p ∈ a.zip b, ¬ NoProduct p.1 p.2) → .nan ∉ List.zipWith φ.mul2 a b := by
    intro h hm
    obtain ⟨p, hp, e⟩ := mem_zipWith37.mp hm
    exact mul2_ne_nan (h p hp) e
  refine ⟨?_, ?_, fun h0 hs => ⟨?_, ?_⟩⟩
  · rintro ⟨p, hp, h⟩
    rw [k1 (Or.inl (mem_zipWith37.mpr ⟨p, hp, mul2_nan h⟩))]
  · rintro h0 ⟨p, hp, h⟩ ⟨q, hq, h'⟩
    rw [k1 (Or.inr ⟨mem_zipWith37.mpr ⟨p, hp, (mul2_inf (h0 p hp)).1 h⟩,
      mem_zipWith37.mpr ⟨q, hq, (mul2_inf (h0 q hq)).2 h'⟩⟩)]
  · rintro ⟨p, hp, h⟩ h'
    rw [k2 (nn h0) (mem_zipWith37.mpr ⟨p, hp, (mul2_inf (h0 p hp)).1 h⟩)]
    intro hm
    obtain ⟨q, hq, e⟩ := mem_zipWith37.mp hm
    rcases (mul2_inf_only (h0 q hq)).2 e with e | ⟨e, e'⟩
    · exact h' q hq e
    · have := hs q hq _ e'
      rw [abs_lt] at this
      have e2 : ((q.1.q * q.2.q : ℚ) : ℝ) ≤ ((-2 ^ φ.emax : ℚ) : ℝ) := by exact_mod_cast e
      push_cast at e2
      linarith
  · rintro ⟨p, hp, h⟩ h'
    rw [k3 (nn h0) ?_ (mem_zipWith37.mpr ⟨p, hp, (mul2_inf (h0 p hp)).2 h⟩)]
    intro hm
    obtain ⟨q, hq, e⟩ := mem_zipWith37.mp hm
    rcases (mul2_inf_only (h0 q hq)).1 e with e | ⟨e, e'⟩
    · exact h' q hq e
    · have := hs q hq _ e'
      rw [abs_lt] at this
      have e2 : ((2 ^ φ.emax : ℚ) : ℝ) ≤ ((q.1.q * q.2.q : ℚ) : ℝ) := by exact_mod_cast e
      push_cast at e2
      linarith

/-- When a product is infinite: exactly if it is at least `2^emax`, the first power of two above the range. -/
theorem mul2_inf_iff {a b : FP} (h : ¬ NoProduct a b) :
    (φ.mul2 a b = .pinf ↔ (((2:ℝ) ^ φ.emax : ℝ) : EReal) ≤ a.toE * b.toE) ∧
    (φ.mul2 a b = .ninf ↔ a.toE * b.toE ≤ ((-(2:ℝ) ^ φ.emax : ℝ) : EReal)) := by
  obtain ⟨k1, k2⟩ := mul2_inf_only (φ := φ) h
  obtain ⟨j1, j2⟩ := mul2_inf (φ := φ) h
  have up : φ.mul2 a b = .pinf → (((2:ℝ) ^ φ.emax : ℝ) : EReal) ≤ a.toE * b.toE := by
    intro e
    rcases k1 e with e | ⟨e, e'⟩
    · rw [e]; exact le_top
    · rw [e', EReal.coe_le_coe_iff]
      have : ((2 ^ φ.emax : ℚ) : ℝ) ≤ ((a.q * b.q : ℚ) : ℝ) := by exact_mod_cast e
      push_cast at this; exact this
  have dn : φ.mul2 a b = .ninf → a.toE * b.toE ≤ ((-(2:ℝ) ^ φ.emax : ℝ) : EReal) := by
    intro e
    rcases k2 e with e | ⟨e, e'⟩
    · rw [e]; exact bot_le
    · rw [e', EReal.coe_le_coe_iff]
      have : ((a.q * b.q : ℚ) : ℝ) ≤ ((-2 ^ φ.emax : ℚ) : ℝ) := by exact_mod_cast e
      push_cast at this; exact this
  -- the converse, for finite factors
  have fin : a.toE * b.toE ≠ ⊤ → a.toE * b.toE ≠ ⊥ → (φ.mul2 a b ≠ .pinf ∧ φ.mul2 a b ≠ .ninf) →
      ∃ v : ℝ, a.toE * b.toE = v ∧ |v| < 2 ^ φ.emax := by
    intro n1 n2 hn
    have h' := h
    unfold NoProduct at h'
    push Not at h'
    obtain ⟨ha, hb, h1, h2⟩ := h'
    have ia : a ≠ .pinf ∧ a ≠ .ninf := by
      constructor <;> rintro rfl
      all_goals rcases sign37 hb (h2 (by simp)) with ⟨-, p⟩ | ⟨-, p⟩
      · exact n1 (EReal.top_mul_of_pos p)
      · exact n2 (EReal.top_mul_of_neg p)
      · exact n2 (EReal.bot_mul_of_pos p)
      · exact n1 (EReal.bot_mul_of_neg p)
    have ib : b ≠ .pinf ∧ b ≠ .ninf := by
      constructor <;> rintro rfl
      all_goals rcases sign37 ha (fun h => by simpa using h1 h) with ⟨-, p⟩ | ⟨-, p⟩
      · exact n1 (EReal.mul_top_of_pos p)
      · exact n2 (EReal.mul_top_of_neg p)
      · exact n2 (EReal.mul_bot_of_pos p)
      · exact n1 (EReal.mul_bot_of_neg p)
    refine ⟨(a.q * b.q : ℝ), by rw [toE_q ⟨ha, ia⟩, toE_q ⟨hb, ib⟩, ← EReal.coe_mul], ?_⟩
    have hlt : |a.q * b.q| < 2 ^ φ.emax := by
      by_contra hc
      rw [mul2_core ⟨ha, ia⟩ ⟨hb, ib⟩] at hn
      simp only [] at hn
      rw [if_pos (not_lt.mp hc)] at hn
      cases hs : (a.signbit != b.signbit) <;> rw [hs] at hn <;> simp [FP.mkInf] at hn
    have : ((|a.q * b.q| : ℚ) : ℝ) < ((2 ^ φ.emax : ℚ) : ℝ) := by exact_mod_cast hlt
    push_cast at this; exact this
  have hpos : (0:ℝ) < 2 ^ φ.emax := zpow_pos (by norm_num) _
  have excl : ∀ {P : Prop}, (((2:ℝ) ^ φ.emax : ℝ) : EReal) ≤ a.toE * b.toE →
      a.toE * b.toE ≤ ((-(2:ℝ) ^ φ.emax : ℝ) : EReal) → P := fun h h' => by
    have := EReal.coe_le_coe_iff.mp (h.trans h'); linarith
  refine ⟨⟨up, fun e => ?_⟩, ⟨dn, fun e => ?_⟩⟩
  · by_contra hc
    by_cases n1 : a.toE * b.toE = ⊤
    · exact hc (j1 n1)
    by_cases n2 : a.toE * b.toE = ⊥
    · rw [n2] at e; exact absurd e (not_le.mpr (EReal.bot_lt_coe _))
    obtain ⟨v, hv, hl⟩ := fin n1 n2 ⟨hc, fun h => excl e (dn h)⟩
    rw [hv, EReal.coe_le_coe_iff] at e
    exact absurd (le_abs_self v) (not_le.mpr (hl.trans_le e))
  · by_contra hc
    by_cases n2 : a.toE * b.toE = ⊥
    · exact hc (j2 n2)
    by_cases n1 : a.toE * b.toE = ⊤
    · rw [n1] at e; exact absurd e (not_le.mpr (EReal.coe_lt_top _))
    obtain ⟨v, hv, hl⟩ := fin n1 n2 ⟨fun h => excl (up h) e, hc⟩
    rw [hv, EReal.coe_le_coe_iff] at e
    have := neg_abs_le v
    linarith

/-- **Products that overflow**: a product of `2^emax` or more counts as `+∞` and one of `-2^emax` or less as `-∞`, even if the exact
sum is in range.  With `C37_dot_special` and `C37_dot_near_partial` this says what `dot` delivers on every input. -/
theorem C37_dot_overflow (m : RMode) {a b : List FP} (hl : a.length ≤ b.length) (h0 : ∀ p ∈ a.zip b, ¬ NoProduct p.1 p.2) :
    ((∃ p ∈ a.zip b, (((2:ℝ) ^ φ.emax : ℝ) : EReal) ≤ p.1.toE * p.2.toE) →
      (∃ p ∈ a.zip b, p.1.toE * p.2.toE ≤ ((-(2:ℝ) ^ φ.emax : ℝ) : EReal)) → φ.dot m a b = some .nan) ∧
    ((∃ p ∈ a.zip b, (((2:ℝ) ^ φ.emax : ℝ) : EReal) ≤ p.1.toE * p.2.toE) →
      (∀ p ∈ a.zip b, ¬ p.1.toE * p.2.toE ≤ ((-(2:ℝ) ^ φ.emax : ℝ) : EReal)) → φ.dot m a b = some .pinf) ∧
    ((∀ p ∈ a.zip b, ¬ (((2:ℝ) ^ φ.emax : ℝ) : EReal) ≤ p.1.toE * p.2.toE) →
      (∃ p ∈ a.zip b, p.1.toE * p.2.toE ≤ ((-(2:ℝ) ^ φ.emax : ℝ) : EReal)) → φ.dot m a b = some .ninf) := by
  have key : φ.dot m a b = some (φ.sum m (List.zipWith φ.mul2 a b)) := by
    unfold Fmt.dot; rw [if_neg (by omega)]; rfl
  obtain ⟨k1, k2, k3⟩ := C37_sum_special (φ := φ) m (List.zipWith φ.mul2 a b)
  rw [key]
  have nn : .nan ∉ List.zipWith φ.mul2 a b := by
    intro hm
    obtain ⟨p, hp, e⟩ := mem_zipWith37.mp hm
    exact mul2_ne_nan (h0 p hp) e
  have up : ∀ p ∈ a.zip b, (((2:ℝ) ^ φ.emax : ℝ) : EReal) ≤ p.1.toE * p.2.toE → .pinf ∈ List.zipWith φ.mul2 a b :=
    fun p hp h => mem_zipWith37.mpr ⟨p, hp, (mul2_inf_iff (h0 p hp)).1.mpr h⟩
  have dn : ∀ p ∈ a.zip b, p.1.toE * p.2.toE ≤ ((-(2:ℝ) ^ φ.emax : ℝ) : EReal) → .ninf ∈ List.zipWith φ.mul2 a b :=
    fun p hp h => mem_zipWith37.mpr ⟨p, hp, (mul2_inf_iff (h0 p hp)).2.mpr h⟩
  refine ⟨?_, ?_, ?_⟩
  · rintro ⟨p, hp, h⟩ ⟨q, hq, h'⟩
    rw [k1 (Or.inr ⟨up p hp h, dn q hq h'⟩)]
  · rintro ⟨p, hp, h⟩ h'
    rw [k2 nn (up p hp h)]
    intro hm
    obtain ⟨q, hq, e⟩ := mem_zipWith37.mp hm
    exact h' q hq ((mul2_inf_iff (h0 q hq)).2.mp e)
  · rintro h' ⟨p, hp, h⟩
    rw [k3 nn ?_ (dn p hp h)]
    intro hm
    obtain ⟨q, hq, e⟩ := mem_zipWith37.mp hm
    exact h' q hq ((mul2_inf_iff (h0 q hq)).1.mp e)

/-- The same for `sum_sqr`: `+∞` if a square is `2^emax` or more. -/
theorem C37_sum_sqr_overflow (m : RMode) {l : List FP} (hn : .nan ∉ l)
    (h : ∃ a ∈ l, (((2:ℝ) ^ φ.emax : ℝ) : EReal) ≤ a.toE * a.toE) : φ.sumSqr m l = .pinf := by
  have key : φ.sumSqr m l = φ.sum m (l.map fun a => φ.mul2 a a) := rfl
  obtain ⟨-, h2, -⟩ := C37_sum_special (φ := φ) m (l.map fun a => φ.mul2 a a)
  have np : ∀ a : FP, a ≠ .nan → ¬ NoProduct a a := by
    intro a ha h; cases a <;> simp [NoProduct] at h ha
  rw [key]
  obtain ⟨a, ha, hv⟩ := h
  refine h2 ?_ (List.mem_map.mpr ⟨a, ha, (mul2_inf_iff (np a fun e => hn (e ▸ ha))).1.mpr hv⟩) ?_
  · rw [List.mem_map]; rintro ⟨c, hc, h0⟩
    exact mul2_ne_nan (np c fun e => hn (e ▸ hc)) h0
  · rw [List.mem_map]; rintro ⟨c, hc, h0⟩
    have hle := (mul2_inf_iff (np c fun e => hn (e ▸ hc))).2.mp h0
    have h0 : (0:EReal) ≤ c.toE * c.toE := by
      rcases le_total 0 c.toE with h | h
      · exact mul_nonneg h h
      · exact EReal.mul_nonneg_iff.mpr (Or.inr ⟨h, h⟩)
    have := h0.trans hle
    have hpos : (0:ℝ) < 2 ^ φ.emax := zpow_pos (by norm_num) _
    have := EReal.coe_le_coe_iff.mp (by simpa using this : ((0:ℝ):EReal) ≤ ((-(2:ℝ) ^ φ.emax : ℝ) : EReal))
    linarith

/-- **Products that underflow**: if no product overflows, `dot` is the correct rounding of a value that is at most
`n·2^(qmin-1)`, half the least positive number per pair, away from the exact one. -/
theorem C37_dot_near_partial (m : RMode) {a b : List FP} {s t : List ℝ} (ha : ∀ c ∈ a, c.Finite φ) (hb : ∀ c ∈ b, c.Finite φ)
    (hs : a.map FP.toE = s.map (fun t : ℝ => (t : EReal))) (ht : b.map FP.toE = t.map (fun t : ℝ => (t : EReal)))
    (hlen : s.length = t.length) (hr : ∀ p ∈ s.zip t, |p.1 * p.2| < 2 ^ φ.emax) :
    ∃ r, φ.dot m a b = some r ∧ ∃ σ : ℝ, |σ - (List.zipWith (· * ·) s t).sum| ≤ s.length * 2 ^ (φ.qmin - 1) ∧
      CorrectlyRounded φ m σ r := by
  have la : a.length = s.length := by simpa using congrArg List.length hs
  have lb : b.length = t.length := by simpa using congrArg List.length ht
  refine ⟨_, by unfold Fmt.dot; rw [if_neg (by omega)], ?_⟩
  have key : (∀ c ∈ List.zipWith φ.mul2 a b, c ≠ .nan ∧ c ≠ .pinf ∧ c ≠ .ninf) ∧
      |(((List.zipWith φ.mul2 a b).map FP.q).sum : ℝ) - (List.zipWith (· * ·) s t).sum| ≤ s.length * 2 ^ (φ.qmin - 1) := by
    clear la lb
    induction a generalizing b s t with
    | nil => cases s with
      | nil => simp
      | cons x s => simp at hs
    | cons c a ih =>
      cases s with
      | nil => simp at hs
      | cons x s =>
        cases t with
        | nil => simp at hlen
        | cons y t =>
          cases b with
          | nil => simp at ht
          | cons d b =>
            simp only [List.map_cons, List.cons.injEq] at hs ht
            have hc := (ha c (by simp)).2
            have hd := (hb d (by simp)).2
            have ex : (c.q : ℝ) = x := by have := hs.1; rw [toE_q hc] at this; exact_mod_cast this
            have ey : (d.q : ℝ) = y := by have := ht.1; rw [toE_q hd] at this; exact_mod_cast this
            have hlt : |c.q * d.q| < 2 ^ φ.emax := by
              have := hr (x, y) (by simp)
              simp only [← ex, ← ey] at this
              have e : ((|c.q * d.q| : ℚ) : ℝ) < ((2 ^ φ.emax : ℚ) : ℝ) := by push_cast; exact this
              exact_mod_cast e
            obtain ⟨n1, n2⟩ := mul2_near hc hd hlt
            obtain ⟨i1, i2⟩ := ih (fun c h => ha c (List.mem_cons_of_mem _ h)) (fun c h => hb c (List.mem_cons_of_mem _ h))
              hs.2 ht.2 (by simpa using hlen) (fun p hp => hr p (by simp [hp]))
            refine ⟨?_, ?_⟩
            · intro e he
              simp only [List.zipWith_cons_cons, List.mem_cons] at he
              rcases he with rfl | he
              exacts [n1, i1 e he]
            · have n3 : |((φ.mul2 c d).q : ℝ) - x * y| ≤ 2 ^ (φ.qmin - 1) := by
                rw [← ex, ← ey]
                have e : ((|(φ.mul2 c d).q - c.q * d.q| : ℚ) : ℝ) ≤ ((2 ^ (φ.qmin - 1) : ℚ) : ℝ) := by exact_mod_cast n2
                push_cast at e
                exact e
              simp only [List.zipWith_cons_cons, List.map_cons, List.sum_cons, List.length_cons]
              rw [Rat.cast_add, Nat.cast_add, Nat.cast_one]
              rw [abs_le] at n3 i2 ⊢
              constructor <;> linarith [n3.1, n3.2, i2.1, i2.2]
  refine ⟨_, key.2, ?_⟩
  rw [mpfrSum_finite key.1]
  exact roundR_spec m _

/-- The hypotheses are met: an overflow-free dot product with an underflow, infinite and undefined ones. -/
example : binary64.dot .upward [.fin (2 ^ (-1074:ℤ)), .fin 3] [.fin (2 ^ (-1:ℤ)), .fin 5] = some (.fin 15) ∧
    binary64.dot .upward [.pinf, .fin 3] [.fin 1, .fin 5] = some .pinf ∧
    binary64.dot .upward [.pinf, .fin 3] [.fin 0, .fin 5] = some .nan ∧
    binary64.sumSqr .downward [.ninf, .fin 3] = .pinf ∧
    NoProduct .pinf (.fin 0) ∧ ¬ NoProduct .pinf (.fin 1) := by
  refine ⟨by decide +kernel, by decide +kernel, by decide +kernel, by decide +kernel, ?_, ?_⟩ <;> simp [NoProduct]

/-- Overflowing products: the exact sum of the first is 1, that of the second is in range as well. -/
example : binary64.dot .upward [.fin (2 ^ (600:ℤ)), .fin (-2 ^ (600:ℤ)), .fin 1] [.fin (2 ^ (600:ℤ)), .fin (2 ^ (600:ℤ)), .fin 1] = some .nan ∧
    binary64.dot .upward [.fin (2 ^ (512:ℤ)), .fin (-2 ^ (512:ℤ))] [.fin (2 ^ (512:ℤ)), .fin (2 ^ (511:ℤ))] = some .pinf ∧
    binary64.sumSqr .downward [.fin (-2 ^ (512:ℤ)), .fin 3] = .pinf := by
  refine ⟨by decide +kernel, by decide +kernel, by decide +kernel⟩

end P1788
