import Verif.Props.C50
import Verif.Props.C33b
import Verif.Props.C34
import Verif.Lemmas.Nearest

/-! # C54: how much wider than the exact range a result can be

The tightest interval of a number type around a set overshoots the set at each end by less than one unit in the last place, and on a point it
has no number of the type strictly inside.  This holds of all elementary functions, of the mixed-type versions
(which round twice), and of the conversions. -/

namespace P1788
variable {φ ψ : Fmt} {T T1 T2 T3 : NumTy}

/-- One unit in the last place at `m`, or less: `2^(1-p)` relative to `m`, but not less than the least positive number. -/
noncomputable def Fmt.unit (φ : Fmt) (m : ℝ) : ℝ := max (2 ^ (1 - (φ.p : ℤ)) * |m|) (2 ^ φ.qmin)

/-- `R` overshoots `S` by less than one unit at each end that is in the range of the number type. -/
def SharpTo (φ : Fmt) (R : Itv) (S : Set ℝ) : Prop :=
  (∀ m, IsGLB S m → |m| ≤ (φ.maxFin : ℝ) → ∀ r ∈ R.set, m - φ.unit m < r) ∧
  (∀ m, IsLUB S m → |m| ≤ (φ.maxFin : ℝ) → ∀ r ∈ R.set, r < m + φ.unit m)

/-- No number of the type lies strictly between two members of `R`. -/
def NoGap (φ : Fmt) (R : Itv) : Prop := ∀ q : ℚ, φ.Rep q → ∀ r ∈ R.set, ∀ s ∈ R.set, ¬ (r < q ∧ (q:ℝ) < s)

theorem ulp_le_unit (m : ℝ) : (2:ℝ) ^ φ.expo m ≤ φ.unit m ∨ m = 0 := by
  by_cases h0 : m = 0
  · exact Or.inr h0
  left
  unfold Fmt.expo Fmt.unit
  rcases le_total (Int.log 2 |m| - φ.p + 1) φ.qmin with h | h
  · rw [max_eq_right h]; exact le_max_right _ _
  · rw [max_eq_left h]
    refine le_trans ?_ (le_max_left _ _)
    have h1 : (2:ℝ) ^ (Int.log 2 |m|) ≤ |m| := by
      have := Int.zpow_log_le_self (b := 2) (r := |m|) (by norm_num) (abs_pos.mpr h0)
      exact_mod_cast this
    calc (2:ℝ) ^ (Int.log 2 |m| - φ.p + 1) = 2 ^ (1 - (φ.p : ℤ)) * 2 ^ (Int.log 2 |m|) := by
          rw [← zpow_add₀ (by norm_num)]; congr 1; ring
      _ ≤ _ := mul_le_mul_of_nonneg_left h1 (zpow_pos (by norm_num) _).le

theorem unit_pos (m : ℝ) : 0 < φ.unit m := lt_of_lt_of_le (zpow_pos (by norm_num) _) (le_max_right _ _)

theorem unit_neg (m : ℝ) : φ.unit (-m) = φ.unit m := by unfold Fmt.unit; rw [abs_neg]

theorem roundQ_D_gt (m : ℝ) : m - φ.unit m < (φ.roundQ .D m : ℝ) := by
  rcases ulp_le_unit (φ := φ) m with h | rfl
  · have h2 : (0:ℝ) < 2 ^ φ.expo m := zpow_pos (by norm_num) _
    have h1 := Int.sub_one_lt_floor (m / 2 ^ φ.expo m)
    have : (φ.roundQ .D m : ℝ) = (⌊m / (2:ℝ) ^ φ.expo m⌋ : ℝ) * 2 ^ φ.expo m := by
      unfold Fmt.roundQ roundInt
      push_cast
      rfl
    rw [this]
    have h3 : (m / 2 ^ φ.expo m - 1) * 2 ^ φ.expo m < (⌊m / (2:ℝ) ^ φ.expo m⌋ : ℝ) * 2 ^ φ.expo m :=
      mul_lt_mul_of_pos_right h1 h2
    rw [sub_mul, div_mul_cancel₀ _ h2.ne', one_mul] at h3
    linarith
  · have : (φ.roundQ .D (0:ℝ)) = 0 := by simp [Fmt.roundQ, roundInt]
    rw [this]
    have := unit_pos (φ := φ) 0
    push_cast; linarith

theorem roundQ_U_lt (m : ℝ) : (φ.roundQ .U m : ℝ) < m + φ.unit m := by
  have := roundQ_D_gt (φ := φ) (-m)
  rw [φ.roundQ_U_eq, unit_neg] at *
  push_cast
  linarith

/-- The candidates that show where the ends of a tightest interval are. -/
theorem ray_ok {q : ℚ} (h : φ.Rep q) : (Itv.mk (.fin q) .pinf).Ok φ ∧ (Itv.mk .ninf (.fin q)).Ok φ :=
  ⟨Itv.NE.ok ⟨by simp, by simp, by simp [FP.toE], by simp [FP.toE], by simp [FP.toE], h, trivial⟩,
    Itv.NE.ok ⟨by simp, by simp, by simp [FP.toE], by simp [FP.toE], by simp [FP.toE], trivial, h⟩⟩

theorem Tightest.ge {R : Itv} {S : Set ℝ} (h : Tightest φ R S) {q : ℚ} (hq : φ.Rep q) (hS : ∀ s ∈ S, (q:ℝ) ≤ s) :
    ∀ r ∈ R.set, (q:ℝ) ≤ r :=
  fun _ hr => (h.2.2 _ (ray_ok hq).1 (fun s hs => ⟨hS s hs, trivial⟩) hr).1

theorem Tightest.le {R : Itv} {S : Set ℝ} (h : Tightest φ R S) {q : ℚ} (hq : φ.Rep q) (hS : ∀ s ∈ S, s ≤ (q:ℝ)) :
    ∀ r ∈ R.set, r ≤ (q:ℝ) :=
  fun _ hr => (h.2.2 _ (ray_ok hq).2 (fun s hs => ⟨trivial, hS s hs⟩) hr).2

theorem Tightest.accurate {R : Itv} {S : Set ℝ} (h : Tightest φ R S) : SharpTo φ R S := by
  constructor
  · intro m hm hb r hr
    have hq := φ.rep_roundQ (φ.roundQ_le_maxFin (m := .D) hb)
    exact (roundQ_D_gt m).trans_le (h.ge hq (fun s hs => (φ.roundQ_D_le m).trans (hm.1 hs)) r hr)
  · intro m hm hb r hr
    have hq := φ.rep_roundQ (φ.roundQ_le_maxFin (m := .U) hb)
    exact (h.le hq (fun s hs => (hm.1 hs).trans (φ.roundQ_U_ge m)) r hr).trans_lt (roundQ_U_lt m)

theorem Tightest.noGap {R : Itv} {v : ℝ} (h : Tightest φ R {v}) : NoGap φ R := by
  rintro q hq r hr s hs ⟨h1, h2⟩
  rcases le_total (q:ℝ) v with hv | hv
  · exact absurd (h.ge hq (by simpa using hv) r hr) (not_le.mpr h1)
  · exact absurd (h.le hq (by simpa using hv) s hs) (not_le.mpr h2)

theorem Tightest.near {R : Itv} {v : ℝ} (h : Tightest φ R {v}) (hb : |v| ≤ (φ.maxFin : ℝ)) : ∀ r ∈ R.set, |r - v| < φ.unit v := by
  intro r hr
  have h1 := h.accurate.1 v isGLB_singleton hb r hr
  have h2 := h.accurate.2 v isLUB_singleton hb r hr
  rw [abs_lt]; constructor <;> linarith

theorem tan_set (x : Itv) : Op1.tan.fn '' (x.set ∩ Op1.tan.dom) = tanRange x := by
  ext z; exact ⟨fun ⟨a, h, e⟩ => ⟨a, h.1, h.2, e.symm⟩, fun ⟨a, h, h', e⟩ => ⟨a, ⟨h, h'⟩, e.symm⟩⟩

/-- An interval with a pole has tangents without bound on both sides, so nothing is claimed. -/
theorem pole_accurate {x R : Itv} (hx : x.Ok ψ) (hp : x.HasPole) : SharpTo φ R (tanRange x) := by
  rcases hx.cases with rfl | hN
  · obtain ⟨t, ht, -⟩ := hp; simp at ht
  have hB := range_pole hN hp
  constructor
  · intro m hm
    have := hB.le_glb (t := (m:EReal)) (fun s hs => by exact_mod_cast hm.1 hs)
    exact absurd this (not_le.mpr (EReal.bot_lt_coe _))
  · intro m hm
    have := hB.lub_le (t := (m:EReal)) (fun s hs => by exact_mod_cast hm.1 hs)
    exact absurd this (not_le.mpr (EReal.coe_lt_top _))

theorem tan_accurate {k : ℤ} (hk : PoleGap φ k) {x : Itv} (hx : x.Ok φ) :
    SharpTo φ (φ.tanI x) (Op1.tan.fn '' (x.set ∩ Op1.tan.dom)) := by
  rw [tan_set]
  by_cases hp : x.HasPole
  · exact pole_accurate hx hp
  · exact (tan_tightest hk hx (fun h => absurd h.1 hp)).accurate

theorem tan_mixed_accurate {x : Itv} (hx : x.Ok T1.fmt) :
    SharpTo T.fmt (Op1.tan.mixed T T1 x) (Op1.tan.fn '' (x.set ∩ Op1.tan.dom)) := by
  rw [tan_set]
  by_cases hp : x.HasPole
  · exact pole_accurate hx hp
  have hs1 : T1.fmt.Sub (T.maxPrec [T1]).fmt := NumTy.sub_max (by simp)
  have hs : T.fmt.Sub (T.maxPrec [T1]).fmt := NumTy.sub_max (by simp)
  obtain ⟨k, hk⟩ := (T.maxPrec [T1]).poleGap
  have e := convert_exact hs1 hx
  have hp' : ¬ ((T.maxPrec [T1]).fmt.convertHull x).HasPole := by
    unfold Itv.HasPole; rw [e]; exact hp
  have h := tight_convert hs (tan_tightest hk (convertHull_tight (φ := (T.maxPrec [T1]).fmt) hx).1 (fun h => absurd h.1 hp'))
  have e' : tanRange ((T.maxPrec [T1]).fmt.convertHull x) = tanRange x := by unfold tanRange; rw [e]
  rw [e'] at h
  have := h.accurate
  unfold Op1.mixed
  rw [hx.isValid]
  exact this

/-- **C54**: a unary function overshoots its exact range by less than one unit at each end. -/
theorem C54_unary (T : NumTy) (op : Op1) {x : Itv} (hx : x.Ok T.fmt) : SharpTo T.fmt (op.bare T.fmt x) (op.fn '' (x.set ∩ op.dom)) := by
  by_cases h : op = .tan
  · obtain ⟨k, hk⟩ := T.poleGap
    subst h; exact tan_accurate hk hx
  · exact (op.tight h hx).accurate

/-- The same for binary functions. -/
theorem C54_binary (op : Op2) {x y : Itv} (hx : x.Ok φ) (hy : y.Ok φ) :
    SharpTo φ (op.bare φ x y) (op.fn '' ((x.set ×ˢ y.set) ∩ op.dom)) :=
  (op.tight hx hy).accurate

/-- The same for `fma`: only one rounding. -/
theorem C54_fma {x y z : Itv} (hx : x.Ok φ) (hy : y.Ok φ) (hz : z.Ok φ) :
    SharpTo φ (φ.fmaI x y z) {w | ∃ a ∈ x.set, ∃ b ∈ y.set, ∃ c ∈ z.set, w = a * b + c} :=
  (C06_fma φ hx hy hz).accurate

/-- The mixed-type versions, although they compute in one type and convert to another. -/
theorem C54_mixed {x y z : Itv} (hx : x.Ok T1.fmt) (hy : y.Ok T2.fmt) (hz : z.Ok T3.fmt) :
    (∀ op : Op1, SharpTo T.fmt (op.mixed T T1 x) (op.fn '' (x.set ∩ op.dom))) ∧
    (∀ op : Op2, SharpTo T.fmt (op.mixed T T1 T2 x y) (op.fn '' ((x.set ×ˢ y.set) ∩ op.dom))) ∧
    SharpTo T.fmt (fmaMixed T T1 T2 T3 x y z) {w | ∃ a ∈ x.set, ∃ b ∈ y.set, ∃ c ∈ z.set, w = a * b + c} :=
  ⟨fun op => by
      by_cases h : op = .tan
      · subst h; exact tan_mixed_accurate hx
      · exact (C33_unary h hx).accurate, fun op => (C33_binary op hx hy).accurate, (C33_fma hx hy hz).accurate⟩

/-- The conversion to another number type. -/
theorem C54_convert (φ : Fmt) {x : Itv} (hx : x.Ok ψ) : ∃ y : Itv, Returns (φ.convertType x) y ∧ SharpTo φ y x.set := by
  obtain ⟨y, h1, h2⟩ := C34_convert φ hx
  exact ⟨y, h1, h2.accurate⟩

/-- Points: the result of any unary function, the tangent included, encloses the value with no number of the type strictly inside, and its
members differ from the value by less than one unit. -/
theorem C54_point_unary (op : Op1) {x : Itv} {a : ℝ} (hx : x.Ok φ) (h : x.set = {a}) (hd : a ∈ op.dom) :
    op.fn a ∈ (op.bare φ x).set ∧ NoGap φ (op.bare φ x) ∧
    (|op.fn a| ≤ (φ.maxFin : ℝ) → ∀ r ∈ (op.bare φ x).set, |r - op.fn a| < φ.unit (op.fn a)) := by
  have ht : Tightest φ (op.bare φ x) {op.fn a} := by
    have e : op.fn '' (x.set ∩ op.dom) = {op.fn a} := by
      rw [h, Set.singleton_inter_of_mem hd, Set.image_singleton]
    by_cases htan : op = .tan
    · subst htan; exact e ▸ tan_point hx h
    · exact e ▸ op.tight htan hx
  exact ⟨ht.2.1 rfl, ht.noGap, ht.near⟩

/-- Points: binary functions. -/
theorem C54_point_binary (op : Op2) {x y : Itv} {a b : ℝ} (hx : x.Ok φ) (hy : y.Ok φ) (h : x.set = {a}) (h' : y.set = {b})
    (hd : (a, b) ∈ op.dom) :
    op.fn (a, b) ∈ (op.bare φ x y).set ∧ NoGap φ (op.bare φ x y) ∧
    (|op.fn (a, b)| ≤ (φ.maxFin : ℝ) → ∀ r ∈ (op.bare φ x y).set, |r - op.fn (a, b)| < φ.unit (op.fn (a, b))) := by
  have ht : Tightest φ (op.bare φ x y) {op.fn (a, b)} := by
    have e : op.fn '' ((x.set ×ˢ y.set) ∩ op.dom) = {op.fn (a, b)} := by
      rw [h, h', Set.singleton_prod_singleton, Set.singleton_inter_of_mem hd, Set.image_singleton]
    exact e ▸ op.tight hx hy
  exact ⟨ht.2.1 rfl, ht.noGap, ht.near⟩

/-- Points: `fma`. -/
theorem C54_point_fma {x y z : Itv} {a b c : ℝ} (hx : x.Ok φ) (hy : y.Ok φ) (hz : z.Ok φ) (h : x.set = {a}) (h' : y.set = {b})
    (h'' : z.set = {c}) :
    a * b + c ∈ (φ.fmaI x y z).set ∧ NoGap φ (φ.fmaI x y z) ∧
    (|a * b + c| ≤ (φ.maxFin : ℝ) → ∀ r ∈ (φ.fmaI x y z).set, |r - (a * b + c)| < φ.unit (a * b + c)) := by
  have ht : Tightest φ (φ.fmaI x y z) {a * b + c} := by
    have e : {w | ∃ a ∈ x.set, ∃ b ∈ y.set, ∃ c ∈ z.set, w = a * b + c} = {a * b + c} := by
      rw [h, h', h'']; ext w; simp
    exact e ▸ C06_fma φ hx hy hz
  exact ⟨ht.2.1 rfl, ht.noGap, ht.near⟩

/-- Non-vacuity: `1/3` in `double` is enclosed by two different numbers, `2^-54` apart: the result is not exact, and not wider. -/
example : (⟨.fin 3, .fin 3⟩ : Itv).Ok binary64 ∧ (⟨.fin 3, .fin 3⟩ : Itv).set = {((3:ℚ):ℝ)} ∧ (((3:ℚ):ℝ)) ∈ Op1.recip.dom ∧
    |Op1.recip.fn ((3:ℚ):ℝ)| ≤ (binary64.maxFin : ℝ) ∧
    binary64.recipI ⟨.fin 3, .fin 3⟩ = ⟨.fin (6004799503160661 / 2 ^ 54), .fin (6004799503160662 / 2 ^ 54)⟩ := by
  have h3 : binary64.Rep 3 := ⟨3, 0, by norm_num, by decide, by decide, by decide⟩
  refine ⟨(rep_point h3).1, (rep_point h3).2, ?_, ?_, by decide +kernel⟩
  · simp [Op1.dom]
  · have : |Op1.recip.fn ((3:ℚ):ℝ)| ≤ 1 := by simp [Op1.fn]; norm_num
    refine this.trans ?_
    have : (1:ℚ) ≤ binary64.maxFin := by decide +kernel
    exact_mod_cast this

/-! ## Long sums -/

theorem unit_mono {a b : ℝ} (h : |a| ≤ |b|) : φ.unit a ≤ φ.unit b :=
  max_le_max (mul_le_mul_of_nonneg_left h (zpow_pos (by norm_num) _).le) le_rfl

/-- One step: adding the number `c` to an interval within `e` of `s`. -/
theorem Tightest.step {R x : Itv} {s c e B : ℝ} (h : Tightest φ R ((fun t => t + c) '' x.set)) (hne : x.set.Nonempty)
    (hs : ∀ t ∈ x.set, |t - s| ≤ e) (hB : ∀ t ∈ R.set, |t| ≤ B) (hm : B ≤ (φ.maxFin : ℝ)) :
    R.set.Nonempty ∧ ∀ r ∈ R.set, |r - (s + c)| ≤ e + φ.unit B := by
  set S := (fun t => t + c) '' x.set with hS
  have hSne : S.Nonempty := hne.image _
  have hSB : ∀ t ∈ S, |t| ≤ B := fun t ht => hB t (h.2.1 ht)
  have hB0 : 0 ≤ B := (abs_nonneg _).trans (hSB _ hSne.choose_spec)
  have hSe : ∀ t ∈ S, |t - (s + c)| ≤ e := by
    rintro _ ⟨t, ht, rfl⟩
    have := hs t ht
    rwa [show t + c - (s + c) = t - s by ring]
  have hbb : BddBelow S := ⟨-B, fun t ht => (abs_le.mp (hSB t ht)).1⟩
  have hba : BddAbove S := ⟨B, fun t ht => (abs_le.mp (hSB t ht)).2⟩
  have hg := isGLB_csInf hSne hbb
  have hl := isLUB_csSup hSne hba
  obtain ⟨t0, ht0⟩ := hSne
  have g1 : |sInf S| ≤ B := abs_le.mpr ⟨hg.2 (fun t ht => (abs_le.mp (hSB t ht)).1), (hg.1 ht0).trans (abs_le.mp (hSB t0 ht0)).2⟩
  have l1 : |sSup S| ≤ B := abs_le.mpr ⟨(abs_le.mp (hSB t0 ht0)).1.trans (hl.1 ht0), hl.2 (fun t ht => (abs_le.mp (hSB t ht)).2)⟩
  have g2 : s + c - e ≤ sInf S := hg.2 (fun t ht => by have := (abs_le.mp (hSe t ht)).1; linarith)
  have l2 : sSup S ≤ s + c + e := hl.2 (fun t ht => by have := (abs_le.mp (hSe t ht)).2; linarith)
  refine ⟨⟨t0, h.2.1 ht0⟩, fun r hr => ?_⟩
  have a1 := h.accurate.1 _ hg (g1.trans hm) r hr
  have a2 := h.accurate.2 _ hl (l1.trans hm) r hr
  have u1 := unit_mono (φ := φ) (g1.trans (le_abs_self B))
  have u2 := unit_mono (φ := φ) (l1.trans (le_abs_self B))
  rw [abs_le]; constructor <;> linarith

/-- The point interval of a number. -/
def pt (q : ℚ) : Itv := ⟨.fin q, .fin q⟩

/-- A program of the user: a scalar product by repeated `fma`, from the left, over point intervals. -/
def dotI (φ : Fmt) (l : List (ℚ × ℚ)) : Itv := l.foldl (fun acc ab => φ.fmaI (pt ab.1) (pt ab.2) acc) (pt 0)

/-- A program of the user: a sum from the left over point intervals. -/
def sumI (φ : Fmt) (l : List ℚ) : Itv := l.foldl (fun acc a => φ.addI acc (pt a)) (pt 0)

theorem rep_zero' : φ.Rep 0 := by simpa using φ.rep_intCast (k := 0) (by simp)

/-- A scalar product of `n` terms is off by at most `n` units of the largest intermediate result. -/
theorem C54_dot (l : List (ℚ × ℚ)) (hl : ∀ ab ∈ l, φ.Rep ab.1 ∧ φ.Rep ab.2) {B : ℝ} (hm : B ≤ (φ.maxFin : ℝ))
    (hB : ∀ k, ∀ t ∈ (dotI φ (l.take k)).set, |t| ≤ B) :
    ∀ r ∈ (dotI φ l).set, |r - (l.map (fun ab => ((ab.1 * ab.2 : ℚ) : ℝ))).sum| ≤ l.length * φ.unit B := by
  suffices H : (dotI φ l).Ok φ ∧ (dotI φ l).set.Nonempty ∧
      ∀ r ∈ (dotI φ l).set, |r - (l.map (fun ab => ((ab.1 * ab.2 : ℚ) : ℝ))).sum| ≤ l.length * φ.unit B from H.2.2
  induction l using List.reverseRecOn with
  | nil => 
    have := rep_point (φ := φ) rep_zero'
    refine ⟨this.1, ?_, ?_⟩ <;> simp only [dotI, List.foldl_nil, pt, this.2]
    · exact Set.singleton_nonempty _
    · simp
  | append_singleton l ab ih =>
    have hab := hl ab (by simp)
    obtain ⟨i1, i2, i3⟩ := ih (fun c hc => hl c (by simp [hc])) (fun k t ht => by
      by_cases hk : k ≤ l.length
      · exact hB k t (by rwa [List.take_append_of_le_length hk])
      · refine hB l.length t ?_
        rw [List.take_append_of_le_length le_rfl, List.take_length]
        rwa [List.take_of_length_le (by omega)] at ht)
    have pa := rep_point (φ := φ) hab.1
    have pb := rep_point (φ := φ) hab.2
    have e : dotI φ (l ++ [ab]) = φ.fmaI (pt ab.1) (pt ab.2) (dotI φ l) := by simp [dotI]
    have ht := C06_fma φ pa.1 pb.1 i1
    have es : {w | ∃ a ∈ (pt ab.1).set, ∃ b ∈ (pt ab.2).set, ∃ c ∈ (dotI φ l).set, w = a * b + c} =
        (fun t => t + ((ab.1 * ab.2 : ℚ) : ℝ)) '' (dotI φ l).set := by
      ext w
      simp only [pt, pa.2, pb.2, Set.mem_singleton_iff, exists_eq_left, Set.mem_image, Set.mem_ofPred_eq]
      constructor <;> rintro ⟨c, hc, h⟩ <;> refine ⟨c, hc, ?_⟩ <;> push_cast at * <;> linarith
    have ht' : Tightest φ (dotI φ (l ++ [ab])) ((fun t => t + ((ab.1 * ab.2 : ℚ) : ℝ)) '' (dotI φ l).set) := by
      rw [e, ← es]; exact ht
    have hk := hB (l ++ [ab]).length
    rw [List.take_length] at hk
    have := ht'.step i2 i3 hk hm
    refine ⟨ht'.1, this.1, fun r hr => ?_⟩
    have h2 := this.2 r hr
    simp only [List.map_append, List.sum_append, List.map_cons, List.map_nil, List.sum_singleton, List.length_append, List.length_singleton]
    refine h2.trans (le_of_eq ?_)
    push_cast; ring

/-- A sum of `n` terms is off by at most `n` units of the largest intermediate result. -/
theorem C54_sum (l : List ℚ) (hl : ∀ a ∈ l, φ.Rep a) {B : ℝ} (hm : B ≤ (φ.maxFin : ℝ))
    (hB : ∀ k, ∀ t ∈ (sumI φ (l.take k)).set, |t| ≤ B) :
    ∀ r ∈ (sumI φ l).set, |r - (l.map (fun a : ℚ => (a : ℝ))).sum| ≤ l.length * φ.unit B := by
  suffices H : (sumI φ l).Ok φ ∧ (sumI φ l).set.Nonempty ∧
      ∀ r ∈ (sumI φ l).set, |r - (l.map (fun a : ℚ => (a : ℝ))).sum| ≤ l.length * φ.unit B from H.2.2
  induction l using List.reverseRecOn with
  | nil => 
    have := rep_point (φ := φ) rep_zero'
    refine ⟨this.1, ?_, ?_⟩ <;> simp only [sumI, List.foldl_nil, pt, this.2]
    · exact Set.singleton_nonempty _
    · simp
  | append_singleton l a ih =>
    obtain ⟨i1, i2, i3⟩ := ih (fun c hc => hl c (by simp [hc])) (fun k t ht => by
      by_cases hk : k ≤ l.length
      · exact hB k t (by rwa [List.take_append_of_le_length hk])
      · refine hB l.length t ?_
        rw [List.take_append_of_le_length le_rfl, List.take_length]
        rwa [List.take_of_length_le (by omega)] at ht)
    have pa := rep_point (φ := φ) (hl a (by simp))
    have e : sumI φ (l ++ [a]) = φ.addI (sumI φ l) (pt a) := by simp [sumI]
    have ht := Op2.add.tight i1 pa.1
    have es : Op2.add.fn '' (((sumI φ l).set ×ˢ (pt a).set) ∩ Op2.add.dom) = (fun t => t + (a : ℝ)) '' (sumI φ l).set := by
      ext w
      simp [pt, pa.2, Op2.fn, Op2.dom]
    have ht' : Tightest φ (sumI φ (l ++ [a])) ((fun t => t + (a : ℝ)) '' (sumI φ l).set) := by
      rw [e, ← es]; exact ht
    have hk := hB (l ++ [a]).length
    rw [List.take_length] at hk
    have := ht'.step i2 i3 hk hm
    refine ⟨ht'.1, this.1, fun r hr => ?_⟩
    have h2 := this.2 r hr
    simp only [List.map_append, List.sum_append, List.map_cons, List.map_nil, List.sum_singleton, List.length_append, List.length_singleton]
    refine h2.trans (le_of_eq ?_)
    push_cast; ring

/-- Non-vacuity: three terms whose exact sum is not a `double`; the result is not a point, and all intermediate results are at most 2. -/
example : sumI binary64 [1, 1 / 2 ^ 60, 1 / 2 ^ 60] = ⟨.fin 1, .fin (1 + 2 / 2 ^ 52)⟩ ∧
    dotI binary64 [(1, 1), (1 / 2 ^ 30, 1 / 2 ^ 30)] = ⟨.fin 1, .fin (1 + 1 / 2 ^ 52)⟩ ∧
    ∀ k, ∀ t ∈ (sumI binary64 ([1, 1 / 2 ^ 60, 1 / 2 ^ 60].take k)).set, |t| ≤ 2 := by
  refine ⟨by decide +kernel, by decide +kernel, fun k t ht => ?_⟩
  have h0 : sumI binary64 [] = ⟨.fin 0, .fin 0⟩ := by decide +kernel
  have h1 : sumI binary64 [1] = ⟨.fin 1, .fin 1⟩ := by decide +kernel
  have h2 : sumI binary64 [1, 1 / 2 ^ 60] = ⟨.fin 1, .fin (1 + 1 / 2 ^ 52)⟩ := by decide +kernel
  have h3 : sumI binary64 [1, 1 / 2 ^ 60, 1 / 2 ^ 60] = ⟨.fin 1, .fin (1 + 2 / 2 ^ 52)⟩ := by decide +kernel
  rw [abs_le]
  rcases k with _ | _ | _ | k
  · rw [List.take_zero, h0] at ht
    obtain ⟨a, b⟩ := ht
    simp only [FP.BelowR, FP.AboveR] at a b
    norm_num at a b
    constructor <;> linarith
  · simp only [List.take_succ_cons, List.take_zero, h1] at ht
    obtain ⟨a, b⟩ := ht
    simp only [FP.BelowR, FP.AboveR] at a b
    norm_num at a b
    constructor <;> linarith
  · simp only [List.take_succ_cons, List.take_zero, h2] at ht
    obtain ⟨a, b⟩ := ht
    simp only [FP.BelowR, FP.AboveR] at a b
    norm_num at a b
    constructor <;> linarith
  · simp only [List.take_succ_cons, List.take_nil, h3] at ht
    obtain ⟨a, b⟩ := ht
    simp only [FP.BelowR, FP.AboveR] at a b
    norm_num at a b
    constructor <;> linarith

end P1788
