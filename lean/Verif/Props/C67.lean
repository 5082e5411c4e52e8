import Verif.Props.C42

/-!
# C67: texts in uncertain form are hardly wider than the interval

`C42` says that what is written contains the interval.  Here is how much is added: each bound is rounded to the digits asked for, and the
radius is rounded up to a multiple of the last place of the number before the question mark.
-/

namespace P1788
variable {φ : Fmt} {slack : ℕ}

/-- Rounding `q` to `p` digits after the point changes it by no more than this: one unit of the last digit; with an exponent, the digits count
from the first one that is not zero. -/
def loss (withExp : Bool) (p : ℕ) (q : ℚ) : ℚ := if withExp then |q| / 10 ^ p else 1 / 10 ^ p

/-- No less than one unit in the last place of the number `v`, written with `p` digits after the point. -/
def place (withExp : Bool) (p : ℕ) (v : ℚ) : ℚ := if withExp ∧ v ≠ 0 then |v| / 10 ^ p else 1 / 10 ^ p

theorem tol_loss (k : Manip) (q : ℚ) : k.ucRep.tol k.ucPrec q = loss k.ucExp k.ucPrec q := by
  have h := ucPrec_pos k
  unfold NumRep.tol loss Manip.ucRep
  simp only
  rw [if_neg (by omega : ¬ k.ucPrec = 0)]
  cases k.ucExp <;> simp [zpow_neg, div_eq_mul_inv]

theorem unit_place (k : Manip) (q : ℚ) : k.ucRep.unit k.ucPrec q = place k.ucExp k.ucPrec q := by
  unfold NumRep.unit place Manip.ucRep
  cases k.ucExp
  · simp [zpow_neg]
  · by_cases h : q = 0 <;> simp [h, zpow_neg, div_eq_mul_inv]

/-- What is written on success, and the bounds it denotes. -/
theorem uc_accurate {k : Manip} {o o' : OStr} {x : Itv} (hx : x.Ok φ) (h0 : x.set.Nonempty) (hf : k.form ≠ .infSup) (ho : o.Plain)
    (hprec : x.lo ≠ .ninf → x.hi ≠ .pinf → k.form = .uncertain → k.ucExp = true → MidFits φ k x) (h : φ.writeItv slack k o x = .ok o') :
    ∃ t l u N, o'.text = o.text ++ t ∧ Literal t (.bounds l u) (Denot.bounds l u).dec N ∧ x.set ⊆ (Denot.bounds l u).set ∧
      (l = none ↔ x.lo = .ninf) ∧ (u = none ↔ x.hi = .pinf) ∧ UcAccurate φ k x l u := by
  obtain ⟨a, b, c, l, u, N, ha, hc, e, -, -, hB, hs, hl, hu, -, hA⟩ := uc_written hx h0 hf ho hprec h
  obtain ⟨r, hr⟩ := h0
  exact ⟨a ++ b ++ c, l, u, N, e, .plain ha hB (consistent_of_ne (hs hr)) hc, hs, hl, hu, hA⟩

/-! ### The bounds of the set -/

theorem lo_q {x : Itv} (h : x.NE φ) {p : ℚ} (hp : IsLeast x.set (p : ℝ)) : x.lo ≠ .ninf ∧ x.lo.q = p := by
  have h1 : x.lo ≠ .ninf := fun e => (lo_ninf_iff h).mp e ⟨p, hp.2⟩
  refine ⟨h1, le_antisymm ?_ ?_⟩
  · exact_mod_cast below_q h.lo_ne h1 hp.1.1
  · have : (x.lo.q : ℝ) ∈ x.set := by
      have h2 := hp.1.2
      have h3 := below_q h.lo_ne h1 hp.1.1
      refine ⟨?_, ?_⟩
      · have := h.lo_top
        have hn := h.lo_ne
        cases e : x.lo <;> simp_all [FP.BelowR, FP.q]
      · cases e : x.hi <;> rw [e] at h2 <;> simp only [FP.AboveR] at h2 ⊢ <;> linarith
    exact_mod_cast hp.2 this

theorem hi_q {x : Itv} (h : x.NE φ) {p : ℚ} (hp : IsGreatest x.set (p : ℝ)) : x.hi ≠ .pinf ∧ x.hi.q = p := by
  have h1 : x.hi ≠ .pinf := fun e => (hi_pinf_iff h).mp e ⟨p, hp.2⟩
  refine ⟨h1, le_antisymm ?_ ?_⟩
  · have : (x.hi.q : ℝ) ∈ x.set := by
      have h2 := hp.1.1
      have h3 := above_q h.hi_ne h1 hp.1.2
      refine ⟨?_, ?_⟩
      · cases e : x.lo <;> rw [e] at h2 <;> simp only [FP.BelowR] at h2 ⊢ <;> linarith
      · have := h.hi_bot
        have hn := h.hi_ne
        cases e : x.hi <;> simp_all [FP.AboveR, FP.q]
    exact_mod_cast hp.2 this
  · exact_mod_cast above_q h.hi_ne h1 hp.1.2

/-! ### The theorems -/

/-- The upward form `m?ru` of the interval `[p, q]`: the number written is the lower bound, rounded; the upper end of what is denoted exceeds
`q` by no more than the rounding of `q` and one unit in the last place of the number. -/
theorem C67_up {k : Manip} {o o' : OStr} {x : Itv} {p q : ℚ} (hx : x.Ok φ) (hp : IsLeast x.set (p : ℝ)) (hq : IsGreatest x.set (q : ℝ))
    (hf : k.form = .up) (ho : o.Plain) (h : φ.writeItv slack k o x = .ok o') :
    ∃ t a b N, o'.text = o.text ++ t ∧ Literal t (.bounds (some a) (some b)) .com N ∧ a ≤ p ∧ q ≤ b ∧
      p - a ≤ loss k.ucExp k.ucPrec p ∧ b - q ≤ loss k.ucExp k.ucPrec q + place k.ucExp k.ucPrec a := by
  have hne := ne_of_nonempty hx ⟨_, hp.1⟩
  obtain ⟨p1, p2⟩ := lo_q hne hp
  obtain ⟨q1, q2⟩ := hi_q hne hq
  obtain ⟨t, l, u, N, e, hL, hs, hl, hu, hA⟩ := uc_accurate hx ⟨_, hp.1⟩ (by rw [hf]; simp) ho (by rw [hf]; simp) h
  obtain ⟨a, rfl⟩ := Option.ne_none_iff_exists'.mp (fun h => p1 (hl.mp h))
  obtain ⟨b, rfl⟩ := Option.ne_none_iff_exists'.mp (fun h => q1 (hu.mp h))
  obtain ⟨h1, h2⟩ := (hA.2.2 a b rfl rfl).1 hf
  rw [tol_loss, p2] at h1
  rw [tol_loss, unit_place, q2] at h2
  exact ⟨t, a, b, N, e, hL, by exact_mod_cast (hs hp.1).1 a rfl, by exact_mod_cast (hs hq.1).2 b rfl, h1, h2⟩

/-- The downward form `m?rd`: the number written is the upper bound, rounded. -/
theorem C67_down {k : Manip} {o o' : OStr} {x : Itv} {p q : ℚ} (hx : x.Ok φ) (hp : IsLeast x.set (p : ℝ)) (hq : IsGreatest x.set (q : ℝ))
    (hf : k.form = .down) (ho : o.Plain) (h : φ.writeItv slack k o x = .ok o') :
    ∃ t a b N, o'.text = o.text ++ t ∧ Literal t (.bounds (some a) (some b)) .com N ∧ a ≤ p ∧ q ≤ b ∧
      b - q ≤ loss k.ucExp k.ucPrec q ∧ p - a ≤ loss k.ucExp k.ucPrec p + place k.ucExp k.ucPrec b := by
  have hne := ne_of_nonempty hx ⟨_, hp.1⟩
  obtain ⟨p1, p2⟩ := lo_q hne hp
  obtain ⟨q1, q2⟩ := hi_q hne hq
  obtain ⟨t, l, u, N, e, hL, hs, hl, hu, hA⟩ := uc_accurate hx ⟨_, hp.1⟩ (by rw [hf]; simp) ho (by rw [hf]; simp) h
  obtain ⟨a, rfl⟩ := Option.ne_none_iff_exists'.mp (fun h => p1 (hl.mp h))
  obtain ⟨b, rfl⟩ := Option.ne_none_iff_exists'.mp (fun h => q1 (hu.mp h))
  obtain ⟨h1, h2⟩ := (hA.2.2 a b rfl rfl).2.1 hf
  rw [tol_loss, q2] at h1
  rw [tol_loss, unit_place, p2] at h2
  exact ⟨t, a, b, N, e, hL, by exact_mod_cast (hs hp.1).1 a rfl, by exact_mod_cast (hs hq.1).2 b rfl, h1, h2⟩

/-- Intervals that are bounded on one side: the bound is rounded. -/
theorem C67_below {k : Manip} {o o' : OStr} {x : Itv} {p : ℚ} (hx : x.Ok φ) (hp : IsLeast x.set (p : ℝ)) (hq : ¬ BddAbove x.set)
    (hf : k.form ≠ .infSup) (ho : o.Plain)
    (h : φ.writeItv slack k o x = .ok o') :
    ∃ t a N, o'.text = o.text ++ t ∧ Literal t (.bounds (some a) none) .dac N ∧ a ≤ p ∧ p - a ≤ loss k.ucExp k.ucPrec p := by
  have hne := ne_of_nonempty hx ⟨_, hp.1⟩
  obtain ⟨p1, p2⟩ := lo_q hne hp
  obtain ⟨t, l, u, N, e, hL, hs, hl, hu, hA⟩ := uc_accurate hx ⟨_, hp.1⟩ hf ho (fun _ h2 => absurd ((hi_pinf_iff hne).mpr hq) h2) h
  obtain ⟨a, rfl⟩ := Option.ne_none_iff_exists'.mp (fun h => p1 (hl.mp h))
  have hu := hu.mpr ((hi_pinf_iff hne).mpr hq)
  subst hu
  have h1 := hA.1 a rfl rfl
  rw [tol_loss, p2] at h1
  exact ⟨t, a, N, e, hL, by exact_mod_cast (hs hp.1).1 a rfl, h1⟩

theorem C67_above {k : Manip} {o o' : OStr} {x : Itv} {q : ℚ} (hx : x.Ok φ) (hp : ¬ BddBelow x.set) (hq : IsGreatest x.set (q : ℝ))
    (hf : k.form ≠ .infSup) (ho : o.Plain)
    (h : φ.writeItv slack k o x = .ok o') :
    ∃ t b N, o'.text = o.text ++ t ∧ Literal t (.bounds none (some b)) .dac N ∧ q ≤ b ∧ b - q ≤ loss k.ucExp k.ucPrec q := by
  have hne := ne_of_nonempty hx ⟨_, hq.1⟩
  obtain ⟨q1, q2⟩ := hi_q hne hq
  obtain ⟨t, l, u, N, e, hL, hs, hl, hu, hA⟩ := uc_accurate hx ⟨_, hq.1⟩ hf ho (fun h1 => absurd ((lo_ninf_iff hne).mpr hp) h1) h
  obtain ⟨b, rfl⟩ := Option.ne_none_iff_exists'.mp (fun h => q1 (hu.mp h))
  have hl := hl.mpr ((lo_ninf_iff hne).mpr hp)
  subst hl
  have h1 := hA.2.1 b rfl rfl
  rw [tol_loss, q2] at h1
  exact ⟨t, b, N, e, hL, by exact_mod_cast (hs hq.1).2 b rfl, h1⟩

/-- The symmetric form `m?r` denotes `[m - ρ, m + ρ]`, where `m` is the midpoint computed by the library (`C28`), rounded, and `ρ` exceeds what is
needed to contain the rounded bounds by no more than one unit in the last place of `m`.
Excluded: with exponent and a small precision (`C67_false`); for binary64, precisions less than 4
(`C42_digits`). -/
theorem C67_symmetric_partial {k : Manip} {o o' : OStr} {x : Itv} {p q : ℚ} (hx : x.Ok φ) (hp : IsLeast x.set (p : ℝ)) (hq : IsGreatest x.set (q : ℝ))
    (hf : k.form = .uncertain) (ho : o.Plain) (hprec : k.ucExp = true → MidFits φ k x) (h : φ.writeItv slack k o x = .ok o') :
    ∃ t m ρ c N, o'.text = o.text ++ t ∧ Literal t (.bounds (some (m - ρ)) (some (m + ρ))) .com N ∧ m - ρ ≤ p ∧ q ≤ m + ρ ∧
      x.mid φ = .fin c ∧ |m - c| ≤ loss k.ucExp k.ucPrec c ∧
      ρ ≤ max (m - (p - loss k.ucExp k.ucPrec p)) (q + loss k.ucExp k.ucPrec q - m) + place k.ucExp k.ucPrec m := by
  have hne := ne_of_nonempty hx ⟨_, hp.1⟩
  obtain ⟨p1, p2⟩ := lo_q hne hp
  obtain ⟨q1, q2⟩ := hi_q hne hq
  obtain ⟨t, l, u, N, e, hL, hs, hl, hu, hA⟩ := uc_accurate hx ⟨_, hp.1⟩ (by rw [hf]; simp) ho (fun _ _ _ => hprec) h
  obtain ⟨a, rfl⟩ := Option.ne_none_iff_exists'.mp (fun h => p1 (hl.mp h))
  obtain ⟨b, rfl⟩ := Option.ne_none_iff_exists'.mp (fun h => q1 (hu.mp h))
  obtain ⟨c, hc, -⟩ := mid_bounded hne ⟨p1, q1⟩
  obtain ⟨h1, h2⟩ := (hA.2.2 a b rfl rfl).2.2 hf
  rw [tol_loss, hc] at h1
  rw [tol_loss, tol_loss, unit_place, p2, q2] at h2
  have e1 : (a + b) / 2 - (b - a) / 2 = a := by ring
  have e2 : (a + b) / 2 + (b - a) / 2 = b := by ring
  exact ⟨t, (a + b) / 2, (b - a) / 2, c, N, e, by rw [e1, e2]; exact hL, by rw [e1]; exact_mod_cast (hs hp.1).1 a rfl,
    by rw [e2]; exact_mod_cast (hs hq.1).2 b rfl, hc, h1, h2⟩

/-- Without exponent, all three forms exceed the interval by a few units of the last digit, and by what the midpoint lost when it was rounded
to the format. -/
theorem C67_plain {k : Manip} {o o' : OStr} {x : Itv} {p q : ℚ} (hx : x.Ok φ) (hp : IsLeast x.set (p : ℝ)) (hq : IsGreatest x.set (q : ℝ))
    (hf : k.form ≠ .infSup) (hE : k.ucExp = false) (ho : o.Plain) (h : φ.writeItv slack k o x = .ok o') :
    ∃ t a b N c, o'.text = o.text ++ t ∧ Literal t (.bounds (some a) (some b)) .com N ∧ x.mid φ = .fin c ∧
      p - a ≤ 2 * |c - (p + q) / 2| + 4 / 10 ^ k.ucPrec ∧ b - q ≤ 2 * |c - (p + q) / 2| + 4 / 10 ^ k.ucPrec := by
  have hne := ne_of_nonempty hx ⟨_, hp.1⟩
  obtain ⟨p1, p2⟩ := lo_q hne hp
  obtain ⟨q1, q2⟩ := hi_q hne hq
  obtain ⟨c, hc, -⟩ := mid_bounded hne ⟨p1, q1⟩
  have hd : ∀ {v : ℚ}, loss k.ucExp k.ucPrec v = 1 / 10 ^ k.ucPrec := by intro v; simp [loss, hE]
  have hpl : ∀ {v : ℚ}, place k.ucExp k.ucPrec v = 1 / 10 ^ k.ucPrec := by intro v; simp [place, hE]
  have h4 : (4 : ℚ) / 10 ^ k.ucPrec = 4 * (1 / 10 ^ k.ucPrec) := by ring
  have hpos : (0 : ℚ) ≤ 1 / 10 ^ k.ucPrec := by positivity
  have habs := abs_nonneg (c - (p + q) / 2)
  rw [h4]
  cases hk : k.form with
  | infSup => exact absurd hk hf
  | up =>
    obtain ⟨t, a, b, N, e, hL, -, -, h1, h2⟩ := C67_up hx hp hq hk ho h
    rw [hd] at h1
    rw [hd, hpl] at h2
    exact ⟨t, a, b, N, c, e, hL, hc, by linarith, by linarith⟩
  | down =>
    obtain ⟨t, a, b, N, e, hL, -, -, h1, h2⟩ := C67_down hx hp hq hk ho h
    rw [hd] at h1
    rw [hd, hpl] at h2
    exact ⟨t, a, b, N, c, e, hL, hc, by linarith, by linarith⟩
  | uncertain =>
    obtain ⟨t, m, ρ, c', N, e, hL, -, -, hc', h1, h2⟩ := C67_symmetric_partial hx hp hq hk ho (by simp [hE]) h
    rw [hc] at hc'
    obtain rfl := FP.fin.inj hc'
    rw [hd] at h1
    rw [hd, hd, hpl] at h2
    obtain ⟨i1, i2⟩ := abs_le.mp h1
    have j1 := neg_abs_le (c - (p + q) / 2)
    have j2 := le_abs_self (c - (p + q) / 2)
    have hpq : p ≤ q := by exact_mod_cast hp.2 hq.1
    refine ⟨t, m - ρ, m + ρ, N, c, e, hL, hc, ?_, ?_⟩
    · have : ρ ≤ (m - p) + 2 * |c - (p + q) / 2| + 4 * (1 / 10 ^ k.ucPrec) := by
        refine h2.trans ?_
        rw [← max_add_add_right]
        apply max_le <;> linarith
      linarith
    · have : ρ ≤ (q - m) + 2 * |c - (p + q) / 2| + 4 * (1 / 10 ^ k.ucPrec) := by
        refine h2.trans ?_
        rw [← max_add_add_right]
        apply max_le <;> linarith
      linarith

/-! ### Decorated intervals -/

/-- The same bounds for decorated intervals: what comes before the decoration is no wider.  Excluded: what `C67_symmetric_partial` excludes. -/
theorem C67_decorated_partial {k : Manip} {o o' : OStr} {x : DItv} {p q : ℚ} (hx : x.Ok φ) (hp : IsLeast x.itv.set (p : ℝ))
    (hq : IsGreatest x.itv.set (q : ℝ)) (hf : k.form ≠ .infSup) (hpu : k.punct = true) (hw : o.width ≤ 1) (hnum : o.numeric = true → o.base = .dec)
    (hprec : k.form = .uncertain → k.ucExp = true → MidFits φ k x.itv) (h : φ.writeDItv slack k o x = .ok o') :
    ∃ t a b N, o'.text = o.text ++ t ∧ Literal t (.bounds (some a) (some b)) x.dec N ∧ a ≤ p ∧ q ≤ b ∧
      (k.form = .up → p - a ≤ loss k.ucExp k.ucPrec p ∧ b - q ≤ loss k.ucExp k.ucPrec q + place k.ucExp k.ucPrec a) ∧
      (k.form = .down → b - q ≤ loss k.ucExp k.ucPrec q ∧ p - a ≤ loss k.ucExp k.ucPrec p + place k.ucExp k.ucPrec b) ∧
      (k.form = .uncertain → ∃ m ρ c, a = m - ρ ∧ b = m + ρ ∧ x.itv.mid φ = .fin c ∧ |m - c| ≤ loss k.ucExp k.ucPrec c ∧
        ρ ≤ max (m - (p - loss k.ucExp k.ucPrec p)) (q + loss k.ucExp k.ucPrec q - m) + place k.ucExp k.ucPrec m) := by
  have hne := ne_of_nonempty hx.1 ⟨_, hp.1⟩
  obtain ⟨p1, p2⟩ := lo_q hne hp
  obtain ⟨q1, q2⟩ := hi_q hne hq
  obtain ⟨t, l, u, N, e, hL, hs, hl, hu, -, hA⟩ := ucD_written hx ⟨_, hp.1⟩ hf hpu hw hnum (fun _ _ => hprec) h
  obtain ⟨a, rfl⟩ := Option.ne_none_iff_exists'.mp (fun h => hl.mp h ⟨_, hp.2⟩)
  obtain ⟨b, rfl⟩ := Option.ne_none_iff_exists'.mp (fun h => hu.mp h ⟨_, hq.2⟩)
  obtain ⟨h1, h2, h3⟩ := hA.2.2 a b rfl rfl
  simp only [tol_loss, unit_place, p2, q2] at h1 h2 h3
  refine ⟨t, a, b, N, e, hL, by exact_mod_cast (hs hp.1).1 a rfl, by exact_mod_cast (hs hq.1).2 b rfl, h1, h2, fun hf => ?_⟩
  obtain ⟨c, hc, -⟩ := mid_bounded hne ⟨p1, q1⟩
  obtain ⟨h4, h5⟩ := h3 hf
  rw [hc] at h4
  exact ⟨(a + b) / 2, (b - a) / 2, c, by ring, by ring, hc, h4, h5⟩

/-- Half-lines with a decoration. -/
theorem C67_decorated_half {k : Manip} {o o' : OStr} {x : DItv} (hx : x.Ok φ) (hf : k.form ≠ .infSup) (hpu : k.punct = true) (hw : o.width ≤ 1)
    (hnum : o.numeric = true → o.base = .dec) (h : φ.writeDItv slack k o x = .ok o') :
    (∀ p : ℚ, IsLeast x.itv.set (p : ℝ) → ¬ BddAbove x.itv.set →
      ∃ t a N, o'.text = o.text ++ t ∧ Literal t (.bounds (some a) none) x.dec N ∧ a ≤ p ∧ p - a ≤ loss k.ucExp k.ucPrec p) ∧
    (∀ q : ℚ, ¬ BddBelow x.itv.set → IsGreatest x.itv.set (q : ℝ) →
      ∃ t b N, o'.text = o.text ++ t ∧ Literal t (.bounds none (some b)) x.dec N ∧ q ≤ b ∧ b - q ≤ loss k.ucExp k.ucPrec q) := by
  constructor
  · intro p hp hq
    have hne := ne_of_nonempty hx.1 ⟨_, hp.1⟩
    obtain ⟨p1, p2⟩ := lo_q hne hp
    obtain ⟨t, l, u, N, e, hL, hs, hl, hu, -, hA⟩ := ucD_written hx ⟨_, hp.1⟩ hf hpu hw hnum (fun _ h => absurd h hq) h
    obtain ⟨a, rfl⟩ := Option.ne_none_iff_exists'.mp (fun h => hl.mp h ⟨_, hp.2⟩)
    have hu := hu.mpr hq
    subst hu
    have h1 := hA.1 a rfl rfl
    rw [tol_loss, p2] at h1
    exact ⟨t, a, N, e, hL, by exact_mod_cast (hs hp.1).1 a rfl, h1⟩
  · intro q hp hq
    have hne := ne_of_nonempty hx.1 ⟨_, hq.1⟩
    obtain ⟨q1, q2⟩ := hi_q hne hq
    obtain ⟨t, l, u, N, e, hL, hs, hl, hu, -, hA⟩ := ucD_written hx ⟨_, hq.1⟩ hf hpu hw hnum (fun h => absurd h hp) h
    obtain ⟨b, rfl⟩ := Option.ne_none_iff_exists'.mp (fun h => hu.mp h ⟨_, hq.2⟩)
    have hl := hl.mpr hp
    subst hl
    have h1 := hA.2.1 b rfl rfl
    rw [tol_loss, q2] at h1
    exact ⟨t, b, N, e, hL, by exact_mod_cast (hs hq.1).2 b rfl, h1⟩

/-- A decorated interval written in the two forms. -/
example : (binary64.writeDItv 99 { form := .up, prec := 2 } {} ⟨⟨.fin (1 / 8), .fin (5 / 8)⟩, .com⟩).written = some "0.12?51u_com".toList ∧
    (binary64.writeDItv 99 { form := .down, prec := 2 } {} ⟨⟨.fin (1 / 8), .pinf⟩, .defd⟩).written = some "0.12??u_def".toList ∧
    (⟨⟨.fin (1 / 8), .fin (5 / 8)⟩, .com⟩ : DItv).Ok binary64 := by
  refine ⟨by decide +kernel, by decide +kernel, Itv.ok_of_okb (by decide +kernel), ?_⟩
  simp

/-! ### The exception -/

/-- The full statement for the symmetric form, and that it is false of the code: with exponent and a low precision the exponent of the
midpoint is read wrongly, and a number of ten digits is written with a radius of twenty digits. -/
theorem C67_false :
    (⟨.fin (2 ^ 34), .fin (2 ^ 34)⟩ : Itv).Ok binary64 ∧
    (binary64.writeItv 99 { form := .uncertain, ucExp := true, prec := 2 } {} ⟨.fin (2 ^ 34), .fin (2 ^ 34)⟩).written =
      some "1.72?171999999828e+10".toList ∧
    ∀ a b d N, Literal "1.72?171999999828e+10".toList (.bounds (some a) (some b)) d N → 10 ^ 19 < b - a := by
  refine ⟨Itv.ok_of_okb (by decide +kernel), by decide +kernel, fun a b d N h => ?_⟩
  have hb := BodyText.uncertain (s := []) (sg := 1) (m := "1.72".toList) (v := 172) (k := 2) (r := "171999999828".toList) (d := []) (x := "e+10".toList) (e := 10)
    (Or.inl ⟨Or.inl rfl, rfl⟩) ⟨['1'], ['7', '2'], Or.inr (by decide), by simp, digits_of (by decide), by decide, rfl⟩
    (.num (by decide) (digits_of (by decide))) .both
    (Or.inr ⟨'e', "+10".toList, by decide, by decide, ['+'], 1, ['1', '0'], by decide, Or.inl ⟨Or.inr rfl, rfl⟩, by simp, digits_of (by decide), by decide⟩)
  have hl := Literal.plain (w0 := []) (w1 := []) isWs_nil hb (by
    simp only [if_true, Option.map_some, Denot.Consistent]
    rw [show numVal 10 "171999999828".toList = 171999999828 by decide +kernel]
    norm_num) isWs_nil
  obtain ⟨hD, -⟩ := C38_unique h (by simpa using hl)
  simp only [if_true, Option.map_some, Denot.bounds.injEq, Option.some.injEq] at hD
  obtain ⟨rfl, rfl⟩ := hD
  rw [show numVal 10 ['1', '7', '1', '9', '9', '9', '9', '9', '9', '8', '2', '8'] = 171999999828 by decide +kernel]
  norm_num

/-- Examples: the bounds of what is written, compared with those of the interval. -/
example : (binary64.writeItv 99 { form := .up, prec := 2 } {} ⟨.fin (1 / 8), .fin (5 / 8)⟩).written = some "0.12?51u".toList ∧
    (binary64.writeItv 99 { form := .down, prec := 2, ucExp := true } {} ⟨.fin (1 / 8), .fin (5 / 8)⟩).written = some "6.25?500de-01".toList ∧
    (binary64.writeItv 99 { form := .uncertain, prec := 2 } {} ⟨.fin (1 / 8), .fin (5 / 8)⟩).written = some "0.38?26".toList := by
  decide +kernel

/-- The hypotheses of the theorems hold for these cases. -/
example : (⟨.fin (1 / 8), .fin (5 / 8)⟩ : Itv).Ok binary64 ∧ IsLeast (⟨.fin (1 / 8), .fin (5 / 8)⟩ : Itv).set ((1 / 8 : ℚ) : ℝ) ∧
    IsGreatest (⟨.fin (1 / 8), .fin (5 / 8)⟩ : Itv).set ((5 / 8 : ℚ) : ℝ) ∧ ({} : OStr).Plain := by
  refine ⟨Itv.ok_of_okb (by decide +kernel), ⟨⟨?_, ?_⟩, fun r hr => hr.1⟩, ⟨⟨?_, ?_⟩, fun r hr => hr.2⟩, Or.inl (by decide)⟩ <;>
    simp only [FP.BelowR, FP.AboveR] <;> norm_num

end P1788
