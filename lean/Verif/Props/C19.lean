import Verif.Lemmas.TanSafe

/-! # C19: the fundamental theorem of decorated interval arithmetic -/

namespace P1788
open Bornology
variable {φ : Fmt} {ι : Type}

/-- What a decoration claims about a map on a box, without the boundedness claims. -/
def Claim {α β : Type*} [TopologicalSpace α] [TopologicalSpace β] (g : α → β) (D B : Set α) (d : Dec) : Prop :=
  (.defd ≤ d → B ⊆ D) ∧ (.dac ≤ d → ContinuousOn g B) ∧ (d = .com → ∀ t ∈ B, ContinuousWithinAt g D t)

section
variable {α β γ : Type*} [TopologicalSpace α] [TopologicalSpace β] [TopologicalSpace γ]

theorem Claim.mono {g : α → β} {D B : Set α} {d d' : Dec} (h : Claim g D B d) (hd : d' ≤ d) : Claim g D B d' :=
  ⟨fun h' => h.1 (Dec.le_trans h' hd), fun h' => h.2.1 (Dec.le_trans h' hd), fun h' => by
    subst h'
    exact h.2.2 (Dec.le_antisymm (Dec.le_com _) hd)⟩

theorem Claim.prod {g : α → β} {h : α → γ} {D E B : Set α} {d d' : Dec} (hg : Claim g D B d) (hh : Claim h E B d') :
    Claim (fun t => (g t, h t)) (D ∩ E) B (d.min d') := by
  have hg := hg.mono (Dec.min_le_left d d')
  have hh := hh.mono (Dec.min_le_right d d')
  refine ⟨fun h' => Set.subset_inter (hg.1 h') (hh.1 h'), fun h' => (hg.2.1 h').prodMk (hh.2.1 h'), fun h' t ht => ?_⟩
  exact ((hg.2.2 h' t ht).mono Set.inter_subset_left).prodMk ((hh.2.2 h' t ht).mono Set.inter_subset_right)

theorem Claim.comp [Bornology β] {g : α → β} {f : β → ℝ} {D B : Set α} {E R : Set β} {d : Dec} {r : DItv}
    (hg : Claim g D B d) (hR : ∀ t ∈ B, t ∈ D → g t ∈ R) (hf : DecTrue f E R d r) :
    Claim (fun t => f (g t)) {t | t ∈ D ∧ g t ∈ E} B r.dec := by
  have hg := hg.mono hf.le
  have hm := hf.true_claim
  revert hg hm
  generalize r.dec = e
  intro hg hm
  have hR' : .defd ≤ e → ∀ t ∈ B, g t ∈ R := fun h t ht => hR t ht (hg.1 h ht)
  have hE : .defd ≤ e → R ⊆ E := by
    cases e
    · intro h; exact absurd h (by decide)
    · intro h; exact absurd h (by decide)
    · exact fun _ => hm.2
    · exact fun _ => hm.2.1
    · exact fun _ => hm.2.1
  refine ⟨fun h t ht => ⟨hg.1 h ht, hE h (hR' h t ht)⟩, fun h => ?_, fun h t ht => ?_⟩
  · have hd : .defd ≤ e := Dec.le_trans (by decide) h
    have hc : ContinuousOn f R := by
      cases e
      · exact absurd h (by decide)
      · exact absurd h (by decide)
      · exact absurd h (by decide)
      · exact hm.2.2
      · exact fun t ht => (hm.2.2.1 t ht).mono hm.2.1
    exact hc.comp (hg.2.1 h) (hR' hd)
  · subst h
    have := hm.2.2.1 (g t) (hR' (by decide) t ht)
    exact ContinuousWithinAt.comp (t := E) this ((hg.2.2 rfl t ht).mono fun s hs => hs.1) fun s hs => hs.2
end

/-- The facts proved together by induction. -/
structure Good (φ : Fmt) (X : ι → DItv) (e : Expr ι) : Prop where
  ok : (e.evalD φ X).Ok φ
  /-- the interval part is the bare evaluation -/
  itv : (e.evalD φ X).dec ≠ .ill → (e.evalD φ X).itv = e.eval φ (fun i => (X i).itv)
  encl : (e.evalD φ X).dec ≠ .ill → ∀ t : ι → ℝ, (∀ i, t i ∈ (X i).set) → t ∈ e.dom → e.val t ∈ (e.evalD φ X).set
  nai : (e.evalD φ X).dec = .ill ↔ ∃ i ∈ e.vars, (X i).dec = .ill
  le : ∀ i ∈ e.vars, (e.evalD φ X).dec ≤ (X i).dec
  claim : (e.evalD φ X).dec ≠ .ill → Claim e.val e.dom {t | ∀ i, t i ∈ (X i).set} (e.evalD φ X).dec
  bdd : (e.evalD φ X).dec = .com → IsBounded (e.evalD φ X).set

theorem bdd_of_ok {x : DItv} (h : x.Ok φ) (hc : x.dec = .com) : IsBounded x.set := h.com_bounded hc

theorem good (e : Expr ι) (X : ι → DItv) (hX : ∀ i, (X i).Ok φ) (ht : e.TanSafe φ fun i => (X i).itv) : Good φ X e := by
  induction e with
  | var i =>
    refine ⟨hX i, fun _ => rfl, fun _ t h _ => h i, ?_, ?_, fun _ => ⟨fun _ => Set.subset_univ _,
      fun _ => (continuous_apply i).continuousOn, fun _ t _ => (continuous_apply i).continuousWithinAt⟩,
      fun h => (hX i).com_bounded h⟩
    · simp [Expr.vars, Expr.evalD]
    · rintro _ rfl; exact Dec.le_refl _
  | un op e ih =>
    have ih := ih ht.1
    have hok : ((Expr.un op e).evalD φ X).Ok φ := op.decd_ok ih.ok
    rcases DItv.nai_or ih.ok with hn | hn
    · have hr : (Expr.un op e).evalD φ X = DItv.nai := by
        show op.decd φ (e.evalD φ X) = _
        rw [hn, Op1.decd_nai]
      have hi : ((Expr.un op e).evalD φ X).dec = .ill := by rw [hr]; rfl
      refine ⟨hok, fun h => absurd hi h, fun h => absurd hi h, ?_, fun i _ => ?_, fun h => absurd hi h,
        fun h => absurd (hi.symm.trans h) (by simp)⟩
      · exact ⟨fun _ => ih.nai.mp (by rw [hn]; rfl), fun _ => hi⟩
      · rw [hi]; cases (X i).dec <;> decide
    · have hs : op = .tan → ¬ TanBad φ (e.evalD φ X).itv := by
        rw [ih.itv hn]; exact ht.2
      have hT := Op1.decTrue_safe hs ih.ok hn
      have hI := op.decd_itv ih.ok hn
      refine ⟨hok, fun _ => ?_, fun _ t h hd => ?_, ?_, fun i hi => Dec.le_trans hT.le (ih.le i hi), fun _ => ?_,
        fun h => hok.com_bounded h⟩
      · show (op.decd φ (e.evalD φ X)).itv = _
        rw [hI, ih.itv hn]; rfl
      · show _ ∈ (op.decd φ (e.evalD φ X)).itv.set
        rw [hI]
        exact Op1.encl_safe hs ih.ok.1 (ih.encl hn t h hd.1) hd.2
      · exact ⟨fun h => absurd h hT.not_ill, fun h => absurd (ih.nai.mpr h) hn⟩
      · exact (ih.claim hn).comp (fun t h hd => ih.encl hn t h hd) hT
  | bin op e₁ e₂ ih₁ ih₂ =>
    have ih := ih₁ ht.1
    have jh := ih₂ ht.2
    have hok : ((Expr.bin op e₁ e₂).evalD φ X).Ok φ := op.decd_ok ih.ok jh.ok
    by_cases hc : e₁.evalD φ X = DItv.nai ∨ e₂.evalD φ X = DItv.nai
    · have hr : (Expr.bin op e₁ e₂).evalD φ X = DItv.nai := op.decd_nai hc
      have hi : ((Expr.bin op e₁ e₂).evalD φ X).dec = .ill := by rw [hr]; rfl
      refine ⟨hok, fun h => absurd hi h, fun h => absurd hi h, ?_, fun i _ => ?_, fun h => absurd hi h,
        fun h => absurd (hi.symm.trans h) (by simp)⟩
      · refine ⟨fun _ => ?_, fun _ => hi⟩
        rcases hc with hc | hc
        · obtain ⟨i, h, h'⟩ := ih.nai.mp (by rw [hc]; rfl)
          exact ⟨i, Or.inl h, h'⟩
        · obtain ⟨i, h, h'⟩ := jh.nai.mp (by rw [hc]; rfl)
          exact ⟨i, Or.inr h, h'⟩
      · rw [hi]; cases (X i).dec <;> decide
    · push Not at hc
      have hn := (DItv.nai_or ih.ok).resolve_left hc.1
      have hm := (DItv.nai_or jh.ok).resolve_left hc.2
      obtain ⟨hI, hR⟩ := op.right ih.ok jh.ok hn hm
      have hT := hR.toTrue
      refine ⟨hok, fun _ => ?_, fun _ t h hd => ?_, ?_, fun i hi => ?_, fun _ => ?_, fun h => hok.com_bounded h⟩
      · show (op.decd φ (e₁.evalD φ X) (e₂.evalD φ X)).itv = _
        rw [hI, ih.itv hn, jh.itv hm]; rfl
      · show _ ∈ (op.decd φ (e₁.evalD φ X) (e₂.evalD φ X)).itv.set
        rw [hI]
        exact op.encl ih.ok.1 jh.ok.1 (ih.encl hn t h hd.1) (jh.encl hm t h hd.2.1) hd.2.2
      · refine ⟨fun h => absurd h hT.not_ill, ?_⟩
        rintro ⟨i, h | h, h'⟩
        · exact absurd (ih.nai.mpr ⟨i, h, h'⟩) hn
        · exact absurd (jh.nai.mpr ⟨i, h, h'⟩) hm
      · rcases hi with hi | hi
        · exact Dec.le_trans (Dec.le_trans hT.le (Dec.min_le_left _ _)) (ih.le i hi)
        · exact Dec.le_trans (Dec.le_trans hT.le (Dec.min_le_right _ _)) (jh.le i hi)
      · have := ((ih.claim hn).prod (jh.claim hm)).comp (R := (e₁.evalD φ X).set ×ˢ (e₂.evalD φ X).set)
          (fun t h hd => ⟨ih.encl hn t h hd.1, jh.encl hm t h hd.2⟩) hT
        have he : (Expr.bin op e₁ e₂).dom = {t | t ∈ e₁.dom ∩ e₂.dom ∧ (e₁.val t, e₂.val t) ∈ op.dom} := by
          ext t; simp [Expr.dom, and_assoc]
        rw [he]; exact this
  | fma e₁ e₂ e₃ ih₁ ih₂ ih₃ =>
    have ih := ih₁ ht.1
    have jh := ih₂ ht.2.1
    have kh := ih₃ ht.2.2
    have hok : ((Expr.fma e₁ e₂ e₃).evalD φ X).Ok φ := fmaD_ok ih.ok jh.ok kh.ok
    by_cases hc : e₁.evalD φ X = DItv.nai ∨ e₂.evalD φ X = DItv.nai ∨ e₃.evalD φ X = DItv.nai
    · have hr : (Expr.fma e₁ e₂ e₃).evalD φ X = DItv.nai := fmaD_nai hc
      have hi : ((Expr.fma e₁ e₂ e₃).evalD φ X).dec = .ill := by rw [hr]; rfl
      refine ⟨hok, fun h => absurd hi h, fun h => absurd hi h, ?_, fun i _ => ?_, fun h => absurd hi h,
        fun h => absurd (hi.symm.trans h) (by simp)⟩
      · refine ⟨fun _ => ?_, fun _ => hi⟩
        rcases hc with hc | hc | hc
        · obtain ⟨i, h, h'⟩ := ih.nai.mp (by rw [hc]; rfl)
          exact ⟨i, Or.inl (Or.inl h), h'⟩
        · obtain ⟨i, h, h'⟩ := jh.nai.mp (by rw [hc]; rfl)
          exact ⟨i, Or.inl (Or.inr h), h'⟩
        · obtain ⟨i, h, h'⟩ := kh.nai.mp (by rw [hc]; rfl)
          exact ⟨i, Or.inr h, h'⟩
      · rw [hi]; cases (X i).dec <;> decide
    · push Not at hc
      have hn := (DItv.nai_or ih.ok).resolve_left hc.1
      have hm := (DItv.nai_or jh.ok).resolve_left hc.2.1
      have hk := (DItv.nai_or kh.ok).resolve_left hc.2.2
      obtain ⟨hI, hR⟩ := C20_fma ih.ok jh.ok kh.ok hn hm hk
      have hT := hR.toTrue
      refine ⟨hok, fun _ => ?_, fun _ t h hd => ?_, ?_, fun i hi => ?_, fun _ => ?_, fun h => hok.com_bounded h⟩
      · show (φ.fmaD (e₁.evalD φ X) (e₂.evalD φ X) (e₃.evalD φ X)).itv = _
        rw [hI, ih.itv hn, jh.itv hm, kh.itv hk]; rfl
      · show _ ∈ (φ.fmaD (e₁.evalD φ X) (e₂.evalD φ X) (e₃.evalD φ X)).itv.set
        rw [hI]
        exact (C06_fma φ ih.ok.1 jh.ok.1 kh.ok.1).2.1
          ⟨_, ih.encl hn t h hd.1, _, jh.encl hm t h hd.2.1, _, kh.encl hk t h hd.2.2, rfl⟩
      · refine ⟨fun h => absurd h hT.not_ill, ?_⟩
        rintro ⟨i, (h | h) | h, h'⟩
        · exact absurd (ih.nai.mpr ⟨i, h, h'⟩) hn
        · exact absurd (jh.nai.mpr ⟨i, h, h'⟩) hm
        · exact absurd (kh.nai.mpr ⟨i, h, h'⟩) hk
      · have hle := hT.le
        rcases hi with (hi | hi) | hi
        · exact Dec.le_trans (Dec.le_trans (Dec.le_trans hle (Dec.min_le_left _ _)) (Dec.min_le_left _ _)) (ih.le i hi)
        · exact Dec.le_trans (Dec.le_trans (Dec.le_trans hle (Dec.min_le_left _ _)) (Dec.min_le_right _ _)) (jh.le i hi)
        · exact Dec.le_trans (Dec.le_trans hle (Dec.min_le_right _ _)) (kh.le i hi)
      · have hmin : ∀ a b c : Dec, (a.min b).min c = a.min (b.min c) := by
          intro a b c; cases a <;> cases b <;> cases c <;> decide
        rw [hmin] at hT
        have := ((ih.claim hn).prod ((jh.claim hm).prod (kh.claim hk))).comp
          (R := (e₁.evalD φ X).set ×ˢ (e₂.evalD φ X).set ×ˢ (e₃.evalD φ X).set)
          (fun t h hd => ⟨ih.encl hn t h hd.1, jh.encl hm t h hd.2.1, kh.encl hk t h hd.2.2⟩) hT
        have he : (Expr.fma e₁ e₂ e₃).dom = {t | t ∈ e₁.dom ∩ (e₂.dom ∩ e₃.dom) ∧
            (e₁.val t, e₂.val t, e₃.val t) ∈ (Set.univ : Set (ℝ × ℝ × ℝ))} := by
          ext t; simp [Expr.dom]
        rw [he]; exact this

/-- The conclusion of the fundamental theorem for the expression `e` evaluated to `r` on the box `X`: the interval
encloses all values of the expression, and the decoration of the result, if it is not `ill`, makes a true claim about
the real function denoted by the expression. -/
def FTDIA (e : Expr ι) (X : ι → DItv) (r : DItv) : Prop :=
  (∀ t : ι → ℝ, r.dec ≠ .ill → (∀ i, t i ∈ (X i).set) → t ∈ e.dom → e.val t ∈ r.set) ∧
  (.defd ≤ r.dec → (∀ i ∈ e.vars, (X i).set.Nonempty) ∧ ∀ t : ι → ℝ, (∀ i, t i ∈ (X i).set) → t ∈ e.dom) ∧
  (.dac ≤ r.dec → ContinuousOn e.val {t | ∀ i, t i ∈ (X i).set}) ∧
  (r.dec = .com → (∀ i ∈ e.vars, IsBounded (X i).set) ∧ IsBounded r.set ∧
    ∀ t : ι → ℝ, (∀ i, t i ∈ (X i).set) → ContinuousWithinAt e.val e.dom t)

/-- **C19** (full statement: the same without the hypothesis `ht`; it is false for `double` and the tangent).  For
every expression and all proper decorated inputs (NaI included), the result is a proper decorated interval that is NaI
exactly if an input the expression uses is NaI; it encloses all values, and its decoration makes a true claim, provided that
the tangent is not applied to a bad interval (C11). -/
theorem C19_ftdia_safe_partial (e : Expr ι) (X : ι → DItv) (hX : ∀ i, (X i).Ok φ) (ht : e.TanSafe φ fun i => (X i).itv) :
    (e.evalD φ X).Ok φ ∧ ((e.evalD φ X).IsNaI ↔ ∃ i ∈ e.vars, (X i).IsNaI) ∧ FTDIA e X (e.evalD φ X) := by
  have g := good e X hX ht
  refine ⟨g.ok, ?_, fun t h => g.encl h t, fun h => ?_, fun h => ?_, fun h => ?_⟩
  · rw [DItv.isNaI_iff g.ok, g.nai]
    simp only [DItv.isNaI_iff (hX _)]
  · have hn : (e.evalD φ X).dec ≠ .ill := fun e => by rw [e] at h; exact absurd h (by decide)
    exact ⟨fun i hi => (hX i).nonempty_of (Dec.le_trans h (g.le i hi)), (g.claim hn).1 h⟩
  · have hn : (e.evalD φ X).dec ≠ .ill := fun e => by rw [e] at h; exact absurd h (by decide)
    exact (g.claim hn).2.1 h
  · have hn : (e.evalD φ X).dec ≠ .ill := fun e => by rw [e] at h; exact absurd h (by decide)
    refine ⟨fun i hi => (hX i).com_bounded ?_, g.bdd h, (g.claim hn).2.2 h⟩
    have := g.le i hi
    rw [h] at this
    exact Dec.le_antisymm (Dec.le_com _) this

/-- In particular in a format without bad intervals for the tangent, and for every expression that does not use the tangent. -/
theorem C19_ftdia_partial (e : Expr ι) (ht : NoCritical φ ∨ e.TanFree) (X : ι → DItv) (hX : ∀ i, (X i).Ok φ) :
    (e.evalD φ X).Ok φ ∧ ((e.evalD φ X).IsNaI ↔ ∃ i ∈ e.vars, (X i).IsNaI) ∧ FTDIA e X (e.evalD φ X) :=
  C19_ftdia_safe_partial e X hX (e.tanSafe ht fun i => (hX i).1)

/-- The claim in the vocabulary of `DecMeans`, when the expression uses all of finitely many variables. -/
theorem C19_decMeans_partial [Fintype ι] (e : Expr ι) (hv : ∀ i, i ∈ e.vars)
    (X : ι → DItv) (hX : ∀ i, (X i).Ok φ) (ht : e.TanSafe φ fun i => (X i).itv) (hn : ∀ i, ¬ (X i).IsNaI) :
    DecMeans e.val e.dom {t | ∀ i, t i ∈ (X i).set} (e.evalD φ X).set (e.evalD φ X).dec := by
  obtain ⟨h1, h2, -, h3, h4, h5⟩ := C19_ftdia_safe_partial e X hX ht
  have hne : ∀ h : .defd ≤ (e.evalD φ X).dec, {t : ι → ℝ | ∀ i, t i ∈ (X i).set}.Nonempty := fun h =>
    ⟨fun i => ((h3 h).1 i (hv i)).some, fun i => ((h3 h).1 i (hv i)).some_mem⟩
  have hni : (e.evalD φ X).dec ≠ .ill := fun h =>
    let ⟨i, _, hi⟩ := h2.mp ((DItv.isNaI_iff h1).mpr h); hn i hi
  revert h3 h4 h5 hne hni
  generalize (e.evalD φ X).dec = d
  intro h3 h4 h5 hne hni
  cases d
  · exact absurd rfl hni
  · trivial
  · exact ⟨hne (by decide), (h3 (by decide)).2⟩
  · exact ⟨hne (by decide), (h3 (by decide)).2, h4 (by decide)⟩
  · refine ⟨hne (by decide), (h3 (by decide)).2, (h5 rfl).2.2, ?_, (h5 rfl).2.1⟩
    have := Bornology.IsBounded.pi (S := fun i => (X i).set) (fun i => (h5 rfl).1 i (hv i))
    exact this.subset fun t ht i _ => ht i

/-- For `float`, every expression. -/
theorem C19_ftdia_binary32 (e : Expr ι) (X : ι → DItv) (hX : ∀ i, (X i).Ok binary32) :
    (e.evalD binary32 X).Ok binary32 ∧ ((e.evalD binary32 X).IsNaI ↔ ∃ i ∈ e.vars, (X i).IsNaI) ∧
      FTDIA e X (e.evalD binary32 X) :=
  C19_ftdia_partial e (Or.inl noCritical_binary32) X hX

/-- For x87 `long double`, every expression. -/
theorem C19_ftdia_x87ext (e : Expr ι) (X : ι → DItv) (hX : ∀ i, (X i).Ok x87ext) :
    (e.evalD x87ext X).Ok x87ext ∧ ((e.evalD x87ext X).IsNaI ↔ ∃ i ∈ e.vars, (X i).IsNaI) ∧
      FTDIA e X (e.evalD x87ext X) :=
  C19_ftdia_partial e (Or.inl noCritical_x87ext) X hX

/-- **C19 is false for `double` and the tangent**: the decoration claims that the tangent is defined everywhere on an
interval containing a pole. -/
theorem C19_ftdia_binary64_false : ∃ (e : Expr Unit) (X : Unit → DItv), (∀ i, (X i).Ok binary64) ∧
    ¬ FTDIA e X (e.evalD binary64 X) := by
  obtain ⟨x, hx, -, ⟨t, ht, h0⟩, hd, -⟩ := C20_tan_binary64_false
  refine ⟨.un .tan (.var ()), fun _ => x, fun _ => hx, fun h => ?_⟩
  have := (h.2.1 (Dec.le_trans (by decide) hd)).2 (fun _ => t) (fun _ => ht)
  exact this.2 h0

/-- Non-vacuity: a composite expression on a bounded box. -/
example : ∃ (e : Expr Bool) (X : Bool → DItv), e.TanFree ∧ (∀ i, i ∈ e.vars) ∧ (∀ i, (X i).Ok binary64) ∧
    ∀ i, ¬ (X i).IsNaI := by
  refine ⟨.bin .div (.un .sqrt (.var true)) (.bin .sub (.var false) (.un .exp (.var true))),
    fun b => if b then ⟨⟨.fin 0, .fin 4⟩, .com⟩ else ⟨⟨.fin 0, .pinf⟩, .dac⟩, by simp [Expr.TanFree], ?_, ?_, ?_⟩
  · intro i; cases i <;> simp [Expr.vars]
  · intro i
    cases i
    · exact ⟨Itv.ok_of_okb (by decide +kernel), by simp, by simp, by simp⟩
    · exact ⟨Itv.ok_of_okb (by decide +kernel), by simp, by simp, by simp⟩
  · intro i; cases i <;> simp [DItv.IsNaI]

end P1788
