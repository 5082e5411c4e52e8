import Verif.Lemmas.Calls

/-! # C15: every interval a program can build is valid

Full statement: `∀ l, History (fun _ => True) l → ∀ o ∈ l, o.Ok`: whatever a program calls, all interval objects it
obtains are valid.  It is false of the code, because of `cancel_minus` and `cancel_plus` on certain intervals that reach up to the largest finite
number: see `C15_false`.  Proved is the statement for all programs that do not call these two functions on such pairs
(`C15_partial`; the condition is exact for every single call, `C15_call_exact`), and for all programs that do not call them at all (`C15_without_cancel`). -/

namespace P1788

/-- The object is valid: a proper interval with bounds of its number type, and a consistent decoration. -/
def Obj.Ok : Obj → Prop
  | .bare T x => x.Ok T.fmt
  | .dec T x => x.Ok T.fmt

/-- The call is not a cancellative operation on a pair with an invalid result (`CancelInvalid`: the width of an interval that reaches
up to the largest finite number of the type computed with is found equal to a slightly larger one, and two numbers of the result
type lie between the bounds of the result).  In the mixed-type `cancel_plus` the second operand is first negated and converted. -/
def Call.NotBad : Call → Prop
  | .cancelPlus T x y => ¬ x.CancelInvalid T.fmt T.fmt (Fmt.negI y)
  | .cancelMinus T x y => ¬ x.CancelInvalid T.fmt T.fmt y
  | .cancelPlusD T x y => ¬ x.itv.CancelInvalid T.fmt T.fmt (Fmt.negI y.itv)
  | .cancelMinusD T x y => ¬ x.itv.CancelInvalid T.fmt T.fmt y.itv
  | .cancelMinusM T T1 T2 x y => ¬ x.CancelInvalid (T.maxPrec [T1, T2]).fmt T.fmt y
  | .cancelMinusMD T T1 T2 x y => ¬ x.itv.CancelInvalid (T.maxPrec [T1, T2]).fmt T.fmt y.itv
  | .cancelPlusM T T1 T2 x y => ¬ x.CancelInvalid (T.maxPrec [T1, T]).fmt T.fmt (Op1.neg.mixed T T2 y)
  | .cancelPlusMD T T1 T2 x y => ¬ x.itv.CancelInvalid (T.maxPrec [T1, T]).fmt T.fmt (Op1.neg.mixedD T T2 y).itv
  | _ => True

/-- The call is not a cancellative operation. -/
def Call.NoCancel : Call → Prop
  | .cancelPlus _ _ _ | .cancelMinus _ _ _ | .cancelPlusD _ _ _ | .cancelMinusD _ _ _ | .cancelMinusM _ _ _ _ _
  | .cancelMinusMD _ _ _ _ _ | .cancelPlusM _ _ _ _ _ | .cancelPlusMD _ _ _ _ _ => False
  | _ => True

/-- One call: if its operands are valid then so is its result. -/
theorem C15_call (c : Call) (ht : c.WellTyped) (ho : c.NotBad) (ha : ∀ a ∈ c.args, a.Ok) : ∀ r ∈ c.yields, r.Ok := by
  intro r hr
  cases c <;> simp only [Call.args, List.forall_mem_cons, List.not_mem_nil, false_imp_iff, implies_true, and_true,
    Obj.Ok, Call.yields, Set.mem_singleton_iff, Set.mem_insert_iff, Call.WellTyped, Call.NotBad] at ha hr ht ho
  case empty => subst hr; exact Itv.ok_empty _
  case entire => subst hr; exact Itv.ok_entire _
  case emptyD => subst hr; exact DItv.ok_empty
  case entireD => subst hr; exact DItv.ok_entire
  case naiD => subst hr; exact DItv.ok_nai
  case nums T l u =>
    by_cases h : ValidBounds l u
    · obtain ⟨x, h1, h2, -⟩ := C16_valid T.fmt ht.1 ht.2 h
      rw [ret_returnsB h1 hr]; exact h2
    · obtain ⟨x, h1, rfl⟩ := C16_invalid h
      rw [ret_raisesB h1 hr]; exact Itv.ok_empty _
  case numsM T T1 T2 l u =>
    by_cases h : ValidBounds l u
    · obtain ⟨x, h1, h2⟩ := C16_mixed_valid T.fmt h
      rw [ret_returnsB h1 hr]; exact h2.1
    · obtain ⟨x, h1, rfl⟩ := C16_mixed_invalid T.fmt h
      rw [ret_raisesB h1 hr]; exact Itv.ok_empty _
  case numsD T l u =>
    by_cases h : ValidBounds l u
    · obtain ⟨x, h1, h2, -⟩ := C17_nums ht.1 ht.2 h
      rw [ret_returnsD h1 hr]; exact h2
    · obtain ⟨x, h1, h2⟩ := C17_nums_invalid h
      rw [ret_raisesD h1 hr]; exact .of_nai h2
  case numsMD T T1 T2 l u =>
    by_cases h : ValidBounds l u
    · obtain ⟨x, h1, h2, -⟩ := C17_nums_mixed T.fmt h
      rw [ret_returnsD h1 hr]; exact h2
    · obtain ⟨x, h1, h2⟩ := C17_nums_mixed_invalid T.fmt h
      rw [ret_raisesD h1 hr]; exact .of_nai h2
  case numsDec T l u d =>
    cases hd : Dec.ofRaw d with
    | none =>
      obtain ⟨x, h1, h2⟩ := C17_nums_dec_bad (l := l) (u := u) hd
      rw [ret_raisesD h1 hr]; exact .of_nai h2
    | some e =>
      by_cases h : Consistent l u e
      · obtain ⟨x, h1, h2, -⟩ := C17_nums_dec ht.1 ht.2 hd h
        rw [ret_returnsD h1 hr]; exact h2
      · obtain ⟨x, h1, h2⟩ := C17_nums_dec_inconsistent hd h
        rw [ret_raisesD h1 hr]; exact .of_nai h2
  case numsDecM T T1 T2 l u d =>
    cases hd : Dec.ofRaw d with
    | none =>
      obtain ⟨x, h1, h2⟩ := C17_nums_dec_mixed_bad T.fmt (l := l) (u := u) hd
      rw [ret_raisesD h1 hr]; exact .of_nai h2
    | some e =>
      by_cases h : Consistent l u e
      · obtain ⟨x, h1, h2, -⟩ := C17_nums_dec_mixed T.fmt hd h
        rw [ret_returnsD h1 hr]; exact h2
      · obtain ⟨x, h1, h2⟩ := C17_nums_dec_mixed_inconsistent T.fmt hd h
        rw [ret_raisesD h1 hr]; exact .of_nai h2
  case newDec T x => obtain ⟨y, h1, h2, -⟩ := C17_new_dec ha; rw [ret_returnsD h1 hr]; exact h2
  case newDecM T T1 x => obtain ⟨y, h1, h2, -⟩ := C17_new_dec_mixed T.fmt ha; rw [ret_returnsD h1 hr]; exact h2
  case setDec T x d =>
    cases hd : Dec.ofRaw d with
    | none =>
      obtain ⟨y, h1, h2⟩ := C17_set_dec_bad (x := x) hd
      rw [ret_raisesD h1 hr]; exact .of_nai h2
    | some e =>
      obtain ⟨y, h1, h2, -⟩ := C17_set_dec ha hd
      rw [ret_returnsD h1 hr]; exact h2
  case setDecM T T1 x d =>
    cases hd : Dec.ofRaw d with
    | none =>
      obtain ⟨y, h1, h2⟩ := C17_set_dec_mixed_bad T.fmt (x := x) hd
      rw [ret_raisesD h1 hr]; exact .of_nai h2
    | some e =>
      obtain ⟨y, h1, h2, -⟩ := C17_set_dec_mixed T.fmt ha hd
      rw [ret_returnsD h1 hr]; exact h2
  case copy T x => rw [ret_returnsB (C34_copy ha DItv.ok_nai).1 hr]; exact ha
  case copyD T x => rw [ret_returnsD (C34_copy (Itv.ok_empty _) ha).2 hr]; exact ha
  case convert T T1 x => obtain ⟨y, h1, h2⟩ := C34_convert T.fmt ha; rw [ret_returnsB h1 hr]; exact h2.1
  case convertD T T1 x =>
    by_cases h : x.IsNaI
    · obtain ⟨y, h1, h2⟩ := C34_convert_nai T.fmt ha h; rw [ret_returnsD h1 hr]; exact .of_nai h2
    · obtain ⟨y, h1, h2, -⟩ := C34_convert_dec T.fmt ha h; rw [ret_returnsD h1 hr]; exact h2
  case part T x =>
    by_cases h : x.IsNaI
    · obtain ⟨⟨y, h1, rfl⟩, -⟩ := C34_interval_part_nai T.fmt h; rw [ret_raisesB h1 hr]; exact Itv.ok_empty _
    · obtain ⟨y, h1, h2, -⟩ := C34_interval_part ha h; rw [ret_returnsB h1 hr]; exact h2
  case partM T T1 x =>
    by_cases h : x.IsNaI
    · obtain ⟨-, ⟨y, h1, rfl⟩⟩ := C34_interval_part_nai T.fmt h; rw [ret_raisesB h1 hr]; exact Itv.ok_empty _
    · obtain ⟨y, h1, h2⟩ := C34_interval_part_mixed T.fmt ha h; rw [ret_returnsB h1 hr]; exact h2.1
  case un op x => subst hr; exact op.bare_ok ha
  case unM op x => subst hr; exact op.mixed_ok ha
  case unD op x => subst hr; exact op.decd_ok ha
  case unMD op x => subst hr; exact op.mixedD_ok ha
  case bin op x y => subst hr; exact (op.tight ha.1 ha.2).1
  case binM op x y => subst hr; exact (C33_binary op ha.1 ha.2).1
  case binD op x y => subst hr; exact op.decd_ok ha.1 ha.2
  case binMD op x y => subst hr; exact op.mixedD_ok ha.1 ha.2
  case fma => subst hr; exact (C06_fma _ ha.1 ha.2.1 ha.2.2).1
  case fmaM => subst hr; exact (C33_fma ha.1 ha.2.1 ha.2.2).1
  case fmaD => subst hr; exact fmaD_ok ha.1 ha.2.1 ha.2.2
  case fmaMD => subst hr; exact fmaMixedD_ok ha.1 ha.2.1 ha.2.2
  case inter => subst hr; exact (Itv.inter_ok_set ha.1 ha.2).1
  case interM => subst hr; exact (C33_set_ops ha.1 ha.2).1.1
  case interD => subst hr; exact (interD_ok ha.1 ha.2).1
  case interMD => subst hr; exact (interMixedD_ok ha.1 ha.2).1
  case hull => subst hr; exact (Itv.hull_tight ha.1 ha.2).1
  case hullM => subst hr; exact (C33_set_ops ha.1 ha.2).2.1
  case hullD => subst hr; exact (interD_ok ha.1 ha.2).2
  case hullMD => subst hr; exact (interMixedD_ok ha.1 ha.2).2
  case cancelPlus => subst hr; exact (cancel_ok_iff ha.1 (Op1.bare_ok .neg ha.2)).mpr ho
  case cancelPlusM => subst hr; exact (cancelMixed_ok_iff ha.1 (Op1.mixed_ok .neg ha.2)).mpr ho
  case cancelPlusD => subst hr; exact (cancelPlusD_ok_iff ha.1 ha.2).mpr ho
  case cancelPlusMD => subst hr; exact (cancelMixedD_ok_iff ha.1 (Op1.mixedD_ok .neg ha.2)).mpr ho
  case cancelMinus => subst hr; exact (cancel_ok_iff ha.1 ha.2).mpr ho
  case cancelMinusM => subst hr; exact (cancelMixed_ok_iff ha.1 ha.2).mpr ho
  case cancelMinusD => subst hr; exact (cancelD_ok_iff ha.1 ha.2).mpr ho
  case cancelMinusMD => subst hr; exact (cancelMixedD_ok_iff ha.1 ha.2).mpr ho
  case rev op c x => subst hr; exact op.fn_ok ha.1 ha.2
  case revM op c x => subst hr; exact op.mixed_ok ha.1 ha.2
  case revD op c x => subst hr; exact revD_ok (op.fn_ok ha.1.1 ha.2.1)
  case revMD op c x => subst hr; exact revD_ok (op.mixed_ok ha.1.1 ha.2.1)
  case rev1 op c => subst hr; exact op.fn_ok ha (Itv.ok_entire _)
  case rev1M op c => subst hr; exact op.mixed_ok ha (Itv.ok_entire _)
  case rev1D op c => subst hr; exact revD_ok (op.fn_ok ha.1 (Itv.ok_entire _))
  case rev1MD op c => subst hr; exact revD_ok (op.mixed_ok ha.1 (Itv.ok_entire _))
  case pownRev => obtain ⟨R, h, rfl⟩ := hr; exact pownRev_ok ht.1 ha.1 ha.2 h
  case pownRevM => obtain ⟨R, h, rfl⟩ := hr; exact pownRevMixed_ok ht.1 ha.1 ha.2 h
  case pownRevD => obtain ⟨R, h, rfl⟩ := hr; exact pownRevD_ok ht.1 ha.1 ha.2 h
  case pownRevMD => obtain ⟨R, h, rfl⟩ := hr; exact pownRevMixedD_ok ht.1 ha.1 ha.2 h
  case pownRev1 => obtain ⟨R, h, rfl⟩ := hr; exact pownRev_ok ht.1 ha (Itv.ok_entire _) h
  case pownRev1M => obtain ⟨R, h, rfl⟩ := hr; exact pownRevMixed_ok ht.1 ha (Itv.ok_entire _) h
  case pownRev1D => obtain ⟨R, h, rfl⟩ := hr; exact pownRevD_ok ht.1 ha DItv.ok_entire h
  case pownRev1MD => obtain ⟨R, h, rfl⟩ := hr; exact pownRevMixedD_ok ht.1 ha DItv.ok_entire h
  case mulRev => subst hr; exact (C32_mul_rev ha.1 ha.2.1 ha.2.2).1
  case mulRevM => subst hr; exact (C32_mul_rev_mixed ha.1 ha.2.1 ha.2.2).1
  case mulRevD => subst hr; exact mulRevD_ok ha.1 ha.2.1 ha.2.2
  case mulRevMD => subst hr; exact mulRevMixedD_ok ha.1 ha.2.1 ha.2.2
  case mulRev2 => subst hr; exact (C32_mul_rev ha.1 ha.2 (Itv.ok_entire _)).1
  case mulRev2M => subst hr; exact (C32_mul_rev_mixed ha.1 ha.2 (Itv.ok_entire _)).1
  case mulRev2D => subst hr; exact mulRevD_ok ha.1 ha.2 DItv.ok_entire
  case mulRev2MD => subst hr; exact mulRevMixedD_ok ha.1 ha.2 DItv.ok_entire
  case mulRevPair =>
    obtain ⟨h1, h2⟩ := mulRevPair_ok ha.1 ha.2
    rcases hr with rfl | rfl; exacts [h1, h2]
  case mulRevPairM T _ _ _ _ =>
    obtain ⟨h1, h2⟩ := mulRevPairMixed_ok (T := T) ha.1 ha.2
    rcases hr with rfl | rfl; exacts [h1, h2]
  case mulRevPairD =>
    obtain ⟨h1, h2⟩ := mulRevPairD_ok ha.1 ha.2
    rcases hr with rfl | rfl; exacts [h1, h2]
  case mulRevPairMD T _ _ _ _ =>
    obtain ⟨h1, h2⟩ := mulRevPairMixedD_ok (T := T) ha.1 ha.2
    rcases hr with rfl | rfl; exacts [h1, h2]

/-- The condition is exact: on valid operands all results are valid if and only if the call is no such cancellative operation. -/
theorem C15_call_exact (c : Call) (ht : c.WellTyped) (ha : ∀ a ∈ c.args, a.Ok) : (∀ r ∈ c.yields, r.Ok) ↔ c.NotBad := by
  refine ⟨fun h => ?_, fun h => C15_call c ht h ha⟩
  cases c <;> simp only [Call.args, List.forall_mem_cons, List.not_mem_nil, false_imp_iff, implies_true, and_true,
    Obj.Ok, Call.NotBad] at ha ⊢
  case cancelPlus => exact (cancel_ok_iff ha.1 (Op1.bare_ok .neg ha.2)).mp (h _ rfl)
  case cancelPlusM => exact (cancelMixed_ok_iff ha.1 (Op1.mixed_ok .neg ha.2)).mp (h _ rfl)
  case cancelPlusD => exact (cancelPlusD_ok_iff ha.1 ha.2).mp (h _ rfl)
  case cancelPlusMD => exact (cancelMixedD_ok_iff ha.1 (Op1.mixedD_ok .neg ha.2)).mp (h _ rfl)
  case cancelMinus => exact (cancel_ok_iff ha.1 ha.2).mp (h _ rfl)
  case cancelMinusM => exact (cancelMixed_ok_iff ha.1 ha.2).mp (h _ rfl)
  case cancelMinusD => exact (cancelD_ok_iff ha.1 ha.2).mp (h _ rfl)
  case cancelMinusMD => exact (cancelMixedD_ok_iff ha.1 ha.2).mp (h _ rfl)

/-- Every interval object obtained by any finite history of calls is valid, if no call is a cancellative operation on
a pair with an invalid result. -/
theorem C15_partial {l : List Obj} (h : History Call.NotBad l) : ∀ o ∈ l, o.Ok := by
  induction h with
  | start => simp
  | call h c ht hP ha hr ih =>
    rw [List.forall_mem_cons]
    exact ⟨C15_call c ht hP (fun a h => ih a (ha a h)) _ hr, ih⟩

theorem History.mono {P Q : Call → Prop} (hPQ : ∀ c, P c → Q c) {l : List Obj} (h : History P l) : History Q l := by
  induction h with
  | start => exact .start
  | call h c ht hP ha hr ih => exact .call ih c ht (hPQ c hP) ha hr

/-- In particular: every interval object of a program that does not use the cancellative operations is valid. -/
theorem C15_without_cancel {l : List Obj} (h : History Call.NoCancel l) : ∀ o ∈ l, o.Ok := by
  refine C15_partial (h.mono ?_)
  intro c hc
  cases c <;> first | exact trivial | exact hc.elim

/-- Three calls that construct an invalid object: two intervals from numbers, and their `cancel_minus`. -/
theorem C15_false : ∃ (l : List Obj) (o : Obj), History (fun _ => True) l ∧ o ∈ l ∧ ¬ o.Ok := by
  obtain ⟨hx, hy, hxn, hyn, -, h⟩ := C29_false_invalid
  have mk : ∀ {x : Itv}, x.Ok binary32 → x.set.Nonempty → ∀ {l : List Obj}, History (fun _ => True) l →
      History (fun _ => True) (.bare .float x :: l) := by
    intro x hx hn l hl
    refine .call hl (.nums .float x.lo x.hi) ?_ trivial (by simp [Call.args]) (r := .bare .float x) ?_
    · rcases hx.cases with rfl | nx
      · exact ⟨trivial, trivial⟩
      · exact ⟨nx.lo_in, nx.hi_in⟩
    · refine ⟨⟨fun _ => false, fun _ => false⟩, x, ?_, rfl⟩
      unfold numsToInterval
      rw [if_pos (boundsOk_iff.mpr (by obtain ⟨r, hr⟩ := hn; exact ⟨r, hr.1, hr.2⟩))]
      rfl
  have h1 := mk hy hyn (mk hx hxn .start)
  refine ⟨_, _, .call h1 (.cancelMinus .float _ _) trivial trivial ?_ (Set.mem_singleton _), List.mem_cons_self, h⟩
  simp [Call.args]

/-- Non-vacuity: a history of four calls with every kind of object: `[1, 2]` and its tangent, decorated and divided by
NaI. -/
example : ∃ r : Obj, History Call.NotBad
    [r, .dec .double DItv.nai, .dec .double (Itv.newDec ⟨.fin 1, .fin 2⟩), .bare .double ⟨.fin 1, .fin 2⟩] := by
  refine ⟨_, .call (.call (.call (.call .start (.nums .double (.fin 1) (.fin 2)) ?_ trivial (by simp [Call.args]) ?_)
    (.newDec .double ⟨.fin 1, .fin 2⟩) trivial trivial (by simp [Call.args]) ?_) (.naiD .double) trivial trivial
    (by simp [Call.args]) (Set.mem_singleton _)) (.binD .double .div (Itv.newDec ⟨.fin 1, .fin 2⟩) DItv.nai) trivial trivial
    (by simp [Call.args]) (Set.mem_singleton _)⟩
  · exact ⟨FP.in_of_inb (by decide +kernel), FP.in_of_inb (by decide +kernel)⟩
  · exact ⟨⟨fun _ => false, fun _ => false⟩, _, rfl, rfl⟩
  · exact ⟨⟨fun _ => false, fun _ => false⟩, _, rfl, rfl⟩

end P1788
