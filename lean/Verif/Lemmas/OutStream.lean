import Verif.Model.OutStream
import Verif.Lemmas.WriteUnc

/-! # Insertions depend on the settings only, and append text -/

namespace P1788

/-! ## Relating two runs -/

/-- Two computations end in the same way, and related results if they end normally. -/
inductive Std.Rel {α β : Type} (R : α → β → Prop) : Std α → Std β → Prop
  | ok {a b} : R a b → Std.Rel R (.ok a) (.ok b)
  | outOfRange : Std.Rel R .outOfRange .outOfRange
  | ub : Std.Rel R .ub .ub

theorem Std.Rel.bind {α β γ δ : Type} {R : α → β → Prop} {T : γ → δ → Prop} {m : Std α} {m' : Std β} {f : α → Std γ} {f' : β → Std δ}
    (h : Std.Rel R m m') (hf : ∀ a b, R a b → Std.Rel T (f a) (f' b)) : Std.Rel T (m >>= f) (m' >>= f') := by
  cases h with
  | ok h => exact hf _ _ h
  | outOfRange => exact .outOfRange
  | ub => exact .ub

theorem Std.Rel.refl {α : Type} {m : Std α} : Std.Rel (fun a b => a = b) m m := by
  cases m with
  | ok a => exact .ok rfl
  | outOfRange => exact .outOfRange
  | ub => exact .ub

/-- The same settings, and the same text after `a` and `b`. -/
structure OStr.Sim (a b : List Char) (o o' : OStr) : Prop where
  text : ∃ t, o.text = a ++ t ∧ o'.text = b ++ t
  numeric : o.numeric = o'.numeric
  upper : o.upper = o'.upper
  base : o.base = o'.base
  width : o.width = o'.width
  fill : o.fill = o'.fill
  left : o.left = o'.left

variable {a b : List Char} {o o' : OStr} {φ : Fmt} {slack : ℕ}

theorem OStr.Sim.put (h : OStr.Sim a b o o') (w : List Char) : OStr.Sim a b (o.put w) (o'.put w) := by
  obtain ⟨⟨t, h1, h2⟩, h3, h4, h5, h6, h7, h8⟩ := h
  refine ⟨⟨t ++ (if o.left then w ++ List.replicate (o.width - w.length) o.fill else List.replicate (o.width - w.length) o.fill ++ w), ?_, ?_⟩,
    h3, h4, h5, rfl, h7, h8⟩
  · simp only [OStr.put, h1, List.append_assoc]
  · simp only [OStr.put, h2, h6, h7, h8, List.append_assoc]

theorem OStr.Sim.dec (h : OStr.Sim a b o o') (d : UInt8) : OStr.Sim a b (Dec.write o d) (Dec.write o' d) := by
  unfold Dec.write
  rw [h.numeric, h.upper, h.base]
  repeat' split
  all_goals first | exact h.put _ | exact h

theorem OStr.Sim.overlap (h : OStr.Sim a b o o') (n : Bool) (v : Overlap) : OStr.Sim a b (v.write o n) (v.write o' n) := by
  unfold Overlap.write
  rw [h.upper, h.base]
  split
  · exact h.put _
  · exact h.put _

/-! ## The string width is converted to `int` -/

theorem toInt_sub {z z' : ℤ} (h : toInt z = toInt z') (a : ℤ) : toInt (z - a) = toInt (z' - a) := by
  unfold toInt at *
  have h1 : z % (2 ^ 32 : ℕ) = z' % (2 ^ 32 : ℕ) := by
    rw [← Int.bmod_emod (x := z), ← Int.bmod_emod (x := z'), h]
  have h2 : (z - a) % (2 ^ 32 : ℕ) = (z' - a) % (2 ^ 32 : ℕ) := by
    rw [Int.sub_emod, h1, ← Int.sub_emod]
  rw [← Int.emod_bmod (x := z - a), ← Int.emod_bmod (x := z' - a), h2]

theorem toInt_toInt (z : ℤ) : toInt (toInt z) = toInt z := by
  unfold toInt
  exact Int.bmod_bmod

/-- The same settings for intervals. -/
structure Manip.Sim (k k' : Manip) : Prop where
  strWidth : toInt k.strWidth = toInt k'.strWidth
  rest : { k with strWidth := 0 } = ({ k' with strWidth := 0 } : Manip)

theorem Parts.write_sim (h : OStr.Sim a b o o') (p : Parts) {n n' : ℤ} (hn : toInt n = toInt n') :
    OStr.Sim a b (p.write n o) (p.write n' o') := by
  unfold Parts.write
  have : toInt (n - p.p1.length - p.p2.length - p.p3.length - p.p4.length - p.p5.length) =
      toInt (n' - p.p1.length - p.p2.length - p.p3.length - p.p4.length - p.p5.length) :=
    toInt_sub (toInt_sub (toInt_sub (toInt_sub (toInt_sub hn _) _) _) _) _
  simp only [this]
  exact ((((((h.put _).put _).put _).put _).put _).put _).put _

/-- Nothing but the string width depends on the string width. -/
theorem Manip.Sim.eq {k k' : Manip} (h : Manip.Sim k k') : k' = { k with strWidth := k'.strWidth } := by
  obtain ⟨-, h⟩ := h
  cases k; cases k'; simp only [Manip.mk.injEq] at h ⊢
  simp [h]

theorem writeItv_sim {k k' : Manip} (hk : Manip.Sim k k') (h : OStr.Sim a b o o') (x : Itv) :
    Std.Rel (OStr.Sim a b) (φ.writeItv slack k o x) (φ.writeItv slack k' o' x) := by
  have hw := hk.strWidth
  rw [hk.eq]
  revert hw
  generalize k'.strWidth = n'
  intro hw
  unfold Fmt.writeItv
  rw [← h.upper]
  split
  · exact .ok h
  · split
    · refine Std.Rel.bind (R := fun a b => a = b) (f := fun t => .ok (o.put (blanks (toInt (k.strWidth - t.length)) ++ t)))
        (f' := fun t => .ok (o'.put (blanks (toInt (n' - t.length)) ++ t))) ?_ ?_
      · exact Std.Rel.refl
      · rintro t _ rfl
        refine .ok ?_
        rw [toInt_sub hw]
        exact h.put _
    · unfold Fmt.writeInfSup
      rw [← h.upper]
      refine Std.Rel.bind (R := fun a b => a = b) (f := fun p : Parts => .ok (p.write k.strWidth o))
        (f' := fun p : Parts => .ok (p.write n' o')) ?_ ?_
      · exact Std.Rel.refl
      · rintro p _ rfl
        exact .ok (Parts.write_sim h p hw)

theorem decText_sim {k k' : Manip} (hk : Manip.Sim k k') (h : OStr.Sim a b o o') (d : Dec) : k.decText o d = k'.decText o' d := by
  have hp : k'.punct = k.punct := by rw [hk.eq]
  unfold Manip.decText
  rw [hp]
  have h0 : OStr.Sim [] [] { o with text := [] } { o' with text := [] } :=
    ⟨⟨[], rfl, rfl⟩, h.numeric, h.upper, h.base, h.width, h.fill, h.left⟩
  obtain ⟨t, h1, h2⟩ := ((h0.put (if k.punct then ['_'] else [' '])).dec d.raw).text
  rw [h1, h2]

theorem writeDItv_sim {k k' : Manip} (hk : Manip.Sim k k') (h : OStr.Sim a b o o') (x : DItv) :
    Std.Rel (OStr.Sim a b) (φ.writeDItv slack k o x) (φ.writeDItv slack k' o' x) := by
  have hn : k'.naiParts o'.upper = k.naiParts o.upper := by
    rw [hk.eq, h.upper]; rfl
  have ht := decText_sim hk h x.dec
  unfold Fmt.writeDItv
  split
  · exact .ok h
  · split
    · rw [hn]; exact .ok (Parts.write_sim h _ hk.strWidth)
    · split
      · exact writeItv_sim hk h _
      · simp only
        rw [← ht]
        generalize k.decText o x.dec = t
        rw [← hk.strWidth]
        refine Std.Rel.bind (R := fun a b => a = b) (f := fun w => φ.writeItv slack { k with strWidth := w } o x.itv >>= fun o : OStr => .ok (o.put t))
          (f' := fun w => φ.writeItv slack { k' with strWidth := w } o' x.itv >>= fun o : OStr => .ok (o.put t)) Std.Rel.refl ?_
        rintro w _ rfl
        refine Std.Rel.bind (R := OStr.Sim a b) (f := fun o : OStr => .ok (o.put t)) (f' := fun o : OStr => .ok (o.put t)) ?_ ?_
        · refine writeItv_sim ⟨?_, ?_⟩ h _
          · rfl
          · exact hk.rest
        · intro o1 o2 h12
          exact .ok (h12.put t)

end P1788
