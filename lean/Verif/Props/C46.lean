import Verif.Lemmas.OutCase

/-!
# C46: what is written depends on the last setting of each kind only; the settings stay until they are changed

`OutCmd` lists what a program does with an output stream: it sets something or inserts something.
-/

namespace P1788

variable {φ : Fmt} {slack : ℕ}

/-! ### Specification -/

/-- The kinds of settings. -/
inductive Kind where
  | case | stringWidth | form | numRep | width | prec | special | punct | ucExp | dec | overlap | base | fill | left
  deriving DecidableEq

/-- What a command sets. -/
def OutCmd.kind : OutCmd → Option Kind
  | .case _ => some .case
  | .stringWidth _ => some .stringWidth
  | .form _ => some .form
  | .numRep _ => some .numRep
  | .width _ => some .width
  | .prec _ => some .prec
  | .special _ => some .special
  | .punct _ => some .punct
  | .ucExp _ => some .ucExp
  | .dec _ => some .dec
  | .overlap _ => some .overlap
  | .base _ => some .base
  | .fill _ => some .fill
  | .left _ => some .left
  | _ => none

/-- The documented defaults. -/
def Kind.default : Kind → OutCmd
  | .case => .case false
  | .stringWidth => .stringWidth 0
  | .form => .form .infSup
  | .numRep => .numRep .decSci
  | .width => .width 0
  | .prec => .prec 0
  | .special => .special .text
  | .punct => .punct true
  | .ucExp => .ucExp false
  | .dec => .dec false
  | .overlap => .overlap false
  | .base => .base .dec
  | .fill => .fill ' '
  | .left => .left false

/-- The last setting of a kind, the default if there is none. -/
def lastOf (k : Kind) (cs : List OutCmd) : OutCmd := ((cs.filter fun c => c.kind = some k).getLast?).getD k.default

/-- Insertions of objects of the library. -/
def OutCmd.IsObject : OutCmd → Prop
  | .putItv _ => True
  | .putDItv _ => True
  | .putDec d => ∃ e : Dec, e.raw = d
  | .putOverlap _ => True
  | _ => False

/-! ### Proof -/

/-- The stream has a setting. -/
def Sink.Has (s : Sink) : OutCmd → Prop
  | .case up => s.iw .text = if up then 1 else 0
  | .stringWidth n => toInt (s.iw .strWidth) = toInt n.toNat
  | .form f => s.iw .form = f.flag
  | .numRep r => s.iw .numRep = r.flag
  | .width n => s.iw .width = n.toNat
  | .prec n => s.iw .prec = n.toNat
  | .special r => s.iw .special = r.flag
  | .punct b => s.iw .punct = if b then 0 else 1
  | .ucExp b => s.iw .ucExp = if b then 1 else 0
  | .dec b => s.iw .dec = if b then 1 else 0
  | .overlap b => s.iw .overlap = if b then 1 else 0
  | .base b => s.base = b
  | .fill c => s.fill = c
  | .left b => s.left = b
  | _ => True

/-- A command keeps the settings of the other kinds. -/
theorem exec_has {s s' : Sink} {c d : OutCmd} (h : s.exec φ slack c = .ok s') :
    (d.kind ≠ none → d.kind ≠ c.kind → s.Has d → s'.Has d) ∧ s'.Has c := by
  cases c
  case putItv x =>
    obtain ⟨o, -, h⟩ := Std.bind_ok h
    cases Std.ok.inj h
    exact ⟨fun _ _ h => by cases d <;> exact h, trivial⟩
  case putDItv x =>
    refine ⟨fun _ _ hd => ?_, trivial⟩
    obtain ⟨o, -, h⟩ := Std.bind_ok h
    dsimp only at h
    split at h
    · cases Std.ok.inj h
      cases d
      case stringWidth n => exact (toInt_toInt _).trans hd
      all_goals exact hd
    · cases Std.ok.inj h
      cases d <;> exact hd
  all_goals
    cases Std.ok.inj h
    refine ⟨fun h1 h2 h => ?_, by first | exact trivial | rfl⟩
    cases d <;> first | exact absurd rfl h2 | exact h

theorem kind_default (k : Kind) : (k.default).kind = some k := by cases k <;> rfl

theorem lastOf_kind (k : Kind) (cs : List OutCmd) : (lastOf k cs).kind = some k := by
  unfold lastOf
  cases h : (cs.filter fun c => c.kind = some k).getLast? with
  | none => exact kind_default k
  | some c =>
    have := List.mem_of_getLast? h
    simpa using (List.mem_filter.mp this).2

theorem lastOf_append (k : Kind) (cs : List OutCmd) (c : OutCmd) :
    lastOf k (cs ++ [c]) = if c.kind = some k then c else lastOf k cs := by
  unfold lastOf
  rw [List.filter_append]
  by_cases h : c.kind = some k
  · simp [h]
  · simp [h]

theorem run_append {s : Sink} {cs ds : List OutCmd} : s.run φ slack (cs ++ ds) = (do let s' ← s.run φ slack cs; s'.run φ slack ds) := by
  induction cs generalizing s with
  | nil => rfl
  | cons c cs ih =>
    simp only [List.cons_append, Sink.run]
    cases s.exec φ slack c with
    | ok s' => exact ih
    | outOfRange => rfl
    | ub => rfl

/-- The settings of a stream are the last ones of each kind. -/
theorem run_has {cs : List OutCmd} {s : Sink} (h : Sink.run φ slack {} cs = .ok s) (k : Kind) : s.Has (lastOf k cs) := by
  induction cs using List.reverseRecOn generalizing s with
  | nil =>
    cases Std.ok.inj h
    cases k <;> rfl
  | append_singleton cs c ih =>
    rw [run_append] at h
    obtain ⟨s1, h1, h2⟩ := Std.bind_ok h
    obtain ⟨s2, h2, h3⟩ := Std.bind_ok h2
    cases Std.ok.inj h3
    rw [lastOf_append]
    split
    · exact (exec_has (d := c) h2).2
    · next hc =>
      refine (exec_has h2).1 ?_ ?_ (ih h1)
      · rw [lastOf_kind]; simp
      · rw [lastOf_kind]; exact fun h => hc h.symm

/-- Two streams with the same settings. -/
structure Sink.Sim (a b : List Char) (s s' : Sink) : Prop where
  text : ∃ t, s.text = a ++ t ∧ s'.text = b ++ t
  iw : ∀ i, i ≠ .strWidth → s.iw i = s'.iw i
  strWidth : toInt (s.iw .strWidth) = toInt (s'.iw .strWidth)
  base : s.base = s'.base
  width : s.width = s'.width
  fill : s.fill = s'.fill
  left : s.left = s'.left

variable {a b : List Char} {s s' : Sink}

theorem Sink.Sim.ostr (h : Sink.Sim a b s s') : OStr.Sim a b s.ostr s'.ostr :=
  ⟨h.text, by simp [Sink.ostr, h.iw .dec (by decide)], by simp [Sink.ostr, h.iw .text (by decide)], h.base, h.width, h.fill, h.left⟩

theorem Sink.Sim.manip (h : Sink.Sim a b s s') : Manip.Sim s.manip s'.manip := by
  refine ⟨h.strWidth, ?_⟩
  simp [Sink.manip, h.iw .form (by decide), h.iw .numRep (by decide), h.iw .width (by decide), h.iw .prec (by decide),
    h.iw .special (by decide), h.iw .punct (by decide), h.iw .ucExp (by decide)]

theorem Sink.Sim.after (h : Sink.Sim a b s s') {o o' : OStr} (ho : OStr.Sim a b o o') : Sink.Sim a b (s.after o) (s'.after o') :=
  ⟨ho.text, h.iw, h.strWidth, h.base, ho.width, h.fill, h.left⟩

theorem Sink.Sim.set (h : Sink.Sim a b s s') (i : Slot) (v : ℤ) : Sink.Sim a b (s.set i v) (s'.set i v) := by
  refine ⟨h.text, fun j hj => ?_, ?_, h.base, h.width, h.fill, h.left⟩
  · simp only [Sink.set]
    split
    · rfl
    · exact h.iw j hj
  · simp only [Sink.set]
    split
    · rfl
    · exact h.strWidth

theorem exec_sim (h : Sink.Sim a b s s') (c : OutCmd) : Std.Rel (Sink.Sim a b) (s.exec φ slack c) (s'.exec φ slack c) := by
  cases c
  case putItv x =>
    exact Std.Rel.bind (writeItv_sim h.manip h.ostr x) fun o o' ho => .ok (h.after ho)
  case putDItv x =>
    refine Std.Rel.bind (writeDItv_sim h.manip h.ostr x) fun o o' ho => ?_
    dsimp only
    split
    · have h' := h.after ho
      refine .ok ?_
      rw [h.strWidth]
      exact h'.set _ _
    · exact .ok (h.after ho)
  case putDec d => exact .ok (h.after (h.ostr.dec d))
  case putOverlap v =>
    refine .ok ?_
    rw [h.iw .overlap (by decide)]
    exact h.after (h.ostr.overlap _ v)
  case putText w => exact .ok (h.after (h.ostr.put w))
  case base v => exact .ok ⟨h.text, h.iw, h.strWidth, rfl, h.width, h.fill, h.left⟩
  case setw v => exact .ok ⟨h.text, h.iw, h.strWidth, h.base, rfl, h.fill, h.left⟩
  case fill v => exact .ok ⟨h.text, h.iw, h.strWidth, h.base, h.width, rfl, h.left⟩
  case left v => exact .ok ⟨h.text, h.iw, h.strWidth, h.base, h.width, h.fill, rfl⟩
  all_goals exact .ok (h.set _ _)

theorem run_sim (h : Sink.Sim a b s s') (cs : List OutCmd) : Std.Rel (Sink.Sim a b) (s.run φ slack cs) (s'.run φ slack cs) := by
  induction cs generalizing s s' with
  | nil => exact .ok h
  | cons c cs ih => exact Std.Rel.bind (exec_sim h c) fun _ _ h => ih h

theorem sim_of_has (hs : ∀ k, ∃ c : OutCmd, c.kind = some k ∧ s.Has c ∧ s'.Has c) (hw : s.width = s'.width) :
    Sink.Sim s.text s'.text s s' := by
  have key : ∀ k, ∃ c : OutCmd, c.kind = some k ∧ s.Has c ∧ s'.Has c := hs
  refine ⟨⟨[], by simp, by simp⟩, fun i hi => ?_, ?_, ?_, hw, ?_, ?_⟩
  · cases i
    case strWidth => exact absurd rfl hi
    case text =>
      obtain ⟨c, hk, h1, h2⟩ := key .case
      cases c <;> first | exact h1.trans h2.symm | (simp [OutCmd.kind] at hk; done)
    case form =>
      obtain ⟨c, hk, h1, h2⟩ := key .form
      cases c <;> first | exact h1.trans h2.symm | (simp [OutCmd.kind] at hk; done)
    case numRep =>
      obtain ⟨c, hk, h1, h2⟩ := key .numRep
      cases c <;> first | exact h1.trans h2.symm | (simp [OutCmd.kind] at hk; done)
    case width =>
      obtain ⟨c, hk, h1, h2⟩ := key .width
      cases c <;> first | exact h1.trans h2.symm | (simp [OutCmd.kind] at hk; done)
    case prec =>
      obtain ⟨c, hk, h1, h2⟩ := key .prec
      cases c <;> first | exact h1.trans h2.symm | (simp [OutCmd.kind] at hk; done)
    case special =>
      obtain ⟨c, hk, h1, h2⟩ := key .special
      cases c <;> first | exact h1.trans h2.symm | (simp [OutCmd.kind] at hk; done)
    case punct =>
      obtain ⟨c, hk, h1, h2⟩ := key .punct
      cases c <;> first | exact h1.trans h2.symm | (simp [OutCmd.kind] at hk; done)
    case ucExp =>
      obtain ⟨c, hk, h1, h2⟩ := key .ucExp
      cases c <;> first | exact h1.trans h2.symm | (simp [OutCmd.kind] at hk; done)
    case dec =>
      obtain ⟨c, hk, h1, h2⟩ := key .dec
      cases c <;> first | exact h1.trans h2.symm | (simp [OutCmd.kind] at hk; done)
    case overlap =>
      obtain ⟨c, hk, h1, h2⟩ := key .overlap
      cases c <;> first | exact h1.trans h2.symm | (simp [OutCmd.kind] at hk; done)
  · obtain ⟨c, hk, h1, h2⟩ := key .stringWidth
    cases c <;> first | exact h1.trans h2.symm | (simp [OutCmd.kind] at hk; done)
  · obtain ⟨c, hk, h1, h2⟩ := key .base
    cases c <;> first | exact h1.trans h2.symm | (simp [OutCmd.kind] at hk; done)
  · obtain ⟨c, hk, h1, h2⟩ := key .fill
    cases c <;> first | exact h1.trans h2.symm | (simp [OutCmd.kind] at hk; done)
  · obtain ⟨c, hk, h1, h2⟩ := key .left
    cases c <;> first | exact h1.trans h2.symm | (simp [OutCmd.kind] at hk; done)

/-! ### The property -/

/-- Two programs that have written anything to new streams, with the same last setting of each kind (and the same
field width, `os.width()`): whatever they write afterwards, the same text is appended, or none of the two programs ends
normally. -/
theorem C46_history {cs cs' : List OutCmd} {s s' : Sink} (h : Sink.run φ slack {} cs = .ok s) (h' : Sink.run φ slack {} cs' = .ok s')
    (hl : ∀ k, lastOf k cs = lastOf k cs') (hw : s.width = s'.width) (ds : List OutCmd) :
    (∃ u u' t, s.run φ slack ds = .ok u ∧ s'.run φ slack ds = .ok u' ∧ u.text = s.text ++ t ∧ u'.text = s'.text ++ t ∧ u.width = u'.width) ∨
    (s.run φ slack ds = .ub ∧ s'.run φ slack ds = .ub) ∨ (s.run φ slack ds = .outOfRange ∧ s'.run φ slack ds = .outOfRange) := by
  have hsim : Sink.Sim s.text s'.text s s' :=
    sim_of_has (fun k => ⟨lastOf k cs, lastOf_kind k cs, run_has h k, by rw [hl k]; exact run_has h' k⟩) hw
  have := run_sim (φ := φ) (slack := slack) hsim ds
  revert this
  generalize s.run φ slack ds = m
  generalize s'.run φ slack ds = m'
  intro hr
  cases hr with
  | ok hr =>
    obtain ⟨t, h1, h2⟩ := hr.text
    exact Or.inl ⟨_, _, t, rfl, rfl, h1, h2, hr.width⟩
  | outOfRange => exact Or.inr (Or.inr ⟨rfl, rfl⟩)
  | ub => exact Or.inr (Or.inl ⟨rfl, rfl⟩)

/-- Text that has been written is never changed. -/
theorem C46_append {s s' : Sink} {cs : List OutCmd} (h : s.run φ slack cs = .ok s') : ∃ t, s'.text = s.text ++ t := by
  have hsim : Sink.Sim s.text s.text s s := ⟨⟨[], by simp, by simp⟩, fun _ _ => rfl, rfl, rfl, rfl, rfl, rfl⟩
  have := run_sim (φ := φ) (slack := slack) hsim cs
  rw [h] at this
  cases this with
  | ok hr =>
    obtain ⟨t, h1, -⟩ := hr.text
    exact ⟨t, h1⟩

/-- After the insertion of an object the field width is 0: it applies to (the first part of) one object only.  Invalid
objects, which the library writes nothing for, are excluded. -/
theorem C46_width {s s' : Sink} {c : OutCmd} (hc : c.IsObject) (hv : ∀ x, c = .putItv x → x.isValid = true)
    (hv' : ∀ x, c = .putDItv x → x.isValid = true) (h : s.exec φ slack c = .ok s') : s'.width = 0 := by
  have hitv : ∀ {k : Manip} {o o' : OStr} {x : Itv}, x.isValid = true → φ.writeItv slack k o x = .ok o' → o'.width = 0 := by
    intro k o o' x hx h
    unfold Fmt.writeItv at h
    rw [hx] at h
    simp only [Bool.not_true, Bool.false_eq_true, if_false] at h
    split at h
    · obtain ⟨t, -, h⟩ := Std.bind_ok h
      cases Std.ok.inj h; rfl
    · obtain ⟨t, -, h⟩ := Std.bind_ok h
      cases Std.ok.inj h; rfl
  cases c
  case putItv x =>
    obtain ⟨o, h1, h⟩ := Std.bind_ok h
    cases Std.ok.inj h
    exact hitv (hv x rfl) h1
  case putDItv x =>
    have hx := hv' x rfl
    obtain ⟨o, h1, h⟩ := Std.bind_ok h
    have ho : o.width = 0 := by
      unfold Fmt.writeDItv at h1
      rw [hx] at h1
      simp only [Bool.not_true, Bool.false_eq_true, if_false] at h1
      split at h1
      · cases Std.ok.inj h1; rfl
      · split at h1
        · next he =>
          refine hitv ?_ h1
          unfold Itv.isEmpty at he
          revert he
          cases x.itv.isValid <;> simp
        · obtain ⟨w, -, h1⟩ := Std.bind_ok h1
          obtain ⟨o1, -, h⟩ := Std.bind_ok h1
          cases Std.ok.inj h; rfl
    dsimp only at h
    split at h
    · cases Std.ok.inj h; exact ho
    · cases Std.ok.inj h; exact ho
  case putDec d =>
    cases Std.ok.inj h
    obtain ⟨e, rfl⟩ := hc
    change (Dec.write s.ostr e.raw).width = 0
    unfold Dec.write
    split
    · rfl
    · cases e <;> rfl
  case putOverlap v =>
    cases Std.ok.inj h
    change (v.write s.ostr _).width = 0
    unfold Overlap.write
    split <;> rfl
  all_goals exact absurd hc id

/-- `upper_case` and `lower_case`: objects of the library are written without letters of the other case, whatever else is set.  Excluded:
fill characters of the other case, hexadecimal numbers for decorations and overlap states (`std::hex`; their letters follow
`std::uppercase`). -/
theorem C46_case {cs : List OutCmd} {s s' : Sink} {c : OutCmd} {up : Bool} (h : Sink.run φ slack {} cs = .ok s) (hup : lastOf .case cs = .case up)
    (hf : ∀ f, lastOf .fill cs = .fill f → f.isLower = false ∧ f.isUpper = false) (hb : lastOf .base cs ≠ .base .hex) (hc : c.IsObject)
    (hs : s.exec φ slack c = .ok s') :
    ∃ t, s'.text = s.text ++ t ∧ ∀ ch ∈ t, (if up then ch.isLower else ch.isUpper) = false := by
  have hupper : s.ostr.upper = up := by
    have := run_has h .case
    rw [hup] at this
    change decide (s.iw .text = 1) = up
    rw [show s.iw .text = if up then 1 else 0 from this]
    cases up <;> rfl
  have hfill : s.ostr.FillOk := by
    have h1 := run_has h .fill
    have h2 := lastOf_kind .fill cs
    cases hl : lastOf .fill cs <;> rw [hl] at h1 h2 <;> first | (simp [OutCmd.kind] at h2; done) | skip
    have h3 := hf _ hl
    have h4 : s.fill = _ := h1
    unfold OStr.FillOk
    change (if s.ostr.upper then s.fill.isLower else s.fill.isUpper) = false
    rw [h4, h3.1, h3.2]
    split <;> rfl
  have hbase : s.ostr.base ≠ .hex := by
    have h1 := run_has h .base
    have h2 := lastOf_kind .base cs
    cases hl : lastOf .base cs <;> rw [hl] at h1 h2 <;> first | (simp [OutCmd.kind] at h2; done) | skip
    intro hh
    have h4 : s.base = _ := h1
    rw [hl, ← h4] at hb
    exact hb (by rw [show s.base = .hex from hh])
  have fin : ∀ o, OStr.More s.ostr o → ∀ s' : Sink, s'.text = o.text → ∃ t, s'.text = s.text ++ t ∧ ∀ ch ∈ t, (if up then ch.isLower else ch.isUpper) = false := by
    intro o ho s' hs'
    obtain ⟨t, h1, h2⟩ := ho.text
    rw [hupper] at h2
    exact ⟨t, hs'.trans h1, h2⟩
  cases c
  case putItv x =>
    obtain ⟨o, h1, h2⟩ := Std.bind_ok hs
    cases Std.ok.inj h2
    exact fin o (writeItv_case hfill h1) _ rfl
  case putDItv x =>
    obtain ⟨o, h1, h2⟩ := Std.bind_ok hs
    have ho := writeDItv_case hfill (fun _ _ => hbase) h1
    dsimp only at h2
    split at h2
    · cases Std.ok.inj h2; exact fin o ho _ rfl
    · cases Std.ok.inj h2; exact fin o ho _ rfl
  case putDec d =>
    cases Std.ok.inj hs
    obtain ⟨e, he⟩ := hc
    exact fin _ (decWrite_case he hfill (fun _ _ => hbase)) _ rfl
  case putOverlap v =>
    cases Std.ok.inj hs
    exact fin _ (overlapWrite_case hfill (fun _ _ => hbase)) _ rfl
  all_goals exact absurd hc id

/-! ### Overlap states -/

theorem filter_put {o : OStr} (hf : o.fill = ' ') {w : List Char} (hw : ∀ c ∈ w, c ≠ ' ') :
    ∃ t, (o.put w).text = o.text ++ t ∧ t.filter (fun c => c ≠ ' ') = w := by
  refine ⟨_, rfl, ?_⟩
  have h1 : (List.replicate (o.width - w.length) o.fill).filter (fun c => c ≠ ' ') = [] := by
    rw [List.filter_eq_nil_iff]
    intro c hc
    rw [(List.mem_replicate.mp hc).2, hf]; simp
  have h2 : w.filter (fun c => c ≠ ' ') = w := by
    rw [List.filter_eq_self]
    intro c hc; simpa using hw c hc
  split <;> rw [List.filter_append, h1, h2] <;> simp

/-- What is written for an overlap state identifies it, with every setting (padding with blanks): names in upper and lower case,
numbers in any base. -/
theorem C46_overlap {s s1 s2 : Sink} (hf : s.fill = ' ') {v w : Overlap} (h1 : s.exec φ slack (.putOverlap v) = .ok s1)
    (h2 : s.exec φ slack (.putOverlap w) = .ok s2) (h : s1.text = s2.text) : v = w := by
  cases Std.ok.inj h1
  cases Std.ok.inj h2
  change (v.write s.ostr _).text = (w.write s.ostr _).text at h
  unfold Overlap.write at h
  have key : ∀ u u' : List Char, (∀ c ∈ u, c ≠ ' ') → (∀ c ∈ u', c ≠ ' ') → (s.ostr.put u).text = (s.ostr.put u').text → u = u' := by
    intro u u' hu hu' h
    obtain ⟨t, e1, e2⟩ := filter_put (o := s.ostr) hf hu
    obtain ⟨t', e1', e2'⟩ := filter_put (o := s.ostr) hf hu'
    rw [e1, e1'] at h
    rw [← e2, ← e2', List.append_cancel_left h]
  split at h
  · have hd : ∀ (b : Base) (v : Overlap), (Nat.toDigits b.toNat v.code).all (fun c => decide (c ≠ ' ')) = true := by
      intro b v; cases b <;> cases v <;> decide +kernel
    have := key _ _ (fun c hc => by simpa using List.all_eq_true.mp (hd _ v) c hc) (fun c hc => by simpa using List.all_eq_true.mp (hd _ w) c hc) h
    revert this
    generalize s.ostr.base = b
    revert v w b
    intro v w _ _ _ b hh
    have hinj : ∀ (b : Base) (v w : Overlap), Nat.toDigits b.toNat v.code = Nat.toDigits b.toNat w.code → v = w := by
      intro b v w
      cases b <;> cases v <;> cases w <;> decide +kernel
    exact hinj b v w hh
  · have hd : ∀ (u : Bool) (v : Overlap), (v.word u).all (fun c => decide (c ≠ ' ')) = true := by
      intro u v; cases u <;> cases v <;> decide +kernel
    have := key _ _ (fun c hc => by simpa using List.all_eq_true.mp (hd _ v) c hc) (fun c hc => by simpa using List.all_eq_true.mp (hd _ w) c hc) h
    have hinj : ∀ (u : Bool) (v w : Overlap), v.word u = w.word u → v = w := by
      intro u v w
      cases u <;> cases v <;> cases w <;> decide +kernel
    exact hinj _ v w this

/-! ### Examples and the `iword` entry of the string width -/

/-- The text, if the program ends normally. -/
def Std.output : Std Sink → Option (List Char)
  | .ok s => some s.text
  | _ => none

theorem Std.of_output {m : Std Sink} {t : List Char} (h : m.output = some t) : ∃ s, m = .ok s ∧ s.text = t := by
  cases m with
  | ok s => exact ⟨s, rfl, Option.some.inj h⟩
  | outOfRange => cases h
  | ub => cases h

/-- The `iword` entry itself is changed by the output of a decorated interval if the string width does not fit into `int`: it is read and
written back as an `int`.  Only a program that reads the entry can see this (`C46_history`). -/
theorem C46_iword_changed : ∃ s s', Sink.run binary64 0 {} [.numRep .hex, .stringWidth (2 ^ 32 - 1)] = .ok s ∧
    s.exec binary64 0 (.putDItv ⟨⟨.fin 1, .fin 2⟩, .com⟩) = .ok s' ∧ s.iw .strWidth = 2 ^ 32 - 1 ∧ s'.iw .strWidth = -1 := by
  obtain ⟨s', h1, -⟩ := Std.of_output (m := Sink.exec binary64 0 ((({} : Sink).set .numRep 3).set .strWidth (2 ^ 32 - 1))
    (.putDItv ⟨⟨.fin 1, .fin 2⟩, .com⟩)) (t := "[0x1p+0,0x2p+0]_com".toList) (by decide +kernel)
  refine ⟨_, s', rfl, h1, rfl, ?_⟩
  obtain ⟨o, -, h⟩ := Std.bind_ok h1
  dsimp only at h
  rw [if_pos (by decide +kernel)] at h
  cases Std.ok.inj h
  change toInt (2 ^ 32 - 1) = -1
  decide

/-- `C46_history` is not void: two programs, the first of which writes several objects with other settings. -/
example : ∃ s s',
    Sink.run binary64 0 {} [.case true, .putOverlap .meets, .putText [' '], .case false, .numRep .hex, .putItv ⟨.fin 1, .fin 2⟩, .setw 7, .putDec 4] = .ok s ∧
    s.text = "MEETS [0x1p+0,0x2p+0]    trv".toList ∧ Sink.run binary64 0 {} [.numRep .hex] = .ok s' ∧ s'.text = [] ∧
    (∀ k, lastOf k [.case true, .putOverlap .meets, .putText [' '], .case false, .numRep .hex, .putItv ⟨.fin 1, .fin 2⟩, .setw 7, .putDec 4] =
      lastOf k [.numRep .hex]) := by
  obtain ⟨s, h1, h2⟩ := Std.of_output (m := Sink.run binary64 0 {} [.case true, .putOverlap .meets, .putText [' '], .case false, .numRep .hex,
    .putItv ⟨.fin 1, .fin 2⟩, .setw 7, .putDec 4]) (t := "MEETS [0x1p+0,0x2p+0]    trv".toList) (by decide +kernel)
  exact ⟨s, _, h1, h2, rfl, rfl, fun k => by cases k <;> rfl⟩

/-- `C46_case` is not void. -/
example : ∃ s s', Sink.run binary64 0 {} [.case true, .numRep .hex, .special .bounds] = .ok s ∧
    s.exec binary64 0 (.putDItv ⟨⟨.fin (27 / 2), .pinf⟩, .dac⟩) = .ok s' ∧ s'.text = "[0XD.8P+0,INF]_DAC".toList := by
  obtain ⟨s', h1, h2⟩ := Std.of_output (m := Sink.exec binary64 0 (((({} : Sink).set .text 1).set .numRep 3).set .special 1)
    (.putDItv ⟨⟨.fin (27 / 2), .pinf⟩, .dac⟩)) (t := "[0XD.8P+0,INF]_DAC".toList) (by decide +kernel)
  exact ⟨_, s', rfl, h1, h2⟩

example : ∃ s, Sink.run binary64 0 {} [.overlap true, .base .hex, .putOverlap .overlappedBy] = .ok s ∧ s.text = "2000".toList :=
  Std.of_output (by decide +kernel)

end P1788
