import Verif.Props.C47

/-!
# C47, continued: programs that mix bare intervals, decorated intervals and decorations and change settings in between
-/

namespace P1788
open Bornology
variable {φ : Fmt} {slack : ℕ}

/-! ### Specification -/

/-- An object of the library that can be written to a stream and read from one. -/
inductive TextObj where
  | itv (x : Itv)
  | ditv (x : DItv)
  | dec (d : Dec)

/-- The type of an object. -/
inductive TextObj.Kind where
  | itv | ditv | dec

def TextObj.kind : TextObj → TextObj.Kind
  | .itv _ => .itv
  | .ditv _ => .ditv
  | .dec _ => .dec

/-- `os << x` -/
def TextObj.put : TextObj → OutCmd
  | .itv x => .putItv x
  | .ditv x => .putDItv x
  | .dec d => .putDec (UInt8.ofNat d.code)

def TextObj.Ok (φ : Fmt) : TextObj → Prop
  | .itv x => x.Ok φ
  | .ditv x => x.Ok φ
  | .dec _ => True

/-- A step of a program that writes: a manipulator (or white space), or an object followed by white space. -/
inductive WStep where
  | set (c : OutCmd)
  | put (x : TextObj) (sep : List Char)

def WStep.cmds : WStep → List OutCmd
  | .set c => [c]
  | .put x sep => [x.put, .putText sep]

/-- The objects written by a program. -/
def textObjs : List WStep → List TextObj
  | [] => []
  | .set _ :: l => textObjs l
  | .put x _ :: l => x :: textObjs l

/-- `is >> x` with a variable of the given type; a variable for a decoration has the value `d0` before.  The value assigned (`none`: not
assigned), and the stream. -/
def readObj (φ : Fmt) (d0 : Dec) (s : IStr) : TextObj.Kind → Std (M (Option TextObj) × IStr)
  | .itv => do
    let (m, s) ← φ.readBare s
    .ok ((do return (← m).map TextObj.itv), s)
  | .ditv => do
    let (x, s) ← φ.readItv s
    .ok ((do return x.map TextObj.ditv), s)
  | .dec => .ok ((do return some (.dec (Dec.read s d0).1)), (Dec.read s d0).2)

/-- `is >> x1; is >> x2; ...`: the values of the variables afterwards, or the exception thrown, the exception flags, and the stream. -/
def readObjs (φ : Fmt) (d0 : Dec) : List TextObj.Kind → IStr → ExSt → Std (Outcome (List (Option TextObj)) × ExSt × IStr)
  | [], s, e => .ok (.ret [], e, s)
  | k :: ks, s, e => do
    let (m, s) ← readObj φ d0 s k
    match m e with
    | (.thrown x, e) => .ok (.thrown x, e, s)
    | (.ret x, e) => do
      let (r, e, s) ← readObjs φ d0 ks s e
      match r with
      | .thrown y => .ok (.thrown y, e, s)
      | .ret xs => .ok (.ret (x :: xs), e, s)

/-- What may be read for an object: for a bare interval one that contains it (an empty one for an empty one), for a decorated interval as in
`ReadFor`, for a decoration the same. -/
def ReadForObj (φ : Fmt) : TextObj → Option TextObj → Prop
  | .itv x, some (.itv z) => z.Ok φ ∧ x.set ⊆ z.set ∧ (x.set = ∅ → z.set = ∅)
  | .ditv x, some (.ditv z) => ReadFor φ x (some z)
  | .dec d, some (.dec d') => d' = d
  | _, _ => False

/-- The object read is equal to the one written. -/
def ReadSameObj (φ : Fmt) : TextObj → Option TextObj → Prop
  | .itv x, some (.itv z) => z.Ok φ ∧ z.set = x.set
  | .ditv x, some (.ditv z) => ReadSame φ x (some z)
  | .dec d, some (.dec d') => d' = d
  | _, _ => False

/-- The settings a program may make: everything but other forms than inf-sup, no punctuation, the bounds of the empty set, decorations as numbers, field
widths, precisions near `2^31`.  White space may be written anywhere. -/
def OutCmd.Harmless (φ : Fmt) : OutCmd → Prop
  | .form f => f = .infSup
  | .punct b => b = true
  | .special r => r ≠ .bounds
  | .dec b => b = false
  | .setw n => n = 0
  | .prec n => φ.B n.toNat < 2 ^ 31
  | .putText w => ∀ c ∈ w, isSpace c = true
  | .putItv _ | .putDItv _ | .putDec _ | .putOverlap _ => False
  | _ => True

/-- The programs considered. -/
def WStep.Good (φ : Fmt) : WStep → Prop
  | .set c => c.Harmless φ
  | .put x sep => x.Ok φ ∧ sep ≠ [] ∧ ∀ c ∈ sep, isSpace c = true

/-! ### Proof -/

/-- The state of the stream throughout. -/
structure Sink.Inv47 (φ : Fmt) (s : Sink) : Prop where
  form : s.manip.form = .infSup
  punct : s.manip.punct = true
  width : s.width = 0
  numeric : s.ostr.numeric = false
  special : s.manip.special ≠ .bounds
  prec : φ.B s.manip.prec < 2 ^ 31

/-- The settings for numbers agree. -/
def Sink.SameNum (s s' : Sink) : Prop :=
  s'.manip.numRep = s.manip.numRep ∧ s'.manip.prec = s.manip.prec ∧ s'.manip.width = s.manip.width

theorem inv47_set {s s' : Sink} {c : OutCmd} (h : s.Inv47 φ) (hc : c.Harmless φ) (e : s.exec φ slack c = .ok s') :
    s'.Inv47 φ ∧ ∃ w, IsWs w ∧ s'.text = s.text ++ w := by
  obtain ⟨h1, h2, h3, h4, h5, h6⟩ := h
  cases c with
  | putItv x => exact hc.elim
  | putDItv x => exact hc.elim
  | putDec x => exact hc.elim
  | putOverlap x => exact hc.elim
  | putText w =>
    cases Std.ok.inj e
    have hp := put_zero (o := s.ostr) (w := w) h3
    exact ⟨⟨h1, h2, hp.2, h4, h5, h6⟩, w, isWs_iff.mpr hc, hp.1⟩
  | form f =>
    have hc : f = .infSup := hc
    subst hc
    cases Std.ok.inj e
    refine ⟨⟨?_, h2, h3, h4, h5, h6⟩, [], isWs_nil, (List.append_nil _).symm⟩
    simp [Sink.manip, Sink.set, Form.flag]
  | punct b =>
    have hc : b = true := hc
    subst hc
    cases Std.ok.inj e
    refine ⟨⟨h1, ?_, h3, h4, h5, h6⟩, [], isWs_nil, (List.append_nil _).symm⟩
    simp [Sink.manip, Sink.set]
  | special r =>
    have hc : r ≠ .bounds := hc
    cases Std.ok.inj e
    refine ⟨⟨h1, h2, h3, h4, ?_, h6⟩, [], isWs_nil, (List.append_nil _).symm⟩
    cases r
    · simp [Sink.manip, Sink.set, SpecialRep.flag]
    · exact absurd rfl hc
    · simp [Sink.manip, Sink.set, SpecialRep.flag]
  | dec b =>
    have hc : b = false := hc
    subst hc
    cases Std.ok.inj e
    refine ⟨⟨h1, h2, h3, ?_, h5, h6⟩, [], isWs_nil, (List.append_nil _).symm⟩
    simp [Sink.ostr, Sink.set]
  | setw n =>
    have hc : n = 0 := hc
    cases Std.ok.inj e
    exact ⟨⟨h1, h2, hc, h4, h5, h6⟩, [], isWs_nil, (List.append_nil _).symm⟩
  | prec n =>
    have hc : φ.B n.toNat < 2 ^ 31 := hc
    cases Std.ok.inj e
    refine ⟨⟨h1, h2, h3, h4, h5, ?_⟩, [], isWs_nil, (List.append_nil _).symm⟩
    simpa [Sink.manip, Sink.set] using hc
  | _ =>
    cases Std.ok.inj e
    exact ⟨⟨h1, h2, h3, h4, h5, h6⟩, [], isWs_nil, (List.append_nil _).symm⟩

theorem ofRaw_code (d : Dec) : Dec.ofRaw (UInt8.ofNat d.code) = some d := by cases d <;> decide

/-- What is written for an object: a literal, or the name of a decoration. -/
inductive TextFor (φ : Fmt) (s : Sink) : TextObj → List Char → Prop
  | itv {x t D N} : Literal t D D.dec N → D ≠ .nai → x.set ⊆ D.set → (x.set = ∅ ↔ D = .empty) → Accurate s.manip.numRep s.manip.prec x D →
      (∀ n ∈ N, n.Small (φ.B s.manip.prec)) → TextFor φ s (.itv x) t
  | ditv {x t D N} : Literal t D x.dec N → (D = .nai ↔ x.IsNaI) → x.itv.set ⊆ D.set → (¬ x.IsNaI → (x.itv.set = ∅ ↔ D = .empty)) →
      (¬ x.IsNaI → Accurate s.manip.numRep s.manip.prec x.itv D) → (∀ n ∈ N, n.Small (φ.B s.manip.prec)) → TextFor φ s (.ditv x) t
  | dec {d} : TextFor φ s (.dec d) (d.text s.ostr)

theorem write_obj {s s' : Sink} {x : TextObj} {sep : List Char} (h : s.Inv47 φ) (hx : x.Ok φ)
    (e : s.run φ slack [x.put, .putText sep] = .ok s') :
    s'.Inv47 φ ∧ s.SameNum s' ∧ ∃ t, s'.text = s.text ++ t ++ sep ∧ TextFor φ s x t := by
  obtain ⟨h1, h2, h3, h4, h5, h6⟩ := h
  cases x with
  | ditv x =>
    have hw : s.Writes [x] := ⟨.inl h1, h2, by omega, fun h => (by rw [h4] at h; cases h), fun h => absurd h h5⟩
    obtain ⟨w, k1, k2, k3, t, D, N, e', hl, hD, hs, hD', ha, hN⟩ := write_one hw hx e
    have hfac : s'.manip.form = s.manip.form ∧ s'.manip.special = s.manip.special ∧ s'.ostr.numeric = s.ostr.numeric ∧ s'.width = 0 := by
      obtain ⟨s1, e1, e2⟩ := Std.bind_ok e
      have hw1 := C46_width (c := .putDItv x) trivial (by intro y h; cases h) (by intro y h; cases h; exact DItv.Ok.isValid hx) e1
      obtain ⟨s2, e2, e3⟩ := Std.bind_ok e2
      cases Std.ok.inj e3
      cases Std.ok.inj e2
      obtain ⟨o, f1, f2⟩ := Std.bind_ok e1
      have hp := (put_zero (o := s1.ostr) (w := sep) hw1).2
      dsimp only at f2
      split at f2
      · cases Std.ok.inj f2
        exact ⟨rfl, rfl, rfl, hp⟩
      · cases Std.ok.inj f2
        exact ⟨rfl, rfl, rfl, hp⟩
    obtain ⟨g1, g2, g3, g4⟩ := hfac
    exact ⟨⟨g1.trans h1, w.punct, g4, g3.trans h4, by rw [g2]; exact h5, by rw [k2]; exact h6⟩, ⟨k1, k2, k3⟩, t, e', .ditv hl hD hs hD' ha hN⟩
  | itv x =>
    obtain ⟨s1, e1, e2⟩ := Std.bind_ok e
    have hw1 := C46_width (c := .putItv x) trivial (by intro y h; cases h; exact Itv.Ok.isValid hx) (by intro y h; cases h) e1
    obtain ⟨s2, e2, e3⟩ := Std.bind_ok e2
    cases Std.ok.inj e3
    cases Std.ok.inj e2
    obtain ⟨o, f1, f2⟩ := Std.bind_ok e1
    cases Std.ok.inj f2
    have hp := put_zero (o := (s.after o).ostr) (w := sep) hw1
    obtain ⟨t, D, N, e', hl, hn, hs, hD, ha, hN⟩ := C40_contains_partial hx (.inl h1) h2 (.inl (show s.width ≤ 1 by omega)) (fun h => h5 h.2) f1
    refine ⟨⟨h1, h2, hp.2, h4, h5, h6⟩, ⟨rfl, rfl, rfl⟩, t, ?_, .itv hl hn hs hD ha hN⟩
    refine hp.1.trans ?_
    change o.text ++ sep = _
    rw [e']
    rfl
  | dec d =>
    obtain ⟨s1, e1, e2⟩ := Std.bind_ok e
    cases Std.ok.inj e1
    obtain ⟨s2, e2, e3⟩ := Std.bind_ok e2
    cases Std.ok.inj e3
    cases Std.ok.inj e2
    have hw := write_eq (o := s.ostr) (ofRaw_code d)
    have hq := put_zero (o := s.ostr) (w := d.text s.ostr) h3
    have hw0 : (s.after (Dec.write s.ostr (UInt8.ofNat d.code))).width = 0 := by
      change (Dec.write s.ostr (UInt8.ofNat d.code)).width = 0
      rw [hw]; exact hq.2
    have hp := put_zero (o := (s.after (Dec.write s.ostr (UInt8.ofNat d.code))).ostr) (w := sep) hw0
    refine ⟨⟨h1, h2, hp.2, h4, h5, h6⟩, ⟨rfl, rfl, rfl⟩, d.text s.ostr, ?_, .dec⟩
    refine hp.1.trans ?_
    change (Dec.write s.ostr (UInt8.ofNat d.code)).text ++ sep = _
    rw [hw, hq.1]
    rfl

/-- Reading one object of several. -/
theorem read_obj {i : IStr} (hi : i.good = true) (hb : i.base = .dec) (hk : i.skipws = true) {s : Sink} (hs : s.Inv47 φ) {x : TextObj} (hx : x.Ok φ)
    {t : List Char} (ht : TextFor φ s x t) {c : Char} (hc : isSpace c = true) {w r : List Char} (hw : IsWs w) (hr : i.rest = w ++ (t ++ c :: r))
    (d0 : Dec) :
    ∃ m y i' w', readObj φ d0 i x.kind = .ok (m, i') ∧ Returns m (some y) ∧ i'.good = true ∧ i'.base = .dec ∧ i'.skipws = true ∧ IsWs w' ∧
      i'.rest = w' ++ c :: r ∧ ReadForObj φ x (some y) ∧ (s.manip.numRep = .hex → s.manip.prec = 0 → ReadSameObj φ x (some y)) := by
  cases ht with
  | @itv x t D N hl hn hsub hD ha hN =>
    obtain ⟨z, i', w', q1, q2, q3, q4, q5, q6, q7⟩ := read_one (φ := φ) hi hb hk hl (fun n hn => supported_of_small hs.prec (hN n hn)) hc hw hr
    have hx : x.Ok φ := hx
    have hok : i'.ok = true := by
      unfold IStr.good at q2; unfold IStr.ok
      revert q2; cases i'.eof <;> cases i'.fail <;> cases i'.bad <;> decide
    obtain ⟨hz, -, h3⟩ := q7
    obtain ⟨hT, h4, h5⟩ := h3 hn
    have hnz : z.dec ≠ .ill := by
      by_cases hb : D.dec = .com ∧ ¬ IsBounded z.set
      · rw [h4 hb]; decide
      · rw [h5 hb]
        cases D with
        | nai => exact absurd rfl hn
        | empty => decide
        | bounds a b => cases a <;> cases b <;> simp [Denot.dec]
    have hret : Returns (intervalPart z) z.itv := by
      unfold intervalPart
      refine (DItv.isValidM_ret hz.isValid).bind ?_
      simp only [Bool.not_true, Bool.false_eq_true, if_false, hz.isNai_false hnz]
      exact Returns.pure _
    refine ⟨(do return (← (do return some (← intervalPart z) : M (Option Itv))).map TextObj.itv), .itv z.itv, i', w', ?_, ?_, q2, q3, q4, q5, q6, ⟨hT.1, hsub.trans hT.2.1, fun h => ?_⟩, fun k1 k2 => ⟨hT.1, ?_⟩⟩
    · change (do let (m, s) ← φ.readBare i; Std.ok ((do return (← m).map TextObj.itv : M (Option TextObj)), s)) = _
      unfold Fmt.readBare
      rw [q1]
      change (do
        let (m, s) ← (if i'.ok = true then (match some z with
            | some x => (return ((do return some (← intervalPart x)), i') : Std (M (Option Itv) × IStr))
            | none => .ub)
          else return ((do return none), i'))
        Std.ok ((do return (← m).map TextObj.itv : M (Option TextObj)), s)) = _
      rw [if_pos hok]
      rfl
    · have h' : Returns (do return some (← intervalPart z) : M (Option Itv)) (some z.itv) := hret.bind (Returns.pure _)
      exact h'.bind (Returns.pure _)
    · rw [hD.mp h] at hT
      exact Set.subset_empty_iff.mp (hT.2.2 Itv.empty (Itv.ok_empty φ) (by simp [Denot.set]) |>.trans (by rw [Itv.set_empty]))
    · rw [k1, k2] at ha
      rw [hex_set_eq hx hsub hD ha] at hT
      exact Set.Subset.antisymm (hT.2.2 x hx subset_rfl) hT.2.1
  | @ditv x t D N hl hD hsub hD' ha hN =>
    obtain ⟨z, i', w', q1, q2, q3, q4, q5, q6, q7⟩ := read_one (φ := φ) hi hb hk hl (fun n hn => supported_of_small hs.prec (hN n hn)) hc hw hr
    have hx : x.Ok φ := hx
    refine ⟨(do return (some z).map TextObj.ditv), .ditv z, i', w', ?_, ?_, q2, q3, q4, q5, q6, readFor_of hx hD hsub q7, fun k1 k2 => readSame_of hx hD (fun hn =>
      hex_set_eq hx.1 hsub (hD' hn) (by have := ha hn; rw [k1, k2] at this; exact this)) q7⟩
    · change (do let (x, s) ← φ.readItv i; Std.ok ((do return x.map TextObj.ditv : M (Option TextObj)), s)) = _
      rw [q1]
      rfl
    · exact Returns.pure _
  | @dec d =>
    have htx : d.text s.ostr = if s.ostr.upper then d.name.map Char.toUpper else d.name := by
      unfold Dec.text
      rw [hs.numeric]
      rfl
    have hst : StartsWith i.base (d.text s.ostr ++ c :: r) d (c :: r) := by
      refine Or.inl ⟨_, rfl, ?_⟩
      rw [htx]
      cases s.ostr.upper <;> cases d <;> rfl
    have hcont : i.content = d.text s.ostr ++ c :: r := by
      unfold IStr.content
      rw [if_pos hk, hr, dropWhile_all (isWs_iff.mp hw), htx]
      cases s.ostr.upper <;> cases d <;> rfl
    obtain ⟨h1, h2, h3⟩ := (C39_read hi d0).1 d (c :: r) (by rw [hcont]; exact hst)
    have hkept : Kept i (Dec.read i d0).2 := Kept.readDec ⟨rfl, rfl, fun h => by rw [not_eof_of_good hi] at h; cases h⟩ d0
    refine ⟨_, .dec (Dec.read i d0).1, (Dec.read i d0).2, [], rfl, Returns.pure _, ?_, hkept.base.trans hb, hkept.skip.trans hk, isWs_nil, h2, h1, fun _ _ => h1⟩
    have he : (Dec.read i d0).2.eof = false := by
      cases h : (Dec.read i d0).2.eof with
      | false => rfl
      | true =>
        have := hkept.eof h
        rw [h2] at this
        simp at this
    unfold IStr.good
    unfold IStr.ok at h3
    rw [he]
    simpa using h3

theorem readObjs_cons {d0 : Dec} {k : TextObj.Kind} {ks : List TextObj.Kind} {i i1 i2 : IStr} {m : M (Option TextObj)} {y : Option TextObj} {ys : List (Option TextObj)}
    {e : ExSt} (h1 : readObj φ d0 i k = .ok (m, i1)) (h2 : Returns m y) (h3 : readObjs φ d0 ks i1 e = .ok (.ret ys, e, i2)) :
    readObjs φ d0 (k :: ks) i e = .ok (.ret (y :: ys), e, i2) := by
  simp only [readObjs]
  rw [h1]
  change (match m e with
    | (.thrown x, e) => (.ok (.thrown x, e, i1) : Std (Outcome (List (Option TextObj)) × ExSt × IStr))
    | (.ret x, e) => do
      let (r, e, s) ← readObjs φ d0 ks i1 e
      match r with
      | .thrown y => .ok (.thrown y, e, s)
      | .ret xs => .ok (.ret (x :: xs), e, s)) = _
  rw [h2 e]
  change (do
      let (r, e, s) ← readObjs φ d0 ks i1 e
      match r with
      | .thrown y => (.ok (.thrown y, e, s) : Std (Outcome (List (Option TextObj)) × ExSt × IStr))
      | .ret xs => .ok (.ret (y :: xs), e, s)) = _
  rw [h3]
  rfl

/-- The settings for exact numbers. -/
def Sink.Hex (s : Sink) : Prop := s.manip.numRep = .hex ∧ s.manip.prec = 0

theorem program47 {ps : List WStep} (hp : ∀ p ∈ ps, p.Good φ) {s s' : Sink} (hs : s.Inv47 φ) {R : TextObj → Option TextObj → Prop}
    (hR : (∀ x y, ReadForObj φ x y → R x y) ∨ s.Hex ∧ (∀ c, .set c ∈ ps → ∀ s s' : Sink, s.exec φ slack c = .ok s' → s.Hex → s'.Hex) ∧
      ∀ x y, ReadSameObj φ x y → R x y)
    (h : s.run φ slack (ps.flatMap WStep.cmds) = .ok s') :
    ∃ t, s'.text = s.text ++ t ∧ ∀ (i : IStr) (w : List Char), i.good = true → i.base = .dec → i.skipws = true → IsWs w →
      i.rest = w ++ t → ∀ d0 e, ∃ ys i', readObjs φ d0 ((textObjs ps).map TextObj.kind) i e = .ok (.ret ys, e, i') ∧ List.Forall₂ R (textObjs ps) ys ∧
        i'.good = true ∧ IsWs i'.rest := by
  induction ps generalizing s with
  | nil =>
    cases Std.ok.inj h
    exact ⟨[], by simp, fun i w hi _ _ hw hr d0 e => ⟨[], i, rfl, .nil, hi, by rw [hr, List.append_nil]; exact hw⟩⟩
  | cons p ps ih =>
    rw [List.flatMap_cons, run_append] at h
    obtain ⟨s1, h1, h2⟩ := Std.bind_ok h
    cases p with
    | set c =>
      obtain ⟨s2, h1, h3⟩ := Std.bind_ok h1
      cases Std.ok.inj h3
      obtain ⟨v, w0, hw0, e0⟩ := inv47_set hs (hp (.set c) (by simp)) h1
      obtain ⟨t, e1, hr⟩ := ih (fun q hq => hp q (by simp [hq])) v
        (hR.imp_right fun ⟨a, b, c'⟩ => ⟨b c (by simp) _ _ h1 a, fun c hc => b c (by simp [hc]), c'⟩) h2
      refine ⟨w0 ++ t, by rw [e1, e0]; simp, fun i w hi hb hk hw hrest d0 e => ?_⟩
      exact hr i (w ++ w0) hi hb hk (hw.append hw0) (by rw [hrest]; simp) d0 e
    | put x sep =>
      obtain ⟨hx, h0, hsep⟩ := hp (.put x sep) (by simp)
      obtain ⟨v, ⟨n1, n2, -⟩, t0, e0, ht⟩ := write_obj hs hx h1
      obtain ⟨t, e1, hr⟩ := ih (fun q hq => hp q (by simp [hq])) v
        (hR.imp_right fun ⟨a, b, c'⟩ => ⟨⟨n1.trans a.1, n2.trans a.2⟩, fun c hc => b c (by simp [hc]), c'⟩) h2
      refine ⟨t0 ++ sep ++ t, by rw [e1, e0]; simp, fun i w hi hb hk hw hrest d0 e => ?_⟩
      obtain ⟨c, sep', rfl⟩ := List.exists_cons_of_ne_nil h0
      obtain ⟨m, y, i1, w', q1, q2, q3, q4, q5, q6, q7, q8, q9⟩ := read_obj hi hb hk hs hx ht (hsep c (by simp)) hw
        (r := sep' ++ t) (by rw [hrest]; simp) d0
      obtain ⟨ys, i', r1, r2, r3, r4⟩ := hr i1 (w' ++ c :: sep') q3 q4 q5 (q6.append (isWs_iff.mpr fun a ha => hsep a ha)) (by rw [q7]; simp) d0 e
      refine ⟨some y :: ys, i', readObjs_cons q1 q2 r1, .cons ?_ r2, r3, r4⟩
      rcases hR with hR | ⟨a, -, hR⟩
      · exact hR _ _ q8
      · exact hR _ _ (q9 a.1 a.2)

theorem inv47_start (hB : φ.B 0 < 2 ^ 31) : ({} : Sink).Inv47 φ :=
  ⟨rfl, rfl, rfl, rfl, by decide, by simpa [Sink.manip] using hB⟩

/-- **Programs that mix bare intervals, decorated intervals and decorations**, change the settings in between and write white space after each object:
if writing ends normally, a program that reads objects of the same types in the same order gets for each an object of the
kind described, no exception is thrown, no flag is raised, the stream stays good, and nothing but white space is left.  (Full statement: writing always
ends normally; false, `C47_false`.) -/
theorem C47_program_partial (hB : φ.B 0 < 2 ^ 31) {ps : List WStep} (hp : ∀ p ∈ ps, p.Good φ) {s : Sink}
    (h : Sink.run φ slack {} (ps.flatMap WStep.cmds) = .ok s) {i : IStr} (hi : i.good = true) (hb : i.base = .dec) (hk : i.skipws = true)
    (hr : i.rest = s.text) (d0 : Dec) (e : ExSt) :
    ∃ ys i', readObjs φ d0 ((textObjs ps).map TextObj.kind) i e = .ok (.ret ys, e, i') ∧ List.Forall₂ (ReadForObj φ) (textObjs ps) ys ∧ i'.good = true ∧
      ∀ c ∈ i'.rest, isSpace c = true := by
  obtain ⟨t, e1, hread⟩ := program47 hp (inv47_start hB) (R := ReadForObj φ) (.inl fun _ _ h => h) h
  obtain ⟨ys, i', r1, r2, r3, r4⟩ := hread i [] hi hb hk isWs_nil (by rw [hr, e1]) d0 e
  exact ⟨ys, i', r1, r2, r3, isWs_iff.mp r4⟩

/-- Settings that keep hexadecimal numbers without a given precision. -/
def OutCmd.KeepsHex : OutCmd → Prop
  | .numRep r => r = .hex
  | .prec n => n = 0
  | .width n => n.toNat < 2 ^ 31
  | .stringWidth n => n.toNat < 2 ^ 31
  | _ => True

theorem keepsHex {c : OutCmd} (hc : c.KeepsHex) {s s' : Sink} (h : s.exec φ slack c = .ok s') :
    (s.Hex → s'.Hex) ∧ (s.manip.width < 2 ^ 31 → s'.manip.width < 2 ^ 31) ∧ (0 ≤ toInt s.manip.strWidth → 0 ≤ toInt s'.manip.strWidth) := by
  cases c with
  | numRep r =>
    have hc : r = .hex := hc
    subst hc
    cases Std.ok.inj h
    exact ⟨fun hs => ⟨by simp [Sink.manip, Sink.set, NumRep.flag], hs.2⟩, id, id⟩
  | prec n =>
    have hc : n = 0 := hc
    subst hc
    cases Std.ok.inj h
    exact ⟨fun hs => ⟨hs.1, rfl⟩, id, id⟩
  | width n =>
    have hc : n.toNat < 2 ^ 31 := hc
    cases Std.ok.inj h
    exact ⟨id, fun _ => by simpa [Sink.manip, Sink.set] using hc, id⟩
  | stringWidth n =>
    have hc : n.toNat < 2 ^ 31 := hc
    cases Std.ok.inj h
    refine ⟨id, id, fun _ => ?_⟩
    change 0 ≤ toInt (n.toNat : ℤ)
    rw [show toInt (n.toNat : ℤ) = n.toNat from Int.bmod_eq_of_le (by omega) (by omega)]
    omega
  | putItv x =>
    obtain ⟨o, -, f2⟩ := Std.bind_ok h
    cases Std.ok.inj f2
    exact ⟨id, id, id⟩
  | putDItv x =>
    obtain ⟨o, -, f2⟩ := Std.bind_ok h
    dsimp only at f2
    split at f2
    · cases Std.ok.inj f2
      exact ⟨id, id, fun h => by
        change 0 ≤ toInt (toInt (s.iw .strWidth))
        rw [toInt_toInt]
        exact h⟩
    · cases Std.ok.inj f2; exact ⟨id, id, id⟩
  | _ => cases Std.ok.inj h; exact ⟨id, id, id⟩

theorem total47 (hq : φ.reqWidth .hex 0 0 < 2 ^ 31) {ps : List WStep} (hp : ∀ p ∈ ps, p.Good φ) (hx : ∀ c, .set c ∈ ps → c.KeepsHex) {s : Sink}
    (hs : s.Inv47 φ) (hh : s.Hex ∧ s.manip.width < 2 ^ 31 ∧ 0 ≤ toInt s.manip.strWidth) : ∃ s', s.run φ 0 (ps.flatMap WStep.cmds) = .ok s' := by
  induction ps generalizing s with
  | nil => exact ⟨s, rfl⟩
  | cons p ps ih =>
    have key : ∃ s1, s.run φ 0 p.cmds = .ok s1 ∧ s1.Inv47 φ ∧ s1.Hex ∧ s1.manip.width < 2 ^ 31 ∧ 0 ≤ toInt s1.manip.strWidth := by
      cases p with
      | set c =>
        have hc : c.Harmless φ := hp (.set c) (by simp)
        have : ∃ s1, s.exec φ 0 c = .ok s1 := by
          cases c <;> first | exact ⟨_, rfl⟩ | exact hc.elim
        obtain ⟨s1, h1⟩ := this
        refine ⟨s1, ?_, (inv47_set hs hc h1).1, (keepsHex (hx c (by simp)) h1).imp (· hh.1) (·.imp (· hh.2.1) (· hh.2.2))⟩
        change (s.exec φ 0 c >>= fun s' => s'.run φ 0 []) = _
        rw [h1]
        rfl
      | put x sep =>
        obtain ⟨hx, -, -⟩ := hp (.put x sep) (by simp)
        have : ∃ s1, s.exec φ 0 x.put = .ok s1 := by
          cases x with
          | itv x =>
            obtain ⟨o, ho⟩ := C40_hex_no_overflow (o := s.ostr) (k := s.manip) (show x.Ok φ from hx) (.inl hs.form) hh.1.1 hh.1.2 hh.2.1 hq
            change ∃ s1, (φ.writeItv 0 s.manip s.ostr x >>= fun o => Std.ok (s.after o)) = .ok s1
            rw [ho]
            exact ⟨_, rfl⟩
          | ditv x =>
            obtain ⟨o, ho⟩ := hex_total (o := s.ostr) (k := s.manip) (show x.Ok φ from hx) hs.form hh.1.1 hs.punct (hs.width.le.trans (Nat.zero_le _)) hh.2.2 hh.1.2 hh.2.1 hq
            change ∃ s1, s.putDItv φ 0 x = .ok s1
            unfold Sink.putDItv
            rw [ho]
            change ∃ s1, (if (x.isValid && !x.isNai && !x.itv.isEmpty) = true then Std.ok ((s.after o).set .strWidth (toInt (s.iw .strWidth)))
              else Std.ok (s.after o)) = .ok s1
            split
            · exact ⟨_, rfl⟩
            · exact ⟨_, rfl⟩
          | dec d => exact ⟨_, rfl⟩
        obtain ⟨s1, h1⟩ := this
        have hrun : s.run φ 0 [x.put, .putText sep] = .ok (s1.after (s1.ostr.put sep)) := by
          change (s.exec φ 0 x.put >>= fun s' => s'.run φ 0 [.putText sep]) = _
          rw [h1]
          rfl
        obtain ⟨v, ⟨n1, n2, n3⟩, -⟩ := write_obj hs hx hrun
        exact ⟨_, hrun, v, ⟨n1.trans hh.1.1, n2.trans hh.1.2⟩, by rw [n3]; exact hh.2.1,
          (keepsHex (c := x.put) (by cases x <;> trivial) h1).2.2 hh.2.2⟩
    obtain ⟨s1, h1, h2, h3⟩ := key
    obtain ⟨s', h'⟩ := ih (fun q hq => hp q (by simp [hq])) (fun c hc => hx c (by simp [hc])) h2 h3
    refine ⟨s', ?_⟩
    rw [List.flatMap_cons, run_append, h1]
    exact h'

/-- **With hexadecimal numbers** chosen at the start and kept, such a program always ends normally, and the objects read are equal
to those written. -/
theorem C47_program_exact (hB : φ.B 0 < 2 ^ 31) (hq : φ.reqWidth .hex 0 0 < 2 ^ 31) {ps : List WStep} (hp : ∀ p ∈ ps, p.Good φ)
    (hx : ∀ c, .set c ∈ ps → c.KeepsHex) :
    ∃ s, Sink.run φ 0 {} (.numRep .hex :: ps.flatMap WStep.cmds) = .ok s ∧
      ∀ i : IStr, i.good = true → i.base = .dec → i.skipws = true → i.rest = s.text → ∀ (d0 : Dec) (e : ExSt),
        ∃ ys i', readObjs φ d0 ((textObjs ps).map TextObj.kind) i e = .ok (.ret ys, e, i') ∧ List.Forall₂ (ReadSameObj φ) (textObjs ps) ys ∧
          i'.good = true ∧ ∀ c ∈ i'.rest, isSpace c = true := by
  have h0 : (({} : Sink).set .numRep 3).Inv47 φ := (inv47_set (slack := 0) (inv47_start hB) (c := .numRep .hex) trivial rfl).1
  have hh : (({} : Sink).set .numRep 3).Hex ∧ (({} : Sink).set .numRep 3).manip.width < 2 ^ 31 ∧ 0 ≤ toInt (({} : Sink).set .numRep 3).manip.strWidth :=
    ⟨⟨rfl, rfl⟩, by decide, by decide⟩
  obtain ⟨s, hs⟩ := total47 hq hp hx h0 hh
  refine ⟨s, hs, fun i hi hb hk hr d0 e => ?_⟩
  obtain ⟨t, e1, hread⟩ := program47 (slack := 0) hp h0 (R := ReadSameObj φ)
    (.inr ⟨hh.1, fun c hc s s' h => (keepsHex (hx c hc) h).1, fun _ _ h => h⟩) hs
  obtain ⟨ys, i', r1, r2, r3, r4⟩ := hread i [] hi hb hk isWs_nil (by rw [hr, e1]; rfl) d0 e
  exact ⟨ys, i', r1, r2, r3, isWs_iff.mp r4⟩

/-- Non-vacuity: `os << [-1, 1/8] << ' ' << upper_case << NaI << "\n" << com << ' ' << precision(0) << empty << '\n'`. -/
example : (∀ p ∈ [WStep.put (.itv ⟨.fin (-1), .fin (1 / 8)⟩) [' '], .set (.case true), .put (.ditv DItv.nai) ['\n'], .put (.dec .com) [' '],
      .set (.prec 0), .put (.itv Itv.empty) ['\n']], p.Good binary64) ∧
    binary64.B 0 < 2 ^ 31 ∧ binary64.reqWidth .hex 0 0 < 2 ^ 31 := by
  have hB : binary64.B 0 < 2 ^ 31 := by decide +kernel
  refine ⟨?_, hB, by decide +kernel⟩
  intro p hp
  simp only [List.mem_cons, List.not_mem_nil, or_false] at hp
  rcases hp with rfl | rfl | rfl | rfl | rfl | rfl
  · exact ⟨Itv.ok_of_okb (by decide +kernel), by simp, by simp; decide⟩
  · trivial
  · exact ⟨DItv.ok_nai, by simp, by simp; decide⟩
  · exact ⟨trivial, by simp, by simp; decide⟩
  · exact hB
  · exact ⟨Itv.ok_empty _, by simp, by simp; decide⟩

end P1788
