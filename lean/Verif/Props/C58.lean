import Verif.Props.C28
import Verif.Props.C31
import Verif.Model.Schema

/-!
# C58: validated parameter sets

`RationalParams(**get_params(...)).model_dump()` can be used in place of the set, and gives the same
energies, if the set has no `s9` and `alp`. The classes have no fields for these, so that validation
silently discards them: the three-body energies of r2SCAN-3c are halved.
-/

set_option linter.unusedSimpArgs false

open scoped Classical

namespace TadDftd4

open Tensor

/-- A key is absent or has a string as value. -/
def Block.strOrAbsent (b : Block) (k : String) : Bool :=
  match b.lookup k with
  | some (.num _) => false
  | _ => true

/-- What the class for rational damping accepts. -/
def Block.rationalOk (b : Block) : Bool :=
  b.numOrAbsent "s6" && b.numOrAbsent "s8" && b.numOrAbsent "s10" && b.strOrAbsent "doi" &&
    b.hasNum "a1" && b.hasNum "a2"

/-- What the class for zero damping accepts. -/
def Block.zeroOk (b : Block) : Bool :=
  b.numOrAbsent "s6" && b.numOrAbsent "s8" && b.numOrAbsent "s10" && b.strOrAbsent "doi" &&
    b.hasNum "alp" && b.hasNum "rs6" && b.hasNum "rs8" && b.numOrAbsent "rs9" && b.numOrAbsent "bet"

/-! ## Fields -/

section
variable {b : Block} {k : String} {dflt : Dec} {x : String × Option PV}

theorem Field.read_required :
    (∃ x, Field.read { name := k } b = .ok x) ↔ b.hasNum k = true := by
  unfold Field.read Block.hasNum
  cases h : b.lookup k with
  | none => simp
  | some v => cases v <;> simp [FieldTy.check, Except.map]

theorem Field.read_optional :
    (∃ x, Field.read ⟨k, .float, some (some (.num dflt))⟩ b = .ok x) ↔ b.numOrAbsent k = true := by
  unfold Field.read Block.numOrAbsent
  cases h : b.lookup k with
  | none => simp
  | some v => cases v <;> simp [FieldTy.check, Except.map]

theorem Field.read_str :
    (∃ x, Field.read ⟨k, .optStr, some none⟩ b = .ok x) ↔ b.strOrAbsent k = true := by
  unfold Field.read Block.strOrAbsent
  cases h : b.lookup k with
  | none => simp
  | some v => cases v <;> simp [FieldTy.check, Except.map]

theorem Field.read_required_val (d : ℝ) (h : Field.read { name := k } b = .ok x) :
    ∃ y : Dec, x = (k, some (.num y)) ∧ y.toReal = Spec.number b k d := by
  unfold Field.read at h
  unfold Spec.number
  cases hl : b.lookup k with
  | none => simp [hl] at h
  | some v =>
    cases v with
    | num y =>
      simp [hl, FieldTy.check, Except.map] at h
      exact ⟨y, h.symm, rfl⟩
    | str y => simp [hl, FieldTy.check, Except.map] at h

theorem Field.read_optional_val (h : Field.read ⟨k, .float, some (some (.num dflt))⟩ b = .ok x) :
    ∃ y : Dec, x = (k, some (.num y)) ∧ y.toReal = Spec.number b k dflt.toReal := by
  unfold Field.read at h
  unfold Spec.number
  cases hl : b.lookup k with
  | none =>
    simp [hl] at h
    exact ⟨dflt, h.symm, rfl⟩
  | some v =>
    cases v with
    | num y =>
      simp [hl, FieldTy.check, Except.map] at h
      exact ⟨y, h.symm, rfl⟩
    | str y => simp [hl, FieldTy.check, Except.map] at h

theorem Field.read_str_val (h : Field.read ⟨k, .optStr, some none⟩ b = .ok x) :
    x.1 = k ∧ ∀ y, x.2 ≠ some (.num y) := by
  unfold Field.read at h
  cases hl : b.lookup k with
  | none =>
    simp [hl] at h
    subst h; simp
  | some v =>
    cases v with
    | num y => simp [hl, FieldTy.check, Except.map] at h
    | str y =>
      simp [hl, FieldTy.check, Except.map] at h
      subst h; simp

end

theorem validate_cons {f : Field} {fs : List Field} {b : Block} {d : Dict (Option PV)} :
    validate (f :: fs) b = .ok d ↔
      ∃ x l, f.read b = .ok x ∧ validate fs b = .ok l ∧ d = x :: l := by
  simp only [validate, bind_eq_ok]
  constructor
  · rintro ⟨x, hx, l, hl, h⟩
    cases h
    exact ⟨x, l, hx, hl, rfl⟩
  · rintro ⟨x, l, hx, hl, rfl⟩
    exact ⟨x, hx, l, hl, rfl⟩

theorem validate_ok_iff {fs : List Field} {b : Block} :
    (∃ d, validate fs b = .ok d) ↔ ∀ f ∈ fs, ∃ x, f.read b = .ok x := by
  induction fs with
  | nil => simp [validate]
  | cons f fs ih =>
    rw [List.forall_mem_cons, ← ih]
    simp only [validate_cons]
    constructor
    · rintro ⟨d, x, l, hx, hl, -⟩
      exact ⟨⟨x, hx⟩, l, hl⟩
    · rintro ⟨⟨x, hx⟩, l, hl⟩
      exact ⟨_, x, l, hx, hl, rfl⟩

theorem paramModel_rational {v : String} (hv : v = "bj" ∨ v = "bj-eeq-atm") :
    paramModel v = .ok rationalParams := by
  rcases hv with rfl | rfl <;> rfl

/-- Which dictionaries are accepted for rational damping. -/
theorem C58_accepted {v : String} (hv : v = "bj" ∨ v = "bj-eeq-atm") (b : Block) :
    (∃ d, validated v b = .ok d) ↔ b.rationalOk = true := by
  unfold validated
  rw [paramModel_rational hv]
  show (∃ d, validate rationalParams b = .ok d) ↔ _
  rw [validate_ok_iff]
  simp only [rationalParams, baseParams, List.cons_append, List.nil_append, List.forall_mem_cons,
    Field.read_required, Field.read_optional, Field.read_str, Block.rationalOk, Bool.and_eq_true,
    List.not_mem_nil, IsEmpty.forall_iff, implies_true, and_true, and_assoc]

/-- Which dictionaries are accepted for zero damping. -/
theorem C58_accepted_zero (b : Block) :
    (∃ d, validated "zero" b = .ok d) ↔ b.zeroOk = true := by
  show (∃ d, validate zeroParams b = .ok d) ↔ _
  rw [validate_ok_iff]
  simp only [zeroParams, baseParams, List.cons_append, List.nil_append, List.forall_mem_cons,
    Field.read_required, Field.read_optional, Field.read_str, Block.zeroOk, Bool.and_eq_true,
    List.not_mem_nil, IsEmpty.forall_iff, implies_true, and_true, and_assoc]

/-- A validated set for rational damping has the listed numbers, the default values of missing ones,
and never `s9` or `alp`. -/
theorem validated_reads {v : String} (hv : v = "bj" ∨ v = "bj-eeq-atm") {b : Block}
    {d : Dict (Option PV)} (hd : validated v b = .ok d) :
    (dumpParam d).Reads { Spec.blockPar b with s9 := 1, alp := 16 } := by
  unfold validated at hd
  rw [paramModel_rational hv] at hd
  have hd : validate rationalParams b = .ok d := hd
  simp only [rationalParams, baseParams, List.cons_append, List.nil_append, validate_cons] at hd
  obtain ⟨x1, _, h1, ⟨x2, _, h2, ⟨x3, _, h3, ⟨x4, _, h4, ⟨x5, _, h5, ⟨x6, _, h6, h7, rfl⟩, rfl⟩, rfl⟩,
    rfl⟩, rfl⟩, rfl⟩ := hd
  cases h7
  obtain ⟨y1, rfl, e1⟩ := Field.read_optional_val h1
  obtain ⟨y2, rfl, e2⟩ := Field.read_optional_val h2
  obtain ⟨y3, rfl, e3⟩ := Field.read_optional_val h3
  obtain ⟨k4, -⟩ := Field.read_str_val h4
  obtain ⟨y5, rfl, e5⟩ := Field.read_required_val 0 h5
  obtain ⟨y6, rfl, e6⟩ := Field.read_required_val 0 h6
  obtain ⟨k, v4⟩ := x4
  dsimp only at k4
  subst k4
  have t1 : (⟨10, 1⟩ : Dec).toReal = 1 := by norm_num [Dec.toReal]
  have t0 : (⟨0, 1⟩ : Dec).toReal = 0 := by norm_num [Dec.toReal]
  rw [t1] at e1 e2
  rw [t0] at e3
  exact {
    extra := by simp [dumpParam, paramKeys]
    a1 := by simp [dumpParam, dumpVal, List.lookup, Spec.blockPar, e5]
    a2 := by simp [dumpParam, dumpVal, List.lookup, Spec.blockPar, e6]
    s8 := by simp [dumpParam, dumpVal, List.lookup, Spec.blockPar, e2]
    s6 := Or.inl (by simp [dumpParam, dumpVal, List.lookup, Spec.blockPar, e1])
    s10 := Or.inl (by simp [dumpParam, dumpVal, List.lookup, Spec.blockPar, e3])
    s9 := Or.inr ⟨by simp [dumpParam, dumpVal, List.lookup], rfl⟩
    alp := Or.inr ⟨by simp [dumpParam, dumpVal, List.lookup], rfl⟩ }

/-! ## Energies -/

section
variable {env : Env} {T : Tables} {ext : Ext} {numbers : Tensor ℕ} {positions charge : Tensor ℝ}
  {p : Param} {o : DftOpts} {n : ℕ} {B : Shape} {R : RefCfg} {cn : Spec.CN} {eeq : Spec.EEQ}
  {P : Spec.D4Par} {v : String} {b : Block} {d : Dict (Option PV)}

/-- A validated set works in every call that works with any parameters, and gives the D4 energy with
the listed numbers, but always `s9 = 1` and `alp = 16`. -/
theorem C58_energy (hc : Call env T ext numbers positions charge p o n B R cn eeq P)
    (hv : v = "bj" ∨ v = "bj-eeq-atm") (hd : validated v b = .ok d) :
    ∃ e, dftd4 env T ext numbers positions charge (dumpParam d) o = .ok e ∧ e.Ok (n :: B) ∧
      ∀ x, InB B x → ∀ i : Fin n, e.get (i.1 :: x) =
        Spec.energy (d4Computed env T R { Spec.blockPar b with s9 := 1, alp := 16 }
          (o.opts.cutoff.getD {})) (system T cn eeq numbers positions charge o.opts n x) i :=
  Call.eval { hc with par := validated_reads hv hd }

/-- Numbers that are read from a dictionary are the listed ones. -/
theorem Block.reads_unique (h : b.param.Reads P) : P = Spec.blockPar b := by
  have num : ∀ (k : String) (y d : ℝ), b.pval k = .val y → y = Spec.number b k d := by
    intro k y d hk
    unfold Block.pval at hk
    unfold Spec.number
    cases hl : b.lookup k with
    | none => simp [hl] at hk
    | some v =>
      cases v with
      | num z => simp [hl] at hk; exact hk.symm
      | str z => simp [hl] at hk
  have opt : ∀ (k : String) (y d : ℝ), (b.pval k = .val y ∨ b.pval k = .absent ∧ y = d) →
      y = Spec.number b k d := by
    rintro k y d (hk | ⟨hk, rfl⟩)
    · exact num k y d hk
    · unfold Block.pval at hk
      unfold Spec.number
      cases hl : b.lookup k with
      | none => rfl
      | some v => cases v <;> simp [hl] at hk
  obtain ⟨-, h1, h2, h3, h4, h5, h6, h7⟩ := h
  cases P
  simp only [Spec.blockPar, Spec.D4Par.mk.injEq]
  exact ⟨opt _ _ _ h4, num _ _ _ h3, opt _ _ _ h5, opt _ _ _ h6, num _ _ _ h1, num _ _ _ h2,
    opt _ _ _ h7⟩

/-- The energies with the validated set are the ones with the set itself, unless it has an `s9` other
than 1 or an `alp` other than 16. -/
theorem C58_same_partial (hc : Call env T ext numbers positions charge b.param o n B R cn eeq P)
    (hv : v = "bj" ∨ v = "bj-eeq-atm") (hd : validated v b = .ok d) (h9 : P.s9 = 1) (ha : P.alp = 16) :
    ∃ e e', dftd4 env T ext numbers positions charge b.param o = .ok e ∧
      dftd4 env T ext numbers positions charge (dumpParam d) o = .ok e' ∧ e.Ok (n :: B) ∧
      e'.Ok (n :: B) ∧ ∀ x, InB B x → ∀ i : Fin n, e'.get (i.1 :: x) = e.get (i.1 :: x) := by
  obtain ⟨e, h1, h2, h3⟩ := hc.eval
  obtain ⟨e', h1', h2', h3'⟩ := C58_energy hc hv hd
  refine ⟨e, e', h1, h1', h2, h2', fun x hx i => ?_⟩
  have hP : { Spec.blockPar b with s9 := 1, alp := 16 } = P := by
    rw [← Block.reads_unique hc.par]
    cases P
    dsimp only at h9 ha
    subst h9 ha
    rfl
  rw [h3 x hx, h3' x hx, hP]

/-- In general validation replaces the factor `s9` of the three-body energy by 1. -/
theorem C58_threebody (hc : Call env T ext numbers positions charge b.param o n B R cn eeq P)
    (hv : v = "bj" ∨ v = "bj-eeq-atm") (hd : validated v b = .ok d) (ha : P.alp = 16) :
    ∃ e e', dftd4 env T ext numbers positions charge b.param o = .ok e ∧
      dftd4 env T ext numbers positions charge (dumpParam d) o = .ok e' ∧ e.Ok (n :: B) ∧
      e'.Ok (n :: B) ∧ ∀ x, InB B x → ∀ i : Fin n,
        let S := d4Computed env T R { P with s9 := 1 } (o.opts.cutoff.getD {})
        let M := system T cn eeq numbers positions charge o.opts n x
        let two := Spec.e2 S M M.atom i
        let three := Spec.e3 S M (Spec.c9 S M.neutral) (Spec.R0 S M) i
        e.get (i.1 :: x) = two + P.s9 * three ∧ e'.get (i.1 :: x) = two + three := by
  obtain ⟨e, h1, h2, h3⟩ := hc.eval
  obtain ⟨e', h1', h2', h3'⟩ := C58_energy hc hv hd
  refine ⟨e, e', h1, h1', h2, h2', ?_⟩
  intro x hx i S M two three
  have hP : { Spec.blockPar b with s9 := 1, alp := 16 } = { P with s9 := 1 } := by
    rw [← Block.reads_unique hc.par]
    cases P
    dsimp only at ha
    subst ha
    rfl
  constructor
  · rw [h3 x hx]
    have e3 := fun t => Spec.e3_linear S M P.s6 P.s8 P.s10 t (Spec.c9 S M.neutral) (Spec.R0 S M) i
    have h9 : Spec.e3 (d4Computed env T R P (o.opts.cutoff.getD {})) M (Spec.c9 S M.neutral)
        (Spec.R0 S M) i = P.s9 * three := by
      rw [show three = _ from e3 1, one_mul]
      exact e3 P.s9
    show Spec.e2 S M M.atom i + Spec.e3 _ M (Spec.c9 S M.neutral) (Spec.R0 S M) i = _
    rw [h9]
  · rw [h3' x hx, hP]
    rfl

end

/-! ## Shipped parameter sets -/

/-- Only sets of the default variant pass their class; there are no classes for the others. -/
theorem Data.d4_rationalOk : Data.d4File.allBlocks (fun _ m w b => m != "d4" ||
    (if w = "bj-eeq-atm" then b.rationalOk else (paramModels.lookup w).isNone)) = true := by
  decide +kernel

theorem Data.d3_rationalOk : Data.d3File.allBlocks (fun _ m w b => m != "d3" ||
    (if w = "bj" then b.rationalOk else (paramModels.lookup w).isNone ||
      (w == "zero" && !b.hasNum "alp"))) = true := by
  decide +kernel

theorem Data.defaults_notOk : (∀ f ∈ [Data.d3File, Data.d4File], (f.defaults.all fun x => x.2.all fun y =>
    !y.2.hasNum "a1" && !y.2.hasNum "rs6") = true) := by
  decide +kernel

section
variable {b : Block} {keep : Bool}

theorem dropDoi_lookup {k : String} (hk : k ≠ "doi") : (dropDoi keep b).lookup k = b.lookup k := by
  rw [dropDoi_same keep b k, if_neg (fun h => hk h.1)]

theorem Block.hasNum_dropDoi {k : String} (hk : k ≠ "doi") : (dropDoi keep b).hasNum k = b.hasNum k := by
  unfold Block.hasNum
  rw [dropDoi_lookup hk]

theorem Block.rationalOk_dropDoi (h : b.rationalOk = true) : (dropDoi keep b).rationalOk = true := by
  have hdoi : b.strOrAbsent "doi" = true → (dropDoi keep b).strOrAbsent "doi" = true := by
    intro h
    unfold Block.strOrAbsent at h ⊢
    rw [dropDoi_same keep b "doi"]
    split_ifs
    · rfl
    · exact h
  simp only [Block.rationalOk, Bool.and_eq_true, Block.numOrAbsent, Block.hasNum,
    dropDoi_lookup (b := b) (keep := keep) (show "s6" ≠ "doi" by decide),
    dropDoi_lookup (b := b) (keep := keep) (show "s8" ≠ "doi" by decide),
    dropDoi_lookup (b := b) (keep := keep) (show "s10" ≠ "doi" by decide),
    dropDoi_lookup (b := b) (keep := keep) (show "a1" ≠ "doi" by decide),
    dropDoi_lookup (b := b) (keep := keep) (show "a2" ≠ "doi" by decide)] at h ⊢
  obtain ⟨⟨⟨⟨⟨h1, h2⟩, h3⟩, h4⟩, h5⟩, h6⟩ := h
  exact ⟨⟨⟨⟨⟨h1, h2⟩, h3⟩, hdoi h4⟩, h5⟩, h6⟩

theorem validated_unknown {w : String} (h : (paramModels.lookup w).isNone = true) (b : Block) :
    validated w b = .error .value := by
  unfold validated paramModel
  rw [Option.isNone_iff_eq_none.1 h]
  rfl

/-- Every class requires `a1` or `rs6`. -/
theorem validated_needs {w : String} {d : Dict (Option PV)} (h : validated w b = .ok d) :
    b.hasNum "a1" = true ∨ b.hasNum "rs6" = true := by
  unfold validated paramModel at h
  cases hl : paramModels.lookup w with
  | none => rw [hl] at h; cases h
  | some fs =>
    rw [hl] at h
    have h : validate fs b = .ok d := h
    have hall := validate_ok_iff.1 ⟨d, h⟩
    have hm := mem_of_lookup hl
    have hf : ({ name := "a1" } : Field) ∈ fs ∨ ({ name := "rs6" } : Field) ∈ fs := by
      simp only [paramModels, List.mem_cons, Prod.mk.injEq, List.not_mem_nil, or_false] at hm
      rcases hm with ⟨-, rfl⟩ | ⟨-, rfl⟩ | ⟨-, rfl⟩ | ⟨-, rfl⟩ | ⟨-, rfl⟩ <;>
        simp [rationalParams, zeroParams, mzeroParams, opParams]
    exact hf.imp (fun h => Field.read_required.1 (hall _ h)) (fun h => Field.read_required.1 (hall _ h))

end

section
variable {cf : String → String} {s : PState} {r : Req} {a : Addr}

theorem getD_variant {f : ParamFile Block} {m v0 w : String} {vs : List String} {v : Option String}
    (hf : f.variants.lookup m = some (v0 :: vs)) (h : chooseVariant f m v = .ok w) : w = v.getD v0 := by
  cases v with
  | some v => cases h; rfl
  | none =>
    unfold chooseVariant getItem at h
    rw [hf] at h
    cases h; rfl

/-- D4 sets of functionals pass the class registered for their variant exactly if it is the default
variant. -/
theorem C58_d4 (h : s.Reachable cf Data.paramFiles) (hm : r.method = "d4") {g : String}
    (hr : r.functional = some g) (hg : g ≠ "default")
    (ha : (s.getParams cf Data.paramFiles r).2 = .ok a) :
    (∃ d, validated (r.variant.getD "bj-eeq-atm") ((s.getParams cf Data.paramFiles r).1.heap a) = .ok d) ↔
      r.variant.getD "bj-eeq-atm" = "bj-eeq-atm" := by
  obtain ⟨b', hb', hb⟩ := getParams_block (f := Data.d4File) h (by rw [hm]; rfl) ha
  rw [hr, hm] at hb'
  obtain ⟨w, hw, hcomp⟩ := locate_all Data.d4_rationalOk hg hb'
  rw [hb, ← getD_variant (f := Data.d4File) (m := "d4") rfl hw]
  simp only [bne_self_eq_false, Bool.false_or] at hcomp
  split_ifs at hcomp with h1
  · rw [C58_accepted (Or.inr h1)]
    exact iff_of_true (Block.rationalOk_dropDoi hcomp) h1
  · rw [validated_unknown hcomp]
    exact iff_of_false (by simp) h1

/-- D3 sets of functionals pass the class registered for their variant exactly if it is `bj`. -/
theorem C58_d3 (h : s.Reachable cf Data.paramFiles) (hm : r.method = "d3") {g : String}
    (hr : r.functional = some g) (hg : g ≠ "default")
    (ha : (s.getParams cf Data.paramFiles r).2 = .ok a) :
    (∃ d, validated (r.variant.getD "bj") ((s.getParams cf Data.paramFiles r).1.heap a) = .ok d) ↔
      r.variant.getD "bj" = "bj" := by
  obtain ⟨b', hb', hb⟩ := getParams_block (f := Data.d3File) h (by rw [hm]; rfl) ha
  rw [hr, hm] at hb'
  obtain ⟨w, hw, hcomp⟩ := locate_all Data.d3_rationalOk hg hb'
  rw [hb, ← getD_variant (f := Data.d3File) (m := "d3") rfl hw]
  simp only [bne_self_eq_false, Bool.false_or] at hcomp
  split_ifs at hcomp with h1
  · rw [C58_accepted (Or.inl h1)]
    exact iff_of_true (Block.rationalOk_dropDoi hcomp) h1
  · refine iff_of_false ?_ h1
    rcases Bool.or_eq_true_iff.1 hcomp with h2 | h2
    · rw [validated_unknown h2]; simp
    · obtain ⟨h2, h3⟩ := Bool.and_eq_true_iff.1 h2
      rw [eq_of_beq h2, C58_accepted_zero]
      unfold Block.zeroOk
      rw [Block.hasNum_dropDoi (k := "alp") (by decide)]
      simp only [Bool.not_eq_true'] at h3
      simp [h3]

/-- The default parameters pass no class. -/
theorem C58_default (h : s.Reachable cf Data.paramFiles)
    (hr : r.functional = none ∨ r.functional = some "default")
    (ha : (s.getParams cf Data.paramFiles r).2 = .ok a) (v : String) (d : Dict (Option PV)) :
    validated v ((s.getParams cf Data.paramFiles r).1.heap a) ≠ .ok d := by
  intro hv
  have hf : ∃ f ∈ [Data.d3File, Data.d4File], Data.paramFiles r.method = some f := by
    cases hp : Data.paramFiles r.method with
    | some f =>
      refine ⟨f, ?_, rfl⟩
      unfold Data.paramFiles at hp
      split_ifs at hp
      · cases hp; simp
      · cases hp; simp
    | none =>
      have h1 := C30_independent h r
      unfold Spec.params at h1
      by_cases hm : r.method ∈ dispersionMethods
      · rw [if_neg (not_not.2 hm)] at h1
        simp only [hp] at h1
        rw [h1] at ha; cases ha
      · rw [if_pos hm] at h1
        rw [h1] at ha; cases ha
  obtain ⟨f, hmem, hf⟩ := hf
  obtain ⟨b', hb', hb⟩ := getParams_block h hf ha
  have hsec : dispSection cf f r.method r.functional r.variant =
      defaultSection f r.method r.variant := by
    rcases hr with hr | hr <;> simp [dispSection, hr]
  have hno : (!b'.hasNum "a1" && !b'.hasNum "rs6") = true := by
    unfold locate at hb'
    simp only [hsec, bind_eq_ok, getItem_eq_ok] at hb'
    obtain ⟨d, hd, w, hw, v, hv, hb'⟩ := hb'
    have : d = f.defaults := by
      unfold defaultSection at hd
      simp only [bind_eq_ok] at hd
      obtain ⟨vs, -, hd⟩ := hd
      split at hd
      · cases hd
      · split at hd
        · cases hd; rfl
        · cases hd
    subst this
    exact List.all_eq_true.1 (List.all_eq_true.1 (Data.defaults_notOk f hmem) _ (mem_of_lookup hv)) _
      (mem_of_lookup hb')
  rw [hb] at hv
  have := validated_needs hv
  rw [Block.hasNum_dropDoi (by decide), Block.hasNum_dropDoi (by decide)] at this
  simp only [Bool.and_eq_true, Bool.not_eq_true'] at hno
  rw [hno.1, hno.2] at this
  simp at this

end

/-! ## r2SCAN-3c -/

/-- Full statement: validation of a returned set that passes does not change energies. -/
def ValidationHarmless (cf : String → String) : Prop :=
  ∀ (s : PState) (r : Req) (a : Addr), s.Reachable cf Data.paramFiles → r.method = "d4" →
    (s.getParams cf Data.paramFiles r).2 = .ok a →
    ∀ d, validated (r.variant.getD "bj-eeq-atm") ((s.getParams cf Data.paramFiles r).1.heap a) = .ok d →
    ∀ env T ext numbers positions charge p o n B R cn eeq P,
      Call env T ext numbers positions charge p o n B R cn eeq P →
    ∀ e e', dftd4 env T ext numbers positions charge
        (Block.param ((s.getParams cf Data.paramFiles r).1.heap a)) o = .ok e →
      dftd4 env T ext numbers positions charge (dumpParam d) o = .ok e' →
      ∀ x, InB B x → ∀ i < n, e'.get (i :: x) = e.get (i :: x)

/-- The set of r2SCAN-3c as returned by default. -/
def r2scan3c : Block := [("s8", .num ⟨0, 2⟩), ("a1", .num ⟨42, 2⟩), ("a2", .num ⟨565, 2⟩), ("s9", .num ⟨20, 1⟩)]

theorem Spec.number_some {b : Block} {k : String} {x : Dec} {d : ℝ} (h : b.lookup k = some (.num x)) :
    Spec.number b k d = x.m / 10 ^ x.e := by
  unfold Spec.number
  rw [h]

theorem Spec.number_none {b : Block} {k : String} {d : ℝ} (h : b.lookup k = none) :
    Spec.number b k d = d := by
  unfold Spec.number
  rw [h]

theorem r2scan3c_returned : ∃ a,
    (PState.init.getParams id Data.paramFiles ⟨"d4", some "r2scan-3c", none, false⟩).2 = .ok a ∧
    (PState.init.getParams id Data.paramFiles ⟨"d4", some "r2scan-3c", none, false⟩).1.heap a =
      r2scan3c := by
  have h := C29_functional_partial (cf := id) (files := Data.paramFiles) (f := Data.d4File) .init
    (r := ⟨"d4", some "r2scan-3c", none, false⟩) (by decide) rfl (by decide +kernel) rfl (by decide) rfl
  unfold Spec.Finds at h
  have hfind : (Spec.find id Data.d4File "d4" (some "r2scan-3c") none).isSome = true := by
    decide +kernel
  obtain ⟨b, hb⟩ := Option.isSome_iff_exists.1 hfind
  simp only [hb] at h
  obtain ⟨a, ha, -⟩ := h
  refine ⟨a, ha, ?_⟩
  obtain ⟨b', hb', h'⟩ := getParams_block (f := Data.d4File) .init rfl ha
  have hl : locate id Data.d4File "d4" (some "r2scan-3c") none =
      .ok (r2scan3c ++ [("doi", .str "10.1063/5.0040021")]) := by
    decide +kernel
  rw [hl] at hb'
  cases hb'
  rw [h']
  decide +kernel

theorem r2scan3c_reads : r2scan3c.param.Reads (Spec.blockPar r2scan3c) :=
  Block.complete_reads (by decide +kernel)

theorem r2scan3c_par : Spec.blockPar r2scan3c = ⟨1, 0, 0, 2, 0.42, 5.65, 16⟩ := by
  simp only [Spec.blockPar, Spec.D4Par.mk.injEq]
  refine ⟨Spec.number_none rfl, (Spec.number_some rfl).trans ?_, Spec.number_none rfl,
    (Spec.number_some rfl).trans ?_, (Spec.number_some rfl).trans ?_, (Spec.number_some rfl).trans ?_,
    Spec.number_none rfl⟩ <;> norm_num

namespace Demo

theorem water_right (j k : Fin 3) (h0 : j ≠ 0) (h1 : k ≠ 0) (h : j ≠ k) :
    (system T cn eeq numbers positions charge {} 3 [0]).r env.eps 0 j ^ 2 = 3.24 ∧
    (system T cn eeq numbers positions charge {} 3 [0]).r env.eps j k ^ 2 = 6.48 := by
  have e : ∀ j k, (system T cn eeq numbers positions charge {} 3 [0]).r env.eps j k =
      √(max (dist (coords positions 3 [0] j) (coords positions 3 [0] k) ^ 2) (1 / 2 ^ 52)) := fun _ _ => rfl
  have hs : ∀ x : ℝ, 1 ≤ x → √(max x (1 / 2 ^ 52)) ^ 2 = x := by
    intro x hx
    rw [max_eq_left ((by norm_num : (1 : ℝ) / 2 ^ 52 ≤ 1).trans hx), Real.sq_sqrt (by linarith)]
  have hd : dist (coords positions 3 [0] 0) (coords positions 3 [0] j) ^ 2 = 3.24 ∧
      dist (coords positions 3 [0] j) (coords positions 3 [0] k) ^ 2 = 6.48 := by
    rw [EuclideanSpace.dist_eq, EuclideanSpace.dist_eq,
      Real.sq_sqrt (Finset.sum_nonneg fun _ _ => sq_nonneg _),
      Real.sq_sqrt (Finset.sum_nonneg fun _ _ => sq_nonneg _)]
    fin_cases j <;> fin_cases k <;>
      first
      | exact absurd rfl h
      | exact absurd rfl h0
      | exact absurd rfl h1
      | norm_num [Fin.sum_univ_three, coords, positions, Real.dist_eq]
  rw [e, e, hd.1, hd.2, hs _ (by norm_num), hs _ (by norm_num)]
  exact ⟨rfl, rfl⟩

/-- The three-body energy of oxygen in water with the set of r2SCAN-3c (`s9 = 1`) is positive. -/
theorem water_e3 :
    let S := d4Computed env T .d4 { Spec.blockPar r2scan3c with s9 := 1 } {}
    let M := system T cn eeq numbers positions charge {} 3 [0]
    0 < Spec.e3 S M (Spec.c9 S M.neutral) (Spec.R0 S M) 0 := by
  intro S M
  have hterm : ∀ j k : Fin 3, j ≠ 0 → k ≠ 0 → j ≠ k →
      0 < Spec.tripleTerm S M (Spec.c9 S M.neutral) (Spec.R0 S M) 0 j k := by
    intro j k hj hk hjk
    obtain ⟨h1, h3⟩ := water_right j k hj hk hjk
    obtain ⟨h2, -⟩ := water_right k j hk hj hjk.symm
    have hpos : ∀ i j, 0 < M.r env.eps i j := fun i j => Spec.Mol.r_pos env.eps_pos M i j
    have hR : ∀ i j, 0 < Spec.R0 S M i j := by
      intro i j
      have e : Spec.R0 S M i j = (Spec.blockPar r2scan3c).a1 * Spec.rsqrt env.eps (3 * M.Q i * M.Q j) +
        (Spec.blockPar r2scan3c).a2 := rfl
      rw [e, r2scan3c_par]
      have : 0 ≤ Spec.rsqrt env.eps (3 * M.Q i * M.Q j) := Real.sqrt_nonneg _
      show 0 < 0.42 * _ + 5.65
      positivity
    have hC : 0 < Spec.c9 S M.neutral 0 j k :=
      Real.sqrt_pos.2 (lt_max_of_lt_right env.eps_pos)
    have hcos : Spec.cosSides (M.r env.eps 0 j) (M.r env.eps 0 k) (M.r env.eps j k) = 0 := by
      have : M.r env.eps 0 j ^ 2 + M.r env.eps 0 k ^ 2 - M.r env.eps j k ^ 2 = 0 := by
        show (system T cn eeq numbers positions charge {} 3 [0]).r env.eps 0 j ^ 2 +
          (system T cn eeq numbers positions charge {} 3 [0]).r env.eps 0 k ^ 2 -
          (system T cn eeq numbers positions charge {} 3 [0]).r env.eps j k ^ 2 = 0
        rw [h1, h2, h3]; norm_num
      unfold Spec.cosSides
      rw [this, zero_div]
    have e : Spec.tripleTerm S M (Spec.c9 S M.neutral) (Spec.R0 S M) 0 j k =
        1 * Spec.c9 S M.neutral 0 j k * (1 / (1 + 6 * (Spec.R0 S M 0 j * Spec.R0 S M 0 k *
          Spec.R0 S M j k / (M.r env.eps 0 j * M.r env.eps 0 k * M.r env.eps j k)) ^
            ((Spec.blockPar r2scan3c).alp / 3))) *
        ((3 * Spec.cosSides (M.r env.eps 0 j) (M.r env.eps 0 k) (M.r env.eps j k) *
          Spec.cosSides (M.r env.eps 0 j) (M.r env.eps j k) (M.r env.eps 0 k) *
          Spec.cosSides (M.r env.eps 0 k) (M.r env.eps j k) (M.r env.eps 0 j) + 1) /
          (M.r env.eps 0 j * M.r env.eps 0 k * M.r env.eps j k) ^ 3) := rfl
    rw [e, hcos]
    have := hpos 0 j
    have := hpos 0 k
    have := hpos j k
    have := hR 0 j
    have := hR 0 k
    have := hR j k
    have hb : (0 : ℝ) < 3 * 0 * Spec.cosSides (M.r env.eps 0 j) (M.r env.eps j k) (M.r env.eps 0 k) *
        Spec.cosSides (M.r env.eps 0 k) (M.r env.eps j k) (M.r env.eps 0 j) + 1 := by norm_num
    positivity
  have hcut : ∀ j k : Fin 3, j ≠ 0 → k ≠ 0 → j ≠ k → Spec.withinCut3 S M 0 j k := by
    intro j k hj hk hjk
    obtain ⟨h1, h3⟩ := water_right j k hj hk hjk
    have hpos : ∀ i j, 0 < M.r env.eps i j := fun i j => Spec.Mol.r_pos env.eps_pos M i j
    have hc : S.cut3 = 40 := rfl
    have h1 : M.r env.eps 0 j ^ 2 = 3.24 := h1
    have h3 : M.r env.eps j k ^ 2 = 6.48 := h3
    refine ⟨?_, ?_⟩
    · show M.r env.eps 0 j ≤ S.cut3
      rw [hc]; nlinarith [hpos 0 j]
    · show M.r env.eps j k ≤ S.cut3
      rw [hc]; nlinarith [hpos j k]
  have hZ : ∀ j : Fin 3, M.Z j ≠ 0 := by
    intro j
    show numbers.get [j.1, 0] ≠ 0
    fin_cases j <;> simp [numbers]
  have hnn : ∀ j k : Fin 3, 0 ≤ (if M.Z 0 ≠ 0 ∧ M.Z j ≠ 0 ∧ M.Z k ≠ 0 ∧ 0 ≠ j ∧ 0 ≠ k ∧ j ≠ k ∧
      Spec.withinCut3 S M 0 j k then Spec.tripleTerm S M (Spec.c9 S M.neutral) (Spec.R0 S M) 0 j k
      else 0) := by
    intro j k
    split_ifs with h
    · exact (hterm j k h.2.2.2.1.symm h.2.2.2.2.1.symm h.2.2.2.2.2.1).le
    · exact le_rfl
  unfold Spec.e3
  refine mul_pos (by norm_num) ?_
  refine Finset.sum_pos' (fun j _ => Finset.sum_nonneg fun k _ => hnn j k) ⟨1, Finset.mem_univ _, ?_⟩
  refine Finset.sum_pos' (fun k _ => hnn 1 k) ⟨2, Finset.mem_univ _, ?_⟩
  rw [if_pos ⟨hZ _, hZ _, hZ _, by decide, by decide, by decide, hcut 1 2 (by decide) (by decide) (by decide)⟩]
  exact hterm 1 2 (by decide) (by decide) (by decide)

end Demo

/-- The full claim is false: validation removes `s9 = 2` of r2SCAN-3c, which changes the energies of
water. -/
theorem C58_same_false : ¬ ValidationHarmless id := by
  intro H
  obtain ⟨a, ha, hb⟩ := r2scan3c_returned
  have hc : Call Demo.env Demo.T Demo.ext Demo.numbers Demo.positions Demo.charge r2scan3c.param {} 3 [2]
      .d4 Demo.cn Demo.eeq (Spec.blockPar r2scan3c) := { Demo.call with par := r2scan3c_reads }
  obtain ⟨d, hd⟩ := (C58_accepted (Or.inr rfl) r2scan3c).2 (by decide +kernel)
  obtain ⟨e, e', he, he', -, -, hee⟩ := C58_threebody hc (Or.inr rfl) hd (by rw [r2scan3c_par])
  have h := H _ ⟨"d4", some "r2scan-3c", none, false⟩ a .init rfl ha d (by rw [hb]; exact hd)
    _ _ _ _ _ _ _ _ _ _ _ _ _ _ hc e e' (by rw [hb]; exact he) he' [0] (by simp [InB]) 0 (by norm_num)
  obtain ⟨h1, h2⟩ := hee [0] (by simp [InB]) 0
  have h0 := Demo.water_e3
  dsimp only at h0
  have h : e'.get ((0 : Fin 3).1 :: [0]) = e.get ((0 : Fin 3).1 :: [0]) := h
  rw [h1, h2, show (Spec.blockPar r2scan3c).s9 = 2 by rw [r2scan3c_par]] at h
  simp only [Option.getD_none] at h
  linarith

/-- r2SCAN-3c, whose `s9 = 2` is lost, with water and hydrogen fluoride. -/
example : ∃ d e e', validated "bj-eeq-atm" r2scan3c = .ok d ∧
    dftd4 Demo.env Demo.T Demo.ext Demo.numbers Demo.positions Demo.charge r2scan3c.param {} = .ok e ∧
    dftd4 Demo.env Demo.T Demo.ext Demo.numbers Demo.positions Demo.charge (dumpParam d) {} = .ok e' := by
  obtain ⟨d, hd⟩ := (C58_accepted (Or.inr rfl) r2scan3c).2 (by decide +kernel)
  obtain ⟨e, e', he, he', -⟩ := C58_threebody (o := {}) (n := 3) (B := [2]) (R := .d4) (cn := Demo.cn) (eeq := Demo.eeq)
    (P := Spec.blockPar r2scan3c) { Demo.call with par := r2scan3c_reads } (Or.inr rfl) hd (by rw [r2scan3c_par])
  exact ⟨d, e, e', hd, he, he'⟩

/-- PBE0, as shipped, validated, with water and hydrogen fluoride. -/
example : ∃ a d e, (PState.init.getParams id Data.paramFiles ⟨"d4", some "pbe0", none, false⟩).2 = .ok a ∧
    validated "bj-eeq-atm"
      ((PState.init.getParams id Data.paramFiles ⟨"d4", some "pbe0", none, false⟩).1.heap a) = .ok d ∧
    dftd4 Demo.env Demo.T Demo.ext Demo.numbers Demo.positions Demo.charge (dumpParam d) {} = .ok e := by
  have h := C29_functional_partial (cf := id) (files := Data.paramFiles) (f := Data.d4File) .init
    (r := ⟨"d4", some "pbe0", none, false⟩) (by decide) rfl (by decide +kernel) rfl (by decide) rfl
  unfold Spec.Finds at h
  have hfind : (Spec.find id Data.d4File "d4" (some "pbe0") none).isSome = true := by
    decide +kernel
  obtain ⟨b, hb⟩ := Option.isSome_iff_exists.1 hfind
  simp only [hb] at h
  obtain ⟨a, ha, -⟩ := h
  obtain ⟨d, hd⟩ := (C58_d4 .init rfl rfl (by decide) ha).2 rfl
  obtain ⟨e, he, -⟩ := C58_energy Demo.call (Or.inr rfl) hd
  exact ⟨a, d, e, ha, hd, he⟩

/-- A set without `s9` and `alp`: the energies of water do not change. -/
example : ∃ d e e', validated "bj" [("s8", .num ⟨12, 1⟩), ("a1", .num ⟨4, 1⟩), ("a2", .num ⟨5, 0⟩)] = .ok d ∧
    dftd4 Demo.env Demo.T Demo.ext Demo.numbers Demo.positions Demo.charge
      (Block.param [("s8", .num ⟨12, 1⟩), ("a1", .num ⟨4, 1⟩), ("a2", .num ⟨5, 0⟩)]) {} = .ok e ∧
    dftd4 Demo.env Demo.T Demo.ext Demo.numbers Demo.positions Demo.charge (dumpParam d) {} = .ok e' ∧
    e'.get [0, 0] = e.get [0, 0] := by
  have hc : Call Demo.env Demo.T Demo.ext Demo.numbers Demo.positions Demo.charge
      (Block.param [("s8", .num ⟨12, 1⟩), ("a1", .num ⟨4, 1⟩), ("a2", .num ⟨5, 0⟩)]) {} 3 [2] .d4 Demo.cn
      Demo.eeq (Spec.blockPar [("s8", .num ⟨12, 1⟩), ("a1", .num ⟨4, 1⟩), ("a2", .num ⟨5, 0⟩)]) :=
    { Demo.call with par := Block.complete_reads (by decide +kernel) }
  obtain ⟨d, hd⟩ := (C58_accepted (Or.inl rfl)
    [("s8", .num ⟨12, 1⟩), ("a1", .num ⟨4, 1⟩), ("a2", .num ⟨5, 0⟩)]).2 (by decide +kernel)
  obtain ⟨e, e', he, he', -, -, h⟩ := C58_same_partial hc (Or.inl rfl) hd
    (by exact Spec.number_none (k := "s9") (d := 1)
          (b := [("s8", .num ⟨12, 1⟩), ("a1", .num ⟨4, 1⟩), ("a2", .num ⟨5, 0⟩)]) rfl)
    (by exact Spec.number_none (k := "alp") (d := 16)
          (b := [("s8", .num ⟨12, 1⟩), ("a1", .num ⟨4, 1⟩), ("a2", .num ⟨5, 0⟩)]) rfl)
  exact ⟨d, e, e', hd, he, he', h [0] (by simp [InB]) 0⟩

example : ∃ d, validated "zero" [("s8", .num ⟨12, 1⟩), ("rs6", .num ⟨11, 1⟩), ("rs8", .num ⟨1, 0⟩),
    ("alp", .num ⟨14, 0⟩)] = .ok d :=
  (C58_accepted_zero _).2 (by decide +kernel)

/-- PBE0 of the D3 table with Becke-Johnson damping passes its class. -/
example : ∃ a, (PState.init.getParams id Data.paramFiles ⟨"d3", some "pbe0", some "bj", false⟩).2 = .ok a ∧
    ∃ d, validated "bj" ((PState.init.getParams id Data.paramFiles
      ⟨"d3", some "pbe0", some "bj", false⟩).1.heap a) = .ok d := by
  have h := C29_functional_partial (cf := id) (files := Data.paramFiles) (f := Data.d3File) .init
    (r := ⟨"d3", some "pbe0", some "bj", false⟩) (by decide) rfl (by decide +kernel) rfl (by decide) rfl
  unfold Spec.Finds at h
  have hfind : (Spec.find id Data.d3File "d3" (some "pbe0") (some "bj")).isSome = true := by
    decide +kernel
  obtain ⟨b, hb⟩ := Option.isSome_iff_exists.1 hfind
  simp only [hb] at h
  obtain ⟨a, ha, -⟩ := h
  exact ⟨a, ha, (C58_d3 .init rfl rfl (by decide) ha).2 rfl⟩

/-- The defaults of D4 pass no class. -/
example (v : String) (d : Dict (Option PV)) :
    ∃ a, (PState.init.getParams id Data.paramFiles defaultReq).2 = .ok a ∧
    validated v ((PState.init.getParams id Data.paramFiles defaultReq).1.heap a) ≠ .ok d := by
  obtain ⟨a, ha⟩ := defaultReq_ok
  exact ⟨a, ha, C58_default .init (Or.inl rfl) ha v d⟩

end TadDftd4
