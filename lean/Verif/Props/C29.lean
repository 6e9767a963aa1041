import Verif.Props.C30
import Verif.Lemmas.Setup

/-!
# C29: `get_params` finds exactly what the parameter file holds

Proved for functional names that are already casefolded and for listed default variants. The documented
case-insensitivity and the default variant of the default parameters are false of the code.
-/

namespace TadDftd4

/-- Block of a functional. -/
def Spec.functionalBlock (f : ParamFile Block) (functional method variant : String) : Option Block :=
  ((f.functionals.lookup functional).bind fun d => d.lookup method).bind fun d => d.lookup variant

/-- Block of the default parameters. -/
def Spec.defaultBlock (f : ParamFile Block) (method variant : String) : Option Block :=
  (f.defaults.lookup method).bind fun d => d.lookup variant

/-- First variant listed for a method. -/
def Spec.firstVariant (f : ParamFile Block) (method : String) : Option String :=
  (f.variants.lookup method).bind List.head?

/-- The documented result: block of the (case-insensitive) functional, or the default block if there is
none or it is called "default"; the first listed variant if none is given. -/
def Spec.find (casefold : String → String) (f : ParamFile Block) (method : String)
    (functional variant : Option String) : Option Block :=
  (variant.orElse fun _ => Spec.firstVariant f method).bind fun v => match functional with
    | none => Spec.defaultBlock f method v
    | some g => if g = "default" then Spec.defaultBlock f method v
        else Spec.functionalBlock f (casefold g) method v

/-- A returned dictionary agrees with a block, except for `doi` unless it is kept. -/
def Spec.SameBlock (keepDoi : Bool) (b out : Block) : Prop :=
  ∀ k, out.lookup k = if k = "doi" ∧ keepDoi = false then none else b.lookup k

/-- The result of `get_params` is the documented one: a dictionary with the values of the block if
there is one, otherwise KeyError. -/
def Spec.Finds (casefold : String → String) (f : ParamFile Block) (r : Req)
    (res : PState × Except Err Addr) : Prop :=
  match Spec.find casefold f r.method r.functional r.variant with
  | some b => ∃ a, res.2 = .ok a ∧ Spec.SameBlock r.keepDoi b (res.1.heap a)
  | none => res.2 = .error .key

theorem dropDoi_same (keep : Bool) (b : Block) : Spec.SameBlock keep b (dropDoi keep b) := by
  intro k
  unfold dropDoi
  cases keep with
  | true => simp
  | false =>
    simp only [Bool.false_eq_true, if_false, and_true]
    induction b with
    | nil => simp
    | cons x b ih =>
      obtain ⟨a, y⟩ := x
      by_cases ha : a = "doi"
      · subst ha
        simp only [List.filter_cons, bne_self_eq_false, Bool.false_eq_true, if_false, ih,
          List.lookup_cons]
        by_cases hk : k = "doi"
        · simp [hk]
        · have : (k == "doi") = false := by simpa using hk
          simp [hk, this]
      · have hb : (a != "doi") = true := by simpa using ha
        simp only [List.filter_cons, hb, if_true, List.lookup_cons, ih]
        by_cases hk : k = "doi"
        · have : ("doi" == a) = false := by simpa using Ne.symm ha
          simp [hk, this]
        · simp [hk]

section
variable {cf : String → String} {files : String → Option (ParamFile Block)} {s : PState}
  {f : ParamFile Block}

theorem finds_of_locate (h : s.Reachable cf files) {r : Req} (hm : r.method ∈ dispersionMethods)
    (hf : files r.method = some f)
    (hl : locate cf f r.method r.functional r.variant =
      match Spec.find cf f r.method r.functional r.variant with
      | some b => .ok b
      | none => .error .key) : Spec.Finds cf f r (s.getParams cf files r) := by
  have h1 := C30_independent h r
  unfold Spec.params at h1
  rw [if_neg (not_not.2 hm)] at h1
  simp only [hf, hl] at h1
  unfold Spec.Finds
  cases hfind : Spec.find cf f r.method r.functional r.variant with
  | none =>
    rw [hfind] at h1
    exact h1
  | some b =>
    rw [hfind] at h1
    obtain ⟨a, h2, h3, -⟩ := h1
    exact ⟨a, h2, by rw [h3]; exact dropDoi_same _ _⟩

theorem chooseVariant_first (hd : (Spec.firstVariant f r).isSome) (variant : Option String) :
    ∃ v, chooseVariant f r variant = .ok v ∧
      (variant.orElse fun _ => Spec.firstVariant f r) = some v := by
  cases variant with
  | some v => exact ⟨v, rfl, rfl⟩
  | none =>
    unfold Spec.firstVariant at hd ⊢
    unfold chooseVariant getItem
    cases hv : f.variants.lookup r with
    | none => simp [hv] at hd
    | some vs =>
      cases vs with
      | nil => simp [hv] at hd
      | cons v vs => exact ⟨v, rfl, rfl⟩

/-- `get_params` finds the block of a functional whose name is casefolded, in every state. The full
statement is `GetParamsFinds`. -/
theorem C29_functional_partial (h : s.Reachable cf files) {r : Req}
    (hm : r.method ∈ dispersionMethods) (hf : files r.method = some f)
    (hd : (Spec.firstVariant f r.method).isSome) {g : String} (hr : r.functional = some g)
    (hg : g ≠ "default") (hcf : cf g = g) : Spec.Finds cf f r (s.getParams cf files r) := by
  refine finds_of_locate h hm hf ?_
  obtain ⟨v, hv, hv'⟩ := chooseVariant_first hd r.variant
  unfold locate Spec.find
  simp only [hr, dispSection, if_neg hg, hv, hv', Option.bind_some, hcf, functionalSection,
    Spec.functionalBlock]
  cases h1 : f.functionals.lookup g with
  | none => rfl
  | some d =>
    simp only [Option.isNone_some, Bool.false_eq_true, if_false, getItem, h1, bind, Except.bind,
      Option.bind_some]
    cases h2 : d.lookup r.method with
    | none => rfl
    | some e =>
      simp only [Option.isNone_some, Bool.false_eq_true, if_false, h2, Option.bind_some]
      cases e.lookup v <;> rfl

/-- The default parameters of a listed variant are found. -/
theorem C29_default_partial (h : s.Reachable cf files) {r : Req}
    (hm : r.method ∈ dispersionMethods) (hf : files r.method = some f)
    (hr : r.functional = none ∨ r.functional = some "default") {v : String} {vs : List String}
    (hv : r.variant = some v) (hvs : f.variants.lookup r.method = some vs) (hin : v ∈ vs) :
    Spec.Finds cf f r (s.getParams cf files r) := by
  refine finds_of_locate h hm hf ?_
  have hs : defaultSection f r.method r.variant = .ok f.defaults := by
    simp [defaultSection, getItem, hvs, hv, hin, bind, Except.bind]
  have hfind : Spec.find cf f r.method r.functional r.variant = Spec.defaultBlock f r.method v := by
    rcases hr with hr | hr <;> simp [Spec.find, hr, hv]
  have hsec : dispSection cf f r.method r.functional r.variant = .ok f.defaults := by
    rcases hr with hr | hr <;> simp [dispSection, hr, hs]
  unfold locate
  rw [hfind, hsec]
  simp only [bind, Except.bind, chooseVariant, hv, getItem, Spec.defaultBlock]
  cases h2 : f.defaults.lookup r.method with
  | none => rfl
  | some e => cases h3 : e.lookup v <;> simp [h3]

/-- Errors for arguments without a file: ValueError for an unknown method, FileNotFoundError for a
method without a file. -/
theorem C29_no_file (h : s.Reachable cf files) (r : Req) :
    (r.method ∉ dispersionMethods → (s.getParams cf files r).2 = .error .value) ∧
    (r.method ∈ dispersionMethods → files r.method = none →
      (s.getParams cf files r).2 = .error .fileNotFound) := by
  have h1 := C30_independent h r
  unfold Spec.params at h1
  constructor
  · intro hm
    rw [if_pos hm] at h1
    exact h1
  · intro hm hf
    rw [if_neg (not_not.2 hm)] at h1
    simpa only [hf] using h1

/-- Default parameters without a variant: always KeyError, although a default variant is listed. -/
theorem C29_default_none (h : s.Reachable cf files) {r : Req} (hm : r.method ∈ dispersionMethods)
    (hf : files r.method = some f) (hr : r.functional = none ∨ r.functional = some "default")
    (hv : r.variant = none) : (s.getParams cf files r).2 = .error .key := by
  have h1 := C30_independent h r
  unfold Spec.params at h1
  rw [if_neg (not_not.2 hm)] at h1
  have hs : defaultSection f r.method r.variant = .error .key := by
    simp only [defaultSection, getItem, hv]
    cases f.variants.lookup r.method <;> rfl
  have hsec : dispSection cf f r.method r.functional r.variant = .error .key := by
    rcases hr with hr | hr <;> simp [dispSection, hr, hs]
  simp only [hf, locate, hsec, bind, Except.bind, Except.map] at h1
  exact h1

/-- Names that are not casefolded always raise KeyError if the names in the file are casefolded. -/
theorem C29_case (h : s.Reachable cf files) {r : Req} (hm : r.method ∈ dispersionMethods)
    (hf : files r.method = some f) {g : String} (hr : r.functional = some g) (hg : g ≠ "default")
    (hkeys : ∀ x ∈ f.functionals, cf x.1 = x.1) (hcf : cf g ≠ g) :
    (s.getParams cf files r).2 = .error .key := by
  have h1 := C30_independent h r
  unfold Spec.params at h1
  rw [if_neg (not_not.2 hm)] at h1
  have hnone : f.functionals.lookup g = none := by
    cases hl : f.functionals.lookup g with
    | none => rfl
    | some d =>
      refine absurd ?_ hcf
      have : (g, d) ∈ f.functionals := mem_of_lookup hl
      exact hkeys _ this
  have hsec : dispSection cf f r.method r.functional r.variant = .error .key := by
    simp [dispSection, hr, hg, functionalSection, hnone]
  simp only [hf, locate, hsec, bind, Except.bind, Except.map] at h1
  exact h1

end

/-- Full statement: for every method with a file, whatever functional and variant are given. -/
def GetParamsFinds (cf : String → String) (files : String → Option (ParamFile Block)) : Prop :=
  ∀ s : PState, s.Reachable cf files → ∀ (r : Req) (f : ParamFile Block),
    r.method ∈ dispersionMethods → files r.method = some f →
    Spec.Finds cf f r (s.getParams cf files r)

/-- False for the shipped files: "PBE" is not found. -/
theorem C29_case_false : ¬ GetParamsFinds Demo.ext.casefold Data.paramFiles := by
  intro H
  have h := H _ .init ⟨"d4", some "PBE", none, false⟩ Data.d4File (by decide) rfl
  have h2 := C29_case (cf := Demo.ext.casefold) (files := Data.paramFiles) .init
    (r := ⟨"d4", some "PBE", none, false⟩) (f := Data.d4File) (by decide) rfl rfl (by decide) (by
      have : (Data.d4File.functionals.all fun x => Demo.ext.casefold x.1 == x.1) = true := by
        simp only [Demo.ext]
        decide +kernel
      intro x hx
      simpa using List.all_eq_true.1 this x hx) (by simp only [Demo.ext]; decide +kernel)
  unfold Spec.Finds at h
  have hfind : (Spec.find Demo.ext.casefold Data.d4File "d4" (some "PBE") none).isSome = true := by
    simp only [Demo.ext]
    decide +kernel
  obtain ⟨b, hb⟩ := Option.isSome_iff_exists.1 hfind
  simp only [hb] at h
  obtain ⟨a, ha, -⟩ := h
  rw [ha] at h2
  cases h2

/-- False for the shipped files: the default variant of the default parameters is not found. -/
theorem C29_default_false : ¬ GetParamsFinds id Data.paramFiles := by
  intro H
  have h := H _ .init ⟨"d4", none, none, false⟩ Data.d4File (by decide) rfl
  have h2 := C29_default_none (cf := id) (files := Data.paramFiles) .init
    (r := ⟨"d4", none, none, false⟩) (f := Data.d4File) (by decide) rfl (Or.inl rfl) rfl
  unfold Spec.Finds at h
  have hfind : (Spec.find id Data.d4File "d4" none none).isSome = true := by decide +kernel
  obtain ⟨b, hb⟩ := Option.isSome_iff_exists.1 hfind
  simp only [hb] at h
  obtain ⟨a, ha, -⟩ := h
  rw [ha] at h2
  cases h2

/-- The hypotheses of `C29_functional_partial` are met by the shipped files. -/
example : Spec.Finds id Data.d4File ⟨"d4", some "tpssh", none, true⟩
    (PState.init.getParams id Data.paramFiles ⟨"d4", some "tpssh", none, true⟩) :=
  C29_functional_partial .init (by decide) rfl (by decide +kernel) rfl (by decide) rfl

example := C29_no_file (cf := id) (files := Data.paramFiles) .init ⟨"d4s", some "pbe", none, false⟩

example : (PState.init.getParams id Data.paramFiles ⟨"d4", none, none, false⟩).2 = .error .key :=
  C29_default_none .init (by decide) rfl (Or.inl rfl) rfl

example : (PState.init.getParams Demo.ext.casefold Data.paramFiles ⟨"d4", some "B3LYP", none, false⟩).2
    = .error .key :=
  C29_case (f := Data.d4File) .init (by decide) rfl rfl (by decide) (by
      have : (Data.d4File.functionals.all fun x => Demo.ext.casefold x.1 == x.1) = true := by
        simp only [Demo.ext]
        decide +kernel
      intro x hx
      simpa using List.all_eq_true.1 this x hx) (by simp only [Demo.ext]; decide +kernel)

end TadDftd4
