import Verif.Lemmas.Params
import Verif.Data.Params

/-!
# C30: changing a returned parameter set does not change later ones
-/

namespace TadDftd4

/-- What `get_params` should return: a function of the parameter files alone. -/
def Spec.params (casefold : String → String) (files : String → Option (ParamFile Block)) (r : Req) :
    Except Err Block :=
  if r.method ∉ dispersionMethods then .error .value
  else match files r.method with
    | none => .error .fileNotFound
    | some f => (locate casefold f r.method r.functional r.variant).map (dropDoi r.keepDoi)

section
variable {cf : String → String} {files : String → Option (ParamFile Block)} {s : PState}

/-- Cached tables are those of the files, and the caller only holds objects created later. -/
structure PState.Inv (files : String → Option (ParamFile Block)) (s : PState) : Prop where
  cache : ∀ m t, s.cache m = some t → ∃ f, files m = some f ∧ t = f.alloc m ∧
    ∀ p, s.heap (.cached m p) = f.at p
  held : ∀ a ∈ s.held, ∃ k < s.next, a = .fresh k
  reads : ∀ m, s.reads m = if (s.cache m).isSome then 1 else 0

theorem PState.Inv.load (h : s.Inv files) (m : String) :
    (s.load files m).1.Inv files ∧ (s.load files m).1.held = s.held ∧
      (s.load files m).1.next = s.next ∧ (∀ k, (s.load files m).1.heap (.fresh k) = s.heap (.fresh k)) ∧
      match files m with
      | none => (s.load files m).2 = .error .fileNotFound
      | some f => (s.load files m).2 = .ok (f.alloc m) ∧
          ∀ p, (s.load files m).1.heap (.cached m p) = f.at p := by
  unfold PState.load
  cases hc : s.cache m with
  | some t =>
    obtain ⟨f, hf, rfl, hh⟩ := h.cache m t hc
    refine ⟨h, rfl, rfl, fun _ => rfl, ?_⟩
    rw [hf]
    exact ⟨rfl, hh⟩
  | none =>
    cases hf : files m with
    | none => exact ⟨h, rfl, rfl, fun _ => rfl, rfl⟩
    | some f =>
      refine ⟨⟨?_, h.held, ?_⟩, rfl, rfl, fun _ => rfl, rfl, fun p => by simp⟩
      · intro m' t ht
        by_cases hm : m' = m
        · subst hm
          simp only [if_true, Option.some.injEq] at ht
          exact ⟨f, hf, ht.symm, fun p => by simp⟩
        · simp only [if_neg hm] at ht
          obtain ⟨f', h1, h2, h3⟩ := h.cache m' t ht
          exact ⟨f', h1, h2, fun p => by simp only [if_neg hm]; exact h3 p⟩
      · intro m'
        by_cases hm : m' = m
        · subst hm
          have := h.reads m'
          simp only [hc, Option.isSome_none, Bool.false_eq_true, if_false] at this
          simp [this]
        · simp only [if_neg hm]
          exact h.reads m'

theorem PState.Inv.get (h : s.Inv files) (r : Req) :
    (s.getParams cf files r).1.Inv files ∧
    (∀ a ∈ s.held, (s.getParams cf files r).1.heap a = s.heap a) ∧
    match Spec.params cf files r with
    | .error e => (s.getParams cf files r).2 = .error e
    | .ok b => ∃ a, (s.getParams cf files r).2 = .ok a ∧ (s.getParams cf files r).1.heap a = b ∧
        a ∉ s.held := by
  unfold PState.getParams Spec.params
  by_cases hm : r.method ∉ dispersionMethods
  · rw [if_pos hm, if_pos hm]
    exact ⟨h, fun _ _ => rfl, rfl⟩
  rw [if_neg hm, if_neg hm]
  obtain ⟨hi, hheld, hnext, hfr, hl⟩ := h.load r.method
  have hkeep : ∀ a ∈ s.held, (s.load files r.method).1.heap a = s.heap a := by
    intro a ha
    obtain ⟨k, -, rfl⟩ := h.held a ha
    exact hfr k
  have hlt : ∀ a ∈ s.held, ∃ k < s.next, a = .fresh k := h.held
  generalize s.load files r.method = x at hi hheld hnext hl hkeep
  obtain ⟨s', res⟩ := x
  simp only at hi hheld hnext hl hkeep
  cases hf : files r.method with
  | none =>
    rw [hf] at hl
    simp only at hl
    subst hl
    exact ⟨hi, hkeep, rfl⟩
  | some f =>
    rw [hf] at hl
    simp only at hl
    obtain ⟨rfl, hheap⟩ := hl
    have ha := locate_alloc cf f r.method r.method r.functional r.variant
    cases hloc : locate cf f r.method r.functional r.variant with
    | error e =>
      rw [hloc] at ha
      simp only at ha
      simp only [ha, hloc, Except.map]
      exact ⟨hi, hkeep, trivial⟩
    | ok b =>
      rw [hloc] at ha
      obtain ⟨p, hp, hb⟩ := ha
      simp only [hp, PState.alloc, hloc, Except.map]
      refine ⟨⟨?_, ?_, hi.reads⟩, ?_, _, rfl, ?_, ?_⟩
      · intro m t ht
        obtain ⟨f', h1, h2, h3⟩ := hi.cache m t ht
        exact ⟨f', h1, h2, fun p => by simpa using h3 p⟩
      · intro a ha
        rcases List.mem_cons.1 ha with rfl | ha
        · exact ⟨s'.next + 1, by simp, rfl⟩
        · obtain ⟨k, hk, rfl⟩ := hi.held a ha
          exact ⟨k, by simp; omega, rfl⟩
      · intro a ha
        obtain ⟨k, hk, rfl⟩ := hlt a ha
        have h1 : k ≠ s'.next := by omega
        have h2 : k ≠ s'.next + 1 := by omega
        simp [h1, h2, hkeep _ ha]
      · simp [hheap p, hb]
      · intro ha
        obtain ⟨k, hk, he⟩ := hlt _ ha
        injection he with he
        omega

theorem PState.Inv.mutate (h : s.Inv files) (a : Addr) (b : Block) : (s.mutate a b).Inv files := by
  unfold PState.mutate
  split_ifs with ha
  · refine ⟨fun m t ht => ?_, h.held, h.reads⟩
    obtain ⟨f, h1, h2, h3⟩ := h.cache m t ht
    refine ⟨f, h1, h2, fun p => ?_⟩
    obtain ⟨k, -, rfl⟩ := h.held a ha
    simpa using h3 p
  · exact h

theorem PState.Reachable.inv (h : s.Reachable cf files) : s.Inv files := by
  induction h with
  | init =>
    refine ⟨fun m t ht => ?_, fun a ha => ?_, fun m => rfl⟩
    · exact absurd ht (by simp [PState.init])
    · exact absurd ha (by simp [PState.init])
  | get r _ ih => exact (ih.get r).1
  | mutate a b _ ih => exact ih.mutate a b

/-- After any history of calls and of changes of the returned dictionaries, `get_params` returns the
values of the files (or raises the exception they imply), in a new dictionary. -/
theorem C30_independent (h : s.Reachable cf files) (r : Req) :
    match Spec.params cf files r with
    | .error e => (s.getParams cf files r).2 = .error e
    | .ok b => ∃ a, (s.getParams cf files r).2 = .ok a ∧ (s.getParams cf files r).1.heap a = b ∧
        a ∉ s.held :=
  (h.inv.get r).2.2

/-- In other words: after any history a call has the same result as it has in a new interpreter, where
nothing has been read or changed: the same exception, or a dictionary with the same entries. -/
theorem C30_like_first (h : s.Reachable cf files) (r : Req) :
    match (PState.init.getParams cf files r).2 with
    | .error e => (s.getParams cf files r).2 = .error e
    | .ok a => ∃ a', (s.getParams cf files r).2 = .ok a' ∧ a' ∉ s.held ∧
        (s.getParams cf files r).1.heap a' = (PState.init.getParams cf files r).1.heap a := by
  have h1 := C30_independent h r
  have h0 := C30_independent (cf := cf) (files := files) .init r
  cases hp : Spec.params cf files r with
  | error e =>
    rw [hp] at h0 h1
    simp only at h0 h1
    rw [h0]
    exact h1
  | ok b =>
    rw [hp] at h0 h1
    simp only at h0 h1
    obtain ⟨a, ha, hb, -⟩ := h0
    obtain ⟨a', ha', hb', hh⟩ := h1
    rw [ha]
    exact ⟨a', ha', hh, by rw [hb, hb']⟩

/-- A call does not change dictionaries returned earlier. -/
theorem C30_no_interference (h : s.Reachable cf files) (r : Req) (a : Addr) (ha : a ∈ s.held) :
    (s.getParams cf files r).1.heap a = s.heap a :=
  (h.inv.get r).2.1 a ha

/-- Changing one returned dictionary does not change another one. -/
theorem C30_separate (a b : Addr) (hab : b ≠ a) (x : Block) : (s.mutate a x).heap b = s.heap b := by
  unfold PState.mutate
  split_ifs <;> simp [hab]

/-- Each file is read at most once. -/
theorem C30_read_once (h : s.Reachable cf files) (m : String) : s.reads m ≤ 1 := by
  rw [h.inv.reads m]
  split_ifs <;> simp

end

/-- The shipped files: PBE parameters, then the caller spoils the result, then again. -/
example : ∃ (s : PState) (a : Addr), s.Reachable id Data.paramFiles ∧ a ∈ s.held ∧ s.heap a = [] ∧
    s.reads "d4" = 1 ∧
    Spec.params id Data.paramFiles ⟨"d4", some "pbe", none, false⟩ = .ok
      [("s8", .num ⟨95948085, 8⟩), ("a1", .num ⟨38574991, 8⟩), ("a2", .num ⟨480688534, 8⟩)] := by
  refine ⟨_, .fresh 1, .mutate (.fresh 1) [] (.get ⟨"d4", some "pbe", none, false⟩ .init), ?_, ?_, ?_,
    ?_⟩
  all_goals decide +kernel

/-- The request after the spoiled one has the same result as the first one had. -/
example := C30_like_first (cf := id) (files := Data.paramFiles)
  (.mutate (.fresh 1) [] (.get ⟨"d4", some "pbe", none, false⟩ .init)) ⟨"d4", some "pbe", none, false⟩

/-- Two requests for the same functional: the first answer is unchanged by the second request. -/
example := C30_no_interference (cf := id) (files := Data.paramFiles)
  (.get ⟨"d4", some "pbe", none, false⟩ .init) ⟨"d4", some "pbe", none, true⟩ (.fresh 1)
  (by decide +kernel)

example := C30_read_once (cf := id) (files := Data.paramFiles)
  (.get ⟨"d3", some "pbe", none, true⟩ (.get ⟨"d4", some "pbe", none, false⟩ .init)) "d4"

example (x : Block) := C30_separate (s := (PState.init.getParams id Data.paramFiles
  ⟨"d4", some "pbe", none, false⟩).1) (.fresh 1) (.fresh 2) (by decide) x

end TadDftd4
