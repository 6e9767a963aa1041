import Verif.Lemmas.AutogradDamping
import Verif.Props.C07

/-!
# Parameters of two-body terms as read by the recorded graph
-/

set_option linter.unusedSimpArgs false

open scoped Classical Topology

namespace TadDftd4

open Tensor Tape Pair

section
variable {env : Env} {d : Damping} {p : Param} {k : ℕ} {f : ℝ → ℝ → ℝ}

/-- What a damping function needs to be called for an order. -/
def Damping.Given (d : Damping) (k : ℕ) (isNone : DName → Bool) : Prop :=
  match d with
  | .rational => isNone .a1 = false ∧ isNone .a2 = false
  | .zero => (k = 6 ∨ k = 8) ∧ isNone .alp = false ∧ isNone (if k = 6 then .rs6 else .rs8) = false
  | .mzero => (k = 6 ∨ k = 8) ∧ isNone .alp = false ∧ isNone (if k = 6 then .rs6 else .rs8) = false ∧
      isNone .bet = false
  | .op => (k = 6 ∨ k = 8) ∧ isNone .a1 = false ∧ isNone .a2 = false ∧ isNone .bet = false

theorem zeroed_six : zeroed p.isNone 6 = true ↔ p.kw.s6 = none ∧ p.kw.rs6 = none := by
  simp [zeroed, Param.isNone, Param.arg]

theorem zeroed_eight : zeroed p.isNone 8 = true ↔ p.kw.s8 = none ∧ p.kw.rs8 = none := by
  simp [zeroed, Param.isNone, Param.arg]

theorem zeroed_ten : zeroed p.isNone 10 = true ↔ p.kw.s10 = none := by
  simp [zeroed, Param.isNone, Param.arg]

theorem Option.isNone_false {a : Option ℝ} (h : a.isNone = false) : ∃ x, a = some x := by
  cases a with
  | none => simp at h
  | some x => exact ⟨x, rfl⟩

/-- A call succeeds if zeros are returned or the parameters are given. -/
theorem Damping.point_of_given (hk : k = 6 ∨ k = 8 ∨ k = 10)
    (h : zeroed p.isNone k = true ∨ d.Given k p.isNone) :
    d.point env k false p.kw = .ok (callV env p.isNone d k p.read) := by
  unfold Damping.point callV
  by_cases hz : zeroed p.isNone k = true
  · rw [if_pos hz]
    rcases hk with rfl | rfl | rfl
    · simp [zeroed_six.1 hz]
    · simp [zeroed_eight.1 hz]
    · simp [zeroed_ten.1 hz]
  · have hg := h.resolve_left hz
    rw [if_neg hz]
    have h6 : ¬ (k = 6 ∧ p.kw.s6 = none ∧ p.kw.rs6 = none) := fun h => hz (by rw [h.1]; exact zeroed_six.2 h.2)
    have h8 : ¬ (k = 8 ∧ p.kw.s8 = none ∧ p.kw.rs8 = none) := fun h =>
      hz (by rw [h.1]; exact zeroed_eight.2 h.2)
    have h10 : ¬ (k = 10 ∧ p.kw.s10 = none) := fun h => hz (by rw [h.1]; exact zeroed_ten.2 h.2)
    rw [if_neg h6, if_neg h8, if_neg (by omega), if_neg h10]
    clear h hz h6 h8 h10
    cases d with
    | rational =>
      obtain ⟨e1, e2⟩ := hg
      obtain ⟨a1, e1⟩ : ∃ a, p.kw.a1 = some a := Option.isNone_false e1
      obtain ⟨a2, e2⟩ : ∃ a, p.kw.a2 = some a := Option.isNone_false e2
      rcases hk with rfl | rfl | rfl <;>
        simp [Damping.required, Damping.pointF, e1, e2, dampV, Param.read, Param.arg]
    | zero =>
      obtain ⟨hk, e1, e2⟩ := hg
      obtain ⟨a1, e1⟩ : ∃ a, p.kw.alp = some a := Option.isNone_false e1
      rcases hk with rfl | rfl
      · obtain ⟨a2, e2⟩ : ∃ a, p.kw.rs6 = some a := Option.isNone_false e2
        simp [Damping.required, Damping.pointF, e1, e2, dampV, Param.read, Param.arg]
      · obtain ⟨a2, e2⟩ : ∃ a, p.kw.rs8 = some a := Option.isNone_false e2
        simp [Damping.required, Damping.pointF, e1, e2, dampV, Param.read, Param.arg]
    | mzero =>
      obtain ⟨hk, e1, e2, e3⟩ := hg
      obtain ⟨a1, e1⟩ : ∃ a, p.kw.alp = some a := Option.isNone_false e1
      obtain ⟨a3, e3⟩ : ∃ a, p.kw.bet = some a := Option.isNone_false e3
      rcases hk with rfl | rfl
      · obtain ⟨a2, e2⟩ : ∃ a, p.kw.rs6 = some a := Option.isNone_false e2
        simp [Damping.required, Damping.pointF, e1, e2, e3, dampV, Param.read, Param.arg]
      · obtain ⟨a2, e2⟩ : ∃ a, p.kw.rs8 = some a := Option.isNone_false e2
        simp [Damping.required, Damping.pointF, e1, e2, e3, dampV, Param.read, Param.arg]
    | op =>
      obtain ⟨hk, e1, e2, e3⟩ := hg
      obtain ⟨a1, e1⟩ : ∃ a, p.kw.a1 = some a := Option.isNone_false e1
      obtain ⟨a2, e2⟩ : ∃ a, p.kw.a2 = some a := Option.isNone_false e2
      obtain ⟨a3, e3⟩ : ∃ a, p.kw.bet = some a := Option.isNone_false e3
      rcases hk with rfl | rfl <;>
        simp [Damping.required, Damping.pointF, e1, e2, e3, dampV, Param.read, Param.arg]

/-- If a call succeeds, zeros are returned or the parameters are given. -/
theorem Damping.given_of_point (hk : k = 6 ∨ k = 8 ∨ k = 10)
    (h : d.point env k false p.kw = .ok f) : zeroed p.isNone k = true ∨ d.Given k p.isNone := by
  unfold Damping.point at h
  split at h
  · rename_i h6
    exact Or.inl (by rw [h6.1]; exact zeroed_six.2 h6.2)
  split at h
  · rename_i h8
    exact Or.inl (by rw [h8.1]; exact zeroed_eight.2 h8.2)
  split at h
  · omega
  split at h
  · rename_i h10
    exact Or.inl (by rw [h10.1]; exact zeroed_ten.2 h10.2)
  split at h
  · cases h
  refine Or.inr ?_
  unfold Damping.pointF at h
  cases d with
  | rational =>
    simp only at h
    split at h
    · rename_i e1 e2
      simp [Damping.Given, Param.isNone, Param.arg, e1, e2]
    · cases h
  | zero =>
    simp only at h
    split at h
    · cases h
    · rename_i e1
      rcases hk with rfl | rfl | rfl
      · simp only [ne_eq, not_true_eq_false, false_and, if_false, if_true] at h
        split at h
        · cases h
        · rename_i e2
          simp [Damping.Given, Param.isNone, Param.arg, e1, e2]
      · simp only [ne_eq, not_true_eq_false, false_and, and_false, if_false, if_true] at h
        rw [if_neg (by decide)] at h
        split at h
        · cases h
        · rename_i e2
          try simp only [show ¬ (8 : ℕ) = 6 by decide, if_false] at e2
          simp [Damping.Given, Param.isNone, Param.arg, e1, e2]
      · simp at h
  | mzero =>
    simp only at h
    split at h
    · rename_i e1 e3
      rcases hk with rfl | rfl | rfl
      · simp only [ne_eq, not_true_eq_false, false_and, if_false, if_true] at h
        split at h
        · cases h
        · rename_i e2
          simp [Damping.Given, Param.isNone, Param.arg, e1, e2, e3]
      · simp only [ne_eq, not_true_eq_false, false_and, and_false, if_false, if_true] at h
        split at h
        · cases h
        · rename_i e2
          try simp only [show ¬ (8 : ℕ) = 6 by decide, if_false] at e2
          simp [Damping.Given, Param.isNone, Param.arg, e1, e2, e3]
      · simp at h
    · cases h
  | op =>
    simp only at h
    split at h
    · rename_i e1 e2 e3
      rcases hk with rfl | rfl | rfl
      · simp [Damping.Given, Param.isNone, Param.arg, e1, e2, e3]
      · simp [Damping.Given, Param.isNone, Param.arg, e1, e2, e3]
      · simp at h
    · cases h

/-- The function a successful call computes. -/
theorem Damping.point_eq (hk : k = 6 ∨ k = 8 ∨ k = 10) (h : d.point env k false p.kw = .ok f) :
    f = callV env p.isNone d k p.read := by
  have := Damping.point_of_given (env := env) hk (Damping.given_of_point hk h)
  rw [h] at this
  exact Except.ok.inj this

/-- Order ten is only available with rational damping. -/
theorem Damping.Usable.ten (h : d.Usable env p) (h10 : p.isNone .s10 = false) : d = .rational := by
  obtain ⟨f, hf⟩ := h.f10 fun e => by simp [Param.isNone, Param.arg, Param.kw, e, PVal.kw] at h10
  have hz : zeroed p.isNone 10 = false := by simp [zeroed, h10]
  have hg := (Damping.given_of_point (by simp) hf).resolve_left (by rw [hz]; simp)
  cases d with
  | rational => rfl
  | zero => exact absurd hg.1 (by decide)
  | mzero => exact absurd hg.1 (by decide)
  | op => exact absurd hg.1 (by decide)

theorem Param.put_arg (m m' : DName) (y : ℝ) : (p.put m y).arg m' = if m' = m then some y else p.arg m' := by
  cases m <;> cases m' <;> simp [Param.put, Param.arg, Param.kw, PVal.kw]

theorem Param.put_isNone {m : DName} (hm : p.isNone m = false) (y : ℝ) : (p.put m y).isNone = p.isNone := by
  funext m'
  unfold Param.isNone
  rw [Param.put_arg]
  split
  · rename_i h
    rw [h]
    exact hm.symm
  · rfl

theorem Param.put_read (m : DName) (y : ℝ) : (p.put m y).read = Function.update p.read m y := by
  funext m'
  unfold Param.read
  rw [Param.put_arg]
  by_cases h : m' = m
  · simp [h]
  · simp [h, Function.update]

/-- Changing a parameter that is given does not make the parameters unusable. -/
theorem Damping.Usable.put (h : d.Usable env p) {m : DName} (hm : p.isNone m = false) (y : ℝ) :
    d.Usable env (p.put m y) := by
  have hpt : ∀ k, k = 6 ∨ k = 8 ∨ k = 10 → (∃ f, d.point env k false p.kw = .ok f) →
      ∃ f, d.point env k false (p.put m y).kw = .ok f := by
    rintro k hk ⟨f, hf⟩
    refine ⟨_, Damping.point_of_given hk ?_⟩
    rw [Param.put_isNone hm]
    exact Damping.given_of_point hk hf
  obtain ⟨h1, h2, h3, h4, h5, h6, h7⟩ := h
  constructor
  · cases m <;> exact h1
  · cases m <;> first | exact h2 | simp [Param.put]
  · cases m <;> first | exact h3 | simp [Param.put]
  · cases m <;> first | exact h4 | simp [Param.put]
  · exact hpt 6 (by simp) h5
  · exact hpt 8 (by simp) h6
  · intro he
    refine hpt 10 (by simp) (h7 fun h0 => ?_)
    cases m
    case s10 => simp [Param.isNone, Param.arg, Param.kw, PVal.kw, h0] at hm
    all_goals exact he h0

theorem Damping.Usable.s6_is (h : d.Usable env p) : p.s6.Is Defaults.s6 (p.read .s6) := by
  have := h.s6
  cases e : p.s6 <;> simp_all [PVal.Is, Param.read, Param.arg, Param.kw, PVal.kw]

theorem Damping.Usable.s8_is (h : d.Usable env p) : p.s8.Is Defaults.s8 (p.read .s8) := by
  have := h.s8
  cases e : p.s8 <;> simp_all [PVal.Is, Param.read, Param.arg, Param.kw, PVal.kw]

theorem Damping.Usable.s10_is (h : d.Usable env p) :
    S10Is env d p (if p.isNone .s10 then 0 else p.read .s10) (callV env p.isNone d 10 p.read) := by
  have := h.s10
  cases e : p.s10 with
  | none => exact absurd e this
  | absent => exact Or.inl ⟨e, by simp [Param.isNone, Param.arg, Param.kw, e, PVal.kw]⟩
  | val x =>
    refine Or.inr ⟨?_, ?_⟩
    · simp [e, Param.isNone, Param.read, Param.arg, Param.kw, PVal.kw]
    · obtain ⟨f, hf⟩ := h.f10 (by rw [e]; simp)
      rw [hf, Damping.point_eq (by simp) hf]

end

end TadDftd4
