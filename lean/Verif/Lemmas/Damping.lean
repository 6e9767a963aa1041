import Verif.Lemmas.TwoBody

/-!
# Evaluation of the damping functions: pointwise functions
-/

open scoped Classical

namespace TadDftd4

open Tensor

/-- Pointwise function computed by `_f`, or the exception raised. -/
noncomputable def Damping.pointF (env : Env) (d : Damping) (order : ℕ) (onlyDamping : Bool)
    (kw : Kw) : Except Err (ℝ → ℝ → ℝ) :=
  match d with
  | .rational => match kw.a1, kw.a2 with
    | some a1, some a2 => .ok (ratF a1 a2 order)
    | _, _ => .error .assertion
  | .zero => match kw.alp with
    | none => .error .assertion
    | some alp =>
      if order ≠ 6 ∧ order ≠ 8 ∧ order ≠ 9 then .error .value
      else
        match (if order = 6 then kw.rs6 else if order = 8 then kw.rs8 else kw.rs9) with
        | none => .error .assertion
        | some rs =>
          if onlyDamping then .ok (zeroF env rs (if order = 8 then alp + 2 else alp))
          else .ok fun x r => env.sdiv (zeroF env rs (if order = 8 then alp + 2 else alp) x r)
            (x ^ order)
  | .mzero => match kw.alp, kw.bet with
    | some alp, some bet =>
      if order ≠ 6 ∧ order ≠ 8 then .error .value
      else
        match (if order = 6 then kw.rs6 else kw.rs8) with
        | none => .error .assertion
        | some rs => .ok fun x r =>
          env.sdiv (mzeroF rs (if order = 8 then alp + 2 else alp) bet x r) (x ^ order)
    | _, _ => .error .assertion
  | .op => match kw.a1, kw.a2, kw.bet with
    | some a1, some a2, some bet =>
      if order ≠ 6 ∧ order ≠ 8 then .error .value
      else .ok (opF a1 a2 bet order)
    | _, _, _ => .error .assertion

/-- Pointwise function computed by a call of a damping object, or the exception raised. -/
noncomputable def Damping.point (env : Env) (d : Damping) (order : ℕ) (onlyDamping : Bool)
    (kw : Kw) : Except Err (ℝ → ℝ → ℝ) :=
  if order = 6 ∧ kw.s6 = none ∧ kw.rs6 = none then .ok fun _ _ => 0
  else if order = 8 ∧ kw.s8 = none ∧ kw.rs8 = none then .ok fun _ _ => 0
  else if order = 9 ∧ kw.s9 = none ∧ kw.rs9 = none then .ok fun _ _ => 0
  else if order = 10 ∧ kw.s10 = none then .ok fun _ _ => 0
  else if none ∈ d.required order kw then .error .type
  else d.pointF env order onlyDamping kw

/-- The result of a damping call on tensors of the same shape: error or pointwise application. -/
def IsPoint (t : Tensor ℝ) (dist rad : Tensor ℝ) (s : Shape) (f : Except Err (ℝ → ℝ → ℝ)) :
    Prop :=
  match f with
  | .error e => t.err = some e
  | .ok f => t.Ok s ∧ ∀ i, InB s i → t.get i = f (dist.get i) (rad.get i)

section
variable {env : Env} {d : Damping} {dist rad : Tensor ℝ} {s : Shape}

theorem isPoint_map2 (hd : dist.Ok s) (hr : rad.Ok s) (f : ℝ → ℝ → ℝ) :
    IsPoint (map2 f dist rad) dist rad s (.ok f) := by
  refine ⟨⟨by simp [hd.err, hr.err, hd.shape, hr.shape], by simp [hd.shape, hr.shape]⟩, ?_⟩
  intro i hi
  simp [hd.shape, hr.shape, pick_of_InB hi]

theorem isPoint_map2_div (hd : dist.Ok s) (hr : rad.Ok s) (f : ℝ → ℝ → ℝ) (order : ℕ) :
    IsPoint (map2 env.sdiv (map2 f dist rad) (dist.map (· ^ order))) dist rad s
      (.ok fun x r => env.sdiv (f x r) (x ^ order)) := by
  refine ⟨⟨by simp [hd.err, hr.err, hd.shape, hr.shape], by simp [hd.shape, hr.shape]⟩, ?_⟩
  intro i hi
  simp [hd.shape, hr.shape, pick_of_InB hi]

theorem isPoint_zeros (hd : dist.Ok s) :
    IsPoint (zerosLike dist) dist rad s (.ok fun _ _ => 0) :=
  ⟨⟨hd.err, hd.shape⟩, fun _ _ => rfl⟩

theorem damping_f_point (hd : dist.Ok s) (hr : rad.Ok s) (order : ℕ) (od : Bool) (kw : Kw) :
    IsPoint (d.f env dist rad order od kw) dist rad s (d.pointF env order od kw) := by
  unfold Damping.f Damping.pointF
  cases d with
  | rational =>
    rcases kw.a1 with _ | a1 <;> rcases kw.a2 with _ | a2 <;>
      first | exact rfl | exact isPoint_map2 hd hr _
  | zero =>
    rcases kw.alp with _ | alp
    · exact rfl
    · dsimp only
      by_cases ho : order ≠ 6 ∧ order ≠ 8 ∧ order ≠ 9
      · simp only [if_pos ho]; exact rfl
      · simp only [if_neg ho]
        rcases (if order = 6 then kw.rs6 else if order = 8 then kw.rs8 else kw.rs9) with _ | rs
        · exact rfl
        · cases od
          · exact isPoint_map2_div hd hr _ _
          · exact isPoint_map2 hd hr _
  | mzero =>
    rcases kw.alp with _ | alp <;> rcases kw.bet with _ | bet <;> try exact rfl
    dsimp only
    by_cases ho : order ≠ 6 ∧ order ≠ 8
    · simp only [if_pos ho]; exact rfl
    · simp only [if_neg ho]
      rcases (if order = 6 then kw.rs6 else kw.rs8) with _ | rs
      · exact rfl
      · exact isPoint_map2_div hd hr _ _
  | op =>
    rcases kw.a1 with _ | a1 <;> rcases kw.a2 with _ | a2 <;> rcases kw.bet with _ | bet <;>
      try exact rfl
    dsimp only
    by_cases ho : order ≠ 6 ∧ order ≠ 8
    · simp only [if_pos ho]; exact rfl
    · simp only [if_neg ho]; exact isPoint_map2 hd hr _

theorem damping_call_point (hd : dist.Ok s) (hr : rad.Ok s) (order : ℕ) (od : Bool) (kw : Kw) :
    IsPoint (d.call env dist rad order od kw) dist rad s (d.point env order od kw) := by
  unfold Damping.call Damping.point
  split
  · exact isPoint_zeros hd
  split
  · exact isPoint_zeros hd
  split
  · exact isPoint_zeros hd
  split
  · exact isPoint_zeros hd
  unfold Damping.checkedF
  split
  · exact rfl
  · exact damping_f_point hd hr order od kw

end
end TadDftd4
