import Verif.Model.Objects
import Verif.Props.C33
import Mathlib.Data.Multiset.AddSub

/-!
# C34: registering and deregistering terms behaves like a multiset of terms
-/

set_option linter.unusedSimpArgs false

open scoped Classical

namespace TadDftd4

open Tensor

section
variable {env : Env} {T : Tables} {ext : Ext} {numbers : Tensor ℕ} {positions charge : Tensor ℝ}
  {p : Param} {o : CalcOpts}

/-- Objects that differ only in the order of their terms give the same energies, and if one of them
raises, so does the other. -/
theorem C34_energy {d : Disp} {ts : List Term} (hts : ts.Perm d.terms) :
    (∀ e, d.calculate env T ext numbers positions charge p o = .ok e →
      ∃ e', { d with terms := ts }.calculate env T ext numbers positions charge p o = .ok e' ∧
        e'.shape = e.shape ∧ ∀ i, InB e.shape i → e'.get i = e.get i) ∧
    (∀ e', { d with terms := ts }.calculate env T ext numbers positions charge p o = .ok e' →
      ∃ e, d.calculate env T ext numbers positions charge p o = .ok e) := by
  have key : ∀ (d : Disp) (ts : List Term), ts.Perm d.terms → ∀ e,
      d.calculate env T ext numbers positions charge p o = .ok e →
      ∃ e', { d with terms := ts }.calculate env T ext numbers positions charge p o = .ok e' ∧
        e'.shape = e.shape ∧ ∀ i, InB e.shape i → e'.get i = e.get i := by
    intro d ts hts e he
    have hch : ∀ q, Disp.charges ext { d with terms := ts } numbers positions charge
        (o.cutoff.getD {}) q = d.charges ext numbers positions charge (o.cutoff.getD {}) q := by
      intro q
      unfold Disp.charges
      have : ts.any (·.chargeDep) = d.terms.any (·.chargeDep) := by
        rw [Bool.eq_iff_iff]
        simp only [List.any_eq_true]
        exact ⟨fun ⟨t, h1, h2⟩ => ⟨t, hts.mem_iff.1 h1, h2⟩,
          fun ⟨t, h1, h2⟩ => ⟨t, hts.mem_iff.2 h1, h2⟩⟩
      simp only [this]
    have hgm : Disp.getModel env T ext { d with terms := ts } numbers = d.getModel env T ext numbers :=
      rfl
    unfold Disp.calculate at he ⊢
    simp only [bind_eq_ok, ensure_eq_ok, check_eq_ok] at he
    obtain ⟨u1, h1, model, hm, u2, h2, r4, ⟨h3, rfl⟩, u4, h4, rv, ⟨h5, rfl⟩, u6, h6, cn, ⟨h7, rfl⟩, q,
      hq, hs, rfl⟩ := he
    have hsame := foldl_perm hts.symm
      (f := fun t => t.calculate env T numbers positions p (d.cnFn numbers positions d.counting) model q
        (o.r4r2.getD (getR4R2 T numbers)) (o.rvdw.getD (getRvdw T numbers)) (o.cutoff.getD {}))
      (full numbers.shape 0)
    refine ⟨_, ?_, (hsame.shape hs).symm, fun i hi => (hsame.get hs i hi).symm⟩
    simp only [bind_eq_ok, ensure_eq_ok, check_eq_ok, hch, hgm]
    exact ⟨u1, h1, model, hm, u2, h2, _, ⟨h3, rfl⟩, u4, h4, _, ⟨h5, rfl⟩, u6, h6, _, ⟨h7, rfl⟩, q, hq,
      hsame.err.1 hs, rfl⟩
  refine ⟨key d ts hts, fun e' he' => ?_⟩
  obtain ⟨e, he, -⟩ := key { d with terms := ts } d.terms hts.symm e' he'
  exact ⟨e, he⟩

end

/-! ## Histories -/

/-- Terms of an object as a multiset (empty if there is no such object). -/
def World.terms (w : World) (k : ℕ) : Multiset Term :=
  match w.disp k with
  | some d => d.terms
  | none => 0

/-- Effect of a history on the multiset of terms of object `k`: `register` adds one occurrence,
`deregister` removes one (if there is one); calls on other objects have no effect. -/
def Spec.replay (k : ℕ) (m : Multiset Term) : List Op → Multiset Term
  | [] => m
  | .register j t :: ops => replay k (if j = k then t ::ₘ m else m) ops
  | .deregister j t :: ops => replay k (if j = k then m.erase t else m) ops
  | .new .. :: ops => replay k m ops

/-- Different objects have different lists, all of them allocated. -/
structure World.Separate (w : World) : Prop where
  lt : ∀ o ∈ w.objs, o.addr < w.next
  inj : ∀ (i j : ℕ) (a b : Obj), w.objs[i]? = some a → w.objs[j]? = some b → a.addr = b.addr → i = j

section
variable {ext : Ext} {w : World}

theorem append_foldl_lists (a : ℕ) (ts : List Term) (w : World) :
    (ts.foldl (fun w t => w.append a t) w).lists =
        (fun x => if x = a then w.lists a ++ ts else w.lists x) ∧
      (ts.foldl (fun w t => w.append a t) w).objs = w.objs ∧
      (ts.foldl (fun w t => w.append a t) w).next = w.next := by
  induction ts generalizing w with
  | nil =>
    refine ⟨?_, rfl, rfl⟩
    funext x
    by_cases h : x = a <;> simp [h]
  | cons t ts ih =>
    obtain ⟨h1, h2, h3⟩ := ih (w.append a t)
    refine ⟨?_, h2, h3⟩
    rw [List.foldl_cons, h1]
    funext x
    by_cases h : x = a <;> simp [h, World.append]

theorem World.Separate.init : World.init.Separate := ⟨by simp [World.init], by simp [World.init]⟩

theorem World.Separate.step (h : w.Separate) (op : Op) : (w.step ext op).1.Separate := by
  cases op with
  | new cls model mk cf ct =>
    cases hd : Disp.new ext cls model mk cf ct with
    | error e => simpa only [World.step, hd] using h
    | ok d =>
      simp only [World.step, hd]
      obtain ⟨h1, h2, h3⟩ := append_foldl_lists w.next cls.terms
        { objs := w.objs ++ [⟨w.next, d.cnFn, d.counting, d.model, d.modelKw⟩]
          lists := fun x => if x = w.next then [] else w.lists x
          next := w.next + 1 }
      constructor
      · rw [h2, h3]
        intro o ho
        rcases List.mem_append.1 ho with ho | ho
        · exact Nat.lt_succ_of_lt (h.lt o ho)
        · simp only [List.mem_cons, List.not_mem_nil, or_false] at ho
          subst ho
          exact Nat.lt_succ_self _
      · rw [h2]
        intro i j a b hi hj hab
        rw [List.getElem?_append] at hi hj
        split at hi <;> split at hj
        · exact h.inj i j a b hi hj hab
        · rw [List.getElem?_singleton] at hj
          split at hj
          · cases hj
            have := h.lt a (List.mem_of_getElem? hi)
            simp only [hab] at this
            omega
          · cases hj
        · rw [List.getElem?_singleton] at hi
          split at hi
          · cases hi
            have := h.lt b (List.mem_of_getElem? hj)
            simp only [← hab] at this
            omega
          · cases hi
        · rw [List.getElem?_singleton] at hi hj
          split at hi
          · split at hj
            · omega
            · cases hj
          · cases hi
  | register k t =>
    simp only [World.step]
    split
    · exact h
    · exact ⟨h.lt, h.inj⟩
  | deregister k t =>
    simp only [World.step]
    split
    · exact h
    · split
      · exact ⟨h.lt, h.inj⟩
      · exact h

theorem World.Separate.run (h : w.Separate) (ops : List Op) : (w.run ext ops).Separate := by
  induction ops generalizing w with
  | nil => exact h
  | cons op ops ih => exact ih (h.step op)

/-- Objects existing before a call still exist after it, with the same attributes besides `terms`. -/
theorem World.step_objs (op : Op) {k : ℕ} {o : Obj} (hk : w.objs[k]? = some o) :
    (w.step ext op).1.objs[k]? = some o := by
  cases op with
  | new cls model mk cf ct =>
    cases hd : Disp.new ext cls model mk cf ct with
    | error e => simpa only [World.step, hd] using hk
    | ok d =>
      simp only [World.step, hd, (append_foldl_lists _ _ _).2.1]
      rw [List.getElem?_append_left (List.getElem?_eq_some_iff.1 hk).1]
      exact hk
  | register j t => simp only [World.step]; split <;> exact hk
  | deregister j t =>
    simp only [World.step]
    split
    · exact hk
    · split <;> exact hk

theorem World.terms_eq {k : ℕ} {o : Obj} (hk : w.objs[k]? = some o) :
    w.terms k = (w.lists o.addr : Multiset Term) := by
  simp [World.terms, World.disp, hk]

/-- One call on the terms of an existing object. -/
theorem step_terms (h : w.Separate) (op : Op) {k : ℕ} {o : Obj} (hk : w.objs[k]? = some o) :
    (w.step ext op).1.terms k = Spec.replay k (w.terms k) [op] := by
  have hk' := World.step_objs (ext := ext) op hk
  rw [World.terms_eq hk', World.terms_eq hk]
  cases op with
  | new cls model mk cf ct =>
    unfold Spec.replay Spec.replay
    cases hd : Disp.new ext cls model mk cf ct with
    | error e => simp only [World.step, hd]
    | ok d =>
      simp only [World.step, hd, (append_foldl_lists _ _ _).1]
      have := h.lt o (List.mem_of_getElem? hk)
      rw [if_neg (by omega), if_neg (by omega)]
  | register j t =>
    simp only [World.step, Spec.replay]
    cases hj : w.objs[j]? with
    | none =>
      have : j ≠ k := by rintro rfl; rw [hk] at hj; cases hj
      simp [this]
    | some oj =>
      by_cases hjk : j = k
      · subst hjk
        rw [hk] at hj
        cases hj
        simp [World.append, ← Multiset.coe_add, ← Multiset.singleton_add, add_comm]
      · have : o.addr ≠ oj.addr := fun h' => hjk (h.inj k j o oj hk hj h').symm
        simp [World.append, this, hjk]
  | deregister j t =>
    simp only [World.step, Spec.replay]
    cases hj : w.objs[j]? with
    | none =>
      have : j ≠ k := by rintro rfl; rw [hk] at hj; cases hj
      simp [this]
    | some oj =>
      by_cases hjk : j = k
      · subst hjk
        rw [hk] at hj
        cases hj
        simp only [if_true]
        split
        · simp
        · next hn => simp [List.erase_of_not_mem hn]
      · have : o.addr ≠ oj.addr := fun h' => hjk (h.inj k j o oj hk hj h').symm
        simp only [hjk, if_false]
        split <;> simp [this]

theorem run_terms (h : w.Separate) (ops : List Op) {k : ℕ} {o : Obj} (hk : w.objs[k]? = some o) :
    (w.run ext ops).terms k = Spec.replay k (w.terms k) ops := by
  induction ops generalizing w with
  | nil => rfl
  | cons op ops ih =>
    have h1 : (w.run ext (op :: ops)).terms k = ((w.step ext op).1.run ext ops).terms k := rfl
    rw [h1, ih (h.step op) (World.step_objs op hk), step_terms h op hk]
    cases op <;> rfl

/-- After any history, the terms of an object are the multiset resulting from the calls on that object
alone; no call on another object matters. -/
theorem C34_history (ops ops' : List Op) {k : ℕ} {d : Disp}
    (hk : (World.init.run ext ops).disp k = some d) :
    (World.init.run ext (ops ++ ops')).terms k =
      Spec.replay k ((World.init.run ext ops).terms k) ops' := by
  have hrun : World.init.run ext (ops ++ ops') = (World.init.run ext ops).run ext ops' := by
    simp [World.run, List.foldl_append]
  rw [hrun]
  unfold World.disp at hk
  obtain ⟨o, ho, -⟩ := Option.map_eq_some_iff.1 hk
  exact run_terms (World.Separate.init.run ops) ops' ho

/-- The other attributes of an object never change. -/
theorem C34_attributes (ops ops' : List Op) {k : ℕ} {d : Disp}
    (hk : (World.init.run ext ops).disp k = some d) :
    ∃ ts, (World.init.run ext (ops ++ ops')).disp k = some { d with terms := ts } := by
  have hrun : World.init.run ext (ops ++ ops') = (World.init.run ext ops).run ext ops' := by
    simp [World.run, List.foldl_append]
  rw [hrun]
  unfold World.disp at hk ⊢
  obtain ⟨o, ho, rfl⟩ := Option.map_eq_some_iff.1 hk
  generalize hw : World.init.run ext ops = w at ho
  clear hw hk hrun
  suffices h : (w.run ext ops').objs[k]? = some o by
    rw [h]; exact ⟨_, rfl⟩
  induction ops' generalizing w with
  | nil => exact ho
  | cons op ops' ih => exact ih _ (World.step_objs op ho)

/-- A constructed object has the terms of its class. -/
theorem C34_new (ops : List Op) {cls : DispClass} {model : ModelSel} {mk : Option ModelKw}
    {cf : Option CNFunc} {ct : Option CountFn} {d : Disp}
    (hd : Disp.new ext cls model mk cf ct = .ok d) :
    (World.init.run ext (ops ++ [.new cls model mk cf ct])).disp (World.init.run ext ops).objs.length =
      some d ∧ d.terms = cls.terms := by
  have hrun : World.init.run ext (ops ++ [.new cls model mk cf ct]) =
      ((World.init.run ext ops).step ext (.new cls model mk cf ct)).1 := by
    simp [World.run, List.foldl_append]
  rw [hrun]
  generalize World.init.run ext ops = w
  have ht := (new_ok hd).1
  refine ⟨?_, ht⟩
  simp only [World.step, hd, World.disp, (append_foldl_lists _ _ _).2.1, (append_foldl_lists _ _ _).1]
  simp [← ht]

/-- Deregistering: one occurrence less, or ValueError and no change at all. -/
theorem C34_deregister (ops : List Op) (k : ℕ) {d : Disp}
    (hk : (World.init.run ext ops).disp k = some d) (t : Term) :
    (t ∈ (World.init.run ext ops).terms k →
      ((World.init.run ext ops).step ext (.deregister k t)).2 = .ok () ∧
      ((World.init.run ext ops).step ext (.deregister k t)).1.terms k + {t} =
        (World.init.run ext ops).terms k) ∧
    (t ∉ (World.init.run ext ops).terms k →
      (World.init.run ext ops).step ext (.deregister k t) =
        (World.init.run ext ops, .error .value)) := by
  have hsep := World.Separate.init.run (ext := ext) ops
  generalize World.init.run ext ops = w at hk hsep
  unfold World.disp at hk
  obtain ⟨o, ho, -⟩ := Option.map_eq_some_iff.1 hk
  have hst := step_terms (ext := ext) hsep (.deregister k t) ho
  rw [hst, World.terms_eq ho]
  simp only [Spec.replay, if_true, World.step, ho]
  constructor
  · intro h
    rw [Multiset.mem_coe] at h
    rw [if_pos h]
    refine ⟨rfl, ?_⟩
    rw [add_comm, Multiset.singleton_add, Multiset.cons_erase (by simpa using h)]
  · intro h
    rw [Multiset.mem_coe] at h
    rw [if_neg h]

/-- Deregistering undoes a registration: same energies as before. -/
theorem C34_undo (ops : List Op) (k : ℕ) {d : Disp} (hk : (World.init.run ext ops).disp k = some d)
    (t : Term) :
    ∃ d', (World.init.run ext (ops ++ [.register k t, .deregister k t])).disp k = some d' ∧
      ∀ (env : Env) (T : Tables) (numbers : Tensor ℕ) (positions charge : Tensor ℝ) (p : Param)
        (o : CalcOpts) (e : Tensor ℝ), d.calculate env T ext numbers positions charge p o = .ok e →
        ∃ e', d'.calculate env T ext numbers positions charge p o = .ok e' ∧
          e'.shape = e.shape ∧ ∀ i, InB e.shape i → e'.get i = e.get i := by
  obtain ⟨ts, hts⟩ := C34_attributes ops [.register k t, .deregister k t] hk
  refine ⟨_, hts, fun env T numbers positions charge p o e he => ?_⟩
  refine (C34_energy ?_).1 e he
  have h1 := C34_history ops [.register k t, .deregister k t] hk
  simp only [Spec.replay, if_true, Multiset.erase_cons_head] at h1
  simp only [World.terms, hts, hk] at h1
  exact Multiset.coe_eq_coe.1 h1

end

/-- Two objects are created and one of them loses its three-body term. -/
def Demo.ops : List Op := [.new .d4 (.key "d4") none none none, .new .d4 (.key "d4") none none none,
  .deregister 1 ⟨.d4ATMApprox, .zero, false⟩]

/-- Only the second one is affected. -/
example : (World.init.run Demo.ext Demo.ops).terms 0 = (DispClass.d4.terms : Multiset Term) ∧
    (World.init.run Demo.ext Demo.ops).terms 1 = ([⟨.twoBody, .rational, true⟩] : List Term) := by
  have h0 := C34_new (ext := Demo.ext) [] Demo.dispD4_new
  have h1 := C34_new (ext := Demo.ext) [.new .d4 (.key "d4") none none none] Demo.dispD4_new
  have e0 := C34_history (ext := Demo.ext) [.new .d4 (.key "d4") none none none]
    [.new .d4 (.key "d4") none none none, .deregister 1 ⟨.d4ATMApprox, .zero, false⟩] (k := 0) h0.1
  have hlen : (World.init.run Demo.ext [.new .d4 (.key "d4") none none none]).objs.length = 1 := by
    simp [World.run, World.step, Demo.dispD4_new, (append_foldl_lists _ _ _).2.1, World.init]
  rw [hlen] at h1
  have e1 := C34_history (ext := Demo.ext)
    [.new .d4 (.key "d4") none none none, .new .d4 (.key "d4") none none none]
    [.deregister 1 ⟨.d4ATMApprox, .zero, false⟩] (k := 1) h1.1
  refine ⟨e0.trans ?_, e1.trans ?_⟩
  · have : (World.init.run Demo.ext [.new .d4 (.key "d4") none none none]).terms 0 =
        (DispClass.d4.terms : Multiset Term) := by
      have h : (World.init.run Demo.ext [.new .d4 (.key "d4") none none none]).disp 0 =
        some Demo.dispD4 := h0.1
      unfold World.terms
      rw [h, ← h0.2]
    simp [Spec.replay, this]
  · have : (World.init.run Demo.ext [.new .d4 (.key "d4") none none none,
        .new .d4 (.key "d4") none none none]).terms 1 = (DispClass.d4.terms : Multiset Term) := by
      have h : (World.init.run Demo.ext [.new .d4 (.key "d4") none none none,
        .new .d4 (.key "d4") none none none]).disp 1 = some Demo.dispD4 := h1.1
      unfold World.terms
      rw [h, ← h1.2]
    rw [this]
    simp only [Spec.replay, if_true, Multiset.coe_erase]
    rfl

/-- One `DispD4` object. -/
theorem Demo.one_disp : (World.init.run Demo.ext [.new .d4 (.key "d4") none none none]).disp 0 =
    some Demo.dispD4 := (C34_new (ext := Demo.ext) [] Demo.dispD4_new).1

example := C34_attributes (ext := Demo.ext) _ Demo.ops Demo.one_disp
example := C34_deregister (ext := Demo.ext) _ 0 Demo.one_disp ⟨.d4ATMApprox, .zero, false⟩
example := C34_undo (ext := Demo.ext) _ 0 Demo.one_disp ⟨.d3ATM, .zero, false⟩

/-- The two terms in the opposite order. -/
example := C34_energy (env := Demo.env) (T := Demo.T) (ext := Demo.ext) (numbers := Demo.numbers)
  (positions := Demo.positions) (charge := Demo.charge) (p := Demo.param) (o := {})
  (d := Demo.dispD4) (ts := [⟨.d4ATMApprox, .zero, false⟩, ⟨.twoBody, .rational, true⟩])
  (List.Perm.swap _ _ _)

end TadDftd4
