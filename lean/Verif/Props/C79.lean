import Verif.Model.Aliasing
import Verif.Props.C46
import Verif.Props.C49
import Verif.Props.C62

/-!
# C79: settings of a dispersion object and the dictionaries they came from
-/

open scoped Classical

namespace TadDftd4

open Tensor

namespace Alias

/-- `Touches a st`: the statement changes the dictionary or model object at address `a`. -/
def Touches (a : ℕ) : Stmt → Prop
  | .setDict b _ => b = a
  | .setCn b _ => b = a
  | .setModel b _ => b = a
  | _ => False

/-- The statement changes the terms of object `k`. -/
def Edits (k : ℕ) : Stmt → Prop
  | .register j _ => j = k
  | .deregister j _ => j = k
  | _ => False

section lemmas
variable {ext : Ext} {s : Store}

/-- Attributes of the object other than its terms. -/
def AObj.Same (o o' : AObj) : Prop :=
  o'.cnFn = o.cnFn ∧ o'.cnKw = o.cnKw ∧ o'.model = o.model ∧ o'.modelKw = o.modelKw

theorem AObj.Same.refl (o : AObj) : o.Same o := ⟨rfl, rfl, rfl, rfl⟩

theorem AObj.Same.trans {o o' o'' : AObj} (h : o.Same o') (h' : o'.Same o'') : o.Same o'' :=
  ⟨h'.1.trans h.1, h'.2.1.trans h.2.1, h'.2.2.1.trans h.2.2.1, h'.2.2.2.trans h.2.2.2⟩

theorem step_new_cases (cls : DispClass) (model : Sel) (mk ck : Option ℕ) (cf : Option CNFunc) :
    s.step ext (.new cls model mk cf ck) = s ∨
    ∃ sel d, s.names model mk ck ∧ s.sel model = some sel ∧
      Disp.new ext cls sel (mk.map s.kw) cf (ck.bind s.cn) = .ok d ∧
      s.step ext (.new cls model mk cf ck) =
        { s with
          kw := Function.update s.kw s.next {}
          cn := Function.update s.cn (s.next + 1) none
          next := s.next + 2
          objs := s.objs ++ [⟨d.terms, d.cnFn, s.keepCn ck, model.keep ext, s.keepKw model mk⟩] } := by
  by_cases hn : s.names model mk ck
  · cases hs : s.sel model with
    | none => exact Or.inl (by simp [Store.step, hs])
    | some sel =>
      cases hd : Disp.new ext cls sel (mk.map s.kw) cf (ck.bind s.cn) with
      | error e => exact Or.inl (by simp [Store.step, hs, hd])
      | ok d => exact Or.inr ⟨sel, d, hn, rfl, hd, by simp [Store.step, hs, hd, hn]⟩
  · exact Or.inl (by simp [Store.step, hn])

/-- Objects keep their attributes, apart from the terms. -/
theorem step_obj (st : Stmt) {k : ℕ} {o : AObj} (h : s.objs[k]? = some o) :
    ∃ o', (s.step ext st).objs[k]? = some o' ∧ o.Same o' ∧ (¬ Edits k st → o' = o) := by
  cases st with
  | new cls model mk cf ck =>
    rcases step_new_cases (ext := ext) (s := s) cls model mk ck cf with e | ⟨_, _, _, _, _, e⟩
    · exact ⟨o, by rw [e, h], .refl o, fun _ => rfl⟩
    · refine ⟨o, ?_, .refl o, fun _ => rfl⟩
      rw [e]
      have hk : k < s.objs.length := (List.getElem?_eq_some_iff.1 h).1
      simp only [List.getElem?_append_left hk, h]
  | register j t =>
    by_cases hj : j = k
    · exact ⟨{ o with terms := o.terms ++ [t] }, by simp [Store.step, hj, h], ⟨rfl, rfl, rfl, rfl⟩,
        fun hn => absurd hj hn⟩
    · exact ⟨o, by simp [Store.step, hj, h], .refl o, fun _ => rfl⟩
  | deregister j t =>
    by_cases hj : j = k
    · exact ⟨{ o with terms := o.terms.erase t }, by simp [Store.step, hj, h], ⟨rfl, rfl, rfl, rfl⟩,
        fun hn => absurd hj hn⟩
    · exact ⟨o, by simp [Store.step, hj, h], .refl o, fun _ => rfl⟩
  | dict kw => exact ⟨o, h, .refl o, fun _ => rfl⟩
  | cnDict c => exact ⟨o, h, .refl o, fun _ => rfl⟩
  | model m => exact ⟨o, h, .refl o, fun _ => rfl⟩
  | setDict a kw =>
    refine ⟨o, ?_, .refl o, fun _ => rfl⟩
    simp only [Store.step]
    split <;> exact h
  | setCn a c =>
    refine ⟨o, ?_, .refl o, fun _ => rfl⟩
    simp only [Store.step]
    split <;> exact h
  | setModel a m =>
    refine ⟨o, ?_, .refl o, fun _ => rfl⟩
    simp only [Store.step]
    split <;> exact h

/-- What a statement does to the contents of an address that has been allocated. -/
theorem step_addr (st : Stmt) {a : ℕ} (ha : a < s.next) :
    a < (s.step ext st).next ∧ ((s.step ext st).caller a ↔ s.caller a) ∧
    (s.model a ≠ none → (s.step ext st).model a ≠ none) ∧
    ((¬ s.caller a ∨ ¬ Touches a st) → (s.step ext st).kw a = s.kw a ∧ (s.step ext st).cn a = s.cn a ∧
      (s.step ext st).model a = s.model a) := by
  have h1 : a ≠ s.next := by omega
  have h2 : a ≠ s.next + 1 := by omega
  cases st with
  | new cls model mk cf ck =>
    rcases step_new_cases (ext := ext) (s := s) cls model mk ck cf with e | ⟨_, _, _, _, _, e⟩
    · rw [e]; exact ⟨ha, Iff.rfl, id, fun _ => ⟨rfl, rfl, rfl⟩⟩
    · rw [e]
      exact ⟨by show a < s.next + 2; omega, Iff.rfl, id, fun _ => ⟨by simp [h1], by simp [h2], rfl⟩⟩
  | register j t => exact ⟨ha, Iff.rfl, id, fun _ => ⟨rfl, rfl, rfl⟩⟩
  | deregister j t => exact ⟨ha, Iff.rfl, id, fun _ => ⟨rfl, rfl, rfl⟩⟩
  | dict kw =>
    exact ⟨by show a < s.next + 1; omega, by simp [Store.step, h1], id, fun _ => ⟨by simp [Store.step, h1], rfl, rfl⟩⟩
  | cnDict c =>
    exact ⟨by show a < s.next + 1; omega, by simp [Store.step, h1], id, fun _ => ⟨rfl, by simp [Store.step, h1], rfl⟩⟩
  | model m =>
    exact ⟨by show a < s.next + 1; omega, by simp [Store.step, h1], by simp [Store.step, h1],
      fun _ => ⟨rfl, rfl, by simp [Store.step, h1]⟩⟩
  | setDict b kw =>
    by_cases hb : s.caller b
    · have e : s.step ext (.setDict b kw) = { s with kw := Function.update s.kw b kw } := by simp [Store.step, hb]
      rw [e]
      refine ⟨ha, Iff.rfl, id, fun hc => ⟨?_, rfl, rfl⟩⟩
      have : a ≠ b := by
        rintro rfl
        rcases hc with hc | hc
        · exact hc hb
        · exact hc rfl
      simp [this]
    · have e : s.step ext (.setDict b kw) = s := by simp [Store.step, hb]
      rw [e]
      exact ⟨ha, Iff.rfl, id, fun _ => ⟨rfl, rfl, rfl⟩⟩
  | setCn b c =>
    by_cases hb : s.caller b
    · have e : s.step ext (.setCn b c) = { s with cn := Function.update s.cn b c } := by simp [Store.step, hb]
      rw [e]
      refine ⟨ha, Iff.rfl, id, fun hc => ⟨rfl, ?_, rfl⟩⟩
      have : a ≠ b := by
        rintro rfl
        rcases hc with hc | hc
        · exact hc hb
        · exact hc rfl
      simp [this]
    · have e : s.step ext (.setCn b c) = s := by simp [Store.step, hb]
      rw [e]
      exact ⟨ha, Iff.rfl, id, fun _ => ⟨rfl, rfl, rfl⟩⟩
  | setModel b m =>
    by_cases hb : s.caller b
    · have e : s.step ext (.setModel b m) = { s with model := Function.update s.model b (some m) } := by simp [Store.step, hb]
      rw [e]
      refine ⟨ha, Iff.rfl, fun hm => ?_, fun hc => ⟨rfl, rfl, ?_⟩⟩
      · by_cases hab : a = b
        · subst hab; simp
        · simpa [hab] using hm
      · have : a ≠ b := by
          rintro rfl
          rcases hc with hc | hc
          · exact hc hb
          · exact hc rfl
        simp [this]
    · have e : s.step ext (.setModel b m) = s := by simp [Store.step, hb]
      rw [e]
      exact ⟨ha, Iff.rfl, id, fun _ => ⟨rfl, rfl, rfl⟩⟩

theorem run_obj (h : List Stmt) {k : ℕ} {o : AObj} (ho : s.objs[k]? = some o) :
    ∃ o', (s.run ext h).objs[k]? = some o' ∧ o.Same o' ∧ ((∀ st ∈ h, ¬ Edits k st) → o' = o) := by
  induction h generalizing s o with
  | nil => exact ⟨o, ho, .refl o, fun _ => rfl⟩
  | cons st h ih =>
    obtain ⟨o1, h1, h2, h3⟩ := step_obj (ext := ext) st ho
    obtain ⟨o2, k1, k2, k3⟩ := ih h1
    exact ⟨o2, k1, h2.trans k2, fun hn => (k3 fun st hs => hn st (by simp [hs])).trans (h3 (hn st (by simp)))⟩

theorem run_addr (h : List Stmt) {a : ℕ} (ha : a < s.next) :
    a < (s.run ext h).next ∧ ((s.run ext h).caller a ↔ s.caller a) ∧
    (s.model a ≠ none → (s.run ext h).model a ≠ none) ∧
    ((¬ s.caller a ∨ ∀ st ∈ h, ¬ Touches a st) → (s.run ext h).kw a = s.kw a ∧ (s.run ext h).cn a = s.cn a ∧
      (s.run ext h).model a = s.model a) := by
  induction h generalizing s with
  | nil => exact ⟨ha, Iff.rfl, id, fun _ => ⟨rfl, rfl, rfl⟩⟩
  | cons st h ih =>
    obtain ⟨h1, h2, h3, h4⟩ := step_addr (ext := ext) st ha
    obtain ⟨k1, k2, k3, k4⟩ := ih h1
    refine ⟨k1, k2.trans h2, fun hm => k3 (h3 hm), fun hc => ?_⟩
    have e := h4 (hc.imp id fun g => g st (by simp))
    have e' := k4 (hc.imp (fun g => fun g' => g (h2.1 g')) fun g st hs => g st (by simp [hs]))
    exact ⟨e'.1.trans e.1, e'.2.1.trans e.2.1, e'.2.2.trans e.2.2⟩

/-- Addresses of the caller have been allocated. -/
def Store.Wf (s : Store) : Prop := ∀ a, s.caller a → a < s.next

theorem Store.Wf.step (h : s.Wf) (st : Stmt) : (s.step ext st).Wf := by
  intro a ha
  by_cases hlt : a < s.next
  · exact (step_addr (ext := ext) st hlt).1
  · cases st with
    | new cls model mk cf ck =>
      rcases step_new_cases (ext := ext) (s := s) cls model mk ck cf with e | ⟨_, _, _, _, _, e⟩
      · rw [e] at ha ⊢; exact h a ha
      · rw [e] at ha
        exact absurd (h a ha) hlt
    | register j t => exact h a ha
    | deregister j t => exact h a ha
    | dict kw =>
      by_cases hn : a = s.next
      · show a < s.next + 1; omega
      · exact absurd (h a (by simpa [Store.step, hn] using ha)) hlt
    | cnDict c =>
      by_cases hn : a = s.next
      · show a < s.next + 1; omega
      · exact absurd (h a (by simpa [Store.step, hn] using ha)) hlt
    | model m =>
      by_cases hn : a = s.next
      · show a < s.next + 1; omega
      · exact absurd (h a (by simpa [Store.step, hn] using ha)) hlt
    | setDict b kw =>
      have : s.caller a := by
        simp only [Store.step] at ha; split at ha <;> exact ha
      exact absurd (h a this) hlt
    | setCn b kw =>
      have : s.caller a := by
        simp only [Store.step] at ha; split at ha <;> exact ha
      exact absurd (h a this) hlt
    | setModel b kw =>
      have : s.caller a := by
        simp only [Store.step] at ha; split at ha <;> exact ha
      exact absurd (h a this) hlt

theorem Store.Wf.run (h : s.Wf) (H : List Stmt) : (s.run ext H).Wf := by
  induction H generalizing s with
  | nil => exact h
  | cons st H ih => exact ih (h.step st)

theorem Store.wf_init : Store.init.Wf := fun _ h => h.elim

end lemmas

/-- States that user code can reach. -/
def Store.Reachable (ext : Ext) (s : Store) : Prop := ∃ H, s = Store.init.run ext H

theorem Store.Reachable.wf {ext : Ext} {s : Store} (h : s.Reachable ext) : s.Wf := by
  obtain ⟨H, rfl⟩ := h
  exact Store.wf_init.run H

section main
variable {ext : Ext} {s : Store} {cls : DispClass} {model : Sel} {mk ck : Option ℕ} {cf : Option CNFunc}
  {sel : ModelSel} {d : Disp}

/-- **C79**, what the code does: whatever happens after the creation of an object, calculations use the
*current* contents of the dictionaries and the model object that were passed to the constructor. Only an
empty `model_kwargs` is not kept: additions to it later on have no effect. -/
theorem C79_settings (hs : s.Reachable ext) (hn : s.names model mk ck) (hm : s.sel model = some sel)
    (hnew : Disp.new ext cls sel (mk.map s.kw) cf (ck.bind s.cn) = .ok d) (H : List Stmt) :
    ∃ d', ((s.step ext (.new cls model mk cf ck)).run ext H).disp s.objs.length = some d' ∧
      let s' := (s.step ext (.new cls model mk cf ck)).run ext H
      d'.cnFn = d.cnFn ∧
      (∀ a, ck = some a → d'.counting = s'.cn a) ∧ (ck = none → d'.counting = none) ∧
      (∀ k, model = .key k → d'.model = .key (ext.casefold k)) ∧
      (∀ a, model = .inst a → ∃ m, s'.model a = some m ∧ d'.model = .inst m) ∧
      (∀ k a, model = .key k → mk = some a → ¬ (s.kw a).isEmpty → d'.modelKw = s'.kw a) ∧
      (∀ k a, model = .key k → mk = some a → (s.kw a).isEmpty → d'.modelKw = {}) ∧
      (mk = none ∨ (∃ a, model = .inst a) → d'.modelKw = {}) ∧
      ((∀ st ∈ H, ¬ Edits s.objs.length st) → d'.terms = d.terms) := by
  obtain ⟨H0, hH0⟩ := hs
  have hwf : s.Wf := Store.Reachable.wf ⟨H0, hH0⟩
  obtain ⟨s1, hs1⟩ : ∃ s1, s1 = s.step ext (.new cls model mk cf ck) := ⟨_, rfl⟩
  rw [← hs1]
  rcases step_new_cases (ext := ext) (s := s) cls model mk ck cf with e | ⟨sel', d1, -, h2, h3, e⟩
  · exfalso
    have e2 : (s.step ext (.new cls model mk cf ck)).next = s.next + 2 := by
      simp [Store.step, hn, hm, hnew]
    rw [e] at e2
    omega
  obtain rfl : sel' = sel := by rw [hm] at h2; exact (Option.some.inj h2).symm
  obtain rfl : d1 = d := by rw [hnew] at h3; exact (Except.ok.inj h3).symm
  rw [← hs1] at e
  have hobj : s1.objs[s.objs.length]? = some ⟨d1.terms, d1.cnFn, s.keepCn ck, model.keep ext, s.keepKw model mk⟩ := by
    rw [e]; simp
  obtain ⟨o, ho, hsame, hterms⟩ := run_obj (ext := ext) H hobj
  obtain ⟨c1, c2, c3, c4⟩ := hsame
  simp only at c1 c2 c3 c4
  -- addresses kept by the object
  have hcaller : ∀ a, s.caller a → a < s1.next := fun a ha => by
    rw [e]; have := hwf a ha; show a < s.next + 2; omega
  have hnext : s1.next = s.next + 2 := by rw [e]
  have hpriv : ∀ a, s.next ≤ a → ¬ s1.caller a := fun a ha hc => by
    rw [e] at hc; have := hwf a hc; omega
  have hkw : s1.kw s.next = {} := by rw [e]; simp
  have hcn : s1.cn (s.next + 1) = none := by rw [e]; simp
  have hkw' : (s1.run ext H).kw s.next = {} :=
    ((run_addr (ext := ext) H (s := s1) (a := s.next) (by omega)).2.2.2 (Or.inl (hpriv _ le_rfl))).1.trans hkw
  have hcn' : (s1.run ext H).cn (s.next + 1) = none :=
    ((run_addr (ext := ext) H (s := s1) (a := s.next + 1) (by omega)).2.2.2
      (Or.inl (hpriv _ (by omega)))).2.1.trans hcn
  have hsel : ∃ x, (s1.run ext H).sel o.model = some x ∧ (∀ k, model = .key k → x = .key (ext.casefold k)) ∧
      ∀ a, model = .inst a → ∃ m, (s1.run ext H).model a = some m ∧ x = .inst m := by
    rw [c3]
    cases model with
    | key k => exact ⟨_, rfl, (by rintro k' ⟨⟩; rfl), (by rintro a ⟨⟩)⟩
    | inst a =>
      have ha : s.model a ≠ none := by
        intro hc
        simp [Store.sel, hc] at hm
      have ha1 : s1.model a ≠ none := by rw [e]; exact ha
      have := (run_addr (ext := ext) H (s := s1) (hcaller a (hn.1 a rfl))).2.2.1 ha1
      obtain ⟨m, hm'⟩ := Option.ne_none_iff_exists'.1 this
      exact ⟨.inst m, by simp [Sel.keep, Store.sel, hm'], (by rintro k ⟨⟩), (by rintro a' ⟨⟩; exact ⟨m, hm', rfl⟩)⟩
  obtain ⟨x, hx, hx1, hx2⟩ := hsel
  refine ⟨⟨o.terms, o.cnFn, (s1.run ext H).cn o.cnKw, x, (s1.run ext H).kw o.modelKw⟩, ?_, c1, ?_, ?_, hx1, hx2,
    ?_, ?_, ?_, fun hE => by rw [hterms hE]⟩
  · simp [Store.disp, ho, hx]
  · rintro a rfl
    simp only [c2]
    rfl
  · rintro rfl
    simp only [c2]
    exact hcn'
  · rintro k a rfl rfl hne
    simp only [c4, Store.keepKw, if_neg hne]
  · rintro k a rfl rfl hem
    simp only [c4, Store.keepKw, if_pos hem]
    exact hkw'
  · intro h
    have : s.keepKw model mk = s.next := by
      rcases h with rfl | ⟨a, rfl⟩
      · cases model <;> rfl
      · rfl
    simp only [c4, this]
    exact hkw'

theorem new_spec {mk : Option ModelKw} {ct : Option CountFn}
    (h : Disp.new ext cls sel mk cf ct = .ok d) : d.counting = ct ∧
    (∀ k, sel = .key k → d.model = .key (ext.casefold k) ∧ d.modelKw = mk.getD {} ∧ ext.casefold k ∈ cls.allowedModels ∧
      (match cf with | some f => Except.ok f | none => defaultCN ext (ext.casefold k)) = .ok d.cnFn) ∧
    (∀ m, sel = .inst m → d.model = .inst m ∧ d.modelKw = {}) := by
  cases sel with
  | key k =>
    by_cases hk : ext.casefold k ∈ cls.allowedModels
    · cases cf with
      | some f =>
        simp only [Disp.new, hk, if_true] at h
        obtain rfl := Except.ok.inj h
        exact ⟨rfl, by rintro k' ⟨⟩; exact ⟨rfl, rfl, hk, rfl⟩, by rintro m ⟨⟩⟩
      | none =>
        cases hc : defaultCN ext (ext.casefold k) with
        | error e => simp [Disp.new, hk, hc, bind, Except.bind] at h
        | ok f =>
          simp only [Disp.new, hk, if_true, hc, bind, Except.bind] at h
          obtain rfl := Except.ok.inj h
          exact ⟨rfl, by rintro k' ⟨⟩; exact ⟨rfl, rfl, hk, hc⟩, by rintro m ⟨⟩⟩
    · simp [Disp.new, hk, bind, Except.bind] at h
  | inst m =>
    cases cf with
    | some f =>
      simp only [Disp.new] at h
      obtain rfl := Except.ok.inj h
      exact ⟨rfl, by rintro k ⟨⟩, by rintro m' ⟨⟩; exact ⟨rfl, rfl⟩⟩
    | none =>
      cases hc : defaultCN ext m.kind.className with
      | error e => simp [Disp.new, hc, bind, Except.bind] at h
      | ok f =>
        simp only [Disp.new, hc, bind, Except.bind] at h
        obtain rfl := Except.ok.inj h
        exact ⟨rfl, by rintro k ⟨⟩, by rintro m' ⟨⟩; exact ⟨rfl, rfl⟩⟩

theorem eq_of_isEmpty {kw : ModelKw} (h : kw.isEmpty) : kw = {} := by
  obtain ⟨h1, h2, h3, h4, h5, h6⟩ := h
  cases kw
  simp_all

/-- **C79**, as far as it holds: nobody changes what was passed to the constructor. Then the object stays
as it was created. -/
theorem C79_fixed_partial (hs : s.Reachable ext) (hn : s.names model mk ck) (hm : s.sel model = some sel)
    (hnew : Disp.new ext cls sel (mk.map s.kw) cf (ck.bind s.cn) = .ok d) (H : List Stmt)
    (hH : ∀ st ∈ H, ¬ Edits s.objs.length st ∧
      ∀ a, model = .inst a ∨ mk = some a ∨ ck = some a → ¬ Touches a st) :
    ((s.step ext (.new cls model mk cf ck)).run ext H).disp s.objs.length = some d := by
  obtain ⟨d', h0, h1, h2, h3, h4, h5, h6, h7, h8, h9⟩ := C79_settings hs hn hm hnew H
  rw [h0]
  have hwf := hs.wf
  obtain ⟨n1, n2, n3⟩ := new_spec hnew
  have hkeep : ∀ a, model = .inst a ∨ mk = some a ∨ ck = some a →
      ((s.step ext (.new cls model mk cf ck)).run ext H).kw a = s.kw a ∧
      ((s.step ext (.new cls model mk cf ck)).run ext H).cn a = s.cn a ∧
      ((s.step ext (.new cls model mk cf ck)).run ext H).model a = s.model a := by
    intro a ha
    have hc : s.caller a := by
      rcases ha with ha | ha | ha
      · exact hn.1 a ha
      · exact hn.2.1 a ha
      · exact hn.2.2 a ha
    have a1 := step_addr (ext := ext) (.new cls model mk cf ck) (hwf a hc)
    have a2 := run_addr (ext := ext) H a1.1
    have e1 := a1.2.2.2 (Or.inr fun h => h)
    have e2 := a2.2.2.2 (Or.inr fun st hst => (hH st hst).2 a ha)
    exact ⟨e2.1.trans e1.1, e2.2.1.trans e1.2.1, e2.2.2.trans e1.2.2⟩
  have t1 : d'.terms = d.terms := h9 fun st hst => (hH st hst).1
  have t2 : d'.counting = d.counting := by
    rw [n1]
    cases hck : ck with
    | none => exact h3 hck
    | some a => exact (h2 a hck).trans (hkeep a (Or.inr (Or.inr hck))).2.1
  have t3 : d'.model = d.model := by
    cases hmo : model with
    | key k =>
      rw [hmo] at hm
      rw [h4 k hmo, (n2 k (Option.some.inj hm).symm).1]
    | inst a =>
      obtain ⟨m, g1, g2⟩ := h5 a hmo
      rw [(hkeep a (Or.inl hmo)).2.2] at g1
      rw [hmo] at hm
      have : sel = .inst m := by
        simp only [Store.sel, g1, Option.map_some, Option.some.injEq] at hm
        exact hm.symm
      rw [g2, (n3 m this).1]
  have t4 : d'.modelKw = d.modelKw := by
    cases hmo : model with
    | key k =>
      rw [hmo] at hm
      rw [(n2 k (Option.some.inj hm).symm).2.1]
      cases hmk : mk with
      | none => exact h8 (Or.inl hmk)
      | some a =>
        by_cases hem : (s.kw a).isEmpty
        · rw [h7 k a hmo hmk hem]
          exact (eq_of_isEmpty hem).symm
        · exact (h6 k a hmo hmk hem).trans (hkeep a (Or.inr (Or.inl hmk))).1
    | inst a =>
      obtain ⟨m, g1, g2⟩ := h5 a hmo
      rw [(hkeep a (Or.inl hmo)).2.2] at g1
      rw [hmo] at hm
      have : sel = .inst m := by
        simp only [Store.sel, g1, Option.map_some, Option.some.injEq] at hm
        exact hm.symm
      rw [h8 (Or.inr ⟨a, hmo⟩), (n3 m this).2]
  obtain ⟨a1, a2, a3, a4, a5⟩ := d'
  obtain ⟨b1, b2, b3, b4, b5⟩ := d
  simp only at t1 t2 t3 t4 h1
  rw [t1, t2, t3, t4, h1]

/-- **C79**, otherwise: an object that was created with a key and keywords is, at any time, like one that
is created now from the same dictionaries. -/
theorem C79_rebuilt (hs : s.Reachable ext) {k : String} {a : ℕ} (hn : s.names (.key k) (some a) ck)
    (hnew : Disp.new ext cls (.key k) (some (s.kw a)) cf (ck.bind s.cn) = .ok d) (H : List Stmt)
    (hE : ∀ st ∈ H, ¬ Edits s.objs.length st) (hne : ¬ (s.kw a).isEmpty) :
    let s' := (s.step ext (.new cls (.key k) (some a) cf ck)).run ext H
    ∃ d', s'.disp s.objs.length = some d' ∧
      Disp.new ext cls (.key k) (some (s'.kw a)) cf (ck.bind s'.cn) = .ok d' := by
  intro s'
  obtain ⟨d', h0, h1, h2, h3, h4, h5, h6, h7, h8, h9⟩ := C79_settings hs hn rfl hnew H
  refine ⟨d', h0, ?_⟩
  obtain ⟨n1, n2, -⟩ := new_spec hnew
  obtain ⟨-, -, m3, m4⟩ := n2 k rfl
  have t1 := h9 hE
  have t4 := h6 k a rfl rfl hne
  have t3 := h4 k rfl
  have t2 : d'.counting = ck.bind s'.cn := by
    cases hck : ck with
    | none => exact h3 hck
    | some b => exact h2 b hck
  have tt : d.terms = cls.terms := new_terms hnew
  obtain ⟨a1, a2, a3, a4, a5⟩ := d'
  simp only at t1 t2 t3 t4 h1
  subst t1 t2 t3 t4 h1
  cases cf with
  | some f =>
    obtain rfl := Except.ok.inj m4
    simp only [Disp.new, m3, if_true, tt]
    rfl
  | none =>
    simp only at m4
    simp only [Disp.new, m3, if_true, m4, tt, bind, Except.bind]
    rfl

end main

/-- The store after `kw = {"ga": 3.0}`. -/
noncomputable def demoStore : Store := Store.init.run Demo.ext [.dict { ga := some 3 }]

theorem demoStore_spec : demoStore.Reachable Demo.ext ∧ demoStore.kw 0 = { ga := some 3 } ∧
    demoStore.caller 0 ∧ demoStore.objs.length = 0 ∧ demoStore.names (.key "d4") (some 0) none ∧
    ¬ (demoStore.kw 0).isEmpty := by
  have hkw : demoStore.kw 0 = { ga := some 3 } := by simp [demoStore, Store.run, Store.step, Store.init]
  have hcal : demoStore.caller 0 := by simp [demoStore, Store.run, Store.step, Store.init]
  have hobj : demoStore.objs.length = 0 := by simp [demoStore, Store.run, Store.step, Store.init]
  exact ⟨⟨_, rfl⟩, hkw, hcal, hobj,
    ⟨by rintro a ⟨⟩, by rintro a ⟨⟩; exact hcal, by rintro a ⟨⟩⟩,
    by rw [hkw]; rintro ⟨h, -⟩; simp at h⟩

/-- `disp = DispD4(model_kwargs=kw)` is accepted. -/
theorem demoStore_new : ∃ d, Disp.new Demo.ext .d4 (.key "d4") (some (demoStore.kw 0)) none none = .ok d :=
  (C35_accept (ext := Demo.ext) (cls := .d4) (mk := some (demoStore.kw 0)) (cf := none)
    (ct := none) "d4").1.2 (Or.inr (Or.inl (Demo.keys "d4" (by simp))))

/-- `kw["ga"] = 2.0` after the object was created: the object now uses 2. -/
example : ∃ d, ((demoStore.step Demo.ext (.new .d4 (.key "d4") (some 0) none none)).run Demo.ext
    [.setDict 0 { ga := some 2 }]).disp 0 = some d ∧ d.modelKw = { ga := some 2 } := by
  obtain ⟨hR, hkw, hcal, hobj, hn, hne⟩ := demoStore_spec
  obtain ⟨d, hd⟩ := demoStore_new
  obtain ⟨d', h0, h1, h2, h3, h4, h5, h6, -⟩ := C79_settings hR hn rfl hd [.setDict 0 { ga := some 2 }]
  rw [hobj] at h0
  refine ⟨d', h0, (h6 "d4" 0 rfl rfl hne).trans ?_⟩
  have hc := (step_addr (ext := Demo.ext) (.new .d4 (.key "d4") (some 0) none none) (hR.wf 0 hcal)).2.1.2 hcal
  simp only [Store.run, List.foldl_cons, List.foldl_nil]
  simp [Store.step] at hc ⊢
  rw [if_pos hc]
  simp

/-- Another dictionary is created and changed, another object is created from it: nothing happens to the
first one. -/
example : ∃ d, Disp.new Demo.ext .d4 (.key "d4") (some { ga := some 3 }) none none = .ok d ∧
    ((demoStore.step Demo.ext (.new .d4 (.key "d4") (some 0) none none)).run Demo.ext
      [.dict { gc := some 1 }, .setDict 1 {}, .new .d4 (.key "d4s") (some 1) none none]).disp 0 = some d := by
  obtain ⟨hR, hkw, hcal, hobj, hn, hne⟩ := demoStore_spec
  obtain ⟨d, hd⟩ := demoStore_new
  refine ⟨d, by rw [← hkw]; exact hd, ?_⟩
  have := C79_fixed_partial hR hn rfl hd
    [.dict { gc := some 1 }, .setDict 1 {}, .new .d4 (.key "d4s") (some 1) none none]
    (by simp [Edits, Touches])
  rwa [hobj] at this

/-- `kw["ga"] = 2.0`: as if it were created now. -/
example : ∃ d, ((demoStore.step Demo.ext (.new .d4 (.key "d4") (some 0) none none)).run Demo.ext
    [.setDict 0 { ga := some 2 }]).disp 0 = some d ∧
    Disp.new Demo.ext .d4 (.key "d4") (some { ga := some 2 }) none none = .ok d := by
  obtain ⟨hR, hkw, hcal, hobj, hn, hne⟩ := demoStore_spec
  obtain ⟨d, hd⟩ := demoStore_new
  obtain ⟨d', h0, h1⟩ := C79_rebuilt (cls := .d4) (cf := none) (ck := none) hR hn hd
    [.setDict 0 { ga := some 2 }] (by simp [Edits]) hne
  rw [hobj] at h0
  refine ⟨d', h0, ?_⟩
  rw [← h1]
  have hc := (step_addr (ext := Demo.ext) (.new .d4 (.key "d4") (some 0) none none) (hR.wf 0 hcal)).2.1.2 hcal
  simp only [Store.run, List.foldl_cons, List.foldl_nil]
  simp [Store.step] at hc ⊢
  rw [if_pos hc]
  simp

/-- Full statement: the energies of an object do not depend on what happens to the dictionaries it was
created from. -/
def SettingsFixed (ext : Ext) : Prop :=
  ∀ (s : Store) (cls : DispClass) (model : Sel) (mk ck : Option ℕ) (cf : Option CNFunc) (sel : ModelSel)
    (d d' : Disp) (H : List Stmt), s.Reachable ext → s.names model mk ck → s.sel model = some sel →
    Disp.new ext cls sel (mk.map s.kw) cf (ck.bind s.cn) = .ok d →
    (∀ st ∈ H, ¬ Edits s.objs.length st) →
    ((s.step ext (.new cls model mk cf ck)).run ext H).disp s.objs.length = some d' →
    ∀ env T numbers positions charge p o, d'.calculate env T ext numbers positions charge p o =
      d.calculate env T ext numbers positions charge p o

/-- The full statement is false: `kw = {"ga": 3.0}; disp = DispD4(model_kwargs=kw)` computes the energies of
water, after `kw["gamma"] = 2.0` it raises TypeError. -/
theorem C79_fixed_false : ¬ SettingsFixed Demo.ext := by
  intro h
  obtain ⟨s, hs⟩ : ∃ s, s = Store.init.run Demo.ext [.dict { ga := some 3 }] := ⟨_, rfl⟩
  have hkw : s.kw 0 = { ga := some 3 } := by rw [hs]; simp [Store.run, Store.step, Store.init]
  have hcal : s.caller 0 := by rw [hs]; simp [Store.run, Store.step, Store.init]
  have hobj : s.objs.length = 0 := by rw [hs]; simp [Store.run, Store.step, Store.init]
  have hR : s.Reachable Demo.ext := ⟨_, hs⟩
  have hn : s.names (.key "d4") (some 0) none :=
    ⟨by rintro a ⟨⟩, by rintro a ⟨⟩; exact hcal, by rintro a ⟨⟩⟩
  have hk := Demo.keys "d4" (by simp)
  obtain ⟨d, hd⟩ := (C35_accept (ext := Demo.ext) (cls := .d4) (mk := some (s.kw 0)) (cf := none)
    (ct := none) "d4").1.2 (Or.inr (Or.inl hk))
  have hne : ¬ (s.kw 0).isEmpty := by rw [hkw]; rintro ⟨h, -⟩; simp at h
  obtain ⟨d', h1, h2⟩ := C79_rebuilt (cls := .d4) (cf := none) (ck := none) hR hn hd
    [.setDict 0 { ga := some 3, extra := ["gamma"] }] (by simp [Edits]) hne
  have hs' : ((s.step Demo.ext (.new .d4 (.key "d4") (some 0) none none)).run Demo.ext
      [.setDict 0 { ga := some 3, extra := ["gamma"] }]).kw 0 = { ga := some 3, extra := ["gamma"] } := by
    have hc := (step_addr (ext := Demo.ext) (.new .d4 (.key "d4") (some 0) none none) (hR.wf 0 hcal)).2.1.2 hcal
    simp [Store.run, Store.step] at hc ⊢
    rw [if_pos hc]
    simp
  rw [hs'] at h2
  have e := h s .d4 (.key "d4") (some 0) none none (.key "d4") d d'
    [.setDict 0 { ga := some 3, extra := ["gamma"] }] hR hn rfl hd (by simp [Edits]) h1
    Demo.env Demo.T Demo.numbers Demo.positions Demo.charge Demo.param {}
  have e1 := ((C49_unknown_keyword (env := Demo.env) (T := Demo.T) (ext := Demo.ext)
    (cls := .d4) (cf := none) (ct := none) (numbers := Demo.numbers) (positions := Demo.positions)
    (charge := Demo.charge) (p := Demo.param) (o := {}) (kw := { ga := some 3, extra := ["gamma"] }) (s := "d4")
    Demo.keys (Or.inr (Or.inl hk)) (by simp)).2 d' h2).2 rfl
  obtain ⟨d0, h3, h4⟩ := C46_dftd4 (env := Demo.env) (T := Demo.T) Demo.defaultErf
    (sel := .key "d4") (Or.inl hk)
  obtain ⟨e0, h5, -⟩ := Demo.call.eval
  have h6 := C49_defaults (env := Demo.env) (T := Demo.T) (numbers := Demo.numbers)
    (positions := Demo.positions) (charge := Demo.charge) (p := Demo.param) (o := {})
    (mk := some (s.kw 0)) (mk' := none) (by rw [hkw]; exact ⟨rfl, rfl, rfl, rfl, rfl, rfl⟩) hd h3
  rw [e1, h6, h4] at e
  rw [h5] at e
  simp at e

end Alias

end TadDftd4
