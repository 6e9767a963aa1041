import Verif.Model.DampingState
import Verif.Lemmas.Errors

/-!
# Programs on the heap compute what the heap-free model computes
-/

set_option linter.unusedSimpArgs false

open scoped Classical

namespace TadDftd4

open Tensor

/-- On every heap whose first objects have the classes `c`, the program has the result `v` and keeps
all classes; it may create objects. -/
def Reads {α : Type} (c : List Damping) (m : PyM α) (v : Except Err α) : Prop :=
  ∀ h : Heap, c <+: h.classes → (m.exec h).1 = v ∧ h.classes <+: (m.exec h).2.classes

section
variable {α β : Type} {c : List Damping}

theorem Reads.lift (x : Except Err α) : Reads c (lift x) x :=
  fun h _ => ⟨rfl, List.prefix_refl _⟩

theorem exec_bind (m : PyM α) (k : α → PyM β) (h : Heap) : (m >>= k).exec h =
    match (m.exec h).1 with
    | .ok a => (k a).exec (m.exec h).2
    | .error e => (.error e, (m.exec h).2) := by
  show (ExceptT.bind m k : StateM Heap (Except Err β)) h = _
  unfold PyM.exec
  generalize hr : (ExceptT.run m).run h = r
  obtain ⟨r1, r2⟩ := r
  have hr' : (m : StateM Heap (Except Err α)) h = (r1, r2) := hr
  cases r1 with
  | ok a =>
    show (StateT.bind (m : StateM Heap (Except Err α)) (ExceptT.bindCont k)) h = _
    unfold StateT.bind
    simp only [hr']
    rfl
  | error e =>
    show (StateT.bind (m : StateM Heap (Except Err α)) (ExceptT.bindCont k)) h = _
    unfold StateT.bind
    simp only [hr']
    rfl

theorem Reads.bind {m : PyM α} {k : α → PyM β} {v : Except Err α} {w : α → Except Err β}
    (h1 : Reads c m v) (h2 : ∀ a, Reads c (k a) (w a)) : Reads c (m >>= k) (v >>= w) := by
  intro h hc
  obtain ⟨e1, e2⟩ := h1 h hc
  rw [exec_bind, e1]
  cases v with
  | ok a =>
    obtain ⟨e3, e4⟩ := h2 a _ (hc.trans e2)
    exact ⟨e3, e2.trans e4⟩
  | error e => exact ⟨rfl, e2⟩

theorem Reads.classOf {id : ℕ} {d : Damping} (h : c[id]? = some d) :
    Reads c (classOf id) (.ok d) := by
  intro hp hc
  obtain ⟨t, ht⟩ := hc
  have h1 : hp.classes[id]? = some d := by
    rw [← ht, List.getElem?_append_left]
    · exact h
    · exact (List.getElem?_eq_some_iff.1 h).1
  have h2 : (hp[id]?).map DampObj.cls = some d := by
    rw [← h1]; simp [Heap.classes]
  obtain ⟨o, ho, hd⟩ := Option.map_eq_some_iff.1 h2
  have e : (TadDftd4.classOf id).exec hp = (.ok o.cls, hp) := by
    show (match hp[id]? with
      | some o => ((.ok o.cls, hp) : Except Err Damping × Heap)
      | none => (.error .attribute, hp)) = _
    rw [ho]
  rw [e, hd]
  exact ⟨rfl, List.prefix_refl _⟩

theorem classes_modify (h : Heap) (id : ℕ) (doi : Option String) :
    Heap.classes (h.modify id fun o => { o with doi := doi }) = h.classes := by
  unfold Heap.classes
  induction h generalizing id with
  | nil => simp
  | cons o h ih =>
    cases id with
    | zero => simp
    | succ id => simpa using ih id

theorem Reads.setDoi (id : ℕ) (doi : Option String) : Reads c (setDoi id doi) (.ok ()) := by
  intro h _
  refine ⟨rfl, ?_⟩
  show h.classes <+: Heap.classes (h.modify id fun o => { o with doi := doi })
  rw [classes_modify]

theorem check_error {t : Tensor α} {e : Err} (h : t.err = some e) : t.check = .error e := by
  unfold Tensor.check; rw [h]

theorem after_of_ok {t : Tensor α} {u : Tensor β} (h : t.err = none) : t.after u = u := by
  unfold Tensor.after; rw [h]; rfl

/-- Checking a tensor and going on with it. -/
theorem check_bind_after {t : Tensor α} {u : Tensor β} {k : Tensor α → Except Err (Tensor β)}
    (h : t.err = none → k t = u.check) : (t.check >>= k) = (t.after u).check := by
  cases ht : t.err with
  | none => rw [check_ok ht, after_of_ok ht]; exact h ht
  | some e => rw [check_error ht, check_error (e := e) (by simp [ht])]; rfl

/-- The same if the exception of `t` is also one of `u`. -/
theorem check_bind {t : Tensor α} {u : Tensor β} {k : Tensor α → Except Err (Tensor β)}
    (h : t.err = none → k t = u.check) (he : ∀ e, t.err = some e → u.err = some e) :
    (t.check >>= k) = u.check := by
  cases ht : t.err with
  | none => rw [check_ok ht]; exact h ht
  | some e => rw [check_error ht, check_error (he e ht)]; rfl

end

section
variable {env : Env} {T : Tables} {ext : Ext} {c : List Damping} {d : Damping} {id : ℕ}

theorem reads_call (h : c[id]? = some d) (dist rad : Tensor ℝ) (order : ℕ) (od : Bool) (kw : Kw)
    (doi : Option String) : Reads c (callP env id dist rad order od kw doi)
      (d.call env dist rad order od kw).check :=
  (Reads.classOf h).bind fun _ => (Reads.setDoi id doi).bind fun _ => Reads.lift _

theorem reads_callParam (h : c[id]? = some d) (dist rad : Tensor ℝ) (order : ℕ) (p : Param) :
    Reads c (callParamP env id dist rad order p) (d.callParam env dist rad order p).check := by
  unfold callParamP Damping.callParam
  split_ifs with h1
  · exact Reads.lift _
  · exact reads_call h _ _ _ _ _ _

theorem reads_tDamp (h : c[id]? = some d) (numbers : Tensor ℕ) (positions : Tensor ℝ) (p : Param)
    (radii : Tensor ℝ) (cutoff : ℝ) (order : ℕ) :
    Reads c (tDampP env numbers positions p radii id cutoff order)
      (tDamp env numbers positions p radii d cutoff order).check := by
  have := (Reads.lift (c := c) ((realPairs numbers).and ((pairDistances env numbers positions).le
    (scalar cutoff))).check).bind fun cond =>
    (reads_callParam (env := env) h (pairDistances env numbers positions) radii order p).bind
      fun v => Reads.lift (where_ cond v (scalar 0)).check
  have e : (tDamp env numbers positions p radii d cutoff order).check =
      (((realPairs numbers).and ((pairDistances env numbers positions).le (scalar cutoff))).check
        >>= fun cond => (d.callParam env (pairDistances env numbers positions) radii order p).check
        >>= fun v => (where_ cond v (scalar 0)).check) := by
    symm
    refine check_bind (fun h1 => check_bind (fun h2 => rfl) fun e he => ?_) fun e he => ?_
    · unfold tDamp; simp only []; rw [where_err, he, h1]; rfl
    · unfold tDamp; simp only []; rw [where_err, he]; rfl
  rw [e]
  exact this

theorem reads_dispersion2 (h : c[id]? = some d) (numbers : Tensor ℕ) (positions : Tensor ℝ)
    (p : Param) (c6 r4r2 : Tensor ℝ) (rvdw : Option (Tensor ℝ)) (cutoff : Option ℝ) (am : Bool) :
    Reads c (dispersion2P env numbers positions p c6 r4r2 rvdw id cutoff am)
      (dispersion2 env numbers positions p c6 r4r2 rvdw d cutoff am).check := by
  have key := (Reads.lift (c := c) (pairDistances env numbers positions).check).bind fun _ =>
    (Reads.lift (c6 * qqT r4r2).check).bind fun c8 =>
    (Reads.classOf h).bind fun d' =>
    (Reads.lift (radii2 d' r4r2 rvdw).check).bind fun radii =>
    (reads_tDamp (env := env) h numbers positions p radii (cutoff.getD Defaults.disp2Cutoff) 6).bind
      fun t6 =>
    (reads_tDamp (env := env) h numbers positions p radii (cutoff.getD Defaults.disp2Cutoff) 8).bind
      fun t8 =>
    (Reads.lift (p.s6.tensor Defaults.s6 * (if am then c6 * t6 else (c6 * t6).sumLast) +
      p.s8.tensor Defaults.s8 * (if am then c8 * t8 else (c8 * t8).sumLast)).check).bind fun edisp =>
    (show Reads c (match p.s10 with
      | .absent => TadDftd4.lift (.ok edisp)
      | s10 => do
        let c10 ← TadDftd4.lift (c6 * (qqT r4r2).map (· ^ 2) * scalar 49 / scalar 40).check
        let t10 ← tDampP env numbers positions p radii id (cutoff.getD Defaults.disp2Cutoff) 10
        let e10 := if am then c10 * t10 else (c10 * t10).sumLast
        TadDftd4.lift (edisp + s10.tensor Defaults.s10 * e10).check)
      (match p.s10 with
      | .absent => .ok edisp
      | s10 => do
        let c10 ← (c6 * (qqT r4r2).map (· ^ 2) * scalar 49 / scalar 40).check
        let t10 ← (tDamp env numbers positions p radii d (cutoff.getD Defaults.disp2Cutoff) 10).check
        let e10 := if am then c10 * t10 else (c10 * t10).sumLast
        (edisp + s10.tensor Defaults.s10 * e10).check) from by
      cases p.s10 with
      | absent => exact Reads.lift _
      | none => exact (Reads.lift _).bind fun _ => (reads_tDamp h _ _ _ _ _ _).bind fun _ =>
          Reads.lift _
      | val x => exact (Reads.lift _).bind fun _ => (reads_tDamp h _ _ _ _ _ _).bind fun _ =>
          Reads.lift _).bind fun edisp' =>
    Reads.lift (if am then -edisp' else scalar (-0.5) * edisp').check
  suffices e : (dispersion2 env numbers positions p c6 r4r2 rvdw d cutoff am).check = _ by
    rw [e]; exact key
  unfold dispersion2
  simp only []
  symm
  refine check_bind_after fun _ => check_bind_after fun _ => ?_
  show ((radii2 d r4r2 rvdw).check >>= _) = _
  refine check_bind_after fun _ => check_bind_after fun _ => check_bind_after fun _ => ?_
  generalize (tDamp env numbers positions p (radii2 d r4r2 rvdw) d
    (cutoff.getD Defaults.disp2Cutoff) 6) = t6
  generalize (tDamp env numbers positions p (radii2 d r4r2 rvdw) d
    (cutoff.getD Defaults.disp2Cutoff) 8) = t8
  generalize hE : (p.s6.tensor Defaults.s6 * (if am then c6 * t6 else (c6 * t6).sumLast) +
      p.s8.tensor Defaults.s8 * (if am then c6 * qqT r4r2 * t8 else (c6 * qqT r4r2 * t8).sumLast))
      = E
  have fin : ∀ (x : Tensor ℝ) (e : Err), x.err = some e →
      (if am then -x else scalar (-0.5) * x).err = some e := by
    intro x e he
    cases am <;> simp [he]
  have rest : ∀ (x t10 : Tensor ℝ), (E.check >>= fun edisp => (do
        let c10 ← (c6 * (qqT r4r2).map (· ^ 2) * scalar 49 / scalar 40).check
        let t10 ← t10.check
        (edisp + x * (if am then c10 * t10 else (c10 * t10).sumLast)).check) >>= fun edisp' =>
        (if am then -edisp' else scalar (-0.5) * edisp').check) =
      (if am then -(E.after ((c6 * (qqT r4r2).map (· ^ 2) * scalar 49 / scalar 40).after
        (t10.after (E + x * (if am then c6 * (qqT r4r2).map (· ^ 2) * scalar 49 / scalar 40 * t10
          else (c6 * (qqT r4r2).map (· ^ 2) * scalar 49 / scalar 40 * t10).sumLast)))))
       else scalar (-0.5) * (E.after ((c6 * (qqT r4r2).map (· ^ 2) * scalar 49 / scalar 40).after
        (t10.after (E + x * (if am then c6 * (qqT r4r2).map (· ^ 2) * scalar 49 / scalar 40 * t10
          else (c6 * (qqT r4r2).map (· ^ 2) * scalar 49 / scalar 40 * t10).sumLast)))))).check := by
    intro x t10
    generalize (c6 * (qqT r4r2).map (· ^ 2) * scalar 49 / scalar 40) = c10
    refine check_bind (fun h1 => ?_) fun e he => fin _ e (by simp [he])
    rw [after_of_ok h1]
    cases h2 : c10.err with
    | some e =>
      rw [check_error h2, check_error (fin _ e (by simp [h2]))]; rfl
    | none =>
      rw [check_ok h2, after_of_ok h2]
      cases h3 : t10.err with
      | some e =>
        rw [check_error h3, check_error (fin _ e (by simp [h3]))]; rfl
      | none =>
        rw [check_ok h3, after_of_ok h3]
        exact check_bind (fun _ => rfl) fun e he => fin _ e he
  cases p.s10 with
  | absent =>
    refine check_bind (fun _ => rfl) fun e he => ?_
    simpa [hE] using fin E e he
  | none => exact rest _ _
  | val x => exact rest _ _

theorem reads_atm (h : c[id]? = some d) (numbers : Tensor ℕ) (positions c9 radii : Tensor ℝ)
    (cutoff s9 alp : ℝ) :
    Reads c (atmDispersionP env numbers positions c9 radii cutoff id s9 alp)
      (atmDispersion env numbers positions c9 radii cutoff d s9 alp).check := by
  refine (congrArg (Reads c _) ?_).mp ((Reads.lift (c := c) (realTriples numbers).check).bind
    fun mask => (Reads.lift (ijT radii * ikT radii * jkT radii).check).bind fun r0 =>
    (Reads.lift (where_ mask ((ijT (dist2T env numbers positions) *
      ikT (dist2T env numbers positions) * jkT (dist2T env numbers positions)).map Real.sqrt)
      (scalar 1)).check).bind fun rr =>
    (reads_call (env := env) h r0 rr 9 true { alp := some (alp / 3) } none).bind fun v =>
    (Reads.lift (where_ mask v (scalar 0)).check).bind fun fdamp =>
    Reads.lift (((atmAng env numbers positions cutoff * fdamp * scalar s9 * c9).sumLast).sumLast /
      scalar 6).check)
  unfold atmDispersion
  simp only []
  have inner : (atmDamp env numbers positions radii d alp).check = ((realTriples numbers).check >>=
      fun mask => (ijT radii * ikT radii * jkT radii).check >>= fun r0 =>
      (where_ mask ((ijT (dist2T env numbers positions) *
        ikT (dist2T env numbers positions) * jkT (dist2T env numbers positions)).map Real.sqrt)
        (scalar 1)).check >>= fun rr => (d.call env r0 rr 9 true { alp := some (alp / 3) }).check >>=
      fun v => (where_ mask v (scalar 0)).check) := by
    symm
    unfold atmDamp
    simp only []
    refine check_bind_after fun h1 => check_bind_after fun h2 => check_bind_after fun h3 => ?_
    refine check_bind (fun h4 => rfl) fun e he => ?_
    rw [where_err, h1, he]; rfl
  have outer : ((atmDamp env numbers positions radii d alp).after
      ((atmAng env numbers positions cutoff * atmDamp env numbers positions radii d alp *
        scalar s9 * c9).sumLast.sumLast / scalar 6)).check =
      ((atmDamp env numbers positions radii d alp).check >>= fun fdamp =>
        ((atmAng env numbers positions cutoff * fdamp * scalar s9 * c9).sumLast.sumLast /
          scalar 6).check) := by
    symm
    exact check_bind_after fun _ => rfl
  rw [outer, inner]
  simp only [bind_assoc]

section term
variable (numbers : Tensor ℕ) (positions : Tensor ℝ) (p : Param) (cn : Tensor ℝ) (model : RefModel)
  (q : Option (Tensor ℝ)) (r4r2 rvdw : Tensor ℝ) (cutoff : Cutoff)

theorem reads_term {t : TermRef} (h : c[t.damping]? = some d) :
    Reads c (t.calculateP env T numbers positions p cn model q r4r2 rvdw cutoff)
      ((t.term d).calculate env T numbers positions p cn model q r4r2 rvdw cutoff).check := by
  obtain ⟨cls, did, cd⟩ := t
  have three : cls ≠ .twoBody → Reads c (do
      let c9 ← TadDftd4.lift ((TermRef.term ⟨cls, did, cd⟩ .rational).c9 env T model cn q).check
      let radii ← TadDftd4.lift ((TermRef.term ⟨cls, did, cd⟩ .rational).radii env p r4r2 rvdw).check
      match p.s9.num Defaults.s9, p.alp.num Defaults.alp with
      | some s9, some alp =>
        atmDispersionP env numbers positions c9 radii cutoff.disp3 did s9 alp
      | _, _ => TadDftd4.lift (.error .type))
      (((TermRef.term ⟨cls, did, cd⟩ d).c9 env T model cn q).after
        (((TermRef.term ⟨cls, did, cd⟩ d).radii env p r4r2 rvdw).after
        (match p.s9.num Defaults.s9, p.alp.num Defaults.alp with
        | some s9, some alp => atmDispersion env numbers positions
            ((TermRef.term ⟨cls, did, cd⟩ d).c9 env T model cn q)
            ((TermRef.term ⟨cls, did, cd⟩ d).radii env p r4r2 rvdw) cutoff.disp3 d s9 alp
        | _, _ => Tensor.fail .type))).check := by
    intro hne
    have key := (Reads.lift (c := c)
      ((TermRef.term ⟨cls, did, cd⟩ .rational).c9 env T model cn q).check).bind fun c9 =>
      (Reads.lift ((TermRef.term ⟨cls, did, cd⟩ .rational).radii env p r4r2 rvdw).check).bind
        fun radii =>
      (show Reads c (match p.s9.num Defaults.s9, p.alp.num Defaults.alp with
        | some s9, some alp =>
          atmDispersionP env numbers positions c9 radii cutoff.disp3 did s9 alp
        | _, _ => TadDftd4.lift (.error .type))
        (match p.s9.num Defaults.s9, p.alp.num Defaults.alp with
        | some s9, some alp =>
          (atmDispersion env numbers positions c9 radii cutoff.disp3 d s9 alp).check
        | _, _ => .error .type) from by
        cases p.s9.num Defaults.s9 <;> cases p.alp.num Defaults.alp <;>
          first | exact Reads.lift _ | exact reads_atm h _ _ _ _ _ _ _)
    refine (congrArg (Reads c _) ?_).mp key
    refine check_bind_after fun _ => check_bind_after fun _ => ?_
    cases p.s9.num Defaults.s9 <;> cases p.alp.num Defaults.alp <;> rfl
  cases cls with
  | twoBody => exact reads_dispersion2 h _ _ _ _ _ _ _ _
  | d4ATMApprox =>
    refine (congrArg (Reads c _) ?_).mp (three (by decide))
    unfold Term.calculate
    cases p.s9.num Defaults.s9 <;> cases p.alp.num Defaults.alp <;> rfl
  | d4ATMExact =>
    refine (congrArg (Reads c _) ?_).mp (three (by decide))
    unfold Term.calculate
    cases p.s9.num Defaults.s9 <;> cases p.alp.num Defaults.alp <;> rfl
  | d3ATM =>
    refine (congrArg (Reads c _) ?_).mp (three (by decide))
    unfold Term.calculate
    cases p.s9.num Defaults.s9 <;> cases p.alp.num Defaults.alp <;> rfl

/-- The terms refer to damping objects of the classes of `us`. -/
def TermsAre (c : List Damping) (ts : List TermRef) (us : List Term) : Prop :=
  List.Forall₂ (fun t u => ∃ d, c[t.damping]? = some d ∧ u = t.term d) ts us

theorem foldl_err {ts : List Term} {energy : Tensor ℝ} {e : Err} (he : energy.err = some e) :
    (ts.foldl (fun energy t =>
      energy + t.calculate env T numbers positions p cn model q r4r2 rvdw cutoff) energy).err =
      some e := by
  induction ts generalizing energy with
  | nil => exact he
  | cons t ts ih => exact ih (by simp [he])

theorem reads_sumTerms {ts : List TermRef} {us : List Term} (h : TermsAre c ts us)
    {energy : Tensor ℝ} (he : energy.err = none) :
    Reads c (sumTermsP env T ts numbers positions p cn model q r4r2 rvdw cutoff energy)
      (us.foldl (fun energy t =>
        energy + t.calculate env T numbers positions p cn model q r4r2 rvdw cutoff)
        energy).check := by
  induction h generalizing energy with
  | nil =>
    rw [List.foldl_nil, check_ok he]
    exact Reads.lift _
  | @cons t u ts us hd _ ih =>
    obtain ⟨d, hd, rfl⟩ := hd
    set u := (t.term d).calculate env T numbers positions p cn model q r4r2 rvdw cutoff with hu
    have key := (reads_term (env := env) (T := T) numbers positions p cn model q r4r2 rvdw cutoff
      hd).bind fun e => (Reads.lift (c := c) (energy + e).check)
    have e1 : ((u.check >>= fun e => (energy + e).check) : Except Err (Tensor ℝ)) =
        (energy + u).check := by
      refine check_bind (fun _ => rfl) fun e hu => ?_
      rw [add_err, he, hu]; rfl
    rw [← hu, e1] at key
    intro hp hc
    obtain ⟨k1, k2⟩ := key hp hc
    have e2 : sumTermsP env T (t :: ts) numbers positions p cn model q r4r2 rvdw cutoff energy =
        ((t.calculateP env T numbers positions p cn model q r4r2 rvdw cutoff >>= fun e =>
          TadDftd4.lift (energy + e).check) >>= fun energy =>
          sumTermsP env T ts numbers positions p cn model q r4r2 rvdw cutoff energy) := by
      rw [bind_assoc]; rfl
    rw [e2, exec_bind, k1, List.foldl_cons, ← hu]
    rcases h0 : (energy + u).err with _ | e
    · rw [check_ok h0]
      obtain ⟨k3, k4⟩ := ih h0 _ (hc.trans k2)
      exact ⟨k3, k2.trans k4⟩
    · rw [check_error h0, check_error (foldl_err _ _ _ _ _ _ _ _ _ h0)]
      exact ⟨rfl, k2⟩

end term

section calcul
variable (numbers : Tensor ℕ) (positions charge : Tensor ℝ) (p : Param)

theorem TermsAre.any {ts : List TermRef} {us : List Term} (h : TermsAre c ts us) :
    (ts.map (·.term .rational)).any (·.chargeDep) = us.any (·.chargeDep) := by
  induction h with
  | nil => rfl
  | cons h _ ih =>
    obtain ⟨d, -, rfl⟩ := h
    simp only [List.map_cons, List.any_cons, ih]
    rfl

theorem reads_calculate {d : DispRef} {us : List Term} (h : TermsAre c d.terms us) (o : CalcOpts) :
    Reads c (d.calculateP env T ext numbers positions charge p o)
      ((d.disp us).calculate env T ext numbers positions charge p o) := by
  have hm : (d.disp (d.terms.map (·.term .rational))).getModel env T ext numbers =
      (d.disp us).getModel env T ext numbers := rfl
  have hq : ∀ cutoff, (d.disp (d.terms.map (·.term .rational))).charges ext numbers positions charge
      cutoff o.q = (d.disp us).charges ext numbers positions charge cutoff o.q := by
    intro cutoff
    unfold Disp.charges
    simp only [DispRef.disp, h.any]
  unfold DispRef.calculateP Disp.calculate
  simp only [hm, hq]
  refine (Reads.lift _).bind fun _ => (Reads.lift _).bind fun _ => (Reads.lift _).bind fun _ =>
    (Reads.lift _).bind fun _ => (Reads.lift _).bind fun _ => (Reads.lift _).bind fun _ =>
    (Reads.lift _).bind fun _ => (Reads.lift _).bind fun _ => (Reads.lift _).bind fun _ => ?_
  exact reads_sumTerms _ _ _ _ _ _ _ _ _ h rfl

theorem reads_dftd4 (o : DftOpts) (h : c[id]? = some o.damping) :
    Reads c (dftd4P env T ext numbers positions charge p o id)
      (dftd4 env T ext numbers positions charge p o) := by
  intro hp hc
  unfold dftd4P dftd4
  rw [exec_bind]
  rcases hd : Disp.new ext .base o.model none (some (o.cnFunction.getD ext.cnD4))
    (some (o.counting.getD ext.erfCount)) with e | d
  · exact ⟨rfl, List.prefix_refl _⟩
  have ht : d.terms = [] := (new_ok hd).1
  show _ = ((d.register ⟨.twoBody, o.damping, true⟩).register ⟨.d4ATMApprox, .zero, false⟩).calculate
    env T ext numbers positions charge p o.opts ∧ _
  have e1 : (TadDftd4.lift (.ok d : Except Err Disp)).exec hp = (.ok d, hp) := rfl
  simp only [e1]
  rw [exec_bind]
  have e : (newDamping .zero).exec hp = (.ok hp.length, hp ++ [⟨.zero, none⟩]) := rfl
  simp only [e]
  have hcl : Heap.classes (hp ++ [⟨.zero, none⟩]) = hp.classes ++ [.zero] := by
    simp [Heap.classes]
  have hid : hp.classes[id]? = some o.damping := by
    obtain ⟨t, ht⟩ := hc
    rw [← ht, List.getElem?_append_left (List.getElem?_eq_some_iff.1 h).1]
    exact h
  have hlen : hp.classes.length = hp.length := by simp [Heap.classes]
  have hterms : TermsAre (hp.classes ++ [.zero])
      [⟨.twoBody, id, true⟩, ⟨.d4ATMApprox, hp.length, false⟩]
      [⟨.twoBody, o.damping, true⟩, ⟨.d4ATMApprox, .zero, false⟩] := by
    refine .cons ⟨o.damping, ?_, rfl⟩ (.cons ⟨.zero, ?_, rfl⟩ .nil)
    · rw [List.getElem?_append_left (List.getElem?_eq_some_iff.1 hid).1]; exact hid
    · simp [hlen]
  obtain ⟨k1, k2⟩ := reads_calculate (env := env) (T := T) (ext := ext) numbers positions charge p
    (d := ⟨[⟨.twoBody, id, true⟩, ⟨.d4ATMApprox, hp.length, false⟩], d.cnFn, d.counting, d.model,
      d.modelKw⟩) hterms o.opts (hp ++ [⟨.zero, none⟩]) (by rw [hcl])
  refine ⟨?_, ?_⟩
  · rw [k1]
    congr 1
    simp [Disp.register, DispRef.disp, ht]
  · rw [hcl] at k2
    exact (List.prefix_append _ _).trans k2

end calcul

/-! ## The heap after a program -/

/-- The program does not touch the heap. -/
def Quiet {α : Type} (m : PyM α) : Prop := ∀ h, (m.exec h).2 = h

/-- The program changes the heap by `S` or, with an exception, not at all. -/
structure Writes {α : Type} (S : Heap → Heap) (m : PyM α) : Prop where
  may : ∀ h, (m.exec h).2 = h ∨ (m.exec h).2 = S h
  ok : ∀ h a, (m.exec h).1 = .ok a → (m.exec h).2 = S h

section
variable {α β : Type} {S : Heap → Heap}

theorem Quiet.lift (x : Except Err α) : Quiet (lift x) := fun _ => rfl

theorem Quiet.classOf (id : ℕ) : Quiet (classOf id) := by
  intro h
  show ((match h[id]? with
      | some o => ((.ok o.cls, h) : Except Err Damping × Heap)
      | none => (.error .attribute, h))).2 = h
  cases h[id]? <;> rfl

theorem Quiet.bind_writes {m : PyM α} {k : α → PyM β} (h1 : Quiet m) (h2 : ∀ a, Writes S (k a)) :
    Writes S (m >>= k) := by
  constructor
  · intro h
    rw [exec_bind, h1 h]
    cases (m.exec h).1 with
    | ok a => exact (h2 a).may h
    | error e => exact .inl rfl
  · intro h b hb
    rw [exec_bind, h1 h] at hb ⊢
    cases hm : (m.exec h).1 with
    | ok a => rw [hm] at hb; exact (h2 a).ok h b hb
    | error e => rw [hm] at hb; cases hb

theorem Writes.bind_may {m : PyM α} {k : α → PyM β} (hS : ∀ h, S (S h) = S h) (h1 : Writes S m)
    (h2 : ∀ a h, ((k a).exec h).2 = h ∨ ((k a).exec h).2 = S h) : Writes S (m >>= k) := by
  constructor
  · intro h
    rw [exec_bind]
    cases hm : (m.exec h).1 with
    | ok a =>
      rw [h1.ok h a hm]
      rcases h2 a (S h) with e | e
      · exact .inr e
      · exact .inr (e.trans (hS h))
    | error e => exact h1.may h
  · intro h b hb
    rw [exec_bind] at hb ⊢
    cases hm : (m.exec h).1 with
    | ok a =>
      rw [h1.ok h a hm]
      rcases h2 a (S h) with e | e
      · exact e
      · exact e.trans (hS h)
    | error e => rw [hm] at hb; cases hb

theorem Writes.bind_quiet {m : PyM α} {k : α → PyM β} (hS : ∀ h, S (S h) = S h) (h1 : Writes S m)
    (h2 : ∀ a, Quiet (k a)) : Writes S (m >>= k) :=
  h1.bind_may hS fun a h => .inl (h2 a h)

end

/-- `self.doi = doi` on the heap. -/
def Heap.setDoi (id : ℕ) (doi : Option String) (h : Heap) : Heap :=
  h.modify id fun o => { o with doi := doi }

theorem setDoi_idem (id : ℕ) (doi : Option String) (h : Heap) :
    Heap.setDoi id doi (Heap.setDoi id doi h) = Heap.setDoi id doi h := by
  unfold Heap.setDoi
  induction h generalizing id with
  | nil => simp
  | cons o h ih =>
    cases id with
    | zero => simp
    | succ id => simpa using ih id

theorem writes_call (dist rad : Tensor ℝ) (order : ℕ) (od : Bool) (kw : Kw)
    (doi : Option String) : Writes (Heap.setDoi id doi) (callP env id dist rad order od kw doi) := by
  refine (Quiet.classOf id).bind_writes fun d => ?_
  refine Writes.bind_quiet (setDoi_idem id doi) ⟨fun h => .inr rfl, fun h a _ => rfl⟩
    fun _ => Quiet.lift _

theorem writes_tDamp (numbers : Tensor ℕ) (positions : Tensor ℝ) (p : Param)
    (radii : Tensor ℝ) (cutoff : ℝ) (order : ℕ) :
    Writes (Heap.setDoi id p.doi) (tDampP env numbers positions p radii id cutoff order) := by
  refine (Quiet.lift _).bind_writes fun cond => ?_
  refine Writes.bind_quiet (setDoi_idem id _) ?_ fun _ => Quiet.lift _
  unfold callParamP
  split_ifs with h
  · exact ⟨fun _ => .inl rfl, fun h a ha => by cases ha⟩
  · exact writes_call _ _ _ _ _ _

theorem writes_dispersion2 (numbers : Tensor ℕ) (positions : Tensor ℝ)
    (p : Param) (c6 r4r2 : Tensor ℝ) (rvdw : Option (Tensor ℝ)) (cutoff : Option ℝ) (am : Bool) :
    Writes (Heap.setDoi id p.doi)
      (dispersion2P env numbers positions p c6 r4r2 rvdw id cutoff am) := by
  have hS := setDoi_idem id p.doi
  refine (Quiet.lift _).bind_writes fun _ => (Quiet.lift _).bind_writes fun c8 =>
    (Quiet.classOf id).bind_writes fun d => (Quiet.lift _).bind_writes fun radii =>
    (writes_tDamp _ _ _ _ _ _).bind_may hS fun t6 => Writes.may <|
    (writes_tDamp _ _ _ _ _ _).bind_may hS fun t8 h => ?_
  rw [exec_bind]
  rcases hE : (p.s6.tensor Defaults.s6 * (if am then c6 * t6 else (c6 * t6).sumLast) +
      p.s8.tensor Defaults.s8 * (if am then c8 * t8 else (c8 * t8).sumLast)).check with e | edisp
  · exact .inl rfl
  have e0 : (TadDftd4.lift (.ok edisp : Except Err (Tensor ℝ))).exec h = (.ok edisp, h) := rfl
  simp only [e0]
  cases p.s10 with
  | absent =>
    refine .inl ?_
    rw [exec_bind]
    rfl
  | none => exact (Writes.bind_quiet (m := _) hS ((Quiet.lift _).bind_writes fun c10 =>
      (writes_tDamp _ _ _ _ _ _).bind_quiet hS fun t10 => Quiet.lift _) fun _ => Quiet.lift _).may h
  | val x => exact (Writes.bind_quiet (m := _) hS ((Quiet.lift _).bind_writes fun c10 =>
      (writes_tDamp _ _ _ _ _ _).bind_quiet hS fun t10 => Quiet.lift _) fun _ => Quiet.lift _).may h

theorem writes_atm (numbers : Tensor ℕ) (positions c9 radii : Tensor ℝ)
    (cutoff s9 alp : ℝ) : Writes (Heap.setDoi id none)
      (atmDispersionP env numbers positions c9 radii cutoff id s9 alp) :=
  (Quiet.lift _).bind_writes fun _ => (Quiet.lift _).bind_writes fun _ =>
    (Quiet.lift _).bind_writes fun _ => (writes_call _ _ _ _ _ _).bind_quiet (setDoi_idem id none)
    fun _ => fun h => by
      rw [exec_bind]
      split <;> rfl

/-! ## Classes are never changed -/

/-- The program keeps all objects and their classes. -/
def Keeps {α : Type} (m : PyM α) : Prop := ∀ h, h.classes <+: (m.exec h).2.classes

theorem Keeps.lift {α : Type} (x : Except Err α) : Keeps (lift x) := fun _ => List.prefix_refl _

theorem Keeps.bind {α β : Type} {m : PyM α} {k : α → PyM β} (h1 : Keeps m)
    (h2 : ∀ a, Keeps (k a)) : Keeps (m >>= k) := by
  intro h
  rw [exec_bind]
  cases (m.exec h).1 with
  | ok a => exact (h1 h).trans (h2 a _)
  | error e => exact h1 h

theorem Writes.keeps {α : Type} {m : PyM α} {doi : Option String}
    (hw : Writes (Heap.setDoi id doi) m) : Keeps m := by
  intro h
  rcases hw.may h with e | e
  · rw [e]
  · rw [e]
    unfold Heap.setDoi
    rw [classes_modify]

theorem Keeps.new (cls : Damping) : Keeps (newDamping cls) := by
  intro h
  show h.classes <+: Heap.classes (h ++ [⟨cls, none⟩])
  simp [Heap.classes]

theorem keeps_term (t : TermRef) (numbers : Tensor ℕ) (positions : Tensor ℝ) (p : Param)
    (cn : Tensor ℝ) (model : RefModel) (q : Option (Tensor ℝ)) (r4r2 rvdw : Tensor ℝ)
    (cutoff : Cutoff) :
    Keeps (t.calculateP env T numbers positions p cn model q r4r2 rvdw cutoff) := by
  obtain ⟨cls, id, cd⟩ := t
  have three : ∀ (a b : Except Err (Tensor ℝ)), Keeps (do
      let c9 ← TadDftd4.lift a
      let radii ← TadDftd4.lift b
      match p.s9.num Defaults.s9, p.alp.num Defaults.alp with
      | some s9, some alp =>
        atmDispersionP env numbers positions c9 radii cutoff.disp3 id s9 alp
      | _, _ => TadDftd4.lift (.error .type)) := by
    intro a b
    refine (Keeps.lift _).bind fun c9 => (Keeps.lift _).bind fun radii => ?_
    cases p.s9.num Defaults.s9 <;> cases p.alp.num Defaults.alp <;>
      first | exact Keeps.lift _ | exact (writes_atm _ _ _ _ _ _ _).keeps
  cases cls with
  | twoBody => exact (writes_dispersion2 _ _ _ _ _ _ _ _).keeps
  | _ => exact three _ _

theorem keeps_sumTerms (ts : List TermRef) (numbers : Tensor ℕ) (positions : Tensor ℝ) (p : Param)
    (cn : Tensor ℝ) (model : RefModel) (q : Option (Tensor ℝ)) (r4r2 rvdw : Tensor ℝ)
    (cutoff : Cutoff) (energy : Tensor ℝ) :
    Keeps (sumTermsP env T ts numbers positions p cn model q r4r2 rvdw cutoff energy) := by
  induction ts generalizing energy with
  | nil => exact Keeps.lift _
  | cons t ts ih =>
    exact (keeps_term _ _ _ _ _ _ _ _ _ _).bind fun e => (Keeps.lift _).bind fun e => ih _

theorem keeps_calculate (d : DispRef) (numbers : Tensor ℕ) (positions charge : Tensor ℝ) (p : Param)
    (o : CalcOpts) : Keeps (d.calculateP env T ext numbers positions charge p o) :=
  (Keeps.lift _).bind fun _ => (Keeps.lift _).bind fun _ => (Keeps.lift _).bind fun _ =>
    (Keeps.lift _).bind fun _ => (Keeps.lift _).bind fun _ => (Keeps.lift _).bind fun _ =>
    (Keeps.lift _).bind fun _ => (Keeps.lift _).bind fun _ => (Keeps.lift _).bind fun _ =>
    keeps_sumTerms _ _ _ _ _ _ _ _ _ _ _

theorem keeps_dftd4 (numbers : Tensor ℕ) (positions charge : Tensor ℝ) (p : Param)
    (o : DftOpts) : Keeps (dftd4P env T ext numbers positions charge p o id) :=
  (Keeps.lift _).bind fun _ => (Keeps.new _).bind fun _ => keeps_calculate _ _ _ _ _ _

theorem keeps_op (op : DampOp) (h : Heap) : h.classes <+: (op.run env T ext h).classes := by
  cases op with
  | new cls => exact Keeps.new cls h
  | setDoi id doi =>
    show h.classes <+: Heap.classes (h.modify id fun o => { o with doi := doi })
    rw [classes_modify]
  | call id dist rad order od kw doi => exact (writes_call _ _ _ _ _ _).keeps h
  | dispersion2 numbers positions p c6 r4r2 rvdw id cutoff am =>
    exact (writes_dispersion2 _ _ _ _ _ _ _ _).keeps h
  | atm numbers positions c9 radii cutoff id s9 alp => exact (writes_atm _ _ _ _ _ _ _).keeps h
  | calculate d numbers positions charge p o => exact keeps_calculate _ _ _ _ _ _ h
  | dftd4 numbers positions charge p o id => exact keeps_dftd4 _ _ _ _ _ h

theorem keeps_ops (ops : List DampOp) (h : Heap) : h.classes <+: (runOps env T ext ops h).classes := by
  induction ops generalizing h with
  | nil => exact List.prefix_refl _
  | cons op ops ih => exact (keeps_op op h).trans (ih _)

end

end TadDftd4
