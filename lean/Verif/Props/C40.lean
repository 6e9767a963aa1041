import Verif.Lemmas.DampingState
import Verif.Lemmas.Setup

/-!
# C40: damping objects carry no state into the energy

The programs (`Model/DampingState.lean`) run on a heap of damping objects with the mutable attribute
`doi`. `runOps ops h` is the heap after an arbitrary history of such programs, including ones that
raise exceptions.
-/

set_option linter.unusedSimpArgs false

open scoped Classical

namespace TadDftd4

open Tensor

section
variable {env : Env} {T : Tables} {ext : Ext}

/-- Object `id` of the heap has class `d`. -/
def Heap.HasClass (h : Heap) (id : ℕ) (d : Damping) : Prop := ∃ o, h[id]? = some o ∧ o.cls = d

theorem Heap.HasClass.classes {h : Heap} {id : ℕ} {d : Damping} (hd : h.HasClass id d) :
    h.classes[id]? = some d := by
  obtain ⟨o, ho, rfl⟩ := hd
  simp [Heap.classes, ho]

/-- After any history, calling a damping object gives (or raises) what its class prescribes. -/
theorem C40_call (ops : List DampOp) {h : Heap} {id : ℕ} {d : Damping} (hd : h.HasClass id d)
    (dist rad : Tensor ℝ) (order : ℕ) (od : Bool) (kw : Kw) (doi : Option String) :
    ((callP env id dist rad order od kw doi).exec (runOps env T ext ops h)).1 =
      (d.call env dist rad order od kw).check :=
  (reads_call hd.classes dist rad order od kw doi _ (keeps_ops ops h)).1

/-- After any history, the energy (or exception) of a `Disp` object whose terms share damping objects
is the one determined by the classes of these objects. -/
theorem C40_calculate (ops : List DampOp) {h : Heap} {d : DispRef} {terms : List Term}
    (hterms : List.Forall₂ (fun t u => h.HasClass t.damping u.damping ∧ u.cls = t.cls ∧
      u.chargeDep = t.chargeDep) d.terms terms)
    (numbers : Tensor ℕ) (positions charge : Tensor ℝ) (p : Param) (o : CalcOpts) :
    ((d.calculateP env T ext numbers positions charge p o).exec (runOps env T ext ops h)).1 =
      (d.disp terms).calculate env T ext numbers positions charge p o := by
  refine (reads_calculate numbers positions charge p (c := h.classes) ?_ o _ (keeps_ops ops h)).1
  refine hterms.imp fun t u hu => ⟨u.damping, hu.1.classes, ?_⟩
  obtain ⟨c, d, q⟩ := u
  obtain ⟨-, rfl, rfl⟩ := hu
  rfl

/-- After any history, `dftd4` with a shared damping object returns or raises the same. -/
theorem C40_dftd4 (ops : List DampOp) {h : Heap} {id : ℕ} {o : DftOpts}
    (hd : h.HasClass id o.damping) (numbers : Tensor ℕ) (positions charge : Tensor ℝ) (p : Param) :
    ((dftd4P env T ext numbers positions charge p o id).exec (runOps env T ext ops h)).1 =
      dftd4 env T ext numbers positions charge p o :=
  (reads_dftd4 numbers positions charge p o hd.classes _ (keeps_ops ops h)).1

/-- Two histories cannot be told apart by the energy. -/
theorem C40_histories (ops ops' : List DampOp) {h : Heap} {d : DispRef}
    (hids : ∀ t ∈ d.terms, t.damping < h.length)
    (numbers : Tensor ℕ) (positions charge : Tensor ℝ) (p : Param) (o : CalcOpts) :
    ((d.calculateP env T ext numbers positions charge p o).exec (runOps env T ext ops h)).1 =
    ((d.calculateP env T ext numbers positions charge p o).exec (runOps env T ext ops' h)).1 := by
  have : ∃ us : List Term, List.Forall₂ (fun t u => h.HasClass t.damping u.damping ∧ u.cls = t.cls ∧
      u.chargeDep = t.chargeDep) d.terms us := by
    obtain ⟨ts, _, _, _, _⟩ := d
    simp only at hids ⊢
    induction ts with
    | nil => exact ⟨[], .nil⟩
    | cons t ts ih =>
      obtain ⟨us, hus⟩ := ih fun t ht => hids t (List.mem_cons_of_mem _ ht)
      have ht := hids t List.mem_cons_self
      exact ⟨⟨t.cls, h[t.damping].cls, t.chargeDep⟩ :: us,
        .cons ⟨⟨_, List.getElem?_eq_getElem ht, rfl⟩, rfl, rfl⟩ hus⟩
  obtain ⟨us, hus⟩ := this
  rw [C40_calculate ops hus, C40_calculate ops' hus]

/-! ## The attribute `doi` -/

/-- The heap `h'` is `h` except that `doi` of object `id` is `doi`. -/
structure DoiOnly (h h' : Heap) (id : ℕ) (doi : Option String) : Prop where
  length : h'.length = h.length
  here : ∀ o, h[id]? = some o → h'[id]? = some { o with doi := doi }
  others : ∀ i, i ≠ id → h'[i]? = h[i]?

theorem doiOnly_setDoi (h : Heap) (id : ℕ) (doi : Option String) :
    DoiOnly h (Heap.setDoi id doi h) id doi where
  length := by simp [Heap.setDoi]
  here := fun o ho => by simp [Heap.setDoi, ho]
  others := fun i hi => by simp [Heap.setDoi, List.getElem?_modify, hi.symm]

/-- A call of an object assigns its `doi`, even when it raises an exception, and nothing else. -/
theorem C40_doi_call {h : Heap} {id : ℕ} {d : Damping} (hd : h.HasClass id d) (dist rad : Tensor ℝ)
    (order : ℕ) (od : Bool) (kw : Kw) (doi : Option String) :
    DoiOnly h ((callP env id dist rad order od kw doi).exec h).2 id doi := by
  have e : ((callP env id dist rad order od kw doi).exec h).2 = Heap.setDoi id doi h := by
    obtain ⟨o, ho, -⟩ := hd
    have e1 : (classOf id).exec h = (.ok o.cls, h) := by
      show (match h[id]? with
        | some o => ((.ok o.cls, h) : Except Err Damping × Heap)
        | none => (.error .attribute, h)) = _
      rw [ho]
    unfold callP
    rw [exec_bind, e1]
    rfl
  rw [e]
  exact doiOnly_setDoi h id doi

/-- After a two-body energy, the `doi` of the damping object is that of the parameters. -/
theorem C40_doi_twobody {h : Heap} {id : ℕ} {numbers : Tensor ℕ} {positions : Tensor ℝ} {p : Param}
    {c6 r4r2 : Tensor ℝ} {rvdw : Option (Tensor ℝ)} {cutoff : Option ℝ} {am : Bool} {e : Tensor ℝ}
    (he : ((dispersion2P env numbers positions p c6 r4r2 rvdw id cutoff am).exec h).1 = .ok e) :
    DoiOnly h ((dispersion2P env numbers positions p c6 r4r2 rvdw id cutoff am).exec h).2 id
      p.doi := by
  rw [(writes_dispersion2 (env := env) (id := id) numbers positions p c6 r4r2 rvdw cutoff am).ok h e
    he]
  exact doiOnly_setDoi h id _

/-- After a three-body energy, it is `None`. -/
theorem C40_doi_atm {h : Heap} {id : ℕ} {numbers : Tensor ℕ} {positions c9 radii : Tensor ℝ}
    {cutoff s9 alp : ℝ} {e : Tensor ℝ}
    (he : ((atmDispersionP env numbers positions c9 radii cutoff id s9 alp).exec h).1 = .ok e) :
    DoiOnly h ((atmDispersionP env numbers positions c9 radii cutoff id s9 alp).exec h).2 id
      none := by
  rw [(writes_atm (env := env) (id := id) numbers positions c9 radii cutoff s9 alp).ok h e he]
  exact doiOnly_setDoi h id _

theorem exec_bind_ok {α β : Type} {m : PyM α} {k : α → PyM β} {h : Heap} {b : β}
    (hb : ((m >>= k).exec h).1 = .ok b) : ∃ a, (m.exec h).1 = .ok a ∧
      ((k a).exec (m.exec h).2).1 = .ok b ∧ ((m >>= k).exec h).2 = ((k a).exec (m.exec h).2).2 := by
  rw [exec_bind] at hb ⊢
  cases hm : (m.exec h).1 with
  | ok a => rw [hm] at hb; exact ⟨a, rfl, hb, rfl⟩
  | error e => rw [hm] at hb; cases hb

theorem exec_lift_bind_ok {α β : Type} {x : Except Err α} {k : α → PyM β} {h : Heap} {b : β}
    (hb : ((lift x >>= k).exec h).1 = .ok b) : ∃ a, x = .ok a ∧
      ((k a).exec h).1 = .ok b ∧ ((lift x >>= k).exec h).2 = ((k a).exec h).2 :=
  exec_bind_ok hb

theorem setDoi_append {h : Heap} {id : ℕ} (hid : id < h.length) (doi : Option String) {g : Heap} :
    Heap.setDoi id doi (h ++ g) = Heap.setDoi id doi h ++ g := by
  unfold Heap.setDoi
  induction h generalizing id with
  | nil => simp at hid
  | cons o h ih =>
    cases id with
    | zero => simp
    | succ id => simpa using ih (by simpa using hid)

theorem setDoi_last (g : Heap) {d : Damping} :
    Heap.setDoi g.length none (g ++ [⟨d, none⟩]) = g ++ [⟨d, none⟩] := by
  unfold Heap.setDoi
  induction g with
  | nil => simp
  | cons o h ih => simpa using ih

/-- `dftd4` leaves behind the `doi` of its parameters in the object given as `damping_function` and one
new object; all else is as before. -/
theorem C40_doi_dftd4 {h : Heap} {id : ℕ} {o : DftOpts} (hid : id < h.length)
    {numbers : Tensor ℕ} {positions charge : Tensor ℝ} {p : Param} {e : Tensor ℝ}
    (he : ((dftd4P env T ext numbers positions charge p o id).exec h).1 = .ok e) :
    ∃ h', DoiOnly h h' id p.doi ∧
      ((dftd4P env T ext numbers positions charge p o id).exec h).2 = h' ++ [⟨.zero, none⟩] := by
  refine ⟨Heap.setDoi id p.doi h, doiOnly_setDoi _ _ _, ?_⟩
  unfold dftd4P at he ⊢
  obtain ⟨d, -, he, e1⟩ := exec_lift_bind_ok he
  rw [e1]
  obtain ⟨z, hz, he, e2⟩ := exec_bind_ok he
  rw [e2]
  have hz' : (newDamping .zero).exec h = (.ok h.length, h ++ [⟨.zero, none⟩]) := rfl
  rw [hz'] at hz he ⊢
  cases hz
  simp only at he ⊢
  unfold DispRef.calculateP at he ⊢
  obtain ⟨_, -, he, e3⟩ := exec_lift_bind_ok he
  rw [e3]
  obtain ⟨m, -, he, e4⟩ := exec_lift_bind_ok he
  rw [e4]
  obtain ⟨_, -, he, e3⟩ := exec_lift_bind_ok he
  rw [e3]
  obtain ⟨r4r2, -, he, e3⟩ := exec_lift_bind_ok he
  rw [e3]
  obtain ⟨_, -, he, e3⟩ := exec_lift_bind_ok he
  rw [e3]
  obtain ⟨rvdw, -, he, e3⟩ := exec_lift_bind_ok he
  rw [e3]
  obtain ⟨_, -, he, e3⟩ := exec_lift_bind_ok he
  rw [e3]
  obtain ⟨cn, -, he, e3⟩ := exec_lift_bind_ok he
  rw [e3]
  obtain ⟨q, -, he, e3⟩ := exec_lift_bind_ok he
  rw [e3]
  unfold sumTermsP at he ⊢
  obtain ⟨v, hv, he, e5⟩ := exec_bind_ok he
  rw [e5]
  have w1 : ∀ {v}, ((TermRef.calculateP env T ⟨.twoBody, id, true⟩ numbers positions p cn m q r4r2 rvdw
      (o.opts.cutoff.getD {})).exec (h ++ [⟨.zero, none⟩])).1 = .ok v → _ = _ := fun hv =>
    (writes_dispersion2 (env := env) (id := id) numbers positions p _ r4r2 (some rvdw)
      (some (o.opts.cutoff.getD {}).disp2) false).ok _ _ hv
  have w2 : ((TermRef.calculateP env T ⟨.twoBody, id, true⟩ numbers positions p cn m q r4r2 rvdw
      (o.opts.cutoff.getD {})).exec (h ++ [⟨.zero, none⟩])).2 =
      Heap.setDoi id p.doi (h ++ [⟨.zero, none⟩]) := w1 hv
  have w3 : Heap.setDoi id p.doi (h ++ [⟨.zero, none⟩]) =
      Heap.setDoi id p.doi h ++ [⟨.zero, none⟩] := by
    exact setDoi_append hid _
  rw [w2, w3] at he ⊢
  obtain ⟨_, -, he, e6⟩ := exec_lift_bind_ok he
  rw [e6]
  unfold sumTermsP at he ⊢
  obtain ⟨v', hv', he, e7⟩ := exec_bind_ok he
  rw [e7]
  obtain ⟨_, -, he, e8⟩ := exec_lift_bind_ok he
  rw [e8]
  unfold sumTermsP
  show ((TermRef.calculateP env T ⟨.d4ATMApprox, h.length, false⟩ numbers positions p cn m q r4r2 rvdw
      (o.opts.cutoff.getD {})).exec (Heap.setDoi id p.doi h ++ [⟨.zero, none⟩])).2 = _
  have hlast : Heap.setDoi h.length none (Heap.setDoi id p.doi h ++ [⟨.zero, none⟩]) =
      Heap.setDoi id p.doi h ++ [⟨.zero, none⟩] := by
    have : h.length = (Heap.setDoi id p.doi h).length := by simp [Heap.setDoi]
    rw [this]
    generalize Heap.setDoi id p.doi h = g
    exact setDoi_last g
  unfold TermRef.calculateP at hv' ⊢
  simp only at hv' ⊢
  obtain ⟨c9, -, he, e9⟩ := exec_lift_bind_ok hv'
  rw [e9]
  obtain ⟨radii, -, he, e9⟩ := exec_lift_bind_ok he
  rw [e9]
  rcases h9 : p.s9.num Defaults.s9 with _ | s9 <;> rcases ha : p.alp.num Defaults.alp with _ | alp <;>
    simp only [h9, ha] at he ⊢
  · rfl
  · rfl
  · rfl
  · rw [(writes_atm _ _ _ _ _ _ _).ok _ _ he]
    exact hlast

end

/-! ## A case -/

/-- A heap with the shared default object of `dftd4` and a user's object, and a history: a failing
call, an assignment, calls with different `doi`. -/
noncomputable def Demo.dampOps : List DampOp :=
  [.call 0 (scalar 1) (scalar 2) 6 false {} (some "a"), .setDoi 1 (some "b"),
   .dftd4 Demo.numbers Demo.positions Demo.charge { Demo.param with doi := some "c" } {} 0,
   .call 0 (scalar 1) (scalar 2) 6 false Demo.param.kw (some "d")]

noncomputable def Demo.heap : Heap := [⟨.rational, none⟩, ⟨.zero, none⟩]

/-- The energy exists and is the one without the history. -/
example : ∃ e, ((dftd4P Demo.env Demo.T Demo.ext Demo.numbers Demo.positions Demo.charge Demo.param {}
      0).exec (runOps Demo.env Demo.T Demo.ext Demo.dampOps Demo.heap)).1 = .ok e ∧ e.Ok [3, 2] ∧
    dftd4 Demo.env Demo.T Demo.ext Demo.numbers Demo.positions Demo.charge Demo.param {} = .ok e := by
  obtain ⟨e, he, hOk, -⟩ := Demo.call.eval
  refine ⟨e, ?_, hOk, he⟩
  rw [C40_dftd4 Demo.dampOps (o := {}) ⟨_, rfl, rfl⟩, he]

/-- The history does change the heap: `doi` of the shared object. -/
example : ∃ o, (runOps Demo.env Demo.T Demo.ext Demo.dampOps Demo.heap)[0]? = some o ∧
    o.doi = some "d" := by
  set ops : List DampOp := [.call 0 (scalar 1) (scalar 2) 6 false {} (some "a"), .setDoi 1 (some "b"),
   .dftd4 Demo.numbers Demo.positions Demo.charge { Demo.param with doi := some "c" } {} 0] with hops
  have e : runOps Demo.env Demo.T Demo.ext Demo.dampOps Demo.heap =
      ((callP Demo.env 0 (scalar 1) (scalar 2) 6 false Demo.param.kw (some "d")).exec
        (runOps Demo.env Demo.T Demo.ext ops Demo.heap)).2 := by
    rfl
  have hk := keeps_ops (env := Demo.env) (T := Demo.T) (ext := Demo.ext) ops Demo.heap
  obtain ⟨t, ht⟩ := hk
  have hne : ∃ o, (runOps Demo.env Demo.T Demo.ext ops Demo.heap)[0]? = some o := by
    have : (runOps Demo.env Demo.T Demo.ext ops Demo.heap).length = (Demo.heap.classes ++ t).length := by
      rw [ht]; simp [Heap.classes]
    have : 0 < (runOps Demo.env Demo.T Demo.ext ops Demo.heap).length := by
      rw [this]; simp [Demo.heap, Heap.classes]
    exact ⟨_, List.getElem?_eq_getElem this⟩
  obtain ⟨o, ho⟩ := hne
  have := C40_doi_call (env := Demo.env) ⟨o, ho, rfl⟩ (scalar 1) (scalar 2) 6 false Demo.param.kw
    (some "d")
  rw [e]
  exact ⟨_, this.here o ho, rfl⟩

/-- A call of the shared object after the history. -/
example := C40_call (env := Demo.env) (T := Demo.T) (ext := Demo.ext) Demo.dampOps (h := Demo.heap)
  (id := 0) ⟨_, rfl, rfl⟩ (scalar 3) (scalar 2) 6 false Demo.param.kw none

/-- An object whose two terms share one damping object, which belongs to the user. -/
noncomputable def Demo.dispRef : DispRef :=
  { terms := [⟨.twoBody, 1, true⟩, ⟨.d4ATMApprox, 1, false⟩], cnFn := Demo.ext.cnD4, counting := none,
    model := .key "d4", modelKw := {} }

example := C40_calculate (env := Demo.env) (T := Demo.T) (ext := Demo.ext) Demo.dampOps
  (h := Demo.heap) (d := Demo.dispRef)
  (terms := [⟨.twoBody, .zero, true⟩, ⟨.d4ATMApprox, .zero, false⟩])
  (.cons ⟨⟨_, rfl, rfl⟩, rfl, rfl⟩ (.cons ⟨⟨_, rfl, rfl⟩, rfl, rfl⟩ .nil))
  Demo.numbers Demo.positions Demo.charge Demo.param {}

example := C40_histories (env := Demo.env) (T := Demo.T) (ext := Demo.ext) Demo.dampOps []
  (h := Demo.heap) (d := Demo.dispRef) (by simp [Demo.dispRef, Demo.heap])
  Demo.numbers Demo.positions Demo.charge Demo.param {}

/-- The energies of two-body and three-body terms and of `dftd4` exist. -/
example : DoiOnly Demo.heap ((dispersion2P Demo.env Demo.numbers Demo.positions
      { Demo.param with doi := some "a" } (full [3, 3, 2] 1) (full [3, 2] 1) (some (full [3, 3, 2] 1)) 0
      none false).exec Demo.heap).2 0 (some "a") := by
  have h := (dispersion2_eval (env := Demo.env) (n := 3) (B := [2]) (numbers := Demo.numbers)
    (positions := Demo.positions) (p := { Demo.param with doi := some "a" }) (c6 := full [3, 3, 2] 1)
    (r4r2 := full [3, 2] 1) (rvdw := full [3, 3, 2] 1) (d := .rational)
    ⟨⟨rfl, rfl⟩, ⟨rfl, rfl⟩, ⟨rfl, rfl⟩, ⟨rfl, rfl⟩, ⟨rfl, rfl⟩⟩ rfl rfl rfl Demo.reads.s6
    (Or.inl Demo.reads.s8) (s10 := 0) (f10 := fun _ _ => 0) (Or.inl ⟨rfl, rfl⟩) none).2.1
  have hr := (reads_dispersion2 (env := Demo.env) (c := Demo.heap.classes) (id := 0) rfl Demo.numbers
    Demo.positions { Demo.param with doi := some "a" } (full [3, 3, 2] 1) (full [3, 2] 1)
    (some (full [3, 3, 2] 1)) none false Demo.heap (List.prefix_refl _)).1
  rw [check_ok h.err] at hr
  exact C40_doi_twobody hr

example : DoiOnly Demo.heap ((atmDispersionP Demo.env Demo.numbers Demo.positions
      (full [3, 3, 3, 2] 1) (full [3, 3, 2] 1) 40 1 1 16).exec Demo.heap).2 1 none := by
  have h := (atmDispersion_eval (env := Demo.env) (n := 3) (B := [2]) (numbers := Demo.numbers)
    (positions := Demo.positions) (c9 := full [3, 3, 3, 2] 1) (radii := full [3, 3, 2] 1) (d := .zero)
    (alp := 16) ⟨rfl, rfl⟩ ⟨rfl, rfl⟩ ⟨rfl, rfl⟩ ⟨rfl, rfl⟩ rfl 40 1).1
  have hr := (reads_atm (env := Demo.env) (c := Demo.heap.classes) (id := 1) rfl Demo.numbers
    Demo.positions (full [3, 3, 3, 2] 1) (full [3, 3, 2] 1) 40 1 16 Demo.heap (List.prefix_refl _)).1
  rw [check_ok h.err] at hr
  exact C40_doi_atm hr

example : ∃ h', DoiOnly Demo.heap h' 0 Demo.param.doi ∧
    ((dftd4P Demo.env Demo.T Demo.ext Demo.numbers Demo.positions Demo.charge Demo.param {} 0).exec
      Demo.heap).2 = h' ++ [⟨.zero, none⟩] := by
  obtain ⟨e, he, -⟩ := Demo.call.eval
  have := C40_dftd4 (env := Demo.env) (T := Demo.T) (ext := Demo.ext) [] (h := Demo.heap) (id := 0)
    (o := {}) ⟨_, rfl, rfl⟩ Demo.numbers Demo.positions Demo.charge Demo.param
  rw [he] at this
  exact C40_doi_dftd4 (by simp [Demo.heap]) this

end TadDftd4
