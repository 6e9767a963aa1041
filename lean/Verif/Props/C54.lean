import Verif.Model.DampingClass
import Verif.Props.C26

/-!
# C54: user-defined damping classes

A hierarchy of class statements is a list, the most derived class first. `Spec.reqOf` is the
`REQUIRED_BY_ORDER` a class has by the rules of inheritance, `Spec.fnOf` its `_f`. Classes are
rejected at creation exactly if a required name is not a parameter of `_f` (`C54_created`). A call is
checked against the requirements of the class, and also against those of all base classes down from
the one that defines `_f` (`C54_call`). So a class that defines `_f` or does not change the
requirements is checked against exactly its own requirements (`C54_own_partial`), while a class that
inherits `_f` cannot relax those of its base class (`C54_own_false`). The classes of the package are
what the other parts of the model use (`C54_package`).
-/

set_option linter.unusedSimpArgs false

open scoped Classical

namespace TadDftd4

open Tensor

namespace Spec

/-- `REQUIRED_BY_ORDER` of a class: its own or the inherited one. -/
def reqOf : List ClassBody → ReqMap
  | [] => []
  | b :: bs => b.req.getD (reqOf bs)

/-- The function `_f` of a class: its own or the inherited one, as written. -/
noncomputable def fnOf : List ClassBody → FDef
  | [] => { kwOnly := interfaceKw, abstract := true, body := fun _ => Tensor.fail .attribute }
  | b :: bs => b.f.getD (fnOf bs)

/-- Every name required for any order is a parameter of `_f`. -/
def NamesKnown (h : List ClassBody) : Prop :=
  ∀ order names, (order, names) ∈ reqOf h → ∀ name ∈ names, name ∈ (fnOf h).params

/-- The class and its bases down from the one that defines `_f`. -/
def since : List ClassBody → List (List ClassBody)
  | [] => []
  | b :: bs => (b :: bs) :: (if b.f.isSome then [] else since bs)

/-- Names of the keywords of the interface. -/
def keyName : Key → String
  | .a1 => "a1" | .a2 => "a2" | .s6 => "s6" | .rs6 => "rs6" | .s8 => "s8" | .rs8 => "rs8"
  | .s9 => "s9" | .rs9 => "rs9" | .s10 => "s10" | .alp => "alp" | .bet => "bet"

/-- `_f` receives `None` for its keyword-only parameter `name`: the keyword of the interface with this
name is `None` in the call, or the parameter is not in the interface and has the default `None`. -/
def ReceivesNone (f : FDef) (a : FArgs) (name : String) : Prop :=
  (∃ k, keyName k = name ∧ a.kw.val k = none ∧ ∃ d, (name, d) ∈ f.kwOnly) ∨
    ((∀ k, keyName k ≠ name) ∧ name ≠ "only_damping" ∧ (name, KwDefault.none) ∈ f.kwOnly)

/-- The class `h` requires a keyword for the order of the call and `_f` would receive `None`. -/
def Violates (h : List ClassBody) (f : FDef) (a : FArgs) : Prop :=
  ∃ names, (reqOf h).lookup a.order = some names ∧ ∃ name ∈ names, ReceivesNone f a name

/-- The call is accepted: the signature of `_f` has the keywords of the interface, and none of the
classes since the definition of `_f` is violated. -/
def Accepts (h : List ClassBody) (a : FArgs) : Prop :=
  (fnOf h).Binds ∧ ∀ k ∈ since h, ¬ Violates k (fnOf h) a

/-- Parameters of a function have different names (a rule of Python's syntax). -/
def Distinct (h : List ClassBody) : Prop := (fnOf h).params.Nodup

end Spec

theorem mem_of_lookup_some {α β : Type} [DecidableEq α] {l : List (α × β)} {k : α} {v : β}
    (h : l.lookup k = some v) : (k, v) ∈ l := by
  obtain ⟨l1, l2, rfl, -⟩ := List.lookup_eq_some_iff.1 h
  simp

theorem FArgs.passed_key (a : FArgs) (k : Key) :
    a.passed (Spec.keyName k) = some (a.kw.val k).isNone := by
  cases k <;> simp [FArgs.passed, Spec.keyName, Kw.val]

theorem FArgs.passed_other (a : FArgs) {name : String} (h : ∀ k, Spec.keyName k ≠ name)
    (ho : name ≠ "only_damping") : a.passed name = none := by
  have h' : ∀ k, name ≠ Spec.keyName k := fun k => (h k).symm
  simp [FArgs.passed, h' .a1, h' .a2, h' .s6, h' .rs6, h' .s8, h' .rs8, h' .s9, h' .rs9, h' .s10,
    h' .alp, h' .bet, ho, show name ≠ "a1" from h' .a1, show name ≠ "a2" from h' .a2,
    show name ≠ "s6" from h' .s6, show name ≠ "rs6" from h' .rs6, show name ≠ "s8" from h' .s8,
    show name ≠ "rs8" from h' .rs8, show name ≠ "s9" from h' .s9, show name ≠ "rs9" from h' .rs9,
    show name ≠ "s10" from h' .s10, show name ≠ "alp" from h' .alp, show name ≠ "bet" from h' .bet]

/-- The check of the code for a name of the signature. -/
theorem FDef.missing_iff {f : FDef} (hn : f.params.Nodup) {a : FArgs} {name : String}
    (hname : name ∈ f.params) : f.missing a name = true ↔ Spec.ReceivesNone f a name := by
  have hn' := hn
  simp only [FDef.params, List.nodup_append, List.mem_append] at hn
  obtain ⟨⟨hn1, hn2, hn3⟩, hn4, hn5⟩ := hn
  have hno : ∀ {P : Prop}, (∀ d, (name, d) ∉ f.kwOnly) →
      (Spec.ReceivesNone f a name → P) := by
    rintro P h (⟨-, -, -, d, hd⟩ | ⟨-, -, hd⟩) <;> exact absurd hd (h _)
  unfold FDef.missing
  by_cases h1 : name ∈ positionalNames
  · simp only [if_pos h1, Bool.false_eq_true, false_iff]
    refine hno fun d hd => ?_
    exact hn3 name h1 name (List.mem_map_of_mem hd) rfl
  rw [if_neg h1]
  by_cases h2 : f.varKw = some name
  · simp only [if_pos h2, Bool.false_eq_true, false_iff]
    refine hno fun d hd => ?_
    exact hn5 name (Or.inr (List.mem_map_of_mem hd)) name (by simp [h2]) rfl
  rw [if_neg h2]
  have hmem : name ∈ f.kwOnly.map Prod.fst := by
    simp only [FDef.params, List.mem_append, Option.mem_toList] at hname
    rcases hname with (h | h) | h
    · exact absurd h h1
    · exact h
    · exact absurd h h2
  cases hl : f.kwOnly.lookup name with
  | none =>
    obtain ⟨⟨k, d⟩, hd, rfl⟩ := List.mem_map.1 hmem
    have := List.lookup_eq_none_iff.1 hl _ hd
    simp at this
  | some d =>
    have hd := mem_of_lookup_some hl
    have huniq : ∀ d', (name, d') ∈ f.kwOnly → d' = d := by
      intro d' hd'
      have := List.inj_on_of_nodup_map hn2 hd' hd rfl
      exact (Prod.mk.inj this).2
    by_cases hk : ∃ k, Spec.keyName k = name
    · obtain ⟨k, rfl⟩ := hk
      simp only [FArgs.passed_key, Option.getD_some, Option.isNone_iff_eq_none]
      constructor
      · exact fun h => Or.inl ⟨k, rfl, h, d, hd⟩
      · rintro (⟨k', hk', h, -⟩ | ⟨h, -⟩)
        · have : k' = k := by
            revert hk'; cases k' <;> cases k <;> simp [Spec.keyName]
          rw [← this]; exact h
        · exact absurd rfl (h k)
    · push Not at hk
      by_cases ho : name = "only_damping"
      · subst ho
        simp only [FArgs.passed]
        constructor
        · intro h; simp at h
        · rintro (⟨k', hk', -⟩ | ⟨-, h, -⟩)
          · exact absurd hk' (hk k')
          · exact absurd rfl h
      · simp only [a.passed_other hk ho, Option.getD_none, beq_iff_eq]
        constructor
        · rintro rfl; exact Or.inr ⟨hk, ho, hd⟩
        · rintro (⟨k', hk', -⟩ | ⟨-, -, h⟩)
          · exact absurd hk' (hk k')
          · exact (huniq _ h).symm

/-- `h` is created without exception. -/
theorem buildClass_ok {h : List ClassBody} {c : DampClass} (hc : buildClass h = .ok c) :
    c.req = Spec.reqOf h ∧ c.f.fn = Spec.fnOf h := by
  induction h generalizing c with
  | nil =>
    simp only [buildClass, Except.ok.injEq] at hc
    subst hc
    exact ⟨rfl, rfl⟩
  | cons b bs ih =>
    unfold buildClass at hc
    cases hp : buildClass bs with
    | error e => simp [hp, bind, Except.bind] at hc
    | ok parent =>
      obtain ⟨h1, h2⟩ := ih hp
      simp only [hp, bind, Except.bind, DampClass.derive] at hc
      have hf : ((b.f.map FMethod.raw).getD parent.f).fn = Spec.fnOf (b :: bs) := by
        cases hb : b.f <;> simp [Spec.fnOf, hb, FMethod.fn, h2]
      split_ifs at hc with hr hu
      · injection hc with hc; subst hc
        exact ⟨by simp [Spec.reqOf, h1], hf⟩
      · injection hc with hc; subst hc
        exact ⟨by simp [Spec.reqOf, h1], by simpa [FMethod.fn] using hf⟩

theorem namesKnown_iff {h : List ClassBody} :
    Spec.NamesKnown h ↔
      ((Spec.reqOf h).flatMap Prod.snd).filter (fun name => name ∉ (Spec.fnOf h).params) = [] := by
  rw [List.filter_eq_nil_iff]
  simp only [List.mem_flatMap, decide_eq_true_eq, not_not, forall_exists_index, and_imp, Prod.forall]
  exact ⟨fun H name o ns h1 h2 => H o ns h1 name h2, fun H o ns h1 name h2 => H name o ns h1 h2⟩

/-- Creation of a hierarchy succeeds exactly if, for each of its classes, every required name is a
parameter of `_f`; otherwise a TypeError is raised. -/
theorem C54_created (h : List ClassBody) :
    (∃ c, buildClass h = .ok c) ↔ ∀ k, k <:+ h → Spec.NamesKnown k := by
  induction h with
  | nil =>
    refine ⟨fun _ k hk => ?_, fun _ => ⟨_, rfl⟩⟩
    rw [List.suffix_nil.1 hk]
    intro o ns hm
    simp [Spec.reqOf] at hm
  | cons b bs ih =>
    have step : ∀ parent, buildClass bs = .ok parent →
        ((∃ c, buildClass (b :: bs) = .ok c) ↔ Spec.NamesKnown (b :: bs)) := by
      intro parent hp
      obtain ⟨h1, h2⟩ := buildClass_ok hp
      have hf : ((b.f.map FMethod.raw).getD parent.f).fn = Spec.fnOf (b :: bs) := by
        cases hb : b.f <;> simp [Spec.fnOf, hb, FMethod.fn, h2]
      have hr : b.req.getD parent.req = Spec.reqOf (b :: bs) := by simp [Spec.reqOf, h1]
      rw [namesKnown_iff]
      simp only [buildClass, hp, bind, Except.bind, DampClass.derive, hf, hr]
      by_cases he : Spec.reqOf (b :: bs) = []
      · simp [he]
      · rw [if_neg he]
        split_ifs with hu
        · simp only [reduceCtorEq, exists_false, false_iff]; exact hu
        · simp only [Except.ok.injEq, exists_eq', true_iff]; exact not_not.1 hu
    have hsuf : (∀ k, k <:+ b :: bs → Spec.NamesKnown k) ↔
        (∀ k, k <:+ bs → Spec.NamesKnown k) ∧ Spec.NamesKnown (b :: bs) := by
      constructor
      · exact fun H => ⟨fun k hk => H k (hk.trans (List.suffix_cons b bs)), H _ List.suffix_rfl⟩
      · rintro ⟨H1, H2⟩ k hk
        rcases List.suffix_cons_iff.1 hk with rfl | hk
        · exact H2
        · exact H1 k hk
    rw [hsuf, ← ih]
    cases hp : buildClass bs with
    | error e => simp [buildClass, hp, bind, Except.bind]
    | ok parent => simpa [hp] using step parent hp

/-- The exception of a rejected class statement. -/
theorem C54_rejected (h : List ClassBody) {e : Err} (he : buildClass h = .error e) : e = .type := by
  induction h with
  | nil => simp [buildClass] at he
  | cons b bs ih =>
    cases hp : buildClass bs with
    | error e' =>
      simp only [buildClass, hp, bind, Except.bind, Except.error.injEq] at he
      subst he
      exact ih hp
    | ok parent =>
      simp only [buildClass, hp, bind, Except.bind, DampClass.derive] at he
      split_ifs at he
      exact (Except.error.inj he).symm

/-- What a call of `_f` does: TypeError if the signature does not accept the keywords of the
interface, or if a class since the definition of `_f` requires a keyword which is `None`; otherwise the
body runs. -/
theorem C54_run {h : List ClassBody} {c : DampClass} (hc : buildClass h = .ok c)
    (hd : Spec.Distinct h) (a : FArgs) :
    c.f.run a =
      if Spec.Accepts h a then (Spec.fnOf h).body a else Tensor.fail .type := by
  have hknown := (C54_created h).1 ⟨c, hc⟩
  induction h generalizing c with
  | nil =>
    simp only [buildClass, Except.ok.injEq] at hc
    subst hc
    simp only [DampClass.base, FMethod.run]
    refine if_congr ?_ rfl rfl
    simp [Spec.Accepts, Spec.since, Spec.fnOf]
  | cons b bs ih =>
    unfold buildClass at hc
    cases hp : buildClass bs with
    | error e => simp [hp, bind, Except.bind] at hc
    | ok parent =>
      obtain ⟨h1, h2⟩ := buildClass_ok hp
      simp only [hp, bind, Except.bind, DampClass.derive] at hc
      have hr : b.req.getD parent.req = Spec.reqOf (b :: bs) := by simp [Spec.reqOf, h1]
      obtain ⟨m, hm⟩ : ∃ m, m = (b.f.map FMethod.raw).getD parent.f := ⟨_, rfl⟩
      have hf : m.fn = Spec.fnOf (b :: bs) := by
        rw [hm]; cases hb : b.f <;> simp [Spec.fnOf, hb, FMethod.fn, h2]
      rw [← hm, hr] at hc
      obtain ⟨rest, hrest⟩ : ∃ rest : Prop, rest ↔
          ∀ k ∈ (if b.f.isSome then [] else Spec.since bs),
            ¬ Spec.Violates k (Spec.fnOf (b :: bs)) a := ⟨_, Iff.rfl⟩
      -- the method that is wrapped
      have hrun : m.run a = if (Spec.fnOf (b :: bs)).Binds ∧ rest
          then (Spec.fnOf (b :: bs)).body a else Tensor.fail .type := by
        cases hb : b.f with
        | some f =>
          simp only [hb, Option.isSome_some, if_true, List.not_mem_nil, false_implies,
            implies_true, iff_true] at hrest
          simp only [hm, hb, Option.map_some, Option.getD_some, FMethod.run, Spec.fnOf, hrest,
            and_true]
        | none =>
          have : Spec.fnOf (b :: bs) = Spec.fnOf bs := by simp [Spec.fnOf, hb]
          simp only [hb, Option.isSome_none, Bool.false_eq_true, if_false] at hrest
          rw [this] at hrest ⊢
          have := ih hp (by rw [Spec.Distinct, ← this]; exact hd) fun k hk =>
            hknown k (hk.trans (List.suffix_cons b bs))
          simp only [hm, hb, Option.map_none, Option.getD_none, this]
          exact if_congr (by rw [Spec.Accepts, hrest]) rfl rfl
      have hv : Spec.Violates (b :: bs) (Spec.fnOf (b :: bs)) a ↔
          ((Spec.reqOf (b :: bs)).names a.order).filter ((Spec.fnOf (b :: bs)).missing a) ≠ [] := by
        rw [ne_eq, List.filter_eq_nil_iff, Spec.Violates, ReqMap.names]
        cases hl : (Spec.reqOf (b :: bs)).lookup a.order with
        | none => simp
        | some names =>
          have hk := hknown _ List.suffix_rfl _ names (mem_of_lookup_some hl)
          simp only [Option.some.injEq, exists_eq_left', Option.getD_some, not_forall, not_not,
            exists_prop]
          refine exists_congr fun name => and_congr_right fun hname => ?_
          exact (FDef.missing_iff hd (hk name hname)).symm
      have hall : Spec.Accepts (b :: bs) a ↔ (Spec.fnOf (b :: bs)).Binds ∧
          ¬ Spec.Violates (b :: bs) (Spec.fnOf (b :: bs)) a ∧ rest := by
        rw [Spec.Accepts, Spec.since, List.forall_mem_cons, hrest]
      by_cases he : Spec.reqOf (b :: bs) = []
      · rw [if_pos he] at hc
        injection hc with hc; subst hc
        have hn : ¬ Spec.Violates (b :: bs) (Spec.fnOf (b :: bs)) a := by
          rintro ⟨names, hname, -⟩
          rw [he] at hname
          simp at hname
        rw [hrun]
        exact if_congr (by rw [hall]; simp [hn]) rfl rfl
      · rw [if_neg he] at hc
        split_ifs at hc with hu
        injection hc with hc; subst hc
        simp only [FMethod.run, hf, hrun]
        by_cases hB : (Spec.fnOf (b :: bs)).Binds
        · rw [if_pos hB]
          by_cases hV : Spec.Violates (b :: bs) (Spec.fnOf (b :: bs)) a
          · rw [if_pos (hv.1 hV), if_neg fun h => (hall.1 h).2.1 hV]
          · rw [if_neg fun h => hV (hv.2 h)]
            exact if_congr (by rw [hall]; simp [hV]) rfl rfl
        · rw [if_neg hB, if_neg fun h => hB h.1]

/-- What a call of an instance does: zeros if the term is switched off, TypeError if the call is not
accepted, otherwise the body of `_f`. -/
theorem C54_call {h : List ClassBody} {c : DampClass} (hc : buildClass h = .ok c)
    (hd : Spec.Distinct h) (a : FArgs) :
    c.call a = if a.kw.Off a.order then zerosLike a.dist
      else if Spec.Accepts h a then (Spec.fnOf h).body a else Tensor.fail .type := by
  rw [← C54_run hc hd a]
  by_cases ho : a.kw.Off a.order
  · rw [if_pos ho]
    have h := Kw.off_iff.1 ho
    unfold DampClass.call
    split_ifs with h6 h8 h9 h10 <;> try rfl
    refine absurd ⟨?_, ?_, ?_, ?_⟩ h
    · intro ho; by_contra hh; push Not at hh; exact h6 ⟨ho, hh⟩
    · intro ho; by_contra hh; push Not at hh; exact h8 ⟨ho, hh⟩
    · intro ho; by_contra hh; push Not at hh; exact h9 ⟨ho, hh⟩
    · intro ho; by_contra hh; exact h10 ⟨ho, hh⟩
  · rw [if_neg ho]
    have h : a.kw.Active a.order := by by_contra h; exact ho (Kw.off_iff.2 h)
    obtain ⟨h6, h8, h9, h10⟩ := h
    unfold DampClass.call
    rw [if_neg (fun hh => ?_), if_neg (fun hh => ?_), if_neg (fun hh => ?_), if_neg (fun hh => ?_)]
    · exact h10 hh.1 hh.2
    · exact (h9 hh.1).elim (· hh.2.1) (· hh.2.2)
    · exact (h8 hh.1).elim (· hh.2.1) (· hh.2.2)
    · exact (h6 hh.1).elim (· hh.2.1) (· hh.2.2)

/-- Classes without a function `_f` of their own or of a base class cannot be instantiated, all
others can. -/
theorem C54_instances {h : List ClassBody} {c : DampClass} (hc : buildClass h = .ok c) :
    c.instantiate = if (Spec.fnOf h).abstract then .error .type else .ok () := by
  rw [DampClass.instantiate, (buildClass_ok hc).2]

/-- A class is checked against exactly its own requirements, if these are also the requirements of its
bases since the definition of `_f`; in particular if it defines `_f` itself. -/
theorem C54_own_partial {h : List ClassBody} {c : DampClass} (hc : buildClass h = .ok c)
    (hd : Spec.Distinct h) (hb : (Spec.fnOf h).Binds)
    (hsame : (∃ b bs, h = b :: bs ∧ b.f.isSome) ∨ ∀ k ∈ Spec.since h, Spec.reqOf k = Spec.reqOf h)
    (a : FArgs) :
    c.f.run a =
      if Spec.Violates h (Spec.fnOf h) a then Tensor.fail .type else (Spec.fnOf h).body a := by
  have hsame' : ∀ k ∈ Spec.since h, Spec.reqOf k = Spec.reqOf h := by
    rcases hsame with ⟨b, bs, rfl, hf⟩ | hs
    · intro k hk
      simp only [Spec.since, hf, if_true, List.mem_singleton] at hk
      rw [hk]
    · exact hs
  rw [C54_run hc hd a]
  have key : Spec.Accepts h a ↔ ¬ Spec.Violates h (Spec.fnOf h) a := by
    constructor
    · intro hacc hv
      cases h with
      | nil =>
        obtain ⟨names, hl, -⟩ := hv
        simp [Spec.reqOf] at hl
      | cons b bs => exact hacc.2 (b :: bs) (by simp [Spec.since]) hv
    · intro hv
      refine ⟨hb, fun k hk hk' => hv ?_⟩
      unfold Spec.Violates at hk' ⊢
      rw [hsame' k hk] at hk'
      exact hk'
  by_cases hv : Spec.Violates h (Spec.fnOf h) a
  · rw [if_neg (fun hh => key.1 hh hv), if_pos hv]
  · rw [if_pos (key.2 hv), if_neg hv]

/-- Full statement: a call that satisfies the requirements of the class runs `_f`. -/
def OwnRequirements : Prop :=
  ∀ (h : List ClassBody) (c : DampClass), buildClass h = .ok c → Spec.Distinct h →
    (Spec.fnOf h).Binds → ∀ a, ¬ Spec.Violates h (Spec.fnOf h) a →
      c.f.run a = (Spec.fnOf h).body a

namespace Demo

/-- A damping function that requires `bet` for order 6, and a derived class that drops the
requirement. -/
def strict : ClassBody :=
  { req := some [(6, ["bet"])], f := some { kwOnly := interfaceKw, body := fun a => a.dist } }
def relaxed : ClassBody := { req := some [] }
/-- A class that requires a keyword its `_f` does not have. -/
def misspelt : ClassBody :=
  { req := some [(6, ["beta"])], f := some { kwOnly := interfaceKw, body := fun a => a.dist } }

theorem interface_nodup : (positionalNames ++ interfaceKw.map Prod.fst ++ []).Nodup := by
  decide +kernel

theorem relaxed_known : ∀ k, k <:+ [relaxed, strict] → Spec.NamesKnown k := by
  intro k hk
  have : k = [] ∨ k = [strict] ∨ k = [relaxed, strict] := by
    rcases List.suffix_cons_iff.1 hk with h | h
    · exact Or.inr (Or.inr h)
    · rcases List.suffix_cons_iff.1 h with h | h
      · exact Or.inr (Or.inl h)
      · exact Or.inl (List.suffix_nil.1 h)
  rcases this with rfl | rfl | rfl
  · intro o ns hm; simp [Spec.reqOf] at hm
  · intro o ns hm name hname
    simp only [Spec.reqOf, strict, Option.getD_some, List.mem_singleton, Prod.mk.injEq] at hm
    rw [hm.2, List.mem_singleton] at hname
    subst hname
    simp [Spec.fnOf, strict, FDef.params, interfaceKw]
  · intro o ns hm; simp [Spec.reqOf, relaxed] at hm

theorem interface_binds {abs : Bool} {body : FArgs → Tensor ℝ} :
    FDef.Binds { kwOnly := interfaceKw, abstract := abs, body := body } := by
  refine ⟨fun name h => Or.inr ?_, fun name h => ?_⟩
  · simp only [passedNames, List.mem_cons, List.not_mem_nil, or_false] at h
    rcases h with rfl | rfl | rfl | rfl | rfl | rfl | rfl | rfl | rfl | rfl | rfl | rfl <;>
      simp [interfaceKw]
  · simp [interfaceKw] at h

end Demo

/-- It is false: the wrapper of the base class stays in place. -/
theorem C54_own_false : ¬ OwnRequirements := by
  intro H
  obtain ⟨c, hc⟩ := (C54_created [Demo.relaxed, Demo.strict]).2 Demo.relaxed_known
  have hfn : Spec.fnOf [Demo.relaxed, Demo.strict] =
      { kwOnly := interfaceKw, body := fun a => a.dist } := rfl
  have hd : Spec.Distinct [Demo.relaxed, Demo.strict] := by
    rw [Spec.Distinct, hfn]; exact Demo.interface_nodup
  let a : FArgs := ⟨scalar 1, scalar 1, 6, false, {}⟩
  have h := H _ c hc hd (by rw [hfn]; exact Demo.interface_binds) a (by
    rintro ⟨names, hl, -⟩
    simp [Spec.reqOf, Demo.relaxed] at hl)
  have hv : Spec.Violates [Demo.strict] (Spec.fnOf [Demo.relaxed, Demo.strict]) a := by
    refine ⟨["bet"], by simp [Spec.reqOf, Demo.strict, a], "bet", by simp, Or.inl ⟨.bet, rfl, rfl, ?_⟩⟩
    rw [hfn]
    exact ⟨.none, by simp [interfaceKw]⟩
  rw [C54_run hc hd a, if_neg fun hacc => hacc.2 [Demo.strict] (by simp [Spec.since, Demo.relaxed]) hv]
    at h
  have := congrArg Tensor.err h
  simp [Spec.fnOf, Demo.relaxed, Demo.strict, Tensor.fail, a] at this

/-- The requirements of the package in terms of keywords. -/
theorem Damping.required_keys (d : Damping) (order : ℕ) :
    ∃ ks : List Key, d.requiredByOrder.names order = ks.map Spec.keyName ∧
      ∀ kw, d.required order kw = ks.map kw.val := by
  by_cases h6 : order = 6
  · subst h6
    cases d with
    | rational => exact ⟨[.a1, .a2], rfl, fun _ => rfl⟩
    | zero => exact ⟨[.rs6, .alp], rfl, fun _ => rfl⟩
    | mzero => exact ⟨[.rs6, .alp, .bet], rfl, fun _ => rfl⟩
    | op => exact ⟨[.a1, .a2, .bet], rfl, fun _ => rfl⟩
  by_cases h8 : order = 8
  · subst h8
    cases d with
    | rational => exact ⟨[.a1, .a2], rfl, fun _ => rfl⟩
    | zero => exact ⟨[.rs8, .alp], rfl, fun _ => rfl⟩
    | mzero => exact ⟨[.rs8, .alp, .bet], rfl, fun _ => rfl⟩
    | op => exact ⟨[.a1, .a2, .bet], rfl, fun _ => rfl⟩
  by_cases h9 : order = 9
  · subst h9
    cases d with
    | zero => exact ⟨[.rs9, .alp], rfl, fun _ => rfl⟩
    | _ => exact ⟨[], rfl, fun _ => rfl⟩
  by_cases h10 : order = 10
  · subst h10
    cases d with
    | rational => exact ⟨[.a1, .a2], rfl, fun _ => rfl⟩
    | _ => exact ⟨[], rfl, fun _ => rfl⟩
  have hb6 : (order == 6) = false := by simpa using h6
  have hb8 : (order == 8) = false := by simpa using h8
  have hb9 : (order == 9) = false := by simpa using h9
  have hb10 : (order == 10) = false := by simpa using h10
  refine ⟨[], ?_, fun kw => ?_⟩
  · cases d <;> simp [Damping.requiredByOrder, ReqMap.names, List.lookup_cons, hb6, hb8, hb9, hb10]
  · unfold Damping.required
    split <;> first | rfl | omega

/-- The check of the package classes tests the values of the keywords. -/
theorem Damping.missing_key (d : Damping) (env : Env) (dist rad : Tensor ℝ) (order : ℕ) (od : Bool)
    (kw : Kw) (k : Key) :
    FDef.missing { kwOnly := d.kwOnly
                   body := fun a => d.f env a.dist a.rad a.order a.onlyDamping a.kw }
      ⟨dist, rad, order, od, kw⟩ (Spec.keyName k) = true ↔ kw.val k = none := by
  have hn : (positionalNames ++ d.kwOnly.map Prod.fst ++ []).Nodup := by
    cases d <;> decide +kernel
  have hmem : ∃ x, (Spec.keyName k, x) ∈ d.kwOnly := by
    cases d <;> cases k <;> simp [Spec.keyName, Damping.kwOnly, rationalKw, zeroKw, mzeroKw, opKw]
  rw [FDef.missing_iff (f := { kwOnly := d.kwOnly
                               body := fun a => d.f env a.dist a.rad a.order a.onlyDamping a.kw })
    (by simpa [FDef.params] using hn)]
  · constructor
    · rintro (⟨k', hk', hv, -⟩ | ⟨h, -⟩)
      · have : k' = k := by revert hk'; cases k' <;> cases k <;> simp [Spec.keyName]
        rw [← this]; exact hv
      · exact absurd rfl (h k)
    · exact fun hv => Or.inl ⟨k, rfl, hv, hmem⟩
  · obtain ⟨x, hx⟩ := hmem
    simp only [FDef.params, List.mem_append]
    exact Or.inl (Or.inr (List.mem_map_of_mem hx))

/-- The classes of the package are created and instantiated, and their instances are the damping
functions of the model. -/
theorem C54_package (env : Env) (d : Damping) :
    ∃ c, buildClass [d.classBody env] = .ok c ∧ c.instantiate = .ok () ∧
      ∀ dist rad order od kw, c.call ⟨dist, rad, order, od, kw⟩ = d.call env dist rad order od kw := by
  have hb : FDef.Binds { kwOnly := d.kwOnly
                         body := fun a => d.f env a.dist a.rad a.order a.onlyDamping a.kw } := by
    refine ⟨fun name h => Or.inr ?_, fun name h => ?_⟩
    · simp only [passedNames, List.mem_cons, List.not_mem_nil, or_false] at h
      rcases h with rfl | rfl | rfl | rfl | rfl | rfl | rfl | rfl | rfl | rfl | rfl | rfl <;>
        cases d <;> simp [Damping.kwOnly, rationalKw, zeroKw, mzeroKw, opKw]
    · cases d <;> simp [Damping.kwOnly, rationalKw, zeroKw, mzeroKw, opKw] at h
  have hne : d.requiredByOrder ≠ [] := by cases d <;> simp [Damping.requiredByOrder]
  have hk : (d.requiredByOrder.flatMap Prod.snd).filter (fun name => name ∉
      FDef.params { kwOnly := d.kwOnly
                    body := fun a => d.f env a.dist a.rad a.order a.onlyDamping a.kw }) = [] := by
    cases d <;> simp [Damping.requiredByOrder, Damping.kwOnly, rationalKw, zeroKw, mzeroKw, opKw,
      FDef.params]
  refine ⟨_, by simp only [buildClass, bind, Except.bind, DampClass.derive, Damping.classBody,
    Option.getD_some, Option.map_some, FMethod.fn]; rw [if_neg hne, if_neg (not_not.2 hk)], ?_, ?_⟩
  · simp [DampClass.instantiate, FMethod.fn]
  · intro dist rad order od kw
    have hreq : ((d.requiredByOrder.names order).filter (FDef.missing
        { kwOnly := d.kwOnly
          body := fun a => d.f env a.dist a.rad a.order a.onlyDamping a.kw }
        ⟨dist, rad, order, od, kw⟩) ≠ []) ↔ none ∈ d.required order kw := by
      obtain ⟨ks, h1, h2⟩ := d.required_keys order
      rw [ne_eq, List.filter_eq_nil_iff, h1, h2 kw]
      simp only [List.mem_map, not_forall, not_not]
      constructor
      · rintro ⟨name, ⟨k, hk, rfl⟩, hm⟩
        exact ⟨k, hk, (d.missing_key env dist rad order od kw k).1 hm⟩
      · rintro ⟨k, hk, hn⟩
        exact ⟨_, ⟨k, hk, rfl⟩, (d.missing_key env dist rad order od kw k).2 hn⟩
    simp only [DampClass.call, Damping.call, FMethod.run, FMethod.fn, if_pos hb, Damping.checkedF]
    have : (if (d.requiredByOrder.names order).filter (FDef.missing
        { kwOnly := d.kwOnly
          body := fun a => d.f env a.dist a.rad a.order a.onlyDamping a.kw }
        ⟨dist, rad, order, od, kw⟩) ≠ [] then (Tensor.fail .type : Tensor ℝ)
        else d.f env dist rad order od kw) =
        if none ∈ d.required order kw then Tensor.fail .type else d.f env dist rad order od kw :=
      if_congr hreq rfl rfl
    rw [this]

/-! ## Cases -/

/-- A class with a required keyword that `_f` does not have is rejected. -/
example : buildClass [Demo.misspelt] = .error .type := by
  cases h : buildClass [Demo.misspelt] with
  | error e => rw [C54_rejected _ h]
  | ok c =>
    have := (C54_created [Demo.misspelt]).1 ⟨c, h⟩ _ List.suffix_rfl 6 ["beta"]
      (by simp [Spec.reqOf, Demo.misspelt]) "beta" (by simp)
    simp [Spec.fnOf, Demo.misspelt, FDef.params, positionalNames, interfaceKw] at this

/-- `ZDamping` (`functions.py:487`) is created but cannot be instantiated. -/
example : ∃ c, buildClass [{}] = .ok c ∧ c.instantiate = .error .type := by
  obtain ⟨c, hc⟩ := (C54_created [{}]).2 (by
    intro k hk o ns hm
    rcases List.suffix_cons_iff.1 hk with rfl | h
    · simp [Spec.reqOf] at hm
    · rw [List.suffix_nil.1 h] at hm; simp [Spec.reqOf] at hm)
  exact ⟨c, hc, by rw [C54_instances hc]; rfl⟩

/-- The strict class without and with `bet`. -/
example : ∃ c, buildClass [Demo.strict] = .ok c ∧
    c.f.run ⟨scalar 2, scalar 1, 6, false, {}⟩ = Tensor.fail .type ∧
    c.f.run ⟨scalar 2, scalar 1, 6, false, { bet := some 1 }⟩ = scalar 2 := by
  obtain ⟨c, hc⟩ := (C54_created [Demo.strict]).2 fun k hk =>
    Demo.relaxed_known k (hk.trans (List.suffix_cons _ _))
  have hd : Spec.Distinct [Demo.strict] := Demo.interface_nodup
  have h := C54_own_partial hc hd Demo.interface_binds (Or.inl ⟨_, _, rfl, rfl⟩)
  refine ⟨c, hc, ?_, ?_⟩
  · rw [h, if_pos ⟨["bet"], by simp [Spec.reqOf, Demo.strict], "bet", by simp,
      Or.inl ⟨.bet, rfl, rfl, .none, by simp [Spec.fnOf, Demo.strict, interfaceKw]⟩⟩]
  · rw [h, if_neg]
    · rfl
    · rintro ⟨names, hl, name, hname, hr⟩
      simp only [Spec.reqOf, Demo.strict, Option.getD_some, List.lookup_cons, beq_self_eq_true,
        Option.some.injEq] at hl
      subst hl
      rw [List.mem_singleton] at hname
      subst hname
      rcases hr with ⟨k, hk, hv, -⟩ | ⟨hk, -⟩
      · cases k <;> simp [Spec.keyName, Kw.val] at hk hv
      · exact hk .bet rfl

/-- The derived class uses `_f` of its base class and no requirement. -/
example : ∃ c, buildClass [Demo.relaxed, Demo.strict] = .ok c ∧
    ∀ a : FArgs, c.call a = if a.kw.Off a.order then zerosLike a.dist
      else if Spec.Accepts [Demo.relaxed, Demo.strict] a then a.dist else Tensor.fail .type := by
  obtain ⟨c, hc⟩ := (C54_created [Demo.relaxed, Demo.strict]).2 Demo.relaxed_known
  exact ⟨c, hc, fun a => C54_call hc Demo.interface_nodup a⟩

example : ∃ c, buildClass [Demo.relaxed, Demo.strict] = .ok c ∧
    ∀ a : FArgs, c.f.run a = if Spec.Accepts [Demo.relaxed, Demo.strict] a then a.dist
      else Tensor.fail .type := by
  obtain ⟨c, hc⟩ := (C54_created [Demo.relaxed, Demo.strict]).2 Demo.relaxed_known
  exact ⟨c, hc, fun a => C54_run hc Demo.interface_nodup a⟩

/-- The class of zero damping of the package. -/
example := C54_package Demo.env .zero

end TadDftd4
