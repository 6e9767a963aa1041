import Verif.Model.Params
import Verif.Lemmas.Errors

/-!
# Parameter lookup in loaded tables
-/

namespace TadDftd4

theorem mem_of_lookup {β : Type} {k : String} {x : β} {l : Dict β} (h : l.lookup k = some x) :
    (k, x) ∈ l := by
  induction l with
  | nil => simp at h
  | cons y l ih =>
    obtain ⟨a, y⟩ := y
    rw [List.lookup_cons] at h
    by_cases hk : k = a
    · subst hk
      simp only [beq_self_eq_true, Option.some.injEq] at h
      simp [h]
    · have : (k == a) = false := by simpa using hk
      rw [this] at h
      exact List.mem_cons_of_mem _ (ih h)

theorem lookup_map {α β : Type} (g : String → α → β) (d : Dict α) (k : String) :
    (d.map fun x => (x.1, g x.1 x.2)).lookup k = (d.lookup k).map (g k) := by
  induction d with
  | nil => rfl
  | cons x d ih =>
    obtain ⟨a, y⟩ := x
    simp only [List.map_cons, List.lookup_cons]
    by_cases h : k = a
    · subst h; simp
    · simp [beq_eq_false_iff_ne.2 h, ih]

theorem getItem_map {α β : Type} (g : String → α → β) (d : Dict α) (k : String) :
    getItem (d.map fun x => (x.1, g x.1 x.2)) k = (getItem d k).map (g k) := by
  unfold getItem
  rw [lookup_map]
  cases d.lookup k <;> rfl

theorem getItem_eq_ok {α : Type} {d : Dict α} {k : String} {x : α} :
    getItem d k = .ok x ↔ d.lookup k = some x := by
  unfold getItem
  cases d.lookup k <;> simp

theorem getItem_eq_error {α : Type} {d : Dict α} {k : String} {e : Err} :
    getItem d k = .error e ↔ d.lookup k = none ∧ e = .key := by
  unfold getItem
  cases d.lookup k <;> simp [eq_comm]

/-- Addresses of the blocks of one method. -/
def addrs1 {β : Type} (m0 : String) (pre : List String) (method : String) (d : Dict β) : Dict Addr :=
  d.map fun y => (y.1, .cached m0 (pre ++ [method, y.1]))

theorem lookup_addrs {β : Type} (m0 : String) (pre : List String) (d : Dict (Dict β)) (k : String) :
    (addrs m0 pre d).lookup k = (d.lookup k).map (addrs1 m0 pre k) :=
  lookup_map (fun a x => addrs1 m0 pre a x) d k

theorem getItem_addrs {β : Type} (m0 : String) (pre : List String) (d : Dict (Dict β)) (k : String) :
    getItem (addrs m0 pre d) k = (getItem d k).map (addrs1 m0 pre k) :=
  getItem_map (fun a x => addrs1 m0 pre a x) d k

theorem getItem_addrs1 {β : Type} (m0 : String) (pre : List String) (method : String) (d : Dict β)
    (k : String) : getItem (addrs1 m0 pre method d) k =
      (getItem d k).map fun _ => Addr.cached m0 (pre ++ [method, k]) :=
  getItem_map (fun c _ => Addr.cached m0 (pre ++ [method, c])) d k

/-- Path of the block selected. -/
def pathOf (cf : String → String) (method : String) (functional : Option String) (v : String) :
    List String :=
  match functional with
  | none => ["default", "parameter", method, v]
  | some f => if f = "default" then ["default", "parameter", method, v]
      else ["parameter", cf f, method, v]

/-- Lookup in the loaded table finds the address of the block found in the file. -/
theorem locate_alloc (cf : String → String) (f : ParamFile Block) (m0 method : String)
    (fn v : Option String) :
    match locate cf f method fn v with
    | .ok b => ∃ p, locate cf (f.alloc m0) method fn v = .ok (.cached m0 p) ∧ f.at p = b
    | .error e => locate cf (f.alloc m0) method fn v = .error e := by
  have hv : chooseVariant (f.alloc m0) method v = chooseVariant f method v := rfl
  have hd : defaultSection (f.alloc m0) method v =
      (defaultSection f method v).map (addrs m0 ["default", "parameter"]) := by
    unfold defaultSection
    show (getItem f.variants method >>= _) = _
    cases getItem f.variants method with
    | error e => rfl
    | ok vs =>
      cases v with
      | none => rfl
      | some v => simp only [bind, Except.bind]; split_ifs <;> rfl
  have hf : ∀ g, functionalSection cf (f.alloc m0) method g =
      (functionalSection cf f method g).map (addrs m0 ["parameter", cf g]) := by
    intro g
    unfold functionalSection
    have h1 : (f.alloc m0).functionals.lookup g =
        (f.functionals.lookup g).map (addrs m0 ["parameter", g]) :=
      lookup_map (fun a d => addrs m0 ["parameter", a] d) f.functionals g
    have h2 : getItem (f.alloc m0).functionals (cf g) =
        (getItem f.functionals (cf g)).map (addrs m0 ["parameter", cf g]) :=
      getItem_map (fun a d => addrs m0 ["parameter", a] d) f.functionals (cf g)
    rw [h1, h2]
    cases f.functionals.lookup g with
    | none => rfl
    | some x =>
      cases getItem f.functionals (cf g) with
      | error e => rfl
      | ok s =>
        simp only [Option.map_some, Option.isNone_some, Bool.false_eq_true, if_false, Except.map, bind,
          Except.bind, lookup_addrs]
        cases s.lookup method <;> rfl
  -- the remaining steps, for a section at path `pre`
  have tail : ∀ (pre : List String) (s : Dict (Dict Block)) (w : String),
      (∀ d b, s.lookup method = some d → d.lookup w = some b → f.at (pre ++ [method, w]) = b) →
      match (getItem s method >>= fun d => getItem d w) with
      | .ok b => ∃ p, (getItem (addrs m0 pre s) method >>= fun d => getItem d w) =
          .ok (.cached m0 p) ∧ f.at p = b
      | .error e => (getItem (addrs m0 pre s) method >>= fun d => getItem d w) = .error e := by
    intro pre s w hat
    rw [getItem_addrs]
    cases hs : getItem s method with
    | error e => rfl
    | ok d =>
      simp only [Except.map, bind, Except.bind, getItem_addrs1]
      cases hb : getItem d w with
      | error e => rfl
      | ok b => exact ⟨_, rfl, hat d b (getItem_eq_ok.1 hs) (getItem_eq_ok.1 hb)⟩
  have main : ∀ (pre : List String) (sec : Except Err (Dict (Dict Block))),
      (∀ s w d b, sec = .ok s → s.lookup method = some d → d.lookup w = some b →
        f.at (pre ++ [method, w]) = b) →
      match (sec >>= fun s => chooseVariant f method v >>= fun w => getItem s method >>= fun d =>
        getItem d w) with
      | .ok b => ∃ p, (sec.map (addrs m0 pre) >>= fun s => chooseVariant f method v >>= fun w =>
          getItem s method >>= fun d => getItem d w) = .ok (.cached m0 p) ∧ f.at p = b
      | .error e => (sec.map (addrs m0 pre) >>= fun s => chooseVariant f method v >>= fun w =>
          getItem s method >>= fun d => getItem d w) = .error e := by
    intro pre sec hat
    cases sec with
    | error e => rfl
    | ok s =>
      cases chooseVariant f method v with
      | error e => rfl
      | ok w => exact tail pre s w fun d b => hat s w d b rfl
  have hdef : ∀ s w d b, defaultSection f method v = .ok s → s.lookup method = some d →
      d.lookup w = some b → f.at (["default", "parameter"] ++ [method, w]) = b := by
    intro s w d b hs hm hw
    have : s = f.defaults := by
      unfold defaultSection at hs
      rw [bind_eq_ok] at hs
      obtain ⟨vs, -, hs⟩ := hs
      cases v with
      | none => cases hs
      | some v =>
        simp only at hs
        split_ifs at hs
        cases hs; rfl
    subst this
    simp [ParamFile.at, hm, hw]
  unfold locate
  rw [hv]
  cases fn with
  | none =>
    simp only [dispSection]
    rw [hd]
    exact main _ _ hdef
  | some g =>
    simp only [dispSection]
    by_cases hg : g = "default"
    · rw [if_pos hg, if_pos hg, hd]
      exact main _ _ hdef
    · rw [if_neg hg, if_neg hg, hf]
      refine main _ _ fun s w d b hs hm hw => ?_
      unfold functionalSection at hs
      split_ifs at hs
      rw [bind_eq_ok] at hs
      obtain ⟨s', hs', hs⟩ := hs
      split_ifs at hs
      cases hs
      simp [ParamFile.at, getItem_eq_ok.1 hs', hm, hw]

end TadDftd4
