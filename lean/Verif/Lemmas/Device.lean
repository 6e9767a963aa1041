import Verif.Model.Device

/-!
# Devices: what the functions return
-/

namespace TadDftd4.Device

section
variable {D : Type} {cpu g u d0 : D} {a b c : Opd D}

/-- Tensor with dimensions on `g`, computed without exception. -/
structure On (g : D) (a : Opd D) : Prop where
  ok : a.ok
  dev : a.dev = g
  rank : a.rank = .dim

/-- Can be combined with tensors on `g`: a number, a tensor without dimensions on the CPU, or a
tensor on `g`. -/
structure Fits (cpu g : D) (a : Opd D) : Prop where
  ok : a.ok
  dev : a.free cpu ∨ a.dev = g

theorem On.fits (h : On g a) : Fits cpu g a := ⟨h.ok, Or.inr h.dev⟩
theorem fits_py : Fits cpu g (py cpu) := ⟨trivial, Or.inl (Or.inl rfl)⟩
theorem fits_scalar : Fits cpu g (scalar g) := ⟨trivial, Or.inr rfl⟩
theorem fits_cpu : Fits cpu g (scalar cpu) := ⟨trivial, Or.inl (Or.inr ⟨rfl, rfl⟩)⟩
theorem on_dim : On g (dim g) := ⟨trivial, rfl, rfl⟩

theorem On.not_free (h : On g a) : ¬ a.free cpu := by simp [Opd.free, h.rank]

theorem mixl (ha : On g a) (hb : Fits cpu g b) : On g (mix cpu a b) where
  ok := by
    refine ⟨ha.ok, hb.ok, ?_⟩
    rcases hb.dev with h | h
    · exact Or.inr (Or.inl h)
    · exact Or.inr (Or.inr (ha.dev.trans h.symm))
  dev := by
    have h1 := ha.not_free (cpu := cpu)
    simp [mix, ha.rank, h1, ha.dev]
  rank := by simp [mix, ha.rank, Rank.max]

theorem mixr (ha : Fits cpu g a) (hb : On g b) : On g (mix cpu a b) where
  ok := by
    refine ⟨ha.ok, hb.ok, ?_⟩
    rcases ha.dev with h | h
    · exact Or.inl h
    · exact Or.inr (Or.inr (h.trans hb.dev.symm))
  dev := by
    rcases ha.dev with h | h
    · simp [mix, hb.rank, h, hb.dev]
    · simp [mix, hb.rank, h, hb.dev]
  rank := by
    simp only [mix, hb.rank]
    cases a.rank <;> rfl

theorem mixf (ha : Fits cpu g a) (hb : Fits cpu g b) : Fits cpu g (mix cpu a b) where
  ok := by
    refine ⟨ha.ok, hb.ok, ?_⟩
    rcases ha.dev with h | h
    · exact Or.inl h
    · rcases hb.dev with h' | h'
      · exact Or.inr (Or.inl h')
      · exact Or.inr (Or.inr (h.trans h'.symm))
  dev := by
    by_cases h1 : a.rank = .py
    · have e1 : (mix cpu a b).dev = b.dev := by simp [mix, h1]
      have e2 : (mix cpu a b).rank = b.rank := by
        simp only [mix, h1]
        cases b.rank <;> rfl
      have := hb.dev
      unfold Opd.free at this ⊢
      rwa [e1, e2]
    by_cases h2 : b.rank = .py
    · have e1 : (mix cpu a b).dev = a.dev := by simp [mix, h1, h2]
      have e2 : (mix cpu a b).rank = a.rank := by
        simp only [mix, h2]
        cases a.rank <;> rfl
      have := ha.dev
      unfold Opd.free at this ⊢
      rwa [e1, e2]
    by_cases h3 : a.free cpu
    · have e1 : (mix cpu a b).dev = b.dev := by simp [mix, h1, h2, h3]
      rw [e1]
      rcases hb.dev with h | h
      · refine Or.inl (Or.inr ?_)
        obtain ⟨r, d⟩ := h.resolve_left h2
        obtain ⟨r', d'⟩ := h3.resolve_left h1
        exact ⟨by simp [mix, r, r', Rank.max], e1.trans d⟩
      · exact Or.inr h
    · exact Or.inr (by simpa [mix, h1, h2, h3] using ha.dev.resolve_left h3)

theorem on_where (hc : On g c) (ha : On g a) (hb : Fits cpu g b) (hb' : b.dev = g) :
    On g (where_ c a b) :=
  ⟨⟨hc.ok, ha.ok, hb.ok, ha.dev.trans hc.dev.symm, hb'.trans hc.dev.symm⟩, hc.dev, rfl⟩

theorem on_where' (hc : On g c) (ha : On g a) : On g (where_ c a (scalar g)) :=
  on_where (cpu := g) hc ha fits_scalar rfl

theorem on_contract (ha : On g a) (hb : On g b) : On g (contract a b) :=
  ⟨⟨ha.ok, hb.ok, ha.dev.trans hb.dev.symm⟩, ha.dev, rfl⟩

theorem on_index (ha : On g a) (hb : On g b) : On g (index cpu a b) :=
  ⟨⟨ha.ok, hb.ok, Or.inr (hb.dev.trans ha.dev.symm)⟩, ha.dev, rfl⟩

theorem on_anyToTensor (h : a.ok) : Fits cpu g (anyToTensor g a) := ⟨h, Or.inr rfl⟩

theorem on_zeta {gam qref qmod : Opd D} (h1 : On g gam) (h2 : On g qref) (h3 : On g qmod) :
    On g (zeta cpu g gam qref qmod) := by
  have hs : On g (mix cpu gam (mix cpu (py cpu) (mix cpu qref (mix cpu qmod (scalar g))))) :=
    mixl h1 (mixr fits_py (mixl h2 (mixl h3 fits_scalar).fits)).fits
  exact on_where' (mixl h3 fits_py) (mixr fits_scalar (mixr fits_py hs))

theorem on_getAlpha {numbers : Opd D} (h : On g numbers) : On g (getAlpha cpu g numbers) := by
  have hi : On g (index cpu (dim g) numbers) := on_index on_dim h
  have hi2 : On g (index cpu (dim g) (index cpu (dim g) numbers)) := on_index on_dim hi
  have hz := on_where' (mixl hi (fits_py (cpu := cpu)))
    (on_zeta (cpu := cpu) (mixl hi2 (fits_py (cpu := cpu))) hi2 (mixl hi (hi2.fits (cpu := cpu))))
  have ha := mixl (cpu := cpu) hi (mixl (cpu := cpu) hi (mixl (cpu := cpu) hi
    (mixl (cpu := cpu) (mixl (cpu := cpu) hi2 hi2.fits) hz.fits).fits).fits).fits
  exact on_where' (mixl ha fits_py) ha

theorem on_trapzd (h : On g a) : On g (trapzd cpu a) := by
  have hd : On g (dim a.dev) := by rw [h.dev]; exact on_dim
  exact mixr fits_py (on_contract (on_contract hd h) h)

theorem on_trapzdAtm (h : On g a) : On g (trapzdAtm cpu a) := by
  have hd : On g (dim a.dev) := by rw [h.dev]; exact on_dim
  exact mixr fits_py (on_contract h hd)

/-- A model object on `g`. -/
structure MDev.OnDev (cpu g : D) (m : MDev D) : Prop where
  kind : m.kind = .d4 ∨ m.kind = .d4s ∨ m.kind = .d4sDebug
  dev : m.dev = g
  numbers : On g m.numbers
  wf : m.kind = .d4 ∧ m.wf.ok ∧ m.wf.dev = g ∨ m.kind ≠ .d4 ∧ On g m.wf
  rc6 : On g m.rc6

theorem mkModel_on {numbers : Opd D} {kind : ModelKind}
    (hk : kind = .d4 ∨ kind = .d4s ∨ kind = .d4sDebug) (h : On g numbers) :
    (mkModel cpu kind g numbers).OnDev cpu g where
  kind := hk
  dev := rfl
  numbers := h
  wf := by
    rcases hk with rfl | rfl | rfl
    · exact Or.inl ⟨rfl, trivial, rfl⟩
    · exact Or.inr ⟨by simp [mkModel], on_index (on_index on_dim h) h⟩
    · exact Or.inr ⟨by simp [mkModel], on_dim⟩
  rc6 := on_trapzd (on_getAlpha h)

theorem on_weights {m : MDev D} (hm : m.OnDev cpu g) {cn q : Option (Opd D)}
    (hc : ∀ x, cn = some x → On g x) (hq : ∀ x, q = some x → On g x) :
    On g (weights cpu m cn q) := by
  have hi : On g (index cpu (dim g) m.numbers) := on_index on_dim hm.numbers
  have hc' : On g (cn.getD (dim g)) := by
    cases cn with
    | none => exact on_dim
    | some x => exact hc x rfl
  have hq' : On g (q.getD (dim g)) := by
    cases q with
    | none => exact on_dim
    | some x => exact hq x rfl
  have hmask := mixl hi (fits_py (cpu := cpu))
  have hdcn : On g (mix cpu (cn.getD (dim g)) (index cpu (dim g) m.numbers)) := mixl hc' hi.fits
  have key : ∀ expw : Opd D, On g expw →
      On g (let norm := where_ (mix cpu (index cpu (dim g) m.numbers) (py cpu)) expw (scalar g)
        let gwTemp := mix cpu expw norm
        let gw := where_ gwTemp (where_ (mix cpu (index cpu (dim g) m.numbers)
          (index cpu (dim g) m.numbers)) (scalar g) (scalar g)) gwTemp
        let zeff := index cpu (dim g) m.numbers
        let gam := mix cpu (index cpu (dim g) m.numbers) (py cpu)
        let z := where_ (mix cpu (index cpu (dim g) m.numbers) (py cpu))
          (zeta cpu g gam (mix cpu (index cpu (dim g) m.numbers) zeff)
            (mix cpu (q.getD (dim g)) zeff)) (scalar g)
        mix cpu z gw) := by
    intro expw he
    have hn := on_where' hmask he
    have ht := mixl (cpu := cpu) he hn.fits
    have hsel : On g (where_ (mix cpu (index cpu (dim g) m.numbers) (index cpu (dim g) m.numbers))
        (scalar g) (scalar g)) := by
      have := mixl (cpu := cpu) hi hi.fits
      exact ⟨⟨this.ok, trivial, trivial, this.dev.symm, this.dev.symm⟩, this.dev, rfl⟩
    have hgw := on_where (cpu := cpu) ht hsel ht.fits ht.dev
    have hz := on_where' hmask (on_zeta (cpu := cpu) (mixl hi (fits_py (cpu := cpu)))
      (mixl (cpu := cpu) hi hi.fits) (mixl (cpu := cpu) hq' hi.fits))
    exact mixl hz hgw.fits
  unfold weights
  rw [hm.dev]
  rcases hm.wf with ⟨hk, hw1, hw2⟩ | ⟨hk, hw⟩
  · have hw : Fits cpu g m.wf := ⟨hw1, Or.inr hw2⟩
    simp only [hk]
    refine key _ ?_
    have htmp := mixl (cpu := cpu) hdcn hdcn.fits
    have hpw := mixl (cpu := cpu) htmp (mixf (fits_py (cpu := cpu)) hw)
    have h1 := mixr (cpu := cpu) (fits_scalar (g := g)) hpw
    have h3 := mixl (cpu := cpu) (mixl (cpu := cpu) h1 hpw.fits) hpw.fits
    rw [htmp.dev]
    exact on_where' hmask (on_where (cpu := cpu) hmask h3
      (on_where (cpu := cpu) hmask h1 htmp.fits htmp.dev).fits
      (on_where (cpu := cpu) hmask h1 htmp.fits htmp.dev).dev)
  · have harg := on_where' hmask (on_contract (on_contract hdcn hdcn) hw)
    have h1 := mixr (cpu := cpu) (fits_scalar (g := g)) harg
    have h3 := mixl (cpu := cpu) (mixl (cpu := cpu) h1 harg.fits) harg.fits
    have hp1 := on_where (cpu := cpu) hmask h1 harg.fits harg.dev
    have he := on_where' hmask (on_where (cpu := cpu) hmask h3 hp1.fits hp1.dev)
    rcases hm.kind with h | h | h
    · exact absurd h hk
    · simp only [h]
      exact key _ he
    · simp only [h]
      exact key _ he

theorem on_atomicC6 {m : MDev D} (hm : m.OnDev cpu g) {gw : Opd D} (h : On g gw) :
    On g (atomicC6 m gw) := on_contract (on_contract hm.rc6 h) h

theorem on_polarizabilities {m : MDev D} (hm : m.OnDev cpu g) {gw : Opd D} (h : On g gw) :
    On g (polarizabilities cpu m gw) := by
  unfold polarizabilities
  rw [hm.dev]
  exact on_contract h (on_getAlpha hm.numbers)

theorem on_weightedPols {m : MDev D} (hm : m.OnDev cpu g) {gw : Opd D} (h : On g gw) :
    On g (weightedPols cpu m gw) := by
  have h1 := on_polarizabilities hm h
  unfold polarizabilities at h1
  unfold weightedPols
  cases hk : m.kind <;> simp only
  · exact h1
  all_goals exact mixl h1 hm.numbers.fits

theorem on_damp {k : Damping} {r r0 rs a1 a2 alp bet : Opd D} (h : On g r) (h0 : On g r0)
    (h1 : Fits cpu g rs) (h2 : Fits cpu g a1) (h3 : Fits cpu g a2) (h4 : Fits cpu g alp)
    (h5 : Fits cpu g bet) : On g (damp cpu k r r0 rs a1 a2 alp bet) := by
  have hp : Fits cpu g (py cpu) := fits_py
  have hrn : On g (mix cpu r (py cpu)) := mixl h hp
  have hrad : On g (mix cpu (mix cpu a1 r0) a2) := mixl (mixr h2 h0) h3
  have hpow : ∀ t : Opd D, On g t → On g (mix cpu (mix cpu (py cpu) (mix cpu (py cpu)
      (mix cpu (py cpu) (mix cpu t (mix cpu alp (py cpu)))))) (mix cpu r (py cpu))) := fun t ht =>
    mixl (mixr hp (mixr hp (mixr hp (mixl ht (mixf h4 hp))))) hrn.fits
  cases k with
  | rational => exact mixr hp (mixl hrn (mixl hrad hp).fits)
  | zero => exact hpow _ (mixr h1 (mixl h h0.fits))
  | mzero => exact hpow _ (mixl (mixl h (mixr h1 h0).fits) (mixr h5 h0).fits)
  | op =>
    have hrb := mixl h h5
    exact mixl hrb (mixl (mixl hrb hrn.fits) (mixl (mixl hrad h5) hrn.fits).fits).fits

/-- Parameters that can be combined with tensors on `g`. -/
def PDev.Fits (cpu g : D) (p : PDev D) : Prop :=
  ∀ x ∈ [p.s6, p.s8, p.s9, p.s10, p.a1, p.a2, p.rs6, p.rs8, p.rs9, p.rs10, p.alp, p.bet],
    ∀ y, x = some y → Device.Fits cpu g y

theorem fits_getD {x : Option (Opd D)} {y : Opd D} (h : ∀ z, x = some z → Fits cpu g z)
    (hy : Fits cpu g y) : Fits cpu g (x.getD y) := by
  cases x with
  | none => exact hy
  | some z => exact h z rfl

theorem on_dispersion2 {numbers positions c6 r4r2 rvdw cutoff : Opd D} {p : PDev D} {k : Damping}
    (hn : On g numbers) (hx : On g positions) (hp : p.Fits cpu g) (h6 : On g c6) (h4 : On g r4r2)
    (hv : On g rvdw) (hc : Fits cpu g cutoff) :
    On g (dispersion2 cpu numbers positions p c6 r4r2 rvdw k cutoff) := by
  have P : ∀ x ∈ [p.s6, p.s8, p.s9, p.s10, p.a1, p.a2, p.rs6, p.rs8, p.rs9, p.rs10, p.alp, p.bet],
      Fits cpu g (x.getD (py cpu)) ∧ Fits cpu g (x.getD (scalar g)) := fun x hx =>
    ⟨fits_getD (hp x hx) fits_py, fits_getD (hp x hx) fits_scalar⟩
  have hmask : On g (mix cpu numbers (py cpu)) := mixl hn fits_py
  have hd := on_where' hmask hx
  have hqq : On g (mix cpu (mix cpu (py cpu) r4r2) r4r2) := mixl (mixr fits_py h4) h4.fits
  have h8 : On g (mix cpu c6 (mix cpu (mix cpu (py cpu) r4r2) r4r2)) := mixl h6 hqq.fits
  have hnear := mixl (cpu := cpu) hmask (mixl (cpu := cpu) hd hc).fits
  unfold dispersion2
  simp only [hx.dev]
  have hr : On g (match k with
    | .rational | .op => mix cpu (mix cpu (py cpu) r4r2) r4r2
    | .zero | .mzero => rvdw) := by cases k <;> first | exact hqq | exact hv
  have ht : ∀ rs ∈ [p.s6, p.s8, p.s9, p.s10, p.a1, p.a2, p.rs6, p.rs8, p.rs9, p.rs10, p.alp, p.bet],
      _ := fun rs hrs => on_where' hnear (on_damp (k := k) hd hr (P rs hrs).1 (P p.a1 (by simp)).1
        (P p.a2 (by simp)).1 (P p.alp (by simp)).1 (P p.bet (by simp)).1)
  have e6 := mixl (cpu := cpu) h6 (ht p.rs6 (by simp)).fits
  have e8 := mixl (cpu := cpu) h8 (ht p.rs8 (by simp)).fits
  have e68 := mixl (cpu := cpu) (mixr (cpu := cpu) (P p.s6 (by simp)).2 e6)
    (mixr (cpu := cpu) (P p.s8 (by simp)).2 e8).fits
  refine mixr fits_py ?_
  cases h10 : p.s10 with
  | none => exact e68
  | some s10 =>
    have hs : Fits cpu g s10 := hp p.s10 (by simp) s10 h10
    exact mixl e68 (mixr hs (mixl (mixl h6 (mixl hqq fits_py).fits)
      (ht p.rs10 (by simp)).fits)).fits

theorem on_atmDispersion {numbers positions c9 radii cutoff s9 alp : Opd D} {k : Damping}
    (hn : On g numbers) (hx : On g positions) (h9 : On g c9) (hr : On g radii)
    (hc : Fits cpu g cutoff) (hs : s9.ok) (ha : alp.ok) :
    On g (atmDispersion cpu numbers positions c9 radii cutoff k s9 alp) := by
  have hp : Fits cpu g (py cpu) := fits_py
  have hmask : On g (mix cpu numbers (py cpu)) := mixl hn hp
  have hd : On g (mix cpu (where_ (mix cpu numbers (py cpu)) positions (scalar g)) (py cpu)) :=
    mixl (on_where' hmask hx) hp
  have h2 := mixl (cpu := cpu) (mixl (cpu := cpu) hd hd.fits) hd.fits
  have h3 := on_where' hmask (mixl (cpu := cpu) h2 h2.fits)
  have h5 := on_where' hmask (mixl (cpu := cpu) h2 h3.fits)
  have hr0 := mixl (cpu := cpu) (mixl (cpu := cpu) hr hr.fits) hr.fits
  have hf := on_where' hmask (on_damp (k := k) hr0 (on_where' hmask h2) hp hp hp
    (mixf (on_anyToTensor (g := g) ha) hp) hp)
  have hs' := on_where' hmask (mixl (cpu := cpu) (mixl (cpu := cpu) h2 h2.fits) h2.fits)
  have hnear := mixl (cpu := cpu) hmask (mixl (cpu := cpu) hd (mixf hc hc)).fits
  have hang := on_where' hnear (mixl (cpu := cpu) (mixl (cpu := cpu) (mixr hp hs') h5.fits)
    (mixr hp h3).fits)
  unfold atmDispersion
  simp only [hx.dev]
  exact mixl (mixl (mixl (mixl hang hf.fits) (on_anyToTensor hs)) h9.fits) hp

/-- Parameters missing in the dictionary are created on the default device; they fit if it is the
CPU or the device of the tensors. -/
def DefaultsFit (cpu g d0 : D) (p : PDev D) (tm : Term) : Prop :=
  (d0 = cpu ∨ d0 = g) ∨ tm.cls = .twoBody ∨
    (tm.cls = .d3ATM ∧ p.rs9 ≠ none) ∨
    ((tm.cls = .d4ATMApprox ∨ tm.cls = .d4ATMExact) ∧ p.a1 ≠ none ∧ p.a2 ≠ none)

theorem on_termEnergy {tm : Term} {numbers positions cn r4r2 rvdw disp2 disp3 : Opd D} {p : PDev D}
    {m : MDev D} {q : Option (Opd D)} (hn : On g numbers) (hx : On g positions) (hp : p.Fits cpu g)
    (hd : DefaultsFit cpu g d0 p tm) (hcn : On g cn) (hm : m.OnDev cpu g)
    (hq : ∀ x, q = some x → On g x) (h4 : On g r4r2) (hv : On g rvdw) (hc2 : Fits cpu g disp2)
    (hc3 : Fits cpu g disp3) :
    On g (termEnergy cpu d0 tm numbers positions p cn m q r4r2 rvdw disp2 disp3) := by
  have hw : On g (weights cpu m (some cn) (if tm.chargeDep then q else none)) :=
    on_weights hm (by rintro x ⟨⟩; exact hcn) (by
      intro x hx
      split_ifs at hx
      exact hq x hx)
  have h6 := on_atomicC6 hm hw
  have hap := on_weightedPols hm hw
  have ok : ∀ x ∈ [p.s6, p.s8, p.s9, p.s10, p.a1, p.a2, p.rs6, p.rs8, p.rs9, p.rs10, p.alp, p.bet],
      (x.getD (scalar d0)).ok := by
    intro x hx
    cases h : x with
    | none => trivial
    | some y => exact (hp x hx y h).ok
  have hqq : On g (mix cpu (mix cpu (py cpu) r4r2) r4r2) := mixl (mixr fits_py h4) h4.fits
  have hdef : ∀ x ∈ [p.s6, p.s8, p.s9, p.s10, p.a1, p.a2, p.rs6, p.rs8, p.rs9, p.rs10, p.alp, p.bet],
      ((d0 = cpu ∨ d0 = g) ∨ x ≠ none) → Fits cpu g (x.getD (scalar d0)) := by
    intro x hx h
    cases hx' : x with
    | some y => exact hp x hx y hx'
    | none =>
      rcases h with (rfl | rfl) | h
      · exact fits_cpu
      · exact fits_scalar
      · exact absurd hx' h
  unfold termEnergy
  unfold DefaultsFit at hd
  cases hcls : tm.cls <;> simp only [hcls] at hd ⊢
  · exact on_dispersion2 hn hx hp h6 h4 hv hc2
  all_goals
    refine on_atmDispersion hn hx ?_ ?_ hc3 (ok p.s9 (by simp)) (ok p.alp (by simp))
  all_goals first
    | exact mixl (mixl h6 h6.fits) h6.fits
    | exact on_trapzdAtm (mixl (mixl hap hap.fits) hap.fits)
    | exact mixr (hdef p.rs9 (by simp) (by simpa using hd)) hv
    | exact mixl (mixr (hdef p.a1 (by simp) (by simp at hd; tauto)) hqq)
        (hdef p.a2 (by simp) (by simp at hd; tauto))

end
end TadDftd4.Device
