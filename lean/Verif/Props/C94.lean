import Verif.Model.SignedIndex
import Verif.Props.C47
import Verif.Props.C68
import Verif.Props.C16Pos

/-!
# C94 Negative atomic numbers are not rejected, they wrap around

`numbers` holds integers, and indices of PyTorch may be negative.  With the shipped tables a call is
accepted exactly if every atomic number is between -104 and 103.  For non-negative numbers the
energies are those of the model with natural numbers.  A negative number `z` reads row `z mod N` of
every table, where `N` is the length of that table; as the lengths differ, `-1` has the reference
systems of element 103 but the hardness, the nuclear charge and the expectation values of the last
row of longer tables.  In particular `-1` cannot be used for padding.
-/

open scoped Classical

namespace TadDftd4

open Tensor

/-! ## Specification -/

namespace Spec

/-- Row of a table with `N` rows that Python reads for the index `z`. -/
def row (N : ℕ) (z : ℤ) : ℕ := (z % N).toNat

/-- In the tables `T'` the natural number `Z` is an element with the data that the index `z` reads
from the tables `T` (those used with "eeq" reference charges). -/
structure ReadsAs (T : Tables) (z : ℤ) (T' : Tables) (Z : ℕ) : Prop where
  zero : Z = 0 ↔ z = 0
  refcn : T'.refcn Z = T.refcn (row T.nZ z)
  refc : T'.refc Z = T.refc (row T.nZ z)
  refsys : T'.refsys Z = T.refsys (row T.nZ z)
  refascale : T'.refascale Z = T.refascale (row T.nZ z)
  refscount : T'.refscount Z = T.refscount (row T.nZ z)
  refalpha : T'.refalpha Z = T.refalpha (row T.nZ z)
  eeqQ : T'.eeqQ Z = T.eeqQ (row T.nZ z)
  eeqH : T'.eeqH Z = T.eeqH (row T.nZ z)
  gam : T'.gam Z = T.gam (row T.nExt z)
  zeff : T'.zeff Z = T.zeff (row T.nExt z)
  r4r2 : T'.r4r2 Z = T.r4r2 (row T.nR4 z)
  sec : ∀ r < nref, T'.secscale (T'.refsys Z r) = T.secscale (T'.refsys Z r) ∧
    T'.secalpha (T'.refsys Z r) = T.secalpha (T'.refsys Z r) ∧
    T'.gam (T'.refsys Z r) = T.gam (T'.refsys Z r) ∧
    T'.zeff (T'.refsys Z r) = T.zeff (T'.refsys Z r)

/-- The same for the tables with one entry for each pair of elements. -/
structure PairReadsAs (T : Tables) (z y : ℤ) (T' : Tables) (Z Y : ℕ) : Prop where
  wfpair : T'.wfpair Z Y = T.wfpair (row T.nPair z) (row T.nPair y)
  vdw : T'.vdw Z Y = T.vdw (row T.nExt z) (row T.nExt y)

theorem ReadsAs.nat {T : Tables} (hT : T.Fits) {Z : ℕ} (hZ : Z < T.nZ) : ReadsAs T Z T Z := by
  have h : ∀ {N}, T.nZ ≤ N → row N Z = Z := fun {N} hN => by
    unfold row
    rw [Int.emod_eq_of_lt (by omega) (by omega)]
    rfl
  constructor <;> (try rw [h le_rfl]) <;> (try rw [h hT.ext]) <;> (try rw [h hT.r4]) <;> simp

theorem PairReadsAs.nat {T : Tables} (hT : T.Fits) {Z Y : ℕ} (hZ : Z < T.nZ) (hY : Y < T.nZ) :
    PairReadsAs T Z Y T Z Y := by
  have h : ∀ {N} {X : ℕ}, X < T.nZ → T.nZ ≤ N → row N X = X := fun {N X} hX hN => by
    unfold row
    rw [Int.emod_eq_of_lt (by omega) (by omega)]
    rfl
  constructor
  · rw [h hZ hT.pair, h hY hT.pair]
  · rw [h hZ hT.ext, h hY hT.ext]

end Spec

/-! ## Codes and rows -/

theorem code_zero_iff {z : ℤ} : code z = 0 ↔ z = 0 := by
  cases z with
  | ofNat n => simp [code]
  | negSucc n => simp [code, Int.negSucc_ne_zero]

theorem code_lt_iff {z : ℤ} {N : ℕ} : code z < 2 * N ↔ -(N : ℤ) ≤ z ∧ z < N := by
  cases z with
  | ofNat n => simp only [code, Int.ofNat_eq_natCast]; omega
  | negSucc n => simp only [code, Int.negSucc_eq]; omega

theorem code_nat (n : ℕ) : code (n : ℤ) = 2 * n := rfl

theorem rowOf_even (N n : ℕ) : rowOf N (2 * n) = n := by
  unfold rowOf
  rw [if_pos (by omega)]
  omega

theorem rowOf_code {z : ℤ} {N M : ℕ} (h : code z < 2 * N) (hM : N ≤ M) :
    rowOf M (code z) = Spec.row M z := by
  have h' := code_lt_iff.1 h
  unfold Spec.row
  cases z with
  | ofNat n =>
    simp only [Int.ofNat_eq_natCast] at h' ⊢
    rw [code_nat, rowOf_even, Int.emod_eq_of_lt (by omega) (by omega)]
    rfl
  | negSucc n =>
    have hcode : code (Int.negSucc n) = 2 * n + 1 := rfl
    rw [hcode]
    simp only [Int.negSucc_eq] at h' ⊢
    have e : (-((n : ℤ) + 1)) % (M : ℤ) = (M : ℤ) - (n + 1) := by
      rw [← Int.add_emod_right, Int.emod_eq_of_lt] <;> omega
    rw [e]
    unfold rowOf
    rw [if_neg (by omega)]
    omega

theorem Tables.Fits.signed {T : Tables} (hT : T.Fits) : T.signed.Fits where
  ext := Nat.mul_le_mul_left 2 hT.ext
  pair := Nat.mul_le_mul_left 2 hT.pair
  r4 := Nat.mul_le_mul_left 2 hT.r4
  gfn := Nat.mul_le_mul_left 2 hT.gfn
  sysSec c hc r hr := by
    have : rowOf T.nZ c < T.nZ := by
      have : c < 2 * T.nZ := hc
      unfold rowOf; split_ifs <;> omega
    have := hT.sysSec _ this r hr
    show 2 * _ < 2 * _
    omega
  sysExt c hc r hr := by
    have : rowOf T.nZ c < T.nZ := by
      have : c < 2 * T.nZ := hc
      unfold rowOf; split_ifs <;> omega
    have := hT.sysExt _ this r hr
    show 2 * _ < 2 * _
    omega

/-! ## Energies depend on rows only -/

/-- The C6 coefficients of two models agree if the rows of the tables do. -/
structure SameRow (T : Tables) (Z : ℕ) (T' : Tables) (Z' : ℕ) : Prop where
  refcn : T.refcn Z = T'.refcn Z'
  refc : T.refc Z = T'.refc Z'
  refascale : T.refascale Z = T'.refascale Z'
  refscount : T.refscount Z = T'.refscount Z'
  refalpha : T.refalpha Z = T'.refalpha Z'
  eeqQ : T.eeqQ Z = T'.eeqQ Z'
  eeqH : T.eeqH Z = T'.eeqH Z'
  gam : T.gam Z = T'.gam Z'
  zeff : T.zeff Z = T'.zeff Z'
  pos : ∀ r < nref, 0 < T.refsys Z r ↔ 0 < T'.refsys Z' r
  secscale : ∀ r < nref, T.secscale (T.refsys Z r) = T'.secscale (T'.refsys Z' r)
  secalpha : ∀ r < nref, T.secalpha (T.refsys Z r) = T'.secalpha (T'.refsys Z' r)
  secgam : ∀ r < nref, T.gam (T.refsys Z r) = T'.gam (T'.refsys Z' r)
  seczeff : ∀ r < nref, T.zeff (T.refsys Z r) = T'.zeff (T'.refsys Z' r)

section
variable {env : Env} {T T' : Tables} {Z Z' Y Y' : ℕ} {ga gc : ℝ}

theorem SameRow.alphaAt (h : SameRow T Z T' Z') {r : ℕ} (hr : r < nref) (w : ℕ) :
    alphaAt env T ga gc "eeq" Z r w = alphaAt env T' ga gc "eeq" Z' r w := by
  unfold TadDftd4.alphaAt refsqAt
  simp only [h.refascale, h.refscount, h.refalpha, h.eeqH, h.pos r hr, h.secscale r hr,
    h.secalpha r hr, h.secgam r hr, h.seczeff r hr, if_true]

theorem SameRow.expwSel (h : SameRow T Z T' Z') (k : ModelKind) (w cn : ℝ) :
    expwSel env T k w Z cn = expwSel env T' k w Z' cn := by
  funext r
  unfold TadDftd4.expwSel
  split <;> simp only [expwD4, expwD4S, h.refc, h.refcn]

theorem SameRow.wtOf (h : SameRow T Z T' Z') (q : ℝ) (E : ℕ → ℝ) (r : ℕ) :
    wtOf env T ga gc "eeq" Z q E r = wtOf env T' ga gc "eeq" Z' q E r := by
  unfold TadDftd4.wtOf zetaAt gwOf gwTempOf refqAt
  simp only [h.refc, h.refcn, h.gam, h.zeff, h.eeqQ, if_true]

theorem SameRow.c6At {R R' : RefCfg} (h : SameRow T Z T' Z') (hY : SameRow T Y T' Y')
    (hk : R.kind = R'.kind) (hga : R.ga = R'.ga) (hgc : R.gc = R'.gc) (hq : R.rq = "eeq")
    (hq' : R'.rq = "eeq") (hw : R.wf Z Y = R'.wf Z' Y') (hw' : R.wf Y Z = R'.wf Y' Z')
    (cn q cn' q' : ℝ) :
    c6At env T R ⟨Z, cn, q⟩ ⟨Y, cn', q'⟩ = c6At env T' R' ⟨Z', cn, q⟩ ⟨Y', cn', q'⟩ := by
  unfold TadDftd4.c6At c6Of wtAt rc6At
  refine Finset.sum_congr rfl fun a ha => Finset.sum_congr rfl fun b hb => ?_
  rw [Finset.mem_range] at ha hb
  simp only [hk, hga, hgc, hq, hq', hw, hw', h.alphaAt ha, hY.alphaAt hb, h.wtOf, hY.wtOf, h.expwSel,
    hY.expwSel]

end

/-- Two systems with the same coefficients have the same energies. -/
theorem Spec.energy_transport {n : ℕ} {S S' : Spec.Settings} {M M' : Spec.Mol n}
    (hS : S' = { S with c6 := S'.c6, c9x := S'.c9x })
    (hZ : ∀ i, M.Z i ≠ 0 ↔ M'.Z i ≠ 0) (hpos : M.pos = M'.pos) (hQ : M.Q = M'.Q)
    (hv : M.rvdw = M'.rvdw) (h6 : ∀ i j, S.c6 (M.atom i) (M.atom j) = S'.c6 (M'.atom i) (M'.atom j))
    (h6' : ∀ i j, S.c6 (M.neutral i) (M.neutral j) = S'.c6 (M'.neutral i) (M'.neutral j)) (i : Fin n) :
    Spec.energy S M i = Spec.energy S' M' i := by
  unfold Spec.energy Spec.e2 Spec.e3 Spec.pairTerm Spec.tripleTerm Spec.withinCut3 Spec.R0 Spec.c9
    Spec.rad Spec.Mol.r
  simp only [hZ, hpos, hQ, hv, h6, h6']
  rw [hS]

section
variable {T T' : Tables}

theorem Spec.ReadsAs.sameRow {z : ℤ} {Z : ℕ} (hT : T.Fits) (hz : code z < 2 * T.nZ)
    (h : Spec.ReadsAs T z T' Z) : SameRow T.signed (code z) T' Z := by
  have eZ := rowOf_code hz le_rfl
  have eE := rowOf_code hz hT.ext
  have es : ∀ r, T'.refsys Z r = T.refsys (Spec.row T.nZ z) r := fun r => by rw [h.refsys]
  constructor
  · simp only [Tables.signed, eZ, h.refcn]
  · simp only [Tables.signed, eZ, h.refc]
  · simp only [Tables.signed, eZ, h.refascale]
  · simp only [Tables.signed, eZ, h.refscount]
  · simp only [Tables.signed, eZ, h.refalpha]
  · simp only [Tables.signed, eZ, h.eeqQ]
  · simp only [Tables.signed, eZ, h.eeqH]
  · simp only [Tables.signed, eE, h.gam]
  · simp only [Tables.signed, eE, h.zeff]
  · intro r _
    rw [es]
    simp only [Tables.signed, eZ]
    omega
  · intro r hr
    rw [(h.sec r hr).1, es]
    simp only [Tables.signed, eZ, rowOf_even]
  · intro r hr
    rw [(h.sec r hr).2.1, es]
    simp only [Tables.signed, eZ, rowOf_even]
  · intro r hr
    rw [(h.sec r hr).2.2.1, es]
    simp only [Tables.signed, eZ, rowOf_even]
  · intro r hr
    rw [(h.sec r hr).2.2.2, es]
    simp only [Tables.signed, eZ, rowOf_even]

end

/-! ## Theorems -/

section
variable {env : Env} {T T' : Tables} {ext ext' : Ext} {z : Tensor ℤ} {numbers : Tensor ℕ}
  {positions charge : Tensor ℝ} {p : Param} {o : DftOpts} {n : ℕ} {B : Shape} {R R' : RefCfg}
  {cn cn' : Spec.CN} {eeq eeq' : Spec.EEQ} {P : Spec.D4Par} {k : String}

/-- An integer `z` as atomic number gives the energies of an element whose data are the rows
`z mod N` of the tables, `N` being the length of each of them. -/
theorem C94_energy (hT : T.Fits)
    (h : Call env T.signed ext (z.map code) positions charge p o n B R cn eeq P)
    (h' : Call env T' ext' numbers positions charge p o n B R' cn' eeq' P)
    (hk : o.model = .key k) (hf : ext.casefold k = ext'.casefold k)
    (hcn : ∀ b, InB B b → cn n (elements (z.map code) n b) (coords positions n b) =
      cn' n (elements numbers n b) (coords positions n b))
    (heeq : ∀ c b, InB B b → ∀ Q, eeq n c (elements (z.map code) n b) (coords positions n b) Q =
      eeq' n c (elements numbers n b) (coords positions n b) Q)
    (hone : ∀ b, InB B b → ∀ i : Fin n,
      Spec.ReadsAs T (z.get (i.1 :: b)) T' (numbers.get (i.1 :: b)))
    (hpair : ∀ b, InB B b → ∀ i j : Fin n, Spec.PairReadsAs T (z.get (i.1 :: b)) (z.get (j.1 :: b))
      T' (numbers.get (i.1 :: b)) (numbers.get (j.1 :: b))) :
    ∃ e e', dftd4Z env T ext z positions charge p o = .ok e ∧
      dftd4 env T' ext' numbers positions charge p o = .ok e' ∧ e.shape = e'.shape ∧
      ∀ b, InB B b → ∀ i : Fin n, e.get (i.1 :: b) = e'.get (i.1 :: b) := by
  obtain ⟨e, he, hok, hv⟩ := h.eval
  obtain ⟨e', he', hok', hv'⟩ := h'.eval
  refine ⟨e, e', he, he', by rw [hok.shape, hok'.shape], fun b hb i => ?_⟩
  rw [hv b hb, hv' b hb]
  have hlt : ∀ i : Fin n, code (z.get (i.1 :: b)) < 2 * T.nZ := fun i =>
    h.args.lt (i.1 :: b) (by rw [h.args.num.shape]; exact ⟨i.2, hb⟩)
  have hrow : ∀ i : Fin n, SameRow T.signed (code (z.get (i.1 :: b))) T' (numbers.get (i.1 :: b)) :=
    fun i => (hone b hb i).sameRow hT (hlt i)
  have hR : R.kind = R'.kind ∧ R.ga = R'.ga ∧ R.gc = R'.gc ∧ R.rq = "eeq" ∧ R'.rq = "eeq" ∧
      ∀ i j : Fin n, R.wf (code (z.get (i.1 :: b))) (code (z.get (j.1 :: b))) =
        R'.wf (numbers.get (i.1 :: b)) (numbers.get (j.1 :: b)) := by
    rcases h.model with ⟨k1, h1, h2, rfl⟩ | ⟨k1, h1, h2, rfl⟩ | ⟨m, h1, -⟩
    · rcases h'.model with ⟨k2, h3, h4, rfl⟩ | ⟨k2, h3, h4, rfl⟩ | ⟨m, h3, -⟩
      · exact ⟨rfl, rfl, rfl, rfl, rfl, fun i j => rfl⟩
      · rw [hk] at h1 h3
        simp only [ModelSel.key.injEq] at h1 h3
        rw [← h1, hf, h3, h4] at h2
        simp at h2
      · rw [hk] at h3; simp at h3
    · rcases h'.model with ⟨k2, h3, h4, rfl⟩ | ⟨k2, h3, h4, rfl⟩ | ⟨m, h3, -⟩
      · rw [hk] at h1 h3
        simp only [ModelSel.key.injEq] at h1 h3
        rw [← h1, hf, h3, h4] at h2
        simp at h2
      · refine ⟨rfl, rfl, rfl, rfl, rfl, fun i j => ?_⟩
        show T.wfpair (rowOf T.nPair _) (rowOf T.nPair _) = T'.wfpair _ _
        rw [(hpair b hb i j).wfpair, rowOf_code (hlt i) hT.pair, rowOf_code (hlt j) hT.pair]
      · rw [hk] at h3; simp at h3
    · rw [hk] at h1; simp at h1
  obtain ⟨r1, r2, r3, r4, r5, r6⟩ := hR
  have hc := hcn b hb
  have hq := fun c => heeq c b hb (charge.get b)
  have hc6 : ∀ (i j : Fin n) (x q x' q' : ℝ),
      c6At env T.signed R ⟨code (z.get (i.1 :: b)), x, q⟩ ⟨code (z.get (j.1 :: b)), x', q'⟩ =
      c6At env T' R' ⟨numbers.get (i.1 :: b), x, q⟩ ⟨numbers.get (j.1 :: b), x', q'⟩ :=
    fun i j x q x' q' => (hrow i).c6At (hrow j) r1 r2 r3 r4 r5 (r6 i j) (r6 j i) x q x' q'
  have hqq : (system T.signed cn eeq (z.map code) positions charge o.opts n b).q =
      (system T' cn' eeq' numbers positions charge o.opts n b).q := by
    funext i
    simp only [system]
    split
    · rfl
    · rw [hq]
  refine Spec.energy_transport (by rfl) ?_ (by rfl) ?_ ?_ ?_ ?_ i
  · intro i
    show code (z.get (i.1 :: b)) ≠ 0 ↔ numbers.get (i.1 :: b) ≠ 0
    rw [not_iff_not, code_zero_iff, (hone b hb i).zero]
  · funext i
    simp only [system]
    split
    · rfl
    · show T.r4r2 (rowOf T.nR4 (code (z.get (i.1 :: b)))) = T'.r4r2 (numbers.get (i.1 :: b))
      rw [rowOf_code (hlt i) hT.r4, (hone b hb i).r4r2]
  · funext i j
    simp only [system]
    split
    · rfl
    · show T.vdw (rowOf T.nExt (code (z.get (i.1 :: b)))) (rowOf T.nExt (code (z.get (j.1 :: b)))) =
        T'.vdw (numbers.get (i.1 :: b)) (numbers.get (j.1 :: b))
      rw [rowOf_code (hlt i) hT.ext, rowOf_code (hlt j) hT.ext, (hpair b hb i j).vdw]
  · intro i j
    have e1 : (system T.signed cn eeq (z.map code) positions charge o.opts n b).cn =
      (system T' cn' eeq' numbers positions charge o.opts n b).cn := hc
    show c6At env T.signed R ⟨_, _, _⟩ ⟨_, _, _⟩ = c6At env T' R' ⟨_, _, _⟩ ⟨_, _, _⟩
    rw [hqq, e1]
    exact hc6 i j _ _ _ _
  · intro i j
    have e1 : (system T.signed cn eeq (z.map code) positions charge o.opts n b).cn =
      (system T' cn' eeq' numbers positions charge o.opts n b).cn := hc
    show c6At env T.signed R ⟨_, _, _⟩ ⟨_, _, _⟩ = c6At env T' R' ⟨_, _, _⟩ ⟨_, _, _⟩
    rw [e1]
    exact hc6 i j _ _ _ _

/-- For non-negative atomic numbers nothing changes. -/
theorem C94_nonneg
    (h : Call env T.signed ext ((numbers.map Int.ofNat).map code) positions charge p o n B R cn eeq P)
    (h' : Call env T ext' numbers positions charge p o n B R' cn' eeq' P)
    (hk : o.model = .key k) (hf : ext.casefold k = ext'.casefold k)
    (hcn : ∀ b, InB B b → cn n (fun i => 2 * elements numbers n b i) (coords positions n b) =
      cn' n (elements numbers n b) (coords positions n b))
    (heeq : ∀ c b, InB B b → ∀ Q, eeq n c (fun i => 2 * elements numbers n b i) (coords positions n b) Q =
      eeq' n c (elements numbers n b) (coords positions n b) Q) :
    ∃ e e', dftd4Z env T ext (numbers.map Int.ofNat) positions charge p o = .ok e ∧
      dftd4 env T ext' numbers positions charge p o = .ok e' ∧ e.shape = e'.shape ∧
      ∀ b, InB B b → ∀ i : Fin n, e.get (i.1 :: b) = e'.get (i.1 :: b) := by
  refine C94_energy h'.args.fits h h' hk hf hcn heeq (fun b hb i => ?_) (fun b hb i j => ?_)
  · exact Spec.ReadsAs.nat h'.args.fits (h'.args.lt _ (by rw [h'.args.num.shape]; exact ⟨i.2, hb⟩))
  · exact Spec.PairReadsAs.nat h'.args.fits
      (h'.args.lt _ (by rw [h'.args.num.shape]; exact ⟨i.2, hb⟩))
      (h'.args.lt _ (by rw [h'.args.num.shape]; exact ⟨j.2, hb⟩))

/-- Of the calls that are correct otherwise, exactly those with atomic numbers between -104 and 103
are accepted. -/
theorem C94_accepted {nExt : ℕ} {gam zeff : ℕ → ℝ} {vdw : ℕ → ℕ → ℝ}
    (hext : ExtTables nExt gam zeff) (hkeys : ext.CasefoldKeys)
    (hkey : ext.casefold k = "d4" ∨ ext.casefold k = "d4s")
    (hn : z.err = none) (hns : z.shape = n :: B)
    (hp : positions.err = none) (hps : positions.shape = 3 :: z.shape)
    (hch : charge.err = none) (hchs : charge.shape = B)
    (hcn : CNFunc.PerSystem ext.cnD4 (some ext.erfCount) 208 cn) (heeq : ext.EEQPerSystem 208 eeq)
    (hpar : p.Numeric) :
    (∃ e, dftd4Z env (shipped nExt gam zeff vdw) ext z positions charge p { model := .key k } = .ok e) ↔
      ∀ i, InB z.shape i → -104 ≤ z.get i ∧ z.get i ≤ 103 := by
  have hc : ∀ i, code (z.get i) < 2 * 104 ↔ -104 ≤ z.get i ∧ z.get i ≤ 103 := fun i => by
    rw [code_lt_iff]; push_cast; omega
  constructor
  · rintro ⟨e, he⟩ i hi
    by_contra hlt
    rw [← hc] at hlt
    have := C68_dftd4 (env := env) (T := (shipped nExt gam zeff vdw).signed) (numbers := z.map code)
      (positions := positions) (charge := charge) (p := p) (o := { model := .key k }) hkeys rfl
      (by rcases hkey with h | h <;> simp [h]) hn (by rw [hps]; rfl)
      ⟨i, hi, show 2 * 104 ≤ code (z.get i) by omega⟩
    unfold dftd4Z at he
    rw [this] at he
    simp at he
  · intro hZ
    have hv : ValidArgs (shipped nExt gam zeff vdw).signed (z.map code) positions charge {} n B :=
      { num := ⟨hn, hns⟩
        pos := ⟨hp, by rw [hps, hns]⟩
        lt := fun i hi => (hc i).2 (hZ i hi)
        fits := (shipped_fits hext).signed
        charge := ⟨hch, hchs⟩
        q := fun _ h => by simp at h
        rcov := fun _ h => by simp at h
        r4r2 := fun _ h => by simp at h
        rvdw := fun _ h => by simp at h }
    rcases hkey with hkey | hkey
    · obtain ⟨e, h1, -⟩ := C06_no_exception (env := env) (p := p) (o := { model := .key k }) hkeys hv
        (Or.inl ⟨k, rfl, hkey, rfl⟩) hcn heeq rfl hpar (by norm_num [Defaults.disp3Cutoff])
      exact ⟨e, h1⟩
    · obtain ⟨e, h1, -⟩ := C06_no_exception (env := env) (p := p) (o := { model := .key k }) hkeys hv
        (Or.inr (Or.inl ⟨k, rfl, hkey, rfl⟩)) hcn heeq rfl hpar (by norm_num [Defaults.disp3Cutoff])
      exact ⟨e, h1⟩

end

/-! ## Negative numbers are atoms -/

/-- Properties of the external tables in their full length. -/
structure ExtAll (nExt : ℕ) (gam zeff : ℕ → ℝ) : Prop where
  len : 104 ≤ nExt
  gam : ∀ Z, 1 ≤ Z → Z < nExt → 0 < gam Z
  zeff : ∀ Z, 1 ≤ Z → Z < nExt → ((min Z 5 : ℕ) : ℝ) ≤ zeff Z

theorem ExtAll.tables {nExt : ℕ} {gam zeff : ℕ → ℝ} (h : ExtAll nExt gam zeff) :
    ExtTables nExt gam zeff :=
  ⟨h.len, fun Z h1 h2 => h.gam Z h1 (lt_of_lt_of_le h2 h.len),
    fun Z h1 h2 => h.zeff Z h1 (lt_of_lt_of_le h2 h.len)⟩

theorem alphaAt_signed {env : Env} {T : Tables} {ga gc : ℝ} (c r w : ℕ) :
    alphaAt env T.signed ga gc "eeq" c r w = alphaAt env T ga gc "eeq" (rowOf T.nZ c) r w := by
  unfold alphaAt refsqAt
  have e : (0 < 2 * T.refsys (rowOf T.nZ c) r) ↔ 0 < T.refsys (rowOf T.nZ c) r := by omega
  simp only [Tables.signed, rowOf_even, if_true, e]

theorem polarizable_signed {env : Env} {T : Tables} {R : RefCfg} (hq : R.rq = "eeq") {c : ℕ}
    (h : T.Polarizable env R (rowOf T.nZ c)) : T.signed.Polarizable env R c := by
  obtain ⟨r, hr, h1, h2⟩ := h
  refine ⟨r, hr, h1, ?_⟩
  rw [hq] at h2 ⊢
  rw [alphaAt_signed]
  exact h2

theorem rowOf_lt {N c : ℕ} (h : c < 2 * N) : rowOf N c < N := by
  unfold rowOf; split_ifs <;> omega

theorem rowOf_mono {N M c : ℕ} (h : N ≤ M) : rowOf N c ≤ rowOf M c := by
  unfold rowOf; split_ifs <;> omega

theorem shipped_signed_physical {nExt : ℕ} {gam zeff : ℕ → ℝ} {vdw : ℕ → ℕ → ℝ}
    (h : ExtAll nExt gam zeff) : (shipped nExt gam zeff vdw).signed.Physical "eeq" := by
  have hp := shipped_physical (vdw := vdw) h.tables (rq := "eeq") (Or.inl rfl)
  constructor
  · intro c hc r hr
    exact hp.refc _ (rowOf_lt hc) r hr
  · intro c hc r hr h0
    have h1 := shipped_refc_pos_Z hr h0
    have hc' : c < 2 * 104 := hc
    exact h.gam (rowOf nExt c) (le_trans h1 (rowOf_mono h.len))
      (rowOf_lt (lt_of_lt_of_le hc' (Nat.mul_le_mul_left 2 h.len)))
  · intro c hc r hr h0
    have h1 := shipped_refc_pos_Z hr h0
    have hc' : c < 2 * 104 := hc
    have h2 : 1 ≤ rowOf nExt c := le_trans h1 (rowOf_mono h.len)
    have hz := h.zeff (rowOf nExt c) h2
      (rowOf_lt (lt_of_lt_of_le hc' (Nat.mul_le_mul_left 2 h.len)))
    have hZ1 : (1 : ℝ) ≤ zeff (rowOf nExt c) :=
      le_trans (by exact_mod_cast (by omega : 1 ≤ min (rowOf nExt c) 5)) hz
    have hq := forall_of_all2 Data.check_eeqQ (rowOf 104 c) (rowOf_lt hc') r hr
    simp only [decide_eq_true_eq] at hq
    have hq' : (-10 ^ 14 : ℝ) < at2 Data.eeqQ (rowOf 104 c) r := by exact_mod_cast hq
    show 0 < ((at2 Data.eeqQ (rowOf 104 c) r : ℤ) : ℝ) / 10 ^ 14 + zeff (rowOf nExt c)
    linarith
  · intro c hc r hr h0
    have h0' : 0 < 2 * at2 Data.refsys (rowOf 104 c) r := h0
    have := hp.gamSec _ (rowOf_lt hc) r hr (show 0 < at2 Data.refsys (rowOf 104 c) r by omega)
    show 0 < gam (rowOf nExt (2 * _))
    rw [rowOf_even]
    exact this
  · intro c hc r hr h0
    have h0' : 0 < 2 * at2 Data.refsys (rowOf 104 c) r := h0
    have := hp.zeffSec _ (rowOf_lt hc) r hr (show 0 < at2 Data.refsys (rowOf 104 c) r by omega)
    show 0 < zeff (rowOf nExt (2 * _))
    rw [rowOf_even]
    exact this

section
variable {env : Env} {ext : Ext} {z : Tensor ℤ} {positions charge : Tensor ℝ} {p : Param} {o : DftOpts}
  {n : ℕ} {B : Shape} {R : RefCfg} {cn : Spec.CN} {eeq : Spec.EEQ} {P : Spec.D4Par}

/-- The integer `z` reads the reference systems of an element other than cerium. -/
def Spec.HasSystems (z : ℤ) : Prop := -104 < z ∧ z ≤ 103 ∧ z ≠ 0 ∧ z ≠ 58 ∧ z ≠ -46

theorem Spec.HasSystems.polarizable {nExt : ℕ} {gam zeff : ℕ → ℝ} {vdw : ℕ → ℕ → ℝ} (hq : R.rq = "eeq")
    {x : ℤ} (h : Spec.HasSystems x) : (shipped nExt gam zeff vdw).signed.Polarizable env R (code x) := by
  obtain ⟨h1, h2, h3, h4, h5⟩ := h
  refine polarizable_signed hq ?_
  have e : rowOf (shipped nExt gam zeff vdw).nZ (code x) = Spec.row 104 x :=
    rowOf_code (N := 104) (code_lt_iff.2 (by push_cast; omega)) le_rfl
  rw [e]
  unfold Spec.row
  exact shipped_polarizable (by push_cast; omega) (by push_cast; omega) (by push_cast; omega)

/-- A negative number is not padding: with the two-body terms, an atom within the cutoff of an atom
with a negative number is attracted by it. -/
theorem C94_attracts {nExt : ℕ} {gam zeff : ℕ → ℝ} {vdw : ℕ → ℕ → ℝ} (hx : ExtAll nExt gam zeff)
    (h : Call env (shipped nExt gam zeff vdw).signed ext (z.map code) positions charge p o n B R cn eeq P)
    (hR : R = .d4 ∨ R = .d4s (shipped nExt gam zeff vdw).signed) (hfl : env.fl = id)
    (h9 : P.s9 = 0) (h6 : 0 < P.s6) (h8 : 0 ≤ P.s8) (h10 : 0 ≤ P.s10) (hQ : o.opts.r4r2 = none) :
    ∃ e, dftd4Z env (shipped nExt gam zeff vdw) ext z positions charge p o = .ok e ∧
      ∀ b, InB B b → ∀ i j : Fin n, i ≠ j → Spec.HasSystems (z.get (i.1 :: b)) →
        Spec.HasSystems (z.get (j.1 :: b)) →
        max (dist (coords positions n b i) (coords positions n b j)) (√ env.eps) ≤
          (o.opts.cutoff.getD {}).disp2 → e.get (i.1 :: b) < 0 := by
  obtain ⟨e, he, hv⟩ := C08_dftd4 h h9 h6.le h8 h10 (fun b hb i => by
    simp only [system, hQ]
    show 0 ≤ (shipped nExt gam zeff vdw).r4r2 (rowOf 119 (code (z.get (i.1 :: b))))
    rcases Nat.eq_zero_or_pos (rowOf 119 (code (z.get (i.1 :: b)))) with h0 | h0
    · rw [h0]
      simp [shipped]
    · refine (shipped_r4r2_pos h0 ?_).le
      have h1 : code (z.get (i.1 :: b)) < 2 * 104 :=
        h.args.lt (i.1 :: b) (by rw [h.args.num.shape]; exact ⟨i.2, hb⟩)
      have := rowOf_lt (N := 119) (c := code (z.get (i.1 :: b))) (by omega)
      omega)
  refine ⟨e, he, fun b hb i j hij hi hj hd => ?_⟩
  have hrq : R.rq = "eeq" := by rcases hR with rfl | rfl <;> rfl
  have hgc : 0 < R.gc := by rcases hR with rfl | rfl <;> norm_num [RefCfg.d4, RefCfg.d4s]
  refine (hv b hb i).2 hfl (by rw [hrq]; exact shipped_signed_physical hx) hgc h6 j hij ?_ ?_
    (hi.polarizable hrq) (hj.polarizable hrq) ?_
  · exact fun h0 => hi.2.2.1 (code_zero_iff.1 h0)
  · exact fun h0 => hj.2.2.1 (code_zero_iff.1 h0)
  · rw [Spec.Mol.r, Spec.rsqrt]
    have hr := le_trans (le_max_right _ _) hd
    have hr' := le_trans (le_max_left _ _) hd
    have h0 : 0 ≤ (o.opts.cutoff.getD {}).disp2 := le_trans (Real.sqrt_nonneg _) hr
    rw [Real.sqrt_le_left h0]
    refine max_le (pow_le_pow_left₀ dist_nonneg hr' 2) ?_
    have := pow_le_pow_left₀ (Real.sqrt_nonneg _) hr 2
    rwa [Real.sq_sqrt env.eps_pos.le] at this

end

/-! ## Refuted claims -/

/-- Expected: a call with a negative atomic number raises an exception. -/
def NegativeRejected (env : Env) (T : Tables) (ext : Ext) : Prop :=
  ∀ z positions charge p, (∃ i, InB z.shape i ∧ z.get i < 0) →
    ∀ e, dftd4Z env T ext z positions charge p {} ≠ .ok e

/-- Expected by users of codes that pad with `-1`: the energies of the other atoms are those obtained
with the padding value 0. -/
def PaddingByMinusOne (env : Env) (T : Tables) (ext : Ext) : Prop :=
  ∀ z positions charge p e e', dftd4Z env T ext z positions charge p {} = .ok e →
    dftd4Z env T ext (z.map fun x => if x = -1 then 0 else x) positions charge p {} = .ok e' →
    ∀ i, InB z.shape i → z.get i ≠ -1 → e.get i = e'.get i

namespace Demo

theorem extAll : ExtAll 119 gam zeff where
  len := by norm_num
  gam _ _ _ := by norm_num [gam]
  zeff Z _ _ := by
    unfold zeff
    exact_mod_cast min_le_left Z 5

/-- A hydrogen atom and `-1`, three bohrs apart. -/
def ghost : Tensor ℤ where
  err := none
  shape := [2]
  get
    | [0] => 1
    | _ => -1

noncomputable def ghostPos : Tensor ℝ where
  err := none
  shape := [3, 2]
  get
    | [0, 0] => 3
    | _ => 0

noncomputable def ghostCharge : Tensor ℝ := ⟨none, [], fun _ => 0⟩

theorem callZ {z : Tensor ℤ} (hz : z.Ok [2]) (hr : ∀ i, code (z.get i) < 2 * 104) :
    Call env T.signed ext (z.map code) ghostPos ghostCharge paramNoAtm {} 2 [] .d4 cn eeq
      { par with s9 := 0 } where
  keys := keys
  args := {
    num := ⟨hz.err, hz.shape⟩
    pos := ⟨rfl, rfl⟩
    lt := fun i _ => hr i
    fits := fits.signed
    charge := ⟨rfl, rfl⟩
    q := fun _ h => by simp at h
    rcov := fun _ h => by simp at h
    r4r2 := fun _ h => by simp at h
    rvdw := fun _ h => by simp at h }
  model := Or.inl ⟨"d4", rfl, keys "d4" (by simp), rfl⟩
  cn := CNFunc.ofSpec_perSystem _ _ _
  eeq := eeqOfSpec_perSystem eeq rfl _
  damping := rfl
  par := readsNoAtm
  cut3 := by norm_num [Defaults.disp3Cutoff]

theorem ghost_ok : ghost.Ok [2] := ⟨rfl, rfl⟩

theorem ghost_lt (i : Idx) : code (ghost.get i) < 2 * 104 := by
  unfold ghost
  dsimp only
  split <;> (rw [code_lt_iff]; norm_num)

theorem ghost_dist : dist (coords ghostPos 2 [] 0) (coords ghostPos 2 [] 1) = 3 := by
  rw [EuclideanSpace.dist_eq]
  simp [coords, ghostPos, Fin.sum_univ_three]

theorem ghost_attracts : ∃ e, dftd4Z env T ext ghost ghostPos ghostCharge paramNoAtm {} = .ok e ∧
    e.get [0] < 0 := by
  obtain ⟨e, he, hv⟩ := C94_attracts extAll (callZ ghost_ok ghost_lt) (Or.inl rfl) rfl rfl
    (by norm_num [par]) (by norm_num [par]) (by norm_num [par]) rfl
  refine ⟨e, he, hv [] trivial 0 1 (by decide) ?_ ?_ ?_⟩
  · simp [Spec.HasSystems, ghost]
  · simp [Spec.HasSystems, ghost]
  · rw [ghost_dist]
    refine max_le (by norm_num [Defaults.disp2Cutoff]) ?_
    rw [Real.sqrt_le_left] <;> norm_num [Defaults.disp2Cutoff, env]

end Demo

/-- The expectation fails for hydrogen and `-1`. -/
theorem C94_rejected_false : ¬ NegativeRejected Demo.env Demo.T Demo.ext := by
  intro H
  obtain ⟨e, he, -⟩ := Demo.ghost_attracts
  exact H _ _ _ _ ⟨[1], by simp [InB, Demo.ghost], by simp [Demo.ghost]⟩ e he

/-- The hydrogen atom has no dispersion energy with 0, but a negative one with `-1` as padding. -/
theorem C94_padding_false : ¬ PaddingByMinusOne Demo.env Demo.T Demo.ext := by
  intro H
  obtain ⟨e, he, hneg⟩ := Demo.ghost_attracts
  obtain ⟨e', he', -, hv⟩ := (Demo.callZ (z := Demo.ghost.map fun x => if x = -1 then 0 else x)
    ⟨rfl, rfl⟩ (fun i => by
      show code (if Demo.ghost.get i = -1 then 0 else Demo.ghost.get i) < 2 * 104
      by_cases h1 : Demo.ghost.get i = -1
      · rw [if_pos h1, code_lt_iff]; norm_num
      · rw [if_neg h1]; exact Demo.ghost_lt i)).eval
  have h0 := H _ _ _ _ e e' he he' [0] (by simp [InB, Demo.ghost]) (by simp [Demo.ghost])
  have h1 := hv [] trivial 0
  have h2 : e'.get [0] = 0 := by
    refine h1.trans ?_
    simp [Spec.energy, Spec.e2, Spec.e3, Fin.sum_univ_two, system, elements, Tensor.map, Demo.ghost, code]
  rw [h0, h2] at hneg
  exact lt_irrefl _ hneg

/-! ## Concrete cases -/

section
open Demo

theorem Demo.cn_code {n : ℕ} (Z Z' : Fin n → ℕ) (x : Fin n → Spec.E3) (h : ∀ i, Z i = 0 ↔ Z' i = 0) :
    Demo.cn n Z x = Demo.cn n Z' x := by
  funext i
  simp only [Demo.cn, ne_eq, h]

theorem Demo.eeq_code {n : ℕ} (c Q : ℝ) (Z Z' : Fin n → ℕ) (x : Fin n → Spec.E3)
    (h : ∀ i, Z i = 0 ↔ Z' i = 0) : Demo.eeq n c Z x Q = Demo.eeq n c Z' x Q := by
  funext i
  simp only [Demo.eeq, ne_eq, h]

/-- Water and hydrogen fluoride, with the atomic numbers as integers. -/
theorem Demo.callInt : Call env T.signed ext ((numbers.map Int.ofNat).map code) positions charge param {}
    3 [2] .d4 cn eeq par where
  keys := keys
  args := {
    num := ⟨rfl, rfl⟩
    pos := ⟨rfl, rfl⟩
    lt := fun i _ => by
      show code (Int.ofNat (numbers.get i)) < 2 * 104
      have := numbers_lt i
      rw [code_lt_iff, Int.ofNat_eq_natCast]
      omega
    fits := fits.signed
    charge := ⟨rfl, rfl⟩
    q := fun _ h => by simp at h
    rcov := fun _ h => by simp at h
    r4r2 := fun _ h => by simp at h
    rvdw := fun _ h => by simp at h }
  model := Or.inl ⟨"d4", rfl, keys "d4" (by simp), rfl⟩
  cn := CNFunc.ofSpec_perSystem _ _ _
  eeq := eeqOfSpec_perSystem eeq rfl _
  damping := rfl
  par := reads
  cut3 := by norm_num [Defaults.disp3Cutoff]

example := C94_nonneg callInt call rfl rfl (fun b _ => Demo.cn_code _ _ _ fun i => by omega)
  (fun c b _ Q => Demo.eeq_code _ _ _ _ _ fun i => by omega)

/-- Tables with a further element, number 104, that has the data read by the index -1. -/
noncomputable def Demo.T104 : Tables :=
  { T with
    nZ := 105
    refcn := fun Z => T.refcn (if Z = 104 then 103 else Z)
    refc := fun Z => T.refc (if Z = 104 then 103 else Z)
    refsys := fun Z => T.refsys (if Z = 104 then 103 else Z)
    refascale := fun Z => T.refascale (if Z = 104 then 103 else Z)
    refscount := fun Z => T.refscount (if Z = 104 then 103 else Z)
    refalpha := fun Z => T.refalpha (if Z = 104 then 103 else Z)
    eeqQ := fun Z => T.eeqQ (if Z = 104 then 103 else Z)
    eeqH := fun Z => T.eeqH (if Z = 104 then 103 else Z)
    gam := fun Z => T.gam (if Z = 104 then 118 else Z)
    zeff := fun Z => T.zeff (if Z = 104 then 118 else Z)
    r4r2 := fun Z => T.r4r2 (if Z = 104 then 118 else Z)
    wfpair := fun Z Y => T.wfpair (if Z = 104 then 118 else Z) (if Y = 104 then 118 else Y)
    vdw := fun Z Y => T.vdw (if Z = 104 then 118 else Z) (if Y = 104 then 118 else Y) }

theorem Demo.T104_fits : T104.Fits where
  ext := by show 105 ≤ 119; norm_num
  pair := by show 105 ≤ 119; norm_num
  r4 := by show 105 ≤ 119; norm_num
  gfn := by show 87 ≤ 105; norm_num
  sysSec Z hZ r hr := fits.sysSec _ (by
    have : Z < 105 := hZ
    show (if Z = 104 then 103 else Z) < 104
    split_ifs <;> omega) r hr
  sysExt Z hZ r hr := fits.sysExt _ (by
    have : Z < 105 := hZ
    show (if Z = 104 then 103 else Z) < 104
    split_ifs <;> omega) r hr

/-- The numbers of `ghost` for these tables. -/
def Demo.ghost104 : Tensor ℕ := ghost.map fun x => if x = -1 then 104 else x.toNat

theorem Demo.call104 : Call env T104 ext ghost104 ghostPos ghostCharge paramNoAtm {} 2 [] .d4 cn eeq
    { par with s9 := 0 } where
  keys := keys
  args := {
    num := ⟨rfl, rfl⟩
    pos := ⟨rfl, rfl⟩
    lt := fun i _ => by
      show (if ghost.get i = -1 then 104 else (ghost.get i).toNat) < 105
      unfold ghost
      dsimp only
      split <;> simp
    fits := T104_fits
    charge := ⟨rfl, rfl⟩
    q := fun _ h => by simp at h
    rcov := fun _ h => by simp at h
    r4r2 := fun _ h => by simp at h
    rvdw := fun _ h => by simp at h }
  model := Or.inl ⟨"d4", rfl, keys "d4" (by simp), rfl⟩
  cn := CNFunc.ofSpec_perSystem _ _ _
  eeq := eeqOfSpec_perSystem eeq rfl _
  damping := rfl
  par := readsNoAtm
  cut3 := by norm_num [Defaults.disp3Cutoff]

/-- The number -1 is an element with the reference systems of element 103 and the hardness, charge
and radius of element 118. -/
theorem Demo.reads104 : Spec.ReadsAs T (-1) T104 104 := by
  have hs : ∀ r < nref, T104.refsys 104 r ≠ 104 := fun r hr => by
    have := forall_of_all2 Data.check_refs 103 (by norm_num) r hr
    simp only [Bool.and_eq_true, decide_eq_true_eq] at this
    have h1 : T104.refsys 104 r = at2 Data.refsys 103 r := rfl
    have := this.1.2
    omega
  constructor
  · norm_num
  all_goals try rfl
  intro r hr
  refine ⟨rfl, rfl, ?_, ?_⟩
  · show T.gam (if T104.refsys 104 r = 104 then 118 else T104.refsys 104 r) = T.gam (T104.refsys 104 r)
    rw [if_neg (hs r hr)]
  · show T.zeff (if T104.refsys 104 r = 104 then 118 else T104.refsys 104 r) = T.zeff (T104.refsys 104 r)
    rw [if_neg (hs r hr)]

theorem Demo.reads1 : Spec.ReadsAs T 1 T104 1 := by
  have hs : ∀ r < nref, T104.refsys 1 r ≠ 104 := fun r hr => by
    have := forall_of_all2 Data.check_refs 1 (by norm_num) r hr
    simp only [Bool.and_eq_true, decide_eq_true_eq] at this
    have h1 : T104.refsys 1 r = at2 Data.refsys 1 r := rfl
    have := this.1.2
    omega
  constructor
  · norm_num
  all_goals try rfl
  intro r hr
  refine ⟨rfl, rfl, ?_, ?_⟩
  · show T.gam (if T104.refsys 1 r = 104 then 118 else T104.refsys 1 r) = T.gam (T104.refsys 1 r)
    rw [if_neg (hs r hr)]
  · show T.zeff (if T104.refsys 1 r = 104 then 118 else T104.refsys 1 r) = T.zeff (T104.refsys 1 r)
    rw [if_neg (hs r hr)]

/-- Hydrogen with the atom number -1. -/
example := C94_energy fits (callZ ghost_ok ghost_lt) call104 rfl rfl
  (fun b _ => Demo.cn_code _ _ _ fun i => by
    show code (ghost.get (i.1 :: b)) = 0 ↔ ghost104.get (i.1 :: b) = 0
    rw [code_zero_iff]
    fin_cases i <;> rcases b with _ | ⟨x, b⟩ <;> simp [ghost104, ghost, Tensor.map])
  (fun c b _ Q => Demo.eeq_code _ _ _ _ _ fun i => by
    show code (ghost.get (i.1 :: b)) = 0 ↔ ghost104.get (i.1 :: b) = 0
    rw [code_zero_iff]
    fin_cases i <;> rcases b with _ | ⟨x, b⟩ <;> simp [ghost104, ghost, Tensor.map])
  (fun b hb i => by
    obtain rfl : b = [] := by cases b with
      | nil => rfl
      | cons _ _ => exact hb.elim
    fin_cases i
    · exact reads1
    · exact reads104)
  (fun b hb i j => by
    obtain rfl : b = [] := by cases b with
      | nil => rfl
      | cons _ _ => exact hb.elim
    fin_cases i <;> fin_cases j <;> constructor <;> rfl)

/-- `-105` and `104` are out of range. -/
example : ¬ ∃ e, dftd4Z Demo.env Demo.T Demo.ext (ghost.map fun x => if x = -1 then -105 else x) ghostPos
    ghostCharge Demo.param { model := .key "D4S" } = .ok e := by
  intro h
  have := (C94_accepted (n := 2) (B := []) Demo.extTables Demo.keys (Or.inr rfl) rfl rfl rfl rfl rfl rfl
    (CNFunc.ofSpec_perSystem _ _ _) (eeqOfSpec_perSystem Demo.eeq rfl _)
    ⟨rfl, ⟨_, rfl⟩, ⟨_, rfl⟩, by simp [Demo.param], by simp [Demo.param], by simp [Demo.param],
    by simp [Demo.param], by simp [Demo.param]⟩).1 h [1] (by simp [InB, Tensor.map, ghost])
  simp [Tensor.map, ghost] at this

end

end TadDftd4
