import Verif.Model.Disp

/-!
# Negative atomic numbers

`numbers` is an integer tensor, and nothing in the package tests its sign.  Every use of an atomic
number is either the comparison with zero that defines the masks of `tad_mctc` or an index into
a table (`model/base.py:381-397`, `model/d4.py:154-221`, `model/d4s.py:152-240`,
`dispersion/base.py:263-281`).  PyTorch accepts an index `z` into a table of `N` rows if
`-N ≤ z < N` and then reads row `z` (if `z ≥ 0`) or row `N + z`, counted from the end of that table.
The tables have different lengths.

The other parts of the model have natural numbers as atomic numbers.  Integers are treated by coding
them as natural numbers (`code`), with the tables rearranged such that position `code z` holds what
PyTorch reads for the index `z`.  The code of zero is zero, so that the masks are the same.
-/

namespace TadDftd4

/-- Code of an integer: `0, 1, 2, ...` are `0, 2, 4, ...` and `-1, -2, ...` are `1, 3, ...`
(a change of representation, no counterpart in the code). -/
def code : ℤ → ℕ
  | .ofNat n => 2 * n
  | .negSucc n => 2 * n + 1

/-- Row read by PyTorch for the index with code `c` in a table with `N` rows
(indexing as in `model/base.py:381`). -/
def rowOf (N c : ℕ) : ℕ := if c % 2 = 0 then c / 2 else N - 1 - c / 2

/-- The tables as seen by integer indices; an index is out of range if its code is not less than
twice the length of the table.  The entries of `refsys` are indices themselves
(`model/base.py:381-413`, `model/d4.py:170-221`, `model/d4s.py:152-240`,
`dispersion/base.py:263-281`). -/
noncomputable def Tables.signed (T : Tables) : Tables where
  nZ := 2 * T.nZ
  refcn c := T.refcn (rowOf T.nZ c)
  refc c := T.refc (rowOf T.nZ c)
  refsys c r := 2 * T.refsys (rowOf T.nZ c) r
  refascale c := T.refascale (rowOf T.nZ c)
  refscount c := T.refscount (rowOf T.nZ c)
  refalpha c := T.refalpha (rowOf T.nZ c)
  nSec := 2 * T.nSec
  secscale c := T.secscale (rowOf T.nSec c)
  secalpha c := T.secalpha (rowOf T.nSec c)
  eeqQ c := T.eeqQ (rowOf T.nZ c)
  eeqH c := T.eeqH (rowOf T.nZ c)
  nG := 2 * T.nG
  gfnQ c := T.gfnQ (rowOf T.nG c)
  gfnH c := T.gfnH (rowOf T.nG c)
  nPair := 2 * T.nPair
  wfpair c c' := T.wfpair (rowOf T.nPair c) (rowOf T.nPair c')
  nR4 := 2 * T.nR4
  r4r2 c := T.r4r2 (rowOf T.nR4 c)
  nExt := 2 * T.nExt
  gam c := T.gam (rowOf T.nExt c)
  zeff c := T.zeff (rowOf T.nExt c)
  vdw c c' := T.vdw (rowOf T.nExt c) (rowOf T.nExt c')

/-- `disp.py:44-146` `dftd4` called with integers as atomic numbers.  The external functions get the
codes of the atomic numbers. -/
noncomputable def dftd4Z (env : Env) (T : Tables) (ext : Ext) (numbers : Tensor ℤ)
    (positions charge : Tensor ℝ) (p : Param) (o : DftOpts) : Except Err (Tensor ℝ) :=
  dftd4 env T.signed ext (numbers.map code) positions charge p o

end TadDftd4
