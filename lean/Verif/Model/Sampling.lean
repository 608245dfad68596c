import Verif.Model.Py

/-!
# Random draws and distributions
(`demod/utils/monte_carlo.py`, `demod/utils/distribution_functions.py`,
`sample_population` in `demod/simulators/util.py`)

Floats are rationals.  The uniform draws of `np.random.uniform` are explicit arguments.
-/

namespace Demod

/-- `np.argmax` of a boolean array: the first `True`, 0 if there is none; a `ValueError` on an
empty array. (`monte_carlo.py:26-43`) -/
def argmaxBool (m : List Bool) : Except PyErr Nat :=
  match m with
  | [] => .error .valueError
  | _ => .ok ((m.findIdx? (· == true)).getD 0)

/-- `np.cumsum` with a start value. (`monte_carlo.py:46-59`) -/
def cumsumFrom (acc : Rat) : List Rat → List Rat
  | [] => []
  | x :: xs => (acc + x) :: cumsumFrom (acc + x) xs

/-- `np.cumsum` (`monte_carlo.py:46-59`) -/
def cumsum (xs : List Rat) : List Rat := cumsumFrom 0 xs

/-- One draw: `np.argmax(cdf > u)`, `monte_carlo.py:42-43` and `79-80`. -/
def mcCdf (cdf : List Rat) (u : Rat) : Except PyErr Nat :=
  argmaxBool (cdf.map fun c => decide (c > u))

/-- `monte_carlo_from_1d_cdf`, `monte_carlo.py:26-43`; `us` are the `n_samples` draws. -/
def mcFrom1dCdf (cdf : List Rat) (us : List Rat) : Except PyErr (List Nat) :=
  us.mapM (mcCdf cdf)

/-- `monte_carlo_from_1d_pdf`, `monte_carlo.py:46-59`. -/
def mcFrom1dPdf (pdf : List Rat) (us : List Rat) : Except PyErr (List Nat) :=
  mcFrom1dCdf (cumsum pdf) us

/-- `monte_carlo_from_cdf`, `monte_carlo.py:62-80`: one row and one draw per sample
(`us` has as many entries as there are rows, line 77). -/
def mcFromCdf (cdfs : List (List Rat)) (us : List Rat) : Except PyErr (List Nat) :=
  (cdfs.zip us).mapM fun p => mcCdf p.1 p.2

/-- `monte_carlo_from_pdf`, `monte_carlo.py:83-97`. -/
def mcFromPdf (pdfs : List (List Rat)) (us : List Rat) : Except PyErr (List Nat) :=
  mcFromCdf (pdfs.map cumsum) us

/-- `rescale_pdf`, `distribution_functions.py:10-40`, on the reshaped 2-D array (lines 27-28).
Division by a zero sum (possible only for `epsilon > 1`) gives NaN in the code and 0 here. -/
def rescalePdf (epsilon : Rat) (pdfs : List (List Rat)) : Except PyErr (List (List Rat)) :=
  if pdfs.all fun p => decide (p.sum < 1 + epsilon) && decide (p.sum > 1 - epsilon) then
    .ok (pdfs.map fun p => p.map fun x => x / p.sum)
  else .error .valueError

/-- `rescale_cdf`, `distribution_functions.py:43-69`.  An empty row is a `ValueError` of
`reshape`. -/
def rescaleCdf (epsilon : Rat) (cdfs : List (List Rat)) : Except PyErr (List (List Rat)) :=
  if cdfs.any (·.isEmpty) then .error .valueError
  else if cdfs.all fun c =>
      match c.getLast? with
      | some l => decide (l < 1 + epsilon) && decide (l > 1 - epsilon)
      | none => false then
    .ok (cdfs.map fun c =>
      match c.getLast? with
      | some l => c.map fun x => x / l
      | none => [])
  else .error .valueError

/-- `check_valid_cdf`, `distribution_functions.py:72-105`. `np.roll(cdf, -1)` without the last
column pairs each element with its successor. -/
def checkValidCdf (epsilon : Rat) (cdfs : List (List Rat)) : Except PyErr Bool :=
  if cdfs.any (·.isEmpty) then .error .valueError
  else if ¬ (cdfs.all fun c =>
      match c.getLast? with
      | some l => decide (l > 1 - epsilon) && decide (l < 1 + epsilon)
      | none => false) then .error .valueError
  else if ¬ (cdfs.all fun c => (c.zip c.tail).all fun p => decide (p.1 ≤ p.2)) then .error .valueError
  else if ¬ (cdfs.all fun c => c.all fun x => decide (x ≤ 1 + epsilon) && decide (x ≥ 0)) then
    .error .valueError
  else .ok true

/-- Default `epsilon` of `check_valid_cdf`. (`distribution_functions.py:72-105`) -/
def cdfEps : Rat := 1 / 1000000

/-- `np.searchsorted(xs, v)` (side 'left'): the number of leading elements below `v`.
For a sorted array this is numpy's answer; the binary search on unsorted arrays is not
modelled. (`util.py:83-123`) -/
def searchsortedLeft (xs : List Rat) (v : Rat) : Nat := xs.findIdx fun x => decide (v ≤ x)

/-- `np.linspace(0, 1, n)` (`util.py:83-123`) -/
def linspace01 (n : Nat) : List Rat :=
  (List.range n).map fun (k : Nat) => if n = 1 then 0 else (k : Rat) / ((n - 1 : Nat) : Rat)

/-- `np.bincount(inds, minlength=m)` (`util.py:83-123`) -/
def bincount (inds : List Nat) (m : Nat) : List Nat :=
  (List.range (max m (inds.foldr (fun i a => max (i + 1) a) 0))).map fun i => inds.count i

/-- The sampling algorithms of `sample_population`. (`util.py:83-123`) -/
inductive PopAlgo where
  | realPopulation
  | monteCarlo (us : List Rat)
  | other

/-- `sample_population`, `demod/simulators/util.py:83-123`. For the Monte Carlo algorithm the
draws `us` (of which there are `n_samples`) are given. -/
def samplePopulation (nSamples : Nat) (pdf : List Rat) (algo : PopAlgo) : Except PyErr (List Nat) := do
  let cdf := cumsum pdf
  let _ ← checkValidCdf cdfEps [cdf]
  match algo with
  | .realPopulation =>
    let inds := (linspace01 nSamples).map (searchsortedLeft cdf)
    .ok (bincount inds cdf.length)
  | .monteCarlo us => do
    let inds ← mcFrom1dCdf cdf us
    .ok (bincount inds cdf.length)
  | .other => .error .notImplementedError

end Demod
