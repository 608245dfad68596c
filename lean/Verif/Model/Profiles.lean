import Verif.Model.Utils
import Mathlib.Algebra.Order.Field.Rat

/-! # Load profiles: the tracebase parser and the stored profiles

`demod/datasets/tracebase/loader.py` and `ApplianceLoader.load_real_profiles_dict` of
`demod/datasets/base_loader.py`. Powers are exact rationals instead of floats. -/

namespace Demod

/-! ## `Tracebase._parse_single_profile` -/

/-- `np.interp(x, xs, ys)` for times in increasing order: constant before the first and after the last
sample, else on the line from the last sample that is not after `x` to the next one. No sample at
all is an error of numpy, excluded by `parseProfile`. (`tracebase/loader.py:171-252`) -/
def npInterp : List (Int × Rat) → Int → Rat
  | [], _ => 0
  | [(_, y)], _ => y
  | (x0, y0) :: (x1, y1) :: rest, x =>
    if x < x1 then (if x ≤ x0 then y0 else y0 + (y1 - y0) / ((x1 - x0 : Int) : Rat) * ((x - x0 : Int) : Rat))
    else npInterp ((x1, y1) :: rest) x

/-- The load at each second, from the second of the first sample to the one before that of the last sample,
`tracebase/loader.py:178-193`. `IndexError` without samples. -/
def loadSecond (samples : List (Int × Rat)) : Except PyErr (List Rat) :=
  match samples.head?, samples.getLast? with
  | some a, some b => .ok ((List.range (b.1 - a.1).toNat).map fun (k : Nat) => npInterp samples (a.1 + (k : Int)))
  | _, _ => .error .indexError

/-- `padded.reshape((-1, n)).mean(axis=-1)` for a list whose length is a multiple of `n`: the means of `m`
consecutive pieces of `n` values. (`tracebase/loader.py:171-252`) -/
def pieceMeans (n : Nat) : Nat → List Rat → List Rat
  | 0, _ => []
  | m + 1, xs => (xs.take n).sum / (n : Rat) :: pieceMeans n m (xs.drop n)

/-- The resampling, `tracebase/loader.py:194-203`. `sec` is `int(step_size.total_seconds())`, taken as non
negative; with 0 (a step below one second) the remainder raises `ZeroDivisionError`. -/
def resample (load : List Rat) (sec : Nat) : Except PyErr (List Rat) :=
  if sec = 1 then .ok load
  else if sec = 0 then .error .zeroDivisionError
  else
    let nPad := sec - load.length % sec
    let padded := load ++ List.replicate nPad 0
    .ok (pieceMeans sec (padded.length / sec) padded)

/-- `_parse_single_profile` for a full profile, `tracebase/loader.py:171-203`, on the samples of the file: second
of the day and power. Reading the file is not modelled. -/
def parseProfile (samples : List (Int × Rat)) (sec : Nat) : Except PyErr (List Rat) := do
  let l ← loadSecond samples
  resample l sec

/-- The cropping of a profile, `tracebase/loader.py:244-251`: from the first to the last value above 6 W.
`IndexError` when there is none. -/
def cropOn (load : List Rat) : Except PyErr (List Rat) :=
  let mask := (List.range load.length).filter fun i => decide (load.getD i 0 > 6)
  match mask.head?, mask.getLast? with
  | some a, some b => .ok ((load.take (b + 1)).drop a)
  | _, _ => .error .indexError

/-! ## `ApplianceLoader.load_real_profiles_dict` -/

/-- A python dictionary with string keys, in insertion order. (`base_loader.py:446-491`) -/
abbrev SDict (α : Type) := List (Str × α)

/-- `d[k] = v`: an existing key keeps its place. (`base_loader.py:446-491`) -/
def SDict.put {α : Type} : SDict α → Str → α → SDict α
  | [], k, v => [(k, v)]
  | (k', v') :: d, k, v => if k' = k then (k, v) :: d else (k', v') :: SDict.put d k v

/-- `d[k]`, if present. (`base_loader.py:446-491`) -/
def SDict.get {α : Type} (d : SDict α) (k : Str) : Option α := (d.find? fun q => decide (q.1 = k)).map (·.2)

/-- `{app_type: {name: profile}}`, for any kind of arrays `α`. (`base_loader.py:446-491`) -/
abbrev ProfilesDict (α : Type) := SDict (SDict α)

/-- The dictionary that is written to the file, `base_loader.py:482-488`. `_SPLIT_CHAR` is `'&'`. -/
def flattenProfiles {α : Type} (d : ProfilesDict α) : SDict α :=
  d.foldl (fun acc t => t.2.foldl (fun acc n => acc.put (t.1 ++ '&' :: n.1) n.2) acc) []

/-- One pass of the loop over the file, `base_loader.py:472-476`. -/
def readProfile {α : Type} (acc : ProfilesDict α) (item : Str × α) : Except PyErr (ProfilesDict α) :=
  match splitAt '&' item.1 with
  | [appType, name] =>
    let acc := match acc.get appType with
      | some _ => acc
      | none => acc.put appType []
    .ok (acc.put appType (((acc.get appType).getD []).put name item.2))
  | _ => .error .valueError

/-- The dictionary that is read from the file, `base_loader.py:470-476`. -/
def readProfiles {α : Type} (file : SDict α) : Except PyErr (ProfilesDict α) := file.foldlM readProfile []

end Demod
