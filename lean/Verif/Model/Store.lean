import Verif.Model.Profiles

/-! # The parsed data files of the dataset loaders

`demod/datasets/base_loader.py`, `demod/datasets/tou_loader.py` and the conversions of
`demod/utils/parse_helpers.py` they use.

Every `load_…` method has the same shape: the files of the parsed data folder are read in order; when one of them
does not exist the raw data are parsed, the files are written in the same order and the value is returned. The
model of a method is the list of its files, what is written to each, and how the value is made from what is
read (`Recipe`); `loadSteps` is the common control flow. Opening a file for writing truncates it, its content is
there only when the writing is complete: these are separate steps, so that a program can be interrupted between
them. Warnings, and the creation of the folders, are not modelled. Folders and file names are kept apart instead of
being joined by `os.sep`. -/

namespace Demod

/-! ## Python values -/

/-- A key of a python dictionary: a string, an integer, a numpy integer, or something else (a tuple, …). (`parse_helpers.py:311-398`) -/
inductive PyKey where
  | str (s : Str)
  | int (n : Int)
  | npInt (n : Int)
  | other
  deriving DecidableEq

/-- A python value. `npInt` is a bare numpy integer; the elements of an array are written as plain values. `other` is any
other object (a tuple, a `timedelta`, …). The type of the elements of an array is not modelled, nor the
difference between a scalar and an array without dimensions. (`parse_helpers.py:311-398`) -/
inductive PyVal where
  | none
  | bool (b : Bool)
  | int (n : Int)
  | float (q : Rat)
  | str (s : Str)
  | npInt (n : Int)
  | other
  | list (l : List PyVal)
  | array (l : List PyVal)
  | dict (d : List (PyKey × PyVal))

/-- `make_jsonable` on a key. (`parse_helpers.py:311-338`) -/
def mkJsonKey : PyKey → Except PyErr PyKey
  | .str s => .ok (.str s)
  | .int n => .ok (.int n)
  | .npInt n => .ok (.int n)
  | .other => .error .notImplementedError

mutual
/-- `make_jsonable`, `parse_helpers.py:311-338`. -/
def makeJsonable : PyVal → Except PyErr PyVal
  | .dict d => do .ok (.dict (← makeJsonableD d))
  | .array l => do .ok (.list (← makeJsonableL l))
  | .list l => do .ok (.list (← makeJsonableL l))
  | .str s => .ok (.str s)
  | .bool b => .ok (.bool b)
  | .int n => .ok (.int n)
  | .float q => .ok (.float q)
  | .npInt n => .ok (.int n)
  | .none => .ok .none
  | .other => .error .notImplementedError
/-- The elements of a list. (`parse_helpers.py:311-338`) -/
def makeJsonableL : List PyVal → Except PyErr (List PyVal)
  | [] => .ok []
  | v :: l => do .ok ((← makeJsonable v) :: (← makeJsonableL l))
/-- The items of a dictionary. (`parse_helpers.py:311-338`) -/
def makeJsonableD : List (PyKey × PyVal) → Except PyErr (List (PyKey × PyVal))
  | [] => .ok []
  | (k, v) :: d => do
    let k ← mkJsonKey k
    let v ← makeJsonable v
    let d ← makeJsonableD d
    .ok ((k, v) :: d)
end

mutual
/-- `np.asarray` on lists and nested lists; other values are left alone. (`parse_helpers.py:375-398`) -/
def asArray : PyVal → PyVal
  | .list l => .array (asArrayL l)
  | .array l => .array (asArrayL l)
  | v => v
/-- The elements. (`parse_helpers.py:375-398`) -/
def asArrayL : List PyVal → List PyVal
  | [] => []
  | v :: l => asArray v :: asArrayL l
end

/-- `lists_to_numpy_array` on a key. (`parse_helpers.py:375-398`) -/
def listsToNumpyKey : PyKey → Except PyErr PyKey
  | .str s => .ok (.str s)
  | .int n => .ok (.int n)
  | _ => .error .notImplementedError

mutual
/-- `lists_to_numpy_array`, `parse_helpers.py:375-398`. -/
def listsToNumpy : PyVal → Except PyErr PyVal
  | .dict d => do .ok (.dict (← listsToNumpyD d))
  | .array l => .ok (asArray (.array l))
  | .list l => .ok (asArray (.list l))
  | .str s => .ok (.str s)
  | .bool b => .ok (.bool b)
  | .int n => .ok (.int n)
  | .float q => .ok (.float q)
  | _ => .error .notImplementedError
/-- The items of a dictionary. (`parse_helpers.py:375-398`) -/
def listsToNumpyD : List (PyKey × PyVal) → Except PyErr (List (PyKey × PyVal))
  | [] => .ok []
  | (k, v) :: d => do
    let k ← listsToNumpyKey k
    let v ← listsToNumpy v
    let d ← listsToNumpyD d
    .ok ((k, v) :: d)
end

/-- `d[k] = v` on the items of a dictionary with string keys. (`parse_helpers.py:311-398`) -/
def putItem : List (PyKey × PyVal) → PyKey × PyVal → List (PyKey × PyVal)
  | [], q => [q]
  | q' :: d, q => if q'.1 = q.1 then q :: d else q' :: putItem d q

/-- The key as written in a json file. (`base_loader.py:293-335`) -/
def jsonKey : PyKey → Except PyErr PyKey
  | .str s => .ok (.str s)
  | .int n => .ok (.str (intStr n))
  | _ => .error .typeError

mutual
/-- What `json.load` gives for a file written by `json.dump`: the keys become strings; arrays, numpy values and other
objects raise `TypeError`. (`base_loader.py:293-335`) -/
def jsonDump : PyVal → Except PyErr PyVal
  | .dict d => do
    let d ← jsonDumpD d
    .ok (.dict (d.foldl putItem []))
  | .list l => do .ok (.list (← jsonDumpL l))
  | .str s => .ok (.str s)
  | .bool b => .ok (.bool b)
  | .int n => .ok (.int n)
  | .float q => .ok (.float q)
  | .none => .ok .none
  | _ => .error .typeError
/-- The elements of a list. (`base_loader.py:293-335`) -/
def jsonDumpL : List PyVal → Except PyErr (List PyVal)
  | [] => .ok []
  | v :: l => do .ok ((← jsonDump v) :: (← jsonDumpL l))
/-- The items of a dictionary. (`base_loader.py:293-335`) -/
def jsonDumpD : List (PyKey × PyVal) → Except PyErr (List (PyKey × PyVal))
  | [] => .ok []
  | (k, v) :: d => do
    let k ← jsonKey k
    let v ← jsonDump v
    let d ← jsonDumpD d
    .ok ((k, v) :: d)
end

mutual
/-- `np.load` refuses arrays of objects (`allow_pickle=False`). (`base_loader.py:219-227`) -/
def plainArray : PyVal → Bool
  | .none => false
  | .other => false
  | .dict _ => false
  | .list l => plainArrayL l
  | .array l => plainArrayL l
  | _ => true
/-- The elements. (`base_loader.py:219-227`) -/
def plainArrayL : List PyVal → Bool
  | [] => true
  | v :: l => plainArray v && plainArrayL l
end

/-- A dictionary with string keys. (`base_loader.py:293-335`) -/
def strDict (items : List (Str × PyVal)) : PyVal := .dict (items.map fun q => (.str q.1, q.2))

/-- The value at a key: `KeyError` when missing, `TypeError` when the object is not a dictionary. (`base_loader.py:249-291`) -/
def PyVal.item : PyVal → Str → Except PyErr PyVal
  | .dict d, k => match d.find? fun q => decide (q.1 = .str k) with
    | .some q => .ok q.2
    | .none => .error .keyError
  | _, _ => .error .typeError

/-- Items whose keys must be strings. (`base_loader.py:293-335`) -/
def strItems (d : List (PyKey × PyVal)) : Except PyErr (List (Str × PyVal)) :=
  d.mapM fun q => match q.1 with
    | .str s => .ok (s, q.2)
    | _ => .error .typeError

/-- The items of a dictionary given as keyword arguments. (`base_loader.py:293-335`) -/
def PyVal.kwargs : PyVal → Except PyErr (List (Str × PyVal))
  | .dict d => strItems d
  | _ => .error .typeError

/-! ## Files -/

/-- A file of the parsed data: its folder, relative to `parsed_path`, and its name. (`base_loader.py:49-104`) -/
structure Path where
  dir : Str
  name : Str
  deriving DecidableEq

/-- The formats. (`base_loader.py:249-335`) -/
inductive Fmt where
  | npy | npz | json
  deriving DecidableEq

/-- What a file contains; `broken` for a file opened for writing and not complete. (`base_loader.py:249-335`) -/
inductive Content where
  | broken
  | npy (v : PyVal)
  | npz (items : List (Str × PyVal))
  | json (v : PyVal)

/-- The parsed data folder. (`base_loader.py:49-127`) -/
abbrev FS := Path → Option Content

/-- Reading a file: `FileNotFoundError` if it is missing; an incomplete file raises `JSONDecodeError`, resp.
`BadZipFile`, `EOFError` or `ValueError` for numpy files. (`base_loader.py:249-291`) -/
def readFile (fs : FS) (f : Path × Fmt) : Except PyErr Content :=
  match fs f.1, f.2 with
  | none, _ => .error .fileNotFoundError
  | some (.npy v), .npy => if plainArray v then .ok (.npy v) else .error .valueError
  | some (.npz items), .npz => .ok (.npz items)
  | some (.json v), .json => .ok (.json v)
  | some _, .json => .error .decodeError
  | some _, _ => .error .badFile

/-- The arrays of an `npz` file, `dict(np.load(…))`. (`base_loader.py:219-222`) -/
def Content.arrays : Content → Except PyErr (List (Str × PyVal))
  | .npz items => items.mapM fun q => if plainArray q.2 then .ok q else .error .valueError
  | _ => .error .badFile

/-- The array of an `npy` file. (`base_loader.py:224-227`) -/
def Content.array : Content → Except PyErr PyVal
  | .npy v => .ok v
  | _ => .error .badFile

/-- The object in a json file. (`base_loader.py:249-291`) -/
def Content.object : Content → Except PyErr PyVal
  | .json v => .ok v
  | _ => .error .decodeError

/-- `np.savez(file, **d)` (`base_loader.py:293-335`) -/
def savez (items : List (Str × PyVal)) : Content := .npz (items.map fun q => (q.1, asArray q.2))

/-- `json.dump(make_jsonable(v), f)` (`base_loader.py:293-335`) -/
def dumpJsonable (v : PyVal) : Except PyErr Content := do
  let v ← makeJsonable v
  let v ← jsonDump v
  .ok (.json v)

/-- `json.dump(v, f)` (`base_loader.py:293-335`) -/
def dumpRaw (v : PyVal) : Except PyErr Content := do
  let v ← jsonDump v
  .ok (.json v)

/-! ## The load methods -/

/-- The files of the parsed data folder itself. (`base_loader.py:760-1081`) -/
inductive RootFile where
  | appliances | arma | geographic | fisher | crestLighting | bulbs
  deriving DecidableEq

/-- The yearly targets. (`base_loader.py:564-724`) -/
inductive Target where
  | switchons | consumption | duration
  deriving DecidableEq

/-- The heating data. (`base_loader.py:1099-1187`) -/
inductive HeatingData where
  | buildings | system | thermostat
  deriving DecidableEq

/-- The activity statistics. (`tou_loader.py:308-436`) -/
inductive ActivityStat where
  | starts | duration | probabilities
  deriving DecidableEq

/-- A call of a load method. (`base_loader.py:343-1195`) -/
inductive Req where
  /-- `load_population_subgroups(population_type)` -/
  | population (t : Str)
  /-- `load_appliance_dict()`, `load_temperatures_arma()`, `load_geographic_data()`, `load_fisher_lighting()`,
  `load_crest_lighting()`, `load_bulbs()` -/
  | root (k : RootFile)
  /-- `load_real_profiles_dict(profiles_type)` -/
  | profiles (t : Str)
  /-- `load_appliance_ownership_dict(subgroup)` -/
  | ownership (s : Subgroup)
  /-- `load_yearly_target_switchons(subgroup)`, `…_consumption`, `…_duration` -/
  | target (k : Target) (s : Subgroup)
  /-- `load_clearness_tpms()` -/
  | clearness
  /-- `load_historical_climate_data(start)`, before the selection of the values from the start on -/
  | historical
  /-- `load_bulbs_config(subgroup)` -/
  | bulbsConfig (s : Subgroup)
  /-- `load_installed_bulbs_stats(subgroup)` -/
  | bulbsStats (s : Subgroup)
  /-- `load_buildings_dict(subgroup)`, `load_heating_system_dict`, `load_thermostat_dict` -/
  | heating (k : HeatingData) (s : Subgroup)
  /-- `load_tpm(subgroup)` -/
  | tpm (s : Subgroup)
  /-- `load_tpm_with_duration(subgroup)` -/
  | tpmWithDuration (s : Subgroup)
  /-- `load_sparse_tpm(subgroup)`; the value is that of the four arrays of the sparse matrix and the labels -/
  | sparseTpm (s : Subgroup)
  /-- `load_activity_probability_profiles(subgroup)` -/
  | activityProfiles (s : Subgroup)
  /-- `load_daily_activity_starts(subgroup)`, `load_activity_duration`, `load_activity_probabilities` -/
  | stat (k : ActivityStat) (s : Subgroup)
  deriving DecidableEq

/-- What a load method does. Values are given as the list of their components. (`base_loader.py:249-335`) -/
structure Recipe where
  /-- the files, in the order in which they are read and written -/
  files : List (Path × Fmt)
  /-- checks on the parsed value before anything is written -/
  check : List PyVal → Except PyErr Unit
  /-- what is written to each file -/
  encode : List PyVal → List (Except PyErr Content)
  /-- the legend, which is written last and never read -/
  legend : Option Path
  /-- the value returned when all the files are read -/
  decode : List Content → Except PyErr (List PyVal)
  /-- the value returned after parsing -/
  result : List PyVal → Except PyErr (List PyVal)

/-- The parsed value must have `n` components. (`base_loader.py:293-335`) -/
def arity (n : Nat) (d : List PyVal) : Except PyErr Unit := if d.length = n then .ok () else .error .valueError

/-- The methods with one json file holding the value itself. (`base_loader.py:249-335`) -/
def jsonRecipe (p : Path) (dump : PyVal → Except PyErr Content) (fin : PyVal → Except PyErr PyVal) : Recipe where
  files := [(p, .json)]
  check := arity 1
  encode d := d.map dump
  legend := none
  decode cs := do
    let v ← (cs.headD .broken).object
    let v ← fin v
    .ok [v]
  result d := d.mapM fin

/-- The methods with one `npz` file holding a dictionary of arrays, given to `np.savez` as keyword arguments. (`base_loader.py:249-335`) -/
def npzRecipe (p : Path) : Recipe where
  files := [(p, .npz)]
  check d := match d with
    | [v] => do
      let _ ← v.kwargs
      .ok ()
    | _ => .error .valueError
  encode d := d.map fun v => (v.kwargs).map savez
  legend := none
  decode cs := do
    let items ← (cs.headD .broken).arrays
    .ok [strDict items]
  result := .ok

/-- The methods with one `npz` file holding arrays under the given keys, and a legend. (`tou_loader.py:308-436`) -/
def keyedRecipe (p l : Path) (keys : List Str) : Recipe where
  files := [(p, .npz)]
  check := arity keys.length
  encode d := [.ok (savez (keys.zip d))]
  legend := some l
  decode cs := do
    let items ← (cs.headD .broken).arrays
    keys.mapM fun k => (strDict items).item k
  result := .ok

/-- `load_population_subgroups`, `base_loader.py:354-393`. -/
def populationRecipe (t : Str) : Recipe where
  files := [({ dir := "population".toList, name := t ++ ".json".toList }, .json)]
  check := arity 3
  encode d := [dumpJsonable (strDict (["subgroups_list".toList, "subgroups_probs".toList, "total_number".toList].zip d))]
  legend := none
  decode cs := do
    let v ← (cs.headD .broken).object
    ["subgroups_list".toList, "subgroups_probs".toList, "total_number".toList].mapM fun k => v.item k
  result := .ok

/-- `load_appliance_dict`, `base_loader.py:413-444`. -/
def appliancesRecipe : Recipe :=
  let r := jsonRecipe { dir := [], name := "appliance_dict.json".toList } dumpJsonable listsToNumpy
  { r with
    check := fun d => match d with
      | [.dict items] => if (.str "type".toList) ∈ items.map (·.1) then .ok () else .error .valueError
      | _ => .error .valueError }

/-- `load_bulbs`, `base_loader.py:980-1011`. -/
def bulbsRecipe : Recipe where
  files := [({ dir := [], name := "bulbs.json".toList }, .json)]
  check := arity 2
  encode d := [dumpJsonable (strDict (["bulbs_consumption".toList, "bulbs_penetration".toList].zip d))]
  legend := none
  decode cs := do
    let v ← (cs.headD .broken).object
    let d ← ["bulbs_consumption".toList, "bulbs_penetration".toList].mapM fun k => v.item k
    .ok (d.map asArray)
  result d := .ok (d.map asArray)

/-- `load_temperatures_arma`, `load_geographic_data`, `base_loader.py:797-844`, `load_fisher_lighting`,
`load_crest_lighting`, `base_loader.py:930-972`. -/
def rootRecipe : RootFile → Recipe
  | .appliances => appliancesRecipe
  | .arma => jsonRecipe { dir := [], name := "temperatures_arma.json".toList } dumpRaw .ok
  | .geographic => jsonRecipe { dir := [], name := "geographic_data.json".toList } dumpRaw .ok
  | .fisher => jsonRecipe { dir := [], name := "fisher_lighting.json".toList } dumpRaw .ok
  | .crestLighting => jsonRecipe { dir := [], name := "crest_lighting.json".toList } dumpJsonable listsToNumpy
  | .bulbs => bulbsRecipe

/-- A dictionary of dictionaries with string keys. `AttributeError` for something else. (`base_loader.py:446-491`) -/
def toProfiles : PyVal → Except PyErr (ProfilesDict PyVal)
  | .dict d => d.mapM fun q => match q with
    | (.str t, .dict e) => do
      let names ← strItems e
      .ok (t, names)
    | (.str _, _) => .error .attributeError
    | _ => .error .typeError
  | _ => .error .attributeError

/-- The other way round. (`base_loader.py:446-491`) -/
def ofProfiles (d : ProfilesDict PyVal) : PyVal := strDict (d.map fun t => (t.1, strDict t.2))

/-- `load_real_profiles_dict`, `base_loader.py:446-491`. The dictionary is flattened before the file is opened. The
parser for the profiles `'switchedON'` of tracebase loads the profiles `'full'` first; this is not modelled. -/
def profilesRecipe (t : Str) : Recipe where
  files := [({ dir := [], name := "loadprofiles_".toList ++ t ++ ".npz".toList }, .npz)]
  check d := match d with
    | [v] => do
      let _ ← toProfiles v
      .ok ()
    | _ => .error .valueError
  encode d := d.map fun v => do
    let p ← toProfiles v
    .ok (savez (flattenProfiles p))
  legend := none
  decode cs := do
    let items ← (cs.headD .broken).arrays
    let d ← readProfiles items
    .ok [ofProfiles d]
  result := .ok

/-- `load_clearness_tpms`, `base_loader.py:760-789`. The step size is given as the dictionary of its days, seconds and
microseconds, `_save_step_size` and `_load_step_size`, `base_loader.py:229-247`. -/
def clearnessRecipe : Recipe where
  files := [({ dir := "climate".toList, name := "clearness_tpms.npy".toList }, .npy),
    ({ dir := "climate".toList, name := "clearness_labels.npy".toList }, .npy),
    ({ dir := "climate".toList, name := "clearness_step_size.json".toList }, .json)]
  check := arity 3
  encode d := match d with
    | [a, b, c] => [.ok (.npy (asArray a)), .ok (.npy (asArray b)), dumpRaw c]
    | _ => []
  legend := none
  decode cs := match cs with
    | [a, b, c] => do .ok [← a.array, ← b.array, ← c.object]
    | _ => .error .valueError
  result := .ok

/-- `load_bulbs_config`, `base_loader.py:1019-1044`. -/
def bulbsConfigRecipe (s : Str) : Recipe where
  files := [({ dir := "bulbs".toList, name := "bulbs_config_".toList ++ s ++ ".npy".toList }, .npy)]
  check := arity 1
  encode d := d.map fun v => .ok (.npy (asArray v))
  legend := none
  decode cs := do
    let v ← (cs.headD .broken).array
    .ok [v]
  result := .ok

/-- `load_installed_bulbs_stats`, `base_loader.py:1052-1081`. -/
def bulbsStatsRecipe (s : Str) : Recipe where
  files := [({ dir := "bulbs".toList, name := "bulbs_".toList ++ s ++ ".json".toList }, .json)]
  check := arity 2
  encode d := [dumpRaw (strDict (["mean".toList, "std".toList].zip d))]
  legend := none
  decode cs := do
    let v ← (cs.headD .broken).object
    ["mean".toList, "std".toList].mapM fun k => v.item k
  result := .ok

/-- The names of the keys of arrays saved without keyword. (`base_loader.py:760-789`) -/
def positional (n : Nat) : List Str := (List.range n).map fun i => "arr_".toList ++ decimal i

/-- `load_sparse_tpm`, `tou_loader.py:179-228`, with `SparseTPM.save` and `load`, `utils/sparse.py:209-238`, and
`_load_parsed_data`, `base_loader.py:249-291`. Nothing writes the file `<subgroup>.npy`, which `_load_parsed_data` would
prefer to `<subgroup>.npz`; it is left out. -/
def sparseRecipe (act s : Str) : Recipe where
  files := [({ dir := act, name := s ++ "_tpm_times.npy".toList }, .npy),
    ({ dir := act, name := s ++ "_tpm_inds_from.npy".toList }, .npy),
    ({ dir := act, name := s ++ "_tpm_inds_to.npy".toList }, .npy),
    ({ dir := act, name := s ++ "_tpm_values.npy".toList }, .npy),
    ({ dir := act, name := s ++ ".npz".toList }, .npz)]
  check := arity 7
  encode d := match d with
    | [t, f, o, v, labels, acts, pdf] => [.ok (.npy (asArray t)), .ok (.npy (asArray f)), .ok (.npy (asArray o)), .ok (.npy (asArray v)),
      .ok (savez ((positional 3).zip [labels, acts, pdf]))]
    | _ => []
  legend := some { dir := act, name := s ++ "_dict_legend.json".toList }
  decode cs := match cs with
    | [t, f, o, v, z] => do
      let t ← t.array
      let f ← f.array
      let o ← o.array
      let v ← v.array
      match ← z.arrays with
      | [a, b, c] => .ok [t, f, o, v, a.2, b.2, c.2]
      | _ => .error .valueError
    | _ => .error .valueError
  result := .ok

/-- The load methods. `act` is the activity type of a `LoaderTOU`. The remaining ones:
`load_appliance_ownership_dict`, `base_loader.py:513-551`; `load_yearly_target_…`, `base_loader.py:564-724`;
`load_historical_climate_data`, `base_loader.py:852-911`; `load_buildings_dict`, `load_heating_system_dict`,
`load_thermostat_dict`, `base_loader.py:1099-1187`; `load_tpm`, `load_tpm_with_duration`, `tou_loader.py:46-159`;
`load_activity_probability_profiles`, `tou_loader.py:249-293`; `load_daily_activity_starts`, `load_activity_duration`,
`load_activity_probabilities`, `tou_loader.py:308-436`. -/
def recipe (act : Str) : Req → Recipe
  | .population t => populationRecipe t
  | .root k => rootRecipe k
  | .profiles t => profilesRecipe t
  | .ownership s => npzRecipe { dir := "appliance_ownership".toList, name := "ownership__".toList ++ subgroupString (removeTime s) ++ ".npz".toList }
  | .target k s =>
    let kind := match k with
      | .switchons => "switchons__".toList
      | .consumption => "consumption__".toList
      | .duration => "duration__".toList
    jsonRecipe { dir := "appliance_targets".toList, name := kind ++ subgroupString (removeTime s) } dumpJsonable .ok
  | .clearness => clearnessRecipe
  | .historical => npzRecipe { dir := "climate".toList, name := "historical_climate.npz".toList }
  | .bulbsConfig s => bulbsConfigRecipe (subgroupString s)
  | .bulbsStats s => bulbsStatsRecipe (subgroupString s)
  | .heating k s =>
    let kind := match k with
      | .buildings => "_buildings_dict.json".toList
      | .system => "_heating_system_dict.json".toList
      | .thermostat => "_thermostat_dict.json".toList
    jsonRecipe { dir := "heating".toList, name := subgroupString s ++ kind } dumpJsonable listsToNumpy
  | .tpm s => keyedRecipe { dir := act, name := subgroupString s ++ ".npz".toList }
      { dir := act, name := subgroupString s ++ "_dict_legend.json".toList } ["tpm".toList, "labels".toList, "initial_pdf".toList]
  | .tpmWithDuration s => keyedRecipe { dir := act, name := subgroupString s ++ "_with_duration".toList ++ ".npz".toList }
      { dir := act, name := subgroupString s ++ "_with_duration".toList ++ "_dict_legend.json".toList }
      ["tpm".toList, "duration_pdfs".toList, "labels".toList, "initial_pdf".toList, "initial_duration_pdfs".toList]
  | .sparseTpm s => sparseRecipe act (subgroupString s)
  | .activityProfiles s => npzRecipe { dir := act, name := "activity_profiles_".toList ++ subgroupString s ++ ".npz".toList }
  | .stat k s =>
    let kind := match k with
      | .starts => "act_occurence_".toList
      | .duration => "act_duration_".toList
      | .probabilities => "act_probs_".toList
    npzRecipe { dir := act ++ "/ActivityStats".toList, name := kind ++ subgroupString s ++ ".npz".toList }

/-! ## Executions -/

/-- The raw data: what parsing gives for each request, with its legend (when the method has one). (`base_loader.py:395-401`) -/
abbrev Raw := Req → Except PyErr (List PyVal × PyVal)

/-- The visible steps of a load: parsing the raw data, opening a file for writing, completing it. (`base_loader.py:249-335`) -/
inductive Step where
  | parse (r : Req)
  | openFile (p : Path)
  | complete (p : Path) (c : Content)

/-- The effect of a step on the files. (`base_loader.py:293-335`) -/
def Step.apply (fs : FS) : Step → FS
  | .parse _ => fs
  | .openFile p => fun q => if q = p then some .broken else fs q
  | .complete p c => fun q => if q = p then some c else fs q

/-- Reading all the files in order. (`base_loader.py:249-291`) -/
def readFiles (fs : FS) : List (Path × Fmt) → Except PyErr (List Content)
  | [] => .ok []
  | f :: files => do
    let c ← readFile fs f
    let cs ← readFiles fs files
    .ok (c :: cs)

/-- Writing files in order: each is opened first, then its content is made and written. (`base_loader.py:293-335`) -/
def writeFiles : List (Path × Except PyErr Content) → List Step × Option PyErr
  | [] => ([], none)
  | (p, .ok c) :: rest => (.openFile p :: .complete p c :: (writeFiles rest).1, (writeFiles rest).2)
  | (p, .error e) :: _ => ([.openFile p], some e)

/-- Everything a load writes after parsing. (`base_loader.py:293-335`) -/
def Recipe.writes (R : Recipe) (d : List PyVal) (legend : PyVal) : List (Path × Except PyErr Content) :=
  (R.files.map (·.1)).zip (R.encode d) ++ (match R.legend with
    | some p => [(p, dumpJsonable legend)]
    | none => [])

/-- A call of a load method: its steps and its outcome. (`base_loader.py:249-335`) -/
def loadSteps (raw : Raw) (act : Str) (fs : FS) (r : Req) : List Step × Except PyErr (List PyVal) :=
  let R := recipe act r
  match readFiles fs R.files with
  | .ok cs => ([], R.decode cs)
  | .error .fileNotFoundError =>
    match raw r with
    | .error e => ([.parse r], .error e)
    | .ok (d, legend) =>
      match R.check d with
      | .error e => ([.parse r], .error e)
      | .ok _ =>
        match writeFiles (R.writes d legend) with
        | (steps, some e) => (.parse r :: steps, .error e)
        | (steps, none) => (.parse r :: steps, R.result d)
  | .error e => ([], .error e)

/-- What happens to the parsed data: a call of a load method, a call interrupted after some of its steps, or
`clear_parsed_data`, `base_loader.py:106-129`. -/
inductive Event where
  | load (r : Req)
  | crash (r : Req) (steps : Nat)
  | clear
  deriving DecidableEq

/-- The effect of an event. (`base_loader.py:106-127`) -/
def Event.apply (raw : Raw) (act : Str) (fs : FS) : Event → FS
  | .load r => (loadSteps raw act fs r).1.foldl Step.apply fs
  | .crash r n => ((loadSteps raw act fs r).1.take n).foldl Step.apply fs
  | .clear => fun _ => none

/-- The files after a history that starts with an empty folder. (`base_loader.py:49-127`) -/
def filesAfter (raw : Raw) (act : Str) (hist : List Event) : FS := hist.foldl (Event.apply raw act) fun _ => none

/-- The outcome of a load after a history. (`base_loader.py:49-127`) -/
def outcomeAfter (raw : Raw) (act : Str) (hist : List Event) (r : Req) : Except PyErr (List PyVal) :=
  (loadSteps raw act (filesAfter raw act hist) r).2

end Demod
