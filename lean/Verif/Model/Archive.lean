import Verif.Model.Py
import Verif.Model.Utils

/-!
# The archives that the loaders of the German time use survey and of tracebase download

`demod/datasets/GermanTOU/loader.py` (71-151), `demod/datasets/tracebase/loader.py` (96-131) and the load methods that read the unpacked data (`tou_loader.py:46-95`, `base_loader.py:446-491`).
A file that is written is first empty and then complete; what an incomplete file contains is not modelled. Whether the dataset folders `raw_data` and `parsed_data` exist is not modelled.
-/

namespace Demod

/-- A zip archive: the names and contents of its files. (`GermanTOU/loader.py:149-151`) -/
abbrev Archive (C : Type) := List (Str × C)

/-- A file on the disk: `none` when there is none, `some none` when it is not complete. (`GermanTOU/loader.py:146-148`) -/
abbrev DiskFile (C : Type) := Option (Option C)

/-- The changes that are made when the process is interrupted after `stop` changes. (`GermanTOU/loader.py:122-151`) -/
def doneUntil {W : Type} (stop : Option Nat) (ws : List W) : List W :=
  match stop with
  | none => ws
  | some n => ws.take n

/-! ## The German time use survey -/

section Survey
variable {C : Type}

/-- The files of the dataset: the archive of an activity type in `raw_data`, and the folder of a version and an activity type in `parsed_data`, `none` when it does not exist. A version with the name of an activity type is not
modelled. (`GermanTOU/loader.py:71-96`, `tou_loader.py:31-44`) -/
structure TouFiles (C : Type) where
  zip : Str → DiskFile (Archive C)
  dir : Option Str → Str → Option (Str → DiskFile C)

/-- A disk without files. (`GermanTOU/loader.py:71-85`) -/
def TouFiles.none : TouFiles C := ⟨fun _ => Option.none, fun _ _ => Option.none⟩

/-- A change of the disk. The removal of a folder is taken as one change. (`GermanTOU/loader.py:87-96,146-151`) -/
inductive TouWrite (C : Type) where
  | zip (activity : Str) (file : DiskFile (Archive C))
  | rmdir (version : Option Str) (activity : Str)
  | mkdir (version : Option Str) (activity : Str)
  | file (version : Option Str) (activity name : Str) (content : Option C)

/-- The effect of a change. (`GermanTOU/loader.py:87-96,146-151`) -/
def TouWrite.apply (fs : TouFiles C) : TouWrite C → TouFiles C
  | .zip a f => { fs with zip := fun a' => if a' = a then f else fs.zip a' }
  | .rmdir v a => { fs with dir := fun v' a' => if v' = v ∧ a' = a then Option.none else fs.dir v' a' }
  | .mkdir v a => { fs with dir := fun v' a' => if v' = v ∧ a' = a then some (fun _ => Option.none) else fs.dir v' a' }
  | .file v a n c => { fs with dir := fun v' a' => if v' = v ∧ a' = a then (fs.dir v a).map (fun d n' => if n' = n then some c else d n') else fs.dir v' a' }

/-- `_clear_parsed_data`, `GermanTOU/loader.py:87-96`, for a folder that exists. The archive is removed if there is one. -/
def touClear (v : Option Str) (a : Str) : List (TouWrite C) := [.rmdir v a, .mkdir v a, .zip a none]

/-- `extractall`, `GermanTOU/loader.py:150-151`. -/
def touExtract (v : Option Str) (a : Str) (archive : Archive C) : List (TouWrite C) := archive.flatMap fun q => [.file v a q.1 none, .file v a q.1 (some q.2)]

/-- `_download_parsed_folder_github`, `GermanTOU/loader.py:122-151`, after the changes `before`. -/
def touDownload (v : Option Str) (a : Str) (before : List (TouWrite C)) : Except PyErr (Archive C) → List (TouWrite C) × Except PyErr Unit
  | .error e => (before, .error e)
  | .ok archive => (before ++ [.zip a (some none), .zip a (some (some archive))] ++ touExtract v a archive, .ok ())

/-- `GTOU(activity, version=…, clear_parsed_data=…)`, `GermanTOU/loader.py:71-85`: the changes of the disk and the outcome. `survey` tells whether the raw files of the survey are there (98-105). `reply` is what the server sends: an error is
`FileNotFoundError` for a missing page, another one when it cannot be reached (122-151). The constructor of `DatasetLoader`, and so the clearing, runs twice: from `LoaderTOU.__init__` (`tou_loader.py:31-44`) and from
`PopulationLoader.__init__` (`base_loader.py:346-352`); `shutil.rmtree` raises `FileNotFoundError` for a folder that does not exist. -/
def touCreate (survey : Bool) (fs : TouFiles C) (v : Option Str) (a : Str) (clear : Bool) (reply : Except PyErr (Archive C)) : List (TouWrite C) × Except PyErr Unit :=
  if clear && (fs.dir v a).isNone then ([], .error .fileNotFoundError)
  else
    let prepare := if clear then touClear v a ++ touClear v a else if (fs.dir v a).isNone then [.mkdir v a] else []
    if survey || (!clear && (fs.zip a).isSome) then (prepare, .ok ())
    else touDownload v a prepare reply

/-- A file of a folder. (`tou_loader.py:46-95`) -/
def TouFiles.file (fs : TouFiles C) (v : Option Str) (a name : Str) : DiskFile C := (fs.dir v a).bind fun d => d name

/-- A load method, such as `load_tpm`, `tou_loader.py:46-95`: the changes of the disk and the data. `name` is the file of the data, `parse` is what is computed from the survey, for which the module `parser.py` is imported; without the survey
this raises an `Exception` (`parser.py:20-30`). The data cannot be saved in a folder that does not exist. The legend is not modelled. -/
def touLoad (parse : Option (Str → Str → Except PyErr C)) (fs : TouFiles C) (v : Option Str) (a name : Str) : List (TouWrite C) × Except PyErr C :=
  match fs.file v a name with
  | some (some c) => ([], .ok c)
  | some none => ([], .error .badFile)
  | none =>
    match parse with
    | none => ([], .error .exception)
    | some parse =>
      match parse a name with
      | .error e => ([], .error e)
      | .ok c => if (fs.dir v a).isNone then ([], .error .fileNotFoundError) else ([.file v a name none, .file v a name (some c)], .ok c)

/-- What processes do with the dataset; `stop` is the number of changes of the disk after which the process is interrupted, `none` when it is not. (`GermanTOU/loader.py:71-85`, `tou_loader.py:46-95`) -/
inductive TouEvent (C : Type) where
  | create (v : Option Str) (a : Str) (clear : Bool) (reply : Except PyErr (Archive C)) (stop : Option Nat)
  | load (v : Option Str) (a name : Str) (stop : Option Nat)

/-- The disk after an event. (`GermanTOU/loader.py:71-151`, `tou_loader.py:46-95`) -/
def TouEvent.apply (parse : Option (Str → Str → Except PyErr C)) (fs : TouFiles C) : TouEvent C → TouFiles C
  | .create v a clear reply stop => (doneUntil stop (touCreate parse.isSome fs v a clear reply).1).foldl TouWrite.apply fs
  | .load v a name stop => (doneUntil stop (touLoad parse fs v a name).1).foldl TouWrite.apply fs

/-- The disk after a history. (`GermanTOU/loader.py:71-151`) -/
def touAfter (parse : Option (Str → Str → Except PyErr C)) (hist : List (TouEvent C)) : TouFiles C := hist.foldl (TouEvent.apply parse) TouFiles.none

end Survey

/-! ## Tracebase -/

section Trace
variable {R P : Type}

/-- The types of profiles, `tracebase/loader.py:133-138`; for others there is a `NotImplementedError`. -/
inductive ProfileKind where
  | full
  | switchedOn
  deriving DecidableEq

/-- The files of the dataset: the archive, the unpacked files, and the parsed profiles by version, whole seconds of the step size and type of profiles. (`tracebase/loader.py:96-131`, `base_loader.py:466`) -/
structure TraceFiles (R P : Type) where
  zip : DiskFile (Archive R)
  raw : Str → DiskFile R
  parsed : Str → Int → ProfileKind → DiskFile P

/-- A disk without files. (`tracebase/loader.py:96-131`) -/
def TraceFiles.none : TraceFiles R P := ⟨Option.none, fun _ => Option.none, fun _ _ _ => Option.none⟩

/-- A change of the disk. (`tracebase/loader.py:117-131`, `base_loader.py:126-127,489`) -/
inductive TraceWrite (R P : Type) where
  | zip (file : DiskFile (Archive R))
  | raw (name : Str) (content : Option R)
  | clear (version : Str) (seconds : Int)
  | parsed (version : Str) (seconds : Int) (kind : ProfileKind) (content : Option P)

/-- The effect of a change. (`tracebase/loader.py:117-131`, `base_loader.py:126-127,489`) -/
def TraceWrite.apply (fs : TraceFiles R P) : TraceWrite R P → TraceFiles R P
  | .zip f => { fs with zip := f }
  | .raw n c => { fs with raw := fun n' => if n' = n then some c else fs.raw n' }
  | .clear v s => { fs with parsed := fun v' s' k => if v' = v ∧ s' = s then Option.none else fs.parsed v' s' k }
  | .parsed v s k c => { fs with parsed := fun v' s' k' => if v' = v ∧ s' = s ∧ k' = k then some c else fs.parsed v' s' k' }

/-- The seconds in the name of the folder, `int(step_size.total_seconds())`; the step size is in microseconds. (`tracebase/loader.py:109-111`) -/
def folderSeconds (step : Int) : Int := step.tdiv 1000000

/-- The download, `tracebase/loader.py:121-131`, after the changes `before`. Files that are not in the new archive stay on the disk (`extractall`). -/
def traceDownload (before : List (TraceWrite R P)) : Except PyErr (Archive R) → List (TraceWrite R P) × Except PyErr Unit
  | .error e => (before, .error e)
  | .ok archive => (before ++ [.zip (some none), .zip (some (some archive))] ++ archive.flatMap (fun q => [.raw q.1 none, .raw q.1 (some q.2)]), .ok ())

/-- `Tracebase(version, clear_parsed_data, update_raw_data, step_size)`, `tracebase/loader.py:96-131`: the changes of the disk and the outcome. `reply` is what the server sends. `os.remove` raises `FileNotFoundError` when there is no
archive. -/
def traceCreate (fs : TraceFiles R P) (version : Str) (step : Int) (clear update : Bool) (reply : Except PyErr (Archive R)) : List (TraceWrite R P) × Except PyErr Unit :=
  let cleared := if clear || update then [.clear version (folderSeconds step)] else []
  if update && fs.zip.isNone then (cleared, .error .fileNotFoundError)
  else
    let removed := if update then [.zip none] else []
    if fs.zip.isSome && !update then (cleared, .ok ())
    else traceDownload (cleared ++ removed) reply

/-- `load_real_profiles_dict`, `base_loader.py:446-491`: a file that is not there is made of the data `parsed`, computed with the changes `before`. -/
def traceSave (before : List (TraceWrite R P)) (version : Str) (seconds : Int) (kind : ProfileKind) : Except PyErr P → List (TraceWrite R P) × Except PyErr P
  | .error e => (before, .error e)
  | .ok p => (before ++ [.parsed version seconds kind none, .parsed version seconds kind (some p)], .ok p)

/-- `load_real_profiles_dict('full')`, `base_loader.py:446-491`: the changes of the disk and the profiles. `parse seconds files` is what is computed from the unpacked files (`tracebase/loader.py:133-203`). -/
def traceFull (parse : Int → (Str → DiskFile R) → Except PyErr P) (fs : TraceFiles R P) (version : Str) (seconds : Int) : List (TraceWrite R P) × Except PyErr P :=
  match fs.parsed version seconds .full with
  | some (some p) => ([], .ok p)
  | some none => ([], .error .badFile)
  | none => traceSave [] version seconds .full (parse seconds fs.raw)

/-- `load_real_profiles_dict(kind)`, `base_loader.py:446-491`. The profiles of appliances switched on are cut, by `crop`, from the full ones, which are loaded (`tracebase/loader.py:207-252`). -/
def traceLoad (parse : Int → (Str → DiskFile R) → Except PyErr P) (crop : P → Except PyErr P) (fs : TraceFiles R P) (version : Str) (step : Int) : ProfileKind → List (TraceWrite R P) × Except PyErr P
  | .full => traceFull parse fs version (folderSeconds step)
  | .switchedOn =>
    match fs.parsed version (folderSeconds step) .switchedOn with
    | some (some p) => ([], .ok p)
    | some none => ([], .error .badFile)
    | none => traceSave (traceFull parse fs version (folderSeconds step)).1 version (folderSeconds step) .switchedOn ((traceFull parse fs version (folderSeconds step)).2.bind crop)

/-- What processes do with the dataset; `stop` as above. (`tracebase/loader.py:96-131`, `base_loader.py:446-491`) -/
inductive TraceEvent (R : Type) where
  | create (version : Str) (step : Int) (clear update : Bool) (reply : Except PyErr (Archive R)) (stop : Option Nat)
  | load (version : Str) (step : Int) (kind : ProfileKind) (stop : Option Nat)

/-- The disk after an event. (`tracebase/loader.py:96-131`, `base_loader.py:446-491`) -/
def TraceEvent.apply (parse : Int → (Str → DiskFile R) → Except PyErr P) (crop : P → Except PyErr P) (fs : TraceFiles R P) : TraceEvent R → TraceFiles R P
  | .create version step clear update reply stop => (doneUntil stop (traceCreate fs version step clear update reply).1).foldl TraceWrite.apply fs
  | .load version step kind stop => (doneUntil stop (traceLoad parse crop fs version step kind).1).foldl TraceWrite.apply fs

/-- The disk after a history. (`tracebase/loader.py:96-131`) -/
def traceAfter (parse : Int → (Str → DiskFile R) → Except PyErr P) (crop : P → Except PyErr P) (hist : List (TraceEvent R)) : TraceFiles R P := hist.foldl (TraceEvent.apply parse crop) TraceFiles.none

end Trace
end Demod
