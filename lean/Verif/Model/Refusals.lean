import Verif.Model.Py

/-! # Refused requests of the loaders (`demod/datasets`, `demod/utils/error_messages.py`)

The messages are made with `str.format`, which itself raises for fields without a value. Fields are `{}` or `{name}`: numbers, attributes, conversions, format specifications and doubled braces are not
modelled, the templates have none of them. -/

namespace Demod

/-- An exception with its message; those raised by `str.format` itself have no message here. (`Germany/loader.py:176-189`) -/
structure Raised where
  cls : PyErr
  message : Option (List Char)
deriving DecidableEq

/-- The value of a field: the next positional argument for an empty name, else the keyword argument. (`error_messages.py:28-45`) -/
def fieldValue (args : List (List Char)) (kw : List (List Char × List Char)) (name : List Char) (n : Nat) : Except PyErr (List Char) :=
  if name = [] then
    match args[n]? with
    | some v => .ok v
    | none => .error .indexError
  else
    match kw.find? fun p => p.1 = name with
    | some p => .ok p.2
    | none => .error .keyError

/-- `template.format(*args, **kw)`, from left to right: the rest of the template, the name of the field that is being read and the number of `{}` before. (`error_messages.py:28-45`, `Germany/loader.py:184-188`) -/
def strFormat (args : List (List Char)) (kw : List (List Char × List Char)) : List Char → Option (List Char) → Nat → Except PyErr (List Char)
  | [], none, _ => .ok []
  | [], some _, _ => .error .valueError
  | c :: cs, none, n =>
    if c = '{' then strFormat args kw cs (some []) n
    else if c = '}' then .error .valueError
    else do
      let r ← strFormat args kw cs none n
      .ok (c :: r)
  | c :: cs, some f, n =>
    if c = '}' then do
      let v ← fieldValue args kw f n
      let r ← strFormat args kw cs none (if f = [] then n + 1 else n)
      .ok (v ++ r)
    else strFormat args kw cs (some (f ++ [c])) n

/-- `raise cls(template.format(*args, **kw))`. (`Germany/loader.py:184-188`) -/
def raiseFormat (cls : PyErr) (template : List Char) (args : List (List Char)) (kw : List (List Char × List Char)) : Raised :=
  match strFormat args kw template none 0 with
  | .ok m => ⟨cls, some m⟩
  | .error e => ⟨e, none⟩

/-- `GermanDataHerus._parse_fisher_lighting`, `Germany/loader.py:176-189`: the two thresholds and the power; `name` is the name of the class. -/
def germanFisher (version name : List Char) : Except Raised (Nat × Nat × Nat) :=
  if version = "v0.1".toList then .ok (30, 60, 12)
  else .error (raiseFormat .notImplementedError "'_parse_fisher_lighting' is not implemented for {}, version '{}'.".toList [name] [])

/-- `Crest._parse_population_subgroups`, `CREST/loader.py:112-159`, for the population type; what is read from the file is a parameter, `name` is the text of the loader. -/
def crestPopulation {α : Type} (read : Except Raised α) (populationType name : List Char) : Except Raised α :=
  if populationType = "crest".toList ∨ populationType = "resident_number".toList then read
  else .error (raiseFormat .valueError "Unkown population type '{population_type}' for dataset {dataset}.".toList [populationType, name] [])

/-- `GTOU._parse_sparse_tpm`, `GermanTOU/loader.py:224-238`; what the parser gives is a parameter. -/
def gtouSparse {α : Type} (parse : Except Raised α) (activityType datasetName : List Char) : Except Raised α :=
  if activityType = "Sparse9States".toList then parse
  else .error (raiseFormat .notImplementedError "No sparse parsing defined for'{}' in dataset '{}'".toList [activityType, datasetName] [])

/-- The version check of `Crest._parse_heating_system_dict`, `CREST/loader.py:629-647`: the number of rows to read; `method` and `name` are the texts of the method and of the loader. -/
def crestHeatingRows (version method name : List Char) : Except Raised Nat :=
  if version = "v_2.2".toList then .ok 3
  else if version = "v_2.3.3".toList then .ok 5
  else .error (raiseFormat .notImplementedError "{not_implemented} is not implemented for {dataset} version '{version}'.".toList []
    [("not_implemented".toList, method), ("dataset".toList, name), ("version".toList, version)])

end Demod
