import Verif.Model.Climate
import Verif.Model.Utils

/-!
# The files of the climate loaders (`demod/datasets/RenewablesNinja/loader.py`, `demod/datasets/OpenPowerSystems/loader.py`)

A loader downloads a csv file when it is created, and parses it into a `.npz` file when it is first asked for data. Both files stay on the disk for later processes. The downloads are replies of a server, which are
arbitrary; a process may be interrupted after any of its writes.
-/

namespace Demod

/-- The columns of a row of the csv file of renewables.ninja that the loader reads; the time is in microseconds. A row holds numbers: empty fields (`NaN`) are not modelled. (`RenewablesNinja/loader.py:143-166`) -/
structure NinjaRow where
  time : Int
  precipitation : Rat
  snowfall : Rat
  snowMass : Rat
  cloudCover : Rat
  airDensity : Rat
  temperature : Rat
  irradianceSurface : Rat
  irradianceToa : Rat
  deriving DecidableEq, Repr

/-- The values of one time in the dictionary of the loader. (`RenewablesNinja/loader.py:145-166`) -/
structure NinjaPoint where
  precipitation : Rat
  snowfall : Rat
  snowMass : Rat
  clearness : Rat
  airDensity : Rat
  outsideTemperature : Rat
  irradiance : Rat
  deriving DecidableEq, Repr

/-- The values of a row, `RenewablesNinja/loader.py:152-166`. -/
def ninjaPoint (r : NinjaRow) : NinjaPoint where
  precipitation := r.precipitation
  snowfall := r.snowfall
  snowMass := r.snowMass
  clearness := r.cloudCover
  airDensity := r.airDensity
  outsideTemperature := r.temperature
  irradiance := r.irradianceToa + r.irradianceSurface

/-- `_parse_historical_climate_data`, `RenewablesNinja/loader.py:143-166`: the columns are arrays in the order of the rows. -/
def ninjaParse (rows : List NinjaRow) : History NinjaPoint := rows.map fun r => (r.time, ninjaPoint r)

/-- A csv file on the disk: `none` when its header is not complete, otherwise its rows. A line that is cut in the middle is not modelled: a file that is being written holds whole rows. (`RenewablesNinja/loader.py:113-116`) -/
abbrev RawFile := Option (List NinjaRow)

/-- An `.npz` file on the disk: `none` when it cannot be read. (`base_loader.py:880-885`) -/
abbrev ParsedFile := Option (History NinjaPoint)

/-- The files of the dataset: the csv file of a country code and a weighting, and the file `historical_climate.npz` in the folder named as the country the loader was created with. Whether folders exist is not modelled.
(`RenewablesNinja/loader.py:69-90`) -/
structure NinjaFiles where
  raw : Str → Str → Option RawFile
  parsed : Str → Option ParsedFile

/-- A disk without files. (`RenewablesNinja/loader.py:69-78`) -/
def NinjaFiles.none : NinjaFiles := ⟨fun _ _ => Option.none, fun _ => Option.none⟩

/-- A change of the disk. (`RenewablesNinja/loader.py:113-120`, `base_loader.py:885`) -/
inductive NinjaWrite where
  | raw (code weighting : Str) (file : RawFile)
  | parsed (country : Str) (file : Option ParsedFile)

/-- The effect of a change. (`RenewablesNinja/loader.py:113-120`) -/
def NinjaWrite.apply (fs : NinjaFiles) : NinjaWrite → NinjaFiles
  | .raw code w file => { fs with raw := fun c w' => if c = code ∧ w' = w then some file else fs.raw c w' }
  | .parsed country file => { fs with parsed := fun c => if c = country then file else fs.parsed c }

/-- Several changes, in order. (`RenewablesNinja/loader.py:113-120`) -/
def applyWrites (fs : NinjaFiles) (ws : List NinjaWrite) : NinjaFiles := ws.foldl NinjaWrite.apply fs

/-- The country code of the loader, `RenewablesNinja/loader.py:83-86`. -/
def ninjaCode (country : Str) : Except PyErr Str :=
  if isCountryCode country then .ok country else countryCode country

/-- The changes of a download: the file is opened, which empties it, the reply is copied, and the parsed data of the country is removed. (`RenewablesNinja/loader.py:112-120`) -/
def downloadWrites (code country w : Str) (rows : List NinjaRow) : List NinjaWrite :=
  [NinjaWrite.raw code w none] ++ (List.range (rows.length + 1)).map (fun k => NinjaWrite.raw code w (some (rows.take k))) ++
    [NinjaWrite.parsed country none]

/-- `NinjaRenewablesClimate(country, update, weighting)`, `RenewablesNinja/loader.py:56-120`: the changes of the disk. `reply` is what the server sends: `none` when it cannot be reached (`URLError`). -/
def ninjaCreate (fs : NinjaFiles) (country : Str) (update : Bool) (w : Str) (reply : Option (List NinjaRow)) : Except PyErr (List NinjaWrite) := do
  let code ← ninjaCode country
  if (fs.raw code w).isSome && !update then
    return []
  else
    match reply with
    | none => .error .exception
    | some rows => return downloadWrites code country w rows

/-- The parsed data, which is read from the disk or parsed and written to it: the changes of the disk and the table. (`base_loader.py:880-885`) -/
def ninjaTable (fs : NinjaFiles) (country w : Str) : List NinjaWrite × Except PyErr (History NinjaPoint) :=
  match fs.parsed country with
  | some (some table) => ([], .ok table)
  | some none => ([], .error .badFile)
  | none =>
    match ninjaCode country with
    | .error e => ([], .error e)
    | .ok code =>
      match fs.raw code w with
      | none => ([], .error .fileNotFoundError)
      | some none => ([], .error .badFile)
      | some (some rows) => ([.parsed country (some none), .parsed country (some (some (ninjaParse rows)))], .ok (ninjaParse rows))

/-- `load_historical_climate_data`, `base_loader.py:852-911`, of a loader created with the country and the weighting; `start` is in UTC. The data is hourly (`RenewablesNinja/loader.py:54`). -/
def ninjaLoad (fs : NinjaFiles) (country w : Str) (start : Int) : Except PyErr (History NinjaPoint) :=
  match (ninjaTable fs country w).2 with
  | .error e => .error e
  | .ok table => loadHistory HOUR start table

/-- What processes do with the dataset: they create a loader or load data with one. `stop` is the number of changes of the disk after which the process is interrupted, `none` when it is not. (`RenewablesNinja/loader.py:56-120`,
`base_loader.py:852-911`) -/
inductive NinjaEvent where
  | create (country : Str) (update : Bool) (w : Str) (reply : Option (List NinjaRow)) (stop : Option Nat)
  | load (country w : Str) (stop : Option Nat)

/-- The changes that are made when the process is interrupted. (`RenewablesNinja/loader.py:112-120`) -/
def madeWrites (stop : Option Nat) (ws : List NinjaWrite) : List NinjaWrite :=
  match stop with
  | none => ws
  | some n => ws.take n

/-- The disk after an event. (`RenewablesNinja/loader.py:56-120`, `base_loader.py:852-911`) -/
def NinjaEvent.apply (fs : NinjaFiles) : NinjaEvent → NinjaFiles
  | .create country update w reply stop =>
    match ninjaCreate fs country update w reply with
    | .error _ => fs
    | .ok ws => applyWrites fs (madeWrites stop ws)
  | .load country w stop => applyWrites fs (madeWrites stop (ninjaTable fs country w).1)

/-- The disk after a history. (`RenewablesNinja/loader.py:56-120`) -/
def ninjaAfter (hist : List NinjaEvent) : NinjaFiles := hist.foldl NinjaEvent.apply NinjaFiles.none

/-! ## `OpenPowerSystems` -/

/-- The values of a country in a row of `weather_data.csv`. (`OpenPowerSystems/loader.py:60-73`) -/
structure PowerCell where
  temperature : Rat
  direct : Rat
  diffuse : Rat
  deriving DecidableEq, Repr

/-- A row of `weather_data.csv`: its time and, for the country codes that have columns, the values. (`OpenPowerSystems/loader.py:51-73`) -/
structure PowerFile where
  times : List Int
  columns : Str → Option (List PowerCell)

/-- The values of one time in the dictionary of the loader. (`OpenPowerSystems/loader.py:62-75`) -/
structure PowerPoint where
  outsideTemperature : Rat
  irradiance : Rat
  deriving DecidableEq, Repr

/-- `_parse_historical_climate_data`, `OpenPowerSystems/loader.py:44-77`. The columns of a csv file have one length. -/
def powerParse (f : PowerFile) (country : Str) : Except PyErr (History PowerPoint) := do
  let code ← countryCode country
  match f.columns code with
  | none => .error .keyError
  | some cells => return f.times.zip (cells.map fun c => ⟨c.temperature, c.diffuse + c.direct⟩)

end Demod
