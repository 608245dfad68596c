import Verif.Model.Ninja

/-!
# Specification: the climate data that was downloaded last
-/

namespace Demod

/-- The country codes: three countries have a name, every text of two letters is a code. -/
inductive HasCode : Str → Str → Prop
  | germany : HasCode "germany".toList "DE".toList
  | switzerland : HasCode "switzerland".toList "CH".toList
  | england : HasCode "england".toList "GB".toList
  | code (a b : Char) : HasCode [a, b] [a, b]

/-- The event asks the server for the file of this code and weighting, unless it is on the disk, and the server answers. -/
def Fetches (code w : Str) (e : NinjaEvent) : Prop :=
  ∃ country update rows stop, e = .create country update w (some rows) stop ∧ HasCode country code

/-- The event asks the server for a new file of this code and weighting, and the server answers. -/
def Renews (code w : Str) (e : NinjaEvent) : Prop :=
  ∃ country rows stop, e = .create country true w (some rows) stop ∧ HasCode country code

/-- `rows` is what the server sent in the last download of this code and weighting, and this download was not interrupted. Without `update_raw_data=True` there is a download only when there was none before. -/
def LastDownload (hist : List NinjaEvent) (code w : Str) (rows : List NinjaRow) : Prop :=
  ∃ before country update after, hist = before ++ NinjaEvent.create country update w (some rows) none :: after ∧ HasCode country code ∧
    (update = false → ∀ e ∈ before, ¬ Fetches code w e) ∧ ∀ e ∈ after, ¬ Renews code w e

/-- The event was not interrupted. -/
def Uninterrupted (e : NinjaEvent) : Prop :=
  (∃ country update w reply, e = .create country update w reply none) ∨ ∃ country w, e = .load country w none

/-- The country and the weighting of the loader of the event. -/
def UsesLoader (e : NinjaEvent) (country w : Str) : Prop :=
  (∃ update reply stop, e = .create country update w reply stop) ∨ ∃ stop, e = .load country w stop

/-- The entry of the table of a row: what the loader gives for the time of the row. -/
def EntryOf (r : NinjaRow) (x : Int × NinjaPoint) : Prop :=
  x.1 = r.time ∧ x.2.precipitation = r.precipitation ∧ x.2.snowfall = r.snowfall ∧ x.2.snowMass = r.snowMass ∧ x.2.clearness = r.cloudCover ∧
    x.2.airDensity = r.airDensity ∧ x.2.outsideTemperature = r.temperature ∧ x.2.irradiance = r.irradianceSurface + r.irradianceToa

/-- The load returns what there is for these rows: the entries of the rows from the one before the start on, or the error for a start after the data, or for no data. -/
def Gives (rows : List NinjaRow) (start : Int) (result : Except PyErr (History NinjaPoint)) : Prop :=
  (rows = [] ∧ result = .error .indexError) ∨
  (∃ last, rows.getLast? = some last ∧ last.time < start ∧ result = .error .valueError) ∨
  (∃ last table, rows.getLast? = some last ∧ start ≤ last.time ∧ result = .ok table ∧ List.Forall₂ EntryOf (rows.filter fun r => start < r.time + HOUR) table)

/-- The rows are hourly. -/
def Hourly (d0 : Int) (rows : List NinjaRow) : Prop := ∀ (k : Nat) (r : NinjaRow), rows[k]? = some r → r.time = d0 + k * HOUR

end Demod
