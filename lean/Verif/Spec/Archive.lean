import Verif.Model.Archive

/-!
# Specification: the archive that was downloaded last
-/

namespace Demod
section Survey
variable {C : Type}

/-- The event is about the activity type. -/
def TouEvent.about : TouEvent C → Str
  | .create _ a _ _ _ => a
  | .load _ a _ _ => a

/-- The version of the loader of the event. -/
def TouEvent.version : TouEvent C → Option Str
  | .create v _ _ _ _ => v
  | .load v _ _ _ => v

/-- The process is interrupted. -/
def TouEvent.Cut : TouEvent C → Prop
  | .create _ _ _ _ stop => stop ≠ none
  | .load _ _ _ stop => stop ≠ none

/-- The event clears the parsed data. -/
def TouEvent.Clears : TouEvent C → Prop
  | .create _ _ clear _ _ => clear = true
  | .load _ _ _ _ => False

/-- What there should be for an activity type when the survey itself is not there. -/
inductive Hosted (C : Type) where
  /-- no loader was created -/
  | never
  /-- the data could not be downloaded -/
  | nothing
  /-- the data of this archive -/
  | archive (files : Archive C)

/-- A reply of the server. -/
def Hosted.ofReply : Except PyErr (Archive C) → Hosted C
  | .error _ => .nothing
  | .ok files => .archive files

/-- The effect of a creation on it: a download when there is no data, or after clearing, which needs a former creation. -/
def Hosted.create (clear : Bool) (reply : Except PyErr (Archive C)) : Hosted C → Hosted C
  | .never => if clear then .never else .ofReply reply
  | .nothing => .ofReply reply
  | .archive files => if clear then .ofReply reply else .archive files

/-- The effect of an event on what there should be for the activity type `a`. -/
def Hosted.event (a : Str) (h : Hosted C) : TouEvent C → Hosted C
  | .create _ a' clear reply _ => if a' = a then h.create clear reply else h
  | .load _ _ _ _ => h

/-- What there should be after a history. -/
def hostedAfter (a : Str) (hist : List (TouEvent C)) : Hosted C := hist.foldl (Hosted.event a) .never

/-- The outcome of a load when this is there: the data of the archive, and an error for data that is not in it. -/
def Hosted.Gives (h : Hosted C) (name : Str) (result : Except PyErr C) : Prop :=
  match h with
  | .archive files => (∀ c, (name, c) ∈ files → result = .ok c) ∧ ((∀ c, (name, c) ∉ files) → result = .error .exception)
  | _ => result = .error .exception

/-- The outcome of a creation when this is there: data that was never there cannot be cleared, and an error of the server is passed on when the data is needed. -/
def Hosted.outcome (h : Hosted C) (clear : Bool) (reply : Except PyErr (Archive C)) : Except PyErr Unit :=
  match h, clear with
  | .never, true => .error .fileNotFoundError
  | .archive _, false => .ok ()
  | _, _ => reply.map fun _ => ()

/-- An archive has each name once. -/
def OneEach {C : Type} (files : Archive C) : Prop := (files.map (·.1)).Nodup

/-- Archives the server sends are proper. -/
def TouEvent.Proper : TouEvent C → Prop
  | .create _ _ _ (.ok files) _ => OneEach files
  | _ => True

end Survey

section Trace
variable {R : Type}

/-- The process is interrupted. -/
def TraceEvent.Cut : TraceEvent R → Prop
  | .create _ _ _ _ _ stop => stop ≠ none
  | .load _ _ _ stop => stop ≠ none

/-- The event asks for an update of the raw data with a loader of this version and of a step size with these whole seconds, and the server answers; or it is not an update. -/
def TraceEvent.UpdatesOnly (version : Str) (seconds : Int) : TraceEvent R → Prop
  | .create v step _ update reply _ => update = true → v = version ∧ 0 ≤ step ∧ step / 1000000 = seconds ∧ ∃ files, reply = .ok files
  | .load _ _ _ _ => True

/-- The server sends this archive when a loader is created. -/
def TraceEvent.Sends (files : Archive R) : TraceEvent R → Prop
  | .create _ _ _ _ reply _ => reply = .ok files
  | .load _ _ _ _ => False

/-- The archive that was downloaded last: the first one, or the one of the last update. An update needs a former download; after an update that failed the next creation downloads. -/
def traceArchive (last : Option (Archive R)) : TraceEvent R → Option (Archive R)
  | .create _ _ _ update reply _ =>
    match last, reply with
    | none, .ok files => if update then none else some files
    | none, .error _ => none
    | some _, .ok files => if update then some files else last
    | some _, .error _ => if update then none else last
  | .load _ _ _ _ => last

/-- The archive that was downloaded last in a history. -/
def lastArchive (hist : List (TraceEvent R)) : Option (Archive R) := hist.foldl traceArchive none

/-- The files of an archive, all complete. -/
def filesOf (files : Archive R) : Str → DiskFile R := fun n => (files.lookup n).map some

/-- The names of the files of an archive. -/
def namesOf (files : Archive R) : List Str := files.map (·.1)

/-- The profiles computed from files. -/
def profilesOf {P : Type} (parse : Int → (Str → DiskFile R) → Except PyErr P) (crop : P → Except PyErr P) (kind : ProfileKind) (seconds : Int) (files : Str → DiskFile R) : Except PyErr P :=
  match kind with
  | .full => parse seconds files
  | .switchedOn => (parse seconds files).bind crop

end Trace
end Demod
