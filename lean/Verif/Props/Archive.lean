import Verif.Lemmas.Archive

/-!
# C123, C124: the data of the archive that was downloaded last
-/

namespace Demod

/-! ## C123: the German time use survey -/

section Survey
variable {C : Type}

/-- **C123.** Without the survey itself, after any history in which the loaders of an activity type have one version and are not interrupted (those of other types may be anything), a load gives the data of the archive that was downloaded
last for this type, an error for data that is not in it, and a creation has the outcome it should have. -/
theorem C123_latest_partial (hist : List (TouEvent C)) (v : Option Str) (a : Str) (hc : ∀ e ∈ hist, e.about = a → ¬ e.Cut) (hp : ∀ e ∈ hist, e.about = a → e.Proper) (hv : ∀ e ∈ hist, e.about = a → e.version = v) :
    (∀ name, (hostedAfter a hist).Gives name (touLoad none (touAfter none hist) v a name).2) ∧
    ∀ clear reply, (touCreate false (touAfter none hist) v a clear reply).2 = (hostedAfter a hist).outcome clear reply := by
  have hi := inv_after hist v a hc hp hv
  exact ⟨fun name => inv_gives hi name, fun clear reply => inv_outcome hi clear reply⟩

/-- **C123, repair.** After any history, also with interruptions and several versions, a creation that clears the data and succeeds gives all the data of the archive, and so it stays as long as nobody clears the data of this type, whatever
else is created, loaded or interrupted. -/
theorem C123_clear_repairs (hist later : List (TouEvent C)) (v : Option Str) (a : Str) (files : Archive C) (ho : OneEach files) (hok : (touCreate false (touAfter none hist) v a true (.ok files)).2 = .ok ())
    (hl : ∀ e ∈ later, e.about = a → ¬ e.Clears) (name : Str) :
    (Hosted.archive files).Gives name (touLoad none (touAfter none (hist ++ [.create v a true (.ok files) none] ++ later)) v a name).2 := by
  obtain ⟨-, ⟨z, hz⟩, d, hd, hn⟩ := cleared_create (touAfter none hist) v a files ho hok
  have e : touAfter none (hist ++ [.create v a true (.ok files) none] ++ later) = later.foldl (TouEvent.apply none) (((touCreate false (touAfter none hist) v a true (.ok files)).1).foldl TouWrite.apply (touAfter none hist)) := by
    rw [touAfter, List.foldl_append]
    congr 1
    exact touAfter_snoc none hist _
  obtain ⟨h1, h2⟩ := kept_after _ v a d (by rw [hz]; rfl) hd later hl
  obtain ⟨z', hz'⟩ := Option.isSome_iff_exists.1 h1
  rw [e]
  exact inv_gives (h := .archive files) ⟨ho, ⟨z', hz'⟩, d, h2, hn⟩ name

/-- **C123, with the survey.** When the raw files of the survey are there, no archive is downloaded, creation without clearing always succeeds, and without interruptions a load gives what is computed from the survey, with any versions,
activity types and clearings before. -/
theorem C123_survey (parse : Str → Str → Except PyErr C) (hist : List (TouEvent C)) (hc : ∀ e ∈ hist, ¬ e.Cut) (v : Option Str) (a : Str) (reply : Except PyErr (Archive C)) (name : Str) :
    (touCreate true (touAfter (some parse) hist) v a false reply).2 = .ok () ∧ (∀ a', (touAfter (some parse) hist).zip a' = none) ∧
    (touLoad (some parse) (touAfter (some parse) (hist ++ [.create v a false reply none])) v a name).2 = parse a name := by
  have hi := survey_after parse hist hc
  refine ⟨by simp [touCreate], hi.1, ?_⟩
  rw [touAfter_snoc]
  have hi2 := survey_create parse _ hi v a false reply none
  obtain ⟨-, h⟩ := survey_load parse _ hi2 v a name
  have hd : ∃ d, ((doneUntil none (touCreate true (touAfter (some parse) hist) v a false reply).1).foldl TouWrite.apply (touAfter (some parse) hist)).dir v a = some d := by
    cases hd : (touAfter (some parse) hist).dir v a with
    | none =>
      refine ⟨fun _ => none, ?_⟩
      simp [touCreate, hd, doneUntil, TouWrite.apply]
    | some d =>
      refine ⟨d, ?_⟩
      simp [touCreate, hd, doneUntil]
  obtain ⟨d, hd⟩ := hd
  exact h d hd

/-- **C123, counterexample: versions.** The archive is kept for all the versions, but it is unpacked only for the first one: for another version nothing can be loaded. -/
theorem C123_version_counterexample (v v' : Option Str) (hv : v' ≠ v) (a : Str) (files : Archive C) (ho : OneEach files) (reply : Except PyErr (Archive C)) (name : Str) :
    (touCreate false (touAfter none [.create v a false (.ok files) none]) v' a false reply).2 = .ok () ∧
    (touLoad none (touAfter none [.create v a false (.ok files) none, .create v' a false reply none]) v' a name).2 = .error .exception := by
  obtain ⟨h1, h2, -⟩ := download_dir v a files ho ((TouWrite.mkdir v a).apply TouFiles.none) (fun _ => none) (by simp [TouWrite.apply])
  have e1 : touAfter none [.create v a false (.ok files) none] = ([TouWrite.zip a (some none), TouWrite.zip a (some (some files))] ++ touExtract v a files).foldl TouWrite.apply ((TouWrite.mkdir v a).apply TouFiles.none) := by
    simp [touAfter, TouEvent.apply, doneUntil, touCreate, TouFiles.none, touDownload]
  have hz : (touAfter none [.create v a false (.ok files) none]).zip a = some (some files) := by rw [e1]; exact h1
  have hd : (touAfter none [.create v a false (.ok files) none]).dir v' a = none := by
    rw [e1, h2 v' hv]
    simp [TouWrite.apply, TouFiles.none, hv]
  have e2 : (touCreate false (touAfter none [.create v a false (.ok files) none]) v' a false reply) = ([.mkdir v' a], .ok ()) := by
    simp [touCreate, hz, hd]
  refine ⟨by rw [e2], ?_⟩
  have e3 : touAfter none [.create v a false (.ok files) none, .create v' a false reply none] = (TouWrite.mkdir v' a).apply (touAfter none [.create v a false (.ok files) none]) := by
    have := touAfter_snoc none [TouEvent.create v a false (.ok files) none] (.create v' a false reply none)
    rw [List.singleton_append] at this
    rw [this]
    simp [TouEvent.apply, e2, doneUntil]
  rw [e3]
  simp [touLoad, TouFiles.file, TouWrite.apply]

/-- **C123, counterexample: an interruption.** When the process is interrupted while the archive is unpacked, the rest of the data cannot be loaded by any later loader, although their creation succeeds, unless the data is cleared. -/
theorem C123_interrupted_counterexample (v : Option Str) (a : Str) (done rest : Archive C) (ho : OneEach (done ++ rest)) (later : List (TouEvent C)) (hl : ∀ e ∈ later, e.about = a → ¬ e.Clears) (name : Str) (c : C) (hn : (name, c) ∈ rest) :
    let hist := TouEvent.create v a false (.ok (done ++ rest)) (some (3 + 2 * done.length)) :: later
    (∀ v' reply, (touCreate false (touAfter none hist) v' a false reply).2 = .ok ()) ∧ (touLoad none (touAfter none hist) v a name).2 = .error .exception := by
  intro hist
  have hod : OneEach done := by
    have := ho
    unfold OneEach at this ⊢
    rw [List.map_append] at this
    exact (List.nodup_append.1 this).1
  obtain ⟨h1, -, d, h3, h4⟩ := extract_dir v a done hod ((TouWrite.zip a (some (some (done ++ rest)))).apply ((TouWrite.zip a (some none)).apply ((TouWrite.mkdir v a).apply TouFiles.none))) (fun _ => none)
    (by simp [TouWrite.apply])
  have hlen : (touExtract v a done).length = 2 * done.length := by
    unfold touExtract
    rw [List.length_flatMap]
    simp
    omega
  have happ : touExtract v a (done ++ rest) = touExtract v a done ++ touExtract v a rest := by simp [touExtract]
  have e1 : touAfter none [TouEvent.create v a false (.ok (done ++ rest)) (some (3 + 2 * done.length))] =
      (touExtract v a done).foldl TouWrite.apply ((TouWrite.zip a (some (some (done ++ rest)))).apply ((TouWrite.zip a (some none)).apply ((TouWrite.mkdir v a).apply TouFiles.none))) := by
    have hw : doneUntil (some (3 + 2 * done.length)) (touCreate (C := C) false TouFiles.none v a false (.ok (done ++ rest))).1 = [.mkdir v a, .zip a (some none), .zip a (some (some (done ++ rest)))] ++ touExtract v a done := by
      have hc : (touCreate (C := C) false TouFiles.none v a false (.ok (done ++ rest))).1 = ([.mkdir v a, .zip a (some none), .zip a (some (some (done ++ rest)))] ++ touExtract v a done) ++ touExtract v a rest := by
        rw [List.append_assoc, ← happ]
        simp [touCreate, TouFiles.none, touDownload]
      rw [hc]
      unfold doneUntil
      refine (List.take_append_of_le_length ?_).trans (List.take_of_length_le ?_) <;> simp only [List.length_append, List.length_cons, List.length_nil, hlen] <;> omega
    simp only [touAfter, List.foldl_cons, List.foldl_nil, TouEvent.apply]
    have : (none : Option (Str → Str → Except PyErr C)).isSome = false := rfl
    rw [this, hw]
    simp [List.foldl_append]
  have hd0 : (touAfter none [TouEvent.create v a false (.ok (done ++ rest)) (some (3 + 2 * done.length))]).dir v a = some d := by rw [e1]; exact h3
  have hz0 : ((touAfter none [TouEvent.create v a false (.ok (done ++ rest)) (some (3 + 2 * done.length))]).zip a).isSome = true := by
    rw [e1, h1]
    simp [TouWrite.apply]
  obtain ⟨hz, hd⟩ := kept_after _ v a d hz0 hd0 later hl
  have e2 : touAfter none hist = later.foldl (TouEvent.apply none) (touAfter none [TouEvent.create v a false (.ok (done ++ rest)) (some (3 + 2 * done.length))]) := rfl
  rw [← e2] at hz hd
  refine ⟨fun v' reply => by simp [touCreate, hz], ?_⟩
  have hnd : done.lookup name = none := by
    refine (archive_lookup_none hod name).2 fun c' hc' => ?_
    unfold OneEach at ho
    rw [List.map_append] at ho
    exact (List.nodup_append.1 ho).2.2 name (List.mem_map.2 ⟨_, hc', rfl⟩) name (List.mem_map.2 ⟨_, hn, rfl⟩) rfl
  have hf : (touAfter none hist).file v a name = none := by
    unfold TouFiles.file
    rw [hd, Option.bind_some, h4 name, hnd]
  unfold touLoad
  rw [hf]

/-- **C123, counterexample: clearing without network.** Clearing removes the data before the new archive is asked for: when the server cannot be reached, the data is lost. -/
theorem C123_offline_counterexample (v : Option Str) (a : Str) (files : Archive C) (ho : OneEach files) (e : PyErr) (name : Str) :
    (touCreate false (touAfter none [.create v a false (.ok files) none]) v a true (.error e)).2 = .error e ∧
    (touLoad none (touAfter none [.create v a false (.ok files) none, .create v a true (.error e) none]) v a name).2 = .error .exception := by
  have h1 := (C123_latest_partial [.create v a false (.ok files) none] v a (by simp [TouEvent.Cut]) (by simpa [TouEvent.Proper] using fun _ => ho) (by simp [TouEvent.version])).2 true (.error e)
  have h2 := (C123_latest_partial [.create v a false (.ok files) none, .create v a true (.error e) none] v a (by simp [TouEvent.Cut]) (by simpa [TouEvent.Proper] using fun _ => ho) (by simp [TouEvent.version])).1 name
  refine ⟨?_, ?_⟩
  · rw [h1]
    simp [hostedAfter, Hosted.event, Hosted.create, Hosted.ofReply, Hosted.outcome, Except.map]
  · simpa [hostedAfter, Hosted.event, Hosted.create, Hosted.ofReply, Hosted.Gives] using h2

/-- **C123, counterexample: an interrupted load.** With the survey, a process that is interrupted while it saves what it computed leaves a file that later loaders cannot read. -/
theorem C123_interrupted_load_counterexample (parse : Str → Str → Except PyErr C) (v : Option Str) (a name : Str) (c : C) (hp : parse a name = .ok c) (reply reply' : Except PyErr (Archive C)) :
    (touLoad (some parse) (touAfter (some parse) [.create v a false reply none, .load v a name (some 1), .create v a false reply' none]) v a name).2 = .error .badFile := by
  simp [touAfter, TouEvent.apply, doneUntil, touCreate, TouFiles.none, TouWrite.apply, touLoad, TouFiles.file, hp]

/-- **C123, counterexample: clearing at first.** A first loader that clears the data cannot be created, whatever the server sends. -/
theorem C123_first_clear_counterexample (v : Option Str) (a : Str) (reply : Except PyErr (Archive C)) : (touCreate false (TouFiles.none : TouFiles C) v a true reply).2 = .error .fileNotFoundError := by
  simp [touCreate, TouFiles.none]

end Survey

/-- The full statement of C123: when the server always sends the same archive or cannot be reached, a loader that was created gives the data of the archive. -/
def C123_full : Prop :=
  ∀ (C : Type) (files : Archive C) (hist : List (TouEvent C)) (v : Option Str) (a : Str) (clear : Bool) (reply : Except PyErr (Archive C)), OneEach files →
    (∀ e ∈ hist, ∀ v' clear' reply' stop, e = .create v' a clear' reply' stop → reply' = .ok files ∨ ∃ err, reply' = .error err) → (reply = .ok files ∨ ∃ err, reply = .error err) →
    (touCreate false (touAfter none hist) v a clear reply).2 = .ok () → ∀ name, (Hosted.archive files).Gives name (touLoad none (touAfter none (hist ++ [.create v a clear reply none])) v a name).2

theorem C123_full_fails : ¬ C123_full := by
  intro h
  have hone : OneEach [("1_residents".toList, (5 : Nat))] := by unfold OneEach; decide
  obtain ⟨h1, h2⟩ := C123_version_counterexample none (some "v1".toList) (by decide) "4_States".toList [("1_residents".toList, (5 : Nat))] hone (.ok [("1_residents".toList, 5)]) "1_residents".toList
  have h3 := h Nat [("1_residents".toList, 5)] [.create none "4_States".toList false (.ok [("1_residents".toList, 5)]) none] (some "v1".toList) "4_States".toList false (.ok [("1_residents".toList, 5)]) hone
    (by
      intro e he v' clear' reply' stop h
      rw [List.mem_singleton.1 he] at h
      injection h with _ _ _ h
      exact .inl h.symm)
    (.inl rfl) h1 "1_residents".toList
  have h4 := h3.1 5 (List.mem_singleton.2 rfl)
  rw [List.singleton_append, h2] at h4
  cases h4

/-- The hypotheses of the theorem are met by a history in which the data is downloaded, loaded, cleared and downloaded again, with a loader of another type that is interrupted; the data of the second archive is loaded. -/
example :
    let hist : List (TouEvent Nat) := [.create none "A".toList false (.ok [("x".toList, 1), ("y".toList, 2)]) none, .load none "A".toList "x".toList none, .create (some "v".toList) "B".toList false (.ok [("x".toList, 7)]) (some 2),
      .create none "A".toList true (.ok [("x".toList, 3)]) none]
    (∀ e ∈ hist, e.about = "A".toList → ¬ e.Cut) ∧ (∀ e ∈ hist, e.about = "A".toList → e.Proper) ∧ (∀ e ∈ hist, e.about = "A".toList → e.version = none) ∧ (∃ e ∈ hist, e.Cut) ∧
    (touLoad none (touAfter none hist) none "A".toList "x".toList).2 = .ok 3 ∧ (touLoad none (touAfter none hist) none "A".toList "y".toList).2 = .error .exception := by
  refine ⟨?_, ?_, ?_, ⟨_, List.mem_cons_of_mem _ (List.mem_cons_of_mem _ (List.mem_cons_self ..)), by simp [TouEvent.Cut]⟩, by decide +kernel, by decide +kernel⟩
  all_goals
    intro e he h
    simp only [List.mem_cons, List.not_mem_nil, or_false] at he
    rcases he with rfl | rfl | rfl | rfl <;> first | exact absurd h (by decide) | (simp [TouEvent.Cut, TouEvent.Proper, TouEvent.version, OneEach])

/-! ## C124: tracebase -/

section Trace
variable {R P : Type} {parse : Int → (Str → DiskFile R) → Except PyErr P} {crop : P → Except PyErr P}

/-- **C124.** After any history without interruptions in which only loaders of one version and step size (in whole seconds) update the raw data, each time with success, and in which the archive always has the same file names, loading with
this version and step size gives the profiles computed from the archive that was downloaded last, whatever loaders of other versions and step sizes do. Without download there is an error. -/
theorem C124_latest_partial (hp : ∀ s, ∃ e, parse s (fun _ => none) = .error e) (names : List Str) (hist : List (TraceEvent R)) (version : Str) (step : Int) (hs : 0 ≤ step) (hc : ∀ e ∈ hist, ¬ e.Cut)
    (hu : ∀ e ∈ hist, e.UpdatesOnly version (step / 1000000)) (hn : ∀ e ∈ hist, ∀ files, e.Sends files → OneEach files ∧ ∀ n, n ∈ namesOf files ↔ n ∈ names) (kind : ProfileKind) :
    (∀ files, lastArchive hist = some files → (traceLoad parse crop (traceAfter parse crop hist) version step kind).2 = profilesOf parse crop kind (step / 1000000) (filesOf files)) ∧
    (lastArchive hist = none → ∃ e, (traceLoad parse crop (traceAfter parse crop hist) version step kind).2 = .error e) := by
  have hi := trace_inv (crop := crop) hp names version (step / 1000000) hist hc hu hn
  have hf := folderSeconds_nonneg hs
  constructor
  · intro files h
    rw [h] at hi
    obtain ⟨-, -, -, h3, h4⟩ := hi
    rw [load_result (by rw [hf, h3]; exact h4), h3, hf]
  · intro h
    rw [h] at hi
    obtain ⟨-, h2, h3⟩ := hi
    rw [load_result (by rw [hf]; exact fun k => .inl (h3 k)), h2, hf]
    obtain ⟨e, he⟩ := hp (step / 1000000)
    cases kind with
    | full => exact ⟨e, he⟩
    | switchedOn => exact ⟨e, by unfold profilesOf; rw [he]; rfl⟩

/-- The unpacked files come from the archives that were sent. -/
theorem raw_sent (hist : List (TraceEvent R)) (n : Str) (h : (traceAfter parse crop hist).raw n ≠ none) : ∃ e ∈ hist, ∃ files, e.Sends files ∧ n ∈ namesOf files := by
  have hw : ∀ (ws : List (TraceWrite R P)) (fs : TraceFiles R P), (ws.foldl TraceWrite.apply fs).raw n ≠ none → fs.raw n ≠ none ∨ ∃ c, TraceWrite.raw n c ∈ ws := by
    intro ws
    induction ws with
    | nil => intro fs h; exact .inl h
    | cons w ws ih =>
      intro fs h
      rcases ih _ h with h | ⟨c, hc⟩
      · cases w with
        | raw n' c =>
          by_cases hn : n = n'
          · subst hn
            exact .inr ⟨c, List.mem_cons_self ..⟩
          · simp only [TraceWrite.apply, hn, if_false] at h
            exact .inl h
        | zip f => exact .inl h
        | clear v s => exact .inl h
        | parsed v s k c => exact .inl h
      · exact .inr ⟨c, List.mem_cons_of_mem _ hc⟩
  induction hist using List.reverseRecOn with
  | nil => exact absurd rfl h
  | append_singleton hist e ih =>
    rw [traceAfter_snoc] at h
    have old : (traceAfter parse crop hist).raw n ≠ none → ∃ e' ∈ hist ++ [e], ∃ files, e'.Sends files ∧ n ∈ namesOf files := by
      intro h
      obtain ⟨e', he', hf⟩ := ih h
      exact ⟨e', List.mem_append_left _ he', hf⟩
    cases e with
    | load v step kind stop =>
      refine old ?_
      simp only [TraceEvent.apply] at h
      rw [(load_keeps (traceAfter parse crop hist) v step kind stop).2] at h
      exact h
    | create v step clear update reply stop =>
      rcases hw _ _ h with h | ⟨c, hc⟩
      · exact old h
      · have hc := doneUntil_mem hc
        refine ⟨_, List.mem_append_right _ (List.mem_singleton.2 rfl), ?_⟩
        have hpre : ∀ c, TraceWrite.raw n c ∉ ((if clear || update then [.clear v (folderSeconds step)] else []) : List (TraceWrite R P)) := by
          intro c
          split <;> simp
        have hpre2 : ∀ c, TraceWrite.raw n c ∉ ((if update then [.zip none] else []) : List (TraceWrite R P)) := by
          intro c
          split <;> simp
        unfold traceCreate at hc
        dsimp only at hc
        split at hc
        · exact absurd hc (hpre c)
        · split at hc
          · exact absurd hc (hpre c)
          · cases reply with
            | error e =>
              rcases List.mem_append.1 hc with hc | hc
              · exact absurd hc (hpre c)
              · exact absurd hc (hpre2 c)
            | ok files =>
              refine ⟨files, rfl, ?_⟩
              rcases List.mem_append.1 hc with hc | hc
              · rcases List.mem_append.1 hc with hc | hc
                · rcases List.mem_append.1 hc with hc | hc
                  · exact absurd hc (hpre c)
                  · exact absurd hc (hpre2 c)
                · simp at hc
              · obtain ⟨q, hq, hc⟩ := List.mem_flatMap.1 hc
                have : n = q.1 := by
                  simp only [List.mem_cons, List.not_mem_nil, or_false] at hc
                  rcases hc with hc | hc <;> injection hc
                rw [this]
                exact List.mem_map.2 ⟨q, hq, rfl⟩

/-- **C124, repair.** After any history, also with interruptions, an update that succeeds gives the profiles of the new archive for its version and step size, when it has all the file names of the former ones. -/
theorem C124_update_repairs (hist : List (TraceEvent R)) (version : Str) (step : Int) (hs : 0 ≤ step) (clear : Bool) (files : Archive R) (ho : OneEach files)
    (hn : ∀ e ∈ hist, ∀ old, e.Sends old → ∀ n ∈ namesOf old, n ∈ namesOf files) (hok : (traceCreate (traceAfter parse crop hist) version step clear true (.ok files)).2 = .ok ()) (kind : ProfileKind) :
    (traceLoad parse crop (traceAfter parse crop (hist ++ [.create version step clear true (.ok files) none])) version step kind).2 = profilesOf parse crop kind (step / 1000000) (filesOf files) := by
  have hz : (traceAfter parse crop hist).zip.isSome = true := by
    cases hz : (traceAfter parse crop hist).zip with
    | none =>
      unfold traceCreate at hok
      simp [hz] at hok
    | some z => rfl
  obtain ⟨-, h1, h2, h3⟩ := download_trace (traceAfter parse crop hist) version step clear true files ho hz
  rw [traceAfter_snoc]
  have hraw : ((TraceEvent.create version step clear true (.ok files) none).apply parse crop (traceAfter parse crop hist)).raw = filesOf files := by
    funext n
    simp only [TraceEvent.apply, doneUntil]
    rw [h2 n]
    unfold filesOf
    cases hl : files.lookup n with
    | some c => rfl
    | none =>
      by_contra hne
      obtain ⟨e, he, old, hs, hm⟩ := raw_sent hist n hne
      obtain ⟨q, hq, hqn⟩ := List.mem_map.1 (hn e he old hs n hm)
      subst hqn
      exact (archive_lookup_none ho q.1).1 hl q.2 hq
  rw [load_result, hraw, folderSeconds_nonneg hs]
  intro k
  left
  simp only [TraceEvent.apply, doneUntil]
  rw [h3, if_pos ⟨by simp, rfl, rfl⟩]

/-- **C124, errors.** An update before any download fails; an error of the server is passed on when the archive is needed, and otherwise the server is not asked. -/
theorem C124_errors (fs : TraceFiles R P) (version : Str) (step : Int) (clear : Bool) (reply : Except PyErr (Archive R)) (e : PyErr) :
    (fs.zip = none → (traceCreate fs version step clear true reply).2 = .error .fileNotFoundError) ∧
    (fs.zip = none → (traceCreate fs version step clear false (.error e)).2 = .error e) ∧ (fs.zip ≠ none → (traceCreate fs version step clear true (.error e)).2 = .error e) ∧
    (fs.zip ≠ none → (traceCreate fs version step clear false reply).2 = .ok ()) := by
  refine ⟨fun h => by simp [traceCreate, h], fun h => by simp [traceCreate, h, traceDownload], fun h => ?_, fun h => ?_⟩
  all_goals
    obtain ⟨z, hz⟩ := Option.ne_none_iff_exists'.1 h
    simp [traceCreate, hz, traceDownload]

/-- The profiles loaded in a first history. -/
theorem first_load (version : Str) (step : Int) (hs : 0 ≤ step) (old : Archive R) (ho : OneEach old) (p : P) (hp : parse (step / 1000000) (filesOf old) = .ok p) :
    let fs := traceAfter parse crop [.create version step false false (.ok old) none, .load version step .full none]
    (∃ z, fs.zip = some z) ∧ fs.raw = filesOf old ∧ fs.parsed version (step / 1000000) .full = some (some p) := by
  intro fs
  obtain ⟨-, h1, h2, h3⟩ := download_trace (TraceFiles.none : TraceFiles R P) version step false false old ho rfl
  let fs1 := traceAfter parse crop [.create version step false false (.ok old) none]
  have hraw : fs1.raw = filesOf old := by
    funext n
    refine (h2 n).trans ?_
    unfold filesOf
    cases old.lookup n <;> rfl
  have hnone : ∀ k, fs1.parsed version (step / 1000000) k = none := by
    intro k
    refine (h3 _ _ k).trans ?_
    simp [TraceFiles.none]
  have e : fs = (traceLoad parse crop fs1 version step .full).1.foldl TraceWrite.apply fs1 := rfl
  have hw : (traceLoad parse crop fs1 version step .full).1 = [.parsed version (step / 1000000) .full none, .parsed version (step / 1000000) .full (some p)] := by
    simp only [traceLoad, traceFull, folderSeconds_nonneg hs, hnone, hraw, hp, traceSave, List.nil_append]
  rw [e, hw]
  exact ⟨⟨_, h1⟩, hraw, by simp [TraceWrite.apply]⟩

/-- **C124, counterexample: another step size.** An update removes only the profiles computed for its own step size: for another one the profiles of the old archive are loaded, also by new loaders. -/
theorem C124_step_counterexample (version : Str) (step other : Int) (hs : 0 ≤ step) (ho : 0 ≤ other) (hne : step / 1000000 ≠ other / 1000000) (old new : Archive R) (h1 : OneEach old) (h2 : OneEach new) (p : P)
    (hp : parse (step / 1000000) (filesOf old) = .ok p) (reply : Except PyErr (Archive R)) :
    let hist := [.create version step false false (.ok old) none, .load version step .full none, .create version other false true (.ok new) none, .create version step false false reply none]
    lastArchive hist = some new ∧ (traceLoad parse crop (traceAfter parse crop hist) version step .full).2 = .ok p := by
  intro hist
  obtain ⟨⟨z, hz⟩, -, hpar⟩ := first_load (crop := crop) version step hs old h1 p hp
  let fs := traceAfter parse crop [.create version step false false (.ok old) none, .load version step .full none]
  obtain ⟨-, h3, -, h4⟩ := download_trace fs version other false true new h2 (by rw [show fs.zip = some z from hz]; rfl)
  let fs1 := (traceCreate fs version other false true (.ok new)).1.foldl TraceWrite.apply fs
  obtain ⟨-, -, h5⟩ := stay_trace fs1 version step false false reply (.inl ⟨rfl, by rw [show fs1.zip = _ from h3]; rfl⟩)
  refine ⟨by cases reply <;> rfl, ?_⟩
  have e : (traceAfter parse crop hist).parsed version (folderSeconds step) .full = some (some p) := by
    show ((traceCreate fs1 version step false false reply).1.foldl TraceWrite.apply fs1).parsed version (folderSeconds step) .full = _
    rw [h5, if_neg (by simp)]
    refine (h4 version (folderSeconds step) .full).trans ?_
    rw [if_neg (by rw [folderSeconds_nonneg hs, folderSeconds_nonneg ho]; exact fun h => hne h.2.2), folderSeconds_nonneg hs]
    exact hpar
  show (traceFull parse (traceAfter parse crop hist) version (folderSeconds step)).2 = _
  unfold traceFull
  rw [e]

/-- **C124, counterexample: an update that failed.** The update removes the archive first: when the server cannot be reached and an older loader loads the profiles, they stay, although the next creation downloads a new archive. -/
theorem C124_failed_update_counterexample (version : Str) (step : Int) (hs : 0 ≤ step) (old new : Archive R) (h1 : OneEach old) (h2 : OneEach new) (p : P) (hp : parse (step / 1000000) (filesOf old) = .ok p) (e : PyErr) :
    let hist := [.create version step false false (.ok old) none, .load version step .full none, .create version step false true (.error e) none, .load version step .full none, .create version step false false (.ok new) none]
    lastArchive hist = some new ∧ (traceLoad parse crop (traceAfter parse crop hist) version step .full).2 = .ok p := by
  intro hist
  refine ⟨rfl, ?_⟩
  obtain ⟨⟨z, hz⟩, hraw, -⟩ := first_load (crop := crop) version step hs old h1 p hp
  let fs := traceAfter parse crop [.create version step false false (.ok old) none, .load version step .full none]
  let fs1 := (traceCreate fs version step false true (.error e)).1.foldl TraceWrite.apply fs
  have e1 : fs1 = { zip := none, raw := filesOf old, parsed := fun v' s' k => if v' = version ∧ s' = folderSeconds step then none else fs.parsed v' s' k } := by
    have : (traceCreate fs version step false true (.error e)).1 = [.clear version (folderSeconds step), .zip none] := by
      unfold traceCreate
      simp [show fs.zip = some z from hz, traceDownload]
    simp only [fs1, this, List.foldl_cons, List.foldl_nil, TraceWrite.apply]
    rw [show fs.raw = filesOf old from hraw]
  let fs2 := (traceLoad parse crop fs1 version step .full).1.foldl TraceWrite.apply fs1
  have hw : (traceLoad parse crop fs1 version step .full).1 = [.parsed version (folderSeconds step) .full none, .parsed version (folderSeconds step) .full (some p)] := by
    simp only [traceLoad, traceFull, e1, and_self, if_true, folderSeconds_nonneg hs, hp, traceSave, List.nil_append]
  have hz2 : fs2.zip = none := by
    simp only [fs2, hw, List.foldl_cons, List.foldl_nil, TraceWrite.apply]
    rw [e1]
  have hp2 : fs2.parsed version (folderSeconds step) .full = some (some p) := by
    simp [fs2, hw, TraceWrite.apply]
  obtain ⟨-, -, -, h4⟩ := download_trace fs2 version step false false new h2 (by rw [hz2]; rfl)
  have e3 : (traceAfter parse crop hist).parsed version (folderSeconds step) .full = some (some p) := by
    show ((traceCreate fs2 version step false false (.ok new)).1.foldl TraceWrite.apply fs2).parsed version (folderSeconds step) .full = _
    rw [h4, if_neg (by simp)]
    exact hp2
  show (traceFull parse (traceAfter parse crop hist) version (folderSeconds step)).2 = _
  unfold traceFull
  rw [e3]

/-- **C124, counterexample: files that were removed.** A file that is not in the new archive any more stays on the disk after an update, and its profile is still given. -/
theorem C124_removed_counterexample (version : Str) (step : Int) (hs : 0 ≤ step) (old new : Archive R) (h1 : OneEach old) (h2 : OneEach new) (kind : ProfileKind) :
    (traceLoad parse crop (traceAfter parse crop [.create version step false false (.ok old) none, .create version step false true (.ok new) none]) version step kind).2 =
      profilesOf parse crop kind (step / 1000000) fun n => match new.lookup n with | some c => some (some c) | none => filesOf old n := by
  obtain ⟨-, a1, a2, a3⟩ := download_trace (TraceFiles.none : TraceFiles R P) version step false false old h1 rfl
  let fs := (traceCreate (TraceFiles.none : TraceFiles R P) version step false false (.ok old)).1.foldl TraceWrite.apply TraceFiles.none
  obtain ⟨-, b1, b2, b3⟩ := download_trace fs version step false true new h2 (by rw [show fs.zip = _ from a1]; rfl)
  let fs1 := (traceCreate fs version step false true (.ok new)).1.foldl TraceWrite.apply fs
  have hraw : fs1.raw = fun n => match new.lookup n with | some c => some (some c) | none => filesOf old n := by
    funext n
    refine (b2 n).trans ?_
    cases new.lookup n with
    | some c => rfl
    | none =>
      refine (a2 n).trans ?_
      unfold filesOf
      cases old.lookup n <;> rfl
  have e : traceAfter parse crop [.create version step false false (.ok old) none, .create version step false true (.ok new) none] = fs1 := rfl
  rw [e, load_result, hraw, folderSeconds_nonneg hs]
  intro k
  left
  refine (b3 _ _ k).trans ?_
  rw [if_pos ⟨by simp, rfl, rfl⟩]

/-- **C124, counterexample: an interruption.** When the process is interrupted while the archive is unpacked, later loaders silently give the profiles of the files that were unpacked. -/
theorem C124_interrupted_counterexample (version : Str) (step : Int) (hs : 0 ≤ step) (done rest : Archive R) (h1 : OneEach done) (reply : Except PyErr (Archive R)) (kind : ProfileKind) :
    (traceLoad parse crop (traceAfter parse crop [.create version step false false (.ok (done ++ rest)) (some (2 + 2 * done.length)), .create version step false false reply none]) version step kind).2 =
      profilesOf parse crop kind (step / 1000000) (filesOf done) := by
  let start : TraceFiles R P := (TraceWrite.zip (some (some (done ++ rest)))).apply ((TraceWrite.zip (some none)).apply TraceFiles.none)
  obtain ⟨b1, b2, b3⟩ := unpack_raw done h1 start
  let fs := (done.flatMap (fun q => [TraceWrite.raw q.1 none, .raw q.1 (some q.2)])).foldl TraceWrite.apply start
  have hlen : (done.flatMap (fun q => [TraceWrite.raw q.1 none, (.raw q.1 (some q.2) : TraceWrite R P)])).length = 2 * done.length := by
    rw [List.length_flatMap]
    simp
    omega
  have hw : doneUntil (some (2 + 2 * done.length)) (traceCreate (TraceFiles.none : TraceFiles R P) version step false false (.ok (done ++ rest))).1 =
      [.zip (some none), .zip (some (some (done ++ rest)))] ++ done.flatMap (fun q => [TraceWrite.raw q.1 none, .raw q.1 (some q.2)]) := by
    have hc : (traceCreate (TraceFiles.none : TraceFiles R P) version step false false (.ok (done ++ rest))).1 =
        ([.zip (some none), .zip (some (some (done ++ rest)))] ++ done.flatMap (fun q => [TraceWrite.raw q.1 none, .raw q.1 (some q.2)])) ++ rest.flatMap (fun q => [TraceWrite.raw q.1 none, .raw q.1 (some q.2)]) := by
      simp [traceCreate, TraceFiles.none, traceDownload]
    rw [hc]
    unfold doneUntil
    refine (List.take_append_of_le_length ?_).trans (List.take_of_length_le ?_) <;> simp only [List.length_append, List.length_cons, List.length_nil, hlen] <;> omega
  have e1 : traceAfter parse crop [.create version step false false (.ok (done ++ rest)) (some (2 + 2 * done.length))] = fs := by
    simp only [traceAfter, List.foldl_cons, List.foldl_nil, TraceEvent.apply, hw, List.foldl_append]
    rfl
  have e2 : traceAfter parse crop [.create version step false false (.ok (done ++ rest)) (some (2 + 2 * done.length)), .create version step false false reply none] = (traceCreate fs version step false false reply).1.foldl TraceWrite.apply fs := by
    have := traceAfter_snoc (parse := parse) (crop := crop) [.create version step false false (.ok (done ++ rest)) (some (2 + 2 * done.length))] (.create version step false false reply none)
    rw [List.singleton_append] at this
    rw [this, e1]
    rfl
  obtain ⟨-, c2, c3⟩ := stay_trace fs version step false false reply (.inl ⟨rfl, by rw [show fs.zip = _ from b1]; rfl⟩)
  have hraw : ((traceCreate fs version step false false reply).1.foldl TraceWrite.apply fs).raw = filesOf done := by
    refine c2.trans ?_
    funext n
    refine (b3 n).trans ?_
    unfold filesOf
    cases done.lookup n <;> rfl
  rw [e2, load_result, hraw, folderSeconds_nonneg hs]
  intro k
  left
  refine (c3 _ _ k).trans ?_
  rw [if_neg (by simp)]
  rw [show fs.parsed = _ from b2]
  rfl

end Trace

/-- The full statement of C124: what is loaded is what is computed from the archive that was downloaded last. -/
def C124_full : Prop :=
  ∀ (R P : Type) (parse : Int → (Str → DiskFile R) → Except PyErr P) (crop : P → Except PyErr P) (hist : List (TraceEvent R)) (version : Str) (step : Int) (kind : ProfileKind) (files : Archive R),
    0 ≤ step → OneEach files → lastArchive hist = some files → (traceLoad parse crop (traceAfter parse crop hist) version step kind).2 = profilesOf parse crop kind (step / 1000000) (filesOf files)

/-- The first file, as an example of profiles. -/
def demoTraceParse (_ : Int) (files : Str → DiskFile Nat) : Except PyErr Nat :=
  match files "fridge".toList with
  | some (some c) => .ok c
  | _ => .error .fileNotFoundError

theorem C124_full_fails : ¬ C124_full := by
  intro h
  have hone : ∀ k : Nat, OneEach [("fridge".toList, k)] := by intro k; simp [OneEach]
  obtain ⟨h1, h2⟩ := C124_step_counterexample (parse := demoTraceParse) (crop := .ok) "master".toList 60000000 1000000 (by decide) (by decide) (by decide) [("fridge".toList, 5)] [("fridge".toList, 6)] (hone 5) (hone 6) 5
    (by decide +kernel) (.ok [])
  have h3 := h Nat Nat demoTraceParse .ok _ "master".toList 60000000 .full _ (by decide) (hone 6) h1
  rw [h2] at h3
  exact absurd h3 (by decide +kernel)

/-- The hypotheses of the theorem are met by a history with a download, an update and loads with two step sizes, and the profiles of the new archive are given. -/
example :
    let hist : List (TraceEvent Nat) := [.create "master".toList 60000000 false false (.ok [("fridge".toList, 5)]) none, .load "master".toList 60000000 .switchedOn none, .create "master".toList 1000000 false false (.error .exception) none,
      .load "master".toList 1000000 .full none, .create "master".toList 60000000 false true (.ok [("fridge".toList, 6)]) none]
    (∀ s, ∃ e, demoTraceParse s (fun _ => none) = .error e) ∧ (∀ e ∈ hist, ¬ e.Cut) ∧ (∀ e ∈ hist, e.UpdatesOnly "master".toList (60000000 / 1000000)) ∧
    (∀ e ∈ hist, ∀ files, e.Sends files → OneEach files ∧ ∀ n, n ∈ namesOf files ↔ n ∈ ["fridge".toList]) ∧ lastArchive hist = some [("fridge".toList, 6)] ∧
    (traceLoad demoTraceParse .ok (traceAfter demoTraceParse .ok hist) "master".toList 60000000 .switchedOn).2 = .ok 6 := by
  refine ⟨fun s => ⟨_, rfl⟩, ?_, ?_, ?_, rfl, by decide +kernel⟩
  · intro e he
    simp only [List.mem_cons, List.not_mem_nil, or_false] at he
    rcases he with rfl | rfl | rfl | rfl | rfl <;> simp [TraceEvent.Cut]
  · intro e he
    simp only [List.mem_cons, List.not_mem_nil, or_false] at he
    rcases he with rfl | rfl | rfl | rfl | rfl <;> simp [TraceEvent.UpdatesOnly]
  · intro e he files hf
    simp only [List.mem_cons, List.not_mem_nil, or_false] at he
    rcases he with rfl | rfl | rfl | rfl | rfl <;> simp only [TraceEvent.Sends, reduceCtorEq, Except.ok.injEq] at hf <;> subst hf <;> simp [OneEach, namesOf]

end Demod
