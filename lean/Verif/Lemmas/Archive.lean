import Verif.Spec.Archive
import Mathlib.Data.List.Induction
import Mathlib.Data.List.Nodup

/-!
# Lemmas on the downloaded archives
-/

namespace Demod

theorem doneUntil_mem {W : Type} {stop : Option Nat} {ws : List W} {w : W} (h : w ∈ doneUntil stop ws) : w ∈ ws := by
  cases stop with
  | none => exact h
  | some n => exact List.mem_of_mem_take h

theorem archive_lookup_mem {C : Type} {files : Archive C} (h : OneEach files) (n : Str) (c : C) : files.lookup n = some c ↔ (n, c) ∈ files := by
  induction files with
  | nil => simp
  | cons q files ih =>
    obtain ⟨k, x⟩ := q
    obtain ⟨hk, hn⟩ := List.nodup_cons.1 h
    have ih := ih hn
    by_cases he : n = k
    · subst he
      rw [List.lookup_cons, beq_self_eq_true, List.mem_cons]
      simp only [Option.some.injEq, Prod.mk.injEq, true_and]
      constructor
      · intro h; exact .inl h.symm
      · rintro (h | h)
        · exact h.symm
        · exact absurd (List.mem_map_of_mem (f := Prod.fst) h) hk
    · rw [List.lookup_cons, beq_eq_false_iff_ne.2 he, List.mem_cons]
      simp only [Prod.mk.injEq, he, false_and, false_or]
      exact ih

theorem archive_lookup_none {C : Type} {files : Archive C} (h : OneEach files) (n : Str) : files.lookup n = none ↔ ∀ c, (n, c) ∉ files := by
  constructor
  · intro hn c hc
    rw [(archive_lookup_mem h n c).2 hc] at hn
    cases hn
  · intro hn
    cases hl : files.lookup n with
    | none => rfl
    | some c => exact absurd ((archive_lookup_mem h n c).1 hl) (hn c)

section Survey
variable {C : Type}

/-- The activity type of a change. -/
def TouWrite.about : TouWrite C → Str
  | .zip a _ => a
  | .rmdir _ a => a
  | .mkdir _ a => a
  | .file _ a _ _ => a

theorem write_other (fs : TouFiles C) (w : TouWrite C) {a : Str} (h : w.about ≠ a) : (w.apply fs).zip a = fs.zip a ∧ ∀ v, (w.apply fs).dir v a = fs.dir v a := by
  cases w <;> simp only [TouWrite.about] at h <;> simp only [TouWrite.apply, true_and, implies_true]
  · simp only [Ne.symm h, if_false, and_self]
  all_goals
    intro v
    rw [if_neg (fun hc => h hc.2.symm)]

theorem writes_other (ws : List (TouWrite C)) (fs : TouFiles C) {a : Str} (h : ∀ w ∈ ws, w.about ≠ a) :
    (ws.foldl TouWrite.apply fs).zip a = fs.zip a ∧ ∀ v, (ws.foldl TouWrite.apply fs).dir v a = fs.dir v a := by
  induction ws generalizing fs with
  | nil => exact ⟨rfl, fun _ => rfl⟩
  | cons w ws ih =>
    obtain ⟨h1, h2⟩ := ih (w.apply fs) fun w hw => h w (List.mem_cons_of_mem _ hw)
    obtain ⟨h3, h4⟩ := write_other fs w (h w (List.mem_cons_self ..))
    exact ⟨h1.trans h3, fun v => (h2 v).trans (h4 v)⟩

theorem touExtract_about (v : Option Str) (a : Str) (files : Archive C) : ∀ w ∈ touExtract v a files, w.about = a := by
  intro w hw
  obtain ⟨q, -, hq⟩ := List.mem_flatMap.1 hw
  rcases List.mem_cons.1 hq with rfl | hq
  · rfl
  · rw [List.mem_singleton.1 hq]; rfl

theorem touCreate_about (survey : Bool) (fs : TouFiles C) (v : Option Str) (a : Str) (clear : Bool) (reply : Except PyErr (Archive C)) :
    ∀ w ∈ (touCreate survey fs v a clear reply).1, w.about = a := by
  have hc : ∀ w ∈ (touClear v a : List (TouWrite C)), w.about = a := by
    intro w hw
    simp only [touClear, List.mem_cons, List.not_mem_nil, or_false] at hw
    rcases hw with rfl | rfl | rfl <;> rfl
  have hp : ∀ w ∈ (if clear then touClear v a ++ touClear v a else if (fs.dir v a).isNone then [.mkdir v a] else [] : List (TouWrite C)), w.about = a := by
    intro w hw
    split at hw
    · rcases List.mem_append.1 hw with hw | hw <;> exact hc w hw
    · split at hw
      · rw [List.mem_singleton.1 hw]; rfl
      · cases hw
  intro w hw
  unfold touCreate at hw
  split at hw
  · cases hw
  · dsimp only at hw
    split at hw
    · exact hp w hw
    · cases reply with
      | error e => exact hp w hw
      | ok files =>
        rcases List.mem_append.1 hw with hw | hw
        · rcases List.mem_append.1 hw with hw | hw
          · exact hp w hw
          · simp only [List.mem_cons, List.not_mem_nil, or_false] at hw
            rcases hw with rfl | rfl <;> rfl
        · exact touExtract_about v a _ w hw

theorem touLoad_about (parse : Option (Str → Str → Except PyErr C)) (fs : TouFiles C) (v : Option Str) (a name : Str) : ∀ w ∈ (touLoad parse fs v a name).1, w.about = a := by
  intro w hw
  unfold touLoad at hw
  split at hw
  · cases hw
  · cases hw
  · split at hw
    · cases hw
    · split at hw
      · cases hw
      · split at hw
        · cases hw
        · simp only [List.mem_cons, List.not_mem_nil, or_false] at hw
          rcases hw with rfl | rfl <;> rfl

/-- An event about another activity type changes nothing. -/
theorem event_other (parse : Option (Str → Str → Except PyErr C)) (fs : TouFiles C) (e : TouEvent C) {a : Str} (h : e.about ≠ a) :
    (e.apply parse fs).zip a = fs.zip a ∧ ∀ v, (e.apply parse fs).dir v a = fs.dir v a := by
  cases e with
  | create v a' clear reply stop =>
    refine writes_other _ fs fun w hw => ?_
    rw [touCreate_about _ fs v a' clear reply w (doneUntil_mem hw)]
    exact h
  | load v a' name stop =>
    refine writes_other _ fs fun w hw => ?_
    rw [touLoad_about parse fs v a' name w (doneUntil_mem hw)]
    exact h

/-- The folder after the archive is unpacked. -/
theorem extract_dir (v : Option Str) (a : Str) (files : Archive C) (h : OneEach files) (fs : TouFiles C) (d : Str → DiskFile C) (hd : fs.dir v a = some d) :
    ((touExtract v a files).foldl TouWrite.apply fs).zip = fs.zip ∧ (∀ v', v' ≠ v → ((touExtract v a files).foldl TouWrite.apply fs).dir v' a = fs.dir v' a) ∧
      ∃ d', ((touExtract v a files).foldl TouWrite.apply fs).dir v a = some d' ∧ ∀ n, d' n = match files.lookup n with | some c => some (some c) | none => d n := by
  induction files generalizing fs d with
  | nil => exact ⟨rfl, fun _ _ => rfl, d, hd, fun n => rfl⟩
  | cons q files ih =>
    obtain ⟨k, x⟩ := q
    obtain ⟨hk, hn⟩ := List.nodup_cons.1 h
    have e : touExtract v a ((k, x) :: files) = [.file v a k none, .file v a k (some x)] ++ touExtract v a files := rfl
    have hdir : ∀ v' a', ((TouWrite.file v a k (some x)).apply ((TouWrite.file v a k none).apply fs)).dir v' a' = if v' = v ∧ a' = a then some (fun n => if n = k then some (some x) else d n) else fs.dir v' a' := by
      intro v' a'
      simp only [TouWrite.apply, and_self, if_true, hd, Option.map_some]
      by_cases hv : v' = v ∧ a' = a
      · rw [if_pos hv, if_pos hv]
        congr 1
        funext n
        by_cases hn : n = k <;> simp [hn]
      · rw [if_neg hv, if_neg hv, if_neg hv]
    obtain ⟨h1, h2, d', h3, h4⟩ := ih hn ((TouWrite.file v a k (some x)).apply ((TouWrite.file v a k none).apply fs)) _ (by rw [hdir, if_pos ⟨rfl, rfl⟩])
    rw [e, List.foldl_append, List.foldl_cons, List.foldl_cons, List.foldl_nil]
    refine ⟨h1, fun v' hv => ?_, d', h3, fun n => ?_⟩
    · rw [h2 v' hv, hdir, if_neg (fun hc => hv hc.1)]
    · rw [h4 n]
      by_cases he : n = k
      · subst he
        have : files.lookup n = none := (archive_lookup_none hn n).2 fun c hc => hk (List.mem_map.2 ⟨_, hc, rfl⟩)
        rw [this, List.lookup_cons, beq_self_eq_true]
        simp
      · rw [List.lookup_cons, beq_eq_false_iff_ne.2 he]
        cases files.lookup n with
        | some c => rfl
        | none => simp [he]

/-- The disk after clearing. -/
theorem clear_dir (v : Option Str) (a : Str) (fs : TouFiles C) :
    let fs' := (touClear v a ++ touClear v a).foldl TouWrite.apply fs
    fs'.zip a = none ∧ fs'.dir v a = some (fun _ => none) ∧ ∀ v', v' ≠ v → fs'.dir v' a = fs.dir v' a := by
  intro fs'
  refine ⟨?_, ?_, fun v' hv => ?_⟩
  · simp [fs', touClear, TouWrite.apply]
  · simp [fs', touClear, TouWrite.apply]
  · simp [fs', touClear, TouWrite.apply, hv]

/-- The disk after the archive is downloaded and unpacked in a folder. -/
theorem download_dir (v : Option Str) (a : Str) (files : Archive C) (h : OneEach files) (fs : TouFiles C) (d : Str → DiskFile C) (hd : fs.dir v a = some d) :
    let fs' := ([TouWrite.zip a (some none), TouWrite.zip a (some (some files))] ++ touExtract v a files).foldl TouWrite.apply fs
    fs'.zip a = some (some files) ∧ (∀ v', v' ≠ v → fs'.dir v' a = fs.dir v' a) ∧ ∃ d', fs'.dir v a = some d' ∧ ∀ n, d' n = match files.lookup n with | some c => some (some c) | none => d n := by
  intro fs'
  obtain ⟨h1, h2, h3⟩ := extract_dir v a files h ((TouWrite.zip a (some (some files))).apply ((TouWrite.zip a (some none)).apply fs)) d hd
  have e : fs' = (touExtract v a files).foldl TouWrite.apply ((TouWrite.zip a (some (some files))).apply ((TouWrite.zip a (some none)).apply fs)) := by
    simp only [fs', List.foldl_append, List.foldl_cons, List.foldl_nil]
  rw [e]
  refine ⟨?_, h2, h3⟩
  rw [h1]
  simp [TouWrite.apply]

/-- What there is on the disk. -/
def HostedInv (v : Option Str) (a : Str) (fs : TouFiles C) : Hosted C → Prop
  | .never => fs.zip a = none ∧ fs.dir v a = none
  | .nothing => fs.zip a = none ∧ ∃ d, fs.dir v a = some d ∧ ∀ n, d n = none
  | .archive files => OneEach files ∧ (∃ z, fs.zip a = some z) ∧ ∃ d, fs.dir v a = some d ∧ ∀ n, d n = (files.lookup n).map some

theorem inv_gives {v : Option Str} {a : Str} {fs : TouFiles C} {h : Hosted C} (hi : HostedInv v a fs h) (name : Str) : h.Gives name (touLoad none fs v a name).2 := by
  have key : fs.file v a name = none → (touLoad none fs v a name).2 = .error .exception := by
    intro h
    unfold touLoad
    rw [h]
  cases h with
  | never =>
    refine key ?_
    unfold TouFiles.file
    rw [hi.2]
    rfl
  | nothing =>
    obtain ⟨-, d, hd, hn⟩ := hi
    refine key ?_
    unfold TouFiles.file
    rw [hd]
    exact hn name
  | archive files =>
    obtain ⟨ho, -, d, hd, hn⟩ := hi
    constructor
    · intro c hc
      have : fs.file v a name = some (some c) := by
        unfold TouFiles.file
        rw [hd, Option.bind_some, hn, (archive_lookup_mem ho name c).2 hc]
        rfl
      unfold touLoad
      rw [this]
    · intro hc
      refine key ?_
      unfold TouFiles.file
      rw [hd, Option.bind_some, hn, (archive_lookup_none ho name).2 hc]
      rfl

/-- A creation without interruption. -/
theorem inv_create {v : Option Str} {a : Str} {fs : TouFiles C} {h : Hosted C} (hi : HostedInv v a fs h) (clear : Bool) (reply : Except PyErr (Archive C)) (hp : ∀ files, reply = .ok files → OneEach files) :
    HostedInv v a (((touCreate false fs v a clear reply).1).foldl TouWrite.apply fs) (h.create clear reply) := by
  have download : ∀ (fs' : TouFiles C), (∃ d, fs'.dir v a = some d ∧ ∀ n, d n = none) → ∀ files, reply = .ok files →
      HostedInv v a (([TouWrite.zip a (some none), TouWrite.zip a (some (some files))] ++ touExtract v a files).foldl TouWrite.apply fs') (.archive files) := by
    rintro fs' ⟨d, hd, hn⟩ files hr
    obtain ⟨h1, -, d', h2, h3⟩ := download_dir v a files (hp files hr) fs' d hd
    refine ⟨hp files hr, ⟨_, h1⟩, d', h2, fun n => ?_⟩
    rw [h3 n]
    cases files.lookup n with
    | some c => rfl
    | none => exact hn n
  have clearing : HostedInv v a (((touClear v a ++ touClear v a).foldl TouWrite.apply fs)) .nothing := by
    obtain ⟨h1, h2, -⟩ := clear_dir v a fs
    exact ⟨h1, _, h2, fun _ => rfl⟩
  have making : fs.dir v a = none → fs.zip a = none → HostedInv v a ((TouWrite.mkdir v a).apply fs) .nothing := by
    intro _ h2
    exact ⟨h2, fun _ => none, by simp [TouWrite.apply], fun _ => rfl⟩
  have finish : ∀ ws : List (TouWrite C), HostedInv v a (ws.foldl TouWrite.apply fs) .nothing →
      HostedInv v a ((touDownload v a ws reply).1.foldl TouWrite.apply fs) (.ofReply reply) := by
    intro ws hw
    cases reply with
    | error e => exact hw
    | ok files =>
      dsimp only [Hosted.ofReply, touDownload]
      rw [List.append_assoc, List.foldl_append]
      exact download _ hw.2 files rfl
  unfold touCreate
  cases h with
  | never =>
    obtain ⟨hz, hd⟩ := hi
    cases clear with
    | true =>
      simp only [hd, Option.isNone_none, Bool.and_self, if_true, List.foldl_nil, Hosted.create]
      exact ⟨hz, hd⟩
    | false =>
      simp only [hd, hz, Option.isNone_none, Bool.false_and, Bool.false_eq_true, if_false, if_true, Option.isSome_none, Bool.and_false, Bool.or_false, Hosted.create]
      exact finish [.mkdir v a] (making hd hz)
  | nothing =>
    obtain ⟨hz, d, hd, hn⟩ := hi
    have hi : HostedInv v a fs .nothing := ⟨hz, d, hd, hn⟩
    cases clear with
    | true =>
      simp only [hd, Option.isNone_some, Bool.and_false, Bool.false_eq_true, if_false, if_true, Bool.not_true, Bool.false_and, Bool.or_false, Hosted.create]
      exact finish _ clearing
    | false =>
      simp only [hd, hz, Option.isNone_some, Bool.and_false, Bool.false_eq_true, if_false, Option.isSome_none, Bool.or_false, Hosted.create]
      exact finish [] hi
  | archive files =>
    obtain ⟨ho, ⟨z, hz⟩, d, hd, hn⟩ := hi
    cases clear with
    | true =>
      simp only [hd, Option.isNone_some, Bool.and_false, Bool.false_eq_true, if_false, if_true, Bool.not_true, Bool.false_and, Bool.or_false, Hosted.create]
      exact finish _ clearing
    | false =>
      simp only [hd, hz, Option.isNone_some, Bool.false_and, Bool.false_eq_true, if_false, Bool.not_false, Option.isSome_some, Bool.and_self, Bool.or_true, if_true, List.foldl_nil, Hosted.create]
      exact ⟨ho, ⟨z, hz⟩, d, hd, hn⟩

theorem inv_other {v : Option Str} {a : Str} {fs fs' : TouFiles C} {h : Hosted C} (hi : HostedInv v a fs h) (hz : fs'.zip a = fs.zip a) (hd : fs'.dir v a = fs.dir v a) : HostedInv v a fs' h := by
  cases h <;> simp only [HostedInv, hz, hd] <;> exact hi

/-- Without the survey a load does not change the disk. -/
theorem load_none (fs : TouFiles C) (v : Option Str) (a name : Str) : (touLoad none fs v a name).1 = [] := by
  unfold touLoad
  split <;> rfl

theorem arch_load_apply (fs : TouFiles C) (v : Option Str) (a name : Str) (stop : Option Nat) : (TouEvent.load v a name stop).apply none fs = fs := by
  simp only [TouEvent.apply, load_none]
  cases stop <;> simp [doneUntil]

theorem touAfter_snoc (parse : Option (Str → Str → Except PyErr C)) (hist : List (TouEvent C)) (e : TouEvent C) : touAfter parse (hist ++ [e]) = e.apply parse (touAfter parse hist) := by
  simp [touAfter]

theorem hostedAfter_snoc (a : Str) (hist : List (TouEvent C)) (e : TouEvent C) : hostedAfter a (hist ++ [e]) = (hostedAfter a hist).event a e := by
  simp [hostedAfter]

theorem inv_after (hist : List (TouEvent C)) (v : Option Str) (a : Str) (hc : ∀ e ∈ hist, e.about = a → ¬ e.Cut) (hp : ∀ e ∈ hist, e.about = a → e.Proper) (hv : ∀ e ∈ hist, e.about = a → e.version = v) :
    HostedInv v a (touAfter none hist) (hostedAfter a hist) := by
  induction hist using List.reverseRecOn with
  | nil => exact ⟨rfl, rfl⟩
  | append_singleton hist e ih =>
    have ih := ih (fun e he => hc e (List.mem_append_left _ he)) (fun e he => hp e (List.mem_append_left _ he)) (fun e he => hv e (List.mem_append_left _ he))
    have he : e ∈ hist ++ [e] := List.mem_append_right _ (List.mem_singleton.2 rfl)
    rw [touAfter_snoc, hostedAfter_snoc]
    cases e with
    | load v' a' name stop =>
      rw [arch_load_apply]
      exact ih
    | create v' a' clear reply stop =>
      by_cases ha : a' = a
      · subst ha
        have h1 : v' = v := hv _ he rfl
        have h2 : stop = none := by
          have := hc _ he rfl
          simpa [TouEvent.Cut] using this
        subst h1 h2
        have h3 : ∀ files, reply = .ok files → OneEach files := by
          rintro files rfl
          exact hp _ he rfl
        simp only [Hosted.event, if_true]
        exact inv_create ih clear reply h3
      · obtain ⟨h1, h2⟩ := event_other none (touAfter none hist) (.create v' a' clear reply stop) ha
        simp only [Hosted.event, ha, if_false]
        exact inv_other ih h1 (h2 v)

theorem inv_outcome {v : Option Str} {a : Str} {fs : TouFiles C} {h : Hosted C} (hi : HostedInv v a fs h) (clear : Bool) (reply : Except PyErr (Archive C)) :
    (touCreate false fs v a clear reply).2 = h.outcome clear reply := by
  have hr : ∀ ws : List (TouWrite C), (touDownload v a ws reply).2 = reply.map fun _ => () := by
    intro ws
    cases reply <;> rfl
  unfold touCreate
  cases h with
  | never =>
    obtain ⟨hz, hd⟩ := hi
    cases clear <;> simp [hz, hd, Hosted.outcome, hr]
  | nothing =>
    obtain ⟨hz, d, hd, hn⟩ := hi
    cases clear <;> simp [hz, hd, Hosted.outcome, hr]
  | archive files =>
    obtain ⟨ho, ⟨z, hz⟩, d, hd, hn⟩ := hi
    cases clear <;> simp [hz, hd, Hosted.outcome, hr]

/-- As long as there is an archive and nobody clears the data, a folder does not change. -/
theorem kept_event (fs : TouFiles C) (v : Option Str) (a : Str) (d : Str → DiskFile C) (hz : (fs.zip a).isSome = true) (hd : fs.dir v a = some d) (e : TouEvent C) (he : e.about = a → ¬ e.Clears) :
    ((e.apply none fs).zip a).isSome = true ∧ (e.apply none fs).dir v a = some d := by
  by_cases ha : e.about = a
  · have hcl := he ha
    cases e with
    | load v' a' name stop =>
      rw [arch_load_apply]
      exact ⟨hz, hd⟩
    | create v' a' clear reply stop =>
      obtain rfl : a' = a := ha
      obtain rfl : clear = false := by simpa [TouEvent.Clears] using hcl
      have hws : ∀ w ∈ doneUntil stop (touCreate (none : Option (Str → Str → Except PyErr C)).isSome fs v' a' false reply).1, w = .mkdir v' a' ∧ fs.dir v' a' = none := by
        intro w hw
        have hw := doneUntil_mem hw
        unfold touCreate at hw
        simp only [Bool.false_and, Bool.false_eq_true, if_false, Bool.not_false, Bool.true_and, hz, Bool.or_true, if_true] at hw
        cases hv : fs.dir v' a' with
        | none =>
          rw [hv] at hw
          exact ⟨List.mem_singleton.1 hw, rfl⟩
        | some d' =>
          rw [hv] at hw
          cases hw
      have key : ∀ (ws : List (TouWrite C)) (fs : TouFiles C), (∀ w ∈ ws, w = .mkdir v' a' ∧ v' ≠ v) → (fs.zip a').isSome = true → fs.dir v a' = some d →
          ((ws.foldl TouWrite.apply fs).zip a').isSome = true ∧ (ws.foldl TouWrite.apply fs).dir v a' = some d := by
        intro ws
        induction ws with
        | nil => intro fs _ h1 h2; exact ⟨h1, h2⟩
        | cons w ws ih =>
          intro fs hw h1 h2
          obtain ⟨rfl, hne⟩ := hw w (List.mem_cons_self ..)
          refine ih _ (fun w hw' => hw w (List.mem_cons_of_mem _ hw')) h1 ?_
          simp only [TouWrite.apply]
          rw [if_neg (fun hc => hne hc.1.symm)]
          exact h2
      refine key _ fs (fun w hw => ⟨(hws w hw).1, ?_⟩) hz hd
      rintro rfl
      rw [(hws w hw).2] at hd
      cases hd
  · obtain ⟨h1, h2⟩ := event_other none fs e ha
    rw [h1, h2 v]
    exact ⟨hz, hd⟩

theorem kept_after (fs : TouFiles C) (v : Option Str) (a : Str) (d : Str → DiskFile C) (hz : (fs.zip a).isSome = true) (hd : fs.dir v a = some d) (later : List (TouEvent C)) (hl : ∀ e ∈ later, e.about = a → ¬ e.Clears) :
    ((later.foldl (TouEvent.apply none) fs).zip a).isSome = true ∧ (later.foldl (TouEvent.apply none) fs).dir v a = some d := by
  induction later generalizing fs with
  | nil => exact ⟨hz, hd⟩
  | cons e later ih =>
    obtain ⟨h1, h2⟩ := kept_event fs v a d hz hd e (hl e (List.mem_cons_self ..))
    exact ih _ h1 h2 fun e he => hl e (List.mem_cons_of_mem _ he)

/-- A creation that clears the data, in any folder. -/
theorem cleared_create (fs : TouFiles C) (v : Option Str) (a : Str) (files : Archive C) (ho : OneEach files) (hok : (touCreate false fs v a true (.ok files)).2 = .ok ()) :
    HostedInv v a (((touCreate false fs v a true (.ok files)).1).foldl TouWrite.apply fs) (.archive files) := by
  unfold touCreate at hok ⊢
  cases hd : fs.dir v a with
  | none =>
    rw [hd] at hok
    simp at hok
  | some d =>
    simp only [Option.isNone_some, Bool.and_false, Bool.false_eq_true, if_false, if_true, Bool.not_true, Bool.false_and, Bool.or_false]
    obtain ⟨h1, h2, -⟩ := clear_dir v a fs
    unfold touDownload
    dsimp only
    rw [List.append_assoc, List.foldl_append]
    obtain ⟨h3, -, d', h4, h5⟩ := download_dir v a files ho _ _ h2
    refine ⟨ho, ⟨_, h3⟩, d', h4, fun n => ?_⟩
    rw [h5 n]
    cases files.lookup n <;> rfl

/-- With the survey: there is no archive, and the files are what is computed from it. -/
def SurveyInv (parse : Str → Str → Except PyErr C) (fs : TouFiles C) : Prop :=
  (∀ a, fs.zip a = none) ∧ ∀ v a d, fs.dir v a = some d → ∀ n x, d n = some x → ∃ c, x = some c ∧ parse a n = .ok c

theorem survey_create (parse : Str → Str → Except PyErr C) (fs : TouFiles C) (hi : SurveyInv parse fs) (v : Option Str) (a : Str) (clear : Bool) (reply : Except PyErr (Archive C)) (stop : Option Nat) :
    SurveyInv parse ((doneUntil stop (touCreate true fs v a clear reply).1).foldl TouWrite.apply fs) := by
  have hws : ∀ w ∈ doneUntil stop (touCreate true fs v a clear reply).1, w = .rmdir v a ∨ w = .mkdir v a ∨ w = .zip a none := by
    intro w hw
    have hw := doneUntil_mem hw
    unfold touCreate at hw
    simp only [Bool.true_or, if_true] at hw
    split at hw
    · cases hw
    · dsimp only at hw
      split at hw
      · simp only [touClear, List.cons_append, List.nil_append, List.mem_cons, List.not_mem_nil, or_false] at hw
        rcases hw with h | h | h | h | h | h <;> simp [h]
      · split at hw
        · simp only [List.mem_singleton] at hw
          simp [hw]
        · cases hw
  generalize doneUntil stop (touCreate true fs v a clear reply).1 = ws at hws
  clear stop reply clear
  induction ws generalizing fs with
  | nil => exact hi
  | cons w ws ih =>
    refine ih (w.apply fs) ?_ fun w hw => hws w (List.mem_cons_of_mem _ hw)
    rcases hws w (List.mem_cons_self ..) with rfl | rfl | rfl
    · refine ⟨hi.1, fun v' a' d hd n x hx => ?_⟩
      simp only [TouWrite.apply] at hd
      split at hd
      · cases hd
      · exact hi.2 v' a' d hd n x hx
    · refine ⟨hi.1, fun v' a' d hd n x hx => ?_⟩
      simp only [TouWrite.apply] at hd
      split at hd
      · injection hd with hd
        subst hd
        cases hx
      · exact hi.2 v' a' d hd n x hx
    · refine ⟨fun a' => ?_, hi.2⟩
      simp only [TouWrite.apply]
      split
      · rfl
      · exact hi.1 a'

theorem survey_load (parse : Str → Str → Except PyErr C) (fs : TouFiles C) (hi : SurveyInv parse fs) (v : Option Str) (a name : Str) :
    SurveyInv parse ((touLoad (some parse) fs v a name).1.foldl TouWrite.apply fs) ∧ (∀ d, fs.dir v a = some d → (touLoad (some parse) fs v a name).2 = parse a name) := by
  unfold touLoad
  cases hf : fs.file v a name with
  | some x =>
    obtain ⟨d, hd, hx⟩ := Option.bind_eq_some_iff.1 hf
    obtain ⟨c, rfl, hc⟩ := hi.2 v a d hd name x hx
    exact ⟨hi, fun _ _ => hc.symm⟩
  | none =>
    dsimp only
    cases hp : parse a name with
    | error e => exact ⟨hi, fun _ _ => rfl⟩
    | ok c =>
      dsimp only
      cases hd : fs.dir v a with
      | none => exact ⟨hi, fun _ h => by cases h⟩
      | some d =>
        rw [if_neg (by simp)]
        refine ⟨⟨hi.1, fun v' a' d' hd' n x hx => ?_⟩, fun _ _ => rfl⟩
        simp only [List.foldl_cons, List.foldl_nil, TouWrite.apply, and_self, if_true, hd, Option.map_some] at hd'
        split at hd'
        · rename_i hva
          obtain ⟨rfl, rfl⟩ := hva
          injection hd' with hd'
          subst hd'
          by_cases hn : n = name
          · subst hn
            simp only [if_true] at hx
            injection hx with hx
            exact ⟨c, hx.symm, hp⟩
          · simp only [hn, if_false] at hx
            exact hi.2 _ _ d hd n x hx
        · exact hi.2 v' a' d' hd' n x hx

theorem survey_after (parse : Str → Str → Except PyErr C) (hist : List (TouEvent C)) (hc : ∀ e ∈ hist, ¬ e.Cut) : SurveyInv parse (touAfter (some parse) hist) := by
  induction hist using List.reverseRecOn with
  | nil => exact ⟨fun _ => rfl, fun v a d hd => by cases hd⟩
  | append_singleton hist e ih =>
    have ih := ih fun e he => hc e (List.mem_append_left _ he)
    have he := hc e (List.mem_append_right _ (List.mem_singleton.2 rfl))
    rw [touAfter_snoc]
    cases e with
    | create v a clear reply stop => exact survey_create parse _ ih v a clear reply stop
    | load v a name stop =>
      obtain rfl : stop = none := by simpa [TouEvent.Cut] using he
      exact (survey_load parse _ ih v a name).1

end Survey

section Trace
variable {R P : Type} (parse : Int → (Str → DiskFile R) → Except PyErr P) (crop : P → Except PyErr P)

theorem folderSeconds_nonneg {step : Int} (h : 0 ≤ step) : folderSeconds step = step / 1000000 := Int.tdiv_eq_ediv_of_nonneg h

/-- The unpacked files after the archive is unpacked. -/
theorem unpack_raw (files : Archive R) (h : OneEach files) (fs : TraceFiles R P) :
    let fs' := (files.flatMap (fun q => [TraceWrite.raw q.1 none, .raw q.1 (some q.2)])).foldl TraceWrite.apply fs
    fs'.zip = fs.zip ∧ fs'.parsed = fs.parsed ∧ ∀ n, fs'.raw n = match files.lookup n with | some c => some (some c) | none => fs.raw n := by
  induction files generalizing fs with
  | nil => exact ⟨rfl, rfl, fun n => rfl⟩
  | cons q files ih =>
    obtain ⟨k, x⟩ := q
    obtain ⟨hk, hn⟩ := List.nodup_cons.1 h
    intro fs'
    obtain ⟨h1, h2, h3⟩ := ih hn ((TraceWrite.raw k (some x)).apply ((TraceWrite.raw k none).apply fs))
    have e : fs' = (files.flatMap (fun q => [TraceWrite.raw q.1 none, .raw q.1 (some q.2)])).foldl TraceWrite.apply ((TraceWrite.raw k (some x)).apply ((TraceWrite.raw k none).apply fs)) := by
      simp only [fs', List.flatMap_cons, List.cons_append, List.nil_append, List.foldl_cons]
    rw [e]
    refine ⟨h1, h2, fun n => ?_⟩
    rw [h3 n]
    by_cases he : n = k
    · subst he
      have : files.lookup n = none := (archive_lookup_none hn n).2 fun c hc => hk (List.mem_map.2 ⟨_, hc, rfl⟩)
      rw [this, List.lookup_cons, beq_self_eq_true]
      simp [TraceWrite.apply]
    · rw [List.lookup_cons, beq_eq_false_iff_ne.2 he]
      cases files.lookup n with
      | some c => rfl
      | none => simp [he, TraceWrite.apply]

/-- The disk after a creation with a download that is not interrupted. -/
theorem download_trace (fs : TraceFiles R P) (version : Str) (step : Int) (clear update : Bool) (files : Archive R) (h : OneEach files) (hz : fs.zip.isSome = update) :
    (traceCreate fs version step clear update (.ok files)).2 = .ok () ∧
    let fs' := (traceCreate fs version step clear update (.ok files)).1.foldl TraceWrite.apply fs
    fs'.zip = some (some files) ∧ (∀ n, fs'.raw n = match files.lookup n with | some c => some (some c) | none => fs.raw n) ∧
      ∀ v s k, fs'.parsed v s k = if (clear || update) = true ∧ v = version ∧ s = folderSeconds step then none else fs.parsed v s k := by
  have hmake : traceCreate fs version step clear update (.ok files) = traceDownload ((if clear || update then [.clear version (folderSeconds step)] else []) ++ (if update then [.zip none] else [])) (.ok files) := by
    unfold traceCreate
    dsimp only
    rw [if_neg (by cases hf : fs.zip <;> rw [hf] at hz <;> subst hz <;> simp), if_neg (by cases hf : fs.zip <;> rw [hf] at hz <;> subst hz <;> simp)]
  rw [hmake]
  refine ⟨rfl, ?_⟩
  intro fs'
  let ws : List (TraceWrite R P) := (if clear || update then [.clear version (folderSeconds step)] else []) ++ (if update then [.zip none] else [])
  let fs1 := ws.foldl TraceWrite.apply fs
  have e : fs' = (files.flatMap (fun q => [TraceWrite.raw q.1 none, .raw q.1 (some q.2)])).foldl TraceWrite.apply ((TraceWrite.zip (some (some files))).apply ((TraceWrite.zip (some none)).apply fs1)) := by
    simp only [fs', fs1, ws, traceDownload, List.foldl_append, List.foldl_cons, List.foldl_nil]
  obtain ⟨h1, h2, h3⟩ := unpack_raw files h ((TraceWrite.zip (some (some files))).apply ((TraceWrite.zip (some none)).apply fs1))
  have hraw : fs1.raw = fs.raw := by
    simp only [fs1, ws]
    cases clear <;> cases update <;> simp [TraceWrite.apply]
  have hparsed : ∀ v s k, fs1.parsed v s k = if (clear || update) = true ∧ v = version ∧ s = folderSeconds step then none else fs.parsed v s k := by
    intro v s k
    simp only [fs1, ws]
    cases clear <;> cases update <;> simp [TraceWrite.apply]
  rw [e]
  refine ⟨h1, fun n => ?_, fun v s k => ?_⟩
  · rw [h3 n]
    simp only [TraceWrite.apply, hraw]
  · rw [h2]
    exact hparsed v s k

/-- A creation without download that is not interrupted. -/
theorem stay_trace (fs : TraceFiles R P) (version : Str) (step : Int) (clear update : Bool) (reply : Except PyErr (Archive R))
    (hz : (update = false ∧ fs.zip.isSome = true) ∨ (update = true ∧ fs.zip = none) ∨ (update = false ∧ fs.zip = none ∧ ∃ e, reply = .error e)) :
    let fs' := (traceCreate fs version step clear update reply).1.foldl TraceWrite.apply fs
    fs'.zip = fs.zip ∧ fs'.raw = fs.raw ∧ ∀ v s k, fs'.parsed v s k = if (clear || update) = true ∧ v = version ∧ s = folderSeconds step then none else fs.parsed v s k := by
  have hmake : (traceCreate fs version step clear update reply).1 = if clear || update then [.clear version (folderSeconds step)] else [] := by
    unfold traceCreate
    dsimp only
    rcases hz with ⟨rfl, hz⟩ | ⟨rfl, hz⟩ | ⟨rfl, hz, e, rfl⟩
    · rw [if_neg (by simp), if_pos (by simp [hz])]
    · rw [if_pos (by simp [hz])]
    · rw [if_neg (by simp), if_neg (by simp [hz])]
      simp [traceDownload]
  intro fs'
  simp only [fs', hmake]
  cases clear <;> cases update <;> simp [TraceWrite.apply]

/-- The parsed files are what is computed from the unpacked ones. -/
def Fresh (raw : Str → DiskFile R) (version : Str) (seconds : Int) (fs : TraceFiles R P) : Prop :=
  ∀ k, fs.parsed version seconds k = none ∨ ∃ p, fs.parsed version seconds k = some (some p) ∧ profilesOf parse crop k seconds raw = .ok p

variable {parse crop}

theorem full_result {fs : TraceFiles R P} {version : Str} {seconds : Int} (hf : Fresh parse crop fs.raw version seconds fs) : (traceFull parse fs version seconds).2 = parse seconds fs.raw := by
  unfold traceFull
  rcases hf .full with h | ⟨p, h, hp⟩
  · rw [h]
    dsimp only
    cases parse seconds fs.raw <;> rfl
  · rw [h]
    exact hp.symm

theorem load_result {fs : TraceFiles R P} {version : Str} {step : Int} (hf : Fresh parse crop fs.raw version (folderSeconds step) fs) (kind : ProfileKind) :
    (traceLoad parse crop fs version step kind).2 = profilesOf parse crop kind (folderSeconds step) fs.raw := by
  cases kind with
  | full => exact full_result hf
  | switchedOn =>
    unfold traceLoad
    rcases hf .switchedOn with h | ⟨p, h, hp⟩
    · rw [h]
      dsimp only
      rw [full_result hf]
      show (traceSave _ _ _ _ _).2 = (parse (folderSeconds step) fs.raw).bind crop
      cases (parse (folderSeconds step) fs.raw).bind crop <;> rfl
    · rw [h]
      exact hp.symm

/-- The changes of a load. -/
theorem load_writes (fs : TraceFiles R P) (v : Str) (step : Int) (kind : ProfileKind) :
    ∀ w ∈ (traceLoad parse crop fs v step kind).1, ∃ k c, w = .parsed v (folderSeconds step) k c := by
  have hs : ∀ (ws : List (TraceWrite R P)) k (r : Except PyErr P), (∀ w ∈ ws, ∃ k c, w = .parsed v (folderSeconds step) k c) → ∀ w ∈ (traceSave ws v (folderSeconds step) k r).1, ∃ k c, w = .parsed v (folderSeconds step) k c := by
    intro ws k r hw w h
    cases r with
    | error e => exact hw w h
    | ok p =>
      rcases List.mem_append.1 h with h | h
      · exact hw w h
      · simp only [List.mem_cons, List.not_mem_nil, or_false] at h
        rcases h with rfl | rfl <;> exact ⟨_, _, rfl⟩
  have hfull : ∀ w ∈ (traceFull parse fs v (folderSeconds step)).1, ∃ k c, w = .parsed v (folderSeconds step) k c := by
    unfold traceFull
    split
    · intro w h; cases h
    · intro w h; cases h
    · exact hs [] _ _ (by intro w h; cases h)
  cases kind with
  | full => exact hfull
  | switchedOn =>
    unfold traceLoad
    dsimp only
    split
    · intro w h; cases h
    · intro w h; cases h
    · exact hs _ _ _ hfull

theorem writes_parsed (ws : List (TraceWrite R P)) (fs : TraceFiles R P) (h : ∀ w ∈ ws, ∃ v s k c, w = .parsed v s k c) :
    (ws.foldl TraceWrite.apply fs).zip = fs.zip ∧ (ws.foldl TraceWrite.apply fs).raw = fs.raw := by
  induction ws generalizing fs with
  | nil => exact ⟨rfl, rfl⟩
  | cons w ws ih =>
    obtain ⟨v, s, k, c, rfl⟩ := h w (List.mem_cons_self ..)
    exact ih _ fun w hw => h w (List.mem_cons_of_mem _ hw)

theorem writes_elsewhere (ws : List (TraceWrite R P)) (fs : TraceFiles R P) (v' : Str) (s' : Int) (version : Str) (seconds : Int) (h : ∀ w ∈ ws, ∃ k c, w = .parsed v' s' k c) (hne : ¬ (version = v' ∧ seconds = s')) (k : ProfileKind) :
    (ws.foldl TraceWrite.apply fs).parsed version seconds k = fs.parsed version seconds k := by
  induction ws generalizing fs with
  | nil => rfl
  | cons w ws ih =>
    obtain ⟨k', c, rfl⟩ := h w (List.mem_cons_self ..)
    rw [List.foldl_cons, ih _ fun w hw => h w (List.mem_cons_of_mem _ hw)]
    simp only [TraceWrite.apply]
    rw [if_neg (fun hc => hne ⟨hc.1, hc.2.1⟩)]

/-- A load that is not interrupted keeps the parsed files as they should be. -/
theorem load_fresh (fs : TraceFiles R P) (version : Str) (seconds : Int) (hf : Fresh parse crop fs.raw version seconds fs) (v : Str) (step : Int) (kind : ProfileKind) :
    Fresh parse crop fs.raw version seconds ((traceLoad parse crop fs v step kind).1.foldl TraceWrite.apply fs) := by
  by_cases hv : version = v ∧ seconds = folderSeconds step
  · obtain ⟨rfl, rfl⟩ := hv
    have save : ∀ (fs' : TraceFiles R P) k (r : Except PyErr P), Fresh parse crop fs.raw version (folderSeconds step) fs' → r = profilesOf parse crop k (folderSeconds step) fs.raw →
        Fresh parse crop fs.raw version (folderSeconds step) ((traceSave [] version (folderSeconds step) k r).1.foldl TraceWrite.apply fs') := by
      intro fs' k r hf' hr
      cases r with
      | error e => exact hf'
      | ok p =>
        intro k'
        by_cases hk : k' = k
        · subst hk
          exact .inr ⟨p, by simp [traceSave, TraceWrite.apply], hr.symm⟩
        · rcases hf' k' with h | ⟨p', h, hp⟩
          · exact .inl (by simp [traceSave, TraceWrite.apply, hk, h])
          · exact .inr ⟨p', by simp [traceSave, TraceWrite.apply, hk, h], hp⟩
    have split_save : ∀ (ws : List (TraceWrite R P)) k (r : Except PyErr P), (traceSave ws version (folderSeconds step) k r).1 = ws ++ (traceSave [] version (folderSeconds step) k r).1 := by
      intro ws k r
      cases r <;> simp [traceSave]
    have full : Fresh parse crop fs.raw version (folderSeconds step) ((traceFull parse fs version (folderSeconds step)).1.foldl TraceWrite.apply fs) := by
      unfold traceFull
      rcases hf .full with h | ⟨p, h, hp⟩
      · rw [h]
        exact save fs .full _ hf rfl
      · rw [h]
        exact hf
    cases kind with
    | full => exact full
    | switchedOn =>
      unfold traceLoad
      rcases hf .switchedOn with h | ⟨p, h, hp⟩
      · rw [h]
        dsimp only
        rw [split_save, List.foldl_append]
        exact save _ .switchedOn _ full (by rw [full_result hf]; rfl)
      · rw [h]
        exact hf
  · intro k
    rw [writes_elsewhere _ fs v (folderSeconds step) version seconds (load_writes fs v step kind) hv k]
    exact hf k

theorem load_keeps (fs : TraceFiles R P) (v : Str) (step : Int) (kind : ProfileKind) (stop : Option Nat) :
    ((doneUntil stop (traceLoad parse crop fs v step kind).1).foldl TraceWrite.apply fs).zip = fs.zip ∧ ((doneUntil stop (traceLoad parse crop fs v step kind).1).foldl TraceWrite.apply fs).raw = fs.raw := by
  refine writes_parsed _ fs fun w hw => ?_
  obtain ⟨k, c, rfl⟩ := load_writes fs v step kind w (doneUntil_mem hw)
  exact ⟨_, _, _, _, rfl⟩

theorem traceAfter_snoc (hist : List (TraceEvent R)) (e : TraceEvent R) : traceAfter parse crop (hist ++ [e]) = e.apply parse crop (traceAfter parse crop hist) := by
  simp [traceAfter]

theorem lastArchive_snoc (hist : List (TraceEvent R)) (e : TraceEvent R) : lastArchive (hist ++ [e]) = traceArchive (lastArchive hist) e := by
  simp [lastArchive]

/-- What there is on the disk. -/
def TraceInv (parse : Int → (Str → DiskFile R) → Except PyErr P) (crop : P → Except PyErr P) (names : List Str) (version : Str) (seconds : Int) (fs : TraceFiles R P) : Option (Archive R) → Prop
  | none => fs.zip = none ∧ fs.raw = (fun _ => none) ∧ ∀ k, fs.parsed version seconds k = none
  | some files => OneEach files ∧ (∀ n, n ∈ namesOf files ↔ n ∈ names) ∧ (∃ z, fs.zip = some z) ∧ fs.raw = filesOf files ∧ Fresh parse crop (filesOf files) version seconds fs

theorem trace_inv (hp : ∀ s, ∃ e, parse s (fun _ => none) = .error e) (names : List Str) (version : Str) (seconds : Int) (hist : List (TraceEvent R)) (hc : ∀ e ∈ hist, ¬ e.Cut) (hu : ∀ e ∈ hist, e.UpdatesOnly version seconds)
    (hn : ∀ e ∈ hist, ∀ files, e.Sends files → OneEach files ∧ ∀ n, n ∈ namesOf files ↔ n ∈ names) : TraceInv parse crop names version seconds (traceAfter parse crop hist) (lastArchive hist) := by
  induction hist using List.reverseRecOn with
  | nil => exact ⟨rfl, rfl, fun _ => rfl⟩
  | append_singleton hist e ih =>
    have ih := ih (fun e he => hc e (List.mem_append_left _ he)) (fun e he => hu e (List.mem_append_left _ he)) (fun e he => hn e (List.mem_append_left _ he))
    have he : e ∈ hist ++ [e] := List.mem_append_right _ (List.mem_singleton.2 rfl)
    rw [traceAfter_snoc, lastArchive_snoc]
    generalize traceAfter parse crop hist = fs at ih
    generalize lastArchive hist = last at ih
    have hpk : ∀ k s, ∃ e, profilesOf parse crop k s (fun _ => none) = .error e := by
      intro k s
      obtain ⟨e, he⟩ := hp s
      cases k
      · exact ⟨e, he⟩
      · exact ⟨e, by unfold profilesOf; rw [he]; rfl⟩
    cases e with
    | load v step kind stop =>
      obtain rfl : stop = none := by simpa [TraceEvent.Cut] using hc _ he
      obtain ⟨h1, h2⟩ := load_keeps (parse := parse) (crop := crop) fs v step kind none
      cases last with
      | none =>
        obtain ⟨i1, i2, i3⟩ := ih
        refine ⟨h1.trans i1, h2.trans i2, fun k => ?_⟩
        have hf : Fresh parse crop fs.raw version seconds fs := fun k => .inl (i3 k)
        rcases load_fresh fs version seconds hf v step kind k with h | ⟨p, -, hp'⟩
        · exact h
        · rw [i2] at hp'
          obtain ⟨e, he⟩ := hpk k seconds
          rw [he] at hp'
          cases hp'
      | some files =>
        obtain ⟨i0, i1, ⟨z, i2⟩, i3, i4⟩ := ih
        have hf := load_fresh fs version seconds (i3 ▸ i4) v step kind
        rw [i3] at hf
        exact ⟨i0, i1, ⟨z, h1.trans i2⟩, h2.trans i3, hf⟩
    | create v step clear update reply stop =>
      obtain rfl : stop = none := by simpa [TraceEvent.Cut] using hc _ he
      have hup : update = true → v = version ∧ folderSeconds step = seconds ∧ ∃ files, reply = .ok files := by
        intro h
        obtain ⟨h1, h2, h3, h4⟩ := hu _ he h
        exact ⟨h1, by rw [folderSeconds_nonneg h2, h3], h4⟩
      have hrep : ∀ files, reply = .ok files → OneEach files ∧ ∀ n, n ∈ namesOf files ↔ n ∈ names := fun files hf => hn _ he files hf
      have hmem : ∀ (files : Archive R) n, n ∈ namesOf files ↔ ∃ c, (n, c) ∈ files := by
        intro files n
        simp [namesOf]
      cases last with
      | none =>
        obtain ⟨i1, i2, i3⟩ := ih
        cases update with
        | true =>
          obtain ⟨-, -, files, rfl⟩ := hup rfl
          obtain ⟨h1, h2, h3⟩ := stay_trace fs v step clear true (.ok files) (.inr (.inl ⟨rfl, i1⟩))
          refine ⟨h1.trans i1, h2.trans i2, fun k => ?_⟩
          simp only [TraceEvent.apply, doneUntil]
          rw [h3]
          split
          · rfl
          · exact i3 k
        | false =>
          cases reply with
          | error e =>
            obtain ⟨h1, h2, h3⟩ := stay_trace fs v step clear false (.error e) (.inr (.inr ⟨rfl, i1, e, rfl⟩))
            refine ⟨h1.trans i1, h2.trans i2, fun k => ?_⟩
            simp only [TraceEvent.apply, doneUntil]
            rw [h3]
            split
            · rfl
            · exact i3 k
          | ok files =>
            obtain ⟨ho, hnm⟩ := hrep files rfl
            obtain ⟨-, h1, h2, h3⟩ := download_trace fs v step clear false files ho (by rw [i1]; rfl)
            refine ⟨ho, hnm, ⟨_, h1⟩, ?_, fun k => .inl ?_⟩
            · funext n
              simp only [TraceEvent.apply, doneUntil]
              rw [h2 n, i2]
              unfold filesOf
              cases files.lookup n <;> rfl
            · simp only [TraceEvent.apply, doneUntil]
              rw [h3]
              split
              · rfl
              · exact i3 k
      | some old =>
        obtain ⟨i0, i1, ⟨z, i2⟩, i3, i4⟩ := ih
        cases update with
        | false =>
          have e : traceArchive (some old) (.create v step clear false reply none) = some old := by
            cases reply <;> rfl
          rw [e]
          obtain ⟨h1, h2, h3⟩ := stay_trace fs v step clear false reply (.inl ⟨rfl, by rw [i2]; rfl⟩)
          refine ⟨i0, i1, ⟨z, h1.trans i2⟩, h2.trans i3, fun k => ?_⟩
          simp only [TraceEvent.apply, doneUntil]
          rw [h3]
          split
          · exact .inl rfl
          · exact i4 k
        | true =>
          obtain ⟨rfl, rfl, files, rfl⟩ := hup rfl
          obtain ⟨ho, hnm⟩ := hrep files rfl
          obtain ⟨-, h1, h2, h3⟩ := download_trace fs v step clear true files ho (by rw [i2]; rfl)
          refine ⟨ho, hnm, ⟨_, h1⟩, ?_, fun k => .inl ?_⟩
          · funext n
            simp only [TraceEvent.apply, doneUntil]
            rw [h2 n, i3]
            unfold filesOf
            cases hl : files.lookup n with
            | some c => rfl
            | none =>
              have : old.lookup n = none := (archive_lookup_none i0 n).2 fun c hc => by
                have := (hnm n).2 ((i1 n).1 ((hmem old n).2 ⟨c, hc⟩))
                obtain ⟨c', hc'⟩ := (hmem files n).1 this
                exact (archive_lookup_none ho n).1 hl c' hc'
              rw [this]
          · simp only [TraceEvent.apply, doneUntil]
            rw [h3, if_pos ⟨by simp, rfl, rfl⟩]

end Trace
end Demod
