import Verif.Spec.Ninja
import Mathlib.Data.List.Induction
import Mathlib.Tactic.Ring
import Mathlib.Tactic.Linarith

/-!
# Lemmas on the files of the climate loaders
-/

namespace Demod

theorem ninjaCode_iff {country code : Str} : ninjaCode country = .ok code ↔ HasCode country code := by
  unfold ninjaCode isCountryCode
  constructor
  · intro h
    split at h
    · rename_i hl
      have hl : country.length = 2 := by simpa using hl
      injection h with h
      subst h
      match country, hl with
      | [a, b], _ => exact .code a b
    · unfold countryCode at h
      split at h
      · rename_i c hc
        injection h with h
        subst h
        have hf : ∀ (k v : Str) (l : List (Str × Str)), lookupA ((k, v) :: l) country = some c → (k = country ∧ v = c) ∨ lookupA l country = some c := by
          intro k v l h
          by_cases hk : k = country
          · left
            simp only [lookupA, List.find?_cons, hk, decide_true, Option.map_some] at h
            injection h with h
            exact ⟨hk, h⟩
          · right
            simpa only [lookupA, List.find?_cons, hk, decide_false] using h
        rcases hf _ _ _ hc with ⟨rfl, rfl⟩ | hc
        · exact .germany
        rcases hf _ _ _ hc with ⟨rfl, rfl⟩ | hc
        · exact .switzerland
        rcases hf _ _ _ hc with ⟨rfl, rfl⟩ | hc
        · exact .england
        simp [lookupA] at hc
      · simp at h
  · intro h
    cases h with
    | germany => decide
    | switzerland => decide
    | england => decide
    | code a b => simp

theorem ninjaCode_error {country : Str} (h : ∀ code, ¬ HasCode country code) : ninjaCode country = .error .notImplementedError := by
  unfold ninjaCode at *
  split
  · rename_i hl
    have hl : country.length = 2 := by simpa [isCountryCode] using hl
    match country, hl with
    | [a, b], _ => exact absurd (.code a b) (h _)
  · rename_i hl
    have h2 : ∀ code, countryCode country ≠ .ok code := by
      intro code hc
      apply h code
      rw [← ninjaCode_iff]
      unfold ninjaCode
      rw [if_neg hl, hc]
    unfold countryCode at *
    split
    · rename_i c hc
      exact absurd (by rw [hc]) (h2 c)
    · rfl

theorem hasCode_unique {country c c' : Str} (h : HasCode country c) (h' : HasCode country c') : c = c' := by
  rw [← ninjaCode_iff] at h h'
  rw [h] at h'
  injection h'

theorem applyWrites_append (fs : NinjaFiles) (a b : List NinjaWrite) : applyWrites fs (a ++ b) = applyWrites (applyWrites fs a) b := by
  unfold applyWrites; rw [List.foldl_append]

/-- Changes of the file of one code and weighting. -/
theorem applyWrites_raw (code w : Str) (files : List RawFile) : ∀ (fs : NinjaFiles) (f : RawFile),
    (applyWrites fs ((files ++ [f]).map (NinjaWrite.raw code w))).parsed = fs.parsed ∧
    (applyWrites fs ((files ++ [f]).map (NinjaWrite.raw code w))).raw = fun c w' => if c = code ∧ w' = w then some f else fs.raw c w' := by
  induction files with
  | nil => intro fs f; exact ⟨rfl, rfl⟩
  | cons x xs ih =>
    intro fs f
    have h := ih (NinjaWrite.apply fs (.raw code w x)) f
    simp only [List.cons_append, List.map_cons]
    have e : applyWrites fs (NinjaWrite.raw code w x :: (xs ++ [f]).map (NinjaWrite.raw code w)) = applyWrites (NinjaWrite.apply fs (.raw code w x)) ((xs ++ [f]).map (NinjaWrite.raw code w)) := rfl
    rw [e]
    refine ⟨h.1, ?_⟩
    rw [h.2]
    funext c w'
    by_cases hc : c = code ∧ w' = w
    · rw [if_pos hc, if_pos hc]
    · rw [if_neg hc, if_neg hc]
      simp only [NinjaWrite.apply, if_neg hc]

/-- The disk after a download that is not interrupted. -/
theorem download_all (fs : NinjaFiles) (code country w : Str) (rows : List NinjaRow) :
    (applyWrites fs (downloadWrites code country w rows)).raw = (fun c w' => if c = code ∧ w' = w then some (some rows) else fs.raw c w') ∧
    (applyWrites fs (downloadWrites code country w rows)).parsed = fun c => if c = country then none else fs.parsed c := by
  have e : downloadWrites code country w rows =
      ((none :: (List.range rows.length).map fun k => some (rows.take k)) ++ [some rows]).map (NinjaWrite.raw code w) ++ [NinjaWrite.parsed country none] := by
    unfold downloadWrites
    rw [List.range_succ]
    simp [Function.comp_def]
  rw [e, applyWrites_append]
  obtain ⟨h1, h2⟩ := applyWrites_raw code w (none :: (List.range rows.length).map fun k => some (rows.take k)) fs (some rows)
  constructor
  · rw [← h2]; rfl
  · rw [← h1]; rfl

theorem gives_parse (rows : List NinjaRow) (start : Int) : Gives rows start (loadHistory HOUR start (ninjaParse rows)) := by
  unfold loadHistory ninjaParse
  rw [List.getLast?_map]
  cases hl : rows.getLast? with
  | none =>
    left
    exact ⟨List.getLast?_eq_none_iff.1 hl, rfl⟩
  | some last =>
    right
    simp only [Option.map_some]
    by_cases hs : start > last.time
    · left
      exact ⟨last, hl, hs, by rw [if_pos hs]⟩
    · right
      refine ⟨last, _, hl, by omega, by rw [if_neg hs], ?_⟩
      clear hl
      induction rows with
      | nil => exact .nil
      | cons r rs ih =>
        by_cases hr : start < r.time + HOUR
        · rw [List.map_cons, List.filter_cons_of_pos (by simpa using hr), List.filter_cons_of_pos (by simp; omega)]
          refine .cons ⟨rfl, rfl, rfl, rfl, rfl, rfl, rfl, ?_⟩ ih
          simp only [ninjaPoint]; ring
        · rw [List.map_cons, List.filter_cons_of_neg (by simpa using hr), List.filter_cons_of_neg (by simp; omega)]
          exact ih

theorem ninjaAfter_snoc (hist : List NinjaEvent) (e : NinjaEvent) : ninjaAfter (hist ++ [e]) = e.apply (ninjaAfter hist) := by
  unfold ninjaAfter; rw [List.foldl_append]; rfl

/-- What an uninterrupted creation does. -/
theorem create_apply (fs : NinjaFiles) {country code : Str} (hc : HasCode country code) (update : Bool) (w : Str) (reply : Option (List NinjaRow)) :
    NinjaEvent.apply fs (.create country update w reply none) =
      if (fs.raw code w).isSome ∧ update = false then fs else
        match reply with
        | none => fs
        | some rows => applyWrites fs (downloadWrites code country w rows) := by
  simp only [NinjaEvent.apply, ninjaCreate, ninjaCode_iff.2 hc]
  by_cases h : (fs.raw code w).isSome ∧ update = false
  · rw [if_pos h]
    simp [bind, Except.bind, h.1, h.2, pure, Except.pure, madeWrites, applyWrites]
  · rw [if_neg h]
    have : ((fs.raw code w).isSome && !update) = false := by
      cases h1 : (fs.raw code w).isSome <;> cases update <;> simp_all
    simp only [bind, Except.bind, this]
    cases reply <;> rfl

/-- An uninterrupted load. -/
theorem load_apply (fs : NinjaFiles) (country w : Str) :
    (NinjaEvent.apply fs (.load country w none)).raw = fs.raw ∧
    (∀ c, c ≠ country → (NinjaEvent.apply fs (.load country w none)).parsed c = fs.parsed c) ∧
    (NinjaEvent.apply fs (.load country w none)).parsed country =
      (match fs.parsed country with
        | some f => some f
        | none => match (ninjaTable fs country w).2 with
          | .ok t => some (some t)
          | .error _ => none) := by
  simp only [NinjaEvent.apply, madeWrites]
  unfold ninjaTable
  split
  · rename_i t h
    exact ⟨rfl, fun _ _ => rfl, by simp [h, applyWrites]⟩
  · rename_i h
    exact ⟨rfl, fun _ _ => rfl, by simp [h, applyWrites]⟩
  · rename_i h
    split
    · exact ⟨rfl, fun _ _ => rfl, by simp [h, applyWrites]⟩
    · split
      · exact ⟨rfl, fun _ _ => rfl, by simp [h, applyWrites]⟩
      · exact ⟨rfl, fun _ _ => rfl, by simp [h, applyWrites]⟩
      · refine ⟨rfl, fun c hc => ?_, ?_⟩
        · simp [applyWrites, NinjaWrite.apply, hc]
        · simp [applyWrites, NinjaWrite.apply, h]

/-- An event of a country without a code changes nothing. -/
theorem noCode_apply (fs : NinjaFiles) {country : Str} (hc : ∀ code, ¬ HasCode country code) {e : NinjaEvent} {w : Str} (he : UsesLoader e country w) : e.apply fs = fs := by
  rcases he with ⟨u, r, stop, rfl⟩ | ⟨stop, rfl⟩
  · simp only [NinjaEvent.apply, ninjaCreate, ninjaCode_error hc]
    rfl
  · have : (ninjaTable fs country w).1 = [] := by
      unfold ninjaTable
      rw [ninjaCode_error hc]
      split <;> rfl
    simp only [NinjaEvent.apply, this]
    cases stop <;> simp [madeWrites, applyWrites]

theorem usesLoader_exists (e : NinjaEvent) : ∃ country w, UsesLoader e country w := by
  cases e with
  | create c u w r s => exact ⟨c, w, .inl ⟨u, r, s, rfl⟩⟩
  | load c w s => exact ⟨c, w, .inr ⟨s, rfl⟩⟩

/-- The invariant: the files of a loader without interruptions, when its code is used with one name and one weighting. -/
theorem ninja_inv {country code w : Str} (hc : HasCode country code) (hist : List NinjaEvent) :
    (∀ e ∈ hist, Uninterrupted e) → (∀ e ∈ hist, ∀ c w', UsesLoader e c w' → HasCode c code → c = country ∧ w' = w) →
    (∀ rows, LastDownload hist code w rows → (ninjaAfter hist).raw code w = some (some rows) ∧
      ((ninjaAfter hist).parsed country = none ∨ (ninjaAfter hist).parsed country = some (some (ninjaParse rows)))) ∧
    ((∀ e ∈ hist, ¬ Fetches code w e) → (ninjaAfter hist).raw code w = none ∧ (ninjaAfter hist).parsed country = none) := by
  induction hist using List.reverseRecOn with
  | nil =>
    intro _ _
    refine ⟨fun rows h => ?_, fun _ => ⟨rfl, rfl⟩⟩
    obtain ⟨b, _, _, a, h, -⟩ := h
    simp at h
  | append_singleton hist e ih =>
    intro hu hone
    obtain ⟨i1, i2⟩ := ih (fun e he => hu e (by simp [he])) (fun e he => hone e (by simp [he]))
    rw [ninjaAfter_snoc]
    set fs := ninjaAfter hist with hfs
    obtain ⟨c, w', hl⟩ := usesLoader_exists e
    have hue := hu e (by simp)
    have h1 := hone e (by simp) c w' hl
    -- the event before the last one
    have hlast : ∀ rows, LastDownload (hist ++ [e]) code w rows → (∃ u, e = .create c u w (some rows) none ∧ HasCode c code ∧ (u = false → ∀ e ∈ hist, ¬ Fetches code w e)) ∨
        (LastDownload hist code w rows ∧ ¬ Renews code w e) := by
      rintro rows ⟨b, c', u, a, he, hc', hb, ha⟩
      rcases List.eq_nil_or_concat a with rfl | ⟨a', x, rfl⟩
      · left
        have := List.append_inj' he rfl
        obtain ⟨rfl, h⟩ := this
        injection h with h _
        have : c' = c := by
          rw [h] at hl
          rcases hl with ⟨_, _, _, h⟩ | ⟨_, h⟩
          · injection h
          · simp at h
        subst this
        exact ⟨u, h, hc', hb⟩
      · right
        have : hist ++ [e] = (b ++ NinjaEvent.create c' u w (some rows) none :: a') ++ [x] := by rw [he]; simp
        obtain ⟨rfl, h⟩ := List.append_inj' this rfl
        injection h with h _
        subst h
        exact ⟨⟨b, c', u, a', rfl, hc', hb, fun e he => ha e (by simp [he])⟩, ha _ (by simp)⟩
    by_cases hcode : ∃ k, HasCode c k
    swap
    · rw [noCode_apply fs (fun k hk => hcode ⟨k, hk⟩) hl]
      refine ⟨fun rows hr => ?_, fun hf => i2 fun e he => hf e (by simp [he])⟩
      rcases hlast rows hr with ⟨u, -, h, -⟩ | ⟨h, -⟩
      · exact absurd ⟨_, h⟩ hcode
      · exact i1 rows h
    obtain ⟨k, hk⟩ := hcode
    by_cases hkc : k = code
    swap
    · -- another country
      have hne : c ≠ country := fun h => hkc (hasCode_unique hk (h ▸ hc))
      have hsame : (e.apply fs).raw code w = fs.raw code w ∧ (e.apply fs).parsed country = fs.parsed country := by
        rcases hue with ⟨c', u, w'', r, rfl⟩ | ⟨c', w'', rfl⟩
        · have : c' = c := by
            rcases hl with ⟨_, _, _, h⟩ | ⟨_, h⟩
            · injection h
            · simp at h
          subst this
          rw [create_apply fs hk]
          split
          · exact ⟨rfl, rfl⟩
          · cases r with
            | none => exact ⟨rfl, rfl⟩
            | some rows =>
              obtain ⟨h1, h2⟩ := download_all fs k c' w'' rows
              exact ⟨by rw [h1]; simp [Ne.symm hkc], by rw [h2]; simp [Ne.symm hne]⟩
        · have : c' = c := by
            rcases hl with ⟨_, _, _, h⟩ | ⟨_, h⟩
            · simp at h
            · injection h
          subst this
          obtain ⟨h1, h2, -⟩ := load_apply fs c' w''
          exact ⟨by rw [h1], h2 _ (Ne.symm hne)⟩
      rw [hsame.1, hsame.2]
      refine ⟨fun rows hr => ?_, fun hf => i2 fun e he => hf e (by simp [he])⟩
      rcases hlast rows hr with ⟨u, -, h, -⟩ | ⟨h, -⟩
      · exact absurd (hasCode_unique hk h) hkc
      · exact i1 rows h
    subst hkc
    obtain ⟨rfl, rfl⟩ := h1 hk
    rcases hue with ⟨c', u, w'', r, rfl⟩ | ⟨c', w'', rfl⟩
    · obtain ⟨rfl, rfl⟩ : c' = c ∧ w'' = w' := by
        rcases hl with ⟨_, _, _, h⟩ | ⟨_, h⟩
        · injection h with h1 h2 h3; exact ⟨h1, h3⟩
        · simp at h
      rw [create_apply fs hk]
      refine ⟨fun rows hr => ?_, fun hf => ?_⟩
      · rcases hlast rows hr with ⟨u', h, -, hb⟩ | ⟨h, hn⟩
        · injection h with _ h2 _ h4
          subst h2 h4
          have hnot : ¬ ((fs.raw k w'').isSome ∧ u = false) := by
            rintro ⟨ha, hb'⟩
            rw [(i2 (hb hb')).1] at ha
            simp at ha
          rw [if_neg hnot]
          obtain ⟨h1, h2⟩ := download_all fs k c' w'' rows
          exact ⟨by simp only; rw [h1]; simp, .inl (by simp only; rw [h2]; simp)⟩
        · have hi := i1 rows h
          split
          · exact hi
          · rename_i hnot
            cases r with
            | none => exact hi
            | some rows' =>
              have hu : u = true := by
                cases u
                · exact absurd ⟨by rw [hi.1]; rfl, rfl⟩ hnot
                · rfl
              exact absurd ⟨c', rows', none, by rw [hu], hk⟩ hn
      · have hi := i2 fun e he => hf e (by simp [he])
        split
        · exact hi
        · cases r with
          | none => exact hi
          | some rows => exact absurd ⟨c', u, rows, none, rfl, hk⟩ (hf _ (by simp))
    · obtain ⟨rfl, rfl⟩ : c' = c ∧ w'' = w' := by
        rcases hl with ⟨_, _, _, h⟩ | ⟨_, h⟩
        · simp at h
        · injection h with h1 h2; exact ⟨h1, h2⟩
      obtain ⟨h1, -, h3⟩ := load_apply fs c' w''
      rw [h1, h3]
      refine ⟨fun rows hr => ?_, fun hf => ?_⟩
      · rcases hlast rows hr with ⟨u', h, -, hb⟩ | ⟨h, hn⟩
        · simp at h
        · have hi := i1 rows h
          refine ⟨hi.1, ?_⟩
          right
          rcases hi.2 with h | h
          · have : (ninjaTable fs c' w'').2 = .ok (ninjaParse rows) := by
              unfold ninjaTable
              rw [h, ninjaCode_iff.2 hk]
              simp only [hi.1]
            simp only [h, this]
          · simp only [h]
      · have hi := i2 fun e he => hf e (by simp [he])
        refine ⟨hi.1, ?_⟩
        have : (ninjaTable fs c' w'').2 = .error .fileNotFoundError := by
          unfold ninjaTable
          rw [hi.2, ninjaCode_iff.2 hk]
          simp only [hi.1]
        simp only [hi.2, this]

theorem ninjaTable_of {fs : NinjaFiles} {country code w : Str} (hc : HasCode country code) {rows : List NinjaRow} (h1 : fs.raw code w = some (some rows))
    (h2 : fs.parsed country = none ∨ fs.parsed country = some (some (ninjaParse rows))) : (ninjaTable fs country w).2 = .ok (ninjaParse rows) := by
  unfold ninjaTable
  rcases h2 with h | h
  · rw [h, ninjaCode_iff.2 hc]
    simp only [h1]
  · rw [h]

/-- Once the parsed file is there, only a loader of the same name that downloads again changes it. -/
theorem parsed_stays {country : Str} {f : ParsedFile} (later : List NinjaEvent) : ∀ fs : NinjaFiles, fs.parsed country = some f →
    (∀ e ∈ later, ∀ w, UsesLoader e country w → (∃ stop, e = .load country w stop)) → (later.foldl NinjaEvent.apply fs).parsed country = some f := by
  induction later with
  | nil => intro fs h _; exact h
  | cons e es ih =>
    intro fs h hn
    rw [List.foldl_cons]
    refine ih _ ?_ fun e he => hn e (by simp [he])
    have hw : ∀ (ws : List NinjaWrite) (fs : NinjaFiles), (∀ x ∈ ws, ∀ g, x ≠ .parsed country g) → (applyWrites fs ws).parsed country = fs.parsed country := by
      intro ws
      induction ws with
      | nil => intro fs _; rfl
      | cons x xs ih =>
        intro fs hx
        have : applyWrites fs (x :: xs) = applyWrites (x.apply fs) xs := rfl
        rw [this, ih _ fun y hy => hx y (by simp [hy])]
        cases x with
        | raw => rfl
        | parsed c g =>
          have : country ≠ c := fun h => hx (.parsed c g) List.mem_cons_self g (by rw [h])
          simp [NinjaWrite.apply, this]
    have hm : ∀ (stop : Option Nat) (ws : List NinjaWrite), ∀ x ∈ madeWrites stop ws, x ∈ ws := by
      intro stop ws x hx
      cases stop with
      | none => exact hx
      | some n => exact List.mem_of_mem_take hx
    cases e with
    | create c u w r s =>
      have hne : c ≠ country := by
        rintro rfl
        obtain ⟨s', h⟩ := hn _ (by simp) w (.inl ⟨u, r, s, rfl⟩)
        simp at h
      simp only [NinjaEvent.apply]
      split
      · exact h
      · rename_i ws hws
        rw [hw, h]
        intro x hx g hg
        have hx := hm _ _ _ hx
        unfold ninjaCreate at hws
        cases hcode : ninjaCode c with
        | error e => rw [hcode] at hws; simp [bind, Except.bind] at hws
        | ok code =>
          rw [hcode] at hws
          simp only [bind, Except.bind] at hws
          split at hws
          · injection hws with hws
            subst hws
            simp at hx
          · cases r with
            | none => simp at hws
            | some rows =>
              injection hws with hws
              subst hws hg
              simp [downloadWrites] at hx
              exact hne hx.1.symm
    | load c w s =>
      simp only [NinjaEvent.apply]
      by_cases hcc : c = country
      · subst hcc
        have : (ninjaTable fs c w).1 = [] := by
          unfold ninjaTable
          rw [h]
          cases f <;> rfl
        rw [hw, h]
        intro x hx
        have := hm _ _ _ hx
        simp_all
      · rw [hw, h]
        intro x hx g hg
        have hx := hm _ _ _ hx
        subst hg
        unfold ninjaTable at hx
        split at hx
        · simp at hx
        · simp at hx
        · split at hx
          · simp at hx
          · split at hx
            · simp at hx
            · simp at hx
            · simp at hx
              rcases hx with hx | hx
              · exact hcc hx.1.symm
              · exact hcc hx.1.symm

end Demod
