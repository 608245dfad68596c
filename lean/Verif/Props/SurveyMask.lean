import Verif.Spec.SurveyMask
import Verif.Lemmas.Equip

/-! # C98: the diaries of a subgroup -/

namespace Demod

theorem everySecond_map {α β : Type} (f : α → β) (l : List α) : (everySecond l).map f = everySecond (l.map f) := by
  induction l using everySecond.induct with
  | case1 => rfl
  | case2 a => rfl
  | case3 a b l ih => simp only [everySecond, List.map_cons, ih]

theorem everySecond_pairs {α : Type} (l : List α) : everySecond (l.flatMap fun x => [x, x]) = l := by
  induction l with
  | nil => rfl
  | cons a l ih =>
    rw [List.flatMap_cons]
    change a :: everySecond (l.flatMap fun x => [x, x]) = _
    rw [ih]

theorem keepRow_iff (s : SurveyTables) (hp : PairedMissing s) (f m i : Bool) (r : DiaryRow) : keepRow s f m i r = true ↔ (f = true → Complete s r) ∧ (m = true → NobodyMissing s r) ∧ (i = true → SameDays s r) := by
  obtain ⟨l, hl⟩ := hp
  have hany : ((everySecond (s.rows.filter fun q => decide (q.missing ≠ 0))).any fun q => decide (r.hh = q.hh) && decide (r.day = q.missing)) = false ↔ NobodyMissing s r := by
    have e : (everySecond (s.rows.filter fun q => decide (q.missing ≠ 0))).map (fun q => (q.hh, q.missing)) = l := by
      rw [everySecond_map, hl, everySecond_pairs]
    have e2 : ((everySecond (s.rows.filter fun q => decide (q.missing ≠ 0))).any fun q => decide (r.hh = q.hh) && decide (r.day = q.missing)) = l.any fun x => decide (r.hh = x.1) && decide (r.day = x.2) := by
      rw [← e, List.any_map]
      rfl
    rw [e2, List.any_eq_false]
    have hmem : ∀ x, x ∈ l ↔ ∃ q ∈ s.rows, q.missing ≠ 0 ∧ (q.hh, q.missing) = x := by
      intro x
      have h1 : x ∈ l.flatMap (fun x => [x, x]) ↔ x ∈ l := by
        rw [List.mem_flatMap]
        constructor
        · rintro ⟨y, hy, hx⟩
          have : x = y := by simpa using hx
          exact this ▸ hy
        · intro hx
          exact ⟨x, hx, by simp⟩
      rw [← h1, ← hl, List.mem_map]
      constructor
      · rintro ⟨q, hq, e⟩
        rw [List.mem_filter] at hq
        exact ⟨q, hq.1, by simpa using hq.2, e⟩
      · rintro ⟨q, hq, hm, e⟩
        exact ⟨q, List.mem_filter.2 ⟨hq, by simpa using hm⟩, e⟩
    unfold NobodyMissing
    constructor
    · intro h q hq hm h1 h2
      have := h (q.hh, q.missing) ((hmem _).2 ⟨q, hq, hm, rfl⟩)
      simp [h1, h2] at this
    · intro h x hx hc
      obtain ⟨q, hq, hm, rfl⟩ := (hmem x).1 hx
      simp only [Bool.and_eq_true, decide_eq_true_eq] at hc
      exact h q hq hm hc.1.symm hc.2.symm
  unfold keepRow
  rw [Bool.and_eq_true, Bool.and_eq_true, and_assoc]
  refine and_congr ?_ (and_congr ?_ ?_)
  · unfold Complete
    cases f
    · simp
    · simp only [Bool.not_true, Bool.false_or, decide_eq_true_eq, List.mem_filter, forall_const]
      rw [sub_eq_zero]
  · cases m
    · simp
    · rw [← hany]
      simp only [Bool.not_true, Bool.false_or, forall_const, Bool.not_eq_true']
  · unfold SameDays
    cases i <;> simp

theorem scalarCond_ok (v hi : Int) (attr : DiaryRow → Int) (h : Accepted v hi) : ∃ f, scalarCond v hi attr = .ok f ∧ ∀ r, f r = true ↔ Meets v (attr r) := by
  unfold scalarCond Meets
  by_cases h0 : v = 0
  · rw [if_pos h0]
    exact ⟨_, rfl, fun r => by simp [h0]⟩
  · rw [if_neg h0, if_neg (by unfold Accepted at h; omega)]
    exact ⟨_, rfl, fun r => by simp [h0]⟩

theorem scalarCond_error (v hi : Int) (attr : DiaryRow → Int) (h : ¬ Accepted v hi) : scalarCond v hi attr = .error .assertionError := by
  unfold scalarCond
  unfold Accepted at h
  rw [if_neg (by omega), if_pos (by omega)]

theorem oneOfCond_ok (s : SurveyTables) (a : OneOf) (hi : Int) (attr : DiaryRow → Int) (h : AcceptedOne a hi) :
    ∃ f, oneOfCond s a hi attr = .ok f ∧ ∀ r, (keepRow s true true true r = true ∨ ∃ v, a = .one v) → (f r = true ↔ MeetsOne a (attr r)) := by
  cases a with
  | one v =>
    obtain ⟨f, e, hf⟩ := scalarCond_ok v hi attr h
    exact ⟨f, e, fun r _ => hf r⟩
  | list vs =>
    cases vs with
    | nil => exact ⟨_, rfl, fun r _ => by simp [MeetsOne]⟩
    | cons v vs =>
      have hm : ∀ (l : List Int), (∀ v ∈ l, Accepted v hi) → ∃ fs : List (DiaryRow → Bool), l.mapM (fun v => scalarCond v hi attr) = .ok fs ∧ ∀ r (b : Bool), ((fs.any fun f => b && f r) = true ↔ b = true ∧ ∃ v ∈ l, v = 0 ∨ attr r = v) := by
        intro l
        induction l with
        | nil => intro _; exact ⟨[], rfl, fun r b => by simp⟩
        | cons v l ih =>
          intro hl
          obtain ⟨fs, e, hfs⟩ := ih fun x hx => hl x (List.mem_cons_of_mem _ hx)
          obtain ⟨f, e1, hf⟩ := scalarCond_ok v hi attr (hl v List.mem_cons_self)
          refine ⟨f :: fs, by rw [List.mapM_cons, e1, e]; rfl, fun r b => ?_⟩
          rw [List.any_cons, Bool.or_eq_true, hfs, Bool.and_eq_true, hf, List.exists_mem_cons_iff]
          unfold Meets
          exact and_or_left.symm
      obtain ⟨fs, e, hfs⟩ := hm (v :: vs) h
      refine ⟨fun r => fs.any fun f => keepRow s true true true r && f r, ?_, ?_⟩
      · change (do let fs ← (v :: vs).mapM fun v => scalarCond v hi attr; _ : Except PyErr _) = _
        rw [e]
        rfl
      · intro r hr
        rcases hr with hr | ⟨v, hv⟩
        · beta_reduce
          rw [hfs, and_iff_right hr]
          unfold MeetsOne Meets
          constructor
          · exact Or.inr
          · rintro (h | h)
            · cases h
            · exact h
        · cases hv

theorem rangeCond_ok {α : Type} [LE α] [LT α] [DecidableLE α] [DecidableLT α] (a : Option (α × α)) (attr : DiaryRow → α) (h : AcceptedRange a) : ∃ f, rangeCond a attr = .ok f ∧ ∀ r, f r = true ↔ Inside a (attr r) := by
  cases a with
  | none => exact ⟨_, rfl, fun r => by simp [Inside]⟩
  | some q =>
    obtain ⟨lo, hi⟩ := q
    refine ⟨fun r => decide (lo ≤ attr r) && decide (attr r < hi), ?_, fun r => by simp [Inside]⟩
    unfold rangeCond
    exact if_neg (not_not.2 h)

theorem bothRetired_ok (jobs : List Int) (h : 2 ≤ jobs.length) : ∃ b, bothRetired jobs = .ok b ∧ (b = true ↔ ∃ rest, jobs = 8 :: 8 :: rest) := by
  match jobs, h with
  | j1 :: j2 :: rest, _ =>
    unfold bothRetired
    change ∃ b, (if j1 = 8 then .ok (decide (j2 = 8)) else .ok false : Except PyErr Bool) = .ok b ∧ _
    by_cases h1 : j1 = 8
    · rw [if_pos h1]
      exact ⟨_, rfl, by simp [h1]⟩
    · rw [if_neg h1]
      exact ⟨_, rfl, by simp [h1]⟩

theorem twoRetired_ok (s : SurveyTables) (h : PersonsListed s) : ∃ ids, twoRetired s = .ok ids ∧ ∀ x, x ∈ ids ↔ x ∈ s.hhIds ∧ (s.hh x).size = 2 ∧ ∃ rest, (s.persons.filter fun q => decide (q.1 = x)).map (·.2) = 8 :: 8 :: rest := by
  have key : ∀ (l : List Nat), (∀ x ∈ l, 2 ≤ (s.persons.filter fun q => decide (q.1 = x)).length) → ∃ tests : List Bool, l.mapM (fun h => bothRetired ((s.persons.filter fun q => decide (q.1 = h)).map (·.2))) = .ok tests ∧
      ∀ x, x ∈ ((l.zip tests).filterMap fun q => if q.2 then some q.1 else none) ↔ x ∈ l ∧ ∃ rest, (s.persons.filter fun q => decide (q.1 = x)).map (·.2) = 8 :: 8 :: rest := by
    intro l
    induction l with
    | nil => intro _; exact ⟨[], rfl, fun x => by simp⟩
    | cons y l ih =>
      intro hl
      obtain ⟨ts, e, hts⟩ := ih fun x hx => hl x (List.mem_cons_of_mem _ hx)
      obtain ⟨b, eb, hb⟩ := bothRetired_ok ((s.persons.filter fun q => decide (q.1 = y)).map (·.2)) (by rw [List.length_map]; exact hl y List.mem_cons_self)
      refine ⟨b :: ts, by rw [List.mapM_cons, eb, e]; rfl, fun x => ?_⟩
      rw [List.zip_cons_cons]
      cases b with
      | true =>
        rw [List.filterMap_cons_some (b := y) (by rfl), List.mem_cons, List.mem_cons, hts, or_and_right]
        refine or_congr_left ⟨fun hx => ⟨hx, ?_⟩, fun hx => hx.1⟩
        rw [hx]
        exact hb.1 rfl
      | false =>
        rw [List.filterMap_cons_none (by rfl), List.mem_cons, hts, or_and_right]
        refine ⟨Or.inr, ?_⟩
        rintro (⟨rfl, hx⟩ | hx)
        · exact absurd (hb.2 hx) (by decide)
        · exact hx
  obtain ⟨ts, e, hts⟩ := key (s.hhIds.filter fun h => decide ((s.hh h).size = 2)) (by
    intro x hx
    rw [List.mem_filter] at hx
    exact h x hx.1 (by simpa using hx.2))
  refine ⟨_, by unfold twoRetired; simp only [e, bind, Except.bind]; rfl, fun x => ?_⟩
  rw [hts, List.mem_filter]
  simp only [decide_eq_true_eq, and_assoc]

theorem workCond_ok (s : SurveyTables) (hl : PersonsListed s) (work : Option Str)
    (h : ∀ w, work = some w → w ∈ ["".toList, "1_fulltime".toList, "1_halftime".toList, "2_fulltime".toList, "1_fulltime_1_halftime".toList, "3_fulltime".toList, "other".toList, "1_retired".toList, "2_retired".toList]) :
    ∃ f, workCond s work = .ok f ∧ ∀ r, (keepRow s true true true r = true ∨ work ≠ some "1_retired".toList) → (f r = true ↔ Works s work r) := by
  cases work with
  | none => exact ⟨_, rfl, fun r _ => by simp [Works]⟩
  | some w =>
    have hw := h w rfl
    simp only [List.mem_cons, List.not_mem_nil, or_false] at hw
    rcases hw with rfl | rfl | rfl | rfl | rfl | rfl | rfl | rfl | rfl
    · refine ⟨fun _ => true, rfl, fun r _ => ?_⟩
      simp [Works]
    · exact ⟨fun r => decide ((s.hh r.hh).workers = 2), by rfl, fun r _ => by
        unfold Works; simp⟩
    · exact ⟨fun r => decide ((s.hh r.hh).workers = 3), by rfl, fun r _ => by
        unfold Works; simp⟩
    · exact ⟨fun r => decide ((s.hh r.hh).workers = 4), by rfl, fun r _ => by
        unfold Works; simp⟩
    · exact ⟨fun r => decide ((s.hh r.hh).workers = 5), by rfl, fun r _ => by
        unfold Works; simp⟩
    · exact ⟨fun r => decide ((s.hh r.hh).workers = 6), by rfl, fun r _ => by
        unfold Works; simp⟩
    · exact ⟨fun r => decide ((s.hh r.hh).workers = 7), by rfl, fun r _ => by
        unfold Works; simp⟩
    · refine ⟨fun r => keepRow s true true true r && decide ((s.hh r.hh).size = 1) && decide (r.life = 8), by rfl, fun r hr => ?_⟩
      rcases hr with hr | hr
      · beta_reduce
        rw [hr]
        unfold Works; simp
      · exact absurd rfl hr
    · obtain ⟨ids, e, hids⟩ := twoRetired_ok s hl
      refine ⟨fun r => decide (r.hh ∈ ids), ?_, fun r _ => ?_⟩
      · change (do let ids ← twoRetired s; _ : Except PyErr _) = _
        rw [e]
        rfl
      · rw [decide_eq_true_eq, hids]
        unfold Works; simp

/-- With accepted arguments the mask has one entry per diary, and selects those that belong to the subgroup: with the default filters, or with single values only. -/
theorem C98_mask_partial (s : SurveyTables) (a : SubgroupArgs) (hp : PairedMissing s) (hl : PersonsListed s) (ha : AcceptedArgs a)
    (hd : (a.full = true ∧ a.removeMissing = true ∧ a.identical = true) ∨ ((∃ v, a.weekday = .one v) ∧ (∃ v, a.residents = .one v) ∧ (∃ v, a.life = .one v) ∧ a.work ≠ some "1_retired".toList)) :
    ∃ mask, maskSubgroup s a = .ok mask ∧ mask.length = s.rows.length ∧ ∀ (k : Nat) r, s.rows[k]? = some r → (mask[k]? = some true ↔ BelongsTo s a r) := by
  obtain ⟨f1, e1, h1⟩ := scalarCond_ok a.quarter 4 (·.quarter) ha.quarter
  obtain ⟨f2, e2, h2⟩ := oneOfCond_ok s a.weekday 7 (·.weekday) ha.weekday
  obtain ⟨f3, e3, h3⟩ := oneOfCond_ok s a.residents 6 (fun r => (s.hh r.hh).size) ha.residents
  obtain ⟨f4, e4, h4⟩ := workCond_ok s hl a.work ha.work
  obtain ⟨f5, e5, h5⟩ := scalarCond_ok a.type 5 (fun r => (s.hh r.hh).type) ha.type
  obtain ⟨f6, e6, h6⟩ := oneOfCond_ok s a.life 11 (·.life) ha.life
  obtain ⟨f7, e7, h7⟩ := scalarCond_ok a.salary 5 (·.salary) ha.salary
  obtain ⟨f8, e8, h8⟩ := scalarCond_ok a.revenue 5 (fun r => (s.hh r.hh).revenue) ha.revenue
  obtain ⟨f9, e9, h9⟩ := scalarCond_ok a.position 9 (·.position) ha.position
  obtain ⟨f10, e10, h10⟩ := rangeCond_ok a.age (·.age) ha.age
  obtain ⟨f11, e11, h11⟩ := rangeCond_ok a.meanAge (fun r => (s.hh r.hh).meanAge) ha.meanAge
  obtain ⟨f12, e12, h12⟩ := scalarCond_ok a.birth 2 (·.birth) ha.birth
  obtain ⟨f13, e13, h13⟩ := scalarCond_ok a.gender 2 (·.gender) ha.gender
  refine ⟨s.rows.map fun r => keepRow s a.full a.removeMissing a.identical r && [f1, f2, f3, f4, f5, f6, f7, f8, f9, f10, f11, f12, f13].all fun f => f r, ?_, by simp, ?_⟩
  · unfold maskSubgroup
    simp only [e1, e2, e3, e4, e5, e6, e7, e8, e9, e10, e11, e12, e13, bind, Except.bind]
  · intro k r hr
    rw [List.getElem?_map, hr, Option.map_some, Option.some.injEq, Bool.and_eq_true, keepRow_iff s hp]
    have hall : ([f1, f2, f3, f4, f5, f6, f7, f8, f9, f10, f11, f12, f13].all fun f => f r) = true ↔
        f1 r = true ∧ f2 r = true ∧ f3 r = true ∧ f4 r = true ∧ f5 r = true ∧ f6 r = true ∧ f7 r = true ∧ f8 r = true ∧ f9 r = true ∧ f10 r = true ∧ f11 r = true ∧ f12 r = true ∧ f13 r = true := by
      simp only [List.all_cons, List.all_nil, Bool.and_eq_true, and_true]
    rw [hall]
    have cond : ∀ (hk : (a.full = true → Complete s r) ∧ (a.removeMissing = true → NobodyMissing s r) ∧ (a.identical = true → SameDays s r)),
        (f2 r = true ↔ MeetsOne a.weekday r.weekday) ∧ (f3 r = true ↔ MeetsOne a.residents (s.hh r.hh).size) ∧ (f4 r = true ↔ Works s a.work r) ∧ (f6 r = true ↔ MeetsOne a.life r.life) := by
      intro hk
      rcases hd with ⟨d1, d2, d3⟩ | ⟨d1, d2, d3, d4⟩
      · have hkeep : keepRow s true true true r = true := (keepRow_iff s hp _ _ _ r).2 ⟨fun _ => hk.1 d1, fun _ => hk.2.1 d2, fun _ => hk.2.2 d3⟩
        exact ⟨h2 r (Or.inl hkeep), h3 r (Or.inl hkeep), h4 r (Or.inl hkeep), h6 r (Or.inl hkeep)⟩
      · exact ⟨h2 r (Or.inr d1), h3 r (Or.inr d2), h4 r (Or.inr d4), h6 r (Or.inr d3)⟩
    constructor
    · rintro ⟨hk, g1, g2, g3, g4, g5, g6, g7, g8, g9, g10, g11, g12, g13⟩
      obtain ⟨c2, c3, c4, c6⟩ := cond hk
      exact ⟨hk.1, hk.2.1, hk.2.2, (h1 r).1 g1, c2.1 g2, c3.1 g3, c4.1 g4, (h5 r).1 g5, c6.1 g6, (h7 r).1 g7, (h8 r).1 g8, (h9 r).1 g9, (h10 r).1 g10, (h11 r).1 g11, (h12 r).1 g12, (h13 r).1 g13⟩
    · intro hs
      have hk := And.intro hs.full (And.intro hs.missing hs.identical)
      obtain ⟨c2, c3, c4, c6⟩ := cond hk
      exact ⟨hk, (h1 r).2 hs.quarter, c2.2 hs.weekday, c3.2 hs.residents, c4.2 hs.work, (h5 r).2 hs.type, c6.2 hs.life, (h7 r).2 hs.salary, (h8 r).2 hs.revenue, (h9 r).2 hs.position, (h10 r).2 hs.age, (h11 r).2 hs.meanAge, (h12 r).2 hs.birth, (h13 r).2 hs.gender⟩

theorem scalarCond_accepts (v hi : Int) (attr : DiaryRow → Int) : (∀ f, scalarCond v hi attr = .ok f → Accepted v hi) ∧ ∀ e, scalarCond v hi attr = .error e → e = .assertionError := by
  by_cases h : Accepted v hi
  · obtain ⟨f, e, _⟩ := scalarCond_ok v hi attr h
    exact ⟨fun _ _ => h, fun x hx => by rw [e] at hx; cases hx⟩
  · have e := scalarCond_error v hi attr h
    exact ⟨fun f hf => (by rw [e] at hf; cases hf), fun x hx => by rw [e] at hx; exact (Except.error.inj hx).symm⟩

theorem oneOfCond_accepts (s : SurveyTables) (a : OneOf) (hi : Int) (attr : DiaryRow → Int) : (∀ f, oneOfCond s a hi attr = .ok f → AcceptedOne a hi) ∧ ∀ e, oneOfCond s a hi attr = .error e → e = .assertionError := by
  cases a with
  | one v => exact scalarCond_accepts v hi attr
  | list vs =>
    have hm : ∀ l : List Int, (∀ fs, l.mapM (fun v => scalarCond v hi attr) = .ok fs → ∀ v ∈ l, Accepted v hi) ∧ ∀ e, l.mapM (fun v => scalarCond v hi attr) = .error e → e = .assertionError := by
      intro l
      induction l with
      | nil => exact ⟨fun _ _ v hv => absurd hv List.not_mem_nil, fun e h => by cases h⟩
      | cons v l ih =>
        rw [List.mapM_cons]
        cases h1 : scalarCond v hi attr with
        | error e => exact ⟨fun fs h => (by cases h), fun x hx => (scalarCond_accepts v hi attr).2 x (h1.trans (congrArg Except.error (Except.error.inj hx)))⟩
        | ok f =>
          cases h2 : l.mapM (fun v => scalarCond v hi attr) with
          | error e => exact ⟨fun fs h => (by cases h), fun x hx => ih.2 x (h2.trans (congrArg Except.error (Except.error.inj hx)))⟩
          | ok fs =>
            refine ⟨fun _ _ x hx => ?_, fun x hx => by cases hx⟩
            rcases List.mem_cons.1 hx with rfl | hx
            · exact (scalarCond_accepts x hi attr).1 f h1
            · exact ih.1 fs h2 x hx
    cases vs with
    | nil => exact ⟨fun _ _ v hv => absurd hv List.not_mem_nil, fun e h => by cases h⟩
    | cons v vs =>
      unfold oneOfCond
      have := hm (v :: vs)
      cases h2 : (v :: vs).mapM (fun v => scalarCond v hi attr) with
      | error e => exact ⟨fun f h => (by simp only [h2, bind, Except.bind] at h; cases h), fun x hx => this.2 x (by simp only [h2, bind, Except.bind] at hx; rw [h2]; exact congrArg Except.error (Except.error.inj hx))⟩
      | ok fs => exact ⟨fun _ _ => this.1 fs h2, fun x hx => by simp only [h2, bind, Except.bind] at hx; cases hx⟩

theorem rangeCond_accepts {α : Type} [LE α] [LT α] [DecidableLE α] [DecidableLT α] (a : Option (α × α)) (attr : DiaryRow → α) : (∀ f, rangeCond a attr = .ok f → AcceptedRange a) ∧ ∀ e, rangeCond a attr = .error e → e = .assertionError := by
  cases a with
  | none => exact ⟨fun _ _ => trivial, fun e h => by cases h⟩
  | some q =>
    obtain ⟨lo, hi⟩ := q
    unfold rangeCond
    by_cases h : lo ≤ hi
    · exact ⟨fun _ _ => h, fun e he => by dsimp only at he; rw [if_neg (not_not.2 h)] at he; cases he⟩
    · exact ⟨fun f hf => (by dsimp only at hf; rw [if_pos h] at hf; cases hf), fun e he => by dsimp only at he; rw [if_pos h] at he; exact (Except.error.inj he).symm⟩

theorem workCond_accepts (s : SurveyTables) (work : Option Str) : (∀ f, workCond s work = .ok f → ∀ w, work = some w → w ∈ ["".toList, "1_fulltime".toList, "1_halftime".toList, "2_fulltime".toList, "1_fulltime_1_halftime".toList, "3_fulltime".toList, "other".toList, "1_retired".toList, "2_retired".toList]) ∧
    (PersonsListed s → ∀ e, workCond s work = .error e → e = .valueError) := by
  by_cases h : ∀ w, work = some w → w ∈ ["".toList, "1_fulltime".toList, "1_halftime".toList, "2_fulltime".toList, "1_fulltime_1_halftime".toList, "3_fulltime".toList, "other".toList, "1_retired".toList, "2_retired".toList]
  · refine ⟨fun _ _ => h, fun hl e he => ?_⟩
    obtain ⟨f, e1, _⟩ := workCond_ok s hl work h
    rw [e1] at he
    cases he
  · push Not at h
    obtain ⟨w, rfl, hw⟩ := h
    have hne : ∀ x : Str, x ∈ ["".toList, "1_fulltime".toList, "1_halftime".toList, "2_fulltime".toList, "1_fulltime_1_halftime".toList, "3_fulltime".toList, "other".toList, "1_retired".toList, "2_retired".toList] → w ≠ x := fun x hx e => hw (e ▸ hx)
    have hnil : w ≠ [] := hne [] (by decide)
    have hfind : (workCode.find? fun q => decide (q.1 = w)) = none := by
      rw [List.find?_eq_none]
      intro q hq
      rw [decide_eq_true_eq]
      intro e
      have : q.1 ∈ workCode.map (·.1) := List.mem_map_of_mem hq
      refine hne q.1 ?_ e.symm
      have hsub : ∀ x ∈ workCode.map (·.1), x ∈ ["".toList, "1_fulltime".toList, "1_halftime".toList, "2_fulltime".toList, "1_fulltime_1_halftime".toList, "3_fulltime".toList, "other".toList, "1_retired".toList, "2_retired".toList] := by decide
      exact hsub _ this
    have e : workCond s (some w) = .error .valueError := by
      unfold workCond
      dsimp only
      rw [if_neg hnil, hfind]
      change (if w = "1_retired".toList then _ else _) = _
      rw [if_neg (hne _ (by decide)), if_neg (hne _ (by decide))]
    exact ⟨fun f hf => (by rw [e] at hf; cases hf), fun _ x hx => by rw [e] at hx; exact (Except.error.inj hx).symm⟩

/-- A mask is returned only for accepted arguments; the others raise an AssertionError or a ValueError. -/
theorem C98_rejects (s : SurveyTables) (a : SubgroupArgs) :
    (∀ mask, maskSubgroup s a = .ok mask → AcceptedArgs a) ∧
    (PersonsListed s → ¬ AcceptedArgs a → maskSubgroup s a = .error .assertionError ∨ maskSubgroup s a = .error .valueError) := by
  have main : (∀ mask, maskSubgroup s a = .ok mask → AcceptedArgs a) ∧ (PersonsListed s → ∀ e, maskSubgroup s a = .error e → e = .assertionError ∨ e = .valueError) := by
    have a1 := scalarCond_accepts a.quarter 4 (·.quarter)
    have a2 := oneOfCond_accepts s a.weekday 7 (·.weekday)
    have a3 := oneOfCond_accepts s a.residents 6 (fun r => (s.hh r.hh).size)
    have a4 := workCond_accepts s a.work
    have a5 := scalarCond_accepts a.type 5 (fun r => (s.hh r.hh).type)
    have a6 := oneOfCond_accepts s a.life 11 (·.life)
    have a7 := scalarCond_accepts a.salary 5 (·.salary)
    have a8 := scalarCond_accepts a.revenue 5 (fun r => (s.hh r.hh).revenue)
    have a9 := scalarCond_accepts a.position 9 (·.position)
    have a10 := rangeCond_accepts a.age (·.age)
    have a11 := rangeCond_accepts a.meanAge (fun r => (s.hh r.hh).meanAge)
    have a12 := scalarCond_accepts a.birth 2 (·.birth)
    have a13 := scalarCond_accepts a.gender 2 (·.gender)
    unfold maskSubgroup
    simp only [bind, Except.bind]
    generalize scalarCond a.quarter 4 (·.quarter) = x1 at *
    generalize oneOfCond s a.weekday 7 (·.weekday) = x2 at *
    generalize oneOfCond s a.residents 6 (fun r => (s.hh r.hh).size) = x3 at *
    generalize workCond s a.work = x4 at *
    generalize scalarCond a.type 5 (fun r => (s.hh r.hh).type) = x5 at *
    generalize oneOfCond s a.life 11 (·.life) = x6 at *
    generalize scalarCond a.salary 5 (·.salary) = x7 at *
    generalize scalarCond a.revenue 5 (fun r => (s.hh r.hh).revenue) = x8 at *
    generalize scalarCond a.position 9 (·.position) = x9 at *
    generalize rangeCond a.age (·.age) = x10 at *
    generalize rangeCond a.meanAge (fun r => (s.hh r.hh).meanAge) = x11 at *
    generalize scalarCond a.birth 2 (·.birth) = x12 at *
    generalize scalarCond a.gender 2 (·.gender) = x13 at *
    rcases x1 with e | f1
    · exact ⟨fun m h => (by cases h), fun _ x h => (Except.error.inj h) ▸ Or.inl (a1.2 e rfl)⟩
    rcases x2 with e | f2
    · exact ⟨fun m h => (by cases h), fun _ x h => (Except.error.inj h) ▸ Or.inl (a2.2 e rfl)⟩
    rcases x3 with e | f3
    · exact ⟨fun m h => (by cases h), fun _ x h => (Except.error.inj h) ▸ Or.inl (a3.2 e rfl)⟩
    rcases x4 with e | f4
    · exact ⟨fun m h => (by cases h), fun hl x h => (Except.error.inj h) ▸ Or.inr (a4.2 hl e rfl)⟩
    rcases x5 with e | f5
    · exact ⟨fun m h => (by cases h), fun _ x h => (Except.error.inj h) ▸ Or.inl (a5.2 e rfl)⟩
    rcases x6 with e | f6
    · exact ⟨fun m h => (by cases h), fun _ x h => (Except.error.inj h) ▸ Or.inl (a6.2 e rfl)⟩
    rcases x7 with e | f7
    · exact ⟨fun m h => (by cases h), fun _ x h => (Except.error.inj h) ▸ Or.inl (a7.2 e rfl)⟩
    rcases x8 with e | f8
    · exact ⟨fun m h => (by cases h), fun _ x h => (Except.error.inj h) ▸ Or.inl (a8.2 e rfl)⟩
    rcases x9 with e | f9
    · exact ⟨fun m h => (by cases h), fun _ x h => (Except.error.inj h) ▸ Or.inl (a9.2 e rfl)⟩
    rcases x10 with e | f10
    · exact ⟨fun m h => (by cases h), fun _ x h => (Except.error.inj h) ▸ Or.inl (a10.2 e rfl)⟩
    rcases x11 with e | f11
    · exact ⟨fun m h => (by cases h), fun _ x h => (Except.error.inj h) ▸ Or.inl (a11.2 e rfl)⟩
    rcases x12 with e | f12
    · exact ⟨fun m h => (by cases h), fun _ x h => (Except.error.inj h) ▸ Or.inl (a12.2 e rfl)⟩
    rcases x13 with e | f13
    · exact ⟨fun m h => (by cases h), fun _ x h => (Except.error.inj h) ▸ Or.inl (a13.2 e rfl)⟩
    exact ⟨fun m h => ⟨a1.1 _ rfl, a2.1 _ rfl, a3.1 _ rfl, a4.1 _ rfl, a5.1 _ rfl, a6.1 _ rfl, a7.1 _ rfl, a8.1 _ rfl, a9.1 _ rfl, a10.1 _ rfl, a11.1 _ rfl, a12.1 _ rfl, a13.1 _ rfl⟩, fun _ x h => (by cases h)⟩
  refine ⟨main.1, fun hl ha => ?_⟩
  cases h : maskSubgroup s a with
  | ok m => exact absurd (main.1 m h) ha
  | error e =>
    rcases main.2 hl e h with rfl | rfl
    · exact Or.inl rfl
    · exact Or.inr rfl

/-- Every diary of a subgroup is in the subgroup of exactly one day of the week. -/
theorem C98_weekdays (s : SurveyTables) (a : SubgroupArgs) (hp : PairedMissing s) (hl : PersonsListed s) (ha : AcceptedArgs a)
    (hd : a.full = true ∧ a.removeMissing = true ∧ a.identical = true) (hw : a.weekday = .one 0) (hr : ∀ r ∈ s.rows, 1 ≤ r.weekday ∧ r.weekday ≤ 7) :
    ∃ mask, maskSubgroup s a = .ok mask ∧ ∃ masks : Int → List Bool, (∀ d, 1 ≤ d → d ≤ 7 → maskSubgroup s { a with weekday := .one d } = .ok (masks d)) ∧
      ∀ (k : Nat), k < s.rows.length → (mask[k]? = some true ↔ ∃! d, (1 ≤ d ∧ d ≤ 7) ∧ (masks d)[k]? = some true) := by
  obtain ⟨mask, e, _, hm⟩ := C98_mask_partial s a hp hl ha (Or.inl hd)
  have hday : ∀ d : Int, ∃ m, 1 ≤ d → d ≤ 7 → maskSubgroup s { a with weekday := .one d } = .ok m ∧ ∀ (k : Nat) r, s.rows[k]? = some r → (m[k]? = some true ↔ BelongsTo s { a with weekday := .one d } r) := by
    intro d
    by_cases h : 1 ≤ d ∧ d ≤ 7
    · obtain ⟨m, e, _, hm⟩ := C98_mask_partial s { a with weekday := .one d } hp hl { ha with weekday := (Or.inr ⟨by omega, h.2⟩ : Accepted d 7) } (Or.inl hd)
      exact ⟨m, fun _ _ => ⟨e, hm⟩⟩
    · exact ⟨[], fun h1 h2 => absurd ⟨h1, h2⟩ h⟩
  choose masks hmasks using hday
  refine ⟨mask, e, masks, fun d h1 h2 => (hmasks d h1 h2).1, fun k hk => ?_⟩
  have hrk : s.rows[k]? = some s.rows[k] := List.getElem?_eq_getElem hk
  have hrange := hr _ (List.getElem_mem hk)
  rw [hm k _ hrk]
  constructor
  · intro hb
    refine ⟨s.rows[k].weekday, ⟨hrange, ((hmasks _ hrange.1 hrange.2).2 k _ hrk).2 { hb with weekday := (Or.inr rfl : Meets _ _) }⟩, ?_⟩
    rintro d ⟨hd1, hd2⟩
    have := (((hmasks d hd1.1 hd1.2).2 k _ hrk).1 hd2).weekday
    rcases this with h | h
    · change d = 0 at h; omega
    · exact h.symm
  · rintro ⟨d, ⟨hd1, hd2⟩, _⟩
    have := ((hmasks d hd1.1 hd1.2).2 k _ hrk).1 hd2
    refine { this with weekday := ?_ }
    rw [hw]
    exact Or.inl rfl

/-- The whole claim: for any tables and any filters. -/
def C98_full : Prop := ∀ (s : SurveyTables) (a : SubgroupArgs), PersonsListed s → AcceptedArgs a →
    ∃ mask, maskSubgroup s a = .ok mask ∧ ∀ (k : Nat) r, s.rows[k]? = some r → (mask[k]? = some true ↔ BelongsTo s a r)

/-- Household 1 has two retired members and misses its third day, household 2 one member of two who wrote diaries. -/
def demoSurvey : SurveyTables where
  rows := [⟨1, 1, 3, 1, 2, 1, 8, 1, 1, 70, 1, 1⟩, ⟨1, 2, 3, 1, 2, 6, 8, 1, 1, 70, 1, 1⟩, ⟨1, 1, 0, 1, 2, 1, 8, 1, 2, 68, 1, 2⟩, ⟨1, 3, 0, 1, 2, 7, 8, 1, 2, 68, 1, 2⟩, ⟨2, 1, 0, 1, 2, 1, 1, 3, 1, 40, 1, 1⟩]
  hhIds := [1, 2]
  hh := fun h => if h = 1 then ⟨2, 2, 1, 2, 3, 69⟩ else ⟨2, 1, 4, 2, 4, 40⟩
  persons := [(1, 8), (1, 8), (2, 1), (2, 1)]

theorem demoSurvey_paired : PairedMissing demoSurvey := ⟨[(1, 3)], by decide⟩

theorem demoSurvey_listed : PersonsListed demoSurvey := by
  intro h hh _
  change h ∈ [1, 2] at hh
  rcases List.mem_cons.1 hh with rfl | hh
  · decide
  · rw [List.mem_singleton.1 hh]; decide

theorem accepted_default : AcceptedArgs {} :=
  ⟨Or.inl rfl, Or.inl rfl, Or.inl rfl, (by intro w h; cases h), Or.inl rfl, Or.inl rfl, Or.inl rfl, Or.inl rfl, Or.inl rfl, trivial, trivial, Or.inl rfl, Or.inl rfl⟩

/-- The hypotheses are met and the mask keeps and drops diaries. -/
example : PairedMissing demoSurvey ∧ PersonsListed demoSurvey ∧ AcceptedArgs { weekday := .list [1, 6], work := some "2_retired".toList } ∧
    maskSubgroup demoSurvey { weekday := .list [1, 6], work := some "2_retired".toList } = .ok [true, true, true, false, false] :=
  ⟨demoSurvey_paired, demoSurvey_listed, { accepted_default with
    weekday := (by intro v hv; right; rcases List.mem_cons.1 hv with rfl | hv <;> [omega; (rw [List.mem_singleton.1 hv]; omega)])
    work := (by intro w h; rw [← Option.some.inj h]; decide) }, by decide +kernel⟩

/-- The hypotheses of the theorem on the days of the week. -/
example : ∀ r ∈ demoSurvey.rows, 1 ≤ r.weekday ∧ r.weekday ≤ 7 := by decide

/-- An argument that is rejected. -/
example : maskSubgroup demoSurvey { quarter := 5 } = .error .assertionError ∧ maskSubgroup demoSurvey { work := some "retired".toList } = .error .valueError := by decide +kernel

/-- With `only_full_households=False` the diary of the incomplete household belongs to the subgroup of its weekday, and is selected if the weekday is a number, but not if it is a list of this number. -/
theorem C98_list_counterexample :
    maskSubgroup demoSurvey { full := false, weekday := .one 1 } = .ok [true, false, true, false, true] ∧
    maskSubgroup demoSurvey { full := false, weekday := .list [1] } = .ok [true, false, true, false, false] ∧
    ∃ r, demoSurvey.rows[4]? = some r ∧ BelongsTo demoSurvey { full := false, weekday := .list [1] } r := by
  refine ⟨by decide +kernel, by decide +kernel, ⟨2, 1, 0, 1, 2, 1, 1, 3, 1, 40, 1, 1⟩, rfl, ?_⟩
  refine ⟨fun h => absurd h (by decide), fun _ => ?_, fun _ => Or.inl rfl, Or.inl rfl, Or.inr ⟨1, List.mem_singleton.2 rfl, Or.inr rfl⟩, Or.inl rfl, (by intro w h; cases h), Or.inl rfl, Or.inl rfl, Or.inl rfl, Or.inl rfl, Or.inl rfl, trivial, trivial, Or.inl rfl, Or.inl rfl⟩
  have : ∀ q ∈ demoSurvey.rows, q.missing ≠ 0 → q.hh = 2 → q.missing ≠ 1 := by decide
  exact this

/-- One diary of household 1 and one of household 2 report a missing day: the second is passed over. -/
def demoUnpaired : SurveyTables where
  rows := [⟨1, 1, 3, 1, 2, 1, 8, 1, 1, 70, 1, 1⟩, ⟨2, 1, 2, 1, 2, 1, 8, 1, 1, 70, 1, 1⟩, ⟨2, 2, 0, 1, 2, 1, 8, 1, 2, 68, 1, 2⟩]
  hhIds := [1, 2]
  hh := fun _ => ⟨2, 2, 1, 2, 3, 69⟩
  persons := [(1, 8), (1, 8), (2, 8), (2, 8)]

/-- Somebody of household 2 misses its second day, and the diary of this day is selected all the same. -/
theorem C98_missing_counterexample :
    maskSubgroup demoUnpaired {} = .ok [true, true, true] ∧ ∃ r, demoUnpaired.rows[2]? = some r ∧ ¬ NobodyMissing demoUnpaired r := by
  refine ⟨by decide +kernel, ⟨2, 2, 0, 1, 2, 1, 8, 1, 2, 68, 1, 2⟩, rfl, fun h => ?_⟩
  exact h ⟨2, 1, 2, 1, 2, 1, 8, 1, 1, 70, 1, 1⟩ (by decide) (by decide) rfl rfl

/-- The whole claim is false. -/
theorem C98_full_fails : ¬ C98_full := by
  intro h
  obtain ⟨_, e, r, hr, hb⟩ := C98_list_counterexample
  obtain ⟨m, em, hm⟩ := h demoSurvey { full := false, weekday := .list [1] } demoSurvey_listed { accepted_default with
    weekday := (by intro v hv; right; rw [List.mem_singleton.1 hv]; omega) }
  rw [e] at em
  have := (hm 4 r hr).2 hb
  rw [← Except.ok.inj em] at this
  exact absurd this (by decide)

end Demod
