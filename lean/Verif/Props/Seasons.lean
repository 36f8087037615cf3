import Verif.Props.Control

/-!
# Seasons and weeks (C08, C09, C10, C11)
-/

namespace Narp.Props
open Narp Narp.Spec

variable {σ : Type}

/-! ## C08 -/

theorem base_two_add (i : Fin 7) (h : kind i = 3) :
    i = 2 ∨ i = 3 ∨ i = 4 ∨ i = 5 := by
  revert i; decide +kernel

/-- Season ends computed from the input weeks `IW1, IW2, IW3` (`datax.py:25-28`). -/
def seasonEnds (IW1 IW2 IW3 : ℕ) : List ℚ :=
  [(IW1 : ℚ) * 168 + 1/2, (IW2 : ℚ) * 168 + 1/2, (IW3 : ℚ) * 168 + 1/2]

/-- every processed event is some occurrence of some source -/
theorem log_mem_occ {cfg : Cfg σ} (hJ : StepOK cfg.JSTEP) {N : ℕ} {w : σ}
    {log : List Ev} {s : St σ} (h : Reach cfg (narpInit cfg.JSTEP N w) log s) {ev : Ev}
    (hev : ev ∈ log) : ∃ i m, ev = occ cfg.JSTEP i m := by
  obtain ⟨n, q, hI⟩ := reach_inv hJ.lo hJ.hi h
  have : ev ∈ firstEvents cfg.JSTEP n := by rw [← hI.log_eq]; simpa using hev
  unfold firstEvents at this
  obtain ⟨i, _, hi⟩ := Multiset.mem_sum.1 this
  obtain ⟨m, _, hm⟩ := Multiset.mem_map.1 hi
  exact ⟨i, m, hm.symm⟩

/-- C08 (what fails). Let the input put the first season end after week 10 (hour 1680.5). In no run
of the program does a seasonal change ever happen at that hour of any year: the season ends of the
input are ignored. -/
theorem C08_season_ends_refuted :
    ∃ IW1 IW2 IW3 : ℕ, IW1 < IW2 ∧ IW2 < IW3 ∧ IW3 < 52 ∧
      ∃ Q ∈ seasonEnds IW1 IW2 IW3,
        ∀ (σ : Type) (cfg : Cfg σ), StepOK cfg.JSTEP → ∀ (N : ℕ) (w : σ) (log : List Ev) (s : St σ),
          Reach cfg (narpInit cfg.JSTEP N w) log s →
          ∀ ev ∈ log, ev.kind = 3 → ∀ k : ℕ, ev.time ≠ Q + 8760 * (k : ℚ) := by
  refine ⟨10, 26, 39, by norm_num, by norm_num, by norm_num, (10 : ℕ) * 168 + 1/2,
    by simp [seasonEnds], ?_⟩
  intro σ cfg hJ N w log s h ev hev hk k ht
  obtain ⟨i, m, rfl⟩ := log_mem_occ hJ h hev
  have hi := base_two_add i hk
  simp only [occ] at ht
  have key : ∀ b : ℕ, (b : ℚ) + 1/2 + (m : ℚ) * 8760 = (10 : ℕ) * 168 + 1/2 + 8760 * (k : ℚ) →
      b + m * 8760 = 1680 + 8760 * k := by
    intro b hb
    have : ((b + m * 8760 : ℕ) : ℚ) = ((1680 + 8760 * k : ℕ) : ℚ) := by push_cast at hb ⊢; linarith
    exact_mod_cast this
  rcases hi with rfl | rfl | rfl | rfl
  · have := key 0 (by rw [← ht]; simp [base, period])
    omega
  · have := key 2184 (by rw [← ht]; simp [base, period]; norm_num)
    omega
  · have := key 4368 (by rw [← ht]; simp [base, period]; norm_num)
    omega
  · have := key 6552 (by rw [← ht]; simp [base, period]; norm_num)
    omega

/-- C08 (what holds). When the input has the default season ends (after weeks 13, 26, 39), every
seasonal change of every run happens at the start of a year (half an hour into it) or at one of the
input's season ends of some year. Missing for the full C08: other season ends (refuted above). -/
theorem C08_season_ends_partial {cfg : Cfg σ} (hJ : StepOK cfg.JSTEP) {N : ℕ} {w : σ}
    {log : List Ev} {s : St σ} (h : Reach cfg (narpInit cfg.JSTEP N w) log s) {ev : Ev}
    (hev : ev ∈ log) (hk : ev.kind = 3) :
    ∃ Q ∈ (1/2 : ℚ) :: seasonEnds 13 26 39, ∃ k : ℕ, ev.time = Q + 8760 * (k : ℚ) := by
  obtain ⟨i, m, rfl⟩ := log_mem_occ hJ h hev
  have hi := base_two_add i hk
  rcases hi with rfl | rfl | rfl | rfl
  · exact ⟨1/2, by simp, m, by simp [occ, base, period]; ring⟩
  · exact ⟨(13 : ℕ) * 168 + 1/2, by simp [seasonEnds], m, by simp [occ, base, period]; ring⟩
  · exact ⟨(26 : ℕ) * 168 + 1/2, by simp [seasonEnds], m, by simp [occ, base, period]; ring⟩
  · exact ⟨(39 : ℕ) * 168 + 1/2, by simp [seasonEnds], m, by simp [occ, base, period]; ring⟩

/-! ## C09 -/

/-- Season (0..3) of the hour `h` of a year, `0 < h ≤ 8760`, with the default season ends. -/
def seasonOf (h : ℚ) : ℤ :=
  if h < 4369/2 then 0 else if h < 8737/2 then 1 else if h < 13105/2 then 2 else 3

/-- once a quarterly event was processed, the ratings are the current column of the table -/
theorem reach_rating {cfg : Cfg σ} (hJ : StepOK cfg.JSTEP) {N : ℕ} {w : σ}
    {log : List Ev} {s : St σ} (h : Reach cfg (narpInit cfg.JSTEP N w) log s) :
    (∀ ev ∈ log, ev.kind ≠ 3) ∨ cfg.RATES.mapM (fun row => rd row s.IQ) = .ok s.RATING := by
  induction h with
  | start => simp
  | @step log s ev s' hr hs ih =>
    obtain ⟨n, q, hI⟩ := reach_inv hJ.lo hJ.hi hr
    obtain ⟨i, q0, c1, hq, hrem, hfile, hst⟩ := step_shape hI
    rw [hst] at hs
    split at hs
    · cases hs
    split at hs
    · cases hs
    cases hev : events cfg { s with cal := c1, CLOCK := (occ cfg.JSTEP i (n i)).time } (kind i) with
    | error x => rw [hev] at hs; cases hs
    | ok s2 =>
      rw [hev] at hs
      simp only [Except.map, Except.ok.injEq, StepRes.next.injEq] at hs
      obtain ⟨rfl, rfl⟩ := hs
      obtain ⟨_, _, _, hiq, hrat, _, _⟩ := events_inv i hev
      by_cases hk : kind i = 3
      · right
        unfold events at hev
        simp only [hk, pyInt_three] at hev
        rw [if_neg (by decide), if_neg (by decide), if_pos trivial] at hev
        obtain ⟨r, h2, hev⟩ := Except.bind_ok hev
        obtain ⟨c, h1, hev⟩ := Except.bind_ok hev
        cases hev
        exact h2
      · rw [if_neg hk] at hiq
        have hrat' := hrat.resolve_right hk
        simp only at hiq hrat'
        rcases ih with ih | ih
        · left
          intro x hx
          rcases List.mem_append.1 hx with hx | hx
          · exact ih x hx
          · simp only [List.mem_singleton] at hx; subst hx; exact hk
        · right; rw [hiq, hrat']; exact ih

/-- number of processed occurrences of source `j` when a draw at integer time `t` is processed -/
theorem count_at {cfg : Cfg σ} {n : Fin 7 → ℕ} {t b y : ℕ} {j : Fin 7}
    (hb : base cfg.JSTEP j = (b : ℚ) + 1/2) (hp : period cfg.JSTEP j = 8760)
    (hmin : (t : ℚ) ≤ (occ cfg.JSTEP j (n j)).time)
    (hpast : (n j : ℚ) * period cfg.JSTEP j ≠ 0 →
      base cfg.JSTEP j + ((n j : ℚ) - 1) * period cfg.JSTEP j ≤ (t : ℚ))
    (hy1 : 8760 * y < t) (hy2 : t ≤ 8760 * (y + 1)) (hb2 : b < 8760) :
    n j = if t ≤ 8760 * y + b then y else y + 1 := by
  simp only [occ, hb, hp] at hmin hpast
  have h1 : t ≤ b + n j * 8760 := by
    have : (t : ℚ) < ((b + n j * 8760 + 1 : ℕ) : ℚ) := by push_cast; linarith
    have : t < b + n j * 8760 + 1 := by exact_mod_cast this
    omega
  have h2 : n j = 0 ∨ b + n j * 8760 < t + 8760 := by
    by_cases h0 : n j = 0
    · exact Or.inl h0
    · right
      have h0' : (n j : ℚ) * 8760 ≠ 0 := by
        have : (n j : ℚ) ≠ 0 := by exact_mod_cast h0
        positivity
      have := hpast h0'
      have : ((b + n j * 8760 : ℕ) : ℚ) < ((t + 8760 : ℕ) : ℚ) := by push_cast; linarith
      exact_mod_cast this
  split <;> omega

/-- C09 (what happens). In every run, at every draw, in season `s` of any year the ratings in effect
are those of column `(s + 1) mod 4` of the seasonal table (and never the initial zeros). -/
theorem C09_season_column_partial {cfg : Cfg σ} (hJ : StepOK cfg.JSTEP) {N : ℕ} {w : σ}
    {log : List Ev} {s s' : St σ} {ev : Ev} (h : Reach cfg (narpInit cfg.JSTEP N w) log s)
    (hs : step cfg s = .ok (.next ev s')) (hk : ev.kind = 1)
    (y : ℕ) (hy1 : 8760 * (y : ℚ) < ev.time) (hy2 : ev.time ≤ 8760 * ((y : ℚ) + 1)) :
    s.IQ = (seasonOf (ev.time - 8760 * y) + 1) % 4 ∧
      cfg.RATES.mapM (fun row => rd row s.IQ) = .ok s.RATING ∧ s'.RATING = s.RATING := by
  have hl := hJ.lo
  have hh := hJ.hi
  obtain ⟨n, q, hI⟩ := reach_inv hl hh h
  obtain ⟨i, hev, hclk, hmin, _, hpast, _, _⟩ := inv_next (by linarith) (by linarith) hI hs
  have hi0 : i = 0 := kind_eq_one (by rw [hev] at hk; exact hk)
  subst hi0
  -- the draw time is a natural number
  obtain ⟨t, ht⟩ : ∃ t : ℕ, ev.time = (t : ℚ) := by
    rw [hev]
    rcases hJ with hJ | hJ
    · exact ⟨1 + n 0, by simp [occ, base, period, hJ]⟩
    · exact ⟨24 + n 0 * 24, by simp [occ, base, period, hJ]⟩
  rw [ht] at hy1 hy2 hmin hpast ⊢
  have hy1' : 8760 * y < t := by exact_mod_cast hy1
  have hy2' : t ≤ 8760 * (y + 1) := by exact_mod_cast hy2
  have e2 := count_at (cfg := cfg) (j := 2) (b := 0) (y := y) (by simp [base]) rfl (hmin 2) (hpast 2)
    hy1' hy2' (by norm_num)
  have e3 := count_at (cfg := cfg) (j := 3) (b := 2184) (y := y) (by simp [base]; norm_num) rfl (hmin 3)
    (hpast 3) hy1' hy2' (by norm_num)
  have e4 := count_at (cfg := cfg) (j := 4) (b := 4368) (y := y) (by simp [base]; norm_num) rfl (hmin 4)
    (hpast 4) hy1' hy2' (by norm_num)
  have e5 := count_at (cfg := cfg) (j := 5) (b := 6552) (y := y) (by simp [base]; norm_num) rfl (hmin 5)
    (hpast 5) hy1' hy2' (by norm_num)
  have hseason : seasonOf ((t : ℚ) - 8760 * y) =
      if t ≤ 8760 * y + 2184 then 0 else if t ≤ 8760 * y + 4368 then 1
      else if t ≤ 8760 * y + 6552 then 2 else 3 := by
    have conv : ∀ b : ℕ, ((t : ℚ) - 8760 * y < (b : ℚ) + 1/2) ↔ t ≤ 8760 * y + b := by
      intro b
      constructor
      · intro hlt
        have : (t : ℚ) < ((8760 * y + b + 1 : ℕ) : ℚ) := by push_cast; linarith
        have : t < 8760 * y + b + 1 := by exact_mod_cast this
        omega
      · intro hle
        have : (t : ℚ) ≤ ((8760 * y + b : ℕ) : ℚ) := by exact_mod_cast hle
        push_cast at this; linarith
    unfold seasonOf
    have c1 := conv 2184
    have c2 := conv 4368
    have c3 := conv 6552
    rw [show ((2184 : ℕ) : ℚ) + 1/2 = 4369/2 by norm_num] at c1
    rw [show ((4368 : ℕ) : ℚ) + 1/2 = 8737/2 by norm_num] at c2
    rw [show ((6552 : ℕ) : ℚ) + 1/2 = 13105/2 by norm_num] at c3
    simp only [c1, c2, c3]
  have hiq : s.IQ = (seasonOf ((t : ℚ) - 8760 * y) + 1) % 4 := by
    rw [hseason, hI.iq]
    rw [if_neg (by omega)] at e2
    split_ifs at e3 e4 e5 ⊢ <;> rw [e2, e3, e4, e5] <;> push_cast <;> omega
  refine ⟨hiq, ?_, ?_⟩
  · refine (reach_rating hJ h).resolve_left ?_
    intro hno
    have hn2 : n 2 ≠ 0 := by rw [if_neg (by omega)] at e2; omega
    have : occ cfg.JSTEP 2 0 ∈ log := by
      have : occ cfg.JSTEP 2 0 ∈ (log : Multiset Ev) := by
        rw [hI.log_eq]
        unfold firstEvents
        refine Multiset.mem_sum.2 ⟨2, Finset.mem_univ _, Multiset.mem_map.2 ⟨0, ?_, rfl⟩⟩
        exact Multiset.mem_range.2 (by omega)
      simpa using this
    exact hno _ this rfl
  · obtain ⟨i, q0, c1, hq, hrem, hfile, hst⟩ := step_shape hI
    rw [hst] at hs
    split at hs
    · cases hs
    split at hs
    · cases hs
    cases hev' : events cfg { s with cal := c1, CLOCK := (occ cfg.JSTEP i (n i)).time } (kind i) with
    | error x => rw [hev'] at hs; cases hs
    | ok s2 =>
      rw [hev'] at hs
      simp only [Except.map, Except.ok.injEq, StepRes.next.injEq] at hs
      obtain ⟨rfl, rfl⟩ := hs
      obtain ⟨_, _, _, _, hrat, _, _⟩ := events_inv i hev'
      exact hrat.resolve_right (by intro h3; simp only [occ] at hk; rw [h3] at hk; norm_num at hk)

/-- C09 (what fails). In every run, at every draw, the column of the rating table in effect is not the
column of the current season. -/
theorem C09_season_column_refuted {cfg : Cfg σ} (hJ : StepOK cfg.JSTEP) {N : ℕ} {w : σ}
    {log : List Ev} {s s' : St σ} {ev : Ev} (h : Reach cfg (narpInit cfg.JSTEP N w) log s)
    (hs : step cfg s = .ok (.next ev s')) (hk : ev.kind = 1)
    (y : ℕ) (hy1 : 8760 * (y : ℚ) < ev.time) (hy2 : ev.time ≤ 8760 * ((y : ℚ) + 1)) :
    s.IQ ≠ seasonOf (ev.time - 8760 * y) := by
  rw [(C09_season_column_partial hJ h hs hk y hy1 hy2).1]
  unfold seasonOf
  split_ifs <;> decide

/-- the first three iterations of a run with one unit: the first draw is in season 0, and the rating
used is 70 (column 1), not 100 (column 0) -/
def seasonDemo : Cfg Unit := { demoCfg with JSTEP := 1, RATES := [[100, 70, 60, 50]] }

example : ((runLog seasonDemo 3 (narpInit 1 1 ())).map fun r => (r.1, r.2.RATING, r.2.IQ)) =
    .ok ([⟨1/2, 2⟩, ⟨1/2, 3⟩, ⟨1, 1⟩], [70], 1) := by decide +kernel

/-! ## C10 -/

theorem foldl_set_getD (idx : List ℕ) : ∀ (on : List ℚ) (u : ℕ), u < on.length →
    (idx.foldl (fun (a : List ℚ) k => a.set k 0) on).getD u 0 = if u ∈ idx then 0 else on.getD u 0 := by
  induction idx with
  | nil => intro on u _; simp
  | cons k r ih =>
    intro on u hu
    rw [List.foldl_cons, ih _ _ (by simpa using hu), getD_set]
    by_cases h1 : u ∈ r
    · simp [h1]
    · by_cases h2 : k = u
      · subst h2; simp [h1]; intro hc; omega
      · simp [h1, h2, Ne.symm h2]

theorem mapM_pyIdx_eq {N : ℕ} : ∀ (l : List ℤ) (r : List ℕ), l.mapM (pyIdx N) = .ok r →
    (∀ x ∈ l, 0 ≤ x) → r = l.map Int.toNat
  | [], r, h, _ => by cases h; rfl
  | a :: l, r, h, h0 => by
    rw [List.mapM_cons] at h
    obtain ⟨y, hy, h⟩ := Except.bind_ok h
    obtain ⟨r', hr, h⟩ := Except.bind_ok h
    cases h
    have ih := mapM_pyIdx_eq l r' hr (fun x hx => h0 x (by simp [hx]))
    rw [ih]
    have ha := h0 a (by simp)
    unfold pyIdx at hy
    rw [if_pos ha] at hy
    split at hy
    · cases hy; simp
    · cases hy

/-- C10. After the weekly event uses a row made of a count, that many unit numbers, and any padding, unit `u` is off (0) if it is listed and on (1) otherwise, whatever the
previous statuses. -/
theorem C10_exactly_listed_units_off {T : List (List ℤ)} {JHOUR : ℤ} {p p' : List ℚ} {units pad : List ℤ}
    (h : weekPlan T JHOUR p = .ok p') (hw : JHOUR / 168 ≤ 51) (hw0 : 0 ≤ JHOUR)
    (hrow : T[(JHOUR / 168).toNat]? = some ((units.length : ℤ) :: (units ++ pad))) (hu : ∀ x ∈ units, 0 ≤ x)
    (u : ℕ) (hulen : u < p.length) :
    p'.length = p.length ∧ p'.getD u 0 = if (u : ℤ) ∈ units then 0 else 1 := by
  refine ⟨weekPlan_length h, ?_⟩
  unfold weekPlan at h
  simp only at h
  rw [if_neg (by omega)] at h
  obtain ⟨row, hr, h⟩ := Except.bind_ok h
  have hlt : (JHOUR / 168).toNat < T.length := by
    by_contra hc
    rw [List.getElem?_eq_none (by omega)] at hrow
    cases hrow
  have hrow' : row = (units.length : ℤ) :: (units ++ pad) := by
    unfold rd pyIdx at hr
    have h0 : 0 ≤ JHOUR / 168 := by omega
    have h1 : JHOUR / 168 < T.length := by omega
    rw [if_pos h0, if_pos h1] at hr
    simp only [Except.map, Except.ok.injEq] at hr
    rw [← hr, List.getD_eq_getElem?_getD, hrow]; rfl
  subst hrow'
  obtain ⟨MT, hMT, h⟩ := Except.bind_ok h
  have hMT' : MT = units.length := by
    unfold rd pyIdx at hMT
    rw [if_pos (le_refl _), if_pos (by simp only [List.length_cons]; omega)] at hMT
    simp only [Except.map, Except.ok.injEq] at hMT
    rw [← hMT]; rfl
  subst hMT'
  obtain ⟨idx, hidx, h⟩ := Except.bind_ok h
  cases h
  have hsl : slice ((units.length : ℤ) :: (units ++ pad)) 1 ((units.length : ℤ) + 1) = units := by
    unfold slice
    simp only
    rw [if_pos (by omega)]
    have : ((units.length : ℤ) + 1).toNat = units.length + 1 := by omega
    rw [this, List.take_succ_cons, List.take_left]; rfl
  rw [hsl] at hidx
  have hidx' := mapM_pyIdx_eq _ _ hidx hu
  rw [foldl_set_getD _ _ _ (by simpa using hulen)]
  have hmem : u ∈ idx ↔ (u : ℤ) ∈ units := by
    rw [hidx', List.mem_map]
    constructor
    · rintro ⟨a, ha, rfl⟩
      have := hu a ha
      rwa [Int.toNat_of_nonneg this]
    · intro hm; exact ⟨_, hm, by simp⟩
  by_cases hm : (u : ℤ) ∈ units
  · simp [hm, hmem]
  · rw [if_neg (by rw [hmem]; exact hm), if_neg hm]
    have : u < p.length := hulen
    simp [this]

/-- A concrete case: week 1, units 0 and 2 listed, everything was off before. -/
example : weekPlan ([0, -1, -1, -1, -1] :: [2, 0, 2, -1, -1] :: List.replicate 50 [0]) 200 [0, 0, 0, 0] = .ok [0, 1, 0, 1] := by
  decide +kernel

/-! ## C11 -/

/-- C11 (what happens). In every run, the weekly event with number `w` (counted from 0 over the whole
run) happens at hour `168 w + 0.5` and reads the table row `JHOUR / 168` for
`JHOUR = ((168 w) mod 8760) - 1` (and row 0 for `w = 0`). -/
theorem C11_week_row_partial {cfg : Cfg σ} (hJ : StepOK cfg.JSTEP) {N : ℕ} {wld : σ}
    {log : List Ev} {s s' : St σ} {ev : Ev} (h : Reach cfg (narpInit cfg.JSTEP N wld) log s)
    (hs : step cfg s = .ok (.next ev s')) (hk : ev.kind = 2) :
    let w := log.countP fun e => e.kind = 2
    ev.time = 168 * (w : ℚ) + 1/2 ∧
      s.JHOUR = (if w = 0 then 0 else ((168 * w % 8760 : ℕ) : ℤ) - 1) ∧
      weekPlan cfg.JPLOUT s.JHOUR s.PLNDST = .ok s'.PLNDST := by
  have hl := hJ.lo
  have hh := hJ.hi
  obtain ⟨n, q, hI⟩ := reach_inv hl hh h
  obtain ⟨i, hev, hclk, hmin, _, hpast, _, _⟩ := inv_next (by linarith) (by linarith) hI hs
  have hi1 : i = 1 := kind_eq_two (by rw [hev] at hk; exact hk)
  subst hi1
  simp only
  rw [log_count_two hI]
  have ht : ev.time = 168 * (n 1 : ℚ) + 1/2 := by
    rw [hev]; simp only [occ, base, period]; simp; ring
  have hn0 : (n 0 : ℚ) * cfg.JSTEP = ((168 * n 1 : ℕ) : ℚ) := by
    have h1 : ev.time ≤ cfg.JSTEP + (n 0 : ℚ) * cfg.JSTEP := by
      have := hmin 0
      simpa [occ, base, period] using this
    have h2 : (n 0 : ℚ) * cfg.JSTEP ≤ ev.time := by
      by_cases h0 : (n 0 : ℚ) * cfg.JSTEP = 0
      · rw [h0, ht]; positivity
      · have := hpast 0 (by simpa [period] using h0)
        simp only [base, period, Matrix.cons_val_zero] at this
        linarith
    rw [ht] at h1 h2
    rcases hJ with hJ | hJ
    · rw [hJ] at h1 h2 ⊢
      have g1 : n 0 < 168 * n 1 + 1 := by
        have : ((n 0 : ℕ) : ℚ) < ((168 * n 1 + 1 : ℕ) : ℚ) := by push_cast; linarith
        exact_mod_cast this
      have g2 : 168 * n 1 < n 0 + 1 := by
        have : ((168 * n 1 : ℕ) : ℚ) < ((n 0 + 1 : ℕ) : ℚ) := by push_cast; linarith
        exact_mod_cast this
      have : n 0 = 168 * n 1 := by omega
      rw [this, mul_one]
    · rw [hJ] at h1 h2 ⊢
      have g1 : n 0 * 24 < 168 * n 1 + 1 := by
        have : ((n 0 * 24 : ℕ) : ℚ) < ((168 * n 1 + 1 : ℕ) : ℚ) := by push_cast; linarith
        exact_mod_cast this
      have g2 : 168 * n 1 < n 0 * 24 + 24 := by
        have : ((168 * n 1 : ℕ) : ℚ) < ((n 0 * 24 + 24 : ℕ) : ℚ) := by push_cast; linarith
        exact_mod_cast this
      have : n 0 * 24 = 168 * n 1 := by omega
      rw [← this]; push_cast; ring
  refine ⟨ht, ?_, ?_⟩
  · rw [hI.jhour, hn0]
    have hz : n 0 = 0 ↔ n 1 = 0 := by
      constructor
      · intro h0
        rw [h0] at hn0
        have : (168 * n 1 : ℕ) = 0 := by
          have : ((168 * n 1 : ℕ) : ℚ) = 0 := by rw [← hn0]; simp
          exact_mod_cast this
        omega
      · intro h0
        rw [h0] at hn0
        have hJ0 : cfg.JSTEP ≠ 0 := by linarith [hJ.one]
        have : (n 0 : ℚ) * cfg.JSTEP = 0 := by rw [hn0]; simp
        rcases mul_eq_zero.1 this with h | h
        · exact_mod_cast h
        · exact absurd h hJ0
    by_cases h0 : n 1 = 0
    · rw [if_pos (hz.2 h0), if_pos h0]
    · rw [if_neg (fun h => h0 (hz.1 h)), if_neg h0]
      have hmod : pyMod ((168 * n 1 : ℕ) : ℚ) 8760 = ((168 * n 1 % 8760 : ℕ) : ℚ) := by
        generalize 168 * n 1 = a
        unfold pyMod
        have hfl : ⌊(a : ℚ) / 8760⌋ = ((a / 8760 : ℕ) : ℤ) := by
          have := Rat.floor_intCast_div_natCast (a : ℤ) 8760
          push_cast at this ⊢
          exact this
        rw [hfl]
        have := Nat.div_add_mod a 8760
        have h2 : ((8760 * (a / 8760) + a % 8760 : ℕ) : ℚ) = (a : ℚ) := by rw [this]
        have h3 : (((a / 8760 : ℕ) : ℤ) : ℚ) = ((a / 8760 : ℕ) : ℚ) := by norm_cast
        rw [h3]
        rw [Nat.cast_add, Nat.cast_mul] at h2
        have h4 : ((8760 : ℕ) : ℚ) = 8760 := by norm_num
        rw [h4] at h2
        linarith
      rw [hmod]
      have := pyInt_intCast ((168 * n 1 % 8760 : ℕ) : ℤ)
      rw [Int.cast_natCast] at this
      rw [this]; ring
  · obtain ⟨i, q0, c1, hq, hrem, hfile, hst⟩ := step_shape hI
    rw [hst] at hs
    split at hs
    · cases hs
    split at hs
    · cases hs
    cases hev' : events cfg { s with cal := c1, CLOCK := (occ cfg.JSTEP i (n i)).time } (kind i) with
    | error x => rw [hev'] at hs; cases hs
    | ok s2 =>
      rw [hev'] at hs
      simp only [Except.map, Except.ok.injEq, StepRes.next.injEq] at hs
      obtain ⟨rfl, rfl⟩ := hs
      have hk2 : kind i = 2 := hk
      unfold events at hev'
      simp only [hk2, pyInt_two] at hev'
      rw [if_neg (by decide), if_pos trivial] at hev'
      obtain ⟨c, h1, hev'⟩ := Except.bind_ok hev'
      obtain ⟨p, h2, hev'⟩ := Except.bind_ok hev'
      cases hev'
      exact h2

/-- C11 (what fails). In every run, at the start of each week `w` of the first year except the first,
the planned outages put in effect are those of row `w - 1`: the plan is applied one week late. -/
theorem C11_week_row_refuted {cfg : Cfg σ} (hJ : StepOK cfg.JSTEP) {N : ℕ} {wld : σ}
    {log : List Ev} {s s' : St σ} {ev : Ev} (h : Reach cfg (narpInit cfg.JSTEP N wld) log s)
    (hs : step cfg s = .ok (.next ev s')) (hk : ev.kind = 2)
    (w : ℕ) (hw : log.countP (fun e => e.kind = 2) = w) (hw1 : 1 ≤ w) (hw2 : w ≤ 51) :
    ev.time = 168 * (w : ℚ) + 1/2 ∧ s.JHOUR / 168 = (w : ℤ) - 1 ∧ s.JHOUR / 168 ≠ w := by
  obtain ⟨h1, h2, _⟩ := C11_week_row_partial hJ h hs hk
  rw [hw] at h1 h2
  rw [if_neg (by omega)] at h2
  refine ⟨h1, ?_, ?_⟩ <;> rw [h2] <;> omega

/-- A run reaching the second weekly event, with unit 0 out in week 1 only: it is still on. -/
def weekDemo : Cfg Unit :=
  { demoCfg with JPLOUT := [0] :: [1, 0] :: List.replicate 50 [0], RATES := [[1, 1, 1, 1]] }

example : ((runLog weekDemo 10 (narpInit 24 1 ())).map fun r =>
    (r.1.getLast?, r.1.countP (fun e => e.kind = 2), r.2.PLNDST)) =
    .ok (some ⟨337/2, 2⟩, 2, [1]) := by decide +kernel

end Narp.Props
