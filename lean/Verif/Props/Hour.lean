import Verif.Model.Hour
import Verif.Props.Stats
import Verif.Props.Load
import Verif.Props.Random
import Verif.Lemmas.Control

/-!
# C43, C44, C45, C48, C49, C50: the hourly event
-/

namespace Narp.Props
open Narp.Spec BigOperators

variable {n m l : ℕ} {ν : Type}

/-! ## What one hourly event does -/

/-- The statistics of a list of tiers with their margins. -/
def addTiers (hist : List (Fin 5 × (Fin n → ℤ))) (s : (Fin n → ℚ) × Cnt n) : (Fin n → ℚ) × Cnt n :=
  hist.foldl (fun s e => hrstat e.1 (fun j => (e.2 j : ℚ)) s) s

/-- The peak statistics of a list of tiers with their margins. -/
def addPeaks (hist : List (Fin 5 × (Fin n → ℤ))) (c : Cnt n) : Cnt n :=
  hist.foldl (fun c e => pkstat e.1 (fun j => (e.2 j : ℚ)) c) c

/-- `w'` is `w` after the statistics of the tiers `hist` (the network state may have changed). -/
def TiersDone (hist : List (Fin 5 × (Fin n → ℤ))) (isPeak : Bool) (w w' : HourSt n m l ν) : Prop :=
  w'.IGSEED = w.IGSEED ∧ w'.ILSEED = w.ILSEED ∧ (w'.LSFLG, w'.H) = addTiers hist (w.LSFLG, w.H) ∧
  w'.P = if isPeak then addPeaks hist w.P else w.P

theorem tierBody_cases {c : HourIn n m l ν} {d : Draw n l} {hr : ℕ} {isPeak : Bool} {t : Fin 5} {f : ℤ}
    {w : HourSt n m l ν} {r : TierRes n m l ν} (h : tierBody c d hr isPeak t f w = .ok r) :
    (∃ j, tierMargin c d hr t j < 0) ∧
    ((∃ w', r = .stop w' ∧ TiersDone [] isPeak w w') ∨
     (∃ f' w' M, r = .next f' w' ∧ (∃ j, M j < 0) ∧ TiersDone [(t, M)] isPeak w w')) := by
  unfold tierBody at h
  simp only at h
  split at h
  · cases h
  rename_i hne
  have hex : ∃ j, tierMargin c d hr t j < 0 := by
    obtain ⟨j, hj⟩ := List.exists_mem_of_ne_nil _ hne
    rw [List.mem_filter] at hj
    exact ⟨j, by simpa using hj.2⟩
  refine ⟨hex, ?_⟩
  split at h
  · cases h; exact .inl ⟨_, rfl, rfl, rfl, rfl, by simp [addPeaks]⟩
  split at h
  · split at h
    · cases h
    · split at h
      · cases h
        exact .inl ⟨_, rfl, rfl, rfl, rfl, by simp [addPeaks]⟩
      · split at h
        · rename_i hany
          cases h
          rw [List.any_eq_true] at hany
          obtain ⟨j, _, hj⟩ := hany
          refine .inr ⟨_, _, _, rfl, ?_, rfl, rfl, rfl, rfl⟩
          exact ⟨j, of_decide_eq_true hj⟩
        · cases h
          exact .inl ⟨_, rfl, rfl, rfl, rfl, by simp [addPeaks]⟩
  · cases h
    exact .inr ⟨_, _, _, rfl, hex, rfl, rfl, rfl, rfl⟩

theorem tierLoop_hist {c : HourIn n m l ν} {d : Draw n l} {hr : ℕ} {isPeak : Bool} :
    ∀ (ts : List (Fin 5)) (f : ℤ) (w w' : HourSt n m l ν), tierLoop c d hr isPeak ts f w = .ok w' →
    ∃ hist : List (Fin 5 × (Fin n → ℤ)), hist.map Prod.fst <+: ts ∧ (∀ e ∈ hist, ∃ j, e.2 j < 0) ∧
      TiersDone hist isPeak w w' := by
  intro ts
  induction ts with
  | nil =>
    intro f w w' h
    cases h
    exact ⟨[], by simp, by simp, rfl, rfl, rfl, by simp [addPeaks]⟩
  | cons t ts ih =>
    intro f w w' h
    unfold tierLoop at h
    split at h
    · cases h
    · rename_i hb
      cases h
      obtain ⟨_, ⟨w2, e, hd⟩ | ⟨f', w2, M, e, _⟩⟩ := tierBody_cases hb
      · cases e; exact ⟨[], by simp, by simp, hd⟩
      · cases e
    · rename_i f2 w2 hb
      obtain ⟨_, ⟨w3, e, _⟩ | ⟨f', w3, M, e, hM, hd⟩⟩ := tierBody_cases hb
      · cases e
      · cases e
        obtain ⟨hist, h1, h2, h3⟩ := ih _ _ _ h
        refine ⟨(t, M) :: hist, ?_, ?_, ?_⟩
        · simpa using h1
        · intro e he
          rcases List.mem_cons.1 he with rfl | he
          · exact hM
          · exact h2 e he
        · obtain ⟨a1, a2, a3, a4⟩ := hd
          obtain ⟨b1, b2, b3, b4⟩ := h3
          refine ⟨b1.trans a1, b2.trans a2, ?_, ?_⟩
          · rw [b3, a3]; rfl
          · rw [b4, a4]; cases isPeak <;> rfl

theorem jhour_eq (y k : ℕ) (hk : k < 8760) :
    (-1 : ℤ) + pyInt (pyMod (8760 * y + k : ℚ) 8760) = (k : ℤ) - 1 := by
  have h1 : ⌊((8760 * y + k : ℚ) / 8760)⌋ = (y : ℤ) := by
    rw [Int.floor_eq_iff]
    have : (k : ℚ) < 8760 := by exact_mod_cast hk
    have h0 : (0 : ℚ) ≤ k := Nat.cast_nonneg k
    constructor
    · rw [le_div_iff₀ (by norm_num)]; push_cast; linarith
    · rw [div_lt_iff₀ (by norm_num)]; push_cast; linarith
  have h2 : pyMod (8760 * y + k : ℚ) 8760 = (k : ℤ) := by
    unfold pyMod; rw [h1]; push_cast; ring
  rw [h2]
  unfold pyInt
  rw [if_pos (by exact_mod_cast Int.natCast_nonneg k), Int.floor_intCast]
  omega

/-- Hour of the year (0-based) that the draw at clock `8760 y + k` stands for. -/
def hourOf (k : ℕ) : ℕ := if k = 0 then 8759 else k - 1

/-- Hourly mode: a draw at clock `8760 y + k` uses the loads of hour `hourOf k` and the contracts of its
day; the peak statistics are collected iff `k - 1` (as a number, -1 for `k = 0`) is the peak hour. -/
theorem hourBody_hourly (c : HourIn n m l ν) (hs : c.JSTEP ≠ 24) (hf : c.JFREQ = 1) (y k : ℕ) (hk : k < 8760)
    (R P : Fin m → ℚ) (w : HourSt n m l ν) :
    hourBody c (8760 * y + k) R P w =
      tierLoop c (hourDraw c (hourOf k / 24) R P w).1 (hourOf k)
        (decide ((k : ℤ) - 1 = c.MXPLHR (hourOf k / 24))) ((List.finRange 5).take c.NFCST) 0
        (hourDraw c (hourOf k / 24) R P w).2 := by
  unfold hourBody
  simp only [jhour_eq y k hk, hf, hs, if_false]
  have hd : pyIdx 365 (((k : ℤ) - 1) / 24) = .ok (hourOf k / 24) := by
    unfold hourOf pyIdx
    by_cases h0 : k = 0
    · subst h0; rfl
    · rw [if_neg h0, if_pos (by omega), if_pos (by omega)]
      congr 1; omega
  have hh : pyIdx 8760 ((k : ℤ) - 1) = .ok (hourOf k) := by
    unfold hourOf pyIdx
    by_cases h0 : k = 0
    · subst h0; rfl
    · rw [if_neg h0, if_pos (by omega), if_pos (by omega)]
      congr 1; omega
  rw [hd]
  simp only [bind, Except.bind, hh]
  simp

theorem pyIdx_nat {n i : ℕ} (h : i < n) : pyIdx n (i : ℤ) = .ok i := by
  unfold pyIdx
  rw [if_pos (by omega), if_pos (by omega)]; simp

/-- Daily mode: a draw at clock `8760 y + k` uses the pool's peak hour of the day. -/
theorem hourBody_daily (c : HourIn n m l ν) (hs : c.JSTEP = 24) (hf : c.JFREQ = 1) (y k : ℕ) (hk : k < 8760)
    (hp : ∀ d < 365, c.MXPLHR d < 8760) (R P : Fin m → ℚ) (w : HourSt n m l ν) :
    hourBody c (8760 * y + k) R P w =
      tierLoop c (hourDraw c (hourOf k / 24) R P w).1 (c.MXPLHR (hourOf k / 24)) true
        ((List.finRange 5).take c.NFCST) 0 (hourDraw c (hourOf k / 24) R P w).2 := by
  have hd : pyIdx 365 (((k : ℤ) - 1) / 24) = .ok (hourOf k / 24) := by
    unfold hourOf pyIdx
    by_cases h0 : k = 0
    · subst h0; rfl
    · rw [if_neg h0, if_pos (by omega), if_pos (by omega)]
      congr 1; omega
  have hlt : hourOf k / 24 < 365 := by unfold hourOf; split_ifs <;> omega
  have hh := pyIdx_nat (hp _ hlt)
  unfold hourBody
  rw [jhour_eq y k hk]
  simp only []
  rw [hd]
  simp only [bind, Except.bind]
  rw [if_pos hs, hf, if_neg (show ¬ (1 : ℤ) = 0 by decide),
    if_neg (show ¬ ¬ _ from not_not_intro (Or.inr rfl)), hh]
  simp only [decide_true]

/-- The hour whose loads a draw at clock `8760 y + k` uses. -/
def hourUsed (c : HourIn n m l ν) (k : ℕ) : ℕ := if c.JSTEP = 24 then c.MXPLHR (hourOf k / 24) else hourOf k

/-- Both modes at once. -/
theorem hourBody_used (c : HourIn n m l ν) (hf : c.JFREQ = 1) (y k : ℕ) (hk : k < 8760)
    (hp : ∀ d < 365, c.MXPLHR d < 8760) (R P : Fin m → ℚ) (w : HourSt n m l ν) :
    ∃ isPeak, hourBody c (8760 * y + k) R P w =
      tierLoop c (hourDraw c (hourOf k / 24) R P w).1 (hourUsed c k) isPeak
        ((List.finRange 5).take c.NFCST) 0 (hourDraw c (hourOf k / 24) R P w).2 := by
  unfold hourUsed
  by_cases hs : c.JSTEP = 24
  · rw [if_pos hs]
    exact ⟨_, hourBody_daily c hs hf y k hk hp R P w⟩
  · rw [if_neg hs]
    exact ⟨_, hourBody_hourly c hs hf y k hk R P w⟩

/-! ## C43 -/

/-- C43 (what fails). In hourly mode, whatever the system: if no area is short in the first tier, the
hourly event raises an IndexError. -/
theorem C43_no_shortage_refuted (c : HourIn n m l ν) (hs : c.JSTEP ≠ 24) (hf : c.JFREQ = 1)
    (hN : 1 ≤ c.NFCST) (y k : ℕ) (hk : k < 8760) (R P : Fin m → ℚ) (w : HourSt n m l ν)
    (hno : ∀ j, c.HRLOAD j (hourOf k) * c.FCTERR j 0 ≤
      (hourDraw c (hourOf k / 24) R P w).1.SYSCON j) :
    hourBody c (8760 * y + k) R P w = .error .indexError := by
  rw [hourBody_hourly c hs hf y k hk]
  obtain ⟨N, hN'⟩ : ∃ N, c.NFCST = N + 1 := ⟨c.NFCST - 1, by omega⟩
  have ht : (List.finRange 5).take c.NFCST = 0 :: ((List.finRange 5).drop 1).take N := by
    rw [hN']; rfl
  rw [ht]
  unfold tierLoop tierBody
  have hfil : ((List.finRange n).filter fun j =>
      tierMargin c (hourDraw c (hourOf k / 24) R P w).1 (hourOf k) 0 j < 0) = [] := by
    rw [List.filter_eq_nil_iff]
    intro j _
    simp only [decide_eq_true_eq, not_lt]
    unfold tierMargin marginInt findld pyInt
    have := hno j
    rw [if_pos (by linarith)]
    exact Int.floor_nonneg.2 (by linarith)
  simp only [hfil, if_true]

/-- C43 (what holds). An hour in which some area is short in every tier is processed without error
whenever the transmission module is. -/
theorem C43_processed_partial (c : HourIn n m l ν) (hs : c.JSTEP ≠ 24) (hf : c.JFREQ = 1)
    (ht : ∀ i v, ∃ r, c.transm i v = .ok r) (y k : ℕ) (hk : k < 8760) (R P : Fin m → ℚ)
    (w : HourSt n m l ν) (hsh : ∀ t, ∃ j, (hourDraw c (hourOf k / 24) R P w).1.SYSCON j + 1 ≤
      c.HRLOAD j (hourOf k) * c.FCTERR j t) :
    ∃ w', hourBody c (8760 * y + k) R P w = .ok w' := by
  rw [hourBody_hourly c hs hf y k hk]
  generalize (hourDraw c (hourOf k / 24) R P w).1 = d at hsh
  generalize (hourDraw c (hourOf k / 24) R P w).2 = w2
  have hshort : ∀ t, ∃ j, tierMargin c d (hourOf k) t j < 0 := by
    intro t
    obtain ⟨j, hj⟩ := hsh t
    refine ⟨j, ?_⟩
    unfold tierMargin marginInt findld pyInt
    show (if _ then _ else (⌈d.SYSCON j - c.HRLOAD j (hourOf k) * c.FCTERR j t⌉ : ℤ)) < 0
    rw [if_neg (by linarith)]
    have : ⌈d.SYSCON j - c.HRLOAD j (hourOf k) * c.FCTERR j t⌉ ≤ -1 := by
      rw [Int.ceil_le]; push_cast; linarith
    omega
  have body : ∀ b t f (w : HourSt n m l ν), ∃ r, tierBody c d (hourOf k) b t f w = .ok r := by
    intro b t f w
    unfold tierBody
    simp only
    rw [if_neg]
    · split
      · exact ⟨_, rfl⟩
      split
      · obtain ⟨r, hr⟩ := ht ⟨f, d.LNSTAT, d.TRNSFR, d.TRNSFJ, d.SYSCON,
          findld t (hourOf k) c.HRLOAD c.FCTERR⟩ w.net
        rw [hr]
        obtain ⟨⟨a, b⟩, v⟩ := r
        simp only
        split
        · exact ⟨_, rfl⟩
        split <;> exact ⟨_, rfl⟩
      · exact ⟨_, rfl⟩
    · intro h
      obtain ⟨j, hj⟩ := hshort t
      rw [List.filter_eq_nil_iff] at h
      exact h j (List.mem_finRange j) (by simpa using hj)
  have loop : ∀ b (ts : List (Fin 5)) f (w : HourSt n m l ν),
      ∃ w', tierLoop c d (hourOf k) b ts f w = .ok w' := by
    intro b ts
    induction ts with
    | nil => intro f w; exact ⟨w, rfl⟩
    | cons t ts ih =>
      intro f w
      unfold tierLoop
      obtain ⟨r, hr⟩ := body b t f w
      rw [hr]
      cases r with
      | stop w' => exact ⟨w', rfl⟩
      | next f' w' => exact ih f' w'
  exact loop _ _ _ _

/-- One area, one unit of 100 MW that is always available, no lines; load `L` in every hour. -/
def oneArea (L : ℚ) : HourIn 1 1 0 Unit where
  JSTEP := 1
  JFREQ := 1
  MXPLHR := fun d => 24 * d + 18
  PROBG := fun _ _ => 1
  DERATE := fun _ => 1
  CAPOWN := fun _ _ => 1
  CAPCON := fun _ => 0
  PROBL := fun _ _ => 1
  JENT := fun _ _ => -1
  INTCH := fun _ _ => 0
  NFCST := 1
  HRLOAD := fun _ _ => L
  FCTERR := fun _ _ => 1
  transm := fun _ _ => .ok ((0, fun _ => 0), ())

def oneAreaSt : HourSt 1 1 0 Unit := ⟨fun _ => 1, fun _ => 1, fun _ => 0, Cnt.zero 1, Cnt.zero 1, ()⟩

/-- Both hypotheses occur: with 90 MW of load the hour fails, with 120 MW it is processed. -/
example : ((hourBody (oneArea 90) 5 (fun _ => 100) (fun _ => 1) oneAreaSt).map fun w => w.H.LOLGP 0) =
      .error .indexError ∧
    ((hourBody (oneArea 120) 5 (fun _ => 100) (fun _ => 1) oneAreaSt).map fun w =>
      (w.H.LOLGP 0, w.H.MGNGA 0 0)) = .ok (1, 20) := by decide +kernel

/-! ## C44 -/

/-- C44. With the forecast factors made from the input (uncertainty ≥ 0) and non-negative loads: if no
area is short in tier `t`, no area is short in a later tier. -/
theorem C44_later_tiers_not_short (c : HourIn n m l ν) (FU : Fin n → ℚ) (hFU : ∀ j, 0 ≤ FU j)
    (hF : ∀ j, c.FCTERR j = dataxFCTERR (FU j)) (d : Draw n l) (hr : ℕ) (hL : ∀ j, 0 ≤ c.HRLOAD j hr)
    (t t' : Fin 5) (ht : t ≤ t') (hno : ∀ j, 0 ≤ tierMargin c d hr t j) :
    ∀ j, 0 ≤ tierMargin c d hr t' j := by
  intro j
  have hfac : c.FCTERR j t' ≤ c.FCTERR j t := by
    rw [hF]
    have := hFU j
    revert ht
    unfold dataxFCTERR
    fin_cases t <;> fin_cases t' <;> simp [Fin.le_def] <;> linarith
  have hle : d.SYSCON j - findld t hr c.HRLOAD c.FCTERR j ≤ d.SYSCON j - findld t' hr c.HRLOAD c.FCTERR j := by
    unfold findld
    have := mul_le_mul_of_nonneg_left hfac (hL j)
    linarith
  have := hno j
  unfold tierMargin marginInt pyInt at this ⊢
  simp only at this ⊢
  split_ifs at this with h1
  · rw [if_pos (le_trans h1 hle)]
    exact Int.floor_nonneg.2 (le_trans h1 hle)
  · have h2 : ⌈d.SYSCON j - findld t hr c.HRLOAD c.FCTERR j⌉ ≤ ⌈d.SYSCON j - findld t' hr c.HRLOAD c.FCTERR j⌉ :=
      Int.ceil_le_ceil hle
    split_ifs with h3
    · exact Int.floor_nonneg.2 h3
    · omega

example : dataxFCTERR 4 0 = 11/10 ∧ dataxFCTERR 4 4 = 9/10 ∧ dataxFCTERR 0 0 = 1 := by decide +kernel

/-! ## C45 -/

/-- What peak bookkeeping must do: all eight peak counters grow exactly as the hourly ones. -/
def SameGrowth (h h' p p' : Cnt n) : Prop :=
  (∀ t, p'.LOLTP t - p.LOLTP t = h'.LOLTP t - h.LOLTP t) ∧ (∀ t, p'.LOLGP t - p.LOLGP t = h'.LOLGP t - h.LOLGP t) ∧
  (∀ j t, p'.LOLTA j t - p.LOLTA j t = h'.LOLTA j t - h.LOLTA j t) ∧
  (∀ j t, p'.LOLGA j t - p.LOLGA j t = h'.LOLGA j t - h.LOLGA j t) ∧
  (∀ t, p'.MGNTP t - p.MGNTP t = h'.MGNTP t - h.MGNTP t) ∧ (∀ t, p'.MGNGP t - p.MGNGP t = h'.MGNGP t - h.MGNGP t) ∧
  (∀ j t, p'.MGNTA j t - p.MGNTA j t = h'.MGNTA j t - h.MGNTA j t) ∧
  (∀ j t, p'.MGNGA j t - p.MGNGA j t = h'.MGNGA j t - h.MGNGA j t)

theorem SameGrowth.step {h h1 p p1 h2 p2 : Cnt n} {t : Fin 5} {M : Fin n → ℚ} {pc ac : Cause} {pe : ℤ}
    (a : Adds h h1 t M pc ac pe) (b : Adds p p1 t M pc ac pe) (g : SameGrowth h1 h2 p1 p2) :
    SameGrowth h h2 p p2 := by
  obtain ⟨g1, g2, g3, g4, g5, g6, g7, g8⟩ := g
  refine ⟨fun x => ?_, fun x => ?_, fun j x => ?_, fun j x => ?_, fun x => ?_, fun x => ?_, fun j x => ?_,
    fun j x => ?_⟩
  · have := g1 x; rw [a.lolTP, b.lolTP] at this; linarith
  · have := g2 x; rw [a.lolGP, b.lolGP] at this; linarith
  · have := g3 j x; rw [a.lolTA, b.lolTA] at this; linarith
  · have := g4 j x; rw [a.lolGA, b.lolGA] at this; linarith
  · have := g5 x; rw [a.mgnTP, b.mgnTP] at this; linarith
  · have := g6 x; rw [a.mgnGP, b.mgnGP] at this; linarith
  · have := g7 j x; rw [a.mgnTA, b.mgnTA] at this; linarith
  · have := g8 j x; rw [a.mgnGA, b.mgnGA] at this; linarith

theorem addTiers_sameGrowth (hist : List (Fin 5 × (Fin n → ℤ))) : ∀ (s : (Fin n → ℚ) × Cnt n) (p : Cnt n),
    SameGrowth s.2 (addTiers hist s).2 p (addPeaks hist p) := by
  induction hist with
  | nil => intro s p; simp [SameGrowth, addTiers, addPeaks]
  | cons e hist ih =>
    intro s p
    exact SameGrowth.step (C26_hrstat e.1 _ s.1 s.2).2 (C26_pkstat e.1 e.2 p) (ih _ _)

/-- C45 (hourly mode, what holds). In every hour of the year except the last: in the first hour of the
day with the largest pool load the peak counters grow exactly as the hourly counters, in all other hours
they do not change. -/
theorem C45_peak_hour_partial (c : HourIn n m l ν) (hs : c.JSTEP ≠ 24) (hf : c.JFREQ = 1)
    (hp : c.MXPLHR = plhr c.HRLOAD) (y h : ℕ) (hh : h < 8759) (R P : Fin m → ℚ) (w w' : HourSt n m l ν)
    (hw : hourBody c (8760 * y + (h + 1 : ℕ)) R P w = .ok w') :
    (IsFirstMax (fun x => ∑ a, c.HRLOAD a x) (24 * (h / 24)) 24 h → SameGrowth w.H w'.H w.P w'.P) ∧
    (¬ IsFirstMax (fun x => ∑ a, c.HRLOAD a x) (24 * (h / 24)) 24 h → w'.P = w.P) := by
  rw [hourBody_hourly c hs hf y (h + 1) (by omega)] at hw
  have hof : hourOf (h + 1) = h := by simp [hourOf]
  rw [hof] at hw
  obtain ⟨hist, _, _, _, _, h3, h4⟩ := tierLoop_hist _ _ _ _ hw
  have hPl := C18_pool_peak c.HRLOAD (h / 24)
  have hiff : (((h + 1 : ℕ) : ℤ) - 1 = c.MXPLHR (h / 24)) ↔
      IsFirstMax (fun x => ∑ a, c.HRLOAD a x) (24 * (h / 24)) 24 h := by
    rw [hp]
    constructor
    · intro e
      have : h = plhr c.HRLOAD (h / 24) := by push_cast at e; omega
      rw [← this] at hPl; exact hPl
    · intro e
      have := e.unique hPl
      push_cast; omega
  constructor
  · intro hm
    rw [if_pos (by simpa using hiff.2 hm)] at h4
    have hH : w'.H = (addTiers hist (w.LSFLG, w.H)).2 := congrArg Prod.snd h3
    rw [hH, h4]
    exact addTiers_sameGrowth hist _ _
  · intro hm
    rw [if_neg (by simpa using fun e => hm (hiff.1 e))] at h4
    exact h4

/-- C45 (daily mode). Every draw uses the pool's peak hour of its day, for the last day of the year
too, and the peak counters grow exactly as the hourly ones. -/
theorem C45_daily (c : HourIn n m l ν) (hs : c.JSTEP = 24) (hf : c.JFREQ = 1)
    (hp : c.MXPLHR = plhr c.HRLOAD) (y k : ℕ) (hk : k < 8760) (R P : Fin m → ℚ) (w w' : HourSt n m l ν)
    (hw : hourBody c (8760 * y + k) R P w = .ok w') :
    SameGrowth w.H w'.H w.P w'.P ∧ ∃ hr, IsFirstMax (fun x => ∑ a, c.HRLOAD a x) (24 * (hourOf k / 24)) 24 hr ∧
      tierLoop c (hourDraw c (hourOf k / 24) R P w).1 hr true ((List.finRange 5).take c.NFCST) 0
        (hourDraw c (hourOf k / 24) R P w).2 = .ok w' := by
  have hb : ∀ d < 365, c.MXPLHR d < 8760 := by
    intro d hd
    rw [hp]
    have := (C18_pool_peak c.HRLOAD d).2.1
    omega
  rw [hourBody_daily c hs hf y k hk hb] at hw
  refine ⟨?_, c.MXPLHR (hourOf k / 24), ?_, hw⟩
  · obtain ⟨hist, _, _, _, _, h3, h4⟩ := tierLoop_hist _ _ _ _ hw
    have hH : w'.H = (addTiers hist (w.LSFLG, w.H)).2 := congrArg Prod.snd h3
    rw [if_pos rfl] at h4
    rw [hH, h4]
    exact addTiers_sameGrowth hist _ _
  · rw [hp]; exact C18_pool_peak c.HRLOAD _

/-- C45 (what fails). In the last hour of each year (hour 8759) no peak statistics are ever collected in
hourly mode, also when this hour has the largest pool load of its day. -/
theorem C45_last_hour_refuted :
    (∀ (c : HourIn n m l ν), c.JSTEP ≠ 24 → c.JFREQ = 1 → ∀ (y : ℕ) (R P : Fin m → ℚ) (w w' : HourSt n m l ν),
      hourBody c (8760 * y + (0 : ℕ)) R P w = .ok w' → w'.P = w.P) ∧
    (∃ H : Fin 1 → ℕ → ℚ, IsFirstMax (fun x => ∑ a, H a x) (24 * (8759 / 24)) 24 8759) := by
  constructor
  · intro c hs hf y R P w w' hw
    rw [hourBody_hourly c hs hf y 0 (by omega)] at hw
    obtain ⟨hist, _, _, _, _, h3, h4⟩ := tierLoop_hist _ _ _ _ hw
    rw [if_neg (by simp)] at h4
    exact h4
  · refine ⟨fun _ h => h, by omega, by omega, ?_⟩
    intro k h1 h2
    simp only [Finset.univ_unique, Finset.sum_singleton]
    have : k ≤ 8759 := by omega
    exact ⟨by exact_mod_cast this, fun h => by exact_mod_cast h⟩

/-- In the example system the peak hour of day 0 is collected (hour 18), other hours are not. -/
example : ((hourBody (oneArea 120) 19 (fun _ => 100) (fun _ => 1) oneAreaSt).map fun w => w.P.LOLGP 0) = .ok 1 ∧
    ((hourBody (oneArea 120) 5 (fun _ => 100) (fun _ => 1) oneAreaSt).map fun w => w.P.LOLGP 0) = .ok 0 := by
  decide +kernel

/-! ## C48 -/

/-- C48 (what fails). If states are to be drawn only every `JFREQ > 1` hours, every hour in between
raises an UnboundLocalError (in hourly mode, for all systems). -/
theorem C48_sampling_frequency_refuted (c : HourIn n m l ν) (hs : c.JSTEP ≠ 24) (hf : 1 < c.JFREQ)
    (y k : ℕ) (hk : k < 8760) (hk0 : k ≠ 0) (hnot : ¬ ((k : ℤ) - 1) % c.JFREQ = 0) (R P : Fin m → ℚ)
    (w : HourSt n m l ν) :
    hourBody c (8760 * y + k) R P w = .error .unboundLocal := by
  unfold hourBody
  simp only [jhour_eq y k hk, hs, if_false]
  have hd : pyIdx 365 (((k : ℤ) - 1) / 24) = .ok (((k : ℤ) - 1) / 24).toNat := by
    unfold pyIdx
    rw [if_pos (by omega), if_pos (by omega)]
  rw [hd]
  simp only [bind, Except.bind]
  have h0 : c.JFREQ ≠ 0 := by omega
  have h1 : c.JFREQ ≠ 1 := by omega
  simp [h0, h1, hnot, throw, throwThe, MonadExceptOf.throw]

/-- C48 (what holds). With `JFREQ = 1` every successful hour advances the random stream of every unit and
of every line by exactly one draw, whatever the shortages. -/
theorem C48_every_hour_draws_partial (c : HourIn n m l ν) (hs : c.JSTEP ≠ 24) (hf : c.JFREQ = 1) (y k : ℕ)
    (hk : k < 8760) (R P : Fin m → ℚ) (w w' : HourSt n m l ν)
    (hw : hourBody c (8760 * y + k) R P w = .ok w') :
    (∀ i, w'.IGSEED i = (w.IGSEED i * 65539) % 2 ^ 31) ∧ (∀ i, w'.ILSEED i = (w.ILSEED i * 65539) % 2 ^ 31) := by
  rw [hourBody_hourly c hs hf y k hk] at hw
  obtain ⟨hist, _, _, h1, h2, _, _⟩ := tierLoop_hist _ _ _ _ hw
  rw [h1, h2]
  have e : (2 : ℤ) ^ 31 = 2147483648 := by norm_num
  rw [e]
  exact ⟨fun i => mul31_eq _ _, fun i => mul31_eq _ _⟩

example : ∃ k : ℕ, k < 8760 ∧ k ≠ 0 ∧ ¬ ((k : ℤ) - 1) % 2 = 0 := ⟨2, by norm_num⟩

/-! ## C49: bounds of the annual counters -/

/-- The state of the annual counters after `k` hours (since they were last zeroed). -/
structure YearOK (k : ℕ) (H P : Cnt n) : Prop where
  nonnegT : ∀ t, 0 ≤ P.LOLTP t ∧ P.LOLTP t ≤ H.LOLTP t
  nonnegG : ∀ t, 0 ≤ P.LOLGP t ∧ P.LOLGP t ≤ H.LOLGP t
  pool : ∀ t, H.LOLTP t + H.LOLGP t ≤ k
  area : ∀ j t, 0 ≤ H.LOLTA j t ∧ 0 ≤ H.LOLGA j t ∧ H.LOLTA j t + H.LOLGA j t ≤ H.LOLTP t + H.LOLGP t
  areaP : ∀ j t, 0 ≤ P.LOLTA j t ∧ 0 ≤ P.LOLGA j t ∧ P.LOLTA j t + P.LOLGA j t ≤ P.LOLTP t + P.LOLGP t
  areaPH : ∀ j t, P.LOLTA j t ≤ H.LOLTA j t ∧ P.LOLGA j t ≤ H.LOLGA j t
  energy : ∀ j t, 0 ≤ P.MGNTA j t ∧ P.MGNTA j t ≤ H.MGNTA j t ∧ 0 ≤ P.MGNGA j t ∧ P.MGNGA j t ≤ H.MGNGA j t
  balH : Balanced H
  balP : Balanced P

theorem shortFlag_bounds (M : Fin n → ℚ) (j : Fin n) : 0 ≤ shortFlag M j ∧ shortFlag M j ≤ 1 := by
  unfold shortFlag; split_ifs <;> norm_num

theorem shortMW_nonneg (M : Fin n → ℚ) (j : Fin n) : 0 ≤ shortMW M j := by
  unfold shortMW
  split_ifs with h
  · exact Int.floor_nonneg.2 (by linarith)
  · exact le_refl _

theorem two_ifs (q : Prop) [Decidable q] (ac : Cause) (x : ℚ) :
    (if q ∧ ac = .transmission then x else 0) + (if q ∧ ac = .generation then x else 0) = if q then x else 0 := by
  cases ac <;> simp

/-- Growth of the counters by one tier, with at most one count per tier. -/
theorem yearOK_hist (hist : List (Fin 5 × (Fin n → ℤ))) (isPeak : Bool) : ∀ (k : ℕ) (s : (Fin n → ℚ) × Cnt n)
    (p : Cnt n), (hist.map Prod.fst).Nodup →
    (∀ t, s.2.LOLTP t + s.2.LOLGP t ≤ (k : ℚ) + if t ∈ hist.map Prod.fst then 0 else 1) →
    (YearOK (k + 1) s.2 p) →
    YearOK (k + 1) (addTiers hist s).2 (if isPeak then addPeaks hist p else p) := by
  induction hist with
  | nil =>
    intro k s p _ _ hY
    cases isPeak <;> exact hY
  | cons e hist ih =>
    intro k s p hnd hb hY
    simp only [List.map_cons, List.nodup_cons] at hnd
    have a := (C26_hrstat e.1 (fun j => (e.2 j : ℚ)) s.1 s.2).2
    have b := C26_pkstat e.1 e.2 p
    have hp : (if isPeak = true then addPeaks (e :: hist) p else p) =
        (if isPeak = true then addPeaks hist (if isPeak then pkstat e.1 (fun j => (e.2 j : ℚ)) p else p)
          else (if isPeak then pkstat e.1 (fun j => (e.2 j : ℚ)) p else p)) := by
      cases isPeak <;> rfl
    rw [hp]
    show YearOK (k + 1) (addTiers hist (hrstat e.1 (fun j => (e.2 j : ℚ)) s)).2 _
    generalize hM : (fun j => (e.2 j : ℚ)) = M at *
    generalize hpc : poolCause (∑ j, M j) = pc at a b
    generalize hac : areaCause (∑ j, M j) = ac at a b
    have hpool : ∀ t, (hrstat e.1 M s).2.LOLTP t + (hrstat e.1 M s).2.LOLGP t =
        s.2.LOLTP t + s.2.LOLGP t + if t = e.1 then 1 else 0 := by
      intro t
      rw [a.lolTP, a.lolGP]
      cases pc <;> by_cases ht : t = e.1 <;> simp [ht] <;> ring
    refine ih k _ _ hnd.2 ?_ ?_
    · intro t
      rw [hpool]
      have := hb t
      by_cases ht : t = e.1
      · subst ht
        simp only [List.map_cons, List.mem_cons, true_or, if_true] at this
        rw [if_neg hnd.1]; simp only [if_true]; linarith
      · simp only [List.map_cons, List.mem_cons, ht, false_or, if_false] at this ⊢
        linarith
    · have hpool' : ∀ t, (hrstat e.1 M s).2.LOLTP t + (hrstat e.1 M s).2.LOLGP t ≤ ((k + 1 : ℕ) : ℚ) := by
        intro t
        rw [hpool]
        have := hb t
        by_cases ht : t = e.1
        · subst ht
          simp only [List.map_cons, List.mem_cons, true_or, if_true] at this ⊢
          push_cast; linarith
        · have h2 := hY.pool t
          simp only [ht, if_false]; linarith
      have fl := shortFlag_bounds M
      have mw : ∀ j, (0 : ℚ) ≤ (shortMW M j : ℚ) := fun j => by exact_mod_cast shortMW_nonneg M j
      cases isPeak
      · simp only [Bool.false_eq_true, if_false]
        refine ⟨fun t => ?_, fun t => ?_, hpool', fun j t => ?_, hY.areaP, fun j t => ?_, fun j t => ?_,
          a.balanced hY.balH, hY.balP⟩
        · obtain ⟨h1, h2⟩ := hY.nonnegT t
          rw [a.lolTP]; exact ⟨h1, le_trans h2 (by split_ifs <;> linarith)⟩
        · obtain ⟨h1, h2⟩ := hY.nonnegG t
          rw [a.lolGP]; exact ⟨h1, le_trans h2 (by split_ifs <;> linarith)⟩
        · obtain ⟨h1, h2, h3⟩ := hY.area j t
          rw [hpool, a.lolTA, a.lolGA]
          obtain ⟨f1, f2⟩ := fl j
          have e2 := two_ifs (t = e.1) ac (shortFlag M j)
          refine ⟨?_, ?_, ?_⟩
          · split_ifs <;> linarith
          · split_ifs <;> linarith
          · have : (if t = e.1 then shortFlag M j else 0) ≤ if t = e.1 then 1 else 0 := by
              split_ifs <;> linarith
            linarith
        · obtain ⟨h1, h2⟩ := hY.areaPH j t
          rw [a.lolTA, a.lolGA]
          obtain ⟨f1, f2⟩ := fl j
          constructor
          · refine le_trans h1 ?_; split_ifs <;> linarith
          · refine le_trans h2 ?_; split_ifs <;> linarith
        · obtain ⟨h1, h2, h3, h4⟩ := hY.energy j t
          rw [a.mgnTA, a.mgnGA]
          have := mw j
          refine ⟨h1, le_trans h2 ?_, h3, le_trans h4 ?_⟩ <;> split_ifs <;> linarith
      · simp only [if_true]
        have hpoolP : ∀ t, (pkstat e.1 M p).LOLTP t + (pkstat e.1 M p).LOLGP t =
            p.LOLTP t + p.LOLGP t + if t = e.1 then 1 else 0 := by
          intro t
          rw [b.lolTP, b.lolGP]
          cases pc <;> by_cases ht : t = e.1 <;> simp [ht] <;> ring
        refine ⟨fun t => ?_, fun t => ?_, hpool', fun j t => ?_, fun j t => ?_, fun j t => ?_, fun j t => ?_,
          a.balanced hY.balH, b.balanced hY.balP⟩
        · obtain ⟨h1, h2⟩ := hY.nonnegT t
          rw [a.lolTP, b.lolTP]; constructor
          · split_ifs <;> linarith
          · linarith
        · obtain ⟨h1, h2⟩ := hY.nonnegG t
          rw [a.lolGP, b.lolGP]; constructor
          · split_ifs <;> linarith
          · linarith
        · obtain ⟨h1, h2, h3⟩ := hY.area j t
          rw [hpool, a.lolTA, a.lolGA]
          obtain ⟨f1, f2⟩ := fl j
          have e2 := two_ifs (t = e.1) ac (shortFlag M j)
          refine ⟨?_, ?_, ?_⟩
          · split_ifs <;> linarith
          · split_ifs <;> linarith
          · have : (if t = e.1 then shortFlag M j else 0) ≤ if t = e.1 then 1 else 0 := by
              split_ifs <;> linarith
            linarith
        · obtain ⟨h1, h2, h3⟩ := hY.areaP j t
          rw [hpoolP, b.lolTA, b.lolGA]
          obtain ⟨f1, f2⟩ := fl j
          have e2 := two_ifs (t = e.1) ac (shortFlag M j)
          refine ⟨?_, ?_, ?_⟩
          · split_ifs <;> linarith
          · split_ifs <;> linarith
          · have : (if t = e.1 then shortFlag M j else 0) ≤ if t = e.1 then 1 else 0 := by
              split_ifs <;> linarith
            linarith
        · obtain ⟨h1, h2⟩ := hY.areaPH j t
          rw [a.lolTA, a.lolGA, b.lolTA, b.lolGA]
          constructor <;> linarith
        · obtain ⟨h1, h2, h3, h4⟩ := hY.energy j t
          rw [a.mgnTA, a.mgnGA, b.mgnTA, b.mgnGA]
          have := mw j
          refine ⟨?_, by linarith, ?_, by linarith⟩ <;> split_ifs <;> linarith

theorem YearOK.mono {k : ℕ} {H P : Cnt n} (h : YearOK k H P) : YearOK (k + 1) H P :=
  ⟨h.nonnegT, h.nonnegG, fun t => le_trans (h.pool t) (by push_cast; linarith), h.area, h.areaP, h.areaPH,
    h.energy, h.balH, h.balP⟩

theorem yearOK_zero : YearOK 0 (Cnt.zero n) (Cnt.zero n) := by
  refine ⟨?_, ?_, ?_, ?_, ?_, ?_, ?_, ?_, ?_⟩ <;> simp [Cnt.zero, Balanced]

/-- One hourly event keeps the bounds. -/
theorem yearOK_hour {c : HourIn n m l ν} {CLOCK : ℚ} {R P : Fin m → ℚ} {w w' : HourSt n m l ν} {k : ℕ}
    (hw : hourBody c CLOCK R P w = .ok w') (h : YearOK k w.H w.P) : YearOK (k + 1) w'.H w'.P := by
  unfold hourBody at hw
  simp only at hw
  obtain ⟨day, hday, hw⟩ := Except.bind_ok hw
  by_cases hz : c.JFREQ = 0
  · rw [if_pos hz] at hw; cases hw
  rw [if_neg hz] at hw
  generalize (if c.JSTEP = 24 then (c.MXPLHR day : ℤ) else -1 + pyInt (pyMod CLOCK 8760)) = JH at hw
  split at hw
  · cases hw
  obtain ⟨hr, hhr, hw⟩ := Except.bind_ok hw
  obtain ⟨hist, h1, _, _, _, h3, h4⟩ := tierLoop_hist _ _ _ _ hw
  have hH : w'.H = (addTiers hist (w.LSFLG, w.H)).2 := congrArg Prod.snd h3
  rw [hH, h4]
  refine yearOK_hist hist _ k (w.LSFLG, w.H) w.P ?_ ?_ h.mono
  · exact (h1.sublist.trans (List.take_sublist _ _)).nodup (List.nodup_finRange 5)
  · intro t
    have := h.pool t
    split_ifs <;> linarith

/-- C49. Over any history of hourly events (any clocks, ratings and maintenance statuses, any behaviour of
the transmission module) that starts with zeroed annual counters: in each tier the pool's loss-of-load
hours do not exceed the number of hours simulated, an area's do not exceed the pool's, the peak
statistics do not exceed the hourly ones, nothing is negative, and the unserved energy of the pool is the
sum over its areas. -/
theorem C49_annual_counters (c : HourIn n m l ν) (hours : List (ℚ × (Fin m → ℚ) × (Fin m → ℚ)))
    (w w' : HourSt n m l ν) (hH : w.H = Cnt.zero n) (hP : w.P = Cnt.zero n)
    (h : hours.foldlM (fun w e => hourBody c e.1 e.2.1 e.2.2 w) w = .ok w') :
    YearOK hours.length w'.H w'.P := by
  have main : ∀ (hours : List (ℚ × (Fin m → ℚ) × (Fin m → ℚ))) (k : ℕ) (w : HourSt n m l ν),
      YearOK k w.H w.P → hours.foldlM (fun w e => hourBody c e.1 e.2.1 e.2.2 w) w = .ok w' →
      YearOK (k + hours.length) w'.H w'.P := by
    intro hours
    induction hours with
    | nil => intro k w hY h; cases h; exact hY
    | cons e hours ih =>
      intro k w hY h
      rw [List.foldlM_cons] at h
      obtain ⟨w1, h1, h⟩ := Except.bind_ok h
      have := ih (k + 1) w1 (yearOK_hour h1 hY) h
      rw [List.length_cons]
      rwa [show k + 1 + hours.length = k + (hours.length + 1) by omega] at this
  have := main hours 0 w (by rw [hH, hP]; exact yearOK_zero) h
  simpa using this

/-- three hours: hour 0, hour 1 with the unit on maintenance, hour 18 (the peak hour) -/
def threeHours : List (ℚ × (Fin 1 → ℚ) × (Fin 1 → ℚ)) :=
  [(1, (fun _ => 100), (fun _ => 1)), (2, (fun _ => 100), (fun _ => 0)), (19, (fun _ => 100), (fun _ => 1))]

example : ((threeHours.foldlM (fun w e => hourBody (oneArea 120) e.1 e.2.1 e.2.2 w) oneAreaSt).map fun w =>
    (w.H.LOLGP 0, w.P.LOLGP 0, w.H.MGNGA 0 0, w.P.MGNGP 0)) = .ok (3, 1, 160, 20) := by decide +kernel

end Narp.Props
