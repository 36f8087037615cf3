import Verif.Spec.Input
import Verif.Props.Names
import Verif.Props.Capacity
import Verif.Props.LoadFile
import Verif.Props.Load
import Verif.Props.Sampling
import Verif.Props.Pmsc
import Mathlib.Data.List.NodupEquivFin

/-!
# C64, C65: the input cards take effect
-/

namespace Narp.Props
open Narp.Spec BigOperators

variable {n m l : ℕ}

/-- One card per area and per unit. -/
structure OneCard (c : Cards n m l) : Prop where
  areas : Function.Injective fun j => (c.areas j).name
  units : Function.Injective fun i => (c.units i).name

/-- Every area a card mentions has a card, and so has every unit. -/
structure AllKnown (c : Cards n m l) : Prop where
  loc : ∀ i, ∃ j, (c.areas j).name = (c.units i).loc
  src : ∀ k, ∃ j, (c.areas j).name = (c.lines k).src
  dst : ∀ k, ∃ j, (c.areas j).name = (c.lines k).dst
  csrc : ∀ x ∈ c.contracts, ∃ j, (c.areas j).name = x.src
  cdst : ∀ x ∈ c.contracts, ∃ j, (c.areas j).name = x.dst
  own : ∀ x ∈ c.owns, ∃ i, (c.units i).name = x.unit

/-- The index columns say what the names say. -/
structure WiredAs (c : Cards n m l) (w : Wiring n m l) : Prop where
  unit : ∀ i, w.NAT i = i
  loc : ∀ i, (c.areas (w.NAR i)).name = (c.units i).loc
  src : ∀ k, (c.areas (w.LP k).1).name = (c.lines k).src
  dst : ∀ k, (c.areas (w.LP k).2).name = (c.lines k).dst
  number : ∀ k, w.number k = (c.lines k).number - 1

theorem resolved_column {N k : ℕ} {f : Fin N → Name} {g : Fin k → Name} {ints : List ℕ}
    (h : Resolved (List.ofFn f) (List.ofFn g) ints) :
    ∃ col, column N k ints = .ok col ∧ ∀ i, f (col i) = g i := by
  have hlen : ints.length = k := by rw [← h.length_eq]; simp
  have hget : ∀ (i : ℕ) (hi : i < k), ∃ hN : ints[i] < N, f ⟨ints[i], hN⟩ = g ⟨i, hi⟩ := by
    intro i hi
    have := List.Forall₂.get h (i := i) (by simpa using hi) (by omega)
    simp only [List.get_eq_getElem, List.getElem_ofFn] at this
    obtain ⟨hN, e⟩ := List.getElem?_eq_some_iff.1 this
    refine ⟨by simpa using hN, ?_⟩
    rw [List.getElem_ofFn] at e
    exact e
  have hc : ints.length = k ∧ ∀ x ∈ ints, x < N := by
    refine ⟨hlen, fun x hx => ?_⟩
    obtain ⟨i, hi, rfl⟩ := List.mem_iff_getElem.1 hx
    exact (hget i (by omega)).1
  refine ⟨_, by unfold column; rw [dif_pos hc], fun i => ?_⟩
  exact (hget i i.isLt).2

theorem nodup_names {k : ℕ} {f : Fin k → Name} (h : Function.Injective f) : (List.ofFn f).Nodup :=
  List.nodup_ofFn.2 h

theorem known_names {c : Cards n m l} (h : AllKnown c) : KnownNames c.names := by
  constructor
  · intro x hx
    simp only [Cards.names, List.mem_append, List.mem_ofFn, List.mem_map] at hx ⊢
    rcases hx with (((⟨i, rfl⟩ | ⟨i, rfl⟩) | ⟨i, rfl⟩) | ⟨y, hy, rfl⟩) | ⟨y, hy, rfl⟩
    · exact h.loc i
    · exact h.src i
    · exact h.dst i
    · exact h.csrc y hy
    · exact h.cdst y hy
  · intro x hx
    simp only [Cards.names, List.mem_ofFn, List.mem_map] at hx ⊢
    obtain ⟨y, hy, rfl⟩ := hx
    exact h.own y hy

theorem names_known {c : Cards n m l} (h : KnownNames c.names) : AllKnown c := by
  obtain ⟨h1, h2⟩ := h
  simp only [Cards.names, List.mem_append, List.mem_ofFn, List.mem_map] at h1 h2
  exact ⟨fun i => h1 _ (.inl (.inl (.inl (.inl ⟨i, rfl⟩)))), fun i => h1 _ (.inl (.inl (.inl (.inr ⟨i, rfl⟩)))),
    fun i => h1 _ (.inl (.inl (.inr ⟨i, rfl⟩))), fun y hy => h1 _ (.inl (.inr ⟨y, hy, rfl⟩)),
    fun y hy => h1 _ (.inr ⟨y, hy, rfl⟩), fun y hy => h2 _ ⟨y, hy, rfl⟩⟩

/-- Name resolution succeeds exactly when all names are known, and then connects the cards by name. -/
theorem wiring_iff {c : Cards n m l} (h1 : OneCard c) (hm : 0 < m) :
    (AllKnown c ↔ ∃ w, wiring c = .ok w) ∧ ∀ w, wiring c = .ok w → WiredAs c w := by
  have hA : c.names.ldNAR.Nodup := nodup_names h1.areas
  have hU : c.names.udNAT.Nodup := nodup_names h1.units
  obtain ⟨hiff, hres⟩ := C21_resolution c.names hA hU
  have key : ∀ t, pind c.names = .ok t → ∃ w, wiring c = .ok w ∧ WiredAs c w := by
    intro t ht
    obtain ⟨_, r1, r2, r3, r4, _, _, _, r5⟩ := hres t ht
    obtain ⟨NAT, e1, f1⟩ := resolved_column r1
    obtain ⟨NAR, e2, f2⟩ := resolved_column r2
    obtain ⟨a, e3, f3⟩ := resolved_column r3
    obtain ⟨b, e4, f4⟩ := resolved_column r4
    refine ⟨⟨NAT, NAR, fun k => (a k, b k), fun k => t.tdLineID.getD k 0⟩, ?_, ?_⟩
    · unfold wiring
      rw [if_neg (by omega), ht]
      show (column m m t.udNAT >>= _) = _
      rw [e1]
      show (column (n + 1) m t.udNAR >>= _) = _
      rw [e2]
      show (column (n + 1) l t.tdNAR >>= _) = _
      rw [e3]
      show (column (n + 1) l t.tdNAE >>= _) = _
      rw [e4]
      rfl
    · refine ⟨fun i => h1.units (f1 i), f2, f3, f4, fun k => ?_⟩
      show t.tdLineID.getD k 0 = _
      rw [r5]
      simp [Cards.names]
  have uniq : ∀ w, wiring c = .ok w → ∃ t, pind c.names = .ok t := by
    intro w h
    unfold wiring at h
    rw [if_neg (by omega)] at h
    obtain ⟨t, ht, _⟩ := Except.bind_ok h
    exact ⟨t, ht⟩
  refine ⟨⟨fun h => ?_, fun ⟨w, h⟩ => ?_⟩, fun w h => ?_⟩
  · obtain ⟨t, ht⟩ := hiff.1 (known_names h)
    obtain ⟨w, hw, _⟩ := key t ht
    exact ⟨w, hw⟩
  · exact names_known (hiff.2 (uniq w h))
  · obtain ⟨t, ht⟩ := uniq w h
    obtain ⟨w', hw, hs⟩ := key t ht
    rw [h] at hw
    cases hw
    exact hs

/-! ## Ownership -/

theorem capcon_id [NeZero n] (NAR : Fin m → Fin n) : dataxCAPCON NAR (fun i : Fin m => i) = NAR := by
  have key : ∀ (L : List (Fin m)) (C : Fin m → Fin n) (i : Fin m),
      L.foldl (fun C c => Function.update C c (NAR c)) C i = if i ∈ L then NAR i else C i := by
    intro L
    induction L with
    | nil => intro C i; simp
    | cons a L ih =>
      intro C i
      rw [List.foldl_cons, ih]
      by_cases h : i ∈ L
      · simp [h]
      · by_cases h' : i = a
        · subst h'; simp [h]
        · simp [h, h', Function.update_of_ne]
  funext i
  unfold dataxCAPCON
  rw [key, if_pos (List.mem_finRange i)]

theorem capown_id (NAR : Fin m → Fin n) (j : Fin n) (i : Fin m) :
    dataxCAPOWN NAR (fun i : Fin m => i) j i = if j = NAR i then 1 else 0 := by
  have key : ∀ (L : List (Fin m)) (C : Fin n → Fin m → ℚ),
      L.foldl (fun C c => fun j i => if j = NAR c ∧ i = c then (1 : ℚ) else C j i) C j i =
        if i ∈ L ∧ j = NAR i then 1 else C j i := by
    intro L
    induction L with
    | nil => intro C; simp
    | cons a L ih =>
      intro C
      rw [List.foldl_cons, ih]
      by_cases h : i ∈ L ∧ j = NAR i
      · rw [if_pos h, if_pos ⟨List.mem_cons_of_mem _ h.1, h.2⟩]
      · rw [if_neg h]
        by_cases h' : j = NAR a ∧ i = a
        · rw [if_pos h', if_pos ⟨by rw [h'.2]; exact List.mem_cons_self, by rw [h'.1, h'.2]⟩]
        · rw [if_neg h', if_neg]
          rintro ⟨h1, h2⟩
          rcases List.mem_cons.1 h1 with rfl | h1
          · exact h' ⟨h2, rfl⟩
          · exact h ⟨h1, h2⟩
  unfold dataxCAPOWN
  rw [key]
  simp [List.mem_finRange]

/-! ## The parts of the input processing -/

theorem cardErrors_ok {c : Cards n m l} (h : cardErrors c = .ok ()) : c.contracts = [] ∧ c.owns = [] := by
  unfold cardErrors at h
  split at h
  · cases h
  · rename_i h1
    split at h
    · cases h
    · rename_i h2
      exact ⟨not_not.1 h1, not_not.1 h2⟩

theorem wiring_pos {c : Cards n m l} {w : Wiring n m l} (h : wiring c = .ok w) : 0 < m := by
  unfold wiring at h
  by_contra hm
  rw [if_pos (by omega)] at h
  cases h

/-- The steps of an input processing that succeeds. -/
theorem setup_ok {sl : ℕ → ℚ → ℚ} {fuel : ℕ} {c : Cards n m l} {s : Setup n m l} (h : setup sl fuel c = .ok s) :
    ∃ w raw T ITAB ID', wiring c = .ok w ∧ c.contracts = [] ∧ c.owns = [] ∧ leeiRead (n + 1) c.leei = .ok raw ∧
      smaint (n + 1) (setupID c w) 6 (maxCap c) sl = .ok (T, ITAB, ID') ∧
      let H : Fin (n + 1) → ℕ → ℚ := fun j h =>
        leeiScale c.peaks raw j h
      s = ⟨setupHour c w fuel H, setupYear c, planRows m T, List.ofFn fun i => List.ofFn (c.units i).cap,
        fun j => areaLabel (c.areas j).name, setupSus c w H, setupNet c, c.misc.INTV, ITAB⟩ := by
  unfold setup at h
  obtain ⟨w, hw, h⟩ := Except.bind_ok h
  obtain ⟨u, hu, h⟩ := Except.bind_ok h
  obtain ⟨H, hH, h⟩ := Except.bind_ok h
  obtain ⟨⟨T, ITAB, ID'⟩, hS, h⟩ := Except.bind_ok h
  obtain ⟨e1, e2⟩ := cardErrors_ok hu
  unfold xldnew at hH
  cases hr : leeiRead (n + 1) c.leei with
  | error e => rw [hr] at hH; cases hH
  | ok raw =>
    rw [hr] at hH
    cases hH
    cases h
    exact ⟨w, raw, T, ITAB, ID', hw, e1, e2, rfl, hS, rfl⟩

/-! ## C64 -/

variable {sl : ℕ → ℚ → ℚ} {fuel : ℕ} {c : Cards n m l} {s : Setup n m l}

/-- C64 (units). For every accepted input with one card per area and unit: in every draw, the capacity available to
an area is that of the units located there by their cards, each with its rating of the season, its planned outage
status and the outcome of its random number according to the outage rates and the derating of its card; nothing is
transferred because of ownership or contracts. The seasonal ratings are those of the cards. -/
theorem C64_units (h1 : OneCard c) (h : setup sl fuel c = .ok s) (day : ℕ) (R P : Fin m → ℚ)
    (w : HourSt (n + 1) m l (NetSt n l)) (j : Fin (n + 1)) :
    let d := (hourDraw s.hour day R P w).1
    d.SYSCON j = ∑ i ∈ unitsIn c j, outcome (c.units i) (variate ((hourDraw s.hour day R P w).2.IGSEED i)) * R i * P i ∧
    d.TRNSFJ j = 0 ∧ d.TRNSFR j = 0 ∧
    (∀ (i : Fin m) (k : Fin 4), (s.RATES.getD i []).getD k 0 = (c.units i).cap k) := by
  obtain ⟨wr, raw, T, ITAB, ID', hw, _, _, _, _, rfl⟩ := setup_ok h
  have hwa := (wiring_iff h1 (wiring_pos hw)).2 wr hw
  have hN : wr.NAT = fun i => i := funext hwa.unit
  simp only [hourDraw, setupHour]
  rw [hN]
  have hin : ∀ i, wr.NAR i = j ↔ (c.units i).loc = (c.areas j).name := by
    intro i
    rw [← hwa.loc i]
    exact ⟨fun e => by rw [e], fun e => h1.areas e⟩
  have hav : ∀ i, (gstate w.IGSEED (fun i => dataxPROBG (c.units i).dfor (c.units i).fout) R
      (fun i => dataxDERATE (c.units i).der) P).2.2 i =
      outcome (c.units i) (variate ((gstate w.IGSEED (fun i => dataxPROBG (c.units i).dfor (c.units i).fout) R
      (fun i => dataxDERATE (c.units i).der) P).1 i)) * R i * P i := by
    intro i
    simp only [gstate, dataxPROBG, dataxDERATE, unitPct, outcome, Matrix.cons_val_zero, Matrix.cons_val_one]
    have e : 1 - ((c.units i).dfor + (c.units i).fout) = 1 - (c.units i).fout - (c.units i).dfor := by ring
    simp only [e]
    rfl
  have hsys : ∀ A : Fin m → ℚ, (sumcap A (dataxCAPOWN wr.NAR fun i => i) (dataxCAPCON wr.NAR fun i => i)).2.2.1 j =
      ∑ i ∈ unitsIn c j, A i := by
    intro A
    rw [(C16_per_area _ _ _ j).1, capcon_id]
    apply Finset.sum_congr _ fun _ _ => rfl
    ext i
    simp only [unitsIn, Finset.mem_filter, Finset.mem_univ, true_and]
    exact hin i
  refine ⟨?_, ?_, ?_, ?_⟩
  · rw [hsys]
    exact Finset.sum_congr rfl fun i _ => hav i
  · refine (?_ : ∀ A : Fin m → ℚ, (sumcap A (dataxCAPOWN wr.NAR fun i => i) (dataxCAPCON wr.NAR fun i => i)).2.2.1 j -
      (sumcap A (dataxCAPOWN wr.NAR fun i => i) (dataxCAPCON wr.NAR fun i => i)).2.1 j = 0) _
    intro A
    rw [hsys, (C16_per_area _ _ _ j).2, sub_eq_zero]
    simp only [capown_id, ite_mul, one_mul, zero_mul]
    unfold unitsIn
    rw [Finset.sum_filter]
    refine Finset.sum_congr rfl fun i _ => ?_
    by_cases e : wr.NAR i = j
    · rw [if_pos ((hin i).1 e), if_pos e.symm]
    · rw [if_neg fun e' => e ((hin i).2 e'), if_neg (Ne.symm e)]
  · rw [C16_interchange]; simp
  · intro i k
    fin_cases k <;> simp

/-- C64 (loads). For every accepted input: the loads of an area follow the load file, scaled so that the highest is
the peak of the area's card; in forecast tier `t` all loads are off by the tier's multiple of the card's forecast
uncertainty; five tiers are evaluated if any area has an uncertainty, else one (the mean); the pool peak hour of a
day is the first hour of its highest total load. -/
theorem C64_loads (h : setup sl fuel c = .ok s) :
    ∃ raw, leeiRead (n + 1) c.leei = .ok raw ∧
    (∀ j, 0 ≤ (c.areas j).peak → (∃ h < 8760, 1 / 1000 ≤ raw j h) →
      (∃ h < 8760, s.hour.HRLOAD j h = (c.areas j).peak) ∧ (∀ h < 8760, s.hour.HRLOAD j h ≤ (c.areas j).peak) ∧
      ∀ h h', s.hour.HRLOAD j h * raw j h' = s.hour.HRLOAD j h' * raw j h) ∧
    (∀ j t h, findld t h s.hour.HRLOAD s.hour.FCTERR j = s.hour.HRLOAD j h * forecast (c.areas j).lfu t) ∧
    (s.hour.NFCST = s.year.NFCST ∧
      ((∃ j, (c.areas j).lfu ≠ 0) ∧ s.hour.NFCST = 5 ∧ s.year.NORR = 2 ∨
        (∀ j, (c.areas j).lfu = 0) ∧ s.hour.NFCST = 1 ∧ s.year.NORR = 0)) ∧
    (∀ j, forecast (c.areas j).lfu s.year.NORR = 1 ∨ s.hour.NFCST = 1) ∧
    ∀ d, IsFirstMax (fun h => ∑ a, s.hour.HRLOAD a h) (24 * d) 24 (s.hour.MXPLHR d) := by
  obtain ⟨wr, raw, T, ITAB, ID', hw, _, _, hr, _, rfl⟩ := setup_ok h
  refine ⟨raw, hr, ?_, ?_, ?_, ?_, ?_⟩
  · intro j hp hraw
    have hpk : c.peaks (j : ℕ) = (c.areas j).peak := dif_pos j.isLt
    have := C20_scaled_peak c.peaks raw j
      (by rw [hpk]; exact hp) hraw
    rw [hpk] at this
    simp only [setupHour, (C18_input_steps _ _ _).1]
    exact this
  · intro j t h
    simp only [setupHour, findld, (C18_input_steps _ _ _).1]
    congr 1
    unfold dataxFCTERR forecast
    fin_cases t <;> simp <;> ring
  · simp only [setupHour, setupYear, dataxTiers, true_and]
    by_cases e : ∃ j, (c.areas j).lfu ≠ 0
    · exact .inl ⟨e, by rw [if_pos e], by rw [if_pos e]⟩
    · exact .inr ⟨by simpa using e, by rw [if_neg e], by rw [if_neg e]⟩
  · intro j
    simp only [setupHour, setupYear, dataxTiers]
    by_cases e : ∃ j, (c.areas j).lfu ≠ 0
    · left; rw [if_pos e]; simp [forecast]
    · right; rw [if_neg e]
  · intro d
    have := (C18_input_steps (fun _ _ => -1) (fun _ _ => 0) (fun (j : Fin (n + 1)) h =>
      leeiScale c.peaks raw j h)).2.2 d
    simp only [setupHour, (C18_input_steps _ _ _).1]
    exact this

/-! ### Lines -/

theorem lineno_bound (LP : LEnds n l) {number : Fin l → ℤ} (h : ∀ k, number k < l) (a b : Fin (n + 1)) :
    dataxLINENO LP number a b < l := by
  have key : ∀ (L : List (Fin l)) (f : Fin (n + 1) → Fin (n + 1) → ℤ), (∀ a b, f a b < l) →
      ∀ a b, L.foldl (fun L k => fun a b => if a = (LP k).1 ∧ b = (LP k).2 then number k else L a b) f a b < l := by
    intro L
    induction L with
    | nil => intro f hf; exact hf
    | cons k L ih =>
      intro f hf
      rw [List.foldl_cons]
      refine ih _ fun a b => ?_
      split_ifs
      · exact h k
      · exact hf a b
  unfold dataxLINENO
  exact key _ _ (fun _ _ => by omega) a b

theorem helpCheck_small {N : ℕ} {L : Fin N → Fin N → ℤ} (h : ∀ a b, L a b < l) (M : Fin N → ℤ) :
    helpCheck (l := l) L M = .ok () := by
  unfold helpCheck
  split
  · rw [if_neg]
    rintro ⟨j, _, hj⟩
    exact absurd (h _ _) (not_lt.2 hj)
  · rfl

/-- C64 (lines). For every accepted input with one card per area and line numbers not above the number of lines: the
network of the simulation joins the areas named on the line cards; states, admittances and capacities are those of
the cards, except that every 0 is replaced (`C66_out_of_service_refuted`); the states are drawn with the
probabilities of the cards; the loss sharing rule and the limits of the areas are those of the cards. -/
theorem C64_lines_partial (h1 : OneCard c) (h : setup sl fuel c = .ok s)
    (hnum : ∀ k, (c.lines k).number ≤ l) :
    ∃ (LP : LEnds n l) (BLPA : Fin l → Fin 6 → LnPar),
      s.hour.transm = hourTransm (redispatch fuel c.misc.IOI) LP BLPA 0 c.misc.NLS ∧
      (∀ k, (c.areas (LP k).1).name = (c.lines k).src ∧ (c.areas (LP k).2).name = (c.lines k).dst) ∧
      (∀ k t, ((c.lines k).adm t ≠ 0 → (BLPA k t).adm = (c.lines k).adm t) ∧
        ((c.lines k).cap t ≠ 0 → (BLPA k t).fwd = (c.lines k).cap t) ∧
        ((c.lines k).capr t ≠ 0 → (BLPA k t).bwd = (c.lines k).capr t)) ∧
      (∀ k (t : Fin 6), s.hour.PROBL t k = cumProb (c.lines k).prob (t + 1)) ∧
      ∀ j, s.net.BN.c3 j = (c.areas j).flowLimit ∧ s.net.BN.c4 j = (c.areas j).flowLimit := by
  obtain ⟨wr, raw, T, ITAB, ID', hw, _, _, _, _, rfl⟩ := setup_ok h
  have hwa := (wiring_iff h1 (wiring_pos hw)).2 wr hw
  refine ⟨wr.LP, fun k => dataxBLPA (c.lines k), ?_, fun k => ⟨hwa.src k, hwa.dst k⟩, fun k t => ?_, fun k t => ?_,
    fun j => ⟨rfl, rfl⟩⟩
  · have hb : ∀ a b, dataxLINENO wr.LP wr.number a b < l :=
      lineno_bound wr.LP fun k => by rw [hwa.number k]; have := hnum k; omega
    show netCall (dataxLINENO wr.LP wr.number) fuel c.misc.IOI wr.LP (fun k => dataxBLPA (c.lines k)) 0 c.misc.NLS = _
    funext t w
    unfold netCall
    rw [helpCheck_small hb]
    rfl
  · exact ⟨fun h => if_neg h, fun h => if_neg h, fun h => if_neg h⟩
  · exact (C22_thresholds.2 (c.lines k).prob).1 t

/-! ### Which inputs are accepted -/

/-- No unit has overlapping planned outages, none of negative length; no capacity is negative. -/
structure Sensible (c : Cards n m l) : Prop where
  cap : ∀ i k, 0 ≤ (c.units i).cap k
  dur : ∀ i, 0 ≤ (c.units i).maint.d1
  apart : ∀ i k, ¬ (covers (c.units i).maint.w1 (c.units i).maint.d1 k ∧
    covers (c.units i).maint.w2 (c.units i).maint.d2 k)

/-- A unit that is the only one of its area has at most one planned outage. -/
def LoneOnce (c : Cards n m l) : Prop :=
  ∀ i, (c.units i).maint.d1 = 0 ∨ (c.units i).maint.d2 ≤ 0 ∨ ∃ i', i' ≠ i ∧ (c.units i').loc = (c.units i).loc

theorem npMax_nonneg {L : List ℚ} (h : ∀ x ∈ L, 0 ≤ x) : 0 ≤ npMax L := by
  cases L with
  | nil => exact le_rfl
  | cons x xs =>
    have key : ∀ (l : List ℚ) (y : ℚ), 0 ≤ y → 0 ≤ l.foldl max y := by
      intro l
      induction l with
      | nil => exact fun y hy => hy
      | cons a l ih => exact fun y hy => ih _ (le_max_of_le_left hy)
    exact key xs x (h x List.mem_cons_self)

/-- The row of a unit in the table handed to the maintenance scheduling. -/
def idRow (c : Cards n m l) (w : Wiring n m l) (i : Fin m) : IdRow :=
  ⟨(w.NAT i).val, (w.NAT i).val, (w.NAR i).val, (c.units i).maint.w1 - 1, (c.units i).maint.d1,
    (c.units i).maint.w2 - 1, (c.units i).maint.d2, (c.units i).maint.pre⟩

theorem setupID_eq (c : Cards n m l) (w : Wiring n m l) : setupID c w = List.ofFn (idRow c w) := by
  unfold setupID dataxID
  apply List.ext_getElem
  · simp
  · intro i h1 h2
    simp [idRow]

theorem setupID_wired {c : Cards n m l} {w : Wiring n m l} (hw : WiredAs c w) : Wired (setupID c w) := by
  rw [setupID_eq]
  intro k r hr
  rw [List.getElem?_ofFn] at hr
  split at hr
  · cases hr
    simp [idRow, hw.unit]
  · cases hr

theorem setupID_mem {c : Cards n m l} {w : Wiring n m l} {r : IdRow} (h : r ∈ setupID c w) : ∃ i, r = idRow c w i := by
  rw [setupID_eq, List.mem_ofFn] at h
  obtain ⟨i, rfl⟩ := h
  exact ⟨i, rfl⟩

theorem covers_iff (b d : ℤ) (w : ℕ) : InWindow (b - 1) d w ↔ covers b d (w + 1) := by
  unfold InWindow covers
  push_cast
  constructor
  · rintro ⟨h1, h2, h3⟩; exact ⟨by omega, by omega, by omega⟩
  · rintro ⟨h1, h2, h3⟩; exact ⟨by omega, by omega, by omega⟩

theorem two_count {c : Cards n m l} {w : Wiring n m l} (h1 : OneCard c) (hw : WiredAs c w) {i i' : Fin m} (hne : i' ≠ i)
    (hloc : (c.units i').loc = (c.units i).loc) :
    ((setupID c w).countP fun q => q.area = (idRow c w i).area) ≠ 1 := by
  have ha : w.NAR i' = w.NAR i := h1.areas (by
    show (c.areas (w.NAR i')).name = (c.areas (w.NAR i)).name
    rw [hw.loc, hw.loc, hloc])
  rw [setupID_eq, List.ofFn_eq_map, List.countP_map, List.countP_eq_length_filter]
  intro e
  obtain ⟨x, hx⟩ := List.length_eq_one_iff.1 e
  have m1 : i ∈ [x] := by rw [← hx, List.mem_filter]; exact ⟨List.mem_finRange i, by simp⟩
  have m2 : i' ∈ [x] := by rw [← hx, List.mem_filter]; exact ⟨List.mem_finRange i', by simp [idRow, ha]⟩
  rw [List.mem_singleton] at m1 m2
  exact hne (by rw [m1, m2])

/-- C64 (accepted inputs). Every input with at least one unit, whose names are all known, with one card per area and
unit, sensible unit cards, a readable load file and neither contract nor ownership cards is accepted. -/
theorem C64_accepted (sl : ℕ → ℚ → ℚ) (fuel : ℕ) (h1 : OneCard c) (hm : 0 < m) (hk : AllKnown c) (hs : Sensible c)
    (hl : LoneOnce c) (hr : ∃ raw, leeiRead (n + 1) c.leei = .ok raw) (hc : c.contracts = []) (ho : c.owns = []) :
    ∃ s, setup sl fuel c = .ok s := by
  obtain ⟨w, hw⟩ := (wiring_iff h1 hm).1.1 hk
  have hwa := (wiring_iff h1 hm).2 w hw
  obtain ⟨raw, hraw⟩ := hr
  have hcap : ∀ k, 0 ≤ maxCap c k := by
    intro k
    unfold maxCap
    split
    · refine npMax_nonneg fun x hx => ?_
      obtain ⟨q, _, rfl⟩ := List.mem_map.1 hx
      exact hs.cap _ q
    · exact le_rfl
  have hd : ∀ r ∈ setupID c w, 0 ≤ r.d1 := by
    intro r hr
    obtain ⟨i, rfl⟩ := setupID_mem hr
    exact hs.dur i
  have hall := pmscAll_wired (n + 1) (setupID c w) 6 (maxCap c) sl (setupID_wired hwa) hcap hd
  obtain ⟨T, hT, _⟩ := C25_table_partial (((setupID c w).map (afterPmsc (n + 1) (setupID c w))).map IdRow.maint) (by
    intro r hr k
    rw [List.map_map] at hr
    obtain ⟨x, hx, rfl⟩ := List.mem_map.1 hr
    obtain ⟨i, rfl⟩ := setupID_mem hx
    simp only [Function.comp, IdRow.maint, afterPmsc]
    split_ifs with hone
    · rcases hl i with e | e | ⟨i', hne, e⟩
      · rintro ⟨⟨_, a1, a2⟩, _⟩
        simp only [idRow, e] at a1 a2
        omega
      · rintro ⟨_, _, a1, a2⟩
        simp only [idRow] at a1 a2
        omega
      · exact absurd hone.2.2 (two_count h1 hwa hne e)
    · simp only [idRow, covers_iff]
      exact hs.apart i (k + 1))
  have hsm : ∃ z, smaint (n + 1) (setupID c w) 6 (maxCap c) sl = .ok z := by
    unfold smaint
    rw [hall]
    dsimp only [bind, Except.bind]
    rw [hT]
    exact ⟨_, rfl⟩
  obtain ⟨z, hsm⟩ := hsm
  have hce : cardErrors c = .ok () := by
    unfold cardErrors
    rw [if_neg (not_not.2 hc), if_neg (not_not.2 ho)]
  obtain ⟨T', I', D'⟩ := z
  unfold setup xldnew
  rw [hw, hraw]
  dsimp only [bind, Except.bind]
  rw [hce]
  dsimp only [Except.map]
  rw [hsm]
  exact ⟨_, rfl⟩

/-- C64 (rejected inputs). Conversely an input is accepted only if it has a unit, all names are known, the load file
is readable, and there is neither a contract card nor an ownership card. -/
theorem C64_required (h1 : OneCard c) (h : setup sl fuel c = .ok s) :
    0 < m ∧ AllKnown c ∧ (∃ raw, leeiRead (n + 1) c.leei = .ok raw) ∧ c.contracts = [] ∧ c.owns = [] := by
  obtain ⟨w, raw, _, _, _, hw, e1, e2, e3, _, _⟩ := setup_ok h
  have hm := wiring_pos hw
  exact ⟨hm, (wiring_iff h1 hm).1.2 ⟨w, hw⟩, ⟨raw, e3⟩, e1, e2⟩

/-- C65, refuted: no input with a contract card or an ownership card is accepted, whatever the cards say; the same
input without these cards is. -/
theorem C65_contracts_refuted (sl : ℕ → ℚ → ℚ) (fuel : ℕ) (c : Cards n m l) :
    ((c.contracts ≠ [] ∨ c.owns ≠ []) → ∀ s, setup sl fuel c ≠ .ok s) ∧
    (OneCard c → 0 < m → AllKnown c → Sensible c → LoneOnce c → (∃ raw, leeiRead (n + 1) c.leei = .ok raw) →
      ∃ s, setup sl fuel { c with contracts := [], owns := [] } = .ok s) := by
  constructor
  · intro h s e
    obtain ⟨_, _, _, _, _, _, e1, e2, _⟩ := setup_ok e
    rcases h with h | h
    · exact h e1
    · exact h e2
  · intro h1 hm hk hs hl hr
    exact C64_accepted (c := { c with contracts := [], owns := [] }) sl fuel ⟨h1.areas, h1.units⟩ hm
      ⟨hk.loc, hk.src, hk.dst, by simp, by simp, by simp⟩ ⟨hs.cap, hs.dur, hs.apart⟩ hl hr rfl rfl

/-! ### Planned outages -/

/-- No area has exactly one unit. -/
def NoLone (c : Cards n m l) : Prop := ∀ i, ∃ i', i' ≠ i ∧ (c.units i').loc = (c.units i).loc

/-- The planned outage table of an accepted input comes from the cards. -/
theorem setup_table (h1 : OneCard c) (hs : Sensible c) (hl : NoLone c) (h : setup sl fuel c = .ok s) :
    ∃ w T, WiredAs c w ∧ s.JPLOUT = planRows m T ∧ smaintTable ((setupID c w).map IdRow.maint) = .ok T ∧ 0 < m := by
  obtain ⟨w, raw, T, ITAB, ID', hw, _, _, _, hS, rfl⟩ := setup_ok h
  have hwa := (wiring_iff h1 (wiring_pos hw)).2 w hw
  have hcap : ∀ k, 0 ≤ maxCap c k := by
    intro k
    unfold maxCap
    split
    · refine npMax_nonneg fun x hx => ?_
      obtain ⟨q, _, rfl⟩ := List.mem_map.1 hx
      exact hs.cap _ q
    · exact le_rfl
  have hd : ∀ r ∈ setupID c w, 0 ≤ r.d1 := by
    intro r hr
    obtain ⟨i, rfl⟩ := setupID_mem hr
    exact hs.dur i
  have hall := pmscAll_wired (n + 1) (setupID c w) 6 (maxCap c) sl (setupID_wired hwa) hcap hd
  have hsame : (setupID c w).map (afterPmsc (n + 1) (setupID c w)) = setupID c w := by
    rw [List.map_congr_left (g := id), List.map_id]
    intro r hr
    obtain ⟨i, rfl⟩ := setupID_mem hr
    unfold afterPmsc
    obtain ⟨i', hne, e⟩ := hl i
    rw [if_neg fun h => two_count h1 hwa hne e h.2.2]
    rfl
  rw [hsame] at hall
  have hT : smaintTable ((setupID c w).map IdRow.maint) = .ok T := by
    unfold smaint at hS
    rw [hall] at hS
    dsimp only [bind, Except.bind] at hS
    cases hT : smaintTable ((setupID c w).map IdRow.maint) with
    | error e => rw [hT] at hS; cases hS
    | ok T' => rw [hT] at hS; cases hS; rfl
  exact ⟨w, T, hwa, rfl, hT, wiring_pos hw⟩

theorem maint_apart {w : Wiring n m l} (hs : Sensible c) : ∀ r ∈ (setupID c w).map IdRow.maint, ∀ k,
    ¬ (InWindow r.start1 r.dur1 k ∧ InWindow r.start2 r.dur2 k) := by
  intro r hr k
  obtain ⟨x, hx, rfl⟩ := List.mem_map.1 hr
  obtain ⟨i, rfl⟩ := setupID_mem hx
  simp only [IdRow.maint, idRow, covers_iff]
  exact hs.apart i (k + 1)

/-- The table is well formed: no weekly event can raise. -/
theorem setup_planOK (h1 : OneCard c) (hs : Sensible c) (hl : NoLone c) (h : setup sl fuel c = .ok s) :
    PlanOK s.JPLOUT m := by
  obtain ⟨w, T, hwa, hJ, hT, hm⟩ := setup_table h1 hs hl h
  obtain ⟨T', hT', hrows⟩ := C25_table_partial ((setupID c w).map IdRow.maint) (maint_apart hs)
  have e : T' = T := Except.ok.inj (hT'.symm.trans hT)
  subst e
  rw [hJ]
  refine ⟨by simp [planRows], fun row hrow => ?_⟩
  obtain ⟨k, _, rfl⟩ := List.mem_map.1 hrow
  rw [List.range_succ_eq_map, List.map_cons]
  refine ⟨_, _, rfl, fun x hx => ?_⟩
  rw [List.map_map] at hx
  obtain ⟨q, _, rfl⟩ := List.mem_map.1 hx
  show -(m : ℤ) ≤ T' k (q + 1) ∧ T' k (q + 1) < m
  rw [(hrows k).2 q, List.getD_eq_getElem?_getD]
  cases hg : (if k < 51 then (((setupID c w).map IdRow.maint).filter fun r => decide (OutInWeek r k)).map (·.unit) else [])[q]? with
  | none => simp only [Option.getD_none]; omega
  | some v =>
    simp only [Option.getD_some]
    have hv := List.mem_of_getElem? hg
    split at hv
    · obtain ⟨r, hr, rfl⟩ := List.mem_map.1 hv
      obtain ⟨hr, _⟩ := List.mem_filter.1 hr
      obtain ⟨x, hx, rfl⟩ := List.mem_map.1 hr
      obtain ⟨i, rfl⟩ := setupID_mem hx
      simp only [IdRow.maint, idRow]
      have := (w.NAT i).isLt
      omega
    · cases hv

/-- C64 (planned outages). For every accepted sensible input in which no area has exactly one unit, a weekly event
that uses the row of calendar week `k` (1 to 51) switches off exactly the units whose cards have a planned outage in
that week. -/
theorem C62_plan_partial (h1 : OneCard c) (hs : Sensible c) (hl : NoLone c) (h : setup sl fuel c = .ok s)
    (JHOUR : ℤ) (k : ℕ) (hk1 : 1 ≤ k) (hk : k ≤ 51) (hJ : JHOUR / 168 + 1 = k) (p p' : List ℚ) (hp : p.length = m)
    (hwk : weekPlan s.JPLOUT JHOUR p = .ok p') (i : Fin m) :
    p'.getD i 0 = if plannedOut (c.units i) k then 0 else 1 := by
  obtain ⟨w, T, hwa, hJP, hT, hm⟩ := setup_table h1 hs hl h
  rw [hJP] at hwk
  have hlen : ((setupID c w).map IdRow.maint).length = m := by rw [setupID_eq]; simp
  have hget : ∀ (u : ℕ) (hu : u < ((setupID c w).map IdRow.maint).length),
      ((setupID c w).map IdRow.maint)[u] = (idRow c w ⟨u, by omega⟩).maint := by
    intro u hu
    simp [setupID_eq]
  have key := C25_week_event ((setupID c w).map IdRow.maint) (by
      intro u hu
      rw [hget u hu]
      simp [IdRow.maint, idRow, hwa.unit])
    (maint_apart hs) hT JHOUR (k - 1) (by omega) (by omega) p p' (by rw [hlen, hp]) (by
      rw [hlen]; exact hwk) i (by rw [hlen]; exact i.isLt)
  rw [key, hget]
  have : OutInWeek (idRow c w ⟨(i : ℕ), i.isLt⟩).maint (k - 1) ↔ plannedOut (c.units i) k := by
    unfold OutInWeek plannedOut
    simp only [IdRow.maint, idRow, covers_iff]
    rw [show k - 1 + 1 = k by omega]
  simp only [this]

end Narp.Props
