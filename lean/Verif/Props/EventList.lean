import Verif.Lemmas.EventList

/-!
# Properties of the event calendar (C01, C03, C04)
-/

namespace Narp.Props
open Narp Narp.Spec

/-! ## C01 -/

/-- C01. Any history of "take the next event, schedule one" on a well formed non empty calendar runs
without error and behaves as a priority queue: `PairRun` says that each delivered event is pending
and minimal in time, and that the pending events are the old ones minus the delivered plus the
scheduled. At the end the calendar again holds exactly the pending events in chronological order. -/
theorem C01_calendar_is_priority_queue (hist : List Ev) :
    ∀ (c : Cal) (q : List Ev), Holds c q → q ≠ [] →
      ∃ out c' q', runPairs hist c = .ok (out, c') ∧ Holds c' q' ∧
        PairRun (q : Multiset Ev) hist out (q' : Multiset Ev) := by
  induction hist with
  | nil => intro c q h _; exact ⟨[], c, q, rfl, h, .done _⟩
  | cons s r ih =>
    intro c q h hq
    obtain ⟨e, q0, rfl⟩ := List.exists_cons_of_ne_nil hq
    obtain ⟨c1, c2, hr, hf, h2, _, _⟩ := pair_step h s
    have hne : insertEv s q0 ≠ [] := by
      intro h0
      have := (insertEv_perm s q0).length_eq
      rw [h0] at this; simp at this
    obtain ⟨out, c', q', hrun, hh, hpr⟩ := ih c2 _ h2 hne
    refine ⟨e :: out, c', q', ?_, hh, ?_⟩
    · simp only [runPairs, hr, hf, hrun, bind, Except.bind, pure, Except.pure]
    · refine PairRun.step s ⟨by simp, ?_⟩ ?_
      · intro x hx
        rcases List.mem_cons.1 (Multiset.mem_coe.1 hx) with rfl | hx
        · exact le_refl _
        · exact (List.pairwise_cons.1 h.sorted).1 x hx
      · have : (s ::ₘ (↑(e :: q0) : Multiset Ev).erase e) = (insertEv s q0 : List Ev) := by
          have h1 : (↑(e :: q0) : Multiset Ev).erase e = (q0 : Multiset Ev) := by
            simp
          rw [h1, Multiset.cons_coe]
          exact Multiset.coe_eq_coe.2 (insertEv_perm s q0).symm
        rw [this]; exact hpr

/-- The events of the initial calendar (`initl.py:102-112`), in order. -/
def initialEvents (JSTEP : ℚ) : List Ev :=
  [⟨1/2, 2⟩, ⟨1/2, 3⟩, ⟨JSTEP, 1⟩, ⟨4369/2, 3⟩, ⟨8737/2, 3⟩, ⟨13105/2, 3⟩, ⟨8760, 4⟩]

/-- The slots of the initial calendar, in order. -/
theorem initl_holds {JSTEP : ℚ} (h1 : 1/2 ≤ JSTEP) (h2 : JSTEP ≤ 4369/2) :
    Holds (initl JSTEP initfl.E) (initialEvents JSTEP) := by
  refine ⟨⟨[(20, ⟨1/2, 2⟩), (0, ⟨1/2, 3⟩), (24, ⟨JSTEP, 1⟩), (4, ⟨4369/2, 3⟩), (8, ⟨8737/2, 3⟩),
      (12, ⟨13105/2, 3⟩), (16, ⟨8760, 4⟩)], ?_, by
        show ([20, 0, 24, 4, 8, 12, 16] : List ℕ).Nodup; decide, rfl⟩, ?_, by simp [initl, initialEvents]⟩
  · have hlen : (initl JSTEP initfl.E).E.length = 100 := rfl
    simp only [Chain, hlen]
    refine ⟨rfl, by decide, by decide, rfl, rfl, 0, rfl, rfl, by decide, by decide, rfl, rfl,
      24, rfl, rfl, by decide, by decide, rfl, rfl, 4, rfl, rfl, by decide, by decide, rfl, rfl,
      8, rfl, rfl, by decide, by decide, rfl, rfl, 12, rfl, rfl, by decide, by decide, rfl, rfl,
      16, rfl, rfl, by decide, by decide, rfl, rfl, -1, rfl, rfl⟩
  · simp only [initialEvents, List.pairwise_cons, List.mem_cons, List.not_mem_nil, or_false,
      forall_eq_or_imp, forall_eq, List.Pairwise.nil, and_true]
    refine ⟨⟨?_, ?_, ?_, ?_, ?_, ?_⟩, ⟨?_, ?_, ?_, ?_, ?_⟩, ⟨?_, ?_, ?_, ?_⟩, ⟨?_, ?_, ?_⟩, ⟨?_, ?_⟩,
      ?_, ?_⟩ <;> first | linarith | (intro a h; cases h)

/-- The hypotheses of C01 are met by the calendar every run starts with. -/
example : Holds (initl 1 initfl.E) (initialEvents 1) ∧ initialEvents 1 ≠ [] :=
  ⟨initl_holds (by norm_num) (by norm_num), by simp [initialEvents]⟩

/-! ## C03 -/

/-- C03 (what fails). Scheduling two events after one removal overwrites a pending event: with the
operations below, which never exceed two pending events, the second delivered event is the one at
time 4 although the events at times 2 and 3 are pending. So the calendar is not a priority queue for
arbitrary interleavings. -/
theorem C03_interleaving_refuted :
    ∃ ops out, (runOps ops initfl).map Prod.fst = .ok out ∧ ¬ ∃ P, OpRun 0 ops out P := by
  refine ⟨[.schedule ⟨1, 1⟩, .schedule ⟨2, 1⟩, .take, .schedule ⟨3, 1⟩, .schedule ⟨4, 1⟩, .take],
    [⟨1, 1⟩, ⟨4, 1⟩], by decide +kernel, ?_⟩
  rintro ⟨P, h⟩
  cases h with | schedule _ h =>
  cases h with | schedule _ h =>
  cases h with | take _ h =>
  cases h with | schedule _ h =>
  cases h with | schedule _ h =>
  cases h with | take hn h =>
  have := hn.2 ⟨2, 1⟩ (by decide +kernel)
  norm_num at this

theorem runOps_append (a b : List Op) : ∀ (c : Cal) (o1 : List Ev) (c1 : Cal),
    runOps a c = .ok (o1, c1) → ∀ o2 c2, runOps b c1 = .ok (o2, c2) →
      runOps (a ++ b) c = .ok (o1 ++ o2, c2) := by
  induction a with
  | nil => intro c o1 c1 h o2 c2 h2; simp only [runOps, Except.ok.injEq, Prod.mk.injEq] at h
           obtain ⟨rfl, rfl⟩ := h; simpa using h2
  | cons x a ih =>
    intro c o1 c1 h o2 c2 h2
    cases x with
    | schedule s =>
      simp only [List.cons_append, runOps, bind, Except.bind] at h ⊢
      cases hf : filem c s.time s.kind with
      | error e => rw [hf] at h; cases h
      | ok c' => rw [hf] at h; simp only at h ⊢; exact ih _ _ _ h _ _ h2
    | take =>
      simp only [List.cons_append, runOps, bind, Except.bind, pure, Except.pure] at h ⊢
      cases hf : remove c with
      | error e => rw [hf] at h; cases h
      | ok p =>
        obtain ⟨a0, c'⟩ := p
        rw [hf] at h; simp only at h ⊢
        cases hr : runOps a c' with
        | error e => rw [hr] at h; cases h
        | ok p =>
          obtain ⟨o, c''⟩ := p
          rw [hr] at h; simp only [Except.ok.injEq, Prod.mk.injEq] at h
          obtain ⟨rfl, rfl⟩ := h
          rw [ih _ _ _ hr _ _ h2]; rfl

theorem OpRun.append {P Q R : Multiset Ev} {a b : List Op} {o1 o2 : List Ev} (h1 : OpRun P a o1 Q)
    (h2 : OpRun Q b o2 R) : OpRun P (a ++ b) (o1 ++ o2) R := by
  induction h1 with
  | done => exact h2
  | schedule s _ ih => exact .schedule s (ih h2)
  | take hn _ ih => exact .take hn (ih h2)

/-- a calendar into which `n` events were scheduled, none removed -/
structure Fresh (c : Cal) (q : List Ev) (n : ℕ) : Prop where
  holds : Holds c q
  len : c.E.length = 100
  slots : ∃ l : List (ℕ × Ev), Chain c.E c.IPOINT l ∧ l.map Prod.snd = q ∧
    (l.map Prod.fst).Perm ((List.range n).map (4 * ·))
  mfa : n < 25 → c.MFA = ((4 * n : ℕ) : ℤ)
  free : ∀ k, n ≤ k → k < 24 → c.E.getD (4 * k) 0 = (((4 * k + 4 : ℕ) : ℤ) : ℚ)

theorem fresh_initfl : Fresh initfl [] 0 := by
  refine ⟨⟨⟨[], rfl, by simp, rfl⟩, by simp, rfl⟩, by simp [initfl], ⟨[], rfl, rfl, by simp⟩,
    fun _ => rfl, ?_⟩
  intro k _ hk
  have : ∀ k < 24, initfl.E.getD (4 * k) 0 = (((4 * k + 4 : ℕ) : ℤ) : ℚ) := by decide +kernel
  exact this k hk

theorem nodup_range4 (n : ℕ) : ((List.range n).map (4 * ·)).Nodup :=
  List.nodup_range.map fun a b h => by omega

theorem fresh_step {c : Cal} {q : List Ev} {n : ℕ} (h : Fresh c q n) (hn : n < 25) (s : Ev) :
    ∃ c', filem c s.time s.kind = .ok c' ∧ Fresh c' (insertEv s q) (n + 1) := by
  obtain ⟨hh, hlen, ⟨l, hc, hl, hp⟩, hm, hfree⟩ := h
  have hnot : 4 * n ∉ l.map Prod.fst := by
    rw [hp.mem_iff]
    intro hmem
    obtain ⟨a, ha, hb⟩ := List.mem_map.1 hmem
    have := List.mem_range.1 ha
    omega
  have hnd : (l.map Prod.fst).Nodup := hp.nodup_iff.2 (nodup_range4 n)
  obtain ⟨c', l', hf, hch, hperm, hins, hnq, hlen', hmfa', hoth⟩ :=
    filem_chain hc hnd (hm hn) ⟨n, rfl⟩ (by omega) hnot s
  have hp' : (l'.map Prod.fst).Perm ((List.range (n + 1)).map (4 * ·)) := by
    rw [List.range_succ, List.map_append]
    refine hperm.trans (((hp.cons _)).trans ?_)
    simpa using (List.perm_append_comm (l₁ := [4 * n]) (l₂ := (List.range n).map (4 * ·)))
  subst hl
  refine ⟨c', hf, ⟨⟨⟨l', hch, hp'.nodup_iff.2 (nodup_range4 _), hins⟩, insertEv_sorted s hh.sorted, ?_⟩,
    by omega, ⟨l', hch, hins, hp'⟩, ?_, ?_⟩⟩
  · rw [hnq, hh.count, (insertEv_perm s _).length_eq]; simp
  · intro hn'
    rw [hmfa', hfree n (le_refl _) (by omega), pyInt_intCast]
    push_cast; ring
  · intro k hk hk2
    rw [hoth (4 * k) ⟨k, rfl⟩ (by omega), hfree k (by omega) hk2]
    rw [hp.mem_iff]
    intro hmem
    obtain ⟨a, ha, hb⟩ := List.mem_map.1 hmem
    have := List.mem_range.1 ha
    omega

theorem run_schedules (ss : List Ev) : ∀ (c : Cal) (q : List Ev) (n : ℕ), Fresh c q n →
    n + ss.length ≤ 25 → ∃ c' q', runOps (ss.map .schedule) c = .ok ([], c') ∧ Holds c' q' ∧
      q'.length = q.length + ss.length ∧
      OpRun (q : Multiset Ev) (ss.map .schedule) [] (q' : Multiset Ev) := by
  induction ss with
  | nil => intro c q n h _; exact ⟨c, q, rfl, h.holds, by simp, .done _⟩
  | cons s ss ih =>
    intro c q n h hle
    simp only [List.length_cons] at hle
    obtain ⟨c1, hf, h1⟩ := fresh_step h (by omega) s
    obtain ⟨c', q', hr, hh, hl, ho⟩ := ih c1 _ _ h1 (by omega)
    refine ⟨c', q', ?_, hh, ?_, ?_⟩
    · simp only [List.map_cons, runOps, hf, bind, Except.bind]; exact hr
    · rw [hl, (insertEv_perm s q).length_eq]; simp; omega
    · refine .schedule s ?_
      rw [Multiset.cons_coe, ← Multiset.coe_eq_coe.2 (insertEv_perm s q)]; exact ho

theorem run_pairs_ops (ps : List Ev) : ∀ (c : Cal) (q : List Ev), Holds c q → (ps ≠ [] → q ≠ []) →
    ∃ out c' q', runOps (ps.flatMap fun s => [.take, .schedule s]) c = .ok (out, c') ∧ Holds c' q' ∧
      q'.length = q.length ∧
      OpRun (q : Multiset Ev) (ps.flatMap fun s => [.take, .schedule s]) out (q' : Multiset Ev) := by
  induction ps with
  | nil => intro c q h _; exact ⟨[], c, q, rfl, h, rfl, .done _⟩
  | cons s ps ih =>
    intro c q h hq
    obtain ⟨e, q0, rfl⟩ := List.exists_cons_of_ne_nil (hq (by simp))
    obtain ⟨c1, c2, hr, hf, h2, _, _⟩ := pair_step h s
    have hlen := (insertEv_perm s q0).length_eq
    obtain ⟨out, c', q', hrun, hh, hl, ho⟩ := ih c2 _ h2 (fun _ h0 => by rw [h0] at hlen; simp at hlen)
    refine ⟨e :: out, c', q', ?_, hh, by rw [hl, hlen]; rfl, ?_⟩
    · simp only [List.flatMap_cons, List.cons_append, List.nil_append, runOps, hr, hf, hrun, bind,
        Except.bind, pure, Except.pure]
    · simp only [List.flatMap_cons, List.cons_append, List.nil_append]
      refine .take ⟨by simp, ?_⟩ (.schedule s ?_)
      · intro x hx
        rcases List.mem_cons.1 (Multiset.mem_coe.1 hx) with rfl | hx
        · exact le_refl _
        · exact (List.pairwise_cons.1 h.sorted).1 x hx
      · have h1 : (↑(e :: q0) : Multiset Ev).erase e = (q0 : Multiset Ev) := by simp
        rw [h1, Multiset.cons_coe, ← Multiset.coe_eq_coe.2 (insertEv_perm s q0)]; exact ho

theorem run_takes (k : ℕ) : ∀ (c : Cal) (q : List Ev), Holds c q → k ≤ q.length →
    ∃ out c' q', runOps (List.replicate k .take) c = .ok (out, c') ∧ Holds c' q' ∧
      OpRun (q : Multiset Ev) (List.replicate k .take) out (q' : Multiset Ev) := by
  induction k with
  | zero => intro c q h _; exact ⟨[], c, q, rfl, h, .done _⟩
  | succ k ih =>
    intro c q h hq
    obtain ⟨e, q0, rfl⟩ := List.exists_cons_of_ne_nil (by rintro rfl; simp at hq : q ≠ [])
    obtain ⟨⟨l, hch, hnd, hl⟩, hs, hcnt⟩ := h
    match l, hch, hnd, hl with
    | [], _, _, hl => simp at hl
    | (p, e0) :: l, hch, hnd, hl =>
      simp only [List.map_cons, List.cons.injEq] at hl
      obtain ⟨rfl, rfl⟩ := hl
      obtain ⟨c1, hr, hch1, hm, hn1, hlen1⟩ := remove_chain hch hnd (by rw [hcnt]; simp)
      have h1 : Holds c1 (l.map Prod.snd) :=
        ⟨⟨l, hch1, (List.nodup_cons.1 hnd).2, rfl⟩, (List.pairwise_cons.1 hs).2, by
          rw [hn1, hcnt]; simp⟩
      obtain ⟨out, c', q', hrun, hh, ho⟩ := ih c1 _ h1 (by simpa using hq)
      refine ⟨e0 :: out, c', q', ?_, hh, ?_⟩
      · simp only [List.replicate_succ, runOps, hr, hrun, bind, Except.bind, pure, Except.pure]
      · rw [List.replicate_succ]
        refine .take ⟨by simp, ?_⟩ ?_
        · intro x hx
          rcases List.mem_cons.1 (Multiset.mem_coe.1 hx) with rfl | hx
          · exact le_refl _
          · exact (List.pairwise_cons.1 hs).1 x hx
        · have h1 : (↑(e0 :: l.map Prod.snd) : Multiset Ev).erase e0 = (l.map Prod.snd : List Ev) := by
            simp
          rw [h1]; exact ho

/-- C03 (what holds). From an empty calendar: up to 25 schedules, then any number of take/schedule
pairs, then any number of takes not exceeding what is pending, behave as a priority queue. Missing
for the full C03: two schedules in a row after a take (refuted above). -/
theorem C03_interleaving_partial (ss ps : List Ev) (k : ℕ) (hss : ss.length ≤ 25)
    (hps : ps ≠ [] → ss ≠ []) (hk : k ≤ ss.length) :
    ∃ out c q, runOps (ss.map .schedule ++ ((ps.flatMap fun s => [.take, .schedule s]) ++
        List.replicate k .take)) initfl = .ok (out, c) ∧ Holds c q ∧
      OpRun 0 (ss.map .schedule ++ ((ps.flatMap fun s => [.take, .schedule s]) ++
        List.replicate k .take)) out (q : Multiset Ev) := by
  obtain ⟨c1, q1, hr1, hh1, hl1, ho1⟩ := run_schedules ss initfl [] 0 fresh_initfl (by simpa using hss)
  obtain ⟨o2, c2, q2, hr2, hh2, hl2, ho2⟩ := run_pairs_ops ps c1 q1 hh1 (by
    intro h h0; rw [h0] at hl1; simp at hl1; exact hps h (List.length_eq_zero_iff.1 hl1.symm))
  obtain ⟨o3, c3, q3, hr3, hh3, ho3⟩ := run_takes k c2 q2 hh2 (by rw [hl2, hl1]; simpa using hk)
  refine ⟨[] ++ (o2 ++ o3), c3, q3, ?_, hh3, ?_⟩
  · exact runOps_append _ _ _ _ _ hr1 _ _ (runOps_append _ _ _ _ _ hr2 _ _ hr3)
  · exact OpRun.append ho1 (OpRun.append ho2 ho3)

/-- The hypotheses of `C03_interleaving_partial` are met by a non trivial history. -/
example : ([⟨5, 1⟩, ⟨3, 2⟩, ⟨4, 3⟩] : List Ev).length ≤ 25 ∧
    (([⟨9, 1⟩, ⟨1, 1⟩] : List Ev) ≠ [] → ([⟨5, 1⟩, ⟨3, 2⟩, ⟨4, 3⟩] : List Ev) ≠ []) ∧
    3 ≤ ([⟨5, 1⟩, ⟨3, 2⟩, ⟨4, 3⟩] : List Ev).length := by decide

/-! ## C04 -/

/-- the words 28..99 of a fresh calendar: empty slots, each linked to the next -/
def emptySlots : List ℚ :=
  [32, 0, 0, 0, 36, 0, 0, 0, 40, 0, 0, 0, 44, 0, 0, 0, 48, 0, 0, 0,
   52, 0, 0, 0, 56, 0, 0, 0, 60, 0, 0, 0, 64, 0, 0, 0, 68, 0, 0, 0,
   72, 0, 0, 0, 76, 0, 0, 0, 80, 0, 0, 0, 84, 0, 0, 0, 88, 0, 0, 0,
   92, 0, 0, 0, 96, 0, 0, 0, 0, 0, 0, 0]

theorem emptySlots_eq : initfl.E.drop 28 = emptySlots := by decide +kernel

/-- the calendar after the first six `filem` calls of `_initl` with the default season ends -/
def initl6 : Cal where
  E := [4, 1/2, 3, 0,
        8, 4369/2, 3, 0,
        12, 8737/2, 3, 0,
        16, 13105/2, 3, 0,
        -1, 8760, 4, 0,
        0, 1/2, 2, 0,
        28, 0, 0, 0] ++ emptySlots
  MFA := 24
  IPOINT := 20
  NUMINQ := 6

theorem initl6_eq : (do
    let c ← filem initfl (1/2) 3
    let c ← filem c (4369/2) 3
    let c ← filem c (8737/2) 3
    let c ← filem c (13105/2) 3
    let c ← filem c 8760 4
    filem c (1/2) 2) = .ok initl6 := by decide +kernel

/-- C04. With the default season ends, scheduling the seven initial events one by one gives word for
word the hard coded table, for every sampling step in (0.5, 2184.5], in particular for the two the
program uses (1 and 24). -/
theorem C04_initl_eq_scheduled {JSTEP : ℚ} (h1 : 1/2 < JSTEP) (h2 : JSTEP ≤ 4369/2) :
    initlLoop JSTEP (4369/2) (8737/2) (13105/2) initfl = .ok (initl JSTEP initfl.E) := by
  have h6 : initlLoop JSTEP (4369/2) (8737/2) (13105/2) initfl = filem initl6 JSTEP 1 := by
    have := initl6_eq
    unfold initlLoop
    simp only [bind, Except.bind] at this ⊢
    cases ha : filem initfl (1/2) 3 with
    | error e => rw [ha] at this; cases this
    | ok c1 =>
    rw [ha] at this; simp only at this ⊢
    cases hb : filem c1 (4369/2) 3 with
    | error e => rw [hb] at this; cases this
    | ok c2 =>
    rw [hb] at this; simp only at this ⊢
    cases hc : filem c2 (8737/2) 3 with
    | error e => rw [hc] at this; cases this
    | ok c3 =>
    rw [hc] at this; simp only at this ⊢
    cases hd : filem c3 (13105/2) 3 with
    | error e => rw [hd] at this; cases this
    | ok c4 =>
    rw [hd] at this; simp only at this ⊢
    cases he : filem c4 8760 4 with
    | error e => rw [he] at this; cases this
    | ok c5 =>
    rw [he] at this; simp only at this ⊢
    rw [this]
  rw [h6]
  unfold filem
  have e1 : wr initl6.E (initl6.MFA + 1) JSTEP = .ok (initl6.E.set 25 JSTEP) := rfl
  have e2 : wr (initl6.E.set 25 JSTEP) (initl6.MFA + 2) 1 = .ok ((initl6.E.set 25 JSTEP).set 26 1) := rfl
  set E2 := (initl6.E.set 25 JSTEP).set 26 1 with hE2
  have e3 : rd E2 initl6.MFA = .ok 28 := rfl
  have e4 : rd E2 (initl6.IPOINT + 1) = .ok (1/2) := rfl
  have e5 : filemWalk E2 JSTEP (2 * E2.length + 1) 0 initl6.IPOINT = .ok (0, 4) := by
    have g0 : (2 * E2.length + 1) = 198 + 1 + 1 + 1 := rfl
    have r1 : rd E2 (initl6.IPOINT + 1) = .ok (1/2) := rfl
    have r2 : rd E2 initl6.IPOINT = .ok 0 := rfl
    have r3 : rd E2 (0 + 1) = .ok (1/2) := rfl
    have r4 : rd E2 0 = .ok 4 := rfl
    have r5 : rd E2 (4 + 1) = .ok (4369/2) := rfl
    have p0 : pyInt 0 = 0 := by decide +kernel
    have p4 : pyInt 4 = 4 := by decide +kernel
    rw [g0, filemWalk]
    simp only [r1, r2, bind, Except.bind, gt_iff_lt, h1, if_true, p0]
    rw [if_neg (by decide), filemWalk]
    simp only [r3, r4, bind, Except.bind, gt_iff_lt, h1, if_true, p4]
    rw [if_neg (by decide), filemWalk]
    simp only [r5, bind, Except.bind, gt_iff_lt, not_lt.2 h2, if_false]
    rfl
  have hip : initl6.IPOINT > -1 := by decide
  simp only [e1, e2, e3, e4, e5, bind, Except.bind, gt_iff_lt, h1, if_true, hip]
  have e6 : wr E2 initl6.MFA ((4 : ℤ) : ℚ) = .ok (E2.set 24 ((4 : ℤ) : ℚ)) := rfl
  have e7 : wr (E2.set 24 ((4 : ℤ) : ℚ)) 0 (initl6.MFA : ℚ) =
      .ok ((E2.set 24 ((4 : ℤ) : ℚ)).set 0 (initl6.MFA : ℚ)) := rfl
  rw [if_neg (by decide)]
  simp only [e6, e7]
  have p28 : pyInt 28 = 28 := by decide +kernel
  rw [p28]
  unfold initl
  rw [emptySlots_eq]
  rfl

/-- both sampling steps of the program meet the hypotheses -/
example : ((1 : ℚ)/2 < 1 ∧ (1 : ℚ) ≤ 4369/2) ∧ ((1 : ℚ)/2 < 24 ∧ (24 : ℚ) ≤ 4369/2) := by norm_num

end Narp.Props
