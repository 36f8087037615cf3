import Verif.Props.Load
import Verif.Lemmas.Control
import Mathlib.Tactic.FieldSimp

/-!
# The load file (C20)
-/

namespace Narp.Props
open Narp Narp.Spec BigOperators

/-- C20 (scaling). For every raw table: if the raw peak of an area is at least 0.001 and its input peak
is non-negative, the largest scaled load of the year is exactly the input peak; ratios between hours
are preserved. -/
theorem C20_scaled_peak (PK : ℕ → ℚ) (H : ℕ → ℕ → ℚ) (j : ℕ) (hpk : 0 ≤ PK j)
    (hraw : ∃ h < 8760, 1/1000 ≤ H j h) :
    (∃ h < 8760, leeiScale PK H j h = PK j) ∧ (∀ h < 8760, leeiScale PK H j h ≤ PK j) ∧
      (∀ h h', leeiScale PK H j h * H j h' = leeiScale PK H j h' * H j h) := by
  obtain ⟨h0, hh0, hr⟩ := hraw
  unfold leeiScale
  generalize hL : (List.range 8760).map (H j) = L
  have hmem : ∀ h < 8760, H j h ∈ L := by
    intro h hh; rw [← hL]; exact List.mem_map.2 ⟨h, List.mem_range.2 hh, rfl⟩
  have hmem' : ∀ y ∈ L, ∃ h < 8760, y = H j h := by
    intro y hy; rw [← hL] at hy
    obtain ⟨h, hh, e⟩ := List.mem_map.1 hy
    exact ⟨h, List.mem_range.1 hh, e.symm⟩
  clear hL
  obtain ⟨hM1, hM2⟩ := le_foldl_max L (1/1000)
  have hMm := foldl_max_mem L (1/1000)
  have hM0 := hM2 _ (hmem h0 hh0)
  generalize L.foldl max (1/1000) = M at *
  have hpos : 0 < M := by linarith
  refine ⟨?_, ?_, ?_⟩
  · rcases hMm with hMm | hMm
    · refine ⟨h0, hh0, ?_⟩
      have : H j h0 = M := le_antisymm hM0 (by rw [hMm]; exact hr)
      rw [this, div_self hpos.ne', one_mul]
    · obtain ⟨h, hh, e⟩ := hmem' _ hMm
      exact ⟨h, hh, by rw [← e, div_self hpos.ne', one_mul]⟩
  · intro h hh
    have h1 : H j h / M ≤ 1 := (div_le_one hpos).2 (hM2 _ (hmem h hh))
    calc H j h / M * PK j ≤ 1 * PK j := mul_le_mul_of_nonneg_right h1 hpk
      _ = PK j := one_mul _
  · intro h h'
    ring

/-- A section of a load file: header `AREA:Ac...` and data rows. -/
structure Block where
  /-- the character at position 6 of the header -/
  c : Char
  /-- what follows it -/
  rest : List Char
  rows : List (List ℚ)

/-- the lines of a section -/
def Block.lines (b : Block) : List LeeiLine :=
  .header (['A', 'R', 'E', 'A', ':', 'A'] ++ b.c :: b.rest) :: b.rows.map .data

theorem rows_read {N k : ℕ} {a : ℤ} (ha : pyIdx N a = .ok k) : ∀ (rows : List (List ℚ)) (t : ℕ)
    (H : ℕ → ℕ → ℚ), (∀ r ∈ rows, r.length = 12) → t + 12 * rows.length ≤ 8760 →
    (rows.map LeeiLine.data).foldlM (leeiLine N) ⟨some a, t, H⟩ = .ok ⟨some a, t + 12 * rows.length,
      fun j h => if j = k ∧ t ≤ h ∧ h < t + 12 * rows.length
        then (rows.getD ((h - t) / 12) []).getD ((h - t) % 12) 0 else H j h⟩
  | [], t, H, _, _ => by
    simp only [List.map_nil, List.foldlM_nil, List.length_nil, mul_zero, add_zero]
    have : ∀ h, ¬ (t ≤ h ∧ h < t) := by intro h; omega
    simp only [this, and_false, if_false]
    rfl
  | r :: rows, t, H, hr, ht => by
    have hr12 := hr r (by simp)
    rw [List.length_cons] at ht
    have hstep : leeiLine N ⟨some a, t, H⟩ (.data r) = .ok ⟨some a, t + 12,
        fun j h => if j = k ∧ t ≤ h ∧ h < t + 12 then r.getD (h - t) 0 else H j h⟩ := by
      simp only [leeiLine, ha, hr12]
      show (if (r.drop (12 - 12)).length = 12 ∧ t + 12 ≤ 8760 then _ else _) = _
      rw [if_pos ⟨by simp [hr12], by omega⟩]
      simp
      rfl
    rw [List.map_cons, List.foldlM_cons, hstep]
    show (rows.map LeeiLine.data).foldlM (leeiLine N) _ = _
    rw [rows_read ha rows (t + 12) _ (fun x hx => hr x (by simp [hx])) (by omega)]
    congr 1
    simp only [List.length_cons, LeeiSt.mk.injEq, true_and]
    refine ⟨by omega, ?_⟩
    funext j h
    by_cases hj : j = k
    · by_cases h1 : t + 12 ≤ h ∧ h < t + 12 + 12 * rows.length
      · rw [if_pos ⟨hj, h1⟩, if_pos ⟨hj, by omega, by omega⟩]
        have e1 : (h - t) / 12 = (h - (t + 12)) / 12 + 1 := by omega
        have e2 : (h - t) % 12 = (h - (t + 12)) % 12 := by omega
        rw [e1, e2, List.getD_cons_succ]
      · rw [if_neg (fun x => h1 x.2)]
        by_cases h2 : t ≤ h ∧ h < t + 12
        · rw [if_pos ⟨hj, h2⟩, if_pos ⟨hj, by omega, by omega⟩]
          have e1 : (h - t) / 12 = 0 := by omega
          have e2 : (h - t) % 12 = h - t := by omega
          rw [e1, e2, List.getD_cons_zero]
        · rw [if_neg (fun x => h2 x.2), if_neg (fun x => by omega)]
    · rw [if_neg (fun x => hj x.1), if_neg (fun x => hj x.1), if_neg (fun x => hj x.1)]

/-- reading one section -/
theorem block_read {N d : ℕ} (b : Block) (hd1 : 1 ≤ d) (hdN : d ≤ N) (hc : digit b.c = .ok (d : ℤ))
    (hrows : b.rows.length = 730) (hr : ∀ r ∈ b.rows, r.length = 12) (s : LeeiSt) :
    b.lines.foldlM (leeiLine N) s = .ok ⟨some ((d : ℤ) - 1), 8760,
      fun j h => if j = d - 1 ∧ h < 8760 then (b.rows.getD (h / 12) []).getD (h % 12) 0 else s.H j h⟩ := by
  have ha : pyIdx N ((d : ℤ) - 1) = .ok (d - 1) := by
    unfold pyIdx
    rw [if_pos (by omega), if_pos (by omega)]
    congr 1; omega
  have hh : leeiLine N s (.header (['A', 'R', 'E', 'A', ':', 'A'] ++ b.c :: b.rest)) =
      .ok ⟨some ((d : ℤ) - 1), 0, s.H⟩ := by
    have e : (['A', 'R', 'E', 'A', ':', 'A'] ++ b.c :: b.rest)[6]? = some b.c := by simp
    simp only [leeiLine, e, hc]
    rfl
  unfold Block.lines
  rw [List.foldlM_cons, hh]
  show (b.rows.map LeeiLine.data).foldlM (leeiLine N) _ = _
  rw [rows_read ha b.rows 0 s.H hr (by omega), hrows]
  simp

/-- C20 (reading, what holds). If every section of the file belongs to a different area with a one-digit
number `d` (1..9, at most the number of areas) and has 730 rows of 12 numbers, the file is read without
error, and hour `h` of area `d` is number `h % 12` of row `h / 12` of its section. Missing: areas whose
number has two digits. -/
theorem C20_read_partial (N : ℕ) (blocks : List Block) (num : Block → ℕ)
    (hnum : ∀ b ∈ blocks, 1 ≤ num b ∧ num b ≤ N ∧ digit b.c = .ok (num b : ℤ))
    (hdist : (blocks.map num).Nodup)
    (hrows : ∀ b ∈ blocks, b.rows.length = 730 ∧ ∀ r ∈ b.rows, r.length = 12) :
    ∃ H, leeiRead N (blocks.flatMap Block.lines) = .ok H ∧
      ∀ b ∈ blocks, ∀ h < 8760, H (num b - 1) h = (b.rows.getD (h / 12) []).getD (h % 12) 0 := by
  have main : ∀ (blocks : List Block) (s : LeeiSt),
      (∀ b ∈ blocks, 1 ≤ num b ∧ num b ≤ N ∧ digit b.c = .ok (num b : ℤ)) →
      (blocks.map num).Nodup → (∀ b ∈ blocks, b.rows.length = 730 ∧ ∀ r ∈ b.rows, r.length = 12) →
      ∃ s', (blocks.flatMap Block.lines).foldlM (leeiLine N) s = .ok s' ∧
        (∀ b ∈ blocks, ∀ h < 8760, s'.H (num b - 1) h = (b.rows.getD (h / 12) []).getD (h % 12) 0) ∧
        ∀ d h, 1 ≤ d → d ∉ blocks.map num → s'.H (d - 1) h = s.H (d - 1) h := by
    intro blocks
    induction blocks with
    | nil => intro s _ _ _; exact ⟨s, rfl, by simp, by simp⟩
    | cons b bs ih =>
      intro s hn hd hr
      obtain ⟨hb1, hbN, hbc⟩ := hn b (by simp)
      obtain ⟨hbr, hbr2⟩ := hr b (by simp)
      rw [List.map_cons, List.nodup_cons] at hd
      obtain ⟨s', hs', hin, hout⟩ := ih ⟨some ((num b : ℤ) - 1), 8760, fun j h =>
          if j = num b - 1 ∧ h < 8760 then (b.rows.getD (h / 12) []).getD (h % 12) 0 else s.H j h⟩
        (fun x hx => hn x (by simp [hx])) hd.2 (fun x hx => hr x (by simp [hx]))
      refine ⟨s', ?_, ?_, ?_⟩
      · rw [List.flatMap_cons, List.foldlM_append, block_read b hb1 hbN hbc hbr hbr2 s]
        exact hs'
      · intro x hx h hh
        rcases List.mem_cons.1 hx with rfl | hx
        · rw [hout _ h hb1 hd.1]
          simp [hh]
        · exact hin x hx h hh
      · intro d h hd1 hdn
        rw [List.map_cons, List.mem_cons, not_or] at hdn
        rw [hout d h hd1 hdn.2]
        simp only
        rw [if_neg]
        rintro ⟨h1, _⟩
        exact hdn.1 (by omega)
  obtain ⟨s', hs', hin, _⟩ := main blocks ⟨none, 0, fun _ _ => 0⟩ hnum hdist hrows
  exact ⟨s'.H, by unfold leeiRead; rw [hs']; rfl, hin⟩

/-- two sections, areas 2 and 1, constant loads 5 and 7 -/
example : ∀ b ∈ [(⟨'2', [], List.replicate 730 (List.replicate 12 5)⟩ : Block),
      ⟨'1', [], List.replicate 730 (List.replicate 12 7)⟩],
    (b.rows.length = 730 ∧ ∀ r ∈ b.rows, r.length = 12) ∧
    (digit b.c = .ok 2 ∨ digit b.c = .ok 1) := by
  intro b hb
  simp only [List.mem_cons, List.not_mem_nil, or_false] at hb
  rcases hb with rfl | rfl
  · exact ⟨⟨List.length_replicate, fun r hr => by rw [List.eq_of_mem_replicate hr]; rfl⟩, .inl rfl⟩
  · exact ⟨⟨List.length_replicate, fun r hr => by rw [List.eq_of_mem_replicate hr]; rfl⟩, .inr rfl⟩

/-- C20 (reading, what fails). In a system of at least ten areas the section of area 10 is stored as the
load of area 1. -/
theorem C20_area_ten_refuted (N : ℕ) (hN : 10 ≤ N) (rows : List (List ℚ)) (hlen : rows.length = 730)
    (hr : ∀ r ∈ rows, r.length = 12) :
    ∃ H, leeiRead N (Block.lines ⟨'1', ['0'], rows⟩) = .ok H ∧
      ∀ h < 8760, H 0 h = (rows.getD (h / 12) []).getD (h % 12) 0 ∧ H 9 h = 0 := by
  have hb := block_read (N := N) (d := 1) ⟨'1', ['0'], rows⟩ (by omega) (by omega) rfl hlen hr
    ⟨none, 0, fun _ _ => 0⟩
  refine ⟨_, by unfold leeiRead; rw [hb]; rfl, fun h hh => ⟨?_, ?_⟩⟩
  · simp [hh]
  · simp

end Narp.Props
