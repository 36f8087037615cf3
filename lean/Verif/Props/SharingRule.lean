import Verif.Props.CardBalance

/-!
# C111: the sharing rules, consequences and witnesses
-/

namespace Narp.Props
open Narp.Spec BigOperators

variable {n : ℕ}

/-- Sharing by need, by load or by own deficit: areas that lack nothing themselves are short only under loss sharing. -/
theorem C111_need_zero {cap load short : Fin n → ℚ} (h : ByNeed cap load short) {j : Fin n} (hj : load j ≤ cap j) : short j ≤ 0 := by
  have := h j
  rw [show ownShort cap load j = 0 from max_eq_left (by linarith), zero_mul] at this
  exact le_of_le_of_eq (le_max_right _ _) this

/-- Sharing by need never leaves an area with more than it lacks by itself. -/
theorem C111_need_le {cap load short : Fin n → ℚ} (h : ByNeed cap load short) (j : Fin n) :
    max 0 (short j) ≤ ownShort cap load j := by
  have hn : ∀ i, 0 ≤ ownShort cap load i := fun i => le_max_left _ _
  rw [h j]
  refine mul_le_of_le_one_right (hn j) (div_le_one_of_le₀ ?_ (Finset.sum_nonneg fun i _ => hn i))
  refine max_le (Finset.sum_nonneg fun i _ => hn i) ?_
  rw [← Finset.sum_sub_distrib]
  exact Finset.sum_le_sum fun i _ => le_max_right _ _

/-- Sharing by need shares out exactly what the pool lacks. -/
theorem C111_need_total {cap load short : Fin n → ℚ} (h : ByNeed cap load short) :
    ∑ j, max 0 (short j) = allShort cap load := by
  have hn : ∀ i, 0 ≤ ownShort cap load i := fun i => le_max_left _ _
  rw [Finset.sum_congr rfl fun j _ => h j, ← Finset.sum_mul]
  rcases (Finset.sum_nonneg fun i _ => hn i : (0 : ℚ) ≤ ∑ i, ownShort cap load i).eq_or_lt with e | e
  · rw [← e, zero_mul]
    refine (le_antisymm (max_le le_rfl ?_) (le_max_left _ _)).symm
    rw [← Finset.sum_sub_distrib, e]
    exact Finset.sum_le_sum fun i _ => le_max_right _ _
  · rw [mul_div_cancel₀ _ e.ne']

/-- Sharing by load shares out exactly what the pool lacks. -/
theorem C111_load_total {cap load short : Fin n → ℚ} (h : ByLoad cap load short) (hl : 0 < ∑ j, load j) :
    ∑ j, max 0 (short j) = allShort cap load := by
  rw [Finset.sum_congr rfl fun j _ => h j, ← Finset.sum_mul, mul_div_cancel₀ _ hl.ne']

/-- Everybody at least 1 MW short: recording own deficits also shares out exactly what the pool lacks. -/
theorem C111_own_total {cap load short : Fin n → ℚ} (h : ByOwn cap load short) (h1 : ∀ j, 1 ≤ load j - cap j) :
    ∑ j, max 0 (short j) = allShort cap load := by
  rw [Finset.sum_congr rfl fun j _ => h j]
  have e : ∀ i, ownShort cap load i = load i - cap i := fun i => max_eq_right (by linarith [h1 i])
  simp only [e]
  unfold allShort
  rw [← Finset.sum_sub_distrib]
  exact (max_eq_right (Finset.sum_nonneg fun i _ => by linarith [h1 i])).symm

/-- Whatever the rule, what is shared out is what the pool lacks. -/
theorem C111_total {rule : ℤ} {cap load short : Fin n → ℚ} (h : SharedBy rule cap load short)
    (hl : 0 < ∑ j, load j) : ∑ j, max 0 (short j) = allShort cap load := by
  by_cases hr : rule = 0
  · rcases h.2 hr with h | ⟨a, b⟩
    · exact C111_load_total h hl
    · exact C111_own_total b a
  · exact C111_need_total (h.1 hr)

/-- Two areas with loads of 100 MW each and loss sharing. -/
def shareHour : HourIn 2 2 1 (NetSt 1 1) :=
  { pairHour with HRLOAD := fun _ _ => 100, transm := hourTransm noRedispatch twoLP twoBLPA 0 0 }

/-- Areas with 110 and 50 MW: the pool lacks 40 MW, each area bears 20 MW, also the one with 10 MW to spare. Without
loss sharing the second area bears all. -/
example : Grid twoLP twoBLPA 0 ∧
    (hourBody shareHour 5 ![110, 50] (fun _ => 1) pairSt).map (fun w =>
      (w.H.MGNTA 0 0 + w.H.MGNGA 0 0, w.H.MGNTA 1 0 + w.H.MGNGA 1 0)) = .ok (20, 20) ∧
    (hourBody { shareHour with transm := hourTransm noRedispatch twoLP twoBLPA 0 1 } 5 ![110, 50] (fun _ => 1) pairSt).map
      (fun w => (w.H.MGNTA 0 0 + w.H.MGNGA 0 0, w.H.MGNTA 1 0 + w.H.MGNGA 1 0)) = .ok (0, 40) ∧
    ByLoad ![110, 50] ![100, 100] ![20, 20] ∧ ByNeed ![110, 50] ![100, 100] ![0, 40] := by
  refine ⟨two_grid, by decide +kernel, by decide +kernel, ?_, ?_⟩
  · unfold ByLoad; decide +kernel
  · unfold ByNeed; decide +kernel

/-- C111 as the manual has it fails under loss sharing: if both areas are short, what is recorded is what each lacks by
itself, not its share of the load. And the area that closes its own gap of 10 MW has its recorded unserved energy raised
from 10 to 25 MWh. -/
theorem C111_rule_refuted : Grid twoLP twoBLPA 0 ∧
    (hourBody shareHour 5 ![90, 50] (fun _ => 1) pairSt).map (fun w =>
      (w.H.MGNTA 0 0 + w.H.MGNGA 0 0, w.H.MGNTA 1 0 + w.H.MGNGA 1 0)) = .ok (10, 50) ∧
    (hourBody shareHour 5 ![100, 50] (fun _ => 1) pairSt).map (fun w =>
      (w.H.MGNTA 0 0 + w.H.MGNGA 0 0, w.H.MGNTA 1 0 + w.H.MGNGA 1 0)) = .ok (25, 25) ∧
    ByLoad ![90, 50] ![100, 100] ![30, 30] ∧ ¬ ByLoad ![90, 50] ![100, 100] ![10, 50] := by
  refine ⟨two_grid, by decide +kernel, by decide +kernel, ?_, ?_⟩
  · unfold ByLoad; decide +kernel
  · unfold ByLoad; decide +kernel

end Narp.Props
