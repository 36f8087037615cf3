import Verif.Model.Capacity

/-!
# Hourly and peak statistics: `hrstat`, `pkstat`

Areas are `Fin n`, forecast tiers `Fin 5`. Counters are numpy float arrays (`narpMain.py:118-133`),
exact numbers here.
-/

namespace Narp
open BigOperators

/-- The eight annual counters that `hrstat` (fifth letter H) or `pkstat` (fifth letter P) updates:
`LOLTA` stands for LOLTHA resp. LOLTPA, and so on. (hrstat.py:1-3, pkstat.py:66) -/
structure Cnt (n : ℕ) where
  LOLTA : Fin n → Fin 5 → ℚ
  LOLGA : Fin n → Fin 5 → ℚ
  LOLTP : Fin 5 → ℚ
  LOLGP : Fin 5 → ℚ
  MGNTA : Fin n → Fin 5 → ℚ
  MGNGA : Fin n → Fin 5 → ℚ
  MGNTP : Fin 5 → ℚ
  MGNGP : Fin 5 → ℚ

/-- All counters zero (`narpMain.py:118-133`). -/
def Cnt.zero (n : ℕ) : Cnt n :=
  ⟨fun _ _ => 0, fun _ _ => 0, fun _ => 0, fun _ => 0, fun _ _ => 0, fun _ _ => 0, fun _ => 0, fun _ => 0⟩

/-- `a[j, t] += v` (hrstat.py:60-61) -/
def addAt2 {n : ℕ} (a : Fin n → Fin 5 → ℚ) (j : Fin n) (t : Fin 5) (v : ℚ) : Fin n → Fin 5 → ℚ :=
  fun j' t' => if j' = j ∧ t' = t then a j' t' + v else a j' t'

/-- The pool counters, `hrstat.py:51-54`, `_hrstat` 119-122, `_pkstat` 49-52, `pkstat` 112-115. -/
def poolCount {n : ℕ} (NST : Fin 5) (SUM : ℚ) (c : Cnt n) : Cnt n :=
  if SUM ≥ 0 then { c with LOLTP := addAt c.LOLTP NST 1 }
  else { c with LOLGP := addAt c.LOLGP NST 1 }

/-- Body of the loop `hrstat.py:56-66`. -/
def hrstatBody {n : ℕ} (NST : Fin 5) (SUM : ℚ) (MARGIN : Fin n → ℚ) (s : (Fin n → ℚ) × Cnt n) (j : Fin n) :
    (Fin n → ℚ) × Cnt n :=
  let X := MARGIN j
  if X < 0 then
    let L := addAt s.1 j 1
    let c := s.2
    if SUM > 0 then
      (L, { c with
        LOLTA := addAt2 c.LOLTA j NST 1
        MGNTA := addAt2 c.MGNTA j NST (pyInt (-X))
        MGNTP := addAt c.MGNTP NST (pyInt (-X)) })
    else
      (L, { c with
        LOLGA := addAt2 c.LOLGA j NST 1
        MGNGA := addAt2 c.MGNGA j NST (pyInt (-X))
        MGNGP := addAt c.MGNGP NST (pyInt (-X)) })
  else s

/-- `hrstat.py:1-66`; the state is `LSFLG` and the hourly counters. -/
def hrstat {n : ℕ} (NST : Fin 5) (MARGIN : Fin n → ℚ) (s : (Fin n → ℚ) × Cnt n) : (Fin n → ℚ) × Cnt n :=
  let SUM := ∑ j, MARGIN j                                           -- line 47
  (List.finRange n).foldl (hrstatBody NST SUM MARGIN) (s.1, poolCount NST SUM s.2)

/-- `X[:, NST][MARGIN < 0] += v` for an array `v` (a boolean mask selects every position once).
(hrstat.py:126-127) -/
def addMask {n : ℕ} (a : Fin n → Fin 5 → ℚ) (MARGIN : Fin n → ℚ) (t : Fin 5) (v : Fin n → ℚ) :
    Fin n → Fin 5 → ℚ :=
  fun j t' => if t' = t ∧ MARGIN j < 0 then a j t' + v j else a j t'

/-- The sum of the negative margins, `MARGIN[MARGIN < 0].sum()`. (hrstat.py:128) -/
def negSum {n : ℕ} (MARGIN : Fin n → ℚ) : ℚ := ∑ j, if MARGIN j < 0 then MARGIN j else 0

/-- The vectorised area part, `_hrstat` (hrstat.py:125-132) and `pkstat` (pkstat.py:117-124). -/
def areaVec {n : ℕ} (NST : Fin 5) (SUM : ℚ) (MARGIN : Fin n → ℚ) (c : Cnt n) : Cnt n :=
  if SUM > 0 then
    { c with
      LOLTA := addMask c.LOLTA MARGIN NST fun _ => 1
      MGNTA := addMask c.MGNTA MARGIN NST fun j => -(pyInt (MARGIN j) : ℚ)
      MGNTP := addAt c.MGNTP NST (-(pyInt (negSum MARGIN) : ℚ)) }
  else
    { c with
      LOLGA := addMask c.LOLGA MARGIN NST fun _ => 1
      MGNGA := addMask c.MGNGA MARGIN NST fun j => -(pyInt (MARGIN j) : ℚ)
      MGNGP := addAt c.MGNGP NST (-(pyInt (negSum MARGIN) : ℚ)) }

/-- `hrstat.py:69-132` (`_hrstat`). -/
def hrstat' {n : ℕ} (NST : Fin 5) (MARGIN : Fin n → ℚ) (s : (Fin n → ℚ) × Cnt n) : (Fin n → ℚ) × Cnt n :=
  let SUM := ∑ j, MARGIN j
  (fun j => if MARGIN j < 0 then s.1 j + 1 else s.1 j,               -- line 124
    areaVec NST SUM MARGIN (poolCount NST SUM s.2))

/-- `pkstat.py:66-124`, the version used by `hour`. -/
def pkstat {n : ℕ} (NST : Fin 5) (MARGIN : Fin n → ℚ) (c : Cnt n) : Cnt n :=
  let SUM := ∑ j, MARGIN j
  areaVec NST SUM MARGIN (poolCount NST SUM c)

/-- Body of the loop `pkstat.py:54-63`. -/
def pkstatBody {n : ℕ} (NST : Fin 5) (SUM : ℚ) (MARGIN : Fin n → ℚ) (c : Cnt n) (j : Fin n) : Cnt n :=
  let X := MARGIN j
  if X < 0 then
    if SUM > 0 then
      { c with
        LOLTA := addAt2 c.LOLTA j NST 1
        MGNTA := addAt2 c.MGNTA j NST (-(pyInt X : ℚ))
        MGNTP := addAt c.MGNTP NST (-(pyInt X : ℚ)) }
    else
      { c with
        LOLGA := addAt2 c.LOLGA j NST 1
        MGNGA := addAt2 c.MGNGA j NST (-(pyInt X : ℚ))
        MGNGP := addAt c.MGNGP NST (-(pyInt X : ℚ)) }
  else c

/-- `pkstat.py:1-63` (`_pkstat`). -/
def pkstat' {n : ℕ} (NST : Fin 5) (MARGIN : Fin n → ℚ) (c : Cnt n) : Cnt n :=
  let SUM := ∑ j, MARGIN j
  (List.finRange n).foldl (pkstatBody NST SUM MARGIN) (poolCount NST SUM c)

end Narp
