# Formal model of NARP (Breakthrough-Energy/reliability-assessment) in Lean 4

## Method
* The model is a set of total, computable Lean functions, one per Python function, in `lean/Verif/Model/`.
  Each definition cites the file and lines it models and says where it simplifies. `tools/coverage.py` lists the
  lines of `/repo` that no definition cites (they are parameter lists, return tuples and calls modelled inline).
* Exceptions of Python/numpy (IndexError, TypeError, KeyError, UnboundLocalError, ...) are values (`Except PyErr`), not
  preconditions, wherever a property depends on them.
* Specifications (`lean/Verif/Spec/`) are written without the model's helpers: multisets, finite sums, Mathlib
  matrices, textbook linear programs, grammars of texts, lists of annual values.
* Property theorems are in `lean/Verif/Props/`, general lemmas in `lean/Verif/Lemmas/`. Beside each property theorem an
  `example` shows a concrete non-trivial case that meets its hypotheses.
* Where the code violates a property, its negation is proved on a concrete witness or for all inputs (`..._refuted`),
  and the strongest true part is a theorem with suffix `_partial`. Most `partial` rows below are of this kind: the
  missing part is not unproved, it is false of the code.

## Trusted base
* The kernel of Lean 4.33.0, and Mathlib's definitions used in the statements (ℚ, ℝ, matrices, lists, finite sums).
* Axioms: `propext`, `Classical.choice`, `Quot.sound` only, none of our own. `AXIOMS.md` lists what each claimed
  theorem depends on (printed by Lean). No compiled evaluation is used in any proof; concrete runs are computed by the
  kernel (`decide +kernel`, `rfl`).
* The hand translation Python → Lean. It was checked by reading, by the coverage tool, by evaluating the model on test
  data of the repository where this is feasible (`connls`, `conls` and `linp` test cases: the matrices and bases agree),
  and by the mutation tests below.

### Idealisations
* `float` / numpy float64 is modelled by exact rationals ℚ: no rounding, no nan/inf, no overflow. Comparison constants
  are kept (`1e-7`, `1e-13`, `0.4656613e-9`). Square roots (`cvchk`, `report`) are either eliminated exactly
  (`s < x` as `0 < x ∧ v < x²`) or real (`Real.sqrt`). What rounding can change is treated separately in
  `Model/Float.lean` and its properties (see below): there float64 is modelled bit for bit (round to nearest even, 53
  bits, gradual underflow; overflow is out of scope).
* Python `int` is `Int`; numpy int32 products are modelled with wrap around (`Int.bmod _ (2^32)`).
* numpy arrays of fixed shape are functions on `Fin n` or on ℕ where the index is in range by construction, and lists
  with checked (Python style, negative index allowed) access where an index error matters.
* Aliasing: numpy arrays changed in place by a callee are modelled as results; where the sharing of an array changes
  the outcome (`ZB`/`BB` in `tm2`, `INTVT`, contracts, counters) this is what the model follows.
* `while True` loops (`contrl`, `linp`) are fuelled functions or inductive step relations; theorems quantify over all
  numbers of steps, and termination is a property of its own (C06, C87).

### Not modelled
* Text of `print`, and of `output.txt` except what `report` and the annual tables of `year` write (Model/Text, C116, C117):
  the pages of `pmsc` (C123) count as earlier content of the file in C121.
* pandas' splitting of csv files into columns (`readInputB`); the parsing the program does itself (`META DATA`, `LEEI`,
  `ZZMC`) is modelled on characters. Non-ASCII white space, `inf`, `nan` and `_` in numbers.
* pickle (the snapshot is the value that was saved; what is used of its format is that a complete file says where it
  ends, `Model/Disk`); the operating system and the file system beyond open-truncates, write-appends.
* numpy's random generator in `discrete_prob_gen` (the random numbers are parameters).
* Test files and the integration test driver (they repeat `narpMain`).

## Where the code is modelled
| python | Lean |
|---|---|
| monte_carlo/filem, remove, initfl, initl | Model/EventList |
| monte_carlo/contrl, events, quartr, week | Model/Control |
| monte_carlo/hour | Model/Hour (body), Model/Control (calendar) |
| monte_carlo/seeder, gstate, lstate, line_prob_sampling | Model/Random, Model/Variants |
| monte_carlo/sumcap, findtn, findld; data_processing/xporta, xports | Model/Capacity |
| monte_carlo/hrstat, pkstat | Model/Stats |
| monte_carlo/year, cvchk, intm | Model/Year |
| monte_carlo/rstart, the snapshot file | Model/Restart, Model/Disk |
| monte_carlo/report | Model/Report |
| monte_carlo/admitb, admitm, admitr, admref, ximpa, ximpar, mc, rc, rm, theta, thetac, flo, assign, tm1, tm2 | Model/Network, Model/Transm |
| monte_carlo/transm | Model/Transm |
| monte_carlo/connls, net | Model/Connls |
| monte_carlo/conls | Model/Conls |
| monte_carlo/linp | Model/Linp |
| monte_carlo/dgefa, dgeco, dgedi | Model/Lu, Model/Variants |
| monte_carlo/narpMain | Model/Program, Model/Datax |
| data_processing/dataf1, datax, input_processing | Model/Datax, Model/Random, Model/Load |
| data_processing/dpeak, wpeakf, plhr, resca, xldnew | Model/Load |
| data_processing/gsm, pmlolp | Model/Outage |
| data_processing/pind, smaint | Model/Names |
| data_processing/pmsc | Model/Pmsc, Model/PmscText |
| data_processing/readInputB, text of xldnew | Model/ReadB |
| monte_carlo/report, year: the text they write | Model/Text |
| the file output.txt during a run | Model/Output |
| float64 arithmetic of datax, gstate, lstate, sumcap, xldnew, findld, hour (margins), cvchk, contrl, week, quartr | Model/Float, Model/FloatCode, Model/FloatControl |
| float64 arithmetic of the averages and standard errors of year and report | Model/FloatReport |

Compositions: `Model/Program` is the main loop with the real hourly and yearly events; `Props/CardRun`, `CardEnergy`,
`CardWhole`, `CardReport`, `CardStop` follow the input cards through whole runs; `Props/History` connects the draws of a
run with the annual counters and the report; `RedispatchHour` puts the linear program inside the hourly evaluation.

## Mutation tests
`seeded/mutants.py` lists edits of the model (realistic bugs of the program), `seeded/run.py` applies each in a scratch
copy and rebuilds, `seeded/mklog.py` writes `seeded/LOG.jsonl`. Survivors led to the tightenings recorded there; the
remaining survivors are annotated (edits without observable effect).

## Properties
| id | property | modelled code | proof | status | theorems | note |
|---|---|---|---|---|---|---|
