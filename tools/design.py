"""Writes DESIGN.md: fixed text below + one row per property (title from properties.jsonl, status and theorems from
MANIFEST.json, how from HOW)."""
import json
HOW = {
"C01": ("`filem`, `remove` on the 100-word array", "invariant (linked chain = sorted list), refinement to a multiset with minimum"),
"C02": ("+ `contrl` loop, handlers arbitrary", "invariant over all runs"),
"C03": ("`filem`, `remove`", "refuted by remove; schedule; schedule; alternating histories by refinement"),
"C04": ("`initl`, `_initl`, `initfl`", "equality of states, both JSTEP"),
"C05": ("`contrl`, `events`; handlers arbitrary", "inductive invariant"),
"C06": ("same", "measure on the clock, exit conditions"),
"C07": ("same", "closed form of event times, induction"),
"C08": ("`initl`, `narpMain` wiring", "closed form of change times; witness"),
"C09": ("`quartr`, `narpMain`", "counter modulo 4; witness"),
"C10": ("`week`", "pointwise"),
"C11": ("`week`, `hour`, loop", "row in effect by induction; witness"),
"C12": ("`seeder`, draws", "arithmetic modulo 2^31, 2-adic valuation"),
"C13": ("same", "same"),
"C14": ("`gstate`", "interval specification"),
"C15": ("`lstate`, line samplers", "interval specification"),
"C16": ("`sumcap`, `findtn`", "finite sums"),
"C17": ("`xporta`, `xports`", "algebra"),
"C18": ("`dpeak`, `plhr`, `input_processing`", "maxima over lists"),
"C19": ("`wpeakf`", "maxima"),
"C20": ("`xldnew`", "maxima, scaling"),
"C21": ("`pind`", "first index of a name"),
"C22": ("threshold part of `datax`", "inequalities"),
"C23": ("`resca`", "case analysis; witness"),
"C24": ("`gsm`, `_gsm`, `pmlolp`", "convolution specification, induction over units"),
"C25": ("`smaint`, `week`", "window specification; witnesses"),
"C26": ("`hrstat`, `pkstat`", "pointwise"),
"C27": ("`hrstat`", "induction over hours"),
"C28": ("`hrstat`, `hour`", "inequality; witness"),
"C29": ("`year`, `hour`", "induction over years"),
"C30": ("`year`", "exact list of counters; witnesses"),
"C31": ("`year`", "induction over years"),
"C32": ("`intm`, `rstart`", "equality of fields"),
"C33": ("`cvchk`, `_cvchk`, `year`", "Cauchy-Schwarz; real square root eliminated by squares"),
"C34": ("`admitb`", "finite sums"),
"C35": ("`flo`, `theta`, `thetac`", "matrix algebra over ℚ"),
"C36": ("`tm1`, `transm`", "rank-one update (Sherman-Morrison)"),
"C37": ("`admitr`, `admitm`, `ximpa`, `ximpar`", "matrix algebra"),
"C38": ("`tm2`", "case analysis"),
"C39": ("`tm2`", "frame theorem; refutation of the restored matrix"),
"C40": ("`assign`", "finite sums"),
"C41": ("`linp`", "simplex invariant `B⁻¹B = 1`, optimality, phase 1; integer data: exact pivots"),
"C42": ("`net`", "pointwise; witness"),
"C43": ("`hour`", "witness, all hours; runs by induction; exact criterion (Spec/Abort.lean) for ample networks"),
"C44": ("`hour`", "monotonicity in the tier"),
"C45": ("`hour`, `contrl`, `setup`", "case analysis; refuted in a run of an always short study with its peak in the last hour (`C45_run_refuted`)"),
"C46": ("`dgefa`, `_dgefa`, `dgeco`, `dgedi`", "LU invariant, induction over columns"),
"C47": ("`seeder`, draws", "identity modulo 2^31"),
"C48": ("`hour`", "case analysis; witness"),
"C49": ("`hour`, `hrstat`, loop", "invariant over runs"),
"C50": ("`year` table", "row by row; the loop over the tiers carries the leftover numbers; witnesses"),
"C51": ("`admref`, `ximpa`", "Laplacian kernel vs connectivity of the graph"),
"C52": ("`transm`, `assign`", "sums"),
"C53": ("`transm`, `tm2`", "composition of C35, C38, C40"),
"C54": ("`transm`, loop", "frame theorem"),
"C55": ("`connls`", "map between LP points and dispatches, both ways"),
"C56": ("`connls`, `linp`, `net`", "composition; exact version on runs clear of the tolerances"),
"C57": ("`tm2`, `conls` call", "witnesses"),
"C58": ("`transm`, `tm2`, LP", "composition; witnesses"),
"C59": ("`hour`", "composition with C40, C44"),
"C60": ("`hour`, `transm`", "sums, no binding limit"),
"C61": ("`findtn`, `transm`", "algebra"),
"C62": ("`pmsc`, `smaint`", "frame theorem by loop invariants; witnesses"),
"C63": ("`report`", "row by row"),
"C64": ("`dataf1`, `datax`, `input_processing`", "field by field against `Spec/Input`"),
"C65": ("`dataf1`, `datax`", "case analysis: always an exception"),
"C66": ("`datax`", "witness; case analysis for every input"), "C67": ("`datax`", "witness"), "C68": ("`datax`, `transm`", "case analysis; witness"),
"C69": ("cards to `gstate`/`sumcap` in a run", "composition over every draw of every run"),
"C70": ("cards to `week`", "composition; witness"),
"C71": ("cards to `hour` energy", "composition"),
"C72": ("cards to `report`", "induction over years of a run (`Spec/History`)"),
"C73": ("`seeder`", "orders modulo 2^31"),
"C74": ("`xldnew` on text", "grammar of numbers and rows (`Spec/Text`), inversion of the printer"),
"C75": ("`readInputB` line card text", "grammar"),
"C76": ("`readInputB`, `narpMain`", "composition C74, C75, C64"),
"C77": ("`xldnew`", "case analysis"),
"C78": ("`datax`, the whole run", "equality for all card values; a study read from files with a derating card, in which the line carries power although the card's unit is out"), "C79": ("`narpMain`", "equality for all seeds"),
"C80": ("`xldnew`", "witness"), "C81": ("`hrstat`, `_hrstat`", "equality; witness"),
"C82": ("`year`, the whole run", "the totals in the report of every run (induction over the years); a five-year run in which they are wrong"), "C83": ("`intm`, `rstart`, `contrl`", "witnesses against it; what is missing: simulation relation between the resumed and the uninterrupted run, by induction over the steps"), "C84": ("`cvchk`, `year`, the whole run", "the rule of the code for every history and for every run from cards; witnesses against the property, one of them a whole run"),
"C85": ("`transm`", "case analysis; witness"), "C86": ("`transm`", "frame theorem"),
"C87": ("`linp`", "non-degenerate measure; Beale's example and others"),
"C88": ("`tm2`, `transm`", "witnesses"), "C89": ("`report`", "row by row; the loop over the tiers carries the leftover numbers; witnesses"),
"C90": ("`datax`", "field by field"), "C91": ("`leeiText`, `xldnew`", "witness against it; induction over the lines of the file for exactly which texts are accepted"),
"C92": ("`conls`", "map between LP points and dispatches with shared loss"),
"C93": ("`conls`", "witness"), "C94": ("`lstate_original`, `discrete_prob_gen`", "interval specification"),
"C95": ("`gstate`, `lstate`, `datax` in binary64", "error bounds of the thresholds and variates; the program's random states are 64 mod 128, so variates keep a distance of 64e-16 from numbers with nine decimals"),
"C96": ("`xldnew` scaling in binary64", "monotonicity and relative error of rounding"),
"C97": ("`xldnew`, `findld`, `hour` margins in binary64", "witness computed by the kernel; rounding error analysis for what holds"),
"C98": ("`xldnew`, `findld`, `hour` margins in binary64", "error propagation, then a lemma on `int()` of close numbers"),
"C99": ("`cvchk` and the sums of `year` in binary64", "whole values: n·Σx² − (Σx)² ≥ n − 1 unless all are equal, error propagation; refuted by a computed run for every root function and tolerance"),
"C100": ("`contrl`, `events`, `week`, `quartr`, calendar of `hour` and `year` in binary64", "all event times are whole numbers of half hours (invariant of C05), sums below 2^52 are exact; induction over the run"),
"C101": ("`gstate`, `sumcap`, `datax`, `xldnew`, `findld`, `hour` margins in binary64", "C95, induction over the units for the sums, C98"),
"C102": ("`year` snapshot part, `intm`, `datax` INTV, main loop", "induction over reachable states: next snapshot year is the next multiple; the file changes only at year ends that are due"),
"C105": ("`gstate`, `lstate`, `seeder`, `datax`, main loop","the orbit of 65539 modulo 2^25 is exactly two residue classes modulo 8 (order 2^23, counting); thresholds counted by floor and ceiling; runs by C73; a run of 1000 years as the instance"),
"C106": ("main loop, `hour`, `gstate`, `sumcap`, `year`, `datax`, `xldnew`","induction over the run with year ends: the books of the draws so far (C71, C73) carry over each event, a year end finds exactly 8760 / step of them (C07); `scarceCards` as the instance"),
"C107": ("as C106, two inputs","monotonicity of the lack of the pool in the cards, draw by draw, with the streams of C73; then the books of C106"),
"C108": ("`seeder`, main loop","the streams of C73; 123456 * 9649598 is not divisible by 256, so neighbouring streams differ at every draw"),
"C109": ("`hrstat`, `hour`, `year`, `intm`, `rstart`, main loop","induction over the run with its tally; restart by C32"),
"C110": ("`assign`, `tm2`, `transm`, `hour`, `year`, `datax`, main loop","a cut argument: a flow that comes from angles is at most what the exporting areas export, which is at most the deficits; induction over the tiers and the run; annual figures by C106"),
"C111": ("`assign`, `transm`, `hour`, `datax`, main loop","closed forms of `assign` for both rules pushed through one evaluation; induction over the tiers of an hour, lifted to every draw of a run as in C104; the loss-sharing violation by a computed witness"),
"C112": ("`hour`, `hrstat`, `assign`, `transm`, `year`, `datax`, main loop","the closed form of one evaluation (C111) with the monotonicity of the shares over the forecast tiers (so that a skipped tier has nothing to record) gives the exact increment of every area counter at a draw; induction over the run as in C106, with the counters that are not cleared carried along"),
"C113": ("`hour`, `transm`, `year`, main loop, `datax`, `seeder`","the entry of an hour is shown to be a function of capacities, loads and sharing rule only (tier by tier, C111 and C113_evaluation); the set-ups agree outside the network; then a simulation between the two runs, by induction over the events, with the control part of the loop separated from the rest of the state (`step_pre`)"),
"C114": ("`hour`, `hrstat`, `pkstat`, `year`, `report`, main loop, `datax`","the entries of a draw are determined (`HourTiers_unique`) and equal to the shares of C112; induction over the history of a run gives the draws of every year; their sums are put into the report theorem of C72"),
"C115": ("`hour`, `hrstat`, `pkstat`, `year`, `report`, main loop, `datax`","without loss sharing the share of an area is monotone in the needs of all areas (`borne_need_mono`), the capacity of an area is monotone in the cards (`areaCap_mono`); the equations of C114 turn this into inequalities of all figures"),
"C116": ("the text written by `report` (Model/Text)","decimal text of a rational or real number (`fixedText_shown`); a cell is blanks and a word (`CellOK`), so the words of a line are the figures (`cells_words`); lines are cut at line ends (`lw_sep`), piece by piece over the whole text; with C114 end to end"),
"C117": ("the text written by `year` (Model/Text)","as C116; the refutations compare the number of lines and the first words"),
"C118": ("the weighted averages, sums, means and mean shortages in binary64 (Model/FloatReport)","induction over the orders of summation and over the years, with a relation for a number of roundings that is closed under sums, products and quotients"),
"C119": ("the number under the root and the printed word in binary64 (Model/FloatReport)","the error bound of C99 for whole values; for the refutation, a computation in the kernel that holds for every rounding of the library functions by monotonicity"),
"C124": ("nothing new","the capacity of a draw is the sum of the shares of the units (C69); the shares of each unit over a full period are counted (C105); every draw of a long run is a step of it"),
"C123": ("`maintText`, `pmscFile`, `smaintFile` (Model/PmscText) on top of Model/Pmsc and Model/Text","the text of an area is cut into lines and words; induction over the areas with the frame theorem of C62 (areas and numbers of units are unchanged); a page determines its rows and its weekly numbers, so the intended page is a different one"),
"C122": ("nothing new: `annualTable` (Model/Year), Model/Text and Model/Output on top of the run from cards","the history of the draws (C72, C114) gives the counters at every year end, including the energy at the daily peaks; the rows of the totals are members of the table; their words are on the page (C117) and the page is in the file (C121)"),
"C121": ("`yearPage`, `yearFinal`, `yearFile`, `fileCfg` (Model/Output) on top of Model/Program and Model/Text","a run with the file and a run without it simulate each other; invariant over all states: old content, pages of the years that ended, report exactly when the stop flag is set; then the texts are cut into lines (C116, C117)"),
"C120": ("`tierBody`, `tierLoop`, `transm`, `tm1`, `tm2` as before (Model/Hour, Transm, Network)","the arrays of the intact network are determined (uniqueness of the inverse), induction over the tiers with the invariant of C39; refutation on a concrete hour with the solver followed pass by pass"),
"C104": ("`hour`, `transm`, `datax`, main loop", "induction over the tiers of an hour; flows from C53, C88; cards from C64, C69"),
"C103": ("`intm` file writing as a list of crash states, `rstart` as a byte reader", "induction over the bytes; witnesses for the two refutations"),
}
try:
    from design_extra import HOW as H2
    HOW.update(H2)
except ImportError:
    pass
props = [json.loads(l) for l in open('/verif/properties.jsonl')]
man = {c['property']: c for c in json.load(open('/verif/MANIFEST.json'))['claims']}
rows = []
for p in props:
    c = man[p['id']]; h = HOW[p['id']]
    ths = ', '.join(f"`{t.replace('Narp.Props.','')}`" for t in c['theorems'])
    rows.append(f"| {p['id']} | {p['title']} | {h[0]} | {h[1]} | {c['status']} | {ths} | {c.get('note','')} |")
head = open('/verif/tools/design_head.md').read()
open('/verif/DESIGN.md', 'w').write(head + '\n'.join(rows) + '\n')
