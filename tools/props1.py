import json
P=[]
def p(title,statement,quantifier,why,anchors):
    P.append(dict(id="C%02d"%(len(P)+1),title=title,statement=statement,quantifier=quantifier,why_tests_cant=why,anchors=anchors))
MC="reliabilityassessment/monte_carlo/"; DP="reliabilityassessment/data_processing/"
# --- event calendar
p("Event calendar delivers events in chronological order",
 "Starting from any well formed event calendar, any sequence of 'take the next event, then schedule one event' (the only way the simulator uses the calendar) behaves as a stable sorted priority queue: each take returns an event whose time is minimal among all pending ones, the pending events are exactly the old ones minus the taken one plus the scheduled one, and the calendar stays sorted by time.",
 "all well formed calendars, all finite histories of take/schedule pairs, all event times and types",
 "a test runs one history of a few events; pointer corruption depends on which slots were freed and re-used before",
 [MC+"filem.py:filem",MC+"remove.py:remove"])
p("Event calendar storage is never exhausted or corrupted by a run",
 "In a simulation run the calendar holds exactly 7 pending events at every loop iteration, they live in 7 pairwise different slots inside the 100-word array, the walk over the links terminates, and no access is out of range, however long the run is.",
 "all run lengths, all behaviours of the hourly, weekly, quarterly and yearly handlers",
 "a leak or link corruption shows only after arbitrarily many steps",
 [MC+"filem.py:filem",MC+"remove.py:remove",MC+"initl.py:initl",MC+"contrl.py:contrl"])
p("Event calendar accepts arbitrary interleavings of schedule and remove",
 "For every sequence of schedule and remove operations that never removes from an empty calendar and never holds more than 25 events, the calendar behaves as a priority queue (no pending event is lost or overwritten).",
 "all operation sequences of any length",
 "the failure needs a particular order: one remove followed by two schedules",
 [MC+"filem.py:filem",MC+"remove.py:remove",MC+"initfl.py:initfl"])
p("The constant initial calendar equals the scheduled initial calendar",
 "The hard coded initial calendar (initl) is the calendar obtained by scheduling the four quarterly events, the yearly event, the weekly event and the first draw one by one (_initl) on an empty calendar, for both sampling steps (hourly, daily).",
 "both values of JSTEP and default season ends; and, as a question, all season ends",
 "the equality must hold word for word, and for which season ends it holds is a statement about all of them",
 [MC+"initl.py:initl",MC+"initl.py:_initl",MC+"initfl.py:initfl"])
p("Simulated time never runs backwards and the scheduler never aborts",
 "In every run started by the main program the clock is non-decreasing, the pending event is never earlier than the clock, and neither the 'pointer is -1' nor the 'scheduled prior to the current time' error exit is ever taken; the event type dispatched is always 1, 2, 3 or 4.",
 "all runs of any length, all behaviours of the event handlers",
 "an ordering error needs a particular tie between handlers and may come after many simulated years",
 [MC+"contrl.py:contrl",MC+"events.py:events"])
p("Every run terminates",
 "Whatever the random draws and the convergence test do, a run with horizon FINISH processes a bounded number of events and then returns; it never processes an event later than FINISH+1.",
 "all horizons, all convergence outcomes, all handler behaviours",
 "termination is a statement about all executions",
 [MC+"contrl.py:contrl"])
p("Each simulated year contains exactly 8760 hourly (365 daily) draws before its year-end evaluation",
 "The k-th year-end event happens at clock 8760k, is preceded by exactly 8760k hourly draws (365k in daily mode), including the draw of the last hour of the year, and reports itself as year k.",
 "all k, both sampling modes, all handler behaviours",
 "off-by-one at year boundaries depends on tie breaking between events of equal time at every k",
 [MC+"contrl.py:contrl",MC+"hour.py:hour",MC+"year.py:year",MC+"filem.py:filem"])
p("Season boundaries of the input govern when seasonal ratings change",
 "The simulated seasonal capacity changes happen at the season ends given in the input data (QTR computed from IW1, IW2, IW3).",
 "all season ends in the input",
 "tests use the default season ends only",
 [MC+"initl.py:initl",MC+"narpMain.py:narpMain",DP+"datax.py:datax"])
p("In season s the unit ratings of season s are used",
 "During the s-th season of every simulated year the ratings used for the draws are column s of the seasonal rating table.",
 "all rating tables, all seasons, all years",
 "an index phase error is invisible when all columns are alike, and the state persists across the run",
 [MC+"quartr.py:quartr",MC+"narpMain.py:narpMain",MC+"events.py:events"])
p("Weekly planned outages: exactly the listed units are off",
 "After the weekly event, a unit is off for maintenance iff it is listed in the planned-outage table row that the event uses, and every unit not listed is on, whatever the previous status.",
 "all tables, all previous statuses, all units",
 "must hold for all tables and prior statuses (no unit stuck off from a previous week)",
 [MC+"week.py:week"])
p("Planned outages of week w are applied in week w",
 "During hours 168w .. 168w+167 of each simulated year the planned-outage row in effect is row w.",
 "all weeks of all simulated years",
 "needs the whole schedule of events, not one call",
 [MC+"week.py:week",MC+"hour.py:hour",MC+"events.py:events"])
# --- random numbers
p("Pseudo random states stay in range and never collapse",
 "Every seed state used for drawing unit and line states is an integer in [0, 2^31), each draw multiplies it by 65539 modulo 2^31, and starting from the seeds the program makes, no state ever becomes 0; the variate derived from it is in [0, 1].",
 "all numbers of units and lines, all numbers of draws",
 "a generator collapsing after 10^8 draws cannot be seen by tests",
 [MC+"seeder.py:seeder",MC+"gstate.py:gstate",MC+"lstate.py:lstate"])
p("The seeding routine gives every unit its own stream, fixed by the seed",
 "For every seed handed to the seeding routine the initial state of stream i is the seed times 9649599^(i+1) modulo 2^31, and different seeds (below 2^31) give different states for every stream.",
 "all seeds, all unit indices",
 "statement about all seeds; a constant seed passes every regression test",
 [MC+"narpMain.py:narpMain",MC+"seeder.py:seeder"])
p("Generator state sampling follows the three-state outage model",
 "For a variate u the sampled availability is 1 when u < 1-DFOR-FOR, the derated fraction when 1-DFOR-FOR <= u < 1-FOR, and 0 otherwise; available capacity is availability x rating x maintenance status, hence between 0 and the rating, and 0 for a unit under maintenance.",
 "all probabilities, ratings, statuses, seeds and numbers of units",
 "ranges over all real inputs and states",
 [MC+"gstate.py:gstate",DP+"datax.py:datax"])
p("Line state sampling selects the state by cumulative probability",
 "For non-decreasing cumulative probabilities the sampled line state is the unique s in 1..6 whose probability interval contains the variate, larger variates never give smaller states, and every line gets one state.",
 "all probability tables, all seeds, all numbers of lines",
 "ranges over all tables",
 [MC+"lstate.py:lstate",DP+"datax.py:datax"])
# --- capacity & load
p("Capacity accounting conserves megawatts",
 "The capacity controlled by all areas sums to the available capacity of all units, the capacity owned sums likewise when each unit's ownership shares sum to 1, the jointly-owned-unit transfers and the firm interchange sum to zero over the areas.",
 "all unit sets, control maps, ownership matrices, interchange tables",
 "conservation must hold for every size and matrix",
 [MC+"sumcap.py:sumcap",MC+"findtn.py:findtn"])
p("Area load export shifts load between areas without losing any and is undone by the inverse step",
 "Converting area loads with the load-sharing step (xporta) and back (xports) returns the original hourly loads, and the pool load at each hour is unchanged.",
 "all load tables and interchange tables",
 "round trip must hold for all tables",
 [DP+"xporta.py:xporta",DP+"xports.py:xports"])
p("Daily peaks are true maxima",
 "For each area and day the daily peak load is the maximum over the day's 24 hours and the recorded peak hour is the first hour attaining it; the annual peak is the maximum over the days; the vectorised and loop versions agree.",
 "all load tables, areas and days",
 "ties and all tables",
 [DP+"dpeak.py:dpeak",DP+"plhr.py:plhr"])
p("Weekly peaks are true maxima over the days of the week",
 "Each weekly peak is the maximum of the daily peaks of the days in that week; the last week also covers the 365th day, so every day of the year belongs to exactly one week.",
 "all daily peak tables",
 "all tables, boundary day",
 [DP+"wpeakf.py:wpeakf"])
p("Hourly loads are scaled so that each area's peak is its input peak load",
 "After scaling, every area's largest hourly load equals the peak load of the input and the shape (ratios between hours) is preserved, when the raw peak is positive.",
 "all hourly load tables, all peak loads, all area counts",
 "all tables; area number parsing depends on the number of areas",
 [DP+"xldnew.py:xldnew"])
p("Name to index resolution is exact",
 "Each area name is resolved to the index of the area of that name: distinct names get distinct indices in 0..NOAREA-1, every reference in the unit, line and interchange tables is replaced by the index of exactly that name, and an unknown name is rejected.",
 "all lists of names and references",
 "all name lists, duplicates included",
 [DP+"pind.py:pind"])
p("Outage probabilities become valid cumulative distributions",
 "For forced outage rate FOR and derating rate DFOR with 0<=FOR, 0<=DFOR, FOR+DFOR<=1 the unit's cumulative thresholds are non-decreasing in [0,1]; for line state probabilities p1..p6 >= 0 the thresholds are non-decreasing and the last one is their sum.",
 "all rates",
 "all real inputs",
 [DP+"datax.py:datax"])
p("Unit seasonal capacities are reduced according to the season of each week",
 "The vectorised seasonal capacity selection agrees with the loop version: the season of a day is the number of season ends at or before it.",
 "all days and season ends",
 "differs only in one season, all days needed",
 [DP+"resca.py:resca",DP+"resca.py:_resca"])
p("Capacity outage probability table is the exact convolution",
 "Adding a three-state unit to the outage table gives, at every tabulated level X, P'(outage>=X) = p1 P(>=X) + p2 P(>=X-KP) + p3 P(>=X-KT); the table's levels are strictly increasing multiples of 10 MW and its probabilities non-increasing and in [0,1], starting with 1 at level 0. For any list of units (capacity of at least 4.5 MW, i.e. not rounded to 0, and up with probability above 1e-6) the table built by adding them one after the other gives the tail probabilities of the joint distribution of independent units with capacities rounded to 10 MW, from below and to within 1e-9 per unit (upper bound for less than 49500 MW in total).",
 "all tables, all units, all sequences of unit additions",
 "a recursion over arbitrary many units",
 [DP+"gsm.py:gsm",DP+"pmlolp.py:pmlolp"])
p("The weekly maintenance table lists exactly the units on planned outage",
 "Row w of the planned-outage table lists unit i iff one of its outage windows covers week w, without duplicates, and the row's count is the number of listed units.",
 "all outage schedules",
 "all schedules, end of year included",
 [DP+"smaint.py:smaint"])
# --- statistics
p("Loss of load counters count loss of load hours exactly once",
 "In an hour with a shortage, exactly one of the two pool loss-of-load counters (transmission or generation) of that forecast tier goes up by one and the other counters of that tier stay; an area's counters go up by one in total iff that area is short, other tiers are untouched.",
 "all margins, all counter states, all tiers, all area counts",
 "all margin vectors including ties",
 [MC+"hrstat.py:hrstat",MC+"pkstat.py:pkstat"])
p("Unserved energy of the pool is the sum over its areas",
 "The pool's energy-not-served counters grow by exactly the sum of the areas' shortages, and this stays true over any history of hours.",
 "all histories of margins",
 "needs induction over histories",
 [MC+"hrstat.py:hrstat",MC+"pkstat.py:pkstat"])
p("Loss cause classification is consistent between pool and areas",
 "In an hour with a shortage the pool and its short areas are given the same cause (transmission when the pool as a whole has enough, generation otherwise).",
 "all margin vectors",
 "fails only on an exact tie",
 [MC+"hrstat.py:hrstat",MC+"pkstat.py:pkstat"])
p("Annual distributions count each simulated year once",
 "After k simulated years every area's hourly-LOLE, peak-LOLE and EUE histograms each hold exactly k entries, so the reported probabilities sum to one.",
 "all histories of years and annual counts",
 "induction over years",
 [MC+"year.py:year",MC+"report.py:report"])
p("Annual counters restart from zero every year",
 "After the year-end evaluation all annual counters (area and pool, all tiers) are zero, so a year's statistics contain only events of that year.",
 "all area counts, tier counts and counter states",
 "depends on the shape NOAREA x NFCST; tests use one shape",
 [MC+"year.py:year"])
p("Final averages are the averages over all simulated years",
 "After k years the cumulative statistics of each area (per forecast tier and weighted over the tiers) and of the pool (per tier), and the sums of their squares, are those of the k annual ones, and total = transmission + generation; likewise at every moment of every run.",
 "all histories of years",
 "an accumulation dropped between calls is only visible over several years",
 [MC+"year.py:year",MC+"events.py:events",MC+"contrl.py:contrl",MC+"report.py:report"])
p("A restart restores clock, calendar and statistics",
 "At every year end at which state is saved, the state reloaded by restart has the clock, the pending events, the season, all cumulative statistics and the network of the run at that moment.",
 "all interruption points",
 "statement about all crash points",
 [MC+"intm.py:intm",MC+"rstart.py:rstart"])
p("Convergence test is sound",
 "For every chosen statistic of an area, and of the pool in the reference tier, the run is declared converged exactly if at least 5 years were simulated and the estimated standard error of the mean is below the tolerance times the mean (0 meaning 0.025), or the horizon is reached; the variance estimate under the root is never negative; and the two implementations agree.",
 "all histories of annual values, all tolerances",
 "algebraic inequality over all histories",
 [MC+"cvchk.py:cvchk",MC+"cvchk.py:_cvchk"])
# --- network
p("The bus admittance matrix is symmetric with zero row sums",
 "For any set of lines between different areas the admittance matrix is symmetric and every row sums to zero; the entry between two areas is minus the total admittance of the lines between them, and the diagonal entry is the total admittance of the lines at the area.",
 "all line sets and admittances",
 "all networks",
 [MC+"admitb.py:admitb"])
p("DC load flow satisfies Kirchhoff's law",
 "If the impedance matrix is the inverse of the reduced admittance matrix and the injections sum to zero, the net flow computed out of every area equals its injection with the code's sign, and the net flows over all areas sum to zero.",
 "all networks and injections",
 "linear algebra over all sizes",
 [MC+"flo.py:flo",MC+"theta.py:theta",MC+"thetac.py:thetac",MC+"admitr.py:admitr"])
p("Rank-one impedance update keeps the impedance matrix the inverse",
 "When line admittances change (sampled line states), the modified impedance matrix is again the inverse of the reduced admittance matrix of the changed network, for lines between two non-reference areas and for lines at the reference area.",
 "all networks, lines and admittance changes with non-singular result",
 "matrix identity over all sizes",
 [MC+"ximpa.py:ximpa",MC+"ximpar.py:ximpar",MC+"admitm.py:admitm",MC+"admref.py:admref"])
p("Reducing the network removes exactly the reference area",
 "The reduced admittance matrix is the admittance matrix without row and column of the reference area, and the area index map is a permutation putting the reference area last; both implementations agree.",
 "all networks and reference areas",
 "all sizes and reference positions",
 [MC+"admitr.py:admitr"])
p("A solution accepted without curtailment respects all line and area limits",
 "When the transmission module accepts the scheduled injections without re-dispatch, every line flow is within the line's forward and backward capacity in its sampled state and every constrained area's export/import is within its limits.",
 "all networks, states and injections",
 "all flows",
 [MC+"tm2.py:tm2"])
p("The transmission module leaves the base network unchanged",
 "After evaluating an hour with lines out, the base admittance and impedance matrices are those of the intact network, so that later hours see the right network.",
 "all hours, line states and networks",
 "state leak between hours, on particular paths only",
 [MC+"tm2.py:tm2",MC+"transm.py:transm"])
p("Assistance assignment balances the pool and sheds exactly the shortage",
 "The assigned injections sum to zero; load curtailed is non-negative and adds up to the pool's shortage; areas with a surplus never import and export at most their surplus plus their own curtailed load; areas with a deficit are supplied or curtailed by exactly their deficit; with loss sharing the curtailment is proportional to the areas' loads, without it proportional to their deficits; both implementations agree.",
 "all margins, loads and area sets",
 "all vectors",
 [MC+"assign.py:assign"])
p("The linear program solver keeps a correct basis",
 "After every pivot of the simplex routine the stored inverse is the inverse of the current basis columns, the stored basic solution is that inverse times the right hand side, a non-negative solution stays non-negative up to the tolerances, and the objective does not increase, in exact arithmetic; on return the solution is optimal up to the tolerance of 1e-7.",
 "all LPs and all pivot sequences",
 "induction over pivots",
 [MC+"linp.py:linp"])
p("LP results are mapped back to the right areas",
 "The area injections, the curtailments and the line flows reported after a re-dispatch are those of the solution of the linear program, for every area and line.",
 "all bases and solutions",
 "an off-by-one concerns one variable only",
 [MC+"net.py:net"])
p("An hour without any shortage is processed without error",
 "For every hour in which no area is short the hourly event returns normally and leaves all statistics unchanged.",
 "all draws and loads",
 "depends on the drawn state",
 [MC+"hour.py:hour"])
p("Skipping lower forecast tiers is sound",
 "If no area is short at a forecast tier then no area is short at any later tier, so stopping there loses no shortage.",
 "all loads, uncertainties and capacities",
 "all real inputs",
 [MC+"hour.py:hour",MC+"findld.py:findld",DP+"datax.py:datax"])
p("Peak statistics are collected at each day's pool peak hour",
 "On every day the peak statistics are collected exactly in the hour of that day with the largest pool load.",
 "all days of the year and load tables",
 "fails only for one hour of the year",
 [MC+"hour.py:hour",DP+"plhr.py:plhr"])
p("Matrix factorisation and inversion are exact",
 "For every non-singular matrix the factorise/invert pair used by the transmission model returns its inverse (in exact arithmetic).",
 "all sizes and matrices",
 "all matrices, pivot orders",
 [MC+"dgefa.py:dgefa",MC+"dgedi.py:dgedi"])
p("Successive draws of a unit are not tied by a fixed relation",
 "The states drawn for a unit in three successive hours satisfy no fixed linear relation modulo the generator's period (three-dimensional independence of the variates): no pattern of three outcomes of positive probability is excluded.",
 "all seeds and all three successive draws",
 "statistical tests on a sample cannot show the absence or presence of a structural relation",
 [MC+"gstate.py:gstate"])
p("Sampling every n hours keeps the drawn states in between",
 "With sampling frequency n > 1 the unit and line states are redrawn in every n-th hour and kept for the hours in between; in every processed hour in which states are drawn each random stream advances exactly one step.",
 "all sampling frequencies, hours and seeds",
 "depends on the relation of clock and frequency over a whole run",
 [MC+"hour.py:hour"])
p("Annual loss counters stay within their natural bounds",
 "At any moment of a simulated year, for every forecast tier: the pool's loss-of-load hours do not exceed the hours simulated, an area's do not exceed the pool's, peak-hour counts do not exceed the hourly counts, no counter is negative and the pool's unserved energy is the sum of the areas' unserved energy.",
 "all histories of hours of a year",
 "an invariant over unbounded histories of random draws",
 [MC+"hour.py:hour",MC+"hrstat.py:hrstat",MC+"pkstat.py:pkstat"])
p("The annual result table reports every area, tier and cause consistently",
 "Whenever annual results are printed, for every area and pool, every forecast tier plus the weighted average and every cause, the table shows the number of loss-of-load hours, the unserved energy and the mean shortage = unserved energy / loss-of-load hours (0 when there was no loss).",
 "all annual counters, tiers and causes",
 "stale values of another row show only for particular patterns of zero counters",
 [MC+"year.py:year"])
p("The network matrices can be built exactly when the network is connected",
 "For lines between different areas with admittances of one sign, the set-up of the transmission network succeeds if and only if every area is connected to the reference area by lines, and then the stored impedance matrix is the inverse of the reduced admittance matrix.",
 "all networks, admittances and reference areas",
 "connectivity of graphs of any size; linear algebra over all sizes",
 [MC+"tm1.py:tm1",MC+"admitb.py:admitb",MC+"admitr.py:admitr"])
p("Assistance only redistributes the pool's margin",
 "In every hourly transmission evaluation in which no line or area limit binds, the areas' margins after assistance add up to the pool margin before assistance, and the sum of the reported shortages equals max(0, total demand - total available capacity).",
 "all networks, line states, schedules, capacities, loads, with and without loss sharing",
 "a conservation law over all real inputs and network sizes, through two load flows",
 [MC+"transm.py:transm",MC+"tm2.py:tm2",MC+"assign.py:assign"])
p("Reported shortages are backed by feasible flows",
 "In every hourly transmission evaluation in which no limit binds, starting from the intact network (the first of an hour, or a later one when none before it needed a re-dispatch), there are line flows within the capacities of the sampled line states under which every area's net export is its margin plus its reported shortage; with loss sharing they are also within the areas' import and export limits.",
 "all networks, line states, schedules, capacities, loads, with and without loss sharing",
 "existence of feasible flows over all networks; the total of two load flows",
 [MC+"transm.py:transm",MC+"tm2.py:tm2"])
p("Area limits survive every evaluation",
 "After every hourly transmission evaluation, with or without re-dispatch, the areas' import and export limits are those of the input data.",
 "all networks, states and hours",
 "temporary in-place changes on several paths",
 [MC+"transm.py:transm",MC+"tm2.py:tm2"])
p("The re-dispatch program is the transmission dispatch problem",
 "The linear program set up for a re-dispatch has a solution with given injections, angles and cost exactly when these form a dispatch of the network: Kirchhoff's laws, line limits, area import and export limits, injections between 0 and the surplus or minus the deficit; its cost is the total unserved load, and it always has a solution.",
 "all networks, line states, limits and margins",
 "equivalence of two infinite sets of solutions for all sizes",
 [MC+"connls.py:connls",MC+"linp.py:linp"])
p("A re-dispatch yields an optimal dispatch",
 "The flows and injections after a re-dispatch are a dispatch of the network within all limits, and no dispatch within the limits serves more load (up to the tolerance of the solver).",
 "all networks, limits and margins on which the solver returns",
 "optimality over all dispatches of all networks",
 [MC+"connls.py:connls",MC+"linp.py:linp",MC+"net.py:net",MC+"tm2.py:tm2"])
p("A re-dispatch is possible for every admissible setting",
 "Whenever a limit binds, the re-dispatch completes without an error: with and without loss sharing, with the detailed listing on or off, for every network within the documented sizes (20 areas, 100 lines).",
 "all settings and network sizes",
 "depends on the combination of setting, size and binding limits",
 [MC+"tm2.py:tm2",MC+"linp.py:linp",MC+"connls.py:connls"])
p("The shortages recorded in re-dispatched hours are those of an optimal dispatch",
 "In every hourly transmission evaluation in which a limit binds, the recorded shortage of every area is its unserved load in a dispatch within all limits with the least total unserved load.",
 "all networks, line states, schedules, capacities and loads",
 "a statement about all alternative dispatches through the whole evaluation",
 [MC+"transm.py:transm",MC+"tm2.py:tm2"])
p("An hour records exactly the shortages that remain after assistance",
 "In every hourly event that returns, the loss-of-load hours and the unserved energy of every area and of the pool grow, tier by tier, by exactly the shortages of at least 1 MW (in whole MW) that remain after assistance: the deficits themselves if every area is short, otherwise the shortages returned by the transmission evaluation; the peak counters likewise in peak hours; tiers after the first one without shortage record nothing.",
 "all systems, draws, hours, loads and transmission results",
 "a relation between the whole evaluation and all counters for every draw",
 [MC+"hour.py:hour",MC+"hrstat.py:hrstat",MC+"pkstat.py:pkstat"])
p("Without binding limits the recorded energy is what the pool lacks",
 "In every hour in which no line or area limit binds, in every forecast tier, the unserved energy recorded for the pool is max(0, total load forecast - total available capacity) up to less than 1 MW per area; a pool shortage of at least as many MW as there are areas is counted as one loss-of-load hour, a shortage under 1 MW as none.",
 "all networks, draws, loads, tiers and hours",
 "end-to-end property of draw, load flow, assignment and statistics",
 [MC+"hour.py:hour",MC+"transm.py:transm"])
p("Scheduled interchange is carried out as scheduled",
 "In every transmission evaluation in which no limit binds there are flows within the line capacities under which an area scheduled to import gets its schedule but at most what it is short of, and an area scheduled to export exports at most its schedule and exactly it if all importers need theirs; these are the reported flows if everybody is then served, else the reported flows come on top.",
 "all networks, line states, contracts, ownership shares, capacities and loads",
 "all real inputs and network sizes",
 [MC+"transm.py:transm",MC+"findtn.py:findtn",MC+"sumcap.py:sumcap"])
p("Planned maintenance is scheduled as asked",
 "For every system: a unit with a pre-set maintenance schedule keeps its weeks; a unit whose schedule is left to the program gets its outages inside the maintenance window of its area, outside the forbidden period; scheduling one area changes no other unit, and the planned outage table lists exactly the resulting outages.",
 "all systems, capacities, loads, windows and maintenance durations",
 "the placement depends on all units of the area; tests only contain systems without maintenance",
 ["reliabilityassessment/data_processing/pmsc.py:pmsc","reliabilityassessment/data_processing/smaint.py:smaint","reliabilityassessment/data_processing/datax.py:datax"])
p("The final report states the averages of all simulated years",
 "For every history of simulated years, the final report lists, per area (per forecast tier and weighted) and for the pool per forecast tier, the mean over all years of the loss-of-load hours, days and unserved energy; the summary adds for each area peak, capacity, reserve and the standard deviation of each mean, and each distribution table counts the years per class with probabilities that sum to one; tables are numbered consecutively.",
 "all histories of year ends, numbers of areas and tiers",
 "a relation between the printed numbers and a whole history of years of any length",
 [MC+"report.py:report",MC+"year.py:year"])
p("The input cards take effect as described",
 "For every accepted input: the capacity available to an area in a draw is the sum over exactly the units whose cards name that area, each with the fraction given by the outage rates of its card; the load of an area is the profile of its section scaled to the peak of its card; the import and export limits of an area are those of its card at every moment; every sensible input in which all names are known is accepted, an input naming an unknown area or unit is not.",
 "all inputs: any number of areas, units, lines and any names and values",
 "names are resolved by joins and index arithmetic; holds for all tables, not for an example",
 ["reliabilityassessment/data_processing/datax.py:datax","reliabilityassessment/data_processing/dataf1.py:dataf1","reliabilityassessment/data_processing/xldnew.py:xldnew","reliabilityassessment/data_processing/readInputB.py:readInputB"])
p("Contracts and joint ownership can be entered",
 "An input with contract cards or ownership cards that names known areas and units is accepted, and the contracts and ownership shares take effect.",
 "all inputs with at least one such card",
 "no test input contains such cards",
 ["reliabilityassessment/data_processing/datax.py:datax","reliabilityassessment/data_processing/readInputB.py:readInputB"])
p("A line out of service carries nothing",
 "A line state entered with zero admittance and zero capacities carries no power: an area connected only by such lines is not assisted.",
 "all networks and line states",
 "needs the whole path from the card to the recorded shortage",
 ["reliabilityassessment/data_processing/datax.py:datax",MC+"transm.py:transm"])
p("Cards are used in the order of their serial numbers",
 "The result for an input depends on the serial numbers of the cards as documented: the cards are used in the order of their serial numbers, whatever the order in which they are written.",
 "all inputs and permutations of the cards",
 "a statement about all permutations of all inputs",
 ["reliabilityassessment/data_processing/readInputB.py:readInputB"])
p("Line numbers are only labels",
 "Two inputs that differ only in the numbers given to the lines yield the same simulation.",
 "all inputs and all numberings",
 "a relation between pairs of inputs",
 ["reliabilityassessment/data_processing/datax.py:datax",MC+"net.py:net",MC+"transm.py:transm"])
p("The capacity of an area at every draw follows from the cards",
 "In every run of every accepted input, at every draw the capacity of an area is the sum over the units its cards place there of the drawn fraction times the rating of the card for the current season, without the units whose cards plan an outage in the current week.",
 "all inputs, all runs, all draws",
 "end-to-end property of input processing and of the event history up to the draw",
 ["reliabilityassessment/data_processing/datax.py:datax",MC+"week.py:week",MC+"gstate.py:gstate",MC+"narpMain.py:narpMain"])
p("The planned outage weeks of the cards are respected",
 "In every run of every accepted input, exactly the units whose cards plan an outage in the current calendar week are off at each draw of that week.",
 "all inputs, all runs, all draws",
 "depends on the event history; a one-week shift is invisible for inputs without maintenance",
 ["reliabilityassessment/data_processing/smaint.py:smaint",MC+"week.py:week",MC+"narpMain.py:narpMain"])
p("The energy not served at every draw follows from the cards",
 "In every run of every accepted input, at every draw in which no line or area limit binds and for every forecast tier, the unserved energy recorded for the pool is what the pool lacks according to the cards (scaled load profiles times forecast factor, minus the drawn capacity of the units for the current season without planned outages of the current week), up to less than 1 MW per area.",
 "all inputs, all runs, all draws, all tiers",
 "end-to-end property of input processing, event history, load flow and statistics",
 ["reliabilityassessment/data_processing/datax.py:datax",MC+"narpMain.py:narpMain",MC+"hour.py:hour",MC+"transm.py:transm"])
p("The final report shows the statistics of the simulated years",
 "In every run of every accepted input that ends, the final report shows for each area and the pool the mean over the simulated years of the loss-of-load hours, days and energy that the draws of these years recorded, averaged over the forecast tiers; the peak and the installed capacity of the cards; and the distribution of the annual values.",
 "all inputs, all runs that end, all areas",
 "end-to-end property from the cards through the whole history to the printed report; a test has one history",
 [MC+"narpMain.py:narpMain",MC+"year.py:year",MC+"report.py:report","reliabilityassessment/data_processing/datax.py:datax"])
p("The random numbers of different units and lines are unrelated",
 "The random number used for a unit or line at a draw is not determined by those of other units and lines: no unit (or line) repeats the random numbers of another, or its own, within the horizon of a study.",
 "all inputs, all runs, all units, lines and draws",
 "a statement about the generator over millions of draws",
 [MC+"seeder.py:seeder",MC+"gstate.py:gstate",MC+"lstate.py:lstate",MC+"narpMain.py:narpMain"])
DP="reliabilityassessment/data_processing/"
p("The load file is read as written",
 "Every load file whose sections belong to different areas of the study with one-digit numbers and hold a year of rows with twelve decimal numbers each is read without error, in any layout (blanks and tabs, a date before the numbers, signs, decimal points, exponents, Unix or Windows line ends, last line not ended), and the load of each area in each hour is exactly the number written for it.",
 "all texts of load files, all numbers and layouts, all hours",
 "the set of texts is unbounded; a test reads one file",
 [DP+"xldnew.py:xldnew"])
p("The line cards are read as written",
 "A line card whose data column holds 24 decimal numbers separated by commas, in any layout, gives state s = 0..5 of the line the admittance, forward capacity, backward capacity and probability that are the numbers 4s, 4s+1, 4s+2 and 4s+3 of the text; with any other number of numbers the card is rejected with an error.",
 "all texts of line cards",
 "the set of texts is unbounded",
 [DP+"readInputB.py:read_card_ZZTD"])
p("Input files in good form become the study they describe",
 "For every set of input files with one row of settings, line cards of 24 numbers and a load file with a year per section, reading succeeds and the study has exactly the areas, units, lines, contracts, shares and settings of the files; with no or several rows of settings it is rejected.",
 "all input files",
 "all tables and texts",
 [DP+"readInputB.py:readInputB",DP+"xldnew.py:xldnew",DP+"dataf1.py:dataf1"])
p("A damaged row of a load file is rejected",
 "If a load file contains a row with no numbers or with 2 to 11 numbers, a row with a word that is no number, a heading without an area number, or data before the first heading, it is rejected with an error.",
 "all texts of load files",
 "a statement about all faulty texts",
 [DP+"xldnew.py:xldnew"])
p("Line derating cards take effect",
 "A line derating card multiplies the ratings of its line by its factors whenever all units it names are out.",
 "all inputs with such cards, all draws",
 "no test input contains such cards",
 [DP+"readInputB.py:read_card_ZZDD",DP+"datax.py:datax"])
p("The random streams are determined by the user's seed",
 "Two runs of the program that differ only in the seed of the input use different random streams.",
 "all seeds, all studies",
 "a constant seed passes every regression test",
 [MC+"narpMain.py:narpMain",MC+"seeder.py:seeder"])
p("Load data of ten or more areas belong to the area named",
 "In a load file with ten or more sections, the rows of a section become the load of the area whose number heads it.",
 "all load files and area counts",
 "the area number is read from one character; tests have fewer areas",
 [DP+"xldnew.py:xldnew"])
p("The two implementations of the hourly statistics agree",
 "The loop version and the vectorised version of the hourly and daily statistics leave the same counters.",
 "all margins, loads and counter states",
 "agreement on all rational inputs",
 [MC+"hrstat.py:hrstat",MC+"hrstat.py:_hrstat",MC+"pkstat.py:pkstat"])
p("The pool's weighted totals cover all years",
 "After k years the pool's cumulative statistics weighted over the forecast tiers are the sums of the k annual ones.",
 "all histories of years",
 "an accumulation dropped between calls is only visible over several years",
 [MC+"year.py:year",MC+"events.py:events",MC+"contrl.py:contrl"])
p("Interrupting and restarting resumes the same simulation",
 "A run resumed from a saved state continues exactly as the uninterrupted run: same random numbers, same units under maintenance, same results, same later savings.",
 "all interruption points",
 "statement about all crash points",
 [MC+"intm.py:intm",MC+"rstart.py:rstart"])
p("Convergence of the pool's weighted statistic is sound",
 "When the chosen statistic is that of the pool averaged over the forecast tiers, the run is declared converged only if its standard error is below the tolerance times its mean or the horizon is reached.",
 "all histories of annual values, all tolerances",
 "needs histories of at least five years",
 [MC+"cvchk.py:cvchk",MC+"year.py:year"])
p("The re-dispatch gets the admittance matrix of the sampled network",
 "The modified admittance matrix handed to the re-dispatch is the reduced admittance matrix of the network with the sampled line states.",
 "all networks, reference areas and line states",
 "matrix identity over all sizes",
 [MC+"admref.py:admref",MC+"tm2.py:tm2"])
p("Every hour starts from the intact network",
 "The first transmission evaluation of every hour gives the same result and leaves the same network whatever earlier evaluations left in the network arrays, as long as the area limits are the same (which every evaluation restores).",
 "all networks, line states and histories",
 "state leak between hours, on particular paths only",
 [MC+"transm.py:transm",MC+"net.py:net"])
p("The linear program solver returns an answer for every program",
 "The solver returns on every program that has an optimum, keeps the solution non-negative, and reports programs that are unbounded or have no feasible point.",
 "all linear programs",
 "termination and degeneracy cannot be tested",
 [MC+"linp.py:linp"])
p("Reported shortages respect the areas' limits without loss sharing",
 "Without loss sharing, when no limit binds, the flows that belong to the reported shortages are within the areas' import and export limits.",
 "all networks, line states, schedules, capacities, loads",
 "existence of feasible flows over all networks",
 [MC+"transm.py:transm",MC+"tm2.py:tm2"])
p("The final report states the pool's averages",
 "For every history of simulated years the pool's line of the final report shows the sums of the areas' peaks and capacities, its reserve, the means over all years of its loss-of-load hours, days and unserved energy averaged over the tiers, and the standard deviation of each mean.",
 "all histories of year ends, numbers of areas and tiers",
 "a relation between the printed numbers and a whole history of years of any length",
 [MC+"report.py:report",MC+"year.py:year"])
p("The line cards take effect as described",
 "For every accepted input the lines of the simulated network connect the areas their cards name, with the admittances, capacities and probabilities of their cards.",
 "all inputs: any number of areas and lines and any names and values",
 "names are resolved by joins and index arithmetic; holds for all tables, not for an example",
 [DP+"datax.py:datax",DP+"dataf1.py:dataf1"])
p("An incomplete load file is rejected",
 "A load file with a row that does not hold twelve numbers, with less than a year of rows for an area, or without a section for some area, is rejected with an error.",
 "all texts of load files",
 "a statement about all faulty texts",
 [DP+"xldnew.py:xldnew"])
p("The loss-sharing program is the dispatch problem with loss sharing",
 "The linear program set up for loss sharing has as its solutions exactly the dispatches in which areas may shed load to help others: line flows that follow from angles, generation up to what is available, shed load up to the load, line and area limits respected; its cost is the total load shed, it always has a solution, its starting basis is valid, and the optimum never sheds more than a dispatch without loss sharing.",
 "all networks, line capacities, area limits, loads and generation",
 "an equivalence between a matrix of coefficients and a physical problem, for all networks",
 [MC+"conls.py:conls",MC+"linp.py:linp"])
p("Both dispatch programs read the area limits the same way",
 "The dispatch programs with and without loss sharing take an area's import limit and export limit from the same columns of the area table.",
 "all networks and area limits",
 "agreement of two programs for all inputs; the limits are equal in most test data",
 [MC+"conls.py:conls",MC+"connls.py:connls",MC+"transm.py:transm"])
p("The alternative line samplers draw the same states",
 "Given the same random numbers and a table of cumulative probabilities that ends at 1, the two alternative line sampling functions return the states that the program's own sampler gives, except for numbers that equal a threshold; tables that do not end near 1 are rejected.",
 "all tables of six cumulative probabilities, all lists of random numbers",
 "agreement for all tables and numbers; the functions draw at random",
 [MC+"line_prob_sampling.py:lstate_original",MC+"line_prob_sampling.py:discrete_prob_gen",MC+"lstate.py:lstate"])
p("Rounding does not change the states drawn",
 "In every run, with outage rates and line state probabilities written with at most nine decimals, every draw in binary64 arithmetic gives every unit and every line the state that exact arithmetic gives it, and the same next random state.",
 "all rates and probabilities with nine decimals, any number of units and lines, all histories of draws",
 "a statement about two billion variates against all thresholds; a test compares a few",
 [MC+"gstate.py:gstate",MC+"lstate.py:lstate",DP+"datax.py:datax"])
p("Rounding keeps the shape of the scaled loads",
 "In binary64 arithmetic the scaled loads of an area have exactly the card's peak as their maximum, keep the order of the hours, and are within a relative error of 2^-51 of the exactly scaled loads.",
 "all load files with some load of at least 0.001 and all card peaks",
 "rounding effects depend on the values; a bound for all values",
 [DP+"xldnew.py:xldnew"])
p("A load file whose peak is the card's peak is used as written",
 "If the largest load of the file is the peak load of the card, the loads used in the simulation are the loads of the file.",
 "all load files and card peaks",
 "the effect appears for some values only",
 [DP+"xldnew.py:xldnew",MC+"hour.py:hour"])
p("Rounding changes a recorded margin by at most 1 MW",
 "For given capacities and load file the whole-MW margin of an area in a forecast tier, formed in binary64, differs from the exact one by at most 1 MW, and not at all unless the exact margin is within 2^-28 MW of a whole number other than 0.",
 "all capacities and peaks up to a million MW, loads that are not negative, forecast factors up to 2",
 "an error bound for all values",
 [MC+"hour.py:hour",MC+"findld.py:findld",DP+"xldnew.py:xldnew"])
p("The convergence test is sound in floating point",
 "The convergence test never takes the root of a negative number, stops the run when the standard error is clearly below the threshold, and does not stop it when the standard error is clearly above.",
 "all sequences of annual values of any length",
 "cancellation in the variance depends on the whole sequence of annual values",
 [MC+"cvchk.py:cvchk",MC+"year.py:year"])
p("The simulated calendar is free of rounding",
 "With a horizon of whole hours up to 2^50 the main loop in binary64 arithmetic processes the same events at the same times and ends in the same way and state as in exact arithmetic; the number of each year is found correctly.",
 "all horizons, both sampling modes, any handlers, any number of steps",
 "accumulated rounding over runs of any length",
 [MC+"contrl.py:contrl",MC+"hour.py:hour",MC+"week.py:week",MC+"quartr.py:quartr",MC+"year.py:year"])
p("Rounding from the random draw to the recorded margin",
 "In every run the margin of an area formed in binary64 - from the random numbers, outage rates, deratings, ratings and loads - differs from the one of exact arithmetic by at most 1 MW, and not at all unless the exact margin is within 2^-16 MW of a whole number other than 0.",
 "all histories of draws, up to 8192 units of up to 8192 MW, rates with nine decimals, all load files and peaks up to a million MW",
 "errors of a chain of operations for all inputs and histories",
 [MC+"gstate.py:gstate",MC+"sumcap.py:sumcap",MC+"findld.py:findld",MC+"hour.py:hour",DP+"datax.py:datax",DP+"xldnew.py:xldnew"])
p("The snapshot on disk is the last one due",
 "At every moment between two events of a run the snapshot file holds the state of the run right after the end of the last year that is a multiple of the chosen interval, or the last year of the horizon; before the first such year there is no snapshot. With a positive interval an interruption between events costs less than one interval of simulated years.",
 "all inputs, all histories, every point of a run between events",
 "statement about every crash point of every run",
 [MC+"year.py:year",MC+"intm.py:intm",DP+"datax.py:datax"])
p("A crash never costs the whole run, and a finished run is on disk",
 "Once a snapshot was written, at every instant (also while the next one is being written) the file yields a snapshot of the run or an error but never wrong data, and a usable snapshot exists; when a run has ended the file holds its final state.",
 "all crash points during a write, all endings of a run",
 "statement about every instant of a write and every run",
 [MC+"intm.py:intm",MC+"rstart.py:rstart",MC+"year.py:year"])
p("The books of every hour balance in every area",
  "At every draw of every run the recorded shortages are backed by line flows within the ratings of the states drawn and within the areas' flow limits, under which in every area the capacity available according to the cards plus the shortage equals the load according to the cards plus the net export.",
  "all accepted inputs, random streams, hours, forecast tiers",
  "existence of feasible flows at every draw of every run; a test sees a few hours of one input",
  [MC+"hour.py:hour", MC+"transm.py:transm", MC+"tm2.py:tm2", MC+"lstate.py:lstate", MC+"sumcap.py:sumcap", DP+"readInputB.py:readInputB"])
p("Over the generator's period every unit and line is in each state as often as its card says",
  "In any stretch of 8388608 successive draws of a run (the full period of the generator) each unit is at full capacity, derated and out, and each line in each of its six states, as often as the probabilities on its card say, up to 3 draws; the shares of its capacity a unit delivers add up to what the card says on average, up to 3/2 draws.",
  "all outage rates, all units and lines, all stretches of a full period in all runs",
  "a frequency over eight million draws of every stream, for all rates",
  [MC+"gstate.py:gstate",MC+"lstate.py:lstate",MC+"seeder.py:seeder",MC+"hour.py:hour",DP+"datax.py:datax"])
p("The annual figures are those of the year's draws",
  "The energy not served and the loss-of-load hours that the program finds at each year end for the pool, per forecast tier, are the sums over the year's draws of what the pool lacks at that draw according to the cards (load with forecast error less the available capacity, by the unit's own random stream, season and maintenance), up to the dropping of fractions of a MW; a year with loss of load in every hour shows 8760 hours.",
  "all accepted inputs, all years of all runs, all forecast tiers",
  "sums over 8760 draws of every year of every run, for all inputs",
  [MC+"hour.py:hour",MC+"year.py:year",MC+"gstate.py:gstate",MC+"sumcap.py:sumcap",DP+"datax.py:datax",DP+"dataf1.py:dataf1",DP+"xldnew.py:xldnew"])
p("A better system never looks worse",
  "If a second study has lower peaks, larger or more reliable units, less maintenance or additional units at the end of the list, and otherwise the same input, then in every year and forecast tier the pool's energy not served and loss-of-load hours are not larger than in the first (up to the rounding to whole MW per area).",
  "all pairs of accepted inputs, all years of all runs",
  "a statement about pairs of runs of all lengths on all inputs",
  [MC+"hour.py:hour",MC+"year.py:year",MC+"gstate.py:gstate",MC+"seeder.py:seeder",DP+"datax.py:datax"])
p("Adding a unit leaves the random history of the others alone",
  "When a unit is appended to the list of units, every other unit and every line gets the same random numbers as before at every draw, so that two studies differ only by what was changed (common random numbers).",
  "all pairs of accepted inputs, all draws of all runs",
  "statement about the streams of pairs of runs of unbounded length",
  [MC+"seeder.py:seeder",MC+"gstate.py:gstate",MC+"lstate.py:lstate",DP+"datax.py:datax"])
p("The running count of shortages per area is the history's",
  "The per-area count of shortages that the program keeps and saves with every snapshot is, at every moment of every run, the number of loss-of-load hours booked for the area at all draws of the run so far, in all years and all forecast tiers together; a restart continues with it.",
  "all inputs, all histories, every point of a run between events",
  "an accumulated count over runs of any length",
  [MC+"hrstat.py:hrstat",MC+"hour.py:hour",MC+"year.py:year",MC+"intm.py:intm",MC+"rstart.py:rstart"])
p("An ample network never decides",
  "If every line in every state and every area limit can carry the highest load of the pool, and in every hour some area needs help, then the run ends regularly, no draw needs a re-dispatch, and the pool's annual energy not served and loss-of-load hours are those of the pooled system: two studies that differ only in (ample) lines, admittances and area limits report the same up to the rounding to whole MW.",
  "all accepted inputs with a connected ample network, all topologies and admittances, all runs, years and forecast tiers",
  "needs a bound on the flow over every line of every network in every sampled state, and statements about pairs of whole runs",
  [MC+"tm2.py:tm2",MC+"transm.py:transm",MC+"flo.py:flo",MC+"assign.py:assign",MC+"hour.py:hour",MC+"year.py:year",DP+"datax.py:datax"])
p("The sharing rule decides who bears a shortage",
  "When the network is no obstacle, what the pool as a whole lacks at a draw is shared out among the areas exactly and by the rule of the input: without loss sharing in proportion to what each area lacks itself (so never more than that, and nothing for areas that lack nothing), with loss sharing in proportion to the areas' loads; what the areas' records grow by is this share.",
  "all accepted inputs with a sound network, all draws of all runs at which no limit binds, all forecast tiers",
  "an equation for every area at every draw of every run, for all capacities and loads",
  [MC+"assign.py:assign",MC+"transm.py:transm",MC+"hour.py:hour",MC+"hrstat.py:hrstat"])
p("The annual figures of every area are those of its share",
  "When no limit binds in a run, the energy not served and the loss-of-load hours in the books of an area at each year end, per forecast tier, are in whole MWh exactly the sums over the year's draws of what the area bears according to the cards, the random streams and the sharing rule; without loss sharing, being interconnected never costs an area anything.",
  "all accepted inputs with a sound network, all runs in which no limit binds, all years, areas and forecast tiers",
  "exact sums over 8760 draws of every year of every run, for all inputs",
  [MC+"hour.py:hour",MC+"year.py:year",MC+"hrstat.py:hrstat",MC+"assign.py:assign",MC+"transm.py:transm",DP+"datax.py:datax"])
p("A network that never binds has no influence at all",
  "Two studies of the same system that differ only in the network - number of lines, end areas, states, admittances, ratings, outage rates, flow limits of the areas - and in neither of which a limit ever binds, process the same events, use the same random numbers for the units, keep exactly the same counters, histograms and annual tables, stop after the same year for the same reason and print the same report.",
  "all pairs of accepted inputs with sound networks that differ only in the network, all runs in which no limit binds, every point of the runs",
  "an equality between two whole runs, for all networks and all histories",
  [MC+"hour.py:hour",MC+"transm.py:transm",MC+"year.py:year",MC+"contrl.py:contrl",MC+"seeder.py:seeder",DP+"datax.py:datax"])
p("The printed report follows from the input files",
  "When no limit binds in a run, every figure of the final report is determined by the input cards, the published random streams and the sharing rule: for every area the mean over the simulated years, weighted over the forecast tiers, of the loss-of-load days at the daily peak, the loss-of-load hours and the energy not served, with their standard errors; the same for the pool; and the distribution of the annual values over the classes.",
  "all accepted inputs with a sound network, all runs that come to their end and in which no limit binds, all areas, classes and numbers of years",
  "an equation between every printed figure and sums over all draws of all years, for all inputs",
  [MC+"hour.py:hour",MC+"hrstat.py:hrstat",MC+"pkstat.py:pkstat",MC+"year.py:year",MC+"report.py:report",MC+"transm.py:transm",DP+"datax.py:datax"])
p("A better system is worse for nobody",
  "Without loss sharing and with no limit binding: raise capacities, lower outage rates or deratings, drop planned outages, add units at the end of the list or lower peaks in some areas, leaving everything else as it was, and no area and not the pool shows more loss-of-load hours or more energy not served in any year and forecast tier, nor (with the same peaks) more loss-of-load days, and no line of the final report shows a higher mean after the same number of years.",
  "all pairs of accepted inputs with sound networks of which the second is at least as good area by area, all runs in which no limit binds, all years, areas and tiers",
  "a comparison of every figure of two whole runs, for all pairs of inputs",
  [MC+"hour.py:hour",MC+"hrstat.py:hrstat",MC+"pkstat.py:pkstat",MC+"year.py:year",MC+"report.py:report",MC+"assign.py:assign",MC+"transm.py:transm",DP+"datax.py:datax"])
p("The page shows the figures",
  "The text that the final report appends to output.txt shows what was computed, line by line: every row of the table (areas numbered from 1, tiers from 1 or AV, then the columns in the order of the titles), every area and the pool in the summary by name with the reserve, the means and the standard errors, and every class of every distribution, each on a line of its own, with each figure rounded to its number of decimals and never cut; words that are read back differ from the figure by at most half a unit of the last decimal.",
  "all reports, i.e. all values of all counters, all numbers of areas, tiers and years, both modes, all names of areas without line ends",
  "every number of any size must fit its column without running into the next one, for all values",
  [MC+"report.py:report",MC+"narpMain.py:narpMain"])
p("The annual tables can be read like the final report",
  "The annual table that is appended to output.txt shows every row of the areas and of the pool on a line of its own, with the areas and tiers numbered as in the final report and in the input.",
  "all annual tables, i.e. all values of all counters, all numbers of areas and tiers, both modes",
  "an equation between the text and the rows for all values; reading single outputs shows single outputs",
  [MC+"year.py:year",MC+"report.py:report"])
p("Double precision does not spoil the printed averages",
  "The loss-of-load hours, days, energies and mean shortages that the final report prints as averages over the forecast tiers and the years are right in spite of the rounding of every single operation, in whatever order the library adds the tiers up: read back, a printed mean of Y years is off from the true mean by at most half a unit of its last digit and a fraction (Y + 7) / 2^52 of itself; for hours a year and up to a million years by at most 0.000502 in all.",
  "all annual counts in all tiers, all numbers of years up to 2^49, all orders of the additions, with and without fused operations",
  "a bound on accumulated rounding errors, for all values, lengths and orders of summation",
  [MC+"year.py:year",MC+"report.py:report"])
p("Double precision does not spoil the printed standard errors",
  "The standard errors in the summary of the final report are numbers, and right to the printed digits as long as the squares of the annual values are not near the limits of double precision.",
  "all annual counts, all numbers of years, with and without forecast tiers",
  "the number under the root is a difference of rounded numbers; whether it can become negative depends on all roundings before",
  [MC+"year.py:year",MC+"report.py:report"])
p("The forecast tiers of an hour are evaluated independently of each other",
  "What an hour records in a forecast tier depends only on the draws, the network and the load of that tier: it is what the same hour would record if the tier were evaluated by itself, and not on what was computed for the tiers before it.",
  "all hours, all draws, all networks, all forecast tiers",
  "the network arrays are carried from tier to tier; whether a later tier sees what an earlier one left depends on all combinations of draws, limits and tiers",
  [MC+"hour.py:hour",MC+"transm.py:transm",MC+"tm1.py:tm1",MC+"tm2.py:tm2"])
p("What a run leaves in output.txt",
  "Whatever output.txt holds when the event loop starts stays in it unchanged, in front. When the run ends, behind it are exactly these lines: if annual tables are asked for, one page for every simulated year, in the order of the years, headed by the number of the year and showing the table of that year; then the final report, once, whose tables are numbered after those of the years and which names the number of simulated years. While the run goes on there are only the pages of the years that have ended. Writing the file never stops a run.",
  "all histories of the program with a horizon of whole years, all earlier contents of the file, all numbers of years until the end, both modes, with and without annual tables",
  "the file is opened again by every yearly event and by the report; that no page is missing, doubled, out of order or mixed with another must hold for every number of years and every way the run ends",
  [MC+"year.py:year",MC+"report.py:report",MC+"contrl.py:contrl"])
p("The annual pages follow from the input files",
  "When annual tables are asked for, the page of year y in output.txt has for every area and forecast tier, for the averages over the tiers, and for the pool the days and hours with loss of load and the energy not served of the draws of year y and of no other year: what the unit outages drawn from the random streams, the capacities, loads and planned outages on the cards and the sharing rule give, draw by draw.",
  "all studies in which no line or area limit binds, all years of all runs, all areas and tiers, both modes",
  "a chain from the input cards over every draw of every year to the digits on the page; a test compares one page of one study",
  [MC+"year.py:year",MC+"hour.py:hour",MC+"narpMain.py:narpMain"])
p("The printed maintenance schedule",
  "If the maintenance report is wanted, output.txt gets one page for each area that has units, in the order of the areas, with consecutive table numbers, without changing what was in the file: the weekly peak loads of the area, a table with one row for each unit that has a planned outage (marking the weeks of the outage), and the weekly peaks increased by the capacity on maintenance in that week. If it is not wanted, nothing is written.",
  "every system, every planned maintenance on the unit cards, every content of output.txt, every area and week",
  "the schedule and the weekly peaks are arbitrary; a test prints one system",
  [DP+"pmsc.py: pmsc", DP+"smaint.py: smaint"])
p("The available capacity of an area is right on average",
  "Over a full period of the random number generator (8388608 draws in a row, starting anywhere) the capacity that the draws make available in an area is on average what the cards of its units promise: the sum of rating x (1 - full outage rate - derating rate x derating), up to 3/2 of the installed capacity divided by the number of draws.",
  "all accepted studies, all areas (without or with two or more units) whose units have no planned outages and the same rating in all seasons, all stretches of a full period in all runs, both modes",
  "a statement about eight million draws of a run of a thousand years, for all outage rates",
  [MC+"gstate.py:gstate",MC+"hour.py:hour",MC+"seeder.py:seeder",DP+"datax.py:datax"])

with open("/verif/properties.jsonl","w") as f:
    for x in P: f.write(json.dumps(x)+"\n")
print(len(P))
